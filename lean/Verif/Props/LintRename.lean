import Verif.Props.LintRun
import Verif.Proof.RenameRun

/-!
# C26, C82: the names of files in lint runs

`lint` names files as they were given, `lint --generate-ignores` by their absolute paths.
-/

namespace Verif.Props

open Verif Proto Lint Spec

/-- C82: naming the files by absolute paths or as they were given makes no difference but for
the names. If the run with the one kind of names succeeds, so does the run with the other, and
the same rules complain about the same places of the same files, equally often. -/
theorem C82_names (env : Env) (host : Host) (ps : File.ProtoSet) (a b : Bool)
    (hs : Sound host ps a) (hs' : Sound host ps b) (hc : ParsesByContent host)
    (hd : Displayed host ps) (ignores : GoMap Str (List Str)) (fs : List Text.Failure)
    (h : run env host (ignoring ignores ps) a = some (.ok fs)) :
    ∃ gs, run env host (ignoring ignores ps) b = some (.ok gs) ∧
      ∃ gs', gs'.Perm gs ∧ Pointwise (SamePlace ps a b) fs gs' :=
  run_rename hs hs' hc hd h

/-- C82, every rule on every list of files: if the files get names that differ only in their
directories, the rule complains about the same places. -/
theorem C82_rule (env : Env) (l : Linter) (hl : l ∈ allLinters env) (ρ : Str → Str)
    (hempty : ρ [] = []) (hnonempty : ∀ n, n ≠ [] → ρ n ≠ [])
    (hbase : ∀ n, Path.base (ρ n) = Path.base n) (dirPath : Str) (ds : List FileDescriptor)
    (fs : List Text.Failure) (h : l.check dirPath ds = some (.ok fs)) :
    ∃ gs, l.check dirPath (ds.map fun d =>
        { d with filename := ρ d.filename, elements := renameAll ρ d.elements }) = some (.ok gs) ∧
      ∃ gs', gs'.Perm gs ∧ Pointwise (fun f g => g.lintID = f.lintID ∧ g.line = f.line ∧
        g.column = f.column ∧ g.filename = ρ f.filename) fs gs' := by
  have := labels_all ⟨hempty, hnonempty, hbase⟩ env l hl dirPath ds
  rw [h] at this
  generalize hr : l.check dirPath (ds.map (·.rename ρ)) = r at this
  cases this with
  | ok h' =>
    obtain ⟨gs', h1, h2⟩ := h'
    exact ⟨_, hr, gs', h1, h2⟩

/-- C26: if `lint` without ignores succeeds then `lint --generate-ignores` succeeds, prints
nothing exactly if `lint` reports nothing, and under a configuration with the printed ignores
`lint` reports nothing. -/
theorem C26_generated_ignores (env : Env) (host : Host) (ps : File.ProtoSet)
    (hs : Sound host ps false) (hs' : Sound host ps true) (hc : ParsesByContent host)
    (hd : Displayed host ps) (gs : List Text.Failure)
    (hg : run env host (ignoring [] ps) false = some (.ok gs)) :
    ∃ r, generateIgnores env host ps = some (.ok r) ∧
      (r = none ↔ gs = []) ∧
      ∀ e, r = some e → ∀ absolutePaths,
        run env host (ignoring (Settings.ignoresOf e.ignores ps.config.dirPath) ps) absolutePaths =
          some (.ok []) := by
  obtain ⟨fs, hf, fs', hp, hpw⟩ := run_rename hs hs' hc hd hg
  have hnil : fs = [] ↔ gs = [] := by
    constructor
    · intro h
      rw [h] at hp
      rw [hp.eq_nil] at hpw
      cases hpw
      rfl
    · intro h
      rw [h] at hpw
      cases hpw
      exact List.nil_perm.1 hp
  obtain ⟨r, h1, h2, h3⟩ := C26_absolute env host ps hs' (fun p hp f hf =>
    hd.absolute f (List.mem_flatMap.2 ⟨p, hp, hf⟩)) fs hf
  refine ⟨r, h1, h2.trans hnil, fun e he absolutePaths => ?_⟩
  cases absolutePaths with
  | true => exact h3 e he
  | false =>
    obtain ⟨xs, hx, xs', hxp, hxw⟩ := run_rename hs' hs hc hd (h3 e he)
    cases hxw
    rw [hx, List.nil_perm.1 hxp]

/-! ## These theorems are about something -/

theorem twoFiles_parses : ParsesByContent twoFilesHost := by
  intro path filename elements data h ρ
  cases h
  rfl

theorem twoFiles_displayed : Displayed twoFilesHost twoFiles := by
  have hall : allFiles twoFiles = [⟨s%"/r/a.proto", s%"a.proto"⟩, ⟨s%"/r/b.proto", s%"b.proto"⟩] := rfl
  refine ⟨?_, ?_, ?_, ?_⟩ <;> rw [hall] <;> simp only [List.forall_mem_cons] <;>
    refine ⟨?_, ?_, ?_⟩
  all_goals first
    | rfl
    | exact fun _ h => nomatch h
    | decide
    | exact ⟨by decide, by decide, fun _ h => nomatch h⟩

/-- Both rules complain about both files under the names as given. -/
example : reported [] false = some (some
    [(s%"FILE_OPTIONS_REQUIRE_GO_PACKAGE", s%"a.proto"),
     (s%"PACKAGES_SAME_IN_DIR", s%"a.proto"),
     (s%"FILE_OPTIONS_REQUIRE_GO_PACKAGE", s%"b.proto"),
     (s%"PACKAGES_SAME_IN_DIR", s%"b.proto")]) := by decide +kernel

/-- The hypotheses of C26 and C82 hold of these files. -/
example : Sound twoFilesHost twoFiles false ∧ Sound twoFilesHost twoFiles true ∧
    ParsesByContent twoFilesHost ∧ Displayed twoFilesHost twoFiles :=
  ⟨twoFiles_sound _, twoFiles_sound _, twoFiles_parses, twoFiles_displayed⟩

/-- A change of names as in C82. -/
example : ∃ ρ : Str → Str, ρ [] = [] ∧ (∀ n, n ≠ [] → ρ n ≠ []) ∧
    (∀ n, Path.base (ρ n) = Path.base n) ∧ ρ s%"a.proto" = s%"/r/a.proto" := by
  refine ⟨fun n => if n = s%"a.proto" then s%"/r/a.proto" else n, by decide, fun n hn => ?_,
    fun n => ?_, by decide⟩
  · dsimp only
    split
    · exact fun h => nomatch h
    · exact hn
  · dsimp only
    split
    · rename_i h
      rw [h]
      decide
    · rfl

end Verif.Props
