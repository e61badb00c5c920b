import Verif.Proof.Displayed
import Verif.Props.LintRename
import Verif.Props.ExecFiles
import Verif.Props.ExecLint
import Verif.Spec.ExecNames
import Verif.Props.ExecMoreSample

/-!
# C26, C82: the files that discovery finds

The hypotheses of C25, C26 and C82 about the names and places of files hold of what commands find.
-/

namespace Verif.Props

open Verif Str Spec Exec Path Settings File

/-- C82: whatever files a command finds, the name under which it shows a file leads from the working
directory to that file and no other, the file has its own base name, it is a proto file, and it
lies below the directory of the configuration. -/
theorem C82_discovered (h : Exec.Host) (c : File.Provider) (o : Order) (hd : Discovers h c o)
    (args : List Str) (m : Meta) (hm : Finds h args m) (hh : RunsHere h c m.protoSet)
    (hparse : ParserOK h) (disk : Disk) :
    ParsesByContent (lintHost h disk) ∧ Displayed (lintHost h disk) m.protoSet ∧
      ∀ absolutePaths, Sound (lintHost h disk) m.protoSet absolutePaths := by
  obtain ⟨d, hg, hne, _⟩ := hd.get hm
  have hf := discovered hd.wd hd.workDirPath hne hd.tree hd.excludes hg hh.workDirPath hh.files
  have habs : ∀ p, (lintHost h disk).abs p = .ok (absClean c.wd p) := fun p => by
    show Except.ok (absClean h.wd p) = _
    rw [hh.wd]
  refine ⟨?_, discovered_displayed hd.wd (fun f hx => ⟨(hf f hx).1, (hf f hx).2.1⟩) hh.files habs,
    fun a => ⟨?_, discovered_files hd.wd hf hh.files habs a⟩⟩
  · intro path filename elements data hp ρ
    unfold lintHost at hp ⊢
    dsimp only at hp ⊢
    cases hx : disk path with
    | none => rw [hx] at hp; cases hp
    | some data' =>
      rw [hx] at hp
      dsimp only at hp ⊢
      cases hy : h.parse filename data' with
      | error e => rw [hy] at hp; cases hp
      | ok es =>
        rw [hy] at hp
        injection hp with hp
        injection hp with h1 h2
        subst h1 h2
        rw [hparse.names _ _ _ hy ρ]
  · intro path filename elements data hp
    unfold lintHost at hp
    dsimp only at hp
    cases hx : disk path with
    | none => rw [hx] at hp; cases hp
    | some data' =>
      rw [hx] at hp
      dsimp only at hp
      cases hy : h.parse filename data' with
      | error e => rw [hy] at hp; cases hp
      | ok es =>
        rw [hy] at hp
        injection hp with hp
        injection hp with h1 h2
        subst h1 h2
        exact hparse.tree _ _ _ hy

/-- C26, for the commands: suppose that `lint` would find these failures without ignores in the
configuration. `lint --generate-ignores` changes no file and succeeds; it prints nothing if there
are no failures, and otherwise the YAML form of a configuration. Any `lint` of the same files
with these ignores prints nothing and succeeds. -/
theorem C26_command (h : Exec.Host) (c : File.Provider) (o : Order) (hd : Discovers h c o)
    (args : List Str) (m : Meta) (hm : Finds h args m) (hh : RunsHere h c m.protoSet)
    (hparse : ParserOK h) (hp : Prints h) (hc : CanPrint h) (env : Lint.Env) (srt : SortSlice)
    (w : World) (hcomp : Compiles h {} m w.disk)
    (hyaml : ∀ e, ∃ data, h.toYAML e = .ok data ∧ trimSpace data ≠ [])
    (gs : List Text.Failure)
    (hg : Lint.run env (lintHost h w.disk) (ignoring [] m.protoSet) false = some (.ok gs)) :
    (gs = [] ∧ lintCmd h env srt args { generateIgnores := true } w = (w, .ok ())) ∨
    gs ≠ [] ∧ ∃ e data, h.toYAML e = .ok data ∧
      lintCmd h env srt args { generateIgnores := true } w =
        ({ w with out := w.out ++ trimSpace data ++ s%"\n" }, .ok ()) ∧
      ∀ getForDir m' w',
        m'.protoSet = ignoring (ignoresOf e.ignores m.protoSet.config.dirPath) m.protoSet →
        Finds { h with getForDir := getForDir } args m' → w'.disk = w.disk →
        Compiles h {} m' w'.disk →
        lintCmd { h with getForDir := getForDir } env srt args {} w' = (w', .ok ()) := by
  obtain ⟨h1, h2, h3⟩ := C82_discovered h c o hd args m hm hh hparse w.disk
  obtain ⟨r, hr, hnil, hall⟩ := C26_generated_ignores env _ _ (h3 false) (h3 true) h1 h2 gs hg
  obtain ⟨hpn, hps⟩ := C26_printed h hp hc.1 env srt args m hm w hcomp r hr
  cases r with
  | none => exact .inl ⟨hnil.1 rfl, hpn rfl⟩
  | some e =>
    obtain ⟨data, hy, hne⟩ := hyaml e
    refine .inr ⟨fun x => (by cases hnil.2 x), e, data, hy, hps e data rfl hy hne, ?_⟩
    intro getForDir m' w' hm' hf hdisk hcomp'
    have hrun := hall e rfl false
    rw [← hm', ← hdisk] at hrun
    have := C62_lint { h with getForDir := getForDir } hp hc env srt args m' hf w' hcomp' [] hrun
    rw [this]
    have hpr : printed { h with getForDir := getForDir } m' [] = [] := rfl
    rw [hpr]
    simp

/-! ## These theorems are about something -/

/-- A working directory `/w/a` below the directory `/w` of the configuration, which leaves on one rule. -/
def besideProvider : File.Provider :=
  { exProvider with
    host := { exProvider.host with
      parseYAML := fun _ => .ok { excludes := [s%"b"], noDefault := true, add := [s%"SYNTAX_PROTO3"] } } }

/-- The host for these files; files say which syntax they are in. -/
def besideHost : Exec.Host :=
  { Exec.Sample.host with
    wd := s%"/w/a"
    workDirPath := s%"/w/a"
    stat := fun p => if p = s%".." then .ok .dir else .error s%"no such file"
    getForDir := getForDirOf besideProvider Order.id
    parse := fun p c => .ok [.syntax { position := ⟨p, 1, 1⟩, value := c }] }

theorem beside_below : ExcludesBelow (getExcludePrefixesForDir besideProvider.host) := by
  apply C21_excludes_below
  intro f e h x hx _
  have : e.excludes = [s%"b"] ∨ e.excludes = [] := by
    unfold getExternalConfig at h
    simp only [besideProvider, exProvider] at h
    by_cases hf : f = s%"/w/prototool.yaml"
    · subst hf
      injection h with h; subst h; exact Or.inl rfl
    · rw [if_neg hf] at h; cases h
  rcases this with e | e
  · rw [e] at hx
    rw [List.mem_singleton] at hx
    subst hx
    decide
  · rw [e] at hx; cases hx

theorem beside_discovers : Discovers besideHost besideProvider Order.id where
  getForDir := rfl
  wd := Sample.isAbsPath_iff.2 (by decide)
  workDirPath := by decide
  stat := fun k h => by simp [besideHost] at h
  tree := by
    intro p
    have hn : ∀ name : Str, name ∈ [s%"a", s%"b", s%"b.proto", s%"prototool.yaml", s%"x.proto", s%"x.txt",
        s%"y.proto", s%"z.proto"] → Component name := by
      unfold Component
      decide
    refine treeOK_dir (by decide) ?_
    simp only [List.forall_mem_cons]
    refine ⟨⟨hn _ (by decide), treeOK_dir (by decide) ?_⟩, ⟨hn _ (by decide), treeOK_dir (by decide) ?_⟩,
      ⟨hn _ (by decide), treeOK_file⟩, ⟨hn _ (by decide), treeOK_file⟩, fun _ h => nomatch h⟩
    · simp only [List.forall_mem_cons]
      exact ⟨⟨hn _ (by decide), treeOK_file⟩, ⟨hn _ (by decide), treeOK_file⟩,
        ⟨hn _ (by decide), treeOK_file⟩, fun _ h => nomatch h⟩
    · simp only [List.forall_mem_cons]
      exact ⟨⟨hn _ (by decide), treeOK_file⟩, fun _ h => nomatch h⟩
  excludes := fun _ => beside_below

/-- Two of the files are in proto2. -/
def besideWorld : World :=
  ⟨fun p => if p = s%"/w/a/x.proto" then some s%"proto3" else some s%"proto2", [], []⟩

/-- The hypotheses of C26 hold, and two failures are found, in the working directory and next to it. -/
example : ∃ m, Finds besideHost [s%".."] m ∧ RunsHere besideHost besideProvider m.protoSet ∧
    ParserOK besideHost ∧ Prints besideHost ∧ CanPrint besideHost ∧
    Compiles besideHost {} m besideWorld.disk ∧
    (∀ e, ∃ data, besideHost.toYAML e = .ok data ∧ trimSpace data ≠ []) ∧
    (Lint.run sampleEnv (lintHost besideHost besideWorld.disk) (ignoring [] m.protoSet) false).map
      (fun r => r.toOption.map (·.map fun f => (f.lintID, f.filename))) =
      some (some [(s%"SYNTAX_PROTO3", s%"../b.proto"), (s%"SYNTAX_PROTO3", s%"z.proto")]) := by
  obtain ⟨ps, hps, hfiles, hrun⟩ : ∃ ps, getForDirOf besideProvider Order.id s%"/w/a" s%".." = .ok ps ∧
      allFiles ps = [⟨s%"/w/a/x.proto", s%"x.proto"⟩, ⟨s%"/w/a/z.proto", s%"z.proto"⟩,
        ⟨s%"/w/b.proto", s%"../b.proto"⟩] ∧
      (Lint.run sampleEnv (lintHost besideHost besideWorld.disk) (ignoring [] ps) false).map
        (fun r => r.toOption.map (·.map fun f => (f.lintID, f.filename))) =
        some (some [(s%"SYNTAX_PROTO3", s%"../b.proto"), (s%"SYNTAX_PROTO3", s%"z.proto")]) :=
    ⟨_, rfl, rfl, by decide +kernel⟩
  refine ⟨{ protoSet := ps }, ⟨s%"..", .inl rfl, .inl ⟨rfl, hps, rfl⟩⟩, ⟨rfl, by decide, ?_⟩, ⟨?_, ?_⟩,
    fun _ _ => rfl, ⟨⟨_, rfl⟩, fun h => nomatch h⟩, ⟨_, rfl⟩, fun e => ⟨_, rfl, by decide⟩, hrun⟩
  · rw [hfiles]
    simp only [← Sample.isWithin_iff]
    decide
  · intro filename data elements h config
    cases h
    constructor <;> intro n hn <;> cases List.mem_singleton.1 hn
    · rfl
    · exact ⟨rfl, fun _ h => nomatch h⟩
  · intro filename data elements h ρ
    cases h
    rfl

end Verif.Props
