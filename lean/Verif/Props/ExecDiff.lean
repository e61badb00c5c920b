import Verif.Proof.ExecModes
import Verif.Props.Diff
import Verif.Props.Exec

/-!
# C83: format with --diff and with --lint
-/

namespace Verif.Props

open Verif Str Exec Spec

/-- The rest of a command that formats, given what it says about every file. -/
theorem formatCmd_adds {h : Host} (hp : Prints h) (he : ErrorFormatKnown h) {o : Order} {srt : SortSlice}
    {args : List Str} {flags : FormatFlags} (ha : flags.AtMostOne) {m : Meta} (hm : Finds h args m)
    {w : World} (hcomp : Compiles h {} m w.disk) {added : File.ProtoFile → Str}
    {good : File.ProtoFile → Bool}
    (hs : ∀ f, Concerns h m f → ¬ Skips h m f → ∀ w' : World, w'.disk = w.disk →
      formatFile h srt flags m f w' = ({ w' with out := w'.out ++ added f }, .ok (good f))) :
    ∃ files : List File.ProtoFile, (∀ f, f ∈ files ↔ Concerns h m f) ∧
      (Distinct m → (files.map fun f => f.path).Nodup) ∧
      formatCmd h o srt args flags w = ({ w with out := w.out ++ files.flatMap added },
        if files.all good then .ok () else .error (.exit 255 [])) := by
  obtain ⟨r, hcomp⟩ := hcomp
  refine ⟨(formatList o m).filter fun f => decide (¬Skips h m f), fun f => ?_, fun hd => ?_, ?_⟩
  · rw [List.mem_filter, ← mem_formatList (o := o)]
    exact and_congr_right fun _ => decide_eq_true_iff
  · exact List.Sublist.nodup (List.filter_sublist.map _) (nodup_formatList (o := o) hd)
  · rw [formatCmd_eq ha, bind_of_ok (getMeta_ok.2 ⟨rfl, hm⟩),
      bind_of_ok ((compile_ok (w' := w) hp).2 ⟨he, hcomp, rfl⟩)]
    show Run.bind (formatFiles h srt flags m (formatList o m) true) _ w = _
    rw [bind_of_ok (formatFiles_adds (d := w.disk) (formatList o m)
      (fun f hl hk => hs f (mem_formatList.1 ⟨hl, hk⟩) hk) true w rfl), Bool.true_and]
    cases (((formatList o m).filter fun f => decide (¬Skips h m f)).all good) <;> rfl

/-- C83: `format --diff` prints for every file whose formatted text is another one what makes the
difference, and nothing else. It ends well if there is no such file, and with exit code 255 if
there is. Nothing is written. -/
theorem C83_diff (h : Host) (hp : Prints h) (he : ErrorFormatKnown h) (o : Order) (srt : SortSlice)
    (args : List Str) (flags : FormatFlags) (hf : flags.diffMode = true ∧ flags.AtMostOne) (m : Meta)
    (hm : Finds h args m) (w : World) (hcomp : Compiles h {} m w.disk) (text difference : File.ProtoFile → Str)
    (ht : ∀ f, Concerns h m f → ∃ content, w.disk f.path = some content ∧
      Formats h srt flags.fix m f.path content (text f) ∧
      (content ≠ text f → h.diff content (text f) f.displayPath = .ok (difference f))) :
    ∃ files : List File.ProtoFile,
      (∀ f, f ∈ files ↔ Concerns h m f ∧ w.disk f.path ≠ some (text f)) ∧
      (Distinct m → (files.map fun f => f.path).Nodup) ∧
      formatCmd h o srt args flags w = ({ w with out := w.out ++ files.flatMap difference },
        if files = [] then .ok () else .error (.exit 255 [])) := by
  have hmodes : flags.overwrite = false ∧ flags.lintMode = false := by
    obtain ⟨h1, h2, _, h4⟩ := hf
    revert h1 h2 h4
    cases flags.overwrite <;> cases flags.lintMode <;> simp_all
  obtain ⟨files, h1, h2, h3⟩ := formatCmd_adds hp he (o := o) (srt := srt) hf.2 hm hcomp
    (added := fun f => if w.disk f.path = some (text f) then [] else difference f)
    (good := fun f => decide (w.disk f.path = some (text f))) (by
      intro f hf' hk w' hw'
      obtain ⟨c, hd, hF, hs⟩ := ht f hf'
      rw [formatFile_diff hp srt flags hmodes.1 hmodes.2 hf.1 m f w' hk (by rw [hw', hd]) hF hs, hd]
      simp only [Option.some.injEq])
  refine ⟨files.filter fun f => decide (w.disk f.path ≠ some (text f)), ?_, ?_, ?_⟩
  · intro f
    rw [List.mem_filter, h1, decide_eq_true_iff]
  · exact fun hd => List.Sublist.nodup (List.filter_sublist.map _) (h2 hd)
  · rw [h3]
    refine Prod.ext ?_ ?_
    · have : ∀ l : List File.ProtoFile,
          (l.flatMap fun f => if w.disk f.path = some (text f) then [] else difference f) =
          (l.filter fun f => decide (w.disk f.path ≠ some (text f))).flatMap difference := by
        intro l
        induction l with
        | nil => rfl
        | cons f l ih =>
          rw [List.flatMap_cons, List.filter_cons, ih]
          by_cases e : w.disk f.path = some (text f) <;> simp [e]
      dsimp only
      rw [this]
    · dsimp only
      have : (files.all fun f => decide (w.disk f.path = some (text f))) = true ↔
          (files.filter fun f => decide (w.disk f.path ≠ some (text f))) = [] := by
        rw [List.all_eq_true, List.filter_eq_nil_iff]
        simp
      by_cases e : (files.filter fun f => decide (w.disk f.path ≠ some (text f))) = []
      · rw [if_pos e, if_pos (this.2 e)]
      · rw [if_neg e, if_neg (fun x => e (this.1 x))]

/-- C83: with the system's `diff`, these are the differences between the two texts, with the names
of the temporary files replaced by that of the file. -/
theorem C83_made_by_diff (h : Host) (s : Diff.System) (hs : FreshFiles s) (hw : WritesFiles s)
    (hd : DiffsBy h s) (before after name text : Str) (ht : h.diff before after name = .ok text) :
    ∃ out, DiffOf s before after out ∧ (out = [] ∧ text = [] ∨ Renamed name out text) := by
  obtain ⟨disk, e⟩ := hd before after name
  obtain ⟨f1, f2, hne, n1, n2, h1⟩ := C83_compares s hs hw before after name disk
  rcases hr : s.run [s%"diff", s%"-u", f1, f2] (withTemps disk f1 f2 before after) with ⟨out, err⟩
  obtain ⟨a, b, c, d⟩ := h1 out err hr
  refine ⟨out, ⟨_, f1, f2, hne, ?_, ?_, by rw [hr]⟩, ?_⟩
  · unfold withTemps
    rw [if_neg hne, if_pos rfl]
  · unfold withTemps
    rw [if_pos rfl]
  · rw [e] at ht
    by_cases ho : out = []
    · cases err with
      | none =>
        rw [a ho rfl] at ht
        cases ht
        exact .inl ⟨ho, rfl⟩
      | some x => rw [b x ho rfl] at ht; cases ht
    · by_cases h2 : out.count '\n' < 2
      · obtain ⟨x, hx⟩ := c ho h2
        rw [hx] at ht
        cases ht
      · obtain ⟨t, hx, hR⟩ := d (by omega)
        rw [hx] at ht
        cases ht
        exact .inr hR

/-- C83: `format --lint` reports every file whose formatted text is another one, and nothing else.
It ends well if there is no such file, and with exit code 255 if there is. Nothing is written. -/
theorem C83_lint (h : Host) (hp : Prints h) (hc : CanPrint h) (o : Order) (srt : SortSlice)
    (args : List Str) (flags : FormatFlags) (hf : flags.lintMode = true ∧ flags.AtMostOne) (m : Meta)
    (hm : Finds h args m) (hdisp : ∀ f, Concerns h m f → File.absClean h.wd f.displayPath = f.path)
    (w : World) (hcomp : Compiles h {} m w.disk) (text : File.ProtoFile → Str)
    (ht : ∀ f, Concerns h m f → ∃ content, w.disk f.path = some content ∧
      Formats h srt flags.fix m f.path content (text f)) :
    ∃ files : List File.ProtoFile,
      (∀ f, f ∈ files ↔ Concerns h m f ∧ w.disk f.path ≠ some (text f)) ∧
      (Distinct m → (files.map fun f => f.path).Nodup) ∧
      formatCmd h o srt args flags w =
        ({ w with out := w.out ++ files.flatMap fun f => lineOf h (formatDiff f) },
        if files = [] then .ok () else .error (.exit 255 [])) := by
  have hmodes : flags.overwrite = false := by
    obtain ⟨h1, _, h2, _⟩ := hf
    revert h1 h2
    cases flags.overwrite <;> cases flags.lintMode <;> simp_all
  obtain ⟨files, h1, h2, h3⟩ := formatCmd_adds hp hc.1 (o := o) (srt := srt) hf.2 hm hcomp
    (added := fun f => if w.disk f.path = some (text f) then [] else printed h m [formatDiff f])
    (good := fun f => decide (w.disk f.path = some (text f))) (by
      intro f hf' hk w' hw'
      obtain ⟨c, hd, hF⟩ := ht f hf'
      rw [formatFile_lint hp hc srt flags hmodes hf.1 m f w' hk (by rw [hw', hd]) hF, hd]
      simp only [Option.some.injEq])
  refine ⟨files.filter fun f => decide (w.disk f.path ≠ some (text f)), ?_, ?_, ?_⟩
  · intro f
    rw [List.mem_filter, h1, decide_eq_true_iff]
  · exact fun hd => List.Sublist.nodup (List.filter_sublist.map _) (h2 hd)
  · rw [h3]
    refine Prod.ext ?_ ?_
    · have : ∀ l : List File.ProtoFile, (∀ f ∈ l, Concerns h m f) →
          (l.flatMap fun f => if w.disk f.path = some (text f) then [] else printed h m [formatDiff f]) =
          (l.filter fun f => decide (w.disk f.path ≠ some (text f))).flatMap
            fun f => lineOf h (formatDiff f) := by
        intro l
        induction l with
        | nil => exact fun _ => rfl
        | cons f l ih =>
          intro hl
          rw [List.flatMap_cons, List.filter_cons, ih fun k hk => hl k (List.mem_cons_of_mem _ hk)]
          have hcf := hl f (List.mem_cons_self ..)
          have hsh : Shown h m (formatDiff f) := by
            rcases hcf.2 with hf' | hf'
            · exact .inl hf'
            · exact .inr (.inr (by
                show _ = File.absClean h.wd f.displayPath
                rw [hdisp f hcf, hf']))
          by_cases e : w.disk f.path = some (text f) <;> simp [e, printed_one hsh]
      dsimp only
      rw [this files fun f hf => (h1 f).1 hf]
    · dsimp only
      have : (files.all fun f => decide (w.disk f.path = some (text f))) = true ↔
          (files.filter fun f => decide (w.disk f.path ≠ some (text f))) = [] := by
        rw [List.all_eq_true, List.filter_eq_nil_iff]
        simp
      by_cases e : (files.filter fun f => decide (w.disk f.path ≠ some (text f))) = []
      · rw [if_pos e, if_pos (this.2 e)]
      · rw [if_neg e, if_neg (fun x => e (this.1 x))]

end Verif.Props
