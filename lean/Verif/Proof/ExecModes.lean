import Verif.Proof.ExecGoes
import Verif.Spec.ExecDiff

/-!
# What format prints with --diff and with --lint
-/

namespace Verif.Exec

open Verif Str

theorem formatFiles_adds {h : Host} {srt : SortSlice} {flags : FormatFlags} {m : Meta} {d : Disk}
    {added : File.ProtoFile → Str} {good : File.ProtoFile → Bool} (fs : List File.ProtoFile)
    (hs : ∀ f ∈ fs, ¬Skips h m f → ∀ w : World, w.disk = d →
      formatFile h srt flags m f w = ({ w with out := w.out ++ added f }, .ok (good f)))
    (s : Bool) (w : World) (hw : w.disk = d) :
    formatFiles h srt flags m fs s w =
      ({ w with out := w.out ++ (fs.filter fun f => decide (¬Skips h m f)).flatMap added },
        .ok (s && (fs.filter fun f => decide (¬Skips h m f)).all good)) := by
  induction fs generalizing s w with
  | nil => simp [formatFiles, Run.pure]
  | cons f fs ih =>
    unfold formatFiles
    by_cases hk : Skips h m f
    · have e1 : formatFile h srt flags m f w = (w, .ok true) := by
        unfold formatFile
        rw [if_pos hk]
        rfl
      rw [bind_of_ok e1, List.filter_cons_of_neg (by simpa using hk),
        ih (fun k hm => hs k (List.mem_cons_of_mem _ hm)) (s && true) w hw]
      simp
    · rw [bind_of_ok (hs f (List.mem_cons_self ..) hk w hw),
        ih (fun k hm => hs k (List.mem_cons_of_mem _ hm)) (s && good f) { w with out := w.out ++ added f } hw,
        List.filter_cons, if_pos (decide_eq_true hk), List.flatMap_cons, List.all_cons]
      simp only [List.append_assoc, Bool.and_assoc]

theorem formatFile_diff {h : Host} (hp : Prints h) (srt : SortSlice) (flags : FormatFlags)
    (ho : flags.overwrite = false) (hl : flags.lintMode = false) (hf : flags.diffMode = true) (m : Meta)
    (f : File.ProtoFile) (w : World) (hk : ¬Skips h m f) {c t s : Str} (hd : w.disk f.path = some c)
    (hF : Formats h srt flags.fix m f.path c t) (hs : c ≠ t → h.diff c t f.displayPath = .ok s) :
    formatFile h srt flags m f w =
      ({ w with out := w.out ++ if c = t then [] else s }, .ok (decide (c = t))) := by
  unfold formatFile
  rw [if_neg hk]
  have hr : readFile h f.path w = (w, .ok c) := by unfold readFile; rw [hd]
  rw [bind_of_ok hr, transform_eq.2 hF,
    bind_of_ok (show Run.lift (.ok (t, [])) w = (w, .ok (t, [])) from rfl)]
  dsimp only
  rw [if_neg (by simp), ho, hl, hf]
  by_cases e : c = t
  · rw [if_neg (Decidable.not_not.2 e)]
    simp [e, Run.pure]
  · rw [if_pos e]
    simp only [Bool.false_eq_true, if_false, if_true]
    rw [hs e, bind_of_ok (show Run.lift (.ok s) w = (w, .ok s) from rfl),
      bind_of_ok (write_of_prints hp s w), if_neg e, decide_eq_false e]
    rfl

theorem formatFile_lint {h : Host} (hp : Prints h) (hc : CanPrint h) (srt : SortSlice) (flags : FormatFlags)
    (ho : flags.overwrite = false) (hl : flags.lintMode = true) (m : Meta)
    (f : File.ProtoFile) (w : World) (hk : ¬Skips h m f) {c t : Str} (hd : w.disk f.path = some c)
    (hF : Formats h srt flags.fix m f.path c t) :
    formatFile h srt flags m f w =
      ({ w with out := w.out ++ if c = t then [] else printed h m [formatDiff f] },
        .ok (decide (c = t))) := by
  unfold formatFile
  rw [if_neg hk]
  have hr : readFile h f.path w = (w, .ok c) := by unfold readFile; rw [hd]
  rw [bind_of_ok hr, transform_eq.2 hF,
    bind_of_ok (show Run.lift (.ok (t, [])) w = (w, .ok (t, [])) from rfl)]
  dsimp only
  rw [if_neg (by simp), ho, hl]
  by_cases e : c = t
  · rw [if_neg (Decidable.not_not.2 e)]
    simp [e, Run.pure]
  · rw [if_pos e]
    simp only [Bool.false_eq_true, if_false, if_true]
    rw [bind_of_ok (printFailures_ok hp hc m _ w), if_neg e, decide_eq_false e]
    rfl

theorem printed_one {h : Host} {m : Meta} {f : Text.Failure} (hs : Shown h m f) :
    printed h m [f] = lineOf h f := by
  have : Text.sortFailures [f] = [f] := rfl
  unfold printed
  rw [this]
  simp [hs]

end Verif.Exec
