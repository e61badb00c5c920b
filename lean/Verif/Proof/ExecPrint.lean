import Verif.Proof.Exec
import Verif.Props.Text

/-!
# Printing failures
-/

namespace Verif.Exec

open Verif Str Spec

theorem known_of_parse {s : Str} {fields : List Text.FailureField}
    (e : Text.parseColonSeparatedFailureFields s = some fields) : ∀ x ∈ fields, KnownField x := by
  unfold Text.parseColonSeparatedFailureFields at e
  split at e
  · cases e
    intro x hx
    simp only [Text.defaultFailureFields, List.mem_cons, List.not_mem_nil, or_false] at hx
    rcases hx with rfl | rfl | rfl | rfl <;> simp [KnownField]
  · revert e
    generalize splitChar ':' s = l
    induction l generalizing fields with
    | nil =>
      intro e
      cases e
      intro x hx
      cases hx
    | cons a l ih =>
      intro e
      rw [List.mapM_cons] at e
      cases ha : Text.parseFailureField a with
      | none => rw [ha] at e; cases e
      | some y =>
        rw [ha] at e
        cases hl : List.mapM Text.parseFailureField l with
        | none => rw [hl] at e; cases e
        | some ys =>
          rw [hl] at e
          cases e
          intro x hx
          rcases List.mem_cons.1 hx with rfl | hx
          · exact (Props.C17_parse_field_only x a ha).1
          · exact ih hl x hx

theorem shouldPrint_eq (h : Host) (m : Meta) (f : Text.Failure) :
    shouldPrint h (some m) f = decide (Shown h m f) := by
  unfold shouldPrint Shown
  by_cases h1 : m.singleFilename = []
  · simp [h1]
  · by_cases h2 : m.singleFilename = f.filename
    · simp [h2]
    · simp [h1, h2]

theorem failureLine_ok {h : Host} (hc : CanPrint h) {fields : List Text.FailureField}
    (hf : Text.parseColonSeparatedFailureFields h.errorFormat = some fields) (f : Text.Failure) :
    failureLine h fields f = .ok (lineOf h f) := by
  unfold failureLine lineOf
  by_cases hj : h.json = true
  · rw [if_pos hj, if_pos hj]
    obtain ⟨t, ht⟩ := hc.2 hj f
    rw [ht]
  · rw [if_neg hj, if_neg hj, hf]
    have := Props.C17_line_shape f fields (known_of_parse hf)
    have h2 : (Text.fprintln f fields).2 = true := by rw [this]
    rcases he : Text.fprintln f fields with ⟨t, b⟩
    rw [he] at h2
    cases h2
    show Except.ok t = Except.ok (Text.fprintln f fields).1
    rw [he]

theorem failureLines_ok {h : Host} (hc : CanPrint h) (m : Meta) {fields : List Text.FailureField}
    (hf : Text.parseColonSeparatedFailureFields h.errorFormat = some fields)
    (l : List Text.Failure) (out : Str) :
    failureLines h (some m) fields l out =
      (out ++ (l.filter fun f => decide (Shown h m f)).flatMap (lineOf h), none) := by
  induction l generalizing out with
  | nil => simp [failureLines]
  | cons f l ih =>
    unfold failureLines
    rw [shouldPrint_eq, List.filter_cons]
    by_cases hs : decide (Shown h m f) = true
    · rw [if_pos hs, if_pos hs, failureLine_ok hc hf, List.flatMap_cons]
      show failureLines h (some m) fields l (out ++ lineOf h f) = _
      rw [ih, List.append_assoc]
    · rw [if_neg hs, if_neg hs]
      exact ih out

/-- Printing failures writes their lines and goes on. -/
theorem printFailures_ok {h : Host} (hp : Prints h) (hc : CanPrint h) (m : Meta)
    (fs : List Text.Failure) (w : World) :
    printFailures h [] m fs w = ({ w with out := w.out ++ printed h m fs }, .ok ()) := by
  obtain ⟨fields, hf⟩ := hc.1
  unfold printFailures printFailuresFor
  simp only [if_true]
  rw [hf]
  dsimp only
  rw [failureLines_ok hc m hf]
  show write h _ w = _
  rw [write_of_prints hp]
  rfl

theorem printFailures_named_ok {h : Host} (hp : Prints h) (hc : CanPrint h) (m : Meta) (filename : Str)
    (hn : filename ≠ []) (fs : List Text.Failure) (w : World) :
    printFailures h filename m fs w =
      ({ w with out := w.out ++ printed h m (fs.map fun f => { f with filename := filename }) }, .ok ()) := by
  obtain ⟨fields, hf⟩ := hc.1
  unfold printFailures printFailuresFor
  simp only [hn, if_false]
  rw [hf]
  dsimp only
  rw [failureLines_ok hc m hf]
  show write h _ w = _
  rw [write_of_prints hp]
  rfl

theorem printFailures_goes {h : Host} (hp : Prints h) (hc : CanPrint h) (m : Meta) (filename : Str)
    (fs : List Text.Failure) (w : World) :
    ∃ out, printFailures h filename m fs w = ({ w with out := out }, .ok ()) := by
  by_cases hn : filename = []
  · subst hn
    exact ⟨_, printFailures_ok hp hc m fs w⟩
  · exact ⟨_, printFailures_named_ok hp hc m filename hn fs w⟩

end Verif.Exec
