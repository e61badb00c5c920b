import Verif.Proof.FormatOrder

/-!
# What `all` does after formatting
-/

namespace Verif.Exec

open Verif Str Spec File

/-- The run does not look at the list of files written. -/
def Blind {α : Type} (r : Run α) : Prop :=
  ∀ w ws, r { w with writes := ws } = ({ (r w).1 with writes := ws }, (r w).2)

theorem blind_pure {α : Type} (a : α) : Blind (Run.pure a) := fun _ _ => rfl

theorem blind_fail {α : Type} (e : RunErr) : Blind (Run.fail e : Run α) := fun _ _ => rfl

theorem blind_bind {α β : Type} {m : Run α} {f : α → Run β} (hm : Blind m) (hf : ∀ a, Blind (f a)) :
    Blind (Run.bind m f) := by
  intro w ws
  unfold Run.bind
  rw [hm]
  rcases m w with ⟨w1, a | e | _⟩
  · exact hf a w1 ws
  · rfl
  · rfl

theorem blind_lift {α : Type} (r : Except Err α) : Blind (Run.lift r) := by
  cases r
  · exact blind_fail _
  · exact blind_pure _

theorem blind_liftOption {α : Type} (r : Option (Except Err α)) : Blind (Run.liftOption r) := by
  cases r with
  | none => exact fun _ _ => rfl
  | some r => exact blind_lift r

theorem blind_write (h : Host) (t : Str) : Blind (write h t) := by
  intro w ws
  unfold write
  dsimp only
  rcases h.write w.out t with ⟨out, _ | e⟩ <;> rfl

theorem blind_printFailures (h : Host) (filename : Str) (m : Meta) (fs : List Text.Failure) :
    Blind (printFailures h filename m fs) := by
  unfold printFailures printFailuresFor
  dsimp only
  split
  · exact blind_fail _
  · split
    · exact blind_write h _
    · exact fun _ _ => rfl

theorem blind_compile (h : Host) (gen set : Bool) (m : Meta) : Blind (compile h gen set false m) := by
  intro w ws
  unfold compile doCompile
  simp only [Bool.false_eq_true, if_false]
  cases h.compile { doGen := gen, doFileDescriptorSet := set } w.disk m.protoSet with
  | error e => cases gen <;> rfl
  | ok r =>
    obtain ⟨fs, sets⟩ := r
    have hb : Blind (Run.bind (printFailures h [] m fs) fun _ =>
        if fs.length > 0 then exit255 else Run.pure sets) :=
      blind_bind (blind_printFailures h [] m fs) fun _ => by
        split
        · exact blind_fail _
        · exact blind_pure _
    cases gen with
    | false => exact hb w ws
    | true => exact hb { w with disk := h.generate w.disk m.protoSet } ws

theorem blind_lint (h : Host) (env : Lint.Env) (m : Meta) : Blind (lint h env m) := by
  intro w ws
  unfold lint
  exact blind_bind (blind_liftOption _) (fun fs => blind_bind (blind_printFailures _ _ _ _) fun _ => by
    split
    · exact blind_fail _
    · exact blind_pure _) w ws

/-- With `--overwrite`, a file that goes well prints nothing. -/
theorem formatFile_silent {h : Host} {srt : SortSlice} {flags : FormatFlags} (ho : flags.overwrite = true)
    {m : Meta} {f : ProtoFile} {w w' : World} (e : formatFile h srt flags m f w = (w', .ok true)) :
    w'.out = w.out := by
  unfold formatFile at e
  split at e
  · cases e; rfl
  obtain ⟨w1, input, h1, e'⟩ := bind_ok.1 e
  clear e
  have e1 : w1 = w := by
    unfold readFile at h1
    split at h1
    · cases h1; rfl
    · cases h1
  subst e1
  obtain ⟨w2, r, h2, e⟩ := bind_ok.1 e'
  clear e'
  have e2 : w2 = w1 := by
    cases ht : transform h srt (formatParams flags.fix m f.path) input with
    | error x => rw [ht] at h2; cases h2
    | ok x => rw [ht] at h2; cases h2; rfl
  subst e2
  split at e
  · obtain ⟨_, _, _, e⟩ := bind_ok.1 e
    cases e
  · split at e
    · obtain ⟨w3, _, h3, e⟩ := bind_ok.1 e
      cases e
      unfold writeFile at h3
      dsimp only at h3
      split at h3
      · cases h3; rfl
      · cases h3
    · rw [if_neg (by simp [ho])] at e
      cases e; rfl

theorem formatFiles_false {h : Host} {srt : SortSlice} {flags : FormatFlags} {m : Meta} :
    ∀ (fs : List ProtoFile) (w w' : World), formatFiles h srt flags m fs false w ≠ (w', .ok true) := by
  intro fs
  induction fs with
  | nil => intro w w' h; cases h
  | cons f fs ih =>
    intro w w' e
    obtain ⟨w1, b, _, e⟩ := bind_ok.1 e
    rw [Bool.false_and] at e
    exact ih _ _ e

theorem formatFiles_silent {h : Host} {srt : SortSlice} {flags : FormatFlags} (ho : flags.overwrite = true)
    {m : Meta} : ∀ (fs : List ProtoFile) (w w' : World), formatFiles h srt flags m fs true w = (w', .ok true) →
      w'.out = w.out := by
  intro fs
  induction fs with
  | nil => intro w w' e; cases e; rfl
  | cons f fs ih =>
    intro w w' e
    obtain ⟨w1, b, h1, e⟩ := bind_ok.1 e
    cases b with
    | false => exact absurd e (formatFiles_false fs w1 w')
    | true => rw [ih _ _ e, formatFile_silent ho h1]

end Verif.Exec
