import Verif.Proof.DiscoveryOrder
import Verif.Proof.ExecLint
import Verif.Props.LintRun

/-!
# Two runs of a command
-/

namespace Verif.Exec

open Verif Str Spec File

theorem runAlike_pure {α β : Type} {R : α → β → Prop} {a : α} {b : β} (h : R a b) :
    RunAlike R (Run.pure a) (Run.pure b) := fun _ => ⟨rfl, h⟩

theorem alike_bind {α β γ δ : Type} {R : α → β → Prop} {S : γ → δ → Prop} {m : Run α} {m' : Run β}
    {f : α → Run γ} {f' : β → Run δ} {w : World} (h : (m' w).1 = (m w).1 ∧ EndAlike R (m w).2 (m' w).2)
    (hf : ∀ a b w1, m w = (w1, .ok a) → R a b →
      (f' b w1).1 = (f a w1).1 ∧ EndAlike S (f a w1).2 (f' b w1).2) :
    (Run.bind m' f' w).1 = (Run.bind m f w).1 ∧ EndAlike S (Run.bind m f w).2 (Run.bind m' f' w).2 := by
  obtain ⟨h1, h2⟩ := h
  unfold Run.bind
  rcases hm : m w with ⟨w1, r⟩
  rcases hm' : m' w with ⟨w1', r'⟩
  rw [hm, hm'] at h1 h2
  dsimp only at h1 h2
  subst h1
  cases r with
  | ok a =>
    cases r' with
    | ok b => exact hf a b _ hm h2
    | error e => cases e <;> exact h2.elim
    | crash => exact h2.elim
  | error e =>
    cases r' with
    | ok b => cases e <;> exact h2.elim
    | error e' => cases e <;> cases e' <;> exact ⟨rfl, h2⟩
    | crash => cases e <;> exact ⟨rfl, h2⟩
  | crash =>
    cases r' with
    | ok b => exact h2.elim
    | error e' => cases e' <;> exact ⟨rfl, h2⟩
    | crash => exact ⟨rfl, h2⟩

theorem runAlike_bind {α β γ δ : Type} {R : α → β → Prop} {S : γ → δ → Prop} {m : Run α} {m' : Run β}
    {f : α → Run γ} {f' : β → Run δ} (h : RunAlike R m m') (hf : ∀ a b, R a b → RunAlike S (f a) (f' b)) :
    RunAlike S (Run.bind m f) (Run.bind m' f') := fun w =>
  alike_bind (h w) fun a b w1 _ hr => hf a b hr w1

theorem runAlike_mono {α β : Type} {R S : α → β → Prop} {m : Run α} {m' : Run β} (h : RunAlike R m m')
    (hi : ∀ a b, R a b → S a b) : RunAlike S m m' := by
  intro w
  obtain ⟨h1, h2⟩ := h w
  refine ⟨h1, ?_⟩
  revert h2
  cases (m w).2 with
  | ok a =>
    cases (m' w).2 with
    | ok b => exact hi a b
    | error e => cases e <;> exact id
    | crash => exact id
  | error e =>
    cases (m' w).2 with
    | ok b => cases e <;> exact id
    | error e' => cases e <;> cases e' <;> exact id
    | crash => cases e <;> exact id
  | crash =>
    cases (m' w).2 with
    | ok b => exact id
    | error e' => cases e' <;> exact id
    | crash => exact id

theorem runAlike_refl {α : Type} (m : Run α) : RunAlike (fun a b => b = a) m m := by
  intro w
  refine ⟨rfl, ?_⟩
  cases (m w).2 with
  | ok a => exact rfl
  | error e => cases e with
    | exit c t => exact ⟨rfl, rfl⟩
    | other e => exact trivial
  | crash => exact trivial

theorem sameRun_refl (m : Run Unit) : SameRun m m := runAlike_mono (runAlike_refl m) fun _ _ _ => trivial

theorem runAlike_fun {α β : Type} {R : α → β → Prop} {f : World → Run α} {f' : World → Run β}
    (h : ∀ w, RunAlike R (f w) (f' w)) : RunAlike R (fun w => f w w) (fun w => f' w w) := fun w => h w w

theorem runAlike_lift {α β : Type} {R : α → β → Prop} {r : Except Err α} {r' : Except Err β}
    (h : SameResult R r r') : RunAlike R (Run.lift r) (Run.lift r') := by
  intro w
  cases r <;> cases r' <;> exact ⟨rfl, h⟩

theorem runAlike_liftOption {α β : Type} {R : α → β → Prop} {r : Option (Except Err α)}
    {r' : Option (Except Err β)} (h1 : ∀ a, r = some (.ok a) → ∃ b, r' = some (.ok b) ∧ R a b)
    (h2 : ∀ b, r' = some (.ok b) → ∃ a, r = some (.ok a)) :
    RunAlike R (Run.liftOption r) (Run.liftOption r') := by
  intro w
  match r, r', h1, h2 with
  | some (.ok a), r', h1, _ =>
    obtain ⟨b, rfl, hr⟩ := h1 a rfl
    exact ⟨rfl, hr⟩
  | none, some (.ok b), _, h2 => obtain ⟨a, h⟩ := h2 b rfl; cases h
  | some (.error e), some (.ok b), _, h2 => obtain ⟨a, h⟩ := h2 b rfl; cases h
  | none, none, _, _ => exact ⟨rfl, trivial⟩
  | none, some (.error e), _, _ => exact ⟨rfl, trivial⟩
  | some (.error e), none, _, _ => exact ⟨rfl, trivial⟩
  | some (.error e), some (.error e'), _, _ => exact ⟨rfl, trivial⟩

theorem runAlike_fail {α β : Type} {R : α → β → Prop} (e : RunErr) :
    RunAlike R (Run.fail (α := α) e) (Run.fail (α := β) e) := by
  intro w
  cases e with
  | exit c t => exact ⟨rfl, rfl, rfl⟩
  | other e => exact ⟨rfl, trivial⟩

/-! ## What does not change -/

section
variable {h h' : Host} (r : Reordered h h')
include r

theorem _root_.Verif.Spec.Reordered.wd : h'.wd = h.wd := by rw [r.same]
theorem _root_.Verif.Spec.Reordered.workDirPath : h'.workDirPath = h.workDirPath := by rw [r.same]
theorem _root_.Verif.Spec.Reordered.errorFormat : h'.errorFormat = h.errorFormat := by rw [r.same]
theorem _root_.Verif.Spec.Reordered.json : h'.json = h.json := by rw [r.same]
theorem _root_.Verif.Spec.Reordered.toJSON : h'.toJSON = h.toJSON := by rw [r.same]
theorem _root_.Verif.Spec.Reordered.stat : h'.stat = h.stat := by rw [r.same]
theorem _root_.Verif.Spec.Reordered.writeEq : h'.write = h.write := by rw [r.same]
theorem _root_.Verif.Spec.Reordered.flushed : h'.flushed = h.flushed := by rw [r.same]
theorem _root_.Verif.Spec.Reordered.missing : h'.missing = h.missing := by rw [r.same]
theorem _root_.Verif.Spec.Reordered.parse : h'.parse = h.parse := by rw [r.same]
theorem _root_.Verif.Spec.Reordered.toYAML : h'.toYAML = h.toYAML := by rw [r.same]
theorem _root_.Verif.Spec.Reordered.diff : h'.diff = h.diff := by rw [r.same]
theorem _root_.Verif.Spec.Reordered.writeFileEq : h'.writeFile = h.writeFile := by rw [r.same]

theorem _root_.Verif.Spec.Reordered.write (t : Str) : Exec.write h' t = Exec.write h t := by
  unfold Exec.write; rw [r.writeEq]

theorem _root_.Verif.Spec.Reordered.println (t : Str) : Exec.println h' t = Exec.println h t := by
  unfold Exec.println; rw [r.write]

theorem _root_.Verif.Spec.Reordered.printAll (l : List Str) : Exec.printAll h' l = Exec.printAll h l := by
  induction l with
  | nil => rfl
  | cons s l ih => rw [Exec.printAll, Exec.printAll, ih, r.println]

theorem _root_.Verif.Spec.Reordered.shouldPrint (m m' : Option Meta) (hm : m'.map (·.singleFilename) = m.map (·.singleFilename))
    (f : Text.Failure) : Exec.shouldPrint h' m' f = Exec.shouldPrint h m f := by
  unfold Exec.shouldPrint
  rw [r.wd]
  cases m <;> cases m' <;> simp at hm
  · rfl
  · dsimp only; rw [hm]

theorem _root_.Verif.Spec.Reordered.failureLine (fields : List Text.FailureField) (f : Text.Failure) :
    Exec.failureLine h' fields f = Exec.failureLine h fields f := by
  unfold Exec.failureLine; rw [r.json, r.toJSON]

theorem _root_.Verif.Spec.Reordered.failureLines (m m' : Option Meta)
    (hm : m'.map (·.singleFilename) = m.map (·.singleFilename)) (fields : List Text.FailureField)
    (fs : List Text.Failure) : ∀ out, Exec.failureLines h' m' fields fs out = Exec.failureLines h m fields fs out := by
  induction fs with
  | nil => intro out; rfl
  | cons f fs ih =>
    intro out
    rw [Exec.failureLines, Exec.failureLines, r.shouldPrint m m' hm, r.failureLine]
    simp only [ih]

theorem _root_.Verif.Spec.Reordered.printFailuresFor (m m' : Option Meta)
    (hm : m'.map (·.singleFilename) = m.map (·.singleFilename)) (format filename : Str)
    {fs fs' : List Text.Failure} (hp : fs'.Perm fs) :
    Exec.printFailuresFor h' format filename m' fs' = Exec.printFailuresFor h format filename m fs := by
  unfold Exec.printFailuresFor
  have e : Text.sortFailures (if filename = [] then fs' else fs'.map fun f => { f with filename := filename }) =
      Text.sortFailures (if filename = [] then fs else fs.map fun f => { f with filename := filename }) := by
    apply Props.C18_canonical
    split
    · exact hp
    · exact hp.map _
  simp only [e, r.failureLines m m' hm, r.write, r.flushed]

theorem _root_.Verif.Spec.Reordered.printFailures {m m' : Meta} (hm : m'.singleFilename = m.singleFilename) (filename : Str)
    {fs fs' : List Text.Failure} (hp : fs'.Perm fs) :
    Exec.printFailures h' filename m' fs' = Exec.printFailures h filename m fs := by
  unfold Exec.printFailures
  rw [r.printFailuresFor (some m) (some m') (by simp [hm]) _ _ hp, r.errorFormat]

theorem _root_.Verif.Spec.Reordered.metaOf (path : Str) : SameResult SameMeta (Exec.metaOf h path) (Exec.metaOf h' path) := by
  unfold Exec.metaOf
  rw [r.stat, r.workDirPath]
  cases h.stat path with
  | error e => trivial
  | ok k =>
    cases k with
    | dir =>
      dsimp only
      have := r.finds h.workDirPath path
      cases h1 : h.getForDir h.workDirPath path <;> cases h2 : h'.getForDir h.workDirPath path <;>
        rw [h1, h2] at this
      · trivial
      · exact this.elim
      · exact this.elim
      · exact ⟨this, rfl⟩
    | regular =>
      dsimp only
      have := r.finds h.workDirPath (Path.dir path)
      cases h1 : h.getForDir h.workDirPath (Path.dir path) <;>
        cases h2 : h'.getForDir h.workDirPath (Path.dir path) <;> rw [h1, h2] at this
      · trivial
      · exact this.elim
      · exact this.elim
      · exact ⟨this, rfl⟩
    | other => trivial

theorem _root_.Verif.Spec.Reordered.getMeta (args : List Str) :
    RunAlike SameMeta (Exec.getMeta h args) (Exec.getMeta h' args) :=
  runAlike_lift (r.metaOf _)

theorem _root_.Verif.Spec.Reordered.lintHost (disk : Disk) : Exec.lintHost h' disk = Exec.lintHost h disk := by
  unfold Exec.lintHost
  rw [r.missing, r.parse, r.wd]

theorem _root_.Verif.Spec.Reordered.doCompile {flags : CompileFlags}
    (hg : flags.doGen = false ∨ GeneratesAlike h h') {m m' : Meta} (hm : SameMeta m m') :
    RunAlike (fun s s' => s'.Perm s ∧ ∃ disk ps r, h.compile flags disk ps = .ok r ∧ r.2 = s)
      (Exec.doCompile h flags m) (Exec.doCompile h' flags m') := by
  intro w
  have hc := r.compiles flags w.disk m.protoSet m'.protoSet hm.1
  unfold Exec.doCompile
  dsimp only
  have hw : (if flags.doGen then { w with disk := h'.generate w.disk m'.protoSet } else w) =
      (if flags.doGen then { w with disk := h.generate w.disk m.protoSet } else w) := by
    split
    · rename_i hgen
      rcases hg with hg | hg
      · rw [hgen] at hg; cases hg
      · rw [hg _ _ _ hm.1]
    · rfl
  rw [hw]
  generalize (if flags.doGen then { w with disk := h.generate w.disk m.protoSet } else w) = w1
  cases h1 : h.compile flags w.disk m.protoSet <;> cases h2 : h'.compile flags w.disk m'.protoSet <;>
    rw [h1, h2] at hc
  · exact ⟨rfl, trivial⟩
  · exact hc.elim
  · exact hc.elim
  · rename_i x y
    obtain ⟨fs, sets⟩ := x
    obtain ⟨fs', sets'⟩ := y
    obtain ⟨e, hp⟩ := hc
    dsimp only at e hp ⊢
    subst e
    rw [r.printFailures hm.2 [] (.refl fs')]
    exact runAlike_bind (runAlike_refl _) (fun _ _ _ => by
      split
      · exact runAlike_fail _
      · exact runAlike_pure ⟨hp, _, _, _, h1, rfl⟩) w1

theorem _root_.Verif.Spec.Reordered.compileWith {gen set : Bool} (hg : gen = false ∨ GeneratesAlike h h')
    {m m' : Meta} (hm : SameMeta m m') :
    RunAlike (fun s s' => s'.Perm s ∧ ∃ flags disk ps r, h.compile flags disk ps = .ok r ∧ r.2 = s)
      (Exec.compile h gen set false m) (Exec.compile h' gen set false m') := by
  unfold Exec.compile
  simp only [Bool.false_eq_true, if_false]
  exact runAlike_mono (r.doCompile hg hm) fun _ _ hs => ⟨hs.1, _, hs.2⟩

theorem _root_.Verif.Spec.Reordered.compile {set : Bool} {m m' : Meta} (hm : SameMeta m m') :
    RunAlike (fun s s' => s'.Perm s ∧ ∃ flags disk ps r, h.compile flags disk ps = .ok r ∧ r.2 = s)
      (Exec.compile h false set false m) (Exec.compile h' false set false m') :=
  r.compileWith (.inl rfl) hm

end

end Verif.Exec
