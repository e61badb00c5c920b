import Verif.Proof.ReportsTree

/-! # Rules that look at one file at a time -/

namespace Verif.Lint

open Verif Proto Spec

variable {S : Type}

/-- The rule checks the files one after the other, none influencing another. -/
def PerFile (l : Linter) : Prop :=
  (∀ dirPath, l.check dirPath [] = some (.ok [])) ∧
  ∀ dirPath d ds fs, l.check dirPath (d :: ds) = some (.ok fs) ↔
    ∃ gs hs, l.check dirPath [d] = some (.ok gs) ∧ l.check dirPath ds = some (.ok hs) ∧ fs = gs ++ hs

/-- When a check goes well. -/
theorem check_ok_iff {l : Linter} {dirPath : Str} {ds : List FileDescriptor}
    {fs : List Text.Failure} : l.check dirPath ds = some (.ok fs) ↔
      (∀ ev ∈ (l.addCheck dirPath ds).1, ev.isPanic = false) ∧ (l.addCheck dirPath ds).2 = none ∧
        fs = (l.addCheck dirPath ds).1.filterMap l.report := by
  unfold Linter.check
  dsimp only
  by_cases hp : (l.addCheck dirPath ds).1.any Event.isPanic = true
  · rw [if_pos hp]
    refine ⟨fun h => (nomatch h), fun ⟨h, _⟩ => ?_⟩
    obtain ⟨ev, h1, h2⟩ := List.any_eq_true.1 hp
    rw [h ev h1] at h2; cases h2
  · rw [if_neg hp]
    have hp' : ∀ ev ∈ (l.addCheck dirPath ds).1, ev.isPanic = false := by
      rw [Bool.not_eq_true, List.any_eq_false] at hp
      exact fun ev hev => Bool.eq_false_iff.2 (hp ev hev)
    cases hr : (l.addCheck dirPath ds).2 with
    | some e => exact ⟨fun h => (nomatch h), fun ⟨_, h, _⟩ => nomatch h⟩
    | none =>
      constructor
      · intro h; cases h; exact ⟨hp', rfl, rfl⟩
      · rintro ⟨_, _, rfl⟩; rfl

theorem runVisitor_one (v : Visitor S) (d : FileDescriptor) (s : S) :
    (runVisitor v [d] s).2 = (fileRun v d s).2 := by
  rw [runVisitor_cons]
  cases h : (fileRun v d s).2.2 with
  | some e => dsimp only; rw [← h]
  | none => simp [runVisitor, ← h]

/-- The outcome for a file does not depend on the files before it. -/
theorem perFile_of {l : Linter} {v : Visitor S} {s0 : S} (hl : l.addCheck = visitWith v s0)
    (I : S → Prop) (h0 : I s0) (h : ∀ d s, I s → (fileRun v d s).2 = (fileRun v d s0).2 ∧
      ((fileRun v d s).2.2 = none → I (fileRun v d s).1)) : PerFile l := by
  have hrun : ∀ ds s, I s → (runVisitor v ds s).2 = (runVisitor v ds s0).2 := by
    intro ds
    induction ds with
    | nil => exact fun _ _ => rfl
    | cons d ds ih =>
      intro s hs
      have key : ∀ s, I s → (runVisitor v (d :: ds) s).2 =
          match (fileRun v d s0).2.2 with
          | some err => ((fileRun v d s0).2.1, some err)
          | none => ((fileRun v d s0).2.1 ++ (runVisitor v ds s0).2.1, (runVisitor v ds s0).2.2) := by
        intro s hs
        obtain ⟨h1, h2⟩ := h d s hs
        rw [runVisitor_cons, ← h1]
        cases he : (fileRun v d s).2.2 with
        | some e => rfl
        | none =>
          dsimp only
          rw [ih _ (h2 he)]
      rw [key s hs, key s0 h0]
  refine ⟨fun dirPath => check_ok_iff.2 ?_, fun dirPath d ds fs => ?_⟩
  · rw [hl]
    exact ⟨fun _ h => (nomatch h), rfl, rfl⟩
  · rw [check_ok_iff]
    simp only [check_ok_iff (l := l)]
    rw [hl]
    unfold visitWith
    rw [runVisitor_one, runVisitor_cons]
    obtain ⟨h1, h2⟩ := h d s0 h0
    cases he : (fileRun v d s0).2.2 with
    | some e =>
      dsimp only
      exact ⟨fun ⟨_, h, _⟩ => (nomatch h), fun ⟨_, _, ⟨_, h, _⟩, _⟩ => (nomatch h)⟩
    | none =>
      dsimp only
      rw [hrun ds _ (h2 he)]
      constructor
      · rintro ⟨ha, hb, rfl⟩
        exact ⟨_, _, ⟨fun ev hev => ha ev (List.mem_append_left _ hev), rfl, rfl⟩,
          ⟨fun ev hev => ha ev (List.mem_append_right _ hev), hb, rfl⟩, List.filterMap_append⟩
      · rintro ⟨_, _, ⟨ha, _, rfl⟩, ⟨hb, hc, rfl⟩, rfl⟩
        exact ⟨fun ev hev => (List.mem_append.1 hev).elim (ha ev) (hb ev), hc,
          List.filterMap_append.symm⟩

/-- Rules that begin anew with each file. -/
theorem perFile_fresh {l : Linter} {v : Visitor S} {s0 : S} (hl : l.addCheck = visitWith v s0)
    (h : ∀ d s, v.onStart d s = v.onStart d s0) : PerFile l :=
  perFile_of hl (fun _ => True) trivial fun d s _ => by
    refine ⟨?_, fun _ => trivial⟩
    unfold fileRun Act.seq
    dsimp only
    rw [h]

/-- Rules that leave the state of the beginning. -/
theorem perFile_back {l : Linter} {v : Visitor S} {s0 : S} (hl : l.addCheck = visitWith v s0)
    (h : ∀ d, (fileRun v d s0).1 = s0) : PerFile l :=
  perFile_of hl (fun s => s = s0) rfl fun d s hs => by rw [hs]; exact ⟨rfl, fun _ => h d⟩

theorem ReaderOn.back {v : Visitor S} {st : List Element → S} {own : Node → List Event}
    {descend : Element → Bool} (h : Reader v st own descend)
    (hs : ∀ d, v.onStart d (st []) = (st [], [])) (hf : v.finally_ (st []) = (st [], [], none))
    (d : FileDescriptor) : (fileRun v d (st [])).1 = st [] := by
  obtain ⟨evs, h1, _⟩ := h.all d.elements [] (fun _ _ => trivial) rfl
  have h1' : acceptAll v .file d.elements (st []) = (st [], evs) := h1
  unfold fileRun Act.seq
  dsimp only
  rw [hs]
  dsimp only
  rw [h1', hf]

theorem perFile_enumFieldPrefixes : PerFile enumFieldPrefixesLinter :=
  perFile_back (v := enumFieldPrefixes) (s0 := []) rfl
    ((reader_enumVisitor _).back (fun _ => rfl) rfl)

theorem perFile_enumZeroValuesInvalid : PerFile enumZeroValuesInvalidLinter :=
  perFile_back (v := enumZeroValuesInvalid) (s0 := []) rfl
    ((reader_enumVisitor _).back (fun _ => rfl) rfl)

theorem perFile_fieldsNotReserved : PerFile fieldsNotReservedLinter :=
  perFile_back (v := fieldsNotReserved) (s0 := []) rfl
    (reader_fieldsNotReserved.back (fun _ => rfl) rfl)

/-- Several files. -/
theorem PerFile.flatMap {l : Linter} (h : PerFile l) (dirPath : Str) (ds : List FileDescriptor)
    (fs : List Text.Failure) : l.check dirPath ds = some (.ok fs) ↔
      ∃ g : FileDescriptor → List Text.Failure,
        (∀ d ∈ ds, l.check dirPath [d] = some (.ok (g d))) ∧ fs = ds.flatMap g := by
  have : ∀ fs, l.check dirPath ds = some (.ok fs) ↔
      (∀ d ∈ ds, ∃ gs, l.check dirPath [d] = some (.ok gs)) ∧
        fs = ds.flatMap fun d => ((l.check dirPath [d]).elim [] fun r => match r with
          | .ok gs => gs
          | .error _ => []) := by
    induction ds with
    | nil => intro fs; rw [h.1]; simp [eq_comm]
    | cons d ds ih =>
      intro fs
      rw [h.2]
      constructor
      · rintro ⟨gs, hs, h1, h2, rfl⟩
        obtain ⟨h3, rfl⟩ := (ih hs).1 h2
        exact ⟨List.forall_mem_cons.2 ⟨⟨gs, h1⟩, h3⟩, by rw [List.flatMap_cons, h1]; rfl⟩
      · rintro ⟨h1, rfl⟩
        obtain ⟨⟨gs, h2⟩, h3⟩ := List.forall_mem_cons.1 h1
        exact ⟨gs, _, h2, (ih _).2 ⟨h3, rfl⟩, by rw [List.flatMap_cons, h2]; rfl⟩
  rw [this]
  constructor
  · rintro ⟨h1, rfl⟩
    refine ⟨_, fun d hd => ?_, rfl⟩
    obtain ⟨gs, h2⟩ := h1 d hd
    rw [h2]; rfl
  · rintro ⟨g, h1, rfl⟩
    refine ⟨fun d hd => ⟨_, h1 d hd⟩, ?_⟩
    clear this
    induction ds with
    | nil => rfl
    | cons d ds ih =>
      rw [List.flatMap_cons, List.flatMap_cons, h1 d List.mem_cons_self,
        ih fun d hd => h1 d (List.mem_cons_of_mem _ hd)]
      rfl

end Verif.Lint
