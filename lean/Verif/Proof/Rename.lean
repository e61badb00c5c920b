import Verif.Spec.Rename
import Verif.Proof.Blind
import Verif.Proof.CompileArgs

/-! # The rules use file names only as labels -/

namespace Verif.Lint

open Verif Proto Spec

variable {S : Type} {ρ : Str → Str}

/-- Names that only differ in their directories. -/
structure Renaming (ρ : Str → Str) : Prop where
  empty : ρ [] = []
  nonempty : ∀ n, n ≠ [] → ρ n ≠ []
  base : ∀ n, Path.base (ρ n) = Path.base n

/-- The parent in the renamed file. -/
def Parent.rename (ρ : Str → Str) : Parent → Parent
  | .file => .file
  | .message m => .message (m.rename ρ)
  | .enum e => .enum (e.rename ρ)
  | .enumField f => .enumField (f.rename ρ)
  | .service s => .service (s.rename ρ)
  | .rpc r => .rpc (r.rename ρ)
  | .field f => .field (f.rename ρ)
  | .oneof o => .oneof (o.rename ρ)
  | .group g => .group (g.rename ρ)

/-- The renamed file. -/
def FileDescriptor.rename (ρ : Str → Str) (d : FileDescriptor) : FileDescriptor :=
  { d with filename := ρ d.filename, elements := renameAll ρ d.elements }

theorem renameAll_eq (ρ : Str → Str) (es : List Element) : renameAll ρ es = es.map (·.rename ρ) := by
  induction es with
  | nil => unfold renameAll; rfl
  | cons e es ih => unfold renameAll; rw [ih]; rfl

theorem children_rename (ρ : Str → Str) (e : Element) :
    children (e.rename ρ) = (children e).map (·.rename ρ) := by
  cases e <;> simp [Element.rename, children, renameAll_eq, NormalField.rename, MapField.rename,
    Field.rename]

theorem parentOf_rename (ρ : Str → Str) (e : Element) :
    parentOf [e.rename ρ] = Parent.rename ρ (parentOf [e]) := by
  cases e <;> unfold Element.rename <;> rfl

/-! ## Failures in the renamed files -/

/-- The same event in the renamed file. The text may differ. -/
inductive Event.Sim (ρ : Str → Str) : Event → Event → Prop
  | add {c comment comment' f f'} : comment'.map (·.lines) = comment.map (·.lines) →
      f'.filename = ρ f.filename → f'.line = f.line → f'.column = f.column →
      Event.Sim ρ (.add c comment f) (.add c comment' f')
  | panic : Event.Sim ρ .panic .panic

/-- The same events in the renamed files, in any order. -/
def EvSim (ρ : Str → Str) (a b : List Event) : Prop :=
  ∃ c, c.Perm b ∧ Pointwise (Event.Sim ρ) a c

theorem EvSim.nil : EvSim ρ [] [] := ⟨[], .refl _, .nil⟩

theorem EvSim.append {a b a' b' : List Event} (h : EvSim ρ a a') (h' : EvSim ρ b b') :
    EvSim ρ (a ++ b) (a' ++ b') := by
  obtain ⟨c, h1, h2⟩ := h
  obtain ⟨c', h1', h2'⟩ := h'
  exact ⟨c ++ c', h1.append h1', Protoc.pointwise_append h2 h2'⟩

theorem EvSim.single {e e' : Event} (h : Event.Sim ρ e e') : EvSim ρ [e] [e'] :=
  ⟨[e'], .refl _, .cons h .nil⟩

theorem EvSim.perm {a b b' : List Event} (h : EvSim ρ a b) (hp : b.Perm b') : EvSim ρ a b' := by
  obtain ⟨c, h1, h2⟩ := h
  exact ⟨c, h1.trans hp, h2⟩

theorem EvSim.panic : EvSim ρ [.panic] [.panic] := .single .panic

theorem EvSim.failure (p : Position) (m m' : List Str) :
    EvSim ρ (addFailure p m) (addFailure (p.rename ρ) m') := .single (.add rfl rfl rfl rfl)

theorem EvSim.suppressable (c : Settings.Config) (comment : Option Comment) (p : Position)
    (m m' : List Str) : EvSim ρ (addSuppressable c comment p m)
      (addSuppressable c (comment.map (·.rename ρ)) (p.rename ρ) m') := by
  refine .single (.add ?_ rfl rfl rfl)
  cases comment <;> rfl

theorem EvSim.ite {c c' : Prop} [Decidable c] [Decidable c'] (hc : c ↔ c') {a a' b b' : List Event}
    (ha : EvSim ρ a a') (hb : EvSim ρ b b') :
    EvSim ρ (if c then a else b) (if c' then a' else b') := by
  by_cases h : c
  · rw [if_pos h, if_pos (hc.1 h)]; exact ha
  · rw [if_neg h, if_neg fun h' => h (hc.2 h')]; exact hb

theorem EvSim.flatMap {α : Type} (xs : List α) {f g : α → List Event}
    (h : ∀ x ∈ xs, EvSim ρ (f x) (g x)) : EvSim ρ (xs.flatMap f) (xs.flatMap g) := by
  induction xs with
  | nil => exact .nil
  | cons x xs ih =>
    rw [List.flatMap_cons, List.flatMap_cons]
    exact (h x List.mem_cons_self).append (ih fun y hy => h y (List.mem_cons_of_mem _ hy))

/-- Loops over maps in different orders. -/
theorem EvSim.loop {α β : Type} {φ : α → β} {xs : List α} {as : List α} {bs : List β}
    (ha : as.Perm xs) (hb : bs.Perm (xs.map φ)) {f : α → List Event} {g : β → List Event}
    (h : ∀ x ∈ xs, EvSim ρ (f x) (g (φ x))) : EvSim ρ (as.flatMap f) (bs.flatMap g) := by
  have h1 : EvSim ρ (as.flatMap f) (as.flatMap fun x => g (φ x)) :=
    .flatMap as fun x hx => h x (ha.mem_iff.1 hx)
  refine h1.perm ?_
  have h2 : (as.flatMap fun x => g (φ x)).Perm ((as.map φ).flatMap g) := by
    rw [List.flatMap_map]
  exact h2.trans (List.Perm.flatMap_right g ((ha.map φ).trans hb.symm))

/-! ## Visitors -/

/-- The action does the same in the renamed file. -/
def ActSim (ρ : Str → Str) (h : S → S) (a b : Act S) : Prop :=
  ∀ s, (b (h s)).1 = h (a s).1 ∧ EvSim ρ (a s).2 (b (h s)).2

theorem ActSim.skip {h : S → S} : ActSim ρ h Act.skip Act.skip := fun _ => ⟨rfl, .nil⟩

theorem ActSim.seq {h : S → S} {a a' b b' : Act S} (ha : ActSim ρ h a a')
    (hb : ActSim ρ h b b') : ActSim ρ h (a.seq b) (a'.seq b') := by
  intro s
  unfold Act.seq
  dsimp only
  rw [(ha s).1]
  exact ⟨(hb _).1, (ha s).2.append (hb _).2⟩

theorem ActSim.emit {h : S → S} {a b : List Event} (he : EvSim ρ a b) :
    ActSim ρ h (Act.emit a) (Act.emit b) := fun _ => ⟨rfl, he⟩

theorem ActSim.modify {h : S → S} {f g : S → S} (he : ∀ s, g (h s) = h (f s)) :
    ActSim ρ h (Act.modify f) (Act.modify g) := fun s => ⟨he s, .nil⟩

theorem ActSim.ite {h : S → S} {c c' : Prop} [Decidable c] [Decidable c'] (hc : c ↔ c')
    {a a' b b' : Act S} (ha : ActSim ρ h a a') (hb : ActSim ρ h b b') :
    ActSim ρ h (if c then a else b) (if c' then a' else b') := by
  by_cases hx : c
  · rw [if_pos hx, if_pos (hc.1 hx)]; exact ha
  · rw [if_neg hx, if_neg fun h' => hx (hc.2 h')]; exact hb

/-- The visitor does the same in renamed files. -/
structure VisitorSim (ρ : Str → Str) (h : S → S) (v : Visitor S) : Prop where
  start : ∀ d, ActSim ρ h (v.onStart d) (v.onStart (d.rename ρ))
  visit : ∀ p k k' e, ActSim ρ h k k' →
    ActSim ρ h (visit v p k e) (visit v (Parent.rename ρ p) k' (e.rename ρ))
  fin : ∀ s, (v.finally_ (h s)).1 = h (v.finally_ s).1 ∧
    EvSim ρ (v.finally_ s).2.1 (v.finally_ (h s)).2.1 ∧
    (v.finally_ (h s)).2.2 = (v.finally_ s).2.2

theorem VisitorSim.all {h : S → S} {v : Visitor S} (hv : VisitorSim ρ h v) (es : List Element) :
    ∀ p, ActSim ρ h (acceptAll v p es) (acceptAll v (Parent.rename ρ p) (es.map (·.rename ρ))) := by
  have key : ∀ cs : List Element,
      (∀ c ∈ cs, ∀ p, ActSim ρ h (accept v p c) (accept v (Parent.rename ρ p) (c.rename ρ))) →
      ∀ p, ActSim ρ h (acceptAll v p cs)
        (acceptAll v (Parent.rename ρ p) (cs.map (·.rename ρ))) := by
    intro cs
    induction cs with
    | nil => intro _ p; unfold acceptAll; exact .skip
    | cons c cs ih =>
      intro hc p
      rw [List.map_cons]
      unfold acceptAll
      exact (hc c List.mem_cons_self p).seq (ih (fun c h => hc c (List.mem_cons_of_mem _ h)) p)
  refine key es fun c _ => ?_
  refine element_ind
    (P := fun c => ∀ p, ActSim ρ h (accept v p c) (accept v (Parent.rename ρ p) (c.rename ρ))) ?_ c
  intro e ih p
  rw [accept_eq v p e [], accept_eq v _ (e.rename ρ) [], children_rename, parentOf_rename]
  exact hv.visit _ _ _ _ (key _ ih _)

theorem VisitorSim.file {h : S → S} {v : Visitor S} (hv : VisitorSim ρ h v) (d : FileDescriptor)
    (s : S) : (fileRun v (d.rename ρ) (h s)).1 = h (fileRun v d s).1 ∧
      EvSim ρ (fileRun v d s).2.1 (fileRun v (d.rename ρ) (h s)).2.1 ∧
      (fileRun v (d.rename ρ) (h s)).2.2 = (fileRun v d s).2.2 := by
  have he : (d.rename ρ).elements = d.elements.map (·.rename ρ) := renameAll_eq _ _
  obtain ⟨h1, h2⟩ := ((hv.start d).seq (hv.all d.elements .file)) s
  unfold fileRun
  dsimp only
  rw [he]
  have h1' : (((v.onStart (d.rename ρ)).seq
      (acceptAll v .file (d.elements.map (·.rename ρ)))) (h s)).1 = _ := h1
  rw [h1']
  exact ⟨(hv.fin _).1, h2.append (hv.fin _).2.1, (hv.fin _).2.2⟩

theorem VisitorSim.run {h : S → S} {v : Visitor S} (hv : VisitorSim ρ h v)
    (ds : List FileDescriptor) (s : S) :
    (runVisitor v (ds.map (·.rename ρ)) (h s)).1 = h (runVisitor v ds s).1 ∧
      EvSim ρ (runVisitor v ds s).2.1 (runVisitor v (ds.map (·.rename ρ)) (h s)).2.1 ∧
      (runVisitor v (ds.map (·.rename ρ)) (h s)).2.2 = (runVisitor v ds s).2.2 := by
  induction ds generalizing s with
  | nil => exact ⟨rfl, .nil, rfl⟩
  | cons d ds ih =>
    obtain ⟨h1, h2, h3⟩ := hv.file d s
    rw [List.map_cons, runVisitor_cons, runVisitor_cons, h3]
    cases (fileRun v d s).2.2 with
    | some err => exact ⟨h1, h2, rfl⟩
    | none =>
      dsimp only
      rw [h1]
      obtain ⟨i1, i2, i3⟩ := ih (fileRun v d s).1
      exact ⟨i1, h2.append i2, i3⟩

/-! ## Rules -/

/-- The same failures in the renamed files. -/
def FailSim (ρ : Str → Str) (f g : Text.Failure) : Prop :=
  g.lintID = f.lintID ∧ g.line = f.line ∧ g.column = f.column ∧ g.filename = ρ f.filename

/-- The same failures in the renamed files, in any order. -/
def FailsSim (ρ : Str → Str) (a b : List Text.Failure) : Prop :=
  ∃ c, c.Perm b ∧ Pointwise (FailSim ρ) a c

/-- The result for the renamed files. -/
inductive ResultSim (ρ : Str → Str) : Option (Except Err (List Text.Failure)) →
    Option (Except Err (List Text.Failure)) → Prop
  | panic : ResultSim ρ none none
  | error {e} : ResultSim ρ (some (.error e)) (some (.error e))
  | ok {a b} : FailsSim ρ a b → ResultSim ρ (some (.ok a)) (some (.ok b))

/-- The rule only uses file names as labels. -/
def Labels (ρ : Str → Str) (l : Linter) : Prop :=
  ∀ dirPath ds, ResultSim ρ (l.check dirPath ds) (l.check dirPath (ds.map (·.rename ρ)))

theorem report_sim {l : Linter} {e e' : Event} (h : Event.Sim ρ e e') :
    (l.report e = none ∧ l.report e' = none) ∨
      ∃ f g, l.report e = some f ∧ l.report e' = some g ∧ FailSim ρ f g := by
  cases h with
  | panic => exact .inl ⟨rfl, rfl⟩
  | @add c comment comment' f f' hc h1 h2 h3 =>
    have hs : l.isSuppressed c comment' = l.isSuppressed c comment := by
      unfold Linter.isSuppressed
      cases comment with
      | none => cases comment' with
        | none => rfl
        | some y => cases hc
      | some x => cases comment' with
        | none => cases hc
        | some y =>
          injection hc with hc
          dsimp only at hc ⊢
          rw [hc]
    unfold Linter.report
    dsimp only
    rw [hs]
    cases l.isSuppressed c comment with
    | true => exact .inl ⟨rfl, rfl⟩
    | false => exact .inr ⟨_, _, rfl, rfl, rfl, h2, h3, h1⟩

theorem labels_of {l : Linter}
    (h : ∀ dirPath ds, EvSim ρ (l.addCheck dirPath ds).1 (l.addCheck dirPath (ds.map (·.rename ρ))).1 ∧
      (l.addCheck dirPath (ds.map (·.rename ρ))).2 = (l.addCheck dirPath ds).2) : Labels ρ l := by
  intro dirPath ds
  obtain ⟨⟨c, hp, hs⟩, he⟩ := h dirPath ds
  unfold Linter.check
  dsimp only
  rw [he]
  have hany : (l.addCheck dirPath (ds.map (·.rename ρ))).1.any Event.isPanic =
      (l.addCheck dirPath ds).1.any Event.isPanic := by
    rw [← hp.any_eq]
    clear hp
    generalize (l.addCheck dirPath ds).1 = a at hs ⊢
    induction hs with
    | nil => rfl
    | cons h _ ih => rw [List.any_cons, List.any_cons, ih]; cases h <;> rfl
  rw [hany]
  cases (l.addCheck dirPath ds).1.any Event.isPanic with
  | true => exact .panic
  | false =>
    rw [if_neg Bool.false_ne_true, if_neg Bool.false_ne_true]
    cases (l.addCheck dirPath ds).2 with
    | some e => exact .error
    | none =>
      refine .ok ⟨c.filterMap l.report, hp.filterMap _, ?_⟩
      clear hp he hany
      generalize (l.addCheck dirPath ds).1 = a at hs ⊢
      induction hs with
      | nil => exact .nil
      | cons h _ ih =>
        rw [List.filterMap_cons, List.filterMap_cons]
        rcases report_sim (l := l) h with ⟨h1, h2⟩ | ⟨f, g, h1, h2, h3⟩
        · rw [h1, h2]; exact ih
        · rw [h1, h2]; exact .cons h3 ih

theorem VisitorSim.labels {l : Linter} {v : Visitor S} {s0 : S} (hl : l.addCheck = visitWith v s0)
    {h : S → S} (hv : VisitorSim ρ h v) (h0 : h s0 = s0) : Labels ρ l := by
  refine labels_of fun dirPath ds => ?_
  rw [hl]
  unfold visitWith
  have := hv.run ds s0
  rw [h0] at this
  exact this.2

end Verif.Lint
