import Verif.Proof.Walks
import Verif.Proof.Sort
import Verif.Proof.Map

/-! # Linters that differ only in the order in which they go through maps -/

namespace Verif.Lint

open Verif Proto Spec

variable {S : Type}

/-- The same effect on the state and the same events, maybe in another order. -/
def ActAlike (a b : Act S) : Prop := ∀ s, (a s).1 = (b s).1 ∧ (a s).2.Perm (b s).2

theorem ActAlike.refl (a : Act S) : ActAlike a a := fun _ => ⟨rfl, .refl _⟩

theorem ActAlike.seq {a a' b b' : Act S} (ha : ActAlike a a') (hb : ActAlike b b') :
    ActAlike (a.seq b) (a'.seq b') := by
  intro s
  unfold Act.seq
  dsimp only
  rw [← (ha s).1]
  exact ⟨(hb _).1, (ha s).2.append (hb _).2⟩

/-- Visitors alike. -/
structure VisitorAlike (v w : Visitor S) : Prop where
  visit : ∀ p k k' e, ActAlike k k' → ActAlike (visit v p k e) (visit w p k' e)
  start : ∀ d, v.onStart d = w.onStart d
  fin : ∀ s, (v.finally_ s).1 = (w.finally_ s).1 ∧ (v.finally_ s).2.1.Perm (w.finally_ s).2.1 ∧
    (v.finally_ s).2.2 = (w.finally_ s).2.2

theorem VisitorAlike.all {v w : Visitor S} (h : VisitorAlike v w) (es : List Element) :
    ∀ p, ActAlike (acceptAll v p es) (acceptAll w p es) := by
  have key : ∀ cs : List Element, (∀ c ∈ cs, ∀ p, ActAlike (accept v p c) (accept w p c)) →
      ∀ p, ActAlike (acceptAll v p cs) (acceptAll w p cs) := by
    intro cs
    induction cs with
    | nil => intro _ p; unfold acceptAll; exact .refl _
    | cons c cs ih =>
      intro hc p
      unfold acceptAll
      exact (hc c List.mem_cons_self p).seq (ih (fun c h => hc c (List.mem_cons_of_mem _ h)) p)
  refine key es fun c _ => ?_
  refine element_ind (P := fun c => ∀ p, ActAlike (accept v p c) (accept w p c)) ?_ c
  intro e ih p
  rw [accept_eq v p e [], accept_eq w p e []]
  exact h.visit _ _ _ _ (key _ ih _)

theorem VisitorAlike.run {v w : Visitor S} (h : VisitorAlike v w) (ds : List FileDescriptor) (s : S) :
    (runVisitor v ds s).1 = (runVisitor w ds s).1 ∧
    (runVisitor v ds s).2.1.Perm (runVisitor w ds s).2.1 ∧
    (runVisitor v ds s).2.2 = (runVisitor w ds s).2.2 := by
  induction ds generalizing s with
  | nil => exact ⟨rfl, .refl _, rfl⟩
  | cons d ds ih =>
    have hr : (fileRun v d s).1 = (fileRun w d s).1 ∧
        (fileRun v d s).2.1.Perm (fileRun w d s).2.1 ∧
        (fileRun v d s).2.2 = (fileRun w d s).2.2 := by
      unfold fileRun
      dsimp only
      rw [h.start d]
      have ha := (ActAlike.refl (w.onStart d)).seq (h.all d.elements .file) s
      rw [ha.1]
      have hf := h.fin (((w.onStart d).seq (acceptAll w .file d.elements)) s).1
      exact ⟨hf.1, ha.2.append hf.2.1, hf.2.2⟩
    rw [runVisitor_cons, runVisitor_cons, ← hr.2.2, ← hr.1]
    cases (fileRun v d s).2.2 with
    | some err => exact ⟨rfl, hr.2.1, rfl⟩
    | none => exact ⟨(ih _).1, hr.2.1.append (ih _).2.1, (ih _).2.2⟩

/-- Linters alike: the same name and annotation, and checks alike. -/
structure Alike (l m : Linter) : Prop where
  id : l.id = m.id
  annotation : l.suppressableAnnotation = m.suppressableAnnotation
  check : ∀ dirPath ds, (l.addCheck dirPath ds).1.Perm (m.addCheck dirPath ds).1 ∧
    (l.addCheck dirPath ds).2 = (m.addCheck dirPath ds).2

theorem Alike.refl (l : Linter) : Alike l l := ⟨rfl, rfl, fun _ _ => ⟨.refl _, rfl⟩⟩

theorem VisitorAlike.linter {v w : Visitor S} (h : VisitorAlike v w) (id : Str) (s : S) :
    Alike (newLinter id purpose (visitWith v s)) (newLinter id purpose (visitWith w s)) :=
  ⟨rfl, rfl, fun _ ds => (h.run ds s).2⟩

theorem Alike.report {l m : Linter} (h : Alike l m) (ev : Event) : l.report ev = m.report ev := by
  have hs : l.allowSuppression = m.allowSuppression := by
    funext c; unfold Linter.allowSuppression; rw [h.annotation]
  unfold Linter.report Linter.isSuppressed
  rw [hs, h.annotation, h.id]

theorem Alike.same {l m : Linter} (h : Alike l m) {dirPath : Str} {ds : List FileDescriptor}
    {fs : List Text.Failure} (hf : l.check dirPath ds = some (.ok fs)) :
    ∃ gs, m.check dirPath ds = some (.ok gs) ∧ fs.Perm gs := by
  obtain ⟨hp, he⟩ := h.check dirPath ds
  unfold Linter.check at hf ⊢
  dsimp only at hf ⊢
  rw [← he]
  have hany : (l.addCheck dirPath ds).1.any Event.isPanic = (m.addCheck dirPath ds).1.any Event.isPanic := by
    rw [Bool.eq_iff_iff, List.any_eq_true, List.any_eq_true]
    exact ⟨fun ⟨x, h1, h2⟩ => ⟨x, hp.mem_iff.1 h1, h2⟩, fun ⟨x, h1, h2⟩ => ⟨x, hp.mem_iff.2 h1, h2⟩⟩
  rw [← hany]
  split at hf
  · cases hf
  · rename_i hn
    rw [if_neg hn]
    cases hr : (l.addCheck dirPath ds).2 with
    | some err => rw [hr] at hf; cases hf
    | none =>
      rw [hr] at hf
      cases hf
      refine ⟨_, rfl, ?_⟩
      have : l.report = m.report := funext h.report
      rw [this]
      exact hp.filterMap _

/-! ## The linters that go through maps -/

theorem alike_packagesSameInDir (env : Env) (o : Order) :
    Alike (packagesSameInDirLinter env) (packagesSameInDirLinter { env with order := o }) := by
  refine ⟨rfl, rfl, fun dirPath ds => ?_⟩
  have : packagesSameInDir env = packagesSameInDir { env with order := o } := by
    funext dirPath ds
    unfold packagesSameInDir
    have hs : ∀ l, sortStrs (env.order.ord [s%"PACKAGES_SAME_IN_DIR", dirPath] l) =
        sortStrs (o.ord [s%"PACKAGES_SAME_IN_DIR", dirPath] l) := fun l =>
      sortStrs_eq_of_perm ((env.order.perm _ l).trans (o.perm _ l).symm)
    simp only [hs]
    rfl
  show ((packagesSameInDir env dirPath ds).1.Perm _ ∧ (packagesSameInDir env dirPath ds).2 = _)
  rw [this]
  exact ⟨.refl _, rfl⟩

theorem alike_fileOptionsSameInDir (env : Env) (o : Order) (id name : Str) :
    Alike (newLinter id purpose (fileOptionsSameInDir env name))
      (newLinter id purpose (fileOptionsSameInDir { env with order := o } name)) := by
  refine ⟨rfl, rfl, fun dirPath ds => ?_⟩
  have : fileOptionsSameInDir env name = fileOptionsSameInDir { env with order := o } name := by
    funext dirPath ds
    unfold fileOptionsSameInDir
    have hs : ∀ l, sortStrs (env.order.ord [s%"FILE_OPTIONS_SAME_IN_DIR", dirPath, name] l) =
        sortStrs (o.ord [s%"FILE_OPTIONS_SAME_IN_DIR", dirPath, name] l) := fun l =>
      sortStrs_eq_of_perm ((env.order.perm _ l).trans (o.perm _ l).symm)
    simp only [hs]
    rfl
  show ((fileOptionsSameInDir env name dirPath ds).1.Perm _ ∧
    (fileOptionsSameInDir env name dirPath ds).2 = _)
  rw [this]
  exact ⟨.refl _, rfl⟩

theorem alike_wkt (env : Env) (o : Order) :
    VisitorAlike (wktDirectlyImported env) (wktDirectlyImported { env with order := o }) := by
  refine ⟨fun p k k' e hk => ?_, fun _ => rfl, fun _ => ⟨rfl, .refl _, rfl⟩⟩
  cases e with
  | «import» i =>
    intro s
    exact ⟨rfl, ((env.order.perm _ _).trans (o.perm _ _).symm).flatMap_right _⟩
  | _ => exact .refl _

theorem alike_messagesExcept (o o' : Order) (handle : Message → List Event) :
    VisitorAlike (messagesExceptVisitor o handle) (messagesExceptVisitor o' handle) := by
  refine ⟨fun p k k' e hk => ?_, fun _ => rfl, fun s => ⟨rfl, ?_, rfl⟩⟩
  · cases e with
    | message m es =>
      intro s
      obtain ⟨h1, h2⟩ := hk { s with nestedMessageNames := s.nestedMessageNames ++ [m.name] }
      refine ⟨?_, h2⟩
      unfold visit messagesExceptVisitor
      dsimp only
      rw [h1]
    | service s es => exact hk
    | _ => exact .refl _
  · exact ((o.perm _ _).trans (o'.perm _ _).symm).flatMap_right _

theorem alike_notEmpty (env : Env) (o : Order) :
    VisitorAlike (messagesNotEmptyExceptRequestResponseTypes env)
      (messagesNotEmptyExceptRequestResponseTypes { env with order := o }) := by
  refine ⟨fun p k k' e hk => ?_, fun _ => rfl, fun s => ⟨rfl, ?_, rfl⟩⟩
  · cases e with
    | message m es =>
      intro s
      obtain ⟨h1, h2⟩ := hk { s with
        nestedMessageNames := s.nestedMessageNames ++ [m.name], curFieldCount := 0 }
      refine ⟨?_, h2⟩
      unfold visit messagesNotEmptyExceptRequestResponseTypes
      dsimp only
      rw [h1]
    | service s es => exact hk
    | oneof s es => exact hk
    | _ => exact .refl _
  · exact ((env.order.perm _ _).trans (o.perm _ _).symm).flatMap_right _

theorem alike_only (env : Env) (o : Order) :
    VisitorAlike (requestResponseTypesOnlyInFile env)
      (requestResponseTypesOnlyInFile { env with order := o }) := by
  refine ⟨fun p k k' e hk => ?_, fun _ => rfl, fun s => ?_⟩
  · cases e with
    | service s es => exact hk
    | _ => exact .refl _
  · unfold requestResponseTypesOnlyInFile
    dsimp only
    split
    · exact ⟨rfl, .refl _, rfl⟩
    · exact ⟨rfl, (((env.order.perm _ _).trans (o.perm _ _).symm).flatMap_right _).append
        (((env.order.perm _ _).trans (o.perm _ _).symm).flatMap_right _), rfl⟩

end Verif.Lint
