import Verif.Model.Breaking
import Verif.Proof.Yields

/-! # The iteration order of maps does not matter to break check -/

namespace Verif.Proof.Breaking

open Verif Reflect Verif.Extract Verif.Breaking Text

/-- Both are errors, or both report the same failures, in some order. -/
def Same : Res → Res → Prop
  | .ok fs, .ok gs => fs.Perm gs
  | .error _, .error _ => True
  | _, _ => False

theorem Same.refl (r : Res) : Same r r := by
  cases r
  · trivial
  · exact List.Perm.refl _

theorem Same.symm {r s : Res} (h : Same r s) : Same s r := by
  cases r <;> cases s <;> simp only [Same] at *
  exact h.symm

theorem Same.trans {r s t : Res} (h : Same r s) (h' : Same s t) : Same r t := by
  cases r <;> cases s <;> cases t <;> simp only [Same] at *
  exact h.trans h'

theorem same_seq_cons {a b : Res} {as bs : List Res} (h : Same a b) (hs : Same (seqRes as) (seqRes bs)) :
    Same (seqRes (a :: as)) (seqRes (b :: bs)) := by
  cases a <;> cases b <;> simp only [Same] at h <;> try trivial
  rw [seqRes, seqRes]
  cases ha : seqRes as <;> cases hb : seqRes bs <;> rw [ha, hb] at hs <;> simp only [Same] at hs <;>
    try trivial
  exact h.append hs

theorem same_seq_swap (a b : Res) (l : List Res) :
    Same (seqRes (b :: a :: l)) (seqRes (a :: b :: l)) := by
  cases a <;> cases b <;> simp only [seqRes] <;> try trivial
  cases seqRes l <;> simp only <;> try trivial
  exact List.perm_append_comm_assoc _ _ _

theorem same_seq_perm {as bs : List Res} (h : as.Perm bs) : Same (seqRes as) (seqRes bs) := by
  induction h with
  | nil => exact Same.refl _
  | cons x _ ih => exact same_seq_cons (Same.refl _) ih
  | swap a b l => exact same_seq_swap a b l
  | trans _ _ ih1 ih2 => exact ih1.trans ih2

theorem same_seq_map {α : Type _} {l : List α} {g g' : α → Res} (h : ∀ a ∈ l, Same (g a) (g' a)) :
    Same (seqRes (l.map g)) (seqRes (l.map g')) := by
  induction l with
  | nil => exact Same.refl _
  | cons a l ih =>
    exact same_seq_cons (h a (by simp)) (ih fun b hb => h b (by simp [hb]))

variable (o o' : Order)

theorem same_loop (site site' : Site) {bs bs' : List Res} (h : Same (seqRes bs) (seqRes bs')) :
    Same (loop o site bs) (loop o' site' bs') :=
  (same_seq_perm (o.perm site bs)).trans (h.trans (same_seq_perm (o'.perm site' bs')).symm)

theorem same_loop_map {α : Type} (site site' : Site) {l : List α} {g g' : α → Res}
    (h : ∀ a, Same (g a) (g' a)) : Same (loop o site (l.map g)) (loop o' site' (l.map g')) :=
  same_loop o o' site site' (same_seq_map fun a _ => h a)

theorem same_andThen {a a' b b' : Res} (h : Same a a') (h' : Same b b') :
    Same (andThen a b) (andThen a' b') :=
  same_seq_cons h (same_seq_cons h' (Same.refl _))

theorem same_lookup {β : Type} (x : Option β) {m m' : Res} {f f' : β → Res} (hm : Same m m')
    (hf : ∀ b, Same (f b) (f' b)) : Same (lookupElse x m f) (lookupElse x m' f') := by
  cases x
  · exact hm
  · exact hf _

theorem same_packagePair (site : Site) (x y : XPackageSet) {f f' : Site → XPackage → XPackage → Res}
    (h : ∀ s p q, Same (f s p q) (f' s p q)) :
    Same (forEachPackagePair o site x y f) (forEachPackagePair o' site x y f') :=
  same_loop_map o o' _ _ fun _ => same_lookup _ (Same.refl _) fun _ => h _ _ _

mutual
theorem same_messagePairRec {f f' : Site → XMessage → XMessage → Res}
    (h : ∀ s m m', Same (f s m m') (f' s m m')) (site : Site) :
    ∀ m m', Same (messagePairRec o f site m m') (messagePairRec o' f' site m m')
  | .mk name fqn enums nested a b oneofs, to => by
    rw [messagePairRec, messagePairRec]
    exact same_andThen (h _ _ _) (same_loop o o' _ _ (same_messagePairBodies h _ nested _))

theorem same_messagePairBodies {f f' : Site → XMessage → XMessage → Res}
    (h : ∀ s m m', Same (f s m m') (f' s m m')) (site : Site) :
    ∀ ms ms', Same (seqRes (messagePairBodies o f site ms ms')) (seqRes (messagePairBodies o' f' site ms ms'))
  | [], _ => Same.refl _
  | m :: ms, to => by
    rw [messagePairBodies, messagePairBodies]
    refine same_seq_cons (same_lookup _ (Same.refl _) fun m' => same_messagePairRec h site m m')
      (same_messagePairBodies h site ms to)
end

theorem same_messagePair (site : Site) (x y : XPackageSet) {f f' : Site → XMessage → XMessage → Res}
    (h : ∀ s p q, Same (f s p q) (f' s p q)) :
    Same (forEachMessagePair o site x y f) (forEachMessagePair o' site x y f') :=
  same_packagePair o o' _ _ _ fun _ _ _ => same_loop o o' _ _ (same_messagePairBodies o o' h _ _ _)

theorem same_fieldPair (site : Site) (x y : XPackageSet) (f : XField → XField → Res) :
    Same (forEachMessageFieldPair o site x y f) (forEachMessageFieldPair o' site x y f) :=
  same_messagePair o o' _ _ _ fun _ _ _ => same_loop_map o o' _ _ fun _ =>
    same_lookup _ (Same.refl _) fun _ => Same.refl _

theorem same_oneofPair (site : Site) (x y : XPackageSet) {f f' : Site → XOneof → XOneof → Res}
    (h : ∀ s p q, Same (f s p q) (f' s p q)) :
    Same (forEachMessageOneofPair o site x y f) (forEachMessageOneofPair o' site x y f') :=
  same_messagePair o o' _ _ _ fun _ _ _ => same_loop_map o o' _ _ fun _ =>
    same_lookup _ (Same.refl _) fun _ => h _ _ _

theorem same_enumPair (site : Site) (x y : XPackageSet) {f f' : Site → XEnum → XEnum → Res}
    (h : ∀ s p q, Same (f s p q) (f' s p q)) :
    Same (forEachEnumPair o site x y f) (forEachEnumPair o' site x y f') :=
  same_andThen
    (same_packagePair o o' _ _ _ fun _ _ _ => same_loop_map o o' _ _ fun _ =>
      same_lookup _ (Same.refl _) fun _ => h _ _ _)
    (same_messagePair o o' _ _ _ fun _ _ _ => same_loop_map o o' _ _ fun _ =>
      same_lookup _ (Same.refl _) fun _ => h _ _ _)

theorem same_enumValuePair (site : Site) (x y : XPackageSet) (f : XEnumValue → XEnumValue → Res) :
    Same (forEachEnumValuePair o site x y f) (forEachEnumValuePair o' site x y f) :=
  same_enumPair o o' _ _ _ fun _ _ _ => same_loop_map o o' _ _ fun _ =>
    same_lookup _ (Same.refl _) fun _ => Same.refl _

theorem same_servicePair (site : Site) (x y : XPackageSet) {f f' : Site → XService → XService → Res}
    (h : ∀ s p q, Same (f s p q) (f' s p q)) :
    Same (forEachServicePair o site x y f) (forEachServicePair o' site x y f') :=
  same_packagePair o o' _ _ _ fun _ _ _ => same_loop_map o o' _ _ fun _ =>
    same_lookup _ (Same.refl _) fun _ => h _ _ _

theorem same_methodPair (site : Site) (x y : XPackageSet) (f : XMethod → XMethod → Res) :
    Same (forEachServiceMethodPair o site x y f) (forEachServiceMethodPair o' site x y f) :=
  same_servicePair o o' _ _ _ fun _ _ _ => same_loop_map o o' _ _ fun _ =>
    same_lookup _ (Same.refl _) fun _ => Same.refl _

mutual
theorem same_messagesNotDeletedRec (site : Site) :
    ∀ m m', Same (messagesNotDeletedRec o site m m') (messagesNotDeletedRec o' site m m')
  | .mk name fqn enums nested a b oneofs, to => by
    rw [messagesNotDeletedRec, messagesNotDeletedRec]
    exact same_loop o o' _ _ (same_messagesNotDeletedBodies _ nested _)

theorem same_messagesNotDeletedBodies (site : Site) :
    ∀ ms ms', Same (seqRes (messagesNotDeletedBodies o site ms ms'))
      (seqRes (messagesNotDeletedBodies o' site ms ms'))
  | [], _ => Same.refl _
  | m :: ms, to => by
    rw [messagesNotDeletedBodies, messagesNotDeletedBodies]
    exact same_seq_cons (same_lookup _ (Same.refl _) fun m' => same_messagesNotDeletedRec site m m')
      (same_messagesNotDeletedBodies site ms to)
end

theorem same_checker (site : Site) (x y : XPackageSet) : ∀ c ∈ allCheckers ++ [packagesNoBetaDepsChecker],
    Same (c.check o site x y) (c.check o' site x y) := by
  intro c hc
  simp only [allCheckers, List.cons_append, List.nil_append, List.mem_cons, List.not_mem_nil,
    or_false] at hc
  rcases hc with rfl | rfl | rfl | rfl | rfl | rfl | rfl | rfl | rfl | rfl | rfl | rfl | rfl | rfl |
    rfl | rfl | rfl | rfl | rfl
  · show Same (checkEnumsNotDeleted o site x y) (checkEnumsNotDeleted o' site x y)
    unfold checkEnumsNotDeleted
    refine same_andThen (same_packagePair o o' _ _ _ fun _ _ _ => ?_)
      (same_messagePair o o' _ _ _ fun _ _ _ => ?_)
    · unfold checkEnumsNotDeletedMap; exact same_loop_map o o' _ _ fun _ => Same.refl _
    · unfold checkEnumsNotDeletedMap; exact same_loop_map o o' _ _ fun _ => Same.refl _
  · show Same (checkEnumValuesNotDeleted o site x y) (checkEnumValuesNotDeleted o' site x y)
    unfold checkEnumValuesNotDeleted
    refine same_enumPair o o' _ _ _ fun _ _ _ => ?_
    exact same_loop_map o o' _ _ fun _ => Same.refl _
  · exact same_enumValuePair o o' _ _ _ _
  · show Same (checkMessagesNotDeleted o site x y) (checkMessagesNotDeleted o' site x y)
    unfold checkMessagesNotDeleted
    refine same_packagePair o o' _ _ _ fun _ _ _ => ?_
    exact same_loop o o' _ _ (same_messagesNotDeletedBodies o o' _ _ _)
  · show Same (checkMessageFieldsNotDeleted o site x y) (checkMessageFieldsNotDeleted o' site x y)
    unfold checkMessageFieldsNotDeleted
    refine same_messagePair o o' _ _ _ fun _ _ _ => ?_
    exact same_loop_map o o' _ _ fun _ => Same.refl _
  · exact same_fieldPair o o' _ _ _ _
  · exact same_fieldPair o o' _ _ _ _
  · exact same_fieldPair o o' _ _ _ _
  · exact same_fieldPair o o' _ _ _ _
  · show Same (checkMessageOneofsNotDeleted o site x y) (checkMessageOneofsNotDeleted o' site x y)
    unfold checkMessageOneofsNotDeleted
    refine same_messagePair o o' _ _ _ fun _ _ _ => ?_
    exact same_loop_map o o' _ _ fun _ => Same.refl _
  · show Same (checkMessageOneofsFieldsNotRemoved o site x y)
      (checkMessageOneofsFieldsNotRemoved o' site x y)
    unfold checkMessageOneofsFieldsNotRemoved
    refine same_oneofPair o o' _ _ _ fun _ _ _ => ?_
    exact same_loop_map o o' _ _ fun _ => Same.refl _
  · exact same_loop_map o o' _ _ fun _ => Same.refl _
  · show Same (checkServicesNotDeleted o site x y) (checkServicesNotDeleted o' site x y)
    unfold checkServicesNotDeleted
    refine same_packagePair o o' _ _ _ fun _ _ _ => ?_
    exact same_loop_map o o' _ _ fun _ => Same.refl _
  · show Same (checkServiceMethodsNotDeleted o site x y) (checkServiceMethodsNotDeleted o' site x y)
    unfold checkServiceMethodsNotDeleted
    refine same_servicePair o o' _ _ _ fun _ _ _ => ?_
    exact same_loop_map o o' _ _ fun _ => Same.refl _
  · exact same_methodPair o o' _ _ _ _
  · exact same_methodPair o o' _ _ _ _
  · exact same_methodPair o o' _ _ _ _
  · exact same_methodPair o o' _ _ _ _
  · exact same_loop_map o o' _ _ fun _ => Same.refl _

theorem same_runCheckers (config : BreakConfig) (x y : XPackageSet) :
    Same (runCheckers o config x y) (runCheckers o' config x y) := by
  unfold runCheckers
  apply same_seq_map
  intro c hc
  have hc : c ∈ allCheckers ++ [packagesNoBetaDepsChecker] := by
    unfold activeCheckers at hc
    split at hc
    · exact hc
    · exact List.mem_append_left _ hc
  have h := same_checker o o' [c.id] x y c hc
  unfold runChecker
  cases h1 : c.check o [c.id] x y <;> cases h2 : c.check o' [c.id] x y <;> rw [h1, h2] at h <;>
    simp only [Same] at h ⊢
  exact h.map _

end Verif.Proof.Breaking
