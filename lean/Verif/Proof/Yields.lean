import Verif.Model.Breaking
import Verif.Proof.Extract

/-! # What a check reports, whatever the iteration order -/

namespace Verif.Proof.Breaking

open Verif Reflect Verif.Extract Verif.Breaking Text Spec Proof.Extract

/-- A description of a result: `T none` if it is an error, `T (some f)` for the
failures `f` reported. -/
abbrev Claim := Option Failure → Prop

/-- The result is an error iff `T none`, otherwise the failures are exactly those with
`T (some f)`. -/
def Yields (r : Res) (T : Claim) : Prop :=
  match r with
  | .error _ => T none
  | .ok fs => ¬ T none ∧ ∀ f, f ∈ fs ↔ T (some f)

/-- No error, and these failures. -/
def only (S : Failure → Prop) : Claim
  | none => False
  | some f => S f

theorem Yields.congr {r : Res} {T T' : Claim} (h : Yields r T) (hT : ∀ x, T x ↔ T' x) : Yields r T' := by
  have : T = T' := funext fun x => propext (hT x)
  exact this ▸ h

theorem yields_nil : Yields (.ok []) (fun _ => False) := ⟨id, by simp⟩

theorem yields_add (msg : Str) : Yields (addFailure msg) (fun x => x = some (newTextFailure msg)) :=
  ⟨by simp, by simp⟩

theorem yields_seq {α : Type _} {l : List α} {g : α → Res} {T : α → Claim}
    (h : ∀ a ∈ l, Yields (g a) (T a)) : Yields (seqRes (l.map g)) (fun x => ∃ a ∈ l, T a x) := by
  induction l with
  | nil => exact ⟨by simp, by simp⟩
  | cons a l ih =>
    have ha := h a (by simp)
    have ih := ih fun b hb => h b (by simp [hb])
    rw [List.map_cons]
    cases hg : g a with
    | error e =>
      rw [hg] at ha
      exact ⟨a, by simp, ha⟩
    | ok fs =>
      rw [hg] at ha
      rw [seqRes]
      cases hr : seqRes (l.map g) with
      | error e =>
        rw [hr] at ih
        obtain ⟨b, hb, hE⟩ := ih
        exact ⟨b, by simp [hb], hE⟩
      | ok gs =>
        rw [hr] at ih
        refine ⟨?_, ?_⟩
        · rintro ⟨b, hb, hE⟩
          rcases List.mem_cons.1 hb with rfl | hb
          · exact ha.1 hE
          · exact ih.1 ⟨b, hb, hE⟩
        · intro f
          rw [List.mem_append, ha.2, ih.2]
          simp

/-- A rearrangement of the images is the image of a rearrangement. -/
theorem perm_map_inv {α β : Type} {l : List α} {g : α → β} {r : List β} (h : r.Perm (l.map g)) :
    ∃ l' : List α, r = l'.map g ∧ l'.Perm l := by
  induction r generalizing l with
  | nil =>
    have := List.nil_perm.1 h
    exact ⟨[], rfl, by rw [List.map_eq_nil_iff.1 this]⟩
  | cons x xs ih =>
    have hx : x ∈ l.map g := h.mem_iff.1 (by simp)
    obtain ⟨a, ha, rfl⟩ := List.mem_map.1 hx
    obtain ⟨s, t, rfl⟩ := List.append_of_mem ha
    have hp2 : xs.Perm ((s ++ t).map g) := by
      have : (g a :: xs).Perm (g a :: (s ++ t).map g) := by
        refine h.trans ?_
        simp only [List.map_append, List.map_cons]
        exact List.perm_middle
      exact this.cons_inv
    obtain ⟨l', hl', hp'⟩ := ih hp2
    exact ⟨a :: l', by rw [hl']; rfl, (hp'.cons a).trans List.perm_middle.symm⟩

theorem yields_loop {α : Type} (o : Order) (site : Site) {l : List α} {g : α → Res} {T : α → Claim}
    (h : ∀ a ∈ l, Yields (g a) (T a)) :
    Yields (loop o site (l.map g)) (fun x => ∃ a ∈ l, T a x) := by
  obtain ⟨l', hl', hp⟩ := perm_map_inv (o.perm site (l.map g))
  unfold loop
  rw [hl']
  refine (yields_seq (l := l') fun a ha => h a (hp.mem_iff.1 ha)).congr fun x => ?_
  exact ⟨fun ⟨a, ha, h⟩ => ⟨a, hp.mem_iff.1 ha, h⟩, fun ⟨a, ha, h⟩ => ⟨a, hp.mem_iff.2 ha, h⟩⟩

theorem yields_andThen {a b : Res} {T T' : Claim} (ha : Yields a T) (hb : Yields b T') :
    Yields (andThen a b) (fun x => T x ∨ T' x) := by
  have := yields_seq (l := [true, false]) (g := fun c => if c then a else b)
    (T := fun c => if c then T else T') (by
      intro c _; cases c <;> simpa)
  refine this.congr fun x => ?_
  simp [or_comm]

/-- A loop over a map looking up each element's counterpart. The two maps are images
of `l` and `l'`. -/
theorem yields_loop_pair {α' α β' β κ : Type} [DecidableEq κ] (o : Order) (site : Site)
    {key : β → κ} {u : α' → α} {v : β' → β}
    {l : List α'} {l' : List β'} (hn : (l'.map fun b => key (v b)).Nodup) {k : α → κ}
    {missing : α → Res} {g : α → β → Res} {T0 : α' → Claim} {T : α' → β' → Claim}
    (h0 : ∀ a ∈ l, Yields (missing (u a)) (T0 a))
    (h : ∀ a ∈ l, ∀ b ∈ l', key (v b) = k (u a) → Yields (g (u a) (v b)) (T a b)) :
    Yields (loop o site ((l.map u).map fun a =>
        lookupElse (kget key (l'.map v) (k a)) (missing a) (g a)))
      (fun x => ∃ a ∈ l, ((∀ b ∈ l', key (v b) ≠ k (u a)) ∧ T0 a x) ∨
        ∃ b ∈ l', key (v b) = k (u a) ∧ T a b x) := by
  rw [List.map_map]
  apply yields_loop
  intro a ha
  dsimp only [Function.comp_apply]
  cases hk : kget key (l'.map v) (k (u a)) with
  | none =>
    have hno : ∀ b ∈ l', key (v b) ≠ k (u a) := fun b hb => kget_eq_none.1 hk _ (List.mem_map_of_mem hb)
    refine (h0 a ha).congr fun x => ?_
    constructor
    · exact fun e => .inl ⟨hno, e⟩
    · rintro (e | ⟨b, hb, he, _⟩)
      · exact e.2
      · exact absurd he (hno b hb)
  | some b =>
    obtain ⟨hb, hkb⟩ := kget_some_mem hk
    obtain ⟨b, hbm, rfl⟩ := List.mem_map.1 hb
    have huniq : ∀ c ∈ l', key (v c) = k (u a) → c = b := fun c hc he =>
      eq_of_key_eq (key := fun b => key (v b)) hn hc hbm (he.trans hkb.symm)
    refine (h a ha b hbm hkb).congr fun x => ?_
    constructor
    · exact fun e => .inr ⟨b, hbm, hkb, e⟩
    · rintro (e | ⟨c, hc, he, hE⟩)
      · exact absurd hkb (e.1 b hbm)
      · rw [← huniq c hc he]; exact hE

/-- The loop that only looks at elements present on both sides. -/
theorem yields_loop_both {α' α β' β κ : Type} [DecidableEq κ] (o : Order) (site : Site)
    {key : β → κ} {u : α' → α} {v : β' → β}
    {l : List α'} {l' : List β'} (hn : (l'.map fun b => key (v b)).Nodup) {k : α → κ}
    {g : α → β → Res} {T : α' → β' → Claim}
    (h : ∀ a ∈ l, ∀ b ∈ l', key (v b) = k (u a) → Yields (g (u a) (v b)) (T a b)) :
    Yields (loop o site ((l.map u).map fun a =>
        lookupElse (kget key (l'.map v) (k a)) (.ok []) (g a)))
      (fun x => ∃ a ∈ l, ∃ b ∈ l', key (v b) = k (u a) ∧ T a b x) := by
  refine (yields_loop_pair o site hn (missing := fun _ => .ok []) (fun a _ => yields_nil) h).congr
    fun x => ?_
  simp

/-- The loop that reports the elements missing on the other side. -/
theorem yields_loop_missing {α' α β' β κ : Type} [DecidableEq κ] (o : Order) (site : Site)
    {key : β → κ} {u : α' → α} {v : β' → β}
    {l : List α'} {l' : List β'} (hn : (l'.map fun b => key (v b)).Nodup) {k : α → κ}
    {msg : α → Str} :
    Yields (loop o site ((l.map u).map fun a =>
        lookupElse (kget key (l'.map v) (k a)) (addFailure (msg a)) fun _ => .ok []))
      (fun x => ∃ a ∈ l, (∀ b ∈ l', key (v b) ≠ k (u a)) ∧ x = some (newTextFailure (msg (u a)))) := by
  refine (yields_loop_pair o site hn (missing := fun a => addFailure (msg a))
    (g := fun _ _ => .ok []) (fun a _ => yields_add _)
    (fun a _ b _ _ => yields_nil)).congr fun x => ?_
  simp

/-! ## Messages -/

mutual
theorem msg_induct {P : Message → Prop} (h : ∀ m, (∀ n ∈ m.nestedMessages, P n) → P m) :
    ∀ m, P m
  | .mk a nested b c d => h (.mk a nested b c d) (msgs_induct h nested)
theorem msgs_induct {P : Message → Prop} (h : ∀ m, (∀ n ∈ m.nestedMessages, P n) → P m) :
    ∀ ms : List Message, ∀ n ∈ ms, P n
  | [], _, hn => nomatch hn
  | m :: ms, n, hn => by
    rcases List.mem_cons.1 hn with he | hn
    · rw [he]; exact msg_induct h m
    · exact msgs_induct h ms n hn
end

theorem messagePairBodies_eq (o : Order) (f : Site → XMessage → XMessage → Res) (site : Site)
    (frm to : List XMessage) : messagePairBodies o f site frm to =
      frm.map fun m => lookupElse (kget XMessage.name to m.name) (.ok [])
        fun m' => messagePairRec o f site m m' := by
  induction frm with
  | nil => rfl
  | cons m ms ih => rw [messagePairBodies, ih]; rfl

theorem messagePairRec_eq (o : Order) (f : Site → XMessage → XMessage → Res) (site : Site)
    (m m' : XMessage) : messagePairRec o f site m m' =
      andThen (f (s%"message" :: m.name :: site) m m') (forEachMessagePairRec o
        (s%"message" :: m.name :: site) m.nestedMessages m'.nestedMessages f) := by
  cases m; rfl

/-- The full name of the element at a path below a scope. -/
def fq (enclosing : Str) (path : List Str) : Str := path.foldl getFullyQualifiedName enclosing

theorem fq_eq_fullName {enclosing : Str} (h : enclosing ≠ []) (path : List Str) :
    fq enclosing path = fullName enclosing path := by
  induction path generalizing enclosing with
  | nil => rfl
  | cons n path ih =>
    rw [fq, List.foldl_cons, fullName]
    have : getFullyQualifiedName enclosing n = enclosing ++ s%"." ++ n := by
      simp [getFullyQualifiedName, h]
    rw [this]
    exact ih (by simp)

/-- Names identify the messages in every scope below. -/
def DistinctNames (ms : List Message) : Prop :=
  (ms.map Message.name).Nodup ∧
    ∀ path m, MessageAt ms path m → (m.nestedMessages.map Message.name).Nodup

theorem DistinctNames.nested {ms : List Message} (h : DistinctNames ms) {m : Message} (hm : m ∈ ms) :
    DistinctNames m.nestedMessages :=
  ⟨h.2 _ m (.here hm), fun path n hp => h.2 _ n (.inside hm hp)⟩

/-- A pair of messages found under the same path, read at the first step. -/
theorem messageAt_pair {ms ms' : List Message} {T : List Str → Message → Message → Prop} :
    (∃ path a b, MessageAt ms path a ∧ MessageAt ms' path b ∧ T path a b) ↔
      ∃ a ∈ ms, ∃ b ∈ ms', b.name = a.name ∧ (T [a.name] a b ∨
        ∃ path c d, MessageAt a.nestedMessages path c ∧ MessageAt b.nestedMessages path d ∧
          T (a.name :: path) c d) := by
  constructor
  · rintro ⟨path, c, d, hc, hdd, hE⟩
    cases hc with
    | here ha =>
      generalize hp : [c.name] = p at hdd
      cases hdd with
      | here hb =>
        simp only [List.cons.injEq, and_true] at hp
        exact ⟨c, ha, d, hb, hp.symm, .inl hE⟩
      | inside hb hin =>
        simp only [List.cons.injEq] at hp
        rw [← hp.2] at hin
        cases hin
    | inside ha hc =>
      rename_i a path
      generalize hp : a.name :: path = p at hdd
      cases hdd with
      | here hb =>
        simp only [List.cons.injEq] at hp
        rw [hp.2] at hc
        cases hc
      | inside hb hin =>
        rename_i b path'
        simp only [List.cons.injEq] at hp
        obtain ⟨hn, rfl⟩ := hp
        exact ⟨a, ha, b, hb, hn.symm, .inr ⟨path, c, d, hc, hin, hE⟩⟩
  · rintro ⟨a, ha, b, hb, hab, hE | ⟨path, c, d, hc, hdd, hE⟩⟩
    · exact ⟨[a.name], a, b, .here ha, hab ▸ .here hb, hE⟩
    · exact ⟨a.name :: path, c, d, .inside ha hc, hab ▸ .inside hb hdd, hE⟩

theorem messagePairs_yields (o : Order) (f : Site → XMessage → XMessage → Res) (ms : List Message) :
    ∀ (ms' : List Message) (enclosing : Str) (site : Site)
      (T : List Str → Message → Message → Claim),
      DistinctNames ms' →
      (∀ site path a b, MessageAt ms path a → MessageAt ms' path b →
        Yields (f site (wmsg a (fq enclosing path)) (wmsg b (fq enclosing path))) (T path a b)) →
      Yields (forEachMessagePairRec o site
          (ms.map fun m => wmsg m (getFullyQualifiedName enclosing m.name))
          (ms'.map fun m => wmsg m (getFullyQualifiedName enclosing m.name)) f)
        (fun x => ∃ path a b, MessageAt ms path a ∧ MessageAt ms' path b ∧ T path a b x) := by
  let P : List Message → Prop := fun ms =>
    ∀ (ms' : List Message) (enclosing : Str) (site : Site)
      (T : List Str → Message → Message → Claim),
      DistinctNames ms' →
      (∀ site path a b, MessageAt ms path a → MessageAt ms' path b →
        Yields (f site (wmsg a (fq enclosing path)) (wmsg b (fq enclosing path))) (T path a b)) →
      Yields (forEachMessagePairRec o site
          (ms.map fun m => wmsg m (getFullyQualifiedName enclosing m.name))
          (ms'.map fun m => wmsg m (getFullyQualifiedName enclosing m.name)) f)
        (fun x => ∃ path a b, MessageAt ms path a ∧ MessageAt ms' path b ∧ T path a b x)
  have hstep : ∀ ms : List Message, (∀ m ∈ ms, P m.nestedMessages) → P ms := by
    intro ms ih ms' enclosing site T hd h
    unfold forEachMessagePairRec
    rw [messagePairBodies_eq]
    have key := yields_loop_both o site (l := ms) (l' := ms') (key := XMessage.name)
      (k := XMessage.name)
      (u := fun m => wmsg m (getFullyQualifiedName enclosing m.name))
      (v := fun m => wmsg m (getFullyQualifiedName enclosing m.name))
      (g := messagePairRec o f site)
      (T := fun a b x => T [a.name] a b x ∨ ∃ path c d, MessageAt a.nestedMessages path c ∧
        MessageAt b.nestedMessages path d ∧ T (a.name :: path) c d x)
      (by simpa using hd.1)
      (by
        intro a ha b hb hab
        simp only [wmsg_name] at hab
        rw [messagePairRec_eq]
        apply yields_andThen
        · have := h (s%"message" :: a.name :: site) [a.name] a b (.here ha) (hab ▸ .here hb)
          simp only [fq, List.foldl_cons, List.foldl_nil] at this
          rw [hab]
          simpa using this
        · rw [wmsg_nested, wmsg_nested, hab]
          refine ih a ha b.nestedMessages (getFullyQualifiedName enclosing a.name) _ _
            (hd.nested hb) ?_
          intro site path c d hc hdd
          exact h site (a.name :: path) c d (.inside ha hc) (hab ▸ .inside hb hdd))
    refine key.congr fun x => ?_
    simp only [wmsg_name]
    exact (messageAt_pair (T := fun path a b => T path a b x)).symm
  exact hstep ms fun m _ => msg_induct (P := fun m => P m.nestedMessages)
    (fun m ih => hstep m.nestedMessages ih) m

end Verif.Proof.Breaking
