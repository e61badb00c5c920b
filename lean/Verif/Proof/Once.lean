import Verif.Proof.BreakingRun
import Verif.Spec.BreakingOnce

/-! # No check reports an element twice -/

namespace Verif.Proof.Breaking

open Verif Reflect Verif.Extract Verif.Breaking Text Spec Proof.Extract

/-- The failures are about different elements, all with `E` and `K`. -/
def Once (K : Affected → Prop) (r : Res) (E : Affected → Prop) : Prop :=
  ∀ fs, r = .ok fs → ∃ es : List Affected, es.Nodup ∧
    Pointwise (fun e (f : Failure) => e.named <+: f.message) es fs ∧ ∀ e ∈ es, E e ∧ K e

variable {K : Affected → Prop}

theorem Once.mono {r : Res} {E E' : Affected → Prop} (h : Once K r E) (hE : ∀ e, E e → E' e) : Once K r E' := by
  intro fs hfs
  obtain ⟨es, h1, h2, h3⟩ := h fs hfs
  exact ⟨es, h1, h2, fun e he => ⟨hE e (h3 e he).1, (h3 e he).2⟩⟩

theorem once_nil {E : Affected → Prop} : Once K (.ok []) E := by
  intro fs h
  cases h
  exact ⟨[], List.nodup_nil, .nil, by simp⟩

theorem once_error {E : Affected → Prop} {e : Err} : Once K (.error e) E := by
  intro fs h
  cases h

theorem once_add {E : Affected → Prop} {msg : Str} {e : Affected} (hE : E e) (hK : K e) (h : e.named <+: msg) :
    Once K (addFailure msg) E := by
  intro fs hf
  cases hf
  exact ⟨[e], by simp, .cons h .nil, by simp [hE, hK]⟩

theorem pointwise_append {α β : Type} {R : α → β → Prop} {l1 l2 : List α} {m1 m2 : List β}
    (h1 : Pointwise R l1 m1) (h2 : Pointwise R l2 m2) : Pointwise R (l1 ++ l2) (m1 ++ m2) := by
  induction h1 with
  | nil => exact h2
  | cons h _ ih => exact .cons h ih

theorem once_seq {α : Type _} {l : List α} {g : α → Res} {E : α → Affected → Prop}
    (hd : l.Pairwise fun a b => ∀ e, E a e → ¬ E b e) (h : ∀ a ∈ l, Once K (g a) (E a)) :
    Once K (seqRes (l.map g)) (fun e => ∃ a ∈ l, E a e) := by
  induction l with
  | nil => exact once_nil
  | cons a l ih =>
    have ih := ih hd.of_cons fun b hb => h b (by simp [hb])
    intro fs hfs
    rw [List.map_cons] at hfs
    cases hg : g a with
    | error e => rw [hg] at hfs; cases hfs
    | ok as =>
      rw [hg, seqRes] at hfs
      cases hr : seqRes (l.map g) with
      | error e => rw [hr] at hfs; cases hfs
      | ok bs =>
        rw [hr] at hfs
        cases hfs
        obtain ⟨es, h1, h2, h3⟩ := h a (by simp) as hg
        obtain ⟨es', h1', h2', h3'⟩ := ih bs hr
        refine ⟨es ++ es', ?_, pointwise_append h2 h2', ?_⟩
        · refine List.nodup_append.2 ⟨h1, h1', ?_⟩
          rintro e he e' he' rfl
          obtain ⟨⟨b, hb, hE⟩, _⟩ := h3' e he'
          exact List.rel_of_pairwise_cons hd hb e (h3 e he).1 hE
        · intro e he
          rcases List.mem_append.1 he with he | he
          · exact ⟨⟨a, by simp, (h3 e he).1⟩, (h3 e he).2⟩
          · obtain ⟨⟨b, hb, hE⟩, hK⟩ := h3' e he
            exact ⟨⟨b, by simp [hb], hE⟩, hK⟩

theorem once_loop {α : Type} (o : Order) (site : Site) {l : List α} {g : α → Res}
    {E : α → Affected → Prop} (hd : l.Pairwise fun a b => ∀ e, E a e → ¬ E b e)
    (h : ∀ a ∈ l, Once K (g a) (E a)) : Once K (loop o site (l.map g)) (fun e => ∃ a ∈ l, E a e) := by
  obtain ⟨l', hl', hp⟩ := perm_map_inv (o.perm site (l.map g))
  unfold loop
  rw [hl']
  refine (once_seq (l := l') ?_ fun a ha => h a (hp.mem_iff.1 ha)).mono ?_
  · refine (hp.pairwise_iff ?_).2 hd
    exact fun {a b} hab e hb ha => hab e ha hb
  · exact fun e ⟨a, ha, h⟩ => ⟨a, hp.mem_iff.1 ha, h⟩

theorem once_andThen {a b : Res} {E E' : Affected → Prop} (ha : Once K a E) (hb : Once K b E')
    (hd : ∀ e, E e → ¬ E' e) : Once K (andThen a b) (fun e => E e ∨ E' e) := by
  have := once_seq (l := [true, false]) (g := fun c => if c then a else b)
    (E := fun c => if c then E else E') (by simpa using hd) (by
      intro c _; cases c <;> simpa)
  refine this.mono fun e => ?_
  simp [or_comm]

theorem pairwise_of_keys {α κ : Type} {key : α → κ} {l : List α} (h : (l.map key).Nodup)
    {E : α → Affected → Prop} (hE : ∀ a ∈ l, ∀ b ∈ l, ∀ e, E a e → E b e → key a = key b) :
    l.Pairwise fun a b => ∀ e, E a e → ¬ E b e := by
  have := List.pairwise_map.1 h
  refine this.imp_of_mem ?_
  exact fun ha hb hne e h1 h2 => hne (hE _ ha _ hb e h1 h2)

/-- A loop over a map looking up each element's counterpart. -/
theorem once_loop_pair {α' α β κ κ' : Type} [DecidableEq κ] (o : Order) (site : Site)
    {key : β → κ} {u : α' → α} {l : List α'} {l' : List β} {k : α → κ} {key' : α' → κ'}
    {missing : α → Res} {g : α → β → Res} {E : α' → Affected → Prop}
    (hk : (l.map key').Nodup) (hd : ∀ a ∈ l, ∀ b ∈ l, ∀ e, E a e → E b e → key' a = key' b)
    (h0 : ∀ a ∈ l, Once K (missing (u a)) (E a))
    (h : ∀ a ∈ l, ∀ b, Once K (g (u a) b) (E a)) :
    Once K (loop o site ((l.map u).map fun a =>
        lookupElse (kget key l' (k a)) (missing a) (g a))) (fun e => ∃ a ∈ l, E a e) := by
  rw [List.map_map]
  refine once_loop o site (pairwise_of_keys hk hd) ?_
  intro a ha
  dsimp only [Function.comp_apply]
  cases kget key l' (k (u a)) with
  | none => exact h0 a ha
  | some b => exact h a ha b

variable {P Q : List Package} (o : Order) (site : Site)

/-- What is used of the old packages. -/
structure OldOK (P : List Package) : Prop where
  names : (P.map (·.name)).Nodup
  ok : ∀ p ∈ P, PackageOK p

section
variable (R : OldOK P) (y : XPackageSet)
include R

theorem once_packages {f : Site → XPackage → XPackage → Res} {E : Package → Affected → Prop}
    (hE : ∀ p e, E p e → e.package = p.name)
    (h : ∀ site, ∀ p ∈ P, ∀ q, Once K (f site (wpkg p) q) (E p)) :
    Once K (forEachPackagePair o site (ws P) y f) (fun e => ∃ p ∈ P, E p e) := by
  unfold forEachPackagePair
  refine once_loop_pair o site (u := wpkg) (g := fun p q => f (s%"package" :: p.proto.name :: site) p q)
    (missing := fun _ => .ok []) R.names ?_ ?_ ?_
  · exact fun a _ b _ e ha hb => (hE a e ha).symm.trans (hE b e hb)
  · exact fun a _ => once_nil
  · exact fun a ha b => h _ a ha b
end

theorem once_messagesRec (f : Site → XMessage → XMessage → Res) (pk : Str) (ms : List Message) :
    ∀ (ms' : List XMessage) (enclosing : Str) (path : List Str) (site : Site), DistinctNames ms →
      (∀ site path' a b, MessageAt ms path' a →
        Once K (f site (wmsg a (fq enclosing path')) b)
          (fun e => e.package = pk ∧ e.scope = path ++ path')) →
      Once K (forEachMessagePairRec o site
          (ms.map fun m => wmsg m (getFullyQualifiedName enclosing m.name)) ms' f)
        (fun e => ∃ m ∈ ms, e.package = pk ∧ path ++ [m.name] <+: e.scope) := by
  let C : List Message → Prop := fun ms =>
    ∀ (ms' : List XMessage) (enclosing : Str) (path : List Str) (site : Site), DistinctNames ms →
      (∀ site path' a b, MessageAt ms path' a →
        Once K (f site (wmsg a (fq enclosing path')) b)
          (fun e => e.package = pk ∧ e.scope = path ++ path')) →
      Once K (forEachMessagePairRec o site
          (ms.map fun m => wmsg m (getFullyQualifiedName enclosing m.name)) ms' f)
        (fun e => ∃ m ∈ ms, e.package = pk ∧ path ++ [m.name] <+: e.scope)
  have hstep : ∀ ms : List Message, (∀ m ∈ ms, C m.nestedMessages) → C ms := by
    intro ms ih ms' enclosing path site hd h
    unfold forEachMessagePairRec
    rw [messagePairBodies_eq]
    refine once_loop_pair o site (l := ms) (key' := Message.name)
      (u := fun m => wmsg m (getFullyQualifiedName enclosing m.name))
      (missing := fun _ => .ok []) (g := messagePairRec o f site) hd.1 ?_ (fun _ _ => once_nil) ?_
    · rintro a _ b _ e ⟨_, r, h1⟩ ⟨_, r', h2⟩
      rw [← h2] at h1
      simp only [List.append_assoc, List.append_cancel_left_eq, List.cons_append, List.nil_append,
        List.cons.injEq] at h1
      exact h1.1
    · intro a ha b
      rw [messagePairRec_eq, wmsg_nested]
      have h1 := h (s%"message" :: a.name :: site) [a.name] a b (.here ha)
      have h2 := ih a ha b.nestedMessages (getFullyQualifiedName enclosing a.name) (path ++ [a.name])
        (s%"message" :: a.name :: site) (hd.nested ha) (by
          intro site path' c d hc
          have := h site (a.name :: path') c d (.inside ha hc)
          rw [List.append_assoc]
          exact this)
      rw [wmsg_name]
      refine (once_andThen h1 h2 ?_).mono ?_
      · rintro e ⟨_, h1⟩ ⟨m, _, _, h2⟩
        rw [h1] at h2
        have := h2.length_le
        simp at this
      · rintro e (⟨h1, h2⟩ | ⟨m, _, h1, h2⟩)
        · exact ⟨h1, by rw [h2]; exact List.prefix_refl _⟩
        · exact ⟨h1, (List.prefix_append _ _).trans h2⟩
  exact hstep ms fun m _ => msg_induct (P := fun m => C m.nestedMessages)
    (fun m ih => hstep m.nestedMessages ih) m

section
variable (R : OldOK P) (y : XPackageSet)
include R

/-- Elements of a message found in the package set. -/
theorem once_messages {f : Site → XMessage → XMessage → Res}
    (h : ∀ site, ∀ p ∈ P, ∀ path m m', MessageAt p.messages path m →
      Once K (f site (wmsg m (fullName p.name path)) m')
        (fun e => e.package = p.name ∧ e.scope = path)) :
    Once K (forEachMessagePair o site (ws P) y f) (fun e => e.scope ≠ []) := by
  unfold forEachMessagePair
  refine (once_packages o site R y (E := fun p e => e.package = p.name ∧ e.scope ≠ [])
    (fun p e h => h.1) ?_).mono (fun e ⟨p, _, h⟩ => h.2)
  intro site p hp q
  have := once_messagesRec o f p.name p.messages q.messages p.name [] site (distinct_of_ok (R.ok p hp)) (by
    intro site path a b ha
    rw [fq_eq_fullName (R.ok p hp).name]
    exact h site p hp path a b ha)
  refine Once.mono this ?_
  rintro e ⟨m, _, h1, h2⟩
  refine ⟨h1, ?_⟩
  intro h0
  rw [h0] at h2
  have := h2.length_le
  simp at this

theorem messageOK_old {p : Package} (hp : p ∈ P) {path : List Str} {m : Message}
    (h : MessageAt p.messages path m) : MessageOK m := (R.ok p hp).messages path m h

theorem once_fields {f : XField → XField → Res}
    (h : ∀ p ∈ P, ∀ path m (a : Field) w b, MessageAt p.messages path m → a ∈ m.fields → Once K (f ⟨a, fullName p.name path, w⟩ b)
        (fun e => e = ⟨p.name, path, .field a.number⟩)) :
    Once K (forEachMessageFieldPair o site (ws P) y f) (fun _ => True) := by
  unfold forEachMessageFieldPair
  refine (once_messages o site R y ?_).mono fun _ _ => trivial
  intro site p hp path m m' hm
  rw [wmsg_fields]
  refine (once_loop_pair o _ (E := fun (a : Field) e => e = ⟨p.name, path, .field a.number⟩)
    (missing := fun _ => .ok []) (messageOK_old R hp hm).field_numbers ?_ (fun _ _ => once_nil)
    (fun a ha b => h p hp path m a _ b hm ha)).mono ?_
  · rintro a _ b _ e rfl h2
    simpa using h2
  · rintro e ⟨a, _, rfl⟩; exact ⟨rfl, rfl⟩

theorem once_enums {f : Site → XEnum → XEnum → Res}
    (h : ∀ site, ∀ p ∈ P, ∀ path (a : Enum) b, EnumAt p path a → Once K (f site (wenum a (fullName p.name (path ++ [a.name]))) b)
        (fun e => e.package = p.name ∧ e.scope = path ∧
          (e.item = .enum a.name ∨ ∃ k, e.item = .enumValue a.name k))) :
    Once K (forEachEnumPair o site (ws P) y f) (fun _ => True) := by
  have key : ∀ p ∈ P, ∀ path (es : List Enum) (to : List XEnum) site, (es.map (·.name)).Nodup →
      (∀ e ∈ es, EnumAt p path e) → Once K (forEachEnumPairInternal o site (es.map fun e => newEnum e (fullName p.name path)) to f)
        (fun e => e.package = p.name ∧ e.scope = path) := by
    intro p hp path es to site hn hin
    unfold forEachEnumPairInternal
    refine (once_loop_pair o _ (E := fun (a : Enum) e => e.package = p.name ∧ e.scope = path ∧
        (e.item = .enum a.name ∨ ∃ k, e.item = .enumValue a.name k))
      (u := fun e => newEnum e (fullName p.name path))
      (g := fun x y => f (x.proto.name :: s%"enum" :: site) x y)
      (missing := fun _ => .ok []) hn ?_ (fun _ _ => once_nil) ?_).mono ?_
    · rintro a _ b _ e ⟨_, _, h1⟩ ⟨_, _, h2⟩
      rcases h1 with h1 | ⟨_, h1⟩ <;> rcases h2 with h2 | ⟨_, h2⟩ <;> simp [h1] at h2 <;>
        first | exact h2 | exact h2.1
    · intro a ha b
      rw [newEnum_eq (fullName_ne_nil (R.ok p hp).name path), ← fullName_append]
      exact h _ p hp path a b (hin a ha)
    · rintro e ⟨a, _, h1, h2, _⟩; exact ⟨h1, h2⟩
  unfold forEachEnumPair
  have h1 := once_packages o (s%"1" :: site) R y
    (f := fun site p q => forEachEnumPairInternal o site p.enums q.enums f)
    (E := fun p e => e.package = p.name ∧ e.scope = []) (fun p e h => h.1) (by
      intro site p hp q
      exact key p hp [] p.enums q.enums site (R.ok p hp).enum_names fun e he => .top he)
  have h2 := once_messages o (s%"2" :: site) R y
    (f := fun site m m' => forEachEnumPairInternal o site m.nestedEnums m'.nestedEnums f) (by
      intro site p hp path m m' hm
      rw [wmsg_enums]
      exact key p hp path m.nestedEnums m'.nestedEnums site (messageOK_old R hp hm).enum_names
        fun e he => .nested hm he)
  refine (once_andThen h1 h2 ?_).mono fun _ _ => trivial
  rintro e ⟨p, _, _, h⟩ h'
  exact h' h

theorem once_services {f : Site → XService → XService → Res}
    (h : ∀ site, ∀ p ∈ P, ∀ s ∈ p.services, ∀ b, Once K (f site (wservice s (fullName p.name [s.name])) b)
        (fun e => e.package = p.name ∧ (e.item = .service s.name ∨ ∃ m, e.item = .method s.name m))) :
    Once K (forEachServicePair o site (ws P) y f) (fun _ => True) := by
  unfold forEachServicePair
  refine (once_packages o site R y (E := fun p e => e.package = p.name) (fun p e h => h) ?_).mono
    fun _ _ => trivial
  intro site p hp q
  simp only [wpkg]
  refine (once_loop_pair o _ (E := fun (s : Service) e => e.package = p.name ∧
      (e.item = .service s.name ∨ ∃ m, e.item = .method s.name m))
    (key := fun y => y.proto.name) (k := fun x => x.proto.name)
    (g := fun x y => f (x.proto.name :: s%"service" :: site) x y)
    (missing := fun _ => .ok []) (R.ok p hp).service_names ?_ (fun _ _ => once_nil) ?_).mono ?_
  · rintro a _ b _ e ⟨_, h1⟩ ⟨_, h2⟩
    rcases h1 with h1 | ⟨_, h1⟩ <;> rcases h2 with h2 | ⟨_, h2⟩ <;> simp [h1] at h2 <;>
        first | exact h2 | exact h2.1
  · intro s hs b
    have := h (s.name :: s%"service" :: site) p hp s hs b
    simp only [wservice] at this
    rw [gfn_eq (R.ok p hp).name]
    exact this
  · rintro e ⟨a, _, h1, _⟩; exact h1

theorem once_methods {f : XMethod → XMethod → Res}
    (h : ∀ p ∈ P, ∀ s ∈ p.services, ∀ m ∈ s.methods, ∀ b, Once K (f ⟨m, fullName p.name [s.name]⟩ b)
        (fun e => e = ⟨p.name, [], .method s.name m.name⟩)) :
    Once K (forEachServiceMethodPair o site (ws P) y f) (fun _ => True) := by
  unfold forEachServiceMethodPair
  refine once_services o site R y ?_
  intro site p hp s hs b
  simp only [wservice]
  refine (once_loop_pair o _ (E := fun (m : Method) e => e = ⟨p.name, [], .method s.name m.name⟩)
    (missing := fun _ => .ok []) ((R.ok p hp).method_names s hs) ?_ (fun _ _ => once_nil)
    (fun m hm b => h p hp s hs m hm b)).mono ?_
  · rintro a _ b _ e rfl h2
    simpa using h2
  · rintro e ⟨a, _, rfl⟩; exact ⟨rfl, .inr ⟨_, rfl⟩⟩

end

end Verif.Proof.Breaking
