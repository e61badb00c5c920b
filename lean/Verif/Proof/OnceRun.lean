import Verif.Proof.Once
import Verif.Proof.Quote

/-! # No check reports an element twice: the checks and the run -/

namespace Verif.Proof.Breaking

open Verif Reflect Verif.Extract Verif.Breaking Text Spec Proof.Extract

theorem mem_of_kmap {α κ : Type} [DecidableEq κ] {key : α → κ} {l : List α} {a : α}
    (h : a ∈ kmap key l) : a ∈ l := (List.mem_filter.1 (List.mem_of_getLast? (mem_kmap h))).1

variable {K : Affected → Prop}

theorem once_ite {c : Prop} [Decidable c] {a b : Res} {E : Affected → Prop} (ha : Once K a E)
    (hb : Once K b E) : Once K (if c then a else b) E := by
  split
  · exact ha
  · exact hb

/-- The loop that reports the elements missing on the other side. -/
theorem once_loop_missing {α' α β κ κ' : Type} [DecidableEq κ] (o : Order) (site : Site)
    {key : β → κ} {u : α' → α} {l : List α'} {l' : List β} {k : α → κ} {key' : α' → κ'}
    {msg : α → Str} (el : α' → Affected)
    (hk : (l.map key').Nodup) (hd : ∀ a b, el a = el b → key' a = key' b)
    (hK : ∀ a ∈ l, K (el a)) (h : ∀ a ∈ l, (el a).named <+: msg (u a)) :
    Once K (loop o site ((l.map u).map fun a =>
        lookupElse (kget key l' (k a)) (addFailure (msg a)) fun _ => .ok []))
      (fun e => ∃ a ∈ l, e = el a) := by
  refine once_loop_pair o site (key := key) (k := k) (missing := fun a => addFailure (msg a))
    (g := fun _ _ => .ok []) (E := fun a e => e = el a) hk ?_ ?_ (fun _ _ _ => once_nil)
  · exact fun a _ b _ e h1 h2 => hd a b (h1.symm.trans h2)
  · exact fun a ha => once_add rfl (hK a ha) (h a ha)

variable {P Q : List Package} (o : Order) (site : Site) (R : OldOK P) (y : XPackageSet)
include R

theorem once_packagesNotDeleted : Once (Affected.Exists P Q) (checkPackagesNotDeleted o site (ws P) y) (fun _ => True) := by
  unfold checkPackagesNotDeleted
  refine Once.mono (once_loop_missing o site (fun p => ⟨p.name, [], .package⟩) R.names ?_ ?_ ?_) fun _ _ => trivial
  · exact fun a b h => by simpa using h
  · exact fun p hp => ⟨rfl, p, hp, rfl⟩
  · exact fun p _ => by simp [Affected.named, packagesNotDeletedText, wpkg]

theorem once_fieldsNotDeleted : Once (Affected.Exists P Q) (checkMessageFieldsNotDeleted o site (ws P) y) (fun _ => True) := by
  unfold checkMessageFieldsNotDeleted
  refine (once_messages o site R y ?_).mono fun _ _ => trivial
  intro site p hp path m m' hm
  rw [wmsg_fields, wmsg_fqn]
  refine Once.mono (once_loop_missing o _ (fun a => ⟨p.name, path, .field a.number⟩)
    (messageOK_old R hp hm).field_numbers ?_ ?_ ?_) ?_
  · exact fun a b h => by simpa using h
  · exact fun a ha => ⟨p, hp, rfl, m, hm, a, ha, rfl⟩
  · exact fun a _ => by simp [Affected.named, messageFieldsNotDeletedText, quotedNumber]
  · rintro e ⟨a, _, rfl⟩; exact ⟨rfl, rfl⟩

theorem once_oneofsNotDeleted : Once (Affected.Exists P Q) (checkMessageOneofsNotDeleted o site (ws P) y) (fun _ => True) := by
  unfold checkMessageOneofsNotDeleted
  refine (once_messages o site R y ?_).mono fun _ _ => trivial
  intro site p hp path m m' hm
  rw [wmsg_oneofs, wmsg_fqn]
  refine Once.mono (once_loop_missing o _ (fun a => ⟨p.name, path, .oneof a.name⟩)
    (messageOK_old R hp hm).oneof_names ?_ ?_ ?_) ?_
  · exact fun a b h => by simpa using h
  · exact fun a ha => ⟨p, hp, rfl, m, hm, a, ha, rfl⟩
  · exact fun a _ => by simp [Affected.named, messageOneofsNotDeletedText]
  · rintro e ⟨a, _, rfl⟩; exact ⟨rfl, rfl⟩

omit R in
theorem nodup_setInsert {α : Type} [DecidableEq α] {s : List α} (h : s.Nodup) (a : α) :
    (setInsert s a).Nodup := by
  unfold setInsert
  split
  · exact h
  · rename_i ha
    refine List.nodup_append.2 ⟨h, by simp, ?_⟩
    rintro x hx y hy rfl
    simp only [List.mem_singleton] at hy
    exact ha (hy ▸ hx)

omit R in
theorem nodup_foldl_setInsert {α : Type} [DecidableEq α] (l s : List α) (h : s.Nodup) :
    (l.foldl setInsert s).Nodup := by
  induction l generalizing s with
  | nil => exact h
  | cons a l ih => exact ih _ (nodup_setInsert h a)

theorem once_oneofFields : Once (Affected.Exists P Q) (checkMessageOneofsFieldsNotRemoved o site (ws P) y) (fun _ => True) := by
  unfold checkMessageOneofsFieldsNotRemoved forEachMessageOneofPair
  refine (once_messages o site R y ?_).mono fun _ _ => trivial
  intro site p hp path m m' hm
  rw [wmsg_oneofs]
  refine Once.mono (once_loop_pair o _ (l := m.oneofs) (u := fun w => (⟨w, fullName p.name path⟩ : XOneof))
    (E := fun (a : Oneof) e => e.package = p.name ∧ e.scope = path ∧ ∃ n, e.item = .oneofField a.name n)
    (key := fun y : XOneof => y.proto.name) (k := fun x : XOneof => x.proto.name)
    (missing := fun f => .ok [])
    (g := fun (w w' : XOneof) => loop o (s%"number" :: w.proto.name :: s%"oneof" :: site)
      ((w.proto.fieldNumbers.foldl setInsert []).map fun n =>
      if n ∈ w'.proto.fieldNumbers.foldl setInsert [] then .ok []
      else addFailure (messageOneofsFieldsNotRemovedText w.messageFqn w.proto.name n)))
    (messageOK_old R hp hm).oneof_names ?_ (fun _ _ => once_nil) ?_) ?_
  · rintro a _ b _ e ⟨_, _, _, h1⟩ ⟨_, _, _, h2⟩
    simp [h1] at h2
    exact h2.1
  · intro w hw b
    refine (once_loop o _ (E := fun n e => e = ⟨p.name, path, .oneofField w.name n⟩) ?_ ?_).mono ?_
    · refine pairwise_of_keys (key := id) ?_ ?_
      · rw [List.map_id]; exact nodup_foldl_setInsert _ _ List.nodup_nil
      · rintro a _ b _ e rfl h2
        simpa using h2
    · intro n hn
      exact once_ite once_nil (once_add rfl
        ⟨p, hp, rfl, m, hm, w, hw, rfl, by simpa [mem_foldl_setInsert] using hn⟩
        (by simp [Affected.named, messageOneofsFieldsNotRemovedText, quotedNumber]))
    · rintro e ⟨n, _, rfl⟩; exact ⟨rfl, rfl, _, rfl⟩
  · rintro e ⟨a, _, h1, h2, _⟩; exact ⟨h1, h2⟩

theorem once_sameName : Once (Affected.Exists P Q) (checkMessageFieldsSameName o site (ws P) y) (fun _ => True) := by
  refine once_fields o site R y fun p hp path m a w b hm ha => ?_
  exact once_ite (once_add rfl ⟨p, hp, rfl, m, hm, a, ha, rfl⟩ (by simp [Affected.named, messageFieldsSameNameText, quotedNumber])) once_nil

theorem once_sameLabel : Once (Affected.Exists P Q) (checkMessageFieldsSameLabel o site (ws P) y) (fun _ => True) := by
  refine once_fields o site R y fun p hp path m a w b hm ha => ?_
  unfold sameLabelField
  refine once_ite ?_ once_nil
  split
  · exact once_error
  · split
    · exact once_error
    · exact once_add rfl ⟨p, hp, rfl, m, hm, a, ha, rfl⟩ (by simp [Affected.named, messageFieldsSameLabelText, quotedNumber])

theorem once_sameType : Once (Affected.Exists P Q) (checkMessageFieldsSameType o site (ws P) y) (fun _ => True) := by
  refine once_fields o site R y fun p hp path m a w b hm ha => ?_
  unfold sameTypeField
  refine once_ite ?_ (once_ite (once_ite once_error (once_ite once_error (once_ite ?_ once_nil))) once_nil)
  · split
    · exact once_error
    · split
      · exact once_error
      · exact once_add rfl ⟨p, hp, rfl, m, hm, a, ha, rfl⟩ (by simp [Affected.named, messageFieldsSameTypeText, quotedNumber])
  · exact once_add rfl ⟨p, hp, rfl, m, hm, a, ha, rfl⟩ (by simp [Affected.named, messageFieldsSameTypeText, quotedNumber])

theorem once_sameOneof : Once (Affected.Exists P Q) (checkMessageFieldsSameOneof o site (ws P) y) (fun _ => True) := by
  refine once_fields o site R y fun p hp path m a w b hm ha => ?_
  dsimp only
  split
  · exact once_add rfl ⟨p, hp, rfl, m, hm, a, ha, rfl⟩ (by simp [Affected.named, messageFieldsSameOneofText, quotedNumber])
  · exact once_nil

theorem once_enumValuesNotDeleted : Once (Affected.Exists P Q) (checkEnumValuesNotDeleted o site (ws P) y) (fun _ => True) := by
  unfold checkEnumValuesNotDeleted
  refine once_enums o site R y fun site p hp path a b ha => ?_
  rw [wenum_values]
  refine Once.mono (once_loop_missing o _ (fun v => ⟨p.name, path, .enumValue a.name v.number⟩)
    (key' := fun v : EnumValue => v.number) kmap_keys_nodup ?_ ?_ ?_) ?_
  · exact fun a b h => by simpa using h
  · exact fun v hv => ⟨p, hp, rfl, a, ha, rfl, v, mem_of_kmap hv, rfl⟩
  · exact fun v _ => by simp [Affected.named, enumValuesNotDeletedText, quotedNumber, wenum]
  · rintro e ⟨v, _, rfl⟩; exact ⟨rfl, rfl, .inr ⟨_, rfl⟩⟩

theorem once_enumValuesSameName : Once (Affected.Exists P Q) (checkEnumValuesSameName o site (ws P) y) (fun _ => True) := by
  unfold checkEnumValuesSameName forEachEnumValuePair
  refine once_enums o site R y fun site p hp path a b ha => ?_
  rw [wenum_values]
  refine (once_loop_pair o _ (E := fun (v : EnumValue) e => e = ⟨p.name, path, .enumValue a.name v.number⟩)
    (key' := fun v : EnumValue => v.number) (missing := fun v => .ok [])
    kmap_keys_nodup ?_ (fun _ _ => once_nil) ?_).mono ?_
  · rintro a _ b _ e rfl h2
    simpa using h2
  · intro v hv b
    exact once_ite (once_add rfl ⟨p, hp, rfl, a, ha, rfl, v, mem_of_kmap hv, rfl⟩
      (by simp [Affected.named, enumValuesSameNameText, quotedNumber])) once_nil
  · rintro e ⟨v, _, rfl⟩; exact ⟨rfl, rfl, .inr ⟨_, rfl⟩⟩

theorem once_enumsNotDeleted : Once (Affected.Exists P Q) (checkEnumsNotDeleted o site (ws P) y) (fun _ => True) := by
  have key : ∀ p ∈ P, ∀ path (es : List Enum) (to : List XEnum) site, (es.map (·.name)).Nodup →
      (∀ e ∈ es, EnumAt p path e) → Once (Affected.Exists P Q) (checkEnumsNotDeletedMap o site (es.map fun e => newEnum e (fullName p.name path)) to)
        (fun e => e.package = p.name ∧ e.scope = path) := by
    intro p hp path es to site hn hin
    unfold checkEnumsNotDeletedMap
    refine (once_loop_pair o _ (E := fun (a : Enum) e => e = ⟨p.name, path, .enum a.name⟩)
      (u := fun e => newEnum e (fullName p.name path))
      (missing := fun e => addFailure (enumsNotDeletedText e.fqn))
      (g := fun _ _ => .ok []) hn ?_ ?_ (fun _ _ _ => once_nil)).mono ?_
    · rintro a _ b _ e rfl h2
      simpa using h2
    · intro a ha
      rw [newEnum_eq (fullName_ne_nil (R.ok p hp).name path), ← fullName_append]
      exact once_add rfl ⟨p, hp, rfl, a, hin a ha, rfl⟩ (by simp [Affected.named, enumsNotDeletedText, wenum])
    · rintro e ⟨a, _, rfl⟩; exact ⟨rfl, rfl⟩
  unfold checkEnumsNotDeleted
  have h1 := once_packages o (s%"1" :: site) R y
    (f := fun site p q => checkEnumsNotDeletedMap o site p.enums q.enums)
    (E := fun p e => e.package = p.name ∧ e.scope = []) (fun p e h => h.1) (by
      intro site p hp q
      exact key p hp [] p.enums q.enums site (R.ok p hp).enum_names fun e he => .top he)
  have h2 := once_messages o (s%"2" :: site) R y
    (f := fun site m m' => checkEnumsNotDeletedMap o site m.nestedEnums m'.nestedEnums) (by
      intro site p hp path m m' hm
      rw [wmsg_enums]
      exact key p hp path m.nestedEnums m'.nestedEnums site (messageOK_old R hp hm).enum_names
        fun e he => .nested hm he)
  refine (once_andThen h1 h2 ?_).mono fun _ _ => trivial
  rintro e ⟨p, _, _, h⟩ h'
  exact h' h

omit R in
theorem once_messagesNotDeletedLoop (pk : Str) (ms : List Message) :
    ∀ (ms' : List XMessage) (enclosing : Str) (path : List Str) (site : Site), DistinctNames ms →
      (∀ path' m, MessageAt ms path' m → ∃ p ∈ P, p.name = pk ∧ MessageAt p.messages (path ++ path') m) →
      enclosing ≠ [] → enclosing = fullName pk path →
      Once (Affected.Exists P Q) (loop o site (messagesNotDeletedBodies o site
          (ms.map fun m => wmsg m (getFullyQualifiedName enclosing m.name)) ms'))
        (fun e => e.package = pk ∧ ∃ m ∈ ms, e = ⟨pk, path, .message m.name⟩ ∨ path ++ [m.name] <+: e.scope) := by
  let C : List Message → Prop := fun ms =>
    ∀ (ms' : List XMessage) (enclosing : Str) (path : List Str) (site : Site), DistinctNames ms →
      (∀ path' m, MessageAt ms path' m → ∃ p ∈ P, p.name = pk ∧ MessageAt p.messages (path ++ path') m) →
      enclosing ≠ [] → enclosing = fullName pk path →
      Once (Affected.Exists P Q) (loop o site (messagesNotDeletedBodies o site
          (ms.map fun m => wmsg m (getFullyQualifiedName enclosing m.name)) ms'))
        (fun e => e.package = pk ∧ ∃ m ∈ ms, e = ⟨pk, path, .message m.name⟩ ∨ path ++ [m.name] <+: e.scope)
  have hstep : ∀ ms : List Message, (∀ m ∈ ms, C m.nestedMessages) → C ms := by
    intro ms ih ms' enclosing path site hd hin hne henc
    rw [messagesNotDeletedBodies_eq]
    refine (once_loop_pair o site (l := ms) (key' := Message.name)
      (E := fun m e => e.package = pk ∧ (e = ⟨pk, path, .message m.name⟩ ∨ path ++ [m.name] <+: e.scope))
      (u := fun m => wmsg m (getFullyQualifiedName enclosing m.name))
      (missing := fun m => addFailure (messagesNotDeletedText m.fqn))
      (g := messagesNotDeletedRec o site) hd.1 ?_ ?_ ?_).mono ?_
    · rintro a _ b _ e ⟨_, h1⟩ ⟨_, h2⟩
      rcases h1 with rfl | ⟨r, h1⟩
      · rcases h2 with h2 | h2
        · simpa using h2
        · have := h2.length_le
          simp at this
          omega
      · rcases h2 with rfl | ⟨r', h2⟩
        · have := congrArg List.length h1
          simp at this
        · rw [← h2] at h1
          simp only [List.append_assoc, List.append_cancel_left_eq, List.cons_append, List.nil_append,
            List.cons.injEq] at h1
          exact h1.1
    · intro a ha
      rw [wmsg_fqn, gfn_eq hne, henc, ← fullName_append]
      obtain ⟨p, hp, hpk, hm⟩ := hin _ a (.here ha)
      exact once_add ⟨rfl, .inl rfl⟩ ⟨p, hp, hpk, a, hm⟩ (by simp [Affected.named, messagesNotDeletedText])
    · intro a ha b
      rw [messagesNotDeletedRec_eq, wmsg_nested]
      refine (ih a ha b.nestedMessages (getFullyQualifiedName enclosing a.name) (path ++ [a.name]) _
        (hd.nested ha) ?_ ?_ ?_).mono ?_
      · intro path' m hm
        rw [List.append_assoc]
        exact hin _ m (.inside ha hm)
      · rw [gfn_eq hne]; exact fullName_ne_nil hne _
      · rw [gfn_eq hne, henc, ← fullName_append]
      · rintro e ⟨h1, m, _, rfl | h2⟩
        · exact ⟨rfl, .inr (List.prefix_refl _)⟩
        · exact ⟨h1, .inr ((List.prefix_append _ _).trans h2)⟩
    · rintro e ⟨a, ha, h1, h2⟩; exact ⟨h1, a, ha, h2⟩
  exact hstep ms fun m _ => msg_induct (P := fun m => C m.nestedMessages)
    (fun m ih => hstep m.nestedMessages ih) m

theorem once_messagesNotDeleted : Once (Affected.Exists P Q) (checkMessagesNotDeleted o site (ws P) y) (fun _ => True) := by
  unfold checkMessagesNotDeleted
  refine (once_packages o site R y (E := fun p e => e.package = p.name) (fun p e h => h) ?_).mono
    fun _ _ => trivial
  intro site p hp q
  exact (once_messagesNotDeletedLoop o p.name p.messages q.messages p.name [] site
    (distinct_of_ok (R.ok p hp)) (fun path m hm => ⟨p, hp, rfl, hm⟩) (R.ok p hp).name rfl).mono fun e h => h.1

theorem once_servicesNotDeleted : Once (Affected.Exists P Q) (checkServicesNotDeleted o site (ws P) y) (fun _ => True) := by
  unfold checkServicesNotDeleted
  refine (once_packages o site R y (E := fun p e => e.package = p.name) (fun p e h => h) ?_).mono
    fun _ _ => trivial
  intro site p hp q
  simp only [wpkg]
  refine Once.mono (once_loop_missing o _ (fun s => ⟨p.name, [], .service s.name⟩)
    (R.ok p hp).service_names ?_ ?_ ?_) ?_
  · exact fun a b h => by simpa using h
  · exact fun s hs => ⟨rfl, p, hp, rfl, s, hs, rfl⟩
  · exact fun s _ => by rw [gfn_eq (R.ok p hp).name]; simp [Affected.named, servicesNotDeletedText]
  · rintro e ⟨a, _, rfl⟩; rfl

theorem once_methodsNotDeleted : Once (Affected.Exists P Q) (checkServiceMethodsNotDeleted o site (ws P) y) (fun _ => True) := by
  unfold checkServiceMethodsNotDeleted
  refine once_services o site R y ?_
  intro site p hp s hs b
  simp only [wservice]
  refine Once.mono (once_loop_missing o _ (fun m => ⟨p.name, [], .method s.name m.name⟩)
    ((R.ok p hp).method_names s hs) ?_ ?_ ?_) ?_
  · exact fun a b h => by simpa using h
  · exact fun m hm => ⟨rfl, p, hp, rfl, s, hs, rfl, m, hm, rfl⟩
  · exact fun s _ => by simp [Affected.named, serviceMethodsNotDeletedText]
  · rintro e ⟨a, _, rfl⟩; exact ⟨rfl, .inr ⟨_, rfl⟩⟩

theorem once_request : Once (Affected.Exists P Q) (checkServiceMethodsSameRequestType o site (ws P) y) (fun _ => True) := by
  refine once_methods o site R y fun p hp s hs m hm b => ?_
  exact once_ite (once_add rfl ⟨rfl, p, hp, rfl, s, hs, rfl, m, hm, rfl⟩ (by simp [Affected.named, serviceMethodsSameRequestTypeText])) once_nil

theorem once_response : Once (Affected.Exists P Q) (checkServiceMethodsSameResponseType o site (ws P) y) (fun _ => True) := by
  refine once_methods o site R y fun p hp s hs m hm b => ?_
  exact once_ite (once_add rfl ⟨rfl, p, hp, rfl, s, hs, rfl, m, hm, rfl⟩ (by simp [Affected.named, serviceMethodsSameResponseTypeText])) once_nil

theorem once_client : Once (Affected.Exists P Q) (checkServiceMethodsSameClientStreaming o site (ws P) y) (fun _ => True) := by
  refine once_methods o site R y fun p hp s hs m hm b => ?_
  exact once_ite (once_add rfl ⟨rfl, p, hp, rfl, s, hs, rfl, m, hm, rfl⟩ (by simp [Affected.named, serviceMethodsSameClientStreamingText])) once_nil

theorem once_server : Once (Affected.Exists P Q) (checkServiceMethodsSameServerStreaming o site (ws P) y) (fun _ => True) := by
  refine once_methods o site R y fun p hp s hs m hm b => ?_
  exact once_ite (once_add rfl ⟨rfl, p, hp, rfl, s, hs, rfl, m, hm, rfl⟩ (by simp [Affected.named, serviceMethodsSameServerStreamingText])) once_nil

omit R in
theorem once_betaDeps (frm : XPackageSet) (hn : (Q.map (·.name)).Nodup)
    (hd : ∀ q ∈ Q, q.dependencyNames.Nodup) :
    Once (Affected.Exists P Q) (checkPackagesNoBetaDeps o site frm (ws Q)) (fun _ => True) := by
  unfold checkPackagesNoBetaDeps ws
  rw [List.map_map]
  refine (once_loop o site (E := fun (q : Package) e => e.package = q.name) ?_ ?_).mono fun _ _ => trivial
  · exact pairwise_of_keys hn fun a _ b _ e h1 h2 => h1.symm.trans h2
  · intro q hq fs hfs
    simp only [Function.comp_apply, Except.ok.injEq, wpkg] at hfs
    subst hfs
    refine ⟨(q.dependencyNames.filter (ignorePackage true)).map fun d => ⟨q.name, [], .dependency d⟩,
      ?_, ?_, ?_⟩
    · refine List.pairwise_map.2 (((hd q hq).filter _).imp ?_)
      intro a b hab h
      exact hab (by simpa using h)
    · generalize q.dependencyNames.filter (ignorePackage true) = l
      induction l with
      | nil => exact .nil
      | cons d l ih =>
        exact .cons (by simp [Affected.named, packagesNoBetaDepsText, newTextFailure]) ih
    · intro e he
      obtain ⟨d, hd, rfl⟩ := List.mem_map.1 he
      exact ⟨rfl, rfl, q, hq, rfl, (List.mem_filter.1 hd).1⟩

theorem once_all : ∀ c ∈ allCheckers, Once (Affected.Exists P Q) (c.check o [c.id] (ws P) y) (fun _ => True) := by
  intro c hc
  simp only [allCheckers, List.mem_cons, List.not_mem_nil, or_false] at hc
  rcases hc with rfl | rfl | rfl | rfl | rfl | rfl | rfl | rfl | rfl | rfl | rfl | rfl | rfl | rfl |
    rfl | rfl | rfl | rfl
  · exact once_enumsNotDeleted o _ R y
  · exact once_enumValuesNotDeleted o _ R y
  · exact once_enumValuesSameName o _ R y
  · exact once_messagesNotDeleted o _ R y
  · exact once_fieldsNotDeleted o _ R y
  · exact once_sameLabel o _ R y
  · exact once_sameName o _ R y
  · exact once_sameOneof o _ R y
  · exact once_sameType o _ R y
  · exact once_oneofsNotDeleted o _ R y
  · exact once_oneofFields o _ R y
  · exact once_packagesNotDeleted o _ R y
  · exact once_servicesNotDeleted o _ R y
  · exact once_methodsNotDeleted o _ R y
  · exact once_client o _ R y
  · exact once_request o _ R y
  · exact once_response o _ R y
  · exact once_server o _ R y

omit R in
theorem active_ids (config : BreakConfig) : ((activeCheckers config).map (·.id)).Nodup := by
  unfold activeCheckers
  split <;> decide +kernel

theorem eachOnce_run (hn : (Q.map (·.name)).Nodup)
    (hd : ∀ q ∈ Q, q.dependencyNames.Nodup) (config : BreakConfig) {fs : List Failure}
    (h : runCheckers o config (ws P) (ws Q) = .ok fs) : EachOnce P Q fs := by
  have hc : ∀ c ∈ activeCheckers config, Once (Affected.Exists P Q) (c.check o [c.id] (ws P) (ws Q)) (fun _ => True) := by
    intro c hc
    unfold activeCheckers at hc
    split at hc
    · rcases List.mem_append.1 hc with hc | hc
      · exact once_all o R _ c hc
      · simp only [List.mem_singleton] at hc
        subst hc
        exact once_betaDeps o _ (ws P) hn hd
    · exact once_all o R _ c hc
  unfold runCheckers at h
  have hids := active_ids config
  generalize activeCheckers config = cs at hc h hids
  suffices hs : ∃ es : List (Str × Affected), es.Nodup ∧
      Pointwise (fun e (f : Failure) => f.lintID = e.1 ∧ e.2.named <+: f.message) es fs ∧
      ∀ e ∈ es, e.1 ∈ cs.map (·.id) ∧ e.2.Exists P Q by
    obtain ⟨es, h1, h2, h3⟩ := hs
    exact ⟨es, h1, fun e he => (h3 e he).2, h2⟩
  induction cs generalizing fs with
  | nil => cases h; exact ⟨[], List.nodup_nil, .nil, by simp⟩
  | cons c cs ih =>
    rw [List.map_cons] at h
    unfold runChecker at h
    cases hr : c.check o [c.id] (ws P) (ws Q) with
    | error e => rw [hr] at h; cases h
    | ok as =>
      rw [hr] at h
      dsimp only at h
      rw [seqRes] at h
      split at h
      · cases h
      · rename_i bs hbs
        cases h
        obtain ⟨es, h1, h2, h3⟩ := hc c (by simp) as hr
        obtain ⟨es', h1', h2', h3'⟩ := ih (fun d hd => hc d (by simp [hd])) hbs (by
          rw [List.map_cons] at hids; exact hids.of_cons)
        refine ⟨es.map (fun e => (c.id, e)) ++ es', ?_, pointwise_append ?_ h2', ?_⟩
        · refine List.nodup_append.2 ⟨List.pairwise_map.2 (h1.imp fun hab h => hab (by simpa using h)), h1', ?_⟩
          rintro x hx x' hx' rfl
          obtain ⟨e, _, rfl⟩ := List.mem_map.1 hx
          rw [List.map_cons, List.nodup_cons] at hids
          exact hids.1 (h3' _ hx').1
        · clear hr h1 h3
          induction h2 with
          | nil => exact .nil
          | cons h _ ih => exact .cons ⟨rfl, h⟩ ih
        · intro e he
          rcases List.mem_append.1 he with he | he
          · obtain ⟨x, hx, rfl⟩ := List.mem_map.1 he
            exact ⟨by simp, (h3 x hx).2⟩
          · rw [List.map_cons]
            exact ⟨List.mem_cons_of_mem _ (h3' e he).1, (h3' e he).2⟩

end Verif.Proof.Breaking
