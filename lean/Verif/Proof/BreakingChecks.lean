import Verif.Proof.Breaking

/-! # Each check reports exactly the documented changes -/

namespace Verif.Proof.Breaking

open Verif Reflect Verif.Extract Verif.Breaking Text Spec Proof.Extract

/-- The documented changes for one check. -/
def documented (P Q : List Package) (id : Str) : Claim :=
  fun x => ∃ msg, Reported P Q id msg ∧ x = some (newTextFailure msg)

theorem messageAt_unique {ms : List Message} (hd : DistinctNames ms) {path : List Str} {m m' : Message}
    (h : MessageAt ms path m) (h' : MessageAt ms path m') : m = m' := by
  induction path generalizing ms with
  | nil => cases h
  | cons n path ih =>
    generalize hp : n :: path = p at h h'
    cases h with
    | here hm =>
      generalize hq : [m.name] = p at h'
      cases h' with
      | here hm' =>
        simp only [List.cons.injEq, and_true] at hq
        exact eq_of_key_eq hd.1 hm hm' hq
      | inside _ hin =>
        simp only [List.cons.injEq] at hq
        rw [← hq.2] at hin; cases hin
    | inside hm hin =>
      rename_i a path1
      generalize hq : a.name :: path1 = p at h'
      cases h' with
      | here hm' =>
        simp only [List.cons.injEq] at hq
        rw [hq.2] at hin; cases hin
      | inside hm' hin' =>
        simp only [List.cons.injEq] at hq hp
        obtain ⟨hn, rfl⟩ := hq
        obtain ⟨_, rfl⟩ := hp
        have := eq_of_key_eq hd.1 hm hm' hn
        subst this
        exact ih (hd.nested hm) hin hin'

theorem kset_map {α β κ : Type} [DecidableEq κ] (key : β → κ) (g : α → β) (l : List α) (a : α) :
    kset key (l.map g) (g a) = (kset (fun a => key (g a)) l a).map g := by
  induction l with
  | nil => rfl
  | cons x xs ih =>
    simp only [List.map_cons, kset]
    split
    · rfl
    · rw [ih]; rfl

theorem kmap_map {α β κ : Type} [DecidableEq κ] (key : β → κ) (g : α → β) (l : List α) :
    kmap key (l.map g) = (kmap (fun a => key (g a)) l).map g := by
  unfold kmap
  suffices h : ∀ acc : List α, (l.map g).foldl (kset key) (acc.map g) =
      (l.foldl (kset fun a => key (g a)) acc).map g by simpa using h []
  induction l with
  | nil => intro acc; rfl
  | cons a l ih => intro acc; simp only [List.map_cons, List.foldl_cons]; rw [kset_map, ih]

theorem wenum_values (e : Enum) (name : Str) : (wenum e name).valueNumberToValue =
    (kmap (fun v : EnumValue => v.number) e.values).map fun v => ⟨v, name⟩ := by
  simp only [wenum]; rw [kmap_map]

/-- The values that count are those under which the numbers are known. -/
theorem mem_values {e : Enum} {v : EnumValue} :
    v ∈ kmap (fun v : EnumValue => v.number) e.values ↔ knownAs e v.number = some v.name := by
  rw [mem_kmap_iff]
  unfold knownAs
  constructor
  · intro h; rw [h]; rfl
  · intro h
    cases hl : (e.values.filter fun b => b.number = v.number).getLast? with
    | none => rw [hl] at h; cases h
    | some u =>
      rw [hl] at h
      have hu := (List.mem_filter.1 (List.mem_of_getLast? hl)).2
      simp only [decide_eq_true_eq] at hu
      simp only [Option.map_some, Option.some.injEq] at h
      cases u; cases v; simp_all

theorem knownAs_iff {e : Enum} {n : Int} {a : Str} :
    knownAs e n = some a ↔ (⟨a, n⟩ : EnumValue) ∈ kmap (fun v : EnumValue => v.number) e.values :=
  (mem_values (v := ⟨a, n⟩)).symm

theorem knownAs_none {e : Enum} {n : Int} :
    knownAs e n = none ↔ ∀ v ∈ kmap (fun v : EnumValue => v.number) e.values, v.number ≠ n := by
  constructor
  · intro h v hv hn
    rw [mem_values, hn, h] at hv
    cases hv
  · intro h
    cases hk : knownAs e n with
    | none => rfl
    | some a => exact absurd rfl (h _ (knownAs_iff.1 hk))

theorem oneofOf_eq (m : Message) (n : Int) : oneofOf m n = (oneofFor m.oneofs n).map (·.name) := rfl

theorem labelString_ok {n : Int} (h : 1 ≤ n ∧ n ≤ 3) : labelString n = .ok (labelKeyword n) := by
  have : n = 1 ∨ n = 2 ∨ n = 3 := by omega
  rcases this with rfl | rfl | rfl <;> rfl

theorem typeString_ok {n : Int} (h : 1 ≤ n ∧ n ≤ 18) : typeString n = .ok (typeKeyword n) := by
  have : n = 1 ∨ n = 2 ∨ n = 3 ∨ n = 4 ∨ n = 5 ∨ n = 6 ∨ n = 7 ∨ n = 8 ∨ n = 9 ∨ n = 10 ∨ n = 11 ∨
    n = 12 ∨ n = 13 ∨ n = 14 ∨ n = 15 ∨ n = 16 ∨ n = 17 ∨ n = 18 := by omega
  rcases this with rfl | rfl | rfl | rfl | rfl | rfl | rfl | rfl | rfl | rfl | rfl | rfl | rfl | rfl |
    rfl | rfl | rfl | rfl <;> rfl

theorem hasTypeName_iff {n : Int} : hasTypeName n = true ↔ NamesType n := by
  simp only [hasTypeName, NamesType, Bool.or_eq_true, decide_eq_true_eq]
  omega

variable {P Q : List Package} (o : Order) (site : Site)

theorem packagesNotDeleted_yields (R : Ready P Q) : Yields (checkPackagesNotDeleted o site (ws P) (ws Q))
    (documented P Q (s%"PACKAGES_NOT_DELETED")) := by
  unfold checkPackagesNotDeleted
  refine Yields.congr (yields_loop_missing o site (l := P) (l' := Q) (u := wpkg) (v := wpkg) ?_) fun x => ?_
  · exact R.names
  · constructor
    · rintro ⟨p, hp, hn, rfl⟩
      exact ⟨_, .packageDeleted hp hn, rfl⟩
    · rintro ⟨_, h, rfl⟩
      generalize hid : s%"PACKAGES_NOT_DELETED" = id at h
      cases h with
      | packageDeleted hp hn => exact ⟨_, hp, hn, rfl⟩
      | _ => exact absurd hid (by decide)

theorem messageFieldsNotDeleted_yields (R : Ready P Q) : Yields (checkMessageFieldsNotDeleted o site (ws P) (ws Q))
    (documented P Q (s%"MESSAGE_FIELDS_NOT_DELETED")) := by
  unfold checkMessageFieldsNotDeleted
  refine (messagePairs R o site (T := fun name m m' x => ∃ f ∈ m.fields,
    (∀ f' ∈ m'.fields, f'.number ≠ f.number) ∧
    x = some (newTextFailure (messageFieldsNotDeletedText name f.number))) ?_).congr fun x => ?_
  · intro site name m m' hm
    rw [wmsg_fields, wmsg_fields, wmsg_fqn]
    refine yields_loop_missing o _ ?_
    exact (messageOK_right R hm).field_numbers
  · constructor
    · rintro ⟨name, m, m', hm, f, hf, hn, rfl⟩
      exact ⟨_, .fieldDeleted hm hf hn, by simp [messageFieldsNotDeletedText, quotedNumber]⟩
    · rintro ⟨_, h, rfl⟩
      generalize hid : s%"MESSAGE_FIELDS_NOT_DELETED" = id at h
      cases h with
      | fieldDeleted hm hf hn => exact ⟨_, _, _, hm, _, hf, hn, by simp [messageFieldsNotDeletedText, quotedNumber]⟩
      | _ => exact absurd hid (by decide)

theorem messageOneofsNotDeleted_yields (R : Ready P Q) : Yields (checkMessageOneofsNotDeleted o site (ws P) (ws Q))
    (documented P Q (s%"MESSAGE_ONEOFS_NOT_DELETED")) := by
  unfold checkMessageOneofsNotDeleted
  refine (messagePairs R o site (T := fun name m m' x => ∃ f ∈ m.oneofs,
    (∀ f' ∈ m'.oneofs, f'.name ≠ f.name) ∧
    x = some (newTextFailure (messageOneofsNotDeletedText name f.name))) ?_).congr fun x => ?_
  · intro site name m m' hm
    rw [wmsg_oneofs, wmsg_oneofs, wmsg_fqn]
    refine yields_loop_missing o _ ?_
    exact (messageOK_right R hm).oneof_names
  · constructor
    · rintro ⟨name, m, m', hm, f, hf, hn, rfl⟩
      exact ⟨_, .oneofDeleted hm hf hn, rfl⟩
    · rintro ⟨_, h, rfl⟩
      generalize hid : s%"MESSAGE_ONEOFS_NOT_DELETED" = id at h
      cases h with
      | oneofDeleted hm hf hn => exact ⟨_, _, _, hm, _, hf, hn, rfl⟩
      | _ => exact absurd hid (by decide)

theorem messageOneofsFieldsNotRemoved_yields (R : Ready P Q) : Yields (checkMessageOneofsFieldsNotRemoved o site (ws P) (ws Q))
    (documented P Q (s%"MESSAGE_ONEOFS_FIELDS_NOT_REMOVED")) := by
  unfold checkMessageOneofsFieldsNotRemoved
  refine (oneofPairs R o site (T := fun name m m' w w' x => ∃ n ∈ w.fieldNumbers.foldl setInsert [],
    n ∉ w'.fieldNumbers ∧
    x = some (newTextFailure (messageOneofsFieldsNotRemovedText name w.name n))) ?_).congr fun x => ?_
  · intro site name m m' w w' hm hw hw' hn
    refine yields_loop o _ ?_
    intro n hn
    split
    · rename_i h
      refine yields_nil.congr fun x => ?_
      simp [mem_foldl_setInsert] at h
      simp [h]
    · rename_i h
      refine (yields_add _).congr fun x => ?_
      simp [mem_foldl_setInsert] at h
      simp [h]
  · constructor
    · rintro ⟨name, m, m', hm, w, hw, w', hw', hn, n, hm1, hm2, rfl⟩
      simp only [mem_foldl_setInsert, List.not_mem_nil, false_or] at hm1
      exact ⟨_, .fieldRemovedFromOneof hm hw hw' hn hm1 hm2,
        by simp [messageOneofsFieldsNotRemovedText, quotedNumber]⟩
    · rintro ⟨_, h, rfl⟩
      generalize hid : s%"MESSAGE_ONEOFS_FIELDS_NOT_REMOVED" = id at h
      cases h with
      | fieldRemovedFromOneof hm hw hw' hn hm1 hm2 =>
        exact ⟨_, _, _, hm, _, hw, _, hw', hn, _, by simpa [mem_foldl_setInsert] using hm1, hm2,
          by simp [messageOneofsFieldsNotRemovedText, quotedNumber]⟩
      | _ => exact absurd hid (by decide)

theorem messageFieldsSameName_yields (R : Ready P Q) : Yields (checkMessageFieldsSameName o site (ws P) (ws Q))
    (documented P Q (s%"MESSAGE_FIELDS_SAME_NAME")) := by
  unfold checkMessageFieldsSameName
  refine (fieldPairs R o site (T := fun name m m' a b x => a.name ≠ b.name ∧
    x = some (newTextFailure (messageFieldsSameNameText name a.number a.name b.name))) ?_).congr fun x => ?_
  · intro name m m' a b hm ha hb hab
    split
    · rename_i h
      refine (yields_add _).congr fun x => ?_
      simp only at h
      simp [h]
    · rename_i h
      refine yields_nil.congr fun x => ?_
      simp only at h
      simp [h]
  · constructor
    · rintro ⟨name, m, m', hm, a, ha, b, hb, hab, hne, rfl⟩
      exact ⟨_, .fieldRenamed ⟨m, m', hm, ha, hb, hab⟩ hne,
        by simp [messageFieldsSameNameText, quotedNumber]⟩
    · rintro ⟨_, h, rfl⟩
      generalize hid : s%"MESSAGE_FIELDS_SAME_NAME" = id at h
      cases h with
      | fieldRenamed hp hne =>
        obtain ⟨m, m', hm, ha, hb, hab⟩ := hp
        exact ⟨_, m, m', hm, _, ha, _, hb, hab, hne, by simp [messageFieldsSameNameText, quotedNumber]⟩
      | _ => exact absurd hid (by decide)

theorem messageFieldsSameLabel_yields (R : Ready P Q) : Yields (checkMessageFieldsSameLabel o site (ws P) (ws Q))
    (documented P Q (s%"MESSAGE_FIELDS_SAME_LABEL")) := by
  unfold checkMessageFieldsSameLabel
  refine (fieldPairs R o site (T := fun name m m' a b x => a.label ≠ b.label ∧
    x = some (newTextFailure (messageFieldsSameLabelText name a.number (labelKeyword a.label)
      (labelKeyword b.label)))) ?_).congr fun x => ?_
  · intro name m m' a b hm ha hb hab
    unfold sameLabelField
    dsimp only
    rw [labelString_ok ((messageOK_left R hm).labels a ha),
      labelString_ok ((messageOK_right R hm).labels b hb)]
    split
    · rename_i h
      refine (yields_add _).congr fun x => ?_
      simp [h]
    · rename_i h
      refine yields_nil.congr fun x => ?_
      simp [h]
  · constructor
    · rintro ⟨name, m, m', hm, a, ha, b, hb, hab, hne, rfl⟩
      exact ⟨_, .fieldLabelChanged ⟨m, m', hm, ha, hb, hab⟩ hne,
        by simp [messageFieldsSameLabelText, quotedNumber]⟩
    · rintro ⟨_, h, rfl⟩
      generalize hid : s%"MESSAGE_FIELDS_SAME_LABEL" = id at h
      cases h with
      | fieldLabelChanged hp hne =>
        obtain ⟨m, m', hm, ha, hb, hab⟩ := hp
        exact ⟨_, m, m', hm, _, ha, _, hb, hab, hne, by simp [messageFieldsSameLabelText, quotedNumber]⟩
      | _ => exact absurd hid (by decide)

theorem messageFieldsSameType_yields (R : Ready P Q) : Yields (checkMessageFieldsSameType o site (ws P) (ws Q))
    (documented P Q (s%"MESSAGE_FIELDS_SAME_TYPE")) := by
  unfold checkMessageFieldsSameType
  refine (fieldPairs R o site (T := fun name m m' a b x => (a.type ≠ b.type ∧
    x = some (newTextFailure (messageFieldsSameTypeText name a.number (typeKeyword a.type)
      (typeKeyword b.type)))) ∨ (a.type = b.type ∧ NamesType a.type ∧ a.typeName ≠ b.typeName ∧
    x = some (newTextFailure (messageFieldsSameTypeText name a.number a.typeName
      b.typeName)))) ?_).congr fun x => ?_
  · intro name m m' a b hm ha hb hab
    unfold sameTypeField
    dsimp only
    rw [typeString_ok ((messageOK_left R hm).types a ha),
      typeString_ok ((messageOK_right R hm).types b hb)]
    split
    · rename_i h
      refine (yields_add _).congr fun x => ?_
      simp [h]
    · rename_i h
      simp only [ne_eq, Decidable.not_not] at h
      split
      · rename_i ht
        rw [hasTypeName_iff] at ht
        rw [if_neg ((messageOK_left R hm).type_names a ha ht),
          if_neg ((messageOK_right R hm).type_names b hb (h ▸ ht))]
        split
        · rename_i hne
          refine (yields_add _).congr fun x => ?_
          simp [h, h ▸ ht, hne]
        · rename_i hne
          simp only [ne_eq, Decidable.not_not] at hne
          refine yields_nil.congr fun x => ?_
          simp [h, hne]
      · rename_i ht
        rw [hasTypeName_iff] at ht
        refine yields_nil.congr fun x => ?_
        simp [h, h ▸ ht]
  · constructor
    · rintro ⟨name, m, m', hm, a, ha, b, hb, hab, ⟨hne, rfl⟩ | ⟨h, ht, hne, rfl⟩⟩
      · exact ⟨_, .fieldTypeChanged ⟨m, m', hm, ha, hb, hab⟩ hne,
          by simp [messageFieldsSameTypeText, quotedNumber]⟩
      · exact ⟨_, .fieldTypeNameChanged ⟨m, m', hm, ha, hb, hab⟩ h ht hne,
          by simp [messageFieldsSameTypeText, quotedNumber]⟩
    · rintro ⟨_, h, rfl⟩
      generalize hid : s%"MESSAGE_FIELDS_SAME_TYPE" = id at h
      cases h with
      | fieldTypeChanged hp hne =>
        obtain ⟨m, m', hm, ha, hb, hab⟩ := hp
        exact ⟨_, m, m', hm, _, ha, _, hb, hab, .inl ⟨hne, by simp [messageFieldsSameTypeText, quotedNumber]⟩⟩
      | fieldTypeNameChanged hp h ht hne =>
        obtain ⟨m, m', hm, ha, hb, hab⟩ := hp
        exact ⟨_, m, m', hm, _, ha, _, hb, hab, .inr ⟨h, ht, hne, by simp [messageFieldsSameTypeText, quotedNumber]⟩⟩
      | _ => exact absurd hid (by decide)

theorem messageFieldsSameOneof_yields (R : Ready P Q) : Yields (checkMessageFieldsSameOneof o site (ws P) (ws Q))
    (documented P Q (s%"MESSAGE_FIELDS_SAME_ONEOF")) := by
  unfold checkMessageFieldsSameOneof
  refine (fieldPairs R o site (T := fun name m m' a b x => ∃ w, oneofOf m a.number = none ∧
    oneofOf m' a.number = some w ∧
    x = some (newTextFailure (messageFieldsSameOneofText name a.number w))) ?_).congr fun x => ?_
  · intro name m m' a b hm ha hb hab
    rw [hab, oneofOf_eq, oneofOf_eq]
    dsimp only
    cases h1 : oneofFor m.oneofs a.number <;> cases h2 : oneofFor m'.oneofs a.number <;> dsimp only
    · refine yields_nil.congr fun x => ?_
      simp
    · refine (yields_add _).congr fun x => ?_
      simp
    · refine yields_nil.congr fun x => ?_
      simp
    · refine yields_nil.congr fun x => ?_
      simp
  · constructor
    · rintro ⟨name, m, m', hm, a, ha, b, hb, hab, w, h1, h2, rfl⟩
      exact ⟨_, .fieldMovedIntoOneof hm ha hb hab h1 h2,
        by simp [messageFieldsSameOneofText, quotedNumber]⟩
    · rintro ⟨_, h, rfl⟩
      generalize hid : s%"MESSAGE_FIELDS_SAME_ONEOF" = id at h
      cases h with
      | fieldMovedIntoOneof hm ha hb hab h1 h2 =>
        exact ⟨_, _, _, hm, _, ha, _, hb, hab, _, h1, h2, by simp [messageFieldsSameOneofText, quotedNumber]⟩
      | _ => exact absurd hid (by decide)

theorem enumValuesNotDeleted_yields (R : Ready P Q) : Yields (checkEnumValuesNotDeleted o site (ws P) (ws Q))
    (documented P Q (s%"ENUM_VALUES_NOT_DELETED")) := by
  unfold checkEnumValuesNotDeleted
  refine (enumPairs R o site (T := fun name e e' x =>
    ∃ v ∈ kmap (fun v : EnumValue => v.number) e.values,
    (∀ v' ∈ kmap (fun v : EnumValue => v.number) e'.values, v'.number ≠ v.number) ∧
    x = some (newTextFailure (enumValuesNotDeletedText name v.number))) ?_).congr fun x => ?_
  · intro site name e e' he
    rw [wenum_values, wenum_values]
    refine yields_loop_missing o _ ?_
    exact kmap_keys_nodup
  · constructor
    · rintro ⟨name, e, e', he, v, hv, hn, rfl⟩
      exact ⟨_, .enumValueDeleted he (mem_values.1 hv) (knownAs_none.2 hn),
        by simp [enumValuesNotDeletedText, quotedNumber]⟩
    · rintro ⟨_, h, rfl⟩
      generalize hid : s%"ENUM_VALUES_NOT_DELETED" = id at h
      cases h with
      | enumValueDeleted he h1 h2 =>
        exact ⟨_, _, _, he, _, knownAs_iff.1 h1, knownAs_none.1 h2, by simp [enumValuesNotDeletedText, quotedNumber]⟩
      | _ => exact absurd hid (by decide)

theorem enumValuesSameName_yields (R : Ready P Q) : Yields (checkEnumValuesSameName o site (ws P) (ws Q))
    (documented P Q (s%"ENUM_VALUES_SAME_NAME")) := by
  unfold checkEnumValuesSameName
  unfold forEachEnumValuePair
  refine (enumPairs R o site (T := fun name e e' x =>
    ∃ v ∈ kmap (fun v : EnumValue => v.number) e.values,
    ∃ v' ∈ kmap (fun v : EnumValue => v.number) e'.values, v'.number = v.number ∧ (v.name ≠ v'.name ∧
    x = some (newTextFailure (enumValuesSameNameText name v.number v.name v'.name)))) ?_).congr fun x => ?_
  · intro site name e e' he
    rw [wenum_values, wenum_values]
    refine yields_loop_both o _ ?_ ?_
    · exact kmap_keys_nodup
    · intro v hv v' hv' hvv
      dsimp only
      split
      · rename_i h
        refine (yields_add _).congr fun x => ?_
        simp [h]
      · rename_i h
        refine yields_nil.congr fun x => ?_
        simp [h]
  · constructor
    · rintro ⟨name, e, e', he, v, hv, v', hv', hvv, hne, rfl⟩
      exact ⟨_, .enumValueRenamed he (mem_values.1 hv) (hvv ▸ mem_values.1 hv') hne,
        by simp [enumValuesSameNameText, quotedNumber]⟩
    · rintro ⟨_, h, rfl⟩
      generalize hid : s%"ENUM_VALUES_SAME_NAME" = id at h
      cases h with
      | enumValueRenamed he h1 h2 hne =>
        exact ⟨_, _, _, he, _, knownAs_iff.1 h1, _, knownAs_iff.1 h2, rfl, hne, by simp [enumValuesSameNameText, quotedNumber]⟩
      | _ => exact absurd hid (by decide)

theorem servicesNotDeleted_yields (R : Ready P Q) : Yields (checkServicesNotDeleted o site (ws P) (ws Q))
    (documented P Q (s%"SERVICES_NOT_DELETED")) := by
  unfold checkServicesNotDeleted
  refine (packagePairs R o site (T := fun p q x => ∃ s ∈ p.services,
    (∀ s' ∈ q.services, s'.name ≠ s.name) ∧
    x = some (newTextFailure (servicesNotDeletedText (getFullyQualifiedName p.name s.name)))) ?_).congr fun x => ?_
  · intro site p q hpq
    simp only [wpkg]
    refine yields_loop_missing o _ ?_
    exact (R.right q hpq.2.1).service_names
  · constructor
    · rintro ⟨p, q, hpq, s, hs, hn, rfl⟩
      rw [gfn_eq (R.left p hpq.1).name]
      exact ⟨_, .serviceDeleted hpq hs hn, rfl⟩
    · rintro ⟨_, h, rfl⟩
      generalize hid : s%"SERVICES_NOT_DELETED" = id at h
      cases h with
      | serviceDeleted hpq hs hn =>
        exact ⟨_, _, hpq, _, hs, hn, by rw [gfn_eq (R.left _ hpq.1).name]; rfl⟩
      | _ => exact absurd hid (by decide)

theorem serviceMethodsNotDeleted_yields (R : Ready P Q) : Yields (checkServiceMethodsNotDeleted o site (ws P) (ws Q))
    (documented P Q (s%"SERVICE_METHODS_NOT_DELETED")) := by
  unfold checkServiceMethodsNotDeleted
  refine (servicePairs R o site (T := fun name s s' x => ∃ m ∈ s.methods,
    (∀ m' ∈ s'.methods, m'.name ≠ m.name) ∧
    x = some (newTextFailure (serviceMethodsNotDeletedText name m.name))) ?_).congr fun x => ?_
  · intro site name s s' hs
    simp only [wservice]
    refine yields_loop_missing o _ ?_
    exact methods_nodup R hs
  · constructor
    · rintro ⟨name, s, s', hs, m, hm, hn, rfl⟩
      exact ⟨_, .methodDeleted hs hm hn, rfl⟩
    · rintro ⟨_, h, rfl⟩
      generalize hid : s%"SERVICE_METHODS_NOT_DELETED" = id at h
      cases h with
      | methodDeleted hs hm hn => exact ⟨_, _, _, hs, _, hm, hn, rfl⟩
      | _ => exact absurd hid (by decide)

theorem serviceMethodsSameRequestType_yields (R : Ready P Q) : Yields (checkServiceMethodsSameRequestType o site (ws P) (ws Q))
    (documented P Q (s%"SERVICE_METHODS_SAME_REQUEST_TYPE")) := by
  unfold checkServiceMethodsSameRequestType
  refine (methodPairs R o site (T := fun name m m' x => m.requestTypeName ≠ m'.requestTypeName ∧
    x = some (newTextFailure (serviceMethodsSameRequestTypeText name m.name m.requestTypeName
      m'.requestTypeName))) ?_).congr fun x => ?_
  · intro name m m' hm
    split
    · rename_i h
      refine (yields_add _).congr fun x => ?_
      simp only at h
      simp [h]
    · rename_i h
      refine yields_nil.congr fun x => ?_
      simp only at h
      simp [h]
  · constructor
    · rintro ⟨name, m, m', hm, hne, rfl⟩
      exact ⟨_, .requestChanged hm hne, rfl⟩
    · rintro ⟨_, h, rfl⟩
      generalize hid : s%"SERVICE_METHODS_SAME_REQUEST_TYPE" = id at h
      cases h with
      | requestChanged hm hne => exact ⟨_, _, _, hm, hne, rfl⟩
      | _ => exact absurd hid (by decide)

theorem serviceMethodsSameResponseType_yields (R : Ready P Q) : Yields (checkServiceMethodsSameResponseType o site (ws P) (ws Q))
    (documented P Q (s%"SERVICE_METHODS_SAME_RESPONSE_TYPE")) := by
  unfold checkServiceMethodsSameResponseType
  refine (methodPairs R o site (T := fun name m m' x => m.responseTypeName ≠ m'.responseTypeName ∧
    x = some (newTextFailure (serviceMethodsSameResponseTypeText name m.name m.responseTypeName
      m'.responseTypeName))) ?_).congr fun x => ?_
  · intro name m m' hm
    split
    · rename_i h
      refine (yields_add _).congr fun x => ?_
      simp only at h
      simp [h]
    · rename_i h
      refine yields_nil.congr fun x => ?_
      simp only at h
      simp [h]
  · constructor
    · rintro ⟨name, m, m', hm, hne, rfl⟩
      exact ⟨_, .responseChanged hm hne, rfl⟩
    · rintro ⟨_, h, rfl⟩
      generalize hid : s%"SERVICE_METHODS_SAME_RESPONSE_TYPE" = id at h
      cases h with
      | responseChanged hm hne => exact ⟨_, _, _, hm, hne, rfl⟩
      | _ => exact absurd hid (by decide)

theorem serviceMethodsSameClientStreaming_yields (R : Ready P Q) : Yields (checkServiceMethodsSameClientStreaming o site (ws P) (ws Q))
    (documented P Q (s%"SERVICE_METHODS_SAME_CLIENT_STREAMING")) := by
  unfold checkServiceMethodsSameClientStreaming
  refine (methodPairs R o site (T := fun name m m' x => m.clientStreaming ≠ m'.clientStreaming ∧
    x = some (newTextFailure (serviceMethodsSameClientStreamingText name m.name
      m.clientStreaming))) ?_).congr fun x => ?_
  · intro name m m' hm
    split
    · rename_i h
      refine (yields_add _).congr fun x => ?_
      simp only at h
      simp [h]
    · rename_i h
      refine yields_nil.congr fun x => ?_
      simp only at h
      simp [h]
  · constructor
    · rintro ⟨name, m, m', hm, hne, rfl⟩
      cases h : m.clientStreaming with
      | false =>
        exact ⟨_, .clientStreamingStarted hm h (by simpa [h] using hne), by simp [serviceMethodsSameClientStreamingText]⟩
      | true =>
        exact ⟨_, .clientStreamingStopped hm h (by simpa [h] using hne), by simp [serviceMethodsSameClientStreamingText]⟩
    · rintro ⟨_, h, rfl⟩
      generalize hid : s%"SERVICE_METHODS_SAME_CLIENT_STREAMING" = id at h
      cases h with
      | clientStreamingStarted hm h1 h2 =>
        exact ⟨_, _, _, hm, by simp [h1, h2], by simp [serviceMethodsSameClientStreamingText, h1]⟩
      | clientStreamingStopped hm h1 h2 =>
        exact ⟨_, _, _, hm, by simp [h1, h2], by simp [serviceMethodsSameClientStreamingText, h1]⟩
      | _ => exact absurd hid (by decide)

theorem serviceMethodsSameServerStreaming_yields (R : Ready P Q) : Yields (checkServiceMethodsSameServerStreaming o site (ws P) (ws Q))
    (documented P Q (s%"SERVICE_METHODS_SAME_SERVER_STREAMING")) := by
  unfold checkServiceMethodsSameServerStreaming
  refine (methodPairs R o site (T := fun name m m' x => m.serverStreaming ≠ m'.serverStreaming ∧
    x = some (newTextFailure (serviceMethodsSameServerStreamingText name m.name
      m.serverStreaming))) ?_).congr fun x => ?_
  · intro name m m' hm
    split
    · rename_i h
      refine (yields_add _).congr fun x => ?_
      simp only at h
      simp [h]
    · rename_i h
      refine yields_nil.congr fun x => ?_
      simp only at h
      simp [h]
  · constructor
    · rintro ⟨name, m, m', hm, hne, rfl⟩
      cases h : m.serverStreaming with
      | false =>
        exact ⟨_, .serverStreamingStarted hm h (by simpa [h] using hne), by simp [serviceMethodsSameServerStreamingText]⟩
      | true =>
        exact ⟨_, .serverStreamingStopped hm h (by simpa [h] using hne), by simp [serviceMethodsSameServerStreamingText]⟩
    · rintro ⟨_, h, rfl⟩
      generalize hid : s%"SERVICE_METHODS_SAME_SERVER_STREAMING" = id at h
      cases h with
      | serverStreamingStarted hm h1 h2 =>
        exact ⟨_, _, _, hm, by simp [h1, h2], by simp [serviceMethodsSameServerStreamingText, h1]⟩
      | serverStreamingStopped hm h1 h2 =>
        exact ⟨_, _, _, hm, by simp [h1, h2], by simp [serviceMethodsSameServerStreamingText, h1]⟩
      | _ => exact absurd hid (by decide)

end Verif.Proof.Breaking
