import Verif.Spec.Binary
import Verif.Spec.Breaking

/-!
# Data read with a compatible schema: lemmas
-/

namespace Verif.Proof.Encoded

open Verif Reflect Spec Spec.Encoded

variable {Key Payload Data : Type} {F : Format Key Payload Data} {old new : PackageSet} {scope : Str → Prop}

theorem message_kept (hc : Compatible scope old new) {package name : Str} {m : Message}
    (h : DeclaresMessage old package name m) (hs : scope package) :
    ∃ m', DeclaresMessage new package name m' ∧ MessageKept m m' := by
  obtain ⟨p, hp, rfl, path, hm, hn⟩ := h
  obtain ⟨q, hq, hqn, hk⟩ := hc p hp hs
  obtain ⟨m', hm', hk'⟩ := hk.messages path m hm
  exact ⟨m', ⟨q, hq, hqn, path, hm', by rw [hqn]; exact hn⟩, hk'⟩

theorem enum_kept (hc : Compatible scope old new) {package name : Str} {e : Enum}
    (h : DeclaresEnum old package name e) (hs : scope package) :
    ∃ e', DeclaresEnum new package name e' ∧ EnumKept e e' := by
  obtain ⟨p, hp, rfl, path, he, hn⟩ := h
  obtain ⟨q, hq, hqn, hk⟩ := hc p hp hs
  obtain ⟨e', he', hen, hk'⟩ := hk.enums path e he
  exact ⟨e', ⟨q, hq, hqn, path, he', by rw [hqn, hen]; exact hn⟩, hk'⟩

theorem slot_kept {m m' : Message} {f f' : Field} (hk : FieldKept f f')
    (ho : oneofOf m' f.number = oneofOf m f.number) : slotOf m' f' = slotOf m f := by
  unfold slotOf
  rw [hk.name, hk.number, hk.label, hk.type, ho]
  by_cases ht : f.type = 10 ∨ f.type = 11 ∨ f.type = 14
  · rw [if_pos ht, if_pos ht, hk.typeName ht]
  · rw [if_neg ht, if_neg ht]

theorem slot_typeName {m : Message} {f : Field} (ht : NamesType f.type) :
    (slotOf m f).typeName = f.typeName := if_pos ht

theorem names_message {type : Int} (h : type = 10 ∨ type = 11) : NamesType type :=
  h.elim .inl fun h => .inr (.inl h)

theorem names_enum {type : Int} (h : type = 14) : NamesType type := .inr (.inr h)

theorem known_names {e e' : Enum} (hk : EnumKept e e') {ns : List Int}
    (h : ∀ x ∈ ns.map (fun n => (n, knownAs e n)), x.2 ≠ none) :
    ns.map (fun n => (n, knownAs e' n)) = ns.map fun n => (n, knownAs e n) := by
  apply List.map_congr_left
  intro n hn
  have := h _ (List.mem_map.2 ⟨n, hn, rfl⟩)
  cases hname : knownAs e n with
  | none => exact absurd hname this
  | some name => rw [hk n name hname]

theorem known_tail {e : Entry Key Payload Data} {es : List (Entry Key Payload Data)} (h : Known (e :: es)) :
    Known es := by
  cases h <;> assumption

/-- Data that is fully known with the old schema reads the same with the new one. -/
theorem reads_kept (hc : Compatible scope old new) (hcl : Closed scope old) (hn : SameNumbers F old new)
    {m : Message} {rs : List (Key × Payload)} {es : List (Entry Key Payload Data)}
    (h : Reads F old m rs es) : Known es → ∀ {package name}, DeclaresMessage old package name m →
      scope package → ∀ {m'}, MessageKept m m' → Reads F new m' rs es := by
  induction h with
  | done => intros; exact .done
  | @scalar m f k p d rs es hf hkey ht hd _ ih =>
    intro hkn package name hm hs m' hk
    obtain ⟨f', hf', hfk, ho⟩ := hk.fields f hf
    rw [← slot_kept hfk ho]
    refine .scalar hf' ?_ ?_ ?_ (ih (known_tail hkn) hm hs hk)
    · rw [hfk.name, hfk.number]; exact hkey
    · rw [hfk.type]; exact ht
    · rw [hfk.label, hfk.type]; exact hd
  | @enum m f k p package0 e ns rs es hf hkey ht he hns _ ih =>
    intro hkn package name hm hs m' hk
    obtain ⟨f', hf', hfk, ho⟩ := hk.fields f hf
    obtain ⟨e', he', hek⟩ := enum_kept hc he (hcl.enums hm hs f hf (names_enum ht) he)
    have hknown : ∀ x ∈ ns.map (fun n => (n, knownAs e n)), x.2 ≠ none := by cases hkn; assumption
    rw [← slot_kept hfk ho, ← known_names hek hknown]
    refine .enum hf' ?_ ?_ (by rw [hfk.typeName (names_enum ht)]; exact he') ?_ (ih (known_tail hkn) hm hs hk)
    · rw [hfk.name, hfk.number]; exact hkey
    · rw [hfk.type]; exact ht
    · rw [hfk.label]; exact hn he he' hek _ _ _ hns
  | @message m f k p package0 t rs' es' rs es hf hkey ht htd hrs _ _ ih1 ih2 =>
    intro hkn package name hm hs m' hk
    obtain ⟨f', hf', hfk, ho⟩ := hk.fields f hf
    have hst := hcl.messages hm hs f hf (names_message ht) htd
    obtain ⟨t', ht', htk⟩ := message_kept hc htd hst
    have hknown : Known es' := by cases hkn; assumption
    rw [← slot_kept hfk ho]
    refine .message hf' ?_ ?_ (by rw [hfk.typeName (names_message ht)]; exact ht') ?_
      (ih1 hknown htd hst htk) (ih2 (known_tail hkn) hm hs hk)
    · rw [hfk.name, hfk.number]; exact hkey
    · rw [hfk.type]; exact ht
    · rw [hfk.type]; exact hrs
  | unknown _ _ _ =>
    intro hkn
    cases hkn

/-- The messages inside the entries are complete. -/
def Inside (ps : PackageSet) (es : List (Entry Key Payload Data)) : Prop :=
  ∀ slot es', .message slot es' ∈ es → ∀ package t, DeclaresMessage ps package slot.typeName t →
    Complete ps t es'

theorem complete_iff {ps : PackageSet} {m : Message} {es : List (Entry Key Payload Data)} :
    Complete ps m es ↔ (∀ f ∈ m.fields, f.label = 2 → ∃ e ∈ es, e.number = some f.number) ∧ Inside ps es := by
  constructor
  · rintro ⟨h1, h2⟩
    exact ⟨h1, h2⟩
  · exact fun h => ⟨h.1, h.2⟩

theorem inside_cons {ps : PackageSet} {e : Entry Key Payload Data} {es : List (Entry Key Payload Data)} :
    Inside ps (e :: es) ↔ Inside ps [e] ∧ Inside ps es := by
  unfold Inside
  constructor
  · intro h
    exact ⟨fun s x hx => h s x (by rw [List.mem_singleton] at hx; rw [hx]; exact List.mem_cons_self),
      fun s x hx => h s x (List.mem_cons_of_mem _ hx)⟩
  · rintro ⟨h1, h2⟩ s x hx
    rcases List.mem_cons.1 hx with hx | hx
    · exact h1 s x (by rw [hx]; exact List.mem_singleton.2 rfl)
    · exact h2 s x hx

theorem inside_other {ps : PackageSet} {e : Entry Key Payload Data} (h : ∀ s x, e ≠ .message s x) :
    Inside ps [e] := by
  intro s x hx
  exact absurd (List.mem_singleton.1 hx).symm (h s x)

theorem inside_message {ps : PackageSet} {slot : Slot} {i : List (Entry Key Payload Data)} :
    Inside ps [.message slot i] ↔
      ∀ package t, DeclaresMessage ps package slot.typeName t → Complete ps t i := by
  constructor
  · intro h
    exact h slot i (List.mem_singleton.2 rfl)
  · intro h s x hx
    cases List.mem_singleton.1 hx
    exact h

theorem inj_of_nodup {α β : Type} {key : α → β} {l : List α} (h : (l.map key).Nodup) {a b : α}
    (ha : a ∈ l) (hb : b ∈ l) (he : key a = key b) : a = b := by
  induction l with
  | nil => cases ha
  | cons x xs ih =>
    rw [List.map_cons, List.nodup_cons] at h
    rcases List.mem_cons.1 ha with hax | ha <;> rcases List.mem_cons.1 hb with hbx | hb
    · rw [hax, hbx]
    · exact absurd (List.mem_map.2 ⟨b, hb, by rw [← he, hax]⟩) h.1
    · exact absurd (List.mem_map.2 ⟨a, ha, by rw [he, hbx]⟩) h.1
    · exact ih h.2 ha hb

/-- Required fields that are there are there for the new schema as well, if it asks for
no others. -/
theorem required_kept (hr : NoRequiredAdded old new) {package name : Str} {m m' : Message}
    (hm : DeclaresMessage old package name m) (hm' : DeclaresMessage new package name m')
    (hk : MessageKept m m') (hu : (m'.fields.map (·.number)).Nodup) {es : List (Entry Key Payload Data)}
    (h : ∀ f ∈ m.fields, f.label = 2 → ∃ e ∈ es, e.number = some f.number) :
    ∀ f ∈ m'.fields, f.label = 2 → ∃ e ∈ es, e.number = some f.number := by
  intro f' hf' hl
  obtain ⟨f, hf, hn⟩ := hr hm hm' f' hf' hl
  obtain ⟨g, hg, hgk, _⟩ := hk.fields f hf
  have : g = f' := by
    have hgn : g.number = f'.number := hgk.number.trans hn
    exact inj_of_nodup hu hg hf' hgn
  subst this
  obtain ⟨e, he, hen⟩ := h f hf (hgk.label ▸ hl)
  exact ⟨e, he, by rw [hen, hn]⟩

theorem numbers_nodup {ps : PackageSet} (h : SchemaOK ps) {package name : Str} {m : Message}
    (hm : DeclaresMessage ps package name m) : (m.fields.map (·.number)).Nodup := by
  obtain ⟨p, hp, _, path, hm, _⟩ := hm
  exact ((h.packages p hp).messages path m hm).field_numbers

/-- Data that the old schema accepts is accepted by the new one, if it asks for no new
required fields. -/
theorem complete_kept (hc : Compatible scope old new) (hcl : Closed scope old) (hnok : SchemaOK new)
    (hnl : Linked new) (hr : NoRequiredAdded old new)
    {m : Message} {rs : List (Key × Payload)} {es : List (Entry Key Payload Data)}
    (h : Reads F old m rs es) : ∀ {package name}, DeclaresMessage old package name m →
      scope package → Inside old es → Inside new es := by
  induction h with
  | done => intro _ _ _ _ _ s x hx; cases hx
  | scalar _ _ _ _ _ ih =>
    intro package name hm hs hi
    rw [inside_cons] at hi ⊢
    exact ⟨inside_other fun _ _ h => (nomatch h), ih hm hs hi.2⟩
  | enum _ _ _ _ _ _ ih =>
    intro package name hm hs hi
    rw [inside_cons] at hi ⊢
    exact ⟨inside_other fun _ _ h => (nomatch h), ih hm hs hi.2⟩
  | @message m f k p package0 t rs' es' rs es hf hkey ht htd hrs _ _ ih1 ih2 =>
    intro package name hm hs hi
    rw [inside_cons] at hi ⊢
    refine ⟨inside_message.2 fun package1 t1 ht1 => ?_, ih2 hm hs hi.2⟩
    have hst := hcl.messages hm hs f hf (names_message ht) htd
    obtain ⟨t', ht', htk⟩ := message_kept hc htd hst
    rw [slot_typeName (names_message ht)] at ht1
    have : t1 = t' := hnl.message_unique ht1 ht'
    subst this
    have hct := complete_iff.1 (inside_message.1 hi.1 package0 t
      (by rw [slot_typeName (names_message ht)]; exact htd))
    exact complete_iff.2 ⟨required_kept hr htd ht' htk (numbers_nodup hnok ht') hct.1, ih1 htd hst hct.2⟩
  | unknown _ _ ih =>
    intro package name hm hs hi
    rw [inside_cons] at hi ⊢
    exact ⟨inside_other fun _ _ h => (nomatch h), ih hm hs hi.2⟩

/-- Reading is unambiguous. -/
theorem reads_unique {ps : PackageSet} (hl : Linked ps) (hk : Keyed F ps) {m : Message}
    {rs : List (Key × Payload)} {es : List (Entry Key Payload Data)} (h : Reads F ps m rs es) :
    ∀ {package name}, DeclaresMessage ps package name m → ∀ {es'}, Reads F ps m rs es' → es = es' := by
  induction h with
  | done => intro _ _ _ _ h; cases h; rfl
  | @scalar m f k p d rs es hf hkey ht hd _ ih =>
    intro package name hm es' h
    cases h with
    | @scalar _ f' _ _ _ _ _ hf' hkey' _ hd' h' =>
      cases hk hm f hf f' hf' (hkey.trans hkey'.symm)
      cases hd.symm.trans hd'
      rw [ih hm h']
    | @enum _ f' _ _ _ _ _ _ _ hf' hkey' ht' =>
      cases hk hm f hf f' hf' (hkey.trans hkey'.symm)
      exact absurd (names_enum ht') ht
    | @message _ f' _ _ _ _ _ _ _ _ hf' hkey' ht' =>
      cases hk hm f hf f' hf' (hkey.trans hkey'.symm)
      exact absurd (names_message ht') ht
    | unknown hu => exact absurd hkey (hu f hf)
  | @enum m f k p package0 e ns rs es hf hkey ht he hns _ ih =>
    intro package name hm es' h
    cases h with
    | @scalar _ f' _ _ _ _ _ hf' hkey' ht' =>
      cases hk hm f hf f' hf' (hkey.trans hkey'.symm)
      exact absurd (names_enum ht) ht'
    | @enum _ f' _ _ _ _ _ _ _ hf' hkey' ht' he' hns' h' =>
      cases hk hm f hf f' hf' (hkey.trans hkey'.symm)
      cases hl.enum_unique he he'
      cases hns.symm.trans hns'
      rw [ih hm h']
    | @message _ f' _ _ _ _ _ _ _ _ hf' hkey' ht' =>
      cases hk hm f hf f' hf' (hkey.trans hkey'.symm)
      rw [ht] at ht'
      rcases ht' with h | h <;> cases h
    | unknown hu => exact absurd hkey (hu f hf)
  | @message m f k p package0 t rs' es' rs es hf hkey ht htd hrs _ _ ih1 ih2 =>
    intro package name hm es'' h
    cases h with
    | @scalar _ f' _ _ _ _ _ hf' hkey' ht' =>
      cases hk hm f hf f' hf' (hkey.trans hkey'.symm)
      exact absurd (names_message ht) ht'
    | @enum _ f' _ _ _ _ _ _ _ hf' hkey' ht' =>
      cases hk hm f hf f' hf' (hkey.trans hkey'.symm)
      rw [ht'] at ht
      rcases ht with h | h <;> cases h
    | @message _ f' _ _ _ _ _ _ _ _ hf' hkey' ht' htd' hrs' h1 h2 =>
      cases hk hm f hf f' hf' (hkey.trans hkey'.symm)
      cases hl.message_unique htd htd'
      cases hrs.symm.trans hrs'
      rw [ih1 htd h1, ih2 hm h2]
    | unknown hu => exact absurd hkey (hu f hf)
  | @unknown m k p rs es hu _ ih =>
    intro package name hm es' h
    cases h with
    | @scalar _ f' _ _ _ _ _ hf' hkey' => exact absurd hkey' (hu f' hf')
    | @enum _ f' _ _ _ _ _ _ _ hf' hkey' => exact absurd hkey' (hu f' hf')
    | @message _ f' _ _ _ _ _ _ _ _ hf' hkey' => exact absurd hkey' (hu f' hf')
    | unknown _ h' => rw [ih hm h']

/-- What a reader with the old schema makes of data written under the new one. -/
structure ReadsOld (F : Format Key Payload Data) (old new : PackageSet) (m : Message)
    (rs : List (Key × Payload)) (es' : List (Entry Key Payload Data)) (es : List (Entry Key Payload Data)) :
    Prop where
  reads : Reads F old m rs es
  sees : Sees es es'
  numbers : ∀ f ∈ m.fields, (∃ e ∈ es', e.number = some f.number) → ∃ e ∈ es, e.number = some f.number
  inside : Inside new es' → Inside old es

theorem numbers_cons {m : Message} {e e' : Entry Key Payload Data} {es es' : List (Entry Key Payload Data)}
    (h : ∀ f ∈ m.fields, (∃ e ∈ es', e.number = some f.number) → ∃ e ∈ es, e.number = some f.number)
    (he : ∀ f ∈ m.fields, e'.number = some f.number → e.number = some f.number) :
    ∀ f ∈ m.fields, (∃ x ∈ e' :: es', x.number = some f.number) → ∃ x ∈ e :: es, x.number = some f.number := by
  rintro f hf ⟨x, hx, hn⟩
  rcases List.mem_cons.1 hx with rfl | hx
  · exact ⟨e, List.mem_cons_self, he f hf hn⟩
  · obtain ⟨y, hy, hyn⟩ := h f hf ⟨x, hx, hn⟩
    exact ⟨y, List.mem_cons_of_mem _ hy, hyn⟩

/-- A field that the old schema does not have. -/
theorem readsOld_unknown {m : Message} {k : Key} {p : Payload} {rs : List (Key × Payload)}
    {e : Entry Key Payload Data} {es es' : List (Entry Key Payload Data)}
    (hu : ∀ f ∈ m.fields, F.key f.name f.number ≠ k) (hn : ∀ f ∈ m.fields, e.number ≠ some f.number)
    (h : ReadsOld F old new m rs es' es) :
    ReadsOld F old new m ((k, p) :: rs) (e :: es') (.unknown k p :: es) where
  reads := .unknown hu h.reads
  sees := .unknown h.sees
  numbers := numbers_cons h.numbers fun f hf h => absurd h (hn f hf)
  inside hi := inside_cons.2 ⟨inside_other fun _ _ h => (nomatch h), h.inside (inside_cons.1 hi).2⟩

/-- The field of the old schema with the key of a field of the new one. -/
theorem old_field {m m' : Message} {k : Key} {f' : Field} (hk : MessageKept m m')
    (hkey : F.key f'.name f'.number = k) (hf' : f' ∈ m'.fields)
    (hu : ∀ f ∈ m'.fields, ∀ g ∈ m'.fields, F.key f.name f.number = F.key g.name g.number → f = g)
    (hnum : (m'.fields.map (·.number)).Nodup) :
    (∃ f ∈ m.fields, FieldKept f f' ∧ oneofOf m' f.number = oneofOf m f.number) ∨
    (∀ f ∈ m.fields, F.key f.name f.number ≠ k) ∧ ∀ f ∈ m.fields, f'.number ≠ f.number := by
  rcases Classical.em (∃ f ∈ m.fields, F.key f.name f.number = k) with ⟨f, hf, hfk⟩ | hno
  · obtain ⟨g, hg, hgk, ho⟩ := hk.fields f hf
    have : g = f' := hu g hg f' hf' (by rw [hgk.name, hgk.number, hfk, hkey])
    subst this
    exact .inl ⟨f, hf, hgk, ho⟩
  · refine .inr ⟨fun f hf h => hno ⟨f, hf, h⟩, fun f hf h => hno ⟨f, hf, ?_⟩⟩
    obtain ⟨g, hg, hgk, _⟩ := hk.fields f hf
    have : g = f' := inj_of_nodup hnum hg hf' (by rw [hgk.number, h])
    subst this
    rw [← hkey, hgk.name, hgk.number]

theorem readsOld (hc : Compatible scope old new) (hcl : Closed scope old) (hol : Linked old)
    (hnok : SchemaOK new) (hnl : Linked new) (hkeyed : Keyed F new)
    (hnumbers : ∀ label e e' p, F.numbers label e p = F.numbers label e' p)
    {m' : Message} {rs : List (Key × Payload)} {es' : List (Entry Key Payload Data)}
    (h : Reads F new m' rs es') : ∀ {package name m}, DeclaresMessage old package name m → scope package →
      DeclaresMessage new package name m' → MessageKept m m' → ∃ es, ReadsOld F old new m rs es' es := by
  induction h with
  | done =>
    intro package name m hm hs hm' hk
    exact ⟨[], .done, .done, fun f _ h => h, fun _ s x hx => (nomatch hx)⟩
  | @scalar m' f' k p d rs es' hf' hkey ht hd _ ih =>
    intro package name m hm hs hm' hk
    obtain ⟨es, hes⟩ := ih hm hs hm' hk
    rcases old_field hk hkey hf' (hkeyed hm') (numbers_nodup hnok hm') with ⟨f, hf, hfk, ho⟩ | ⟨hu, hn⟩
    · refine ⟨.scalar (slotOf m f) d :: es, ?_, ?_, ?_, ?_⟩
      · refine .scalar hf ?_ ?_ ?_ hes.reads
        · rw [← hfk.name, ← hfk.number]; exact hkey
        · rw [← hfk.type]; exact ht
        · rw [← hfk.label, ← hfk.type]; exact hd
      · rw [slot_kept hfk ho]; exact .scalar hes.sees
      · refine numbers_cons hes.numbers fun g _ h => ?_
        rw [slot_kept hfk ho] at h; exact h
      · intro hi
        exact inside_cons.2 ⟨inside_other fun _ _ h => (nomatch h), hes.inside (inside_cons.1 hi).2⟩
    · exact ⟨_, readsOld_unknown hu (fun f hf h => hn f hf (Option.some.inj h)) hes⟩
  | @enum m' f' k p package0 e' ns rs es' hf' hkey ht he' hns _ ih =>
    intro package name m hm hs hm' hk
    obtain ⟨es, hes⟩ := ih hm hs hm' hk
    rcases old_field hk hkey hf' (hkeyed hm') (numbers_nodup hnok hm') with ⟨f, hf, hfk, ho⟩ | ⟨hu, hn⟩
    · have ht0 : f.type = 14 := hfk.type ▸ ht
      obtain ⟨package1, e, he⟩ := hol.enum_declared hm f hf ht0
      obtain ⟨e1, he1, hek⟩ := enum_kept hc he (hcl.enums hm hs f hf (names_enum ht0) he)
      have : e1 = e' := hnl.enum_unique he1 (by rw [← hfk.typeName (names_enum ht0)]; exact he')
      subst this
      refine ⟨.enum (slotOf m f) (ns.map fun n => (n, knownAs e n)) :: es, ?_, ?_, ?_, ?_⟩
      · refine .enum hf ?_ ht0 he ?_ hes.reads
        · rw [← hfk.name, ← hfk.number]; exact hkey
        · rw [← hfk.label, hnumbers _ e e1]; exact hns
      · rw [slot_kept hfk ho]
        refine .enum (by simp) ?_ hes.sees
        intro n name hx
        obtain ⟨x, hxn, heq⟩ := List.mem_map.1 hx
        obtain ⟨rfl, hknown⟩ := Prod.mk.inj heq
        exact List.mem_map.2 ⟨x, hxn, by rw [hek x name hknown]⟩
      · refine numbers_cons hes.numbers fun g _ h => ?_
        rw [slot_kept hfk ho] at h; exact h
      · intro hi
        exact inside_cons.2 ⟨inside_other fun _ _ h => (nomatch h), hes.inside (inside_cons.1 hi).2⟩
    · exact ⟨_, readsOld_unknown hu (fun f hf h => hn f hf (Option.some.inj h)) hes⟩
  | @message m' f' k p package0 t' rs' i' rs es' hf' hkey ht htd' hrs _ _ ih1 ih2 =>
    intro package name m hm hs hm' hk
    obtain ⟨es, hes⟩ := ih2 hm hs hm' hk
    rcases old_field hk hkey hf' (hkeyed hm') (numbers_nodup hnok hm') with ⟨f, hf, hfk, ho⟩ | ⟨hu, hn⟩
    · have ht0 : f.type = 10 ∨ f.type = 11 := hfk.type ▸ ht
      obtain ⟨package1, t, htd⟩ := hol.message_declared hm f hf ht0
      have hst := hcl.messages hm hs f hf (names_message ht0) htd
      obtain ⟨t1, ht1, htk⟩ := message_kept hc htd hst
      have : t1 = t' := hnl.message_unique ht1 (by rw [← hfk.typeName (names_message ht0)]; exact htd')
      subst this
      obtain ⟨i, hi⟩ := ih1 htd hst ht1 htk
      refine ⟨.message (slotOf m f) i :: es, ?_, ?_, ?_, ?_⟩
      · refine .message hf ?_ ht0 htd ?_ hi.reads hes.reads
        · rw [← hfk.name, ← hfk.number]; exact hkey
        · rw [← hfk.type]; exact hrs
      · rw [slot_kept hfk ho]; exact .message hi.sees hes.sees
      · refine numbers_cons hes.numbers fun g _ h => ?_
        rw [slot_kept hfk ho] at h; exact h
      · intro hin
        rw [inside_cons] at hin ⊢
        refine ⟨inside_message.2 fun package2 t2 ht2 => ?_, hes.inside hin.2⟩
        rw [slot_typeName (names_message ht0)] at ht2
        cases hol.message_unique ht2 htd
        have hct := complete_iff.1 (inside_message.1 hin.1 package0 t1
          (by rw [slot_typeName (names_message ht)]; exact htd'))
        refine complete_iff.2 ⟨fun g hg hl => hi.numbers g hg ?_, hi.inside hct.2⟩
        obtain ⟨g', hg', hgk, _⟩ := htk.fields g hg
        obtain ⟨x, hx, hxn⟩ := hct.1 g' hg' (hgk.label ▸ hl)
        exact ⟨x, hx, by rw [hxn, hgk.number]⟩
    · exact ⟨_, readsOld_unknown hu (fun f hf h => hn f hf (Option.some.inj h)) hes⟩
  | @unknown m' k p rs es' hu _ ih =>
    intro package name m hm hs hm' hk
    obtain ⟨es, hes⟩ := ih hm hs hm' hk
    refine ⟨_, readsOld_unknown (fun f hf h => ?_) (fun f hf h => (nomatch h)) hes⟩
    obtain ⟨g, hg, hgk, _⟩ := hk.fields f hf
    exact hu g hg (by rw [hgk.name, hgk.number]; exact h)

/-! ## Enum values given by name -/

/-- A value known under a name is a value of the enum. -/
theorem value_of_known {e : Enum} {number : Int} {name : Str} (h : knownAs e number = some name) :
    ⟨name, number⟩ ∈ e.values := by
  unfold knownAs at h
  obtain ⟨v, hv, rfl⟩ := Option.map_eq_some_iff.1 h
  have := List.mem_filter.1 (List.mem_of_getLast? hv)
  have hn : v.number = number := of_decide_eq_true this.2
  rw [← hn]
  exact this.1

/-- Without aliases a value is known under its name. -/
theorem known_of_value {e : Enum} (hn : (e.values.map (·.number)).Nodup) {v : EnumValue} (hv : v ∈ e.values) :
    knownAs e v.number = some v.name := by
  unfold knownAs
  cases hl : (e.values.filter fun w => w.number = v.number).getLast? with
  | none =>
    rw [List.getLast?_eq_none_iff] at hl
    have : v ∈ e.values.filter fun w => w.number = v.number := List.mem_filter.2 ⟨hv, by simp⟩
    rw [hl] at this
    cases this
  | some w =>
    have := List.mem_filter.1 (List.mem_of_getLast? hl)
    have hw : w.number = v.number := of_decide_eq_true this.2
    rw [inj_of_nodup hn this.1 hv hw]
    rfl

theorem named_of_value {e : Enum} (hn : (e.values.map (·.name)).Nodup) {v : EnumValue} (hv : v ∈ e.values) :
    numberNamed e v.name = some v.number := by
  unfold numberNamed
  cases hf : e.values.find? fun w => w.name = v.name with
  | none =>
    have := List.find?_eq_none.1 hf v hv
    simp at this
  | some w =>
    have hw := List.find?_some hf
    have hw : w.name = v.name := of_decide_eq_true hw
    rw [inj_of_nodup hn (List.mem_of_find?_eq_some hf) hv hw]
    rfl

theorem value_of_named {e : Enum} {number : Int} {name : Str} (h : numberNamed e name = some number) :
    ⟨name, number⟩ ∈ e.values := by
  unfold numberNamed at h
  obtain ⟨v, hv, rfl⟩ := Option.map_eq_some_iff.1 h
  have hn := List.find?_some hv
  have hn : v.name = name := of_decide_eq_true hn
  rw [← hn]
  exact List.mem_of_find?_eq_some hv

/-- Without aliases in the old schema, names of enum values keep their numbers. -/
theorem sameNumbers_of_names (hF : ByName F) (hold : NoAliases old) (hnew : ValueNames new) :
    SameNumbers F old new := by
  intro package package' name e e' he he' hk label p ns h
  refine hF label e e' p (fun name number hn => ?_) ns h
  have hv := value_of_named hn
  exact named_of_value (hnew he') (value_of_known (hk _ _ (known_of_value (hold he) hv)))

end Verif.Proof.Encoded
