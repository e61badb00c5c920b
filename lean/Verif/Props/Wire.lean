import Verif.Props.Breaking
import Verif.Props.Reflect
import Verif.Proof.Wire
import Verif.Spec.WireCheck

/-!
# Data read with a schema that passes break check: C93

`Spec.Wire` says how encoded messages are read with a schema, for every encoding that
tells fields apart by number or by name, and `Spec.Binary` is the binary encoding.
-/

namespace Verif.Props

open Verif Reflect Descriptor Breaking Spec Spec.Encoded Proof.Encoded

/-! ## Concrete schemas -/

namespace WireExample

/-- A person has a name, colours and friends. -/
def person : Message :=
  .mk (s%"Person") []
    [⟨s%"Colour", [⟨s%"RED", 0⟩, ⟨s%"GREEN", 1⟩]⟩]
    [⟨s%"name", 1, 1, 9, []⟩, ⟨s%"colours", 2, 3, 14, s%"a.v1.Person.Colour"⟩,
     ⟨s%"friends", 3, 3, 11, s%"a.v1.Person"⟩]
    []

def old : PackageSet := [⟨s%"a.v1", [], [], [person], []⟩]

/-- A colour and an age were added. -/
def person2 : Message :=
  .mk (s%"Person") []
    [⟨s%"Colour", [⟨s%"RED", 0⟩, ⟨s%"GREEN", 1⟩, ⟨s%"BLUE", 2⟩]⟩]
    [⟨s%"name", 1, 1, 9, []⟩, ⟨s%"colours", 2, 3, 14, s%"a.v1.Person.Colour"⟩,
     ⟨s%"friends", 3, 3, 11, s%"a.v1.Person"⟩, ⟨s%"age", 4, 1, 5, []⟩]
    []

def new : PackageSet := [⟨s%"a.v1", [], [], [person2], []⟩]

/-- A required age was added. -/
def person3 : Message :=
  .mk (s%"Person") []
    [⟨s%"Colour", [⟨s%"RED", 0⟩, ⟨s%"GREEN", 1⟩]⟩]
    [⟨s%"name", 1, 1, 9, []⟩, ⟨s%"colours", 2, 3, 14, s%"a.v1.Person.Colour"⟩,
     ⟨s%"friends", 3, 3, 11, s%"a.v1.Person"⟩, ⟨s%"age", 4, 2, 5, []⟩]
    []

def demanding : PackageSet := [⟨s%"a.v1", [], [], [person3], []⟩]

theorem old_ok : SchemaOK old := schemaOK_of_check (by decide)
theorem new_ok : SchemaOK new := schemaOK_of_check (by decide)
theorem demanding_ok : SchemaOK demanding := schemaOK_of_check (by decide)
theorem old_linked : Linked old := linked_of_check (by decide)
theorem new_linked : Linked new := linked_of_check (by decide)
theorem demanding_linked : Linked demanding := linked_of_check (by decide)

theorem old_person : DeclaresMessage old (s%"a.v1") (s%"a.v1.Person") person :=
  ⟨_, List.mem_cons_self, rfl, [s%"Person"], .here List.mem_cons_self, by decide⟩
theorem new_person : DeclaresMessage new (s%"a.v1") (s%"a.v1.Person") person2 :=
  ⟨_, List.mem_cons_self, rfl, [s%"Person"], .here List.mem_cons_self, by decide⟩
theorem demanding_person : DeclaresMessage demanding (s%"a.v1") (s%"a.v1.Person") person3 :=
  ⟨_, List.mem_cons_self, rfl, [s%"Person"], .here List.mem_cons_self, by decide⟩

theorem old_colour : DeclaresEnum old (s%"a.v1") (s%"a.v1.Person.Colour")
    ⟨s%"Colour", [⟨s%"RED", 0⟩, ⟨s%"GREEN", 1⟩]⟩ :=
  ⟨_, List.mem_cons_self, rfl, [s%"Person"], .nested (.here List.mem_cons_self) List.mem_cons_self, by decide⟩
theorem new_colour : DeclaresEnum new (s%"a.v1") (s%"a.v1.Person.Colour")
    ⟨s%"Colour", [⟨s%"RED", 0⟩, ⟨s%"GREEN", 1⟩, ⟨s%"BLUE", 2⟩]⟩ :=
  ⟨_, List.mem_cons_self, rfl, [s%"Person"], .nested (.here List.mem_cons_self) List.mem_cons_self, by decide⟩

theorem closed_all (ps : PackageSet) : Closed (Checked true) ps :=
  ⟨fun _ _ _ _ _ _ _ _ => .inl rfl, fun _ _ _ _ _ _ _ _ => .inl rfl⟩

/-- The name is "AB", the colours are 0 and 1, and a friend has the name "C". -/
def bytes : List UInt8 := [0x0a, 2, 65, 66, 0x12, 2, 0, 1, 0x1a, 3, 0x0a, 1, 67]

/-- What is read from `bytes`. -/
def entries : List (Entry Int Wire (List Datum)) :=
  [.scalar ⟨s%"name", 1, 1, 9, [], none⟩ [.bytes [65, 66]],
   .enum ⟨s%"colours", 2, 3, 14, s%"a.v1.Person.Colour", none⟩ [(0, some (s%"RED")), (1, some (s%"GREEN"))],
   .message ⟨s%"friends", 3, 3, 11, s%"a.v1.Person", none⟩
    [.scalar ⟨s%"name", 1, 1, 9, [], none⟩ [.bytes [67]]]]

theorem bytes_read : ReadsBytes old person bytes entries := by
  refine ⟨[(1, .delimited [65, 66]), (2, .delimited [0, 1]), (3, .delimited [0x0a, 1, 67])],
    by decide +kernel, ?_⟩
  refine .scalar (f := ⟨s%"name", 1, 1, 9, []⟩) (by simp [person, Message.fields]) rfl
    (by unfold NamesType; simp) (by decide +kernel) ?_
  refine .enum (f := ⟨s%"colours", 2, 3, 14, s%"a.v1.Person.Colour"⟩) (ns := [0, 1])
    (by simp [person, Message.fields]) rfl rfl old_colour (by decide +kernel) ?_
  refine .message (f := ⟨s%"friends", 3, 3, 11, s%"a.v1.Person"⟩) (rs' := [(1, .delimited [67])])
    (by simp [person, Message.fields]) rfl (.inr rfl) old_person (by decide +kernel) ?_ .done
  exact .scalar (f := ⟨s%"name", 1, 1, 9, []⟩) (by simp [person, Message.fields]) rfl
    (by unfold NamesType; simp) (by decide +kernel) .done

theorem entries_known : Known entries :=
  .scalar (.enum (by simp) (.message (.scalar .done) .done))

/-- The new schema's data: colour 2 and age 7. -/
def bytes2 : List UInt8 := [0x12, 1, 2, 0x20, 7]

def entries2 : List (Entry Int Wire (List Datum)) :=
  [.enum ⟨s%"colours", 2, 3, 14, s%"a.v1.Person.Colour", none⟩ [(2, some (s%"BLUE"))],
   .scalar ⟨s%"age", 4, 1, 5, [], none⟩ [.number 7]]

theorem bytes2_read : ReadsBytes new person2 bytes2 entries2 := by
  refine ⟨[(2, .delimited [2]), (4, .varint 7)], by decide +kernel, ?_⟩
  refine .enum (f := ⟨s%"colours", 2, 3, 14, s%"a.v1.Person.Colour"⟩) (ns := [2])
    (by simp [person2, Message.fields]) rfl rfl new_colour (by decide +kernel) ?_
  exact .scalar (f := ⟨s%"age", 4, 1, 5, []⟩) (by simp [person2, Message.fields]) rfl
    (by unfold NamesType; simp) (by decide +kernel) .done

theorem new_clean : breakCheck Order.id ⟨true, false⟩ old new = .ok [] := by rfl
theorem demanding_clean : breakCheck Order.id ⟨true, false⟩ old demanding = .ok [] := by rfl

end WireExample

open WireExample

/-! ## Data written before the change -/

/-- C93: after a change that passes break check, data that the old schema fully knows is
read with the new schema as it was with the old one: the same fields in the same order,
with the same names, numbers, labels, types, oneofs and values. -/
theorem C93_reads {Key Payload Data : Type} (F : Format Key Payload Data) (o : Order) (config : BreakConfig)
    (old new : PackageSet) (ho : SchemaOK old) (hn : SchemaOK new)
    (hclean : breakCheck o config old new = .ok []) (hcl : Closed (Checked config.includeBeta) old)
    (hF : SameNumbers F old new) {package name : Str} {m : Message}
    (hm : DeclaresMessage old package name m) (hs : Checked config.includeBeta package)
    {rs : List (Key × Payload)} {es : List (Entry Key Payload Data)} (h : Reads F old m rs es)
    (hk : Known es) : ∃ m', DeclaresMessage new package name m' ∧ Reads F new m' rs es := by
  have hc := ((C01_clean_iff_compatible o config old new ho hn).1 hclean).1
  obtain ⟨m', hm', hmk⟩ := message_kept hc hm hs
  exact ⟨m', hm', reads_kept hc hcl hF h hk hm hs hmk⟩

theorem binary_same (old new : PackageSet) : SameNumbers binary old new := by
  intro _ _ _ _ _ _ _ _ _ _ _ h
  exact h

/-- C93: bytes written before the change are read the same after it. -/
theorem C93_bytes (o : Order) (config : BreakConfig) (old new : PackageSet) (ho : SchemaOK old)
    (hn : SchemaOK new) (hclean : breakCheck o config old new = .ok [])
    (hcl : Closed (Checked config.includeBeta) old) {package name : Str} {m : Message}
    (hm : DeclaresMessage old package name m) (hs : Checked config.includeBeta package)
    {bytes : List UInt8} {es : List (Entry Int Wire (List Datum))} (h : ReadsBytes old m bytes es)
    (hk : Known es) : ∃ m', DeclaresMessage new package name m' ∧ ReadsBytes new m' bytes es := by
  obtain ⟨rs, hrs, h⟩ := h
  obtain ⟨m', hm', h'⟩ :=
    C93_reads binary o config old new ho hn hclean hcl (binary_same old new) hm hs h hk
  exact ⟨m', hm', rs, hrs, h'⟩

example : ∃ m', DeclaresMessage WireExample.new (s%"a.v1") (s%"a.v1.Person") m' ∧
    ReadsBytes WireExample.new m' WireExample.bytes entries :=
  C93_bytes Order.id ⟨true, false⟩ _ _ old_ok new_ok new_clean (closed_all _) old_person (.inl rfl)
    bytes_read entries_known

/-- C93 end to end: the schemas that two descriptor sets describe, if break check passes
on the sets. -/
theorem C93_descriptors (s : SortSlice) (o : Order) (marshal : FileDesc → Except Err Str) (config : BreakConfig)
    (frm to : List FileSet) (hff : FaithfulOn marshal fun f => f ∈ frm.flatten)
    (hft : FaithfulOn marshal fun f => f ∈ to.flatten) (hf : DescriptorsOK frm.flatten)
    (ht : DescriptorsOK to.flatten) (hclean : breakCheckSets s o marshal config frm to = .ok []) :
    ∃ old new, DescribesSet frm.flatten old ∧ DescribesSet to.flatten new ∧
      (Closed (Checked config.includeBeta) old → ∀ package name m, DeclaresMessage old package name m →
        Checked config.includeBeta package → ∃ m', DeclaresMessage new package name m' ∧
          ∀ bytes es, ReadsBytes old m bytes es → Known es → ReadsBytes new m' bytes es) := by
  obtain ⟨old, new, ho, hn, h⟩ := C01_descriptors s o marshal config frm to hff hft hf ht
  have hc := (h.1 hclean).1
  refine ⟨old, new, ho, hn, fun hcl package name m hm hs => ?_⟩
  obtain ⟨m', hm', hmk⟩ := message_kept hc hm hs
  refine ⟨m', hm', fun bytes es h hk => ?_⟩
  obtain ⟨rs, hrs, h⟩ := h
  exact ⟨rs, hrs, reads_kept hc hcl (binary_same old new) h hk hm hs hmk⟩

example : DescriptorsOK ReflectExample.old.flatten := ReflectExample.old_valid

theorem binary_keyed {ps : PackageSet} (h : SchemaOK ps) : Keyed binary ps := by
  intro _ _ _ hm f hf f' hf' he
  exact inj_of_nodup (numbers_nodup h hm) hf hf' he

/-- C93: what is read from bytes is unambiguous, so "the same" in the other theorems
speaks of the only way to read them. -/
theorem C93_unambiguous (ps : PackageSet) (h : SchemaOK ps) (hl : Linked ps) {package name : Str} {m : Message}
    (hm : DeclaresMessage ps package name m) {bytes : List UInt8}
    {es es' : List (Entry Int Wire (List Datum))} (h1 : ReadsBytes ps m bytes es)
    (h2 : ReadsBytes ps m bytes es') : es = es' := by
  obtain ⟨rs, hrs, h1⟩ := h1
  obtain ⟨rs', hrs', h2⟩ := h2
  cases hrs.symm.trans hrs'
  exact reads_unique hl (binary_keyed h) h1 hm h2

example : SchemaOK WireExample.old ∧ Linked WireExample.old := ⟨old_ok, old_linked⟩

/-- C93: data that was accepted before the change is accepted after it if no required
fields were added. Missing: break check does not report an added required field
(`C93_accepted_not`). -/
theorem C93_accepted_partial (o : Order) (config : BreakConfig) (old new : PackageSet) (ho : SchemaOK old)
    (hn : SchemaOK new) (hl : Linked new) (hclean : breakCheck o config old new = .ok [])
    (hcl : Closed (Checked config.includeBeta) old) (hr : NoRequiredAdded old new)
    {package name : Str} {m : Message}
    (hm : DeclaresMessage old package name m) (hs : Checked config.includeBeta package)
    {bytes : List UInt8} {es : List (Entry Int Wire (List Datum))} (h : ReadsBytes old m bytes es)
    (hk : Known es) (hco : Complete old m es) :
    ∃ m', DeclaresMessage new package name m' ∧ ReadsBytes new m' bytes es ∧ Complete new m' es := by
  have hc := ((C01_clean_iff_compatible o config old new ho hn).1 hclean).1
  obtain ⟨m', hm', hmk⟩ := message_kept hc hm hs
  obtain ⟨rs, hrs, h⟩ := h
  have hco := complete_iff.1 hco
  exact ⟨m', hm', ⟨rs, hrs, reads_kept hc hcl (binary_same old new) h hk hm hs hmk⟩,
    complete_iff.2 ⟨required_kept hr hm hm' hmk (numbers_nodup hn hm') hco.1,
      complete_kept hc hcl hn hl hr h hm hs hco.2⟩⟩

/-- C93: a change that adds a required field passes break check, although all data
written before it is rejected after it. -/
theorem C93_accepted_not : ∃ (old new : PackageSet) (m : Message) (bytes : List UInt8)
    (es : List (Entry Int Wire (List Datum))), SchemaOK old ∧ SchemaOK new ∧ Linked old ∧ Linked new ∧
      (∀ o config, breakCheck o config old new = .ok []) ∧
      DeclaresMessage old (s%"a.v1") (s%"a.v1.Person") m ∧ ReadsBytes old m bytes es ∧ Known es ∧
      Complete old m es ∧
      ∀ m', DeclaresMessage new (s%"a.v1") (s%"a.v1.Person") m' → ¬ Complete new m' es := by
  refine ⟨WireExample.old, demanding, person, [], [], old_ok, demanding_ok, old_linked, demanding_linked,
    ?_, old_person, ⟨[], rfl, .done⟩, .done, ?_, ?_⟩
  · intro o config
    have h := ((C01_clean_iff_compatible Order.id ⟨true, false⟩ _ _ old_ok demanding_ok).1 demanding_clean).1
    refine (C01_clean_iff_compatible o config _ _ old_ok demanding_ok).2 ⟨fun p hp _ => h p hp (.inl rfl), ?_⟩
    intro _ _ p hp _ d hd
    cases List.mem_singleton.1 hp
    cases hd
  · refine .mk ?_ ?_
    · intro f hf hl
      simp only [person, Message.fields, List.mem_cons, List.not_mem_nil, or_false] at hf
      rcases hf with rfl | rfl | rfl <;> cases hl
    · intro _ _ h
      cases h
  · intro m' hm' hc
    cases demanding_linked.message_unique hm' demanding_person
    obtain ⟨e, he, _⟩ := (complete_iff.1 hc).1 ⟨s%"age", 4, 2, 5, []⟩ (by simp [person3, Message.fields]) rfl
    cases he

theorem new_noRequired : NoRequiredAdded WireExample.old WireExample.new := by
  intro _ _ m m' _ hm' f hf hl
  have := declaresMessage_mem hm'
  have h2 : ∀ x ∈ messagesOf WireExample.new, ∀ f ∈ x.2.fields, f.label ≠ 2 := by decide
  exact absurd hl (h2 _ this f hf)

theorem entries_complete : Complete WireExample.old person entries := by
  have h2 : ∀ x ∈ messagesOf WireExample.old, ∀ f ∈ x.2.fields, f.label ≠ 2 := by decide
  refine .mk (fun f hf hl => absurd hl (h2 _ (declaresMessage_mem old_person) f hf)) ?_
  intro slot es' h package t ht
  refine .mk (fun f hf hl => absurd hl (h2 _ (declaresMessage_mem ht) f hf)) ?_
  intro slot2 es2 h2
  simp only [entries, List.mem_cons, List.not_mem_nil, or_false] at h
  rcases h with h | h | h
  · cases h
  · cases h
  · cases h
    simp at h2

example : ∃ m', DeclaresMessage WireExample.new (s%"a.v1") (s%"a.v1.Person") m' ∧
    ReadsBytes WireExample.new m' WireExample.bytes entries ∧ Complete WireExample.new m' entries :=
  C93_accepted_partial Order.id ⟨true, false⟩ _ _ old_ok new_ok new_linked new_clean (closed_all _)
    new_noRequired old_person (.inl rfl) bytes_read entries_known entries_complete

/-! ## Data written after the change -/

/-- C93: bytes written after a change that passes break check can be read with the old
schema. The reader sees the same fields and values, except that added fields are
unknown to it and added enum values have no name, and it misses no required field. -/
theorem C93_new_data (o : Order) (config : BreakConfig) (old new : PackageSet) (ho : SchemaOK old)
    (hn : SchemaOK new) (hol : Linked old) (hnl : Linked new) (hclean : breakCheck o config old new = .ok [])
    (hcl : Closed (Checked config.includeBeta) old) {package name : Str} {m m' : Message}
    (hm : DeclaresMessage old package name m) (hs : Checked config.includeBeta package)
    (hm' : DeclaresMessage new package name m')
    {bytes : List UInt8} {es' : List (Entry Int Wire (List Datum))} (h : ReadsBytes new m' bytes es') :
    ∃ es, ReadsBytes old m bytes es ∧ Sees es es' ∧ (Complete new m' es' → Complete old m es) := by
  have hc := ((C01_clean_iff_compatible o config old new ho hn).1 hclean).1
  obtain ⟨m1, hm1, hmk⟩ := message_kept hc hm hs
  cases hnl.message_unique hm1 hm'
  obtain ⟨rs, hrs, h⟩ := h
  obtain ⟨es, hes⟩ := readsOld hc hcl hol hn hnl (binary_keyed hn) (fun _ _ _ _ => rfl) h hm hs hm1 hmk
  refine ⟨es, ⟨rs, hrs, hes.reads⟩, hes.sees, fun hco => ?_⟩
  have hco := complete_iff.1 hco
  refine complete_iff.2 ⟨fun f hf hl => hes.numbers f hf ?_, hes.inside hco.2⟩
  obtain ⟨f', hf', hfk, _⟩ := hmk.fields f hf
  obtain ⟨e, he, hen⟩ := hco.1 f' hf' (hfk.label ▸ hl)
  exact ⟨e, he, by rw [hen, hfk.number]⟩

example : ∃ es, ReadsBytes WireExample.old person bytes2 es ∧ Sees es entries2 ∧
    (Complete WireExample.new person2 entries2 → Complete WireExample.old person es) :=
  C93_new_data Order.id ⟨true, false⟩ _ _ old_ok new_ok old_linked new_linked new_clean (closed_all _)
    old_person (.inl rfl) new_person bytes2_read

/-! ## Encodings with names -/

/-- C93: the same for encodings that give enum values by name (such as JSON and the text
format), if the old schema has no enum aliases. Missing: break check does not report
the removal of an alias (`C93_names_not`). -/
theorem C93_names_partial {Key Payload Data : Type} (F : Format Key Payload Data) (hF : ByName F) (o : Order)
    (config : BreakConfig) (old new : PackageSet) (ho : SchemaOK old) (hn : SchemaOK new)
    (hclean : breakCheck o config old new = .ok []) (hcl : Closed (Checked config.includeBeta) old)
    (ha : NoAliases old) (hv : ValueNames new) {package name : Str} {m : Message}
    (hm : DeclaresMessage old package name m) (hs : Checked config.includeBeta package)
    {rs : List (Key × Payload)} {es : List (Entry Key Payload Data)} (h : Reads F old m rs es)
    (hk : Known es) : ∃ m', DeclaresMessage new package name m' ∧ Reads F new m' rs es :=
  C93_reads F o config old new ho hn hclean hcl (sameNumbers_of_names hF ha hv) hm hs h hk

namespace WireExample

/-- A document in the manner of JSON. -/
inductive Doc where
  | text (s : Str)
  | object (fields : List (Str × Doc))

/-- Documents: fields are told apart by name, and enum values are given by name. -/
def documents : Format Str Doc Str where
  key name _ := name
  fields _ d :=
    match d with
    | .object fields => some fields
    | .text _ => none
  scalar _ _ d :=
    match d with
    | .object _ => none
    | .text s => some s
  numbers _ e d :=
    match d with
    | .object _ => none
    | .text s => (numberNamed e s).map ([·])

theorem documents_byName : ByName documents := by
  intro label e e' d h ns hns
  cases d with
  | object _ => cases hns
  | text s =>
    obtain ⟨n, hn, rfl⟩ := Option.map_eq_some_iff.1 hns
    show (numberNamed e' s).map ([·]) = _
    rw [h s n hn]
    rfl

/-- The value `SCARLET` is an alias of `RED`. -/
def aliased (values : List EnumValue) : PackageSet :=
  [⟨s%"a.v1", [], [⟨s%"Colour", values⟩],
    [.mk (s%"Car") [] [] [⟨s%"colour", 1, 1, 14, s%"a.v1.Colour"⟩] []], []⟩]

def before : PackageSet := aliased [⟨s%"SCARLET", 0⟩, ⟨s%"RED", 0⟩]
def after : PackageSet := aliased [⟨s%"RED", 0⟩]

theorem before_ok : SchemaOK before := schemaOK_of_check (by decide)
theorem after_ok : SchemaOK after := schemaOK_of_check (by decide)
theorem before_linked : Linked before := linked_of_check (by decide)
theorem after_linked : Linked after := linked_of_check (by decide)
theorem after_clean : breakCheck Order.id ⟨true, false⟩ before after = .ok [] := by rfl

end WireExample

/-- C93: removing an alias of an enum value passes break check, although documents that
use its name can no longer be read. -/
theorem C93_names_not : ∃ (old new : PackageSet) (m : Message) (rs : List (Str × Doc))
    (es : List (Entry Str Doc Str)), SchemaOK old ∧ SchemaOK new ∧ Linked old ∧ Linked new ∧
      (∀ o config, breakCheck o config old new = .ok []) ∧
      DeclaresMessage old (s%"a.v1") (s%"a.v1.Car") m ∧ Reads documents old m rs es ∧ Known es ∧
      ∀ m', DeclaresMessage new (s%"a.v1") (s%"a.v1.Car") m' → ∀ es', ¬ Reads documents new m' rs es' := by
  refine ⟨before, after, .mk (s%"Car") [] [] [⟨s%"colour", 1, 1, 14, s%"a.v1.Colour"⟩] [],
    [(s%"colour", .text (s%"SCARLET"))], _, before_ok, after_ok, before_linked, after_linked,
    ?_, ⟨_, List.mem_cons_self, rfl, [s%"Car"], .here List.mem_cons_self, by decide⟩,
    .enum (f := ⟨s%"colour", 1, 1, 14, s%"a.v1.Colour"⟩) (ns := [0]) (package := s%"a.v1")
      (e := ⟨s%"Colour", [⟨s%"SCARLET", 0⟩, ⟨s%"RED", 0⟩]⟩) List.mem_cons_self rfl rfl
      ⟨_, List.mem_cons_self, rfl, [], .top List.mem_cons_self, by decide⟩ (by rfl) .done, ?_, ?_⟩
  · intro o config
    have h := ((C01_clean_iff_compatible Order.id ⟨true, false⟩ _ _ before_ok after_ok).1 after_clean).1
    refine (C01_clean_iff_compatible o config _ _ before_ok after_ok).2 ⟨fun p hp _ => h p hp (.inl rfl), ?_⟩
    intro _ _ p hp _ d hd
    cases List.mem_singleton.1 hp
    cases hd
  · exact .enum (by decide) .done
  · intro m' hm' es' h
    cases after_linked.message_unique hm'
      (⟨_, List.mem_cons_self, rfl, [s%"Car"], .here List.mem_cons_self, by decide⟩ :
        DeclaresMessage after (s%"a.v1") (s%"a.v1.Car") (.mk (s%"Car") [] []
          [⟨s%"colour", 1, 1, 14, s%"a.v1.Colour"⟩] []))
    cases h with
    | scalar hf _ ht =>
      cases List.mem_singleton.1 hf
      exact ht (.inr (.inr rfl))
    | @enum _ f _ _ _ e ns _ _ hf _ _ he hns =>
      cases List.mem_singleton.1 hf
      have : e = ⟨s%"Colour", [⟨s%"RED", 0⟩]⟩ := after_linked.enum_unique he
        (⟨_, List.mem_cons_self, rfl, [], .top List.mem_cons_self, by decide⟩ :
          DeclaresEnum after (s%"a.v1") (s%"a.v1.Colour") _)
      subst this
      revert hns
      show (numberNamed ⟨s%"Colour", [⟨s%"RED", 0⟩]⟩ (s%"SCARLET")).map ([·]) = some ns → False
      have : numberNamed ⟨s%"Colour", [⟨s%"RED", 0⟩]⟩ (s%"SCARLET") = none := by decide
      rw [this]
      intro h
      cases h
    | message hf _ ht =>
      cases List.mem_singleton.1 hf
      rcases ht with h | h <;> cases h
    | unknown hu => exact hu ⟨s%"colour", 1, 1, 14, s%"a.v1.Colour"⟩ List.mem_cons_self rfl

/-! ## Calls -/

/-- C93: a client built before a change that passes break check can call a server built
after it. The server has the method, with the same streaming, it reads the request as
the client wrote it, and the client can read the answer. -/
theorem C93_calls (o : Order) (config : BreakConfig) (old new : PackageSet) (ho : SchemaOK old)
    (hn : SchemaOK new) (hol : Linked old) (hnl : Linked new) (hclean : breakCheck o config old new = .ok [])
    (hcl : Closed (Checked config.includeBeta) old) {p : Package} (hp : p ∈ old)
    (hpc : Checked config.includeBeta p.name) {s : Service} (hs : s ∈ p.services) {c : Method}
    (hc : c ∈ s.methods) {package package' : Str} {request response : Message}
    (hreq : DeclaresMessage old package c.requestTypeName request) (hreqc : Checked config.includeBeta package)
    (hres : DeclaresMessage old package' c.responseTypeName response)
    (hresc : Checked config.includeBeta package') :
    ∃ q ∈ new, q.name = p.name ∧ ∃ s' ∈ q.services, s'.name = s.name ∧ c ∈ s'.methods ∧
      ∃ request', DeclaresMessage new package c.requestTypeName request' ∧
        (∀ bytes es, ReadsBytes old request bytes es → Known es → ReadsBytes new request' bytes es) ∧
      ∃ response', DeclaresMessage new package' c.responseTypeName response' ∧
        ∀ bytes es', ReadsBytes new response' bytes es' →
          ∃ es, ReadsBytes old response bytes es ∧ Sees es es' := by
  have hcomp := ((C01_clean_iff_compatible o config old new ho hn).1 hclean).1
  obtain ⟨q, hq, hqn, hk⟩ := hcomp p hp hpc
  obtain ⟨s', hs', hsn, hsk⟩ := hk.services s hs
  obtain ⟨m1, hm1, _⟩ := message_kept hcomp hreq hreqc
  obtain ⟨m2, hm2, _⟩ := message_kept hcomp hres hresc
  refine ⟨q, hq, hqn, s', hs', hsn, hsk c hc, m1, hm1, ?_, m2, hm2, ?_⟩
  · intro bytes es h hkn
    obtain ⟨m', hm', h'⟩ := C93_bytes o config old new ho hn hclean hcl hreq hreqc h hkn
    cases hnl.message_unique hm' hm1
    exact h'
  · intro bytes es' h
    obtain ⟨es, h1, h2, _⟩ := C93_new_data o config old new ho hn hol hnl hclean hcl hres hresc hm2 h
    exact ⟨es, h1, h2⟩

example : SchemaOK BreakExample.v1 ∧ SchemaOK BreakExample.v2 ∧ Linked BreakExample.v1 ∧
    Linked BreakExample.v2 ∧ breakCheck Order.id ⟨true, false⟩ BreakExample.v1 BreakExample.v2 = .ok [] ∧
    BreakExample.svc ∈ (BreakExample.v1.head (by simp [BreakExample.v1])).services ∧
    DeclaresMessage BreakExample.v1 (s%"foo.v1") (s%"foo.v1.Foo") BreakExample.foo :=
  ⟨BreakExample.v1_ok, BreakExample.v2_ok, linked_of_check (by decide), linked_of_check (by decide), by rfl,
    List.mem_cons_self, ⟨_, List.mem_cons_self, rfl, [s%"Foo"], .here List.mem_cons_self, by decide⟩⟩

end Verif.Props
