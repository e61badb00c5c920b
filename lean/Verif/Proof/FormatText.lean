import Verif.Spec.FormatText
import Verif.Proof.Layout
import Verif.Proof.Split
import Verif.Proof.Protostrs

/-! # The lines of a formatted text -/

namespace Verif.Format

open Verif Str Proto Spec

/-! ## Lines without newlines -/

/-- No line of the items contains a newline. -/
def Flat (items : List Item) : Prop := ∀ d t, Item.line d t ∈ items → '\n' ∉ t

theorem flat_nil : Flat [] := fun _ _ h => (nomatch h)

theorem flat_append {a b : List Item} : Flat (a ++ b) ↔ Flat a ∧ Flat b := by
  unfold Flat
  simp only [List.mem_append]
  exact ⟨fun h => ⟨fun d t m => h d t (.inl m), fun d t m => h d t (.inr m)⟩,
    fun h d t m => m.elim (h.1 d t) (h.2 d t)⟩

theorem flat_cons_line {d : Nat} {t : Str} {items : List Item} :
    Flat (.line d t :: items) ↔ '\n' ∉ t ∧ Flat items := by
  constructor
  · exact fun h => ⟨h d t (List.mem_cons_self ..), fun d t m => h d t (List.mem_cons_of_mem _ m)⟩
  · rintro ⟨h1, h2⟩ d' t' m
    rcases List.mem_cons.1 m with h | h
    · cases h; exact h1
    · exact h2 d' t' h

theorem flat_cons_problem {f : Text.Failure} {items : List Item} :
    Flat (.problem f :: items) ↔ Flat items := by
  constructor
  · exact fun h d t m => h d t (List.mem_cons_of_mem _ m)
  · intro h d t m
    rcases List.mem_cons.1 m with h' | h'
    · cases h'
    · exact h d t h'

theorem flat_nest {items : List Item} (h : Flat items) : Flat (nest items) := by
  intro d t m
  unfold nest at m
  obtain ⟨i, hi, he⟩ := List.mem_map.1 m
  cases i with
  | line d' t' => cases he; exact h _ _ hi
  | problem f => cases he

theorem flat_flatMap {α : Type} {f : α → List Item} {l : List α} (h : ∀ a ∈ l, Flat (f a)) :
    Flat (l.flatMap f) := by
  intro d t m
  obtain ⟨a, ha, hm⟩ := List.mem_flatMap.1 m
  exact h a ha d t hm

theorem flat_map_line {α : Type} {f : α → Str} {l : List α} (h : ∀ a ∈ l, '\n' ∉ f a) :
    Flat (l.map fun a => flush (f a)) := by
  intro d t m
  obtain ⟨a, ha, hm⟩ := List.mem_map.1 m
  cases hm
  exact h a ha

/-- All strings are without newlines. -/
def NoNL (l : List Str) : Prop := ∀ s ∈ l, '\n' ∉ s

theorem noNL_append {a b : List Str} : NoNL (a ++ b) ↔ NoNL a ∧ NoNL b := by
  unfold NoNL
  simp only [List.mem_append]
  exact ⟨fun h => ⟨fun s m => h s (.inl m), fun s m => h s (.inr m)⟩,
    fun h s m => m.elim (h.1 s) (h.2 s)⟩

theorem noNL_cons {s : Str} {l : List Str} : NoNL (s :: l) ↔ '\n' ∉ s ∧ NoNL l := by
  unfold NoNL
  simp

theorem noNL_nil : NoNL [] := fun _ h => (nomatch h)

theorem nl_dropWhile {f : Char → Bool} {s : Str} (h : '\n' ∉ s) : '\n' ∉ s.dropWhile f :=
  fun m => h ((List.dropWhile_suffix f).subset m)

theorem nl_natStr (n : Nat) : '\n' ∉ natStr n := Protostrs.digits_not_mem (natStr_digits n) (by decide)

theorem nl_itoa (n : Int) : '\n' ∉ itoa n := by
  unfold itoa
  split
  · intro m
    rcases List.mem_cons.1 m with h | h
    · cases h
    · exact nl_natStr _ h
  · exact nl_natStr _

theorem nl_range (r : Range) : '\n' ∉ r.sourceRepresentation := by
  unfold Range.sourceRepresentation
  have h1 := nl_itoa r.start
  have h2 := nl_itoa r.stop
  split
  · simp [h1]
  · split <;> simp [h1, h2]

theorem nl_join {sep : Str} (hs : '\n' ∉ sep) : ∀ {l : List Str}, NoNL l → '\n' ∉ join sep l
  | [], _ => by simp [join]
  | [s], h => by simpa [join] using (noNL_cons.1 h).1
  | s :: t :: l, h => by
    have hj : join sep (s :: t :: l) = s ++ sep ++ join sep (t :: l) := rfl
    rw [hj, List.mem_append, List.mem_append]
    rintro ((h' | h') | h')
    · exact (noNL_cons.1 h).1 h'
    · exact hs h'
    · exact nl_join hs (noNL_cons.1 h).2 h'

theorem flat_note {c : Option Comment} (h : NoNL (commentStrings c)) : Flat (note c) := by
  cases c with
  | none => exact flat_nil
  | some c =>
    exact flat_map_line (f := fun l : Str => s%"//" ++ l.dropWhile (· == '/')) fun l hl => by
      have := nl_dropWhile (f := (· == '/')) (h l hl)
      simp [this]

theorem flat_noted {t : Str} {c : Option Comment} (ht : '\n' ∉ t) (h : NoNL (commentStrings c)) :
    Flat (noted t c) := by
  unfold noted
  cases c with
  | none => exact flat_cons_line.2 ⟨ht, flat_nil⟩
  | some c =>
    dsimp only
    have h' : NoNL c.lines := h
    cases hl : c.lines with
    | nil => exact flat_cons_line.2 ⟨ht, flat_nil⟩
    | cons l ls =>
      rw [hl] at h'
      have := nl_dropWhile (f := (· == '/')) (noNL_cons.1 h').1
      refine flat_cons_line.2 ⟨by simp [ht, this], ?_⟩
      exact flat_map_line (f := fun l : Str => s%"//" ++ l.dropWhile (· == '/')) fun l hl => by
        have := nl_dropWhile (f := (· == '/')) ((noNL_cons.1 h').2 l hl)
        simp [this]

mutual

theorem flat_value (name suffix : Str) (hn : '\n' ∉ name) (hs : '\n' ∉ suffix) :
    ∀ l : Literal, NoNL (literalStrings l) → Flat (valueItems name suffix l)
  | .mk source isString quote array map, h => by
    unfold literalStrings at h
    obtain ⟨h1, hm⟩ := noNL_append.1 h
    obtain ⟨h1, ha⟩ := noNL_append.1 h1
    obtain ⟨hsrc, hq⟩ := noNL_cons.1 h1
    have hq := (noNL_cons.1 hq).1
    have hkey : '\n' ∉ (if name = [] then [] else name ++ s%": ") := by
      split <;> simp [hn]
    unfold valueItems
    dsimp only
    cases array with
    | nil =>
      cases map with
      | nil =>
        dsimp only
        split
        · exact flat_nil
        · refine flat_cons_line.2 ⟨?_, flat_nil⟩
          have : '\n' ∉ (Literal.mk source isString quote [] []).sourceRepresentation := by
            unfold Literal.sourceRepresentation
            have hq' : ¬ '\n' = quote := by simpa using hq
            cases isString <;> simp [hsrc, hq']
          simp only [List.mem_append, not_or]
          exact ⟨⟨hkey, this⟩, hs⟩
      | cons m ms =>
        dsimp only
        rw [List.cons_append]
        refine flat_cons_line.2 ⟨?_, flat_append.2 ⟨flat_nest (flat_map _ hm), flat_cons_line.2 ⟨?_, flat_nil⟩⟩⟩
        · rw [List.mem_append, not_or]; exact ⟨hkey, by decide⟩
        · rw [List.mem_append, not_or]; exact ⟨by decide, hs⟩
    | cons a as =>
      dsimp only
      rw [List.cons_append]
      refine flat_cons_line.2 ⟨?_, flat_append.2 ⟨flat_nest (flat_array _ ha), flat_cons_line.2 ⟨?_, flat_nil⟩⟩⟩
      · rw [List.mem_append, not_or]; exact ⟨hkey, by decide⟩
      · rw [List.mem_append, not_or]; exact ⟨by decide, hs⟩

theorem flat_array : ∀ ls : List Literal, NoNL (arrayStrings ls) → Flat (arrayItems ls)
  | [], _ => by unfold arrayItems; exact flat_nil
  | l :: ls, h => by
    unfold arrayStrings at h
    obtain ⟨h1, h2⟩ := noNL_append.1 h
    unfold arrayItems
    refine flat_append.2 ⟨flat_value _ _ List.not_mem_nil ?_ l h1, flat_array ls h2⟩
    split <;> decide

theorem flat_map : ∀ ls : List (Str × Literal), NoNL (mapStrings ls) → Flat (mapItems ls)
  | [], _ => by unfold mapItems; exact flat_nil
  | l :: ls, h => by
    unfold mapStrings at h
    obtain ⟨h1, h2⟩ := noNL_append.1 h
    unfold mapItems
    exact flat_append.2 ⟨flat_entry l h1, flat_map ls h2⟩

theorem flat_entry : ∀ l : Str × Literal, NoNL (entryStrings l) → Flat (entryItems l)
  | (name, l), h => by
    unfold entryStrings at h
    unfold entryItems
    exact flat_value name [] (noNL_cons.1 h).1 List.not_mem_nil l (noNL_cons.1 h).2

end

theorem nl_source {l : Literal} (h : NoNL (literalStrings l)) : '\n' ∉ l.sourceRepresentation := by
  cases l with
  | mk source isString quote array map =>
    unfold literalStrings at h
    obtain ⟨h1, hm⟩ := noNL_append.1 h
    obtain ⟨h1, ha⟩ := noNL_append.1 h1
    obtain ⟨hsrc, hq⟩ := noNL_cons.1 h1
    have hq := (noNL_cons.1 hq).1
    unfold Literal.sourceRepresentation
    have hq' : ¬ '\n' = quote := by simpa using hq
    cases isString <;> simp [hsrc, hq']

theorem noNL_map {l : Literal} (h : NoNL (literalStrings l)) : NoNL (mapStrings l.orderedMap) := by
  cases l with
  | mk source isString quote array map =>
    unfold literalStrings at h
    exact (noNL_append.1 h).2

/-- The strings of an option are without newlines. -/
def OptNL (o : Opt) : Prop := NoNL (stringsOf (.option o))

theorem optNL {o : Opt} (h : OptNL o) : '\n' ∉ o.name ∧ NoNL (commentStrings o.comment) ∧
    NoNL (commentStrings o.inlineComment) ∧ NoNL (literalStrings o.constant) := by
  unfold OptNL stringsOf at h
  obtain ⟨h, h4⟩ := noNL_append.1 h
  obtain ⟨h, h3⟩ := noNL_append.1 h
  obtain ⟨h1, h2⟩ := noNL_cons.1 h
  exact ⟨h1, h2, h3, h4⟩

theorem flat_option {pre suffix : Str} (hp : '\n' ∉ pre) (hs : '\n' ∉ suffix) {o : Opt} (h : OptNL o) :
    Flat (optionItems pre suffix o) := by
  obtain ⟨h1, h2, h3, h4⟩ := optNL h
  unfold optionItems
  refine flat_append.2 ⟨flat_note h2, ?_⟩
  split
  · split
    · exact flat_nil
    · refine flat_noted ?_ h3
      have := nl_source h4
      simp only [List.mem_append, not_or]
      exact ⟨⟨⟨⟨hp, h1⟩, by decide⟩, this⟩, hs⟩
  · split
    · exact flat_cons_problem.2 flat_nil
    · rw [List.cons_append]
      refine flat_cons_line.2 ⟨?_, flat_append.2 ⟨flat_nest (flat_map _ (noNL_map h4)), flat_noted ?_ h3⟩⟩
      · simp only [List.mem_append, not_or]
        exact ⟨⟨hp, h1⟩, by decide⟩
      · simp only [List.mem_append, not_or]
        exact ⟨by decide, hs⟩

theorem flat_bracketed {os : List Opt} (h : ∀ o ∈ os, OptNL o) : Flat (bracketed os) := by
  induction os with
  | nil => exact flat_nil
  | cons o os ih =>
    unfold bracketed
    refine flat_append.2 ⟨flat_option List.not_mem_nil ?_ (h o (List.mem_cons_self ..)),
      ih fun o ho => h o (List.mem_cons_of_mem _ ho)⟩
    split <;> decide

theorem flat_statement {o : Opt} (h : OptNL o) : Flat (optionStatement o) :=
  flat_option (by decide) (by decide) h

theorem flat_field {sort : List Opt → List Opt} (hsort : ∀ l, ∀ o ∈ sort l, o ∈ l) {d : Str}
    {c i : Option Comment} {os : List Opt} (hd : '\n' ∉ d) (hc : NoNL (commentStrings c))
    (hi : NoNL (commentStrings i)) (ho : ∀ o ∈ os, OptNL o) : Flat (fieldItems sort d c i os) := by
  unfold fieldItems
  refine flat_append.2 ⟨flat_note hc, ?_⟩
  split
  · refine flat_noted ?_ hi
    simp only [List.mem_append, not_or]
    exact ⟨hd, by decide⟩
  · split
    · rename_i o honl
      have hmem : o ∈ os := by
        unfold onLine at honl
        split at honl
        · split at honl
          · cases honl; exact List.mem_cons_self ..
          · cases honl
        · cases honl
      obtain ⟨h1, _, _, h4⟩ := optNL (ho o hmem)
      refine flat_noted ?_ hi
      simp only [List.mem_append, not_or]
      exact ⟨⟨⟨⟨⟨hd, by decide⟩, h1⟩, by decide⟩, nl_source h4⟩, by decide⟩
    · rw [List.cons_append]
      refine flat_cons_line.2 ⟨?_, flat_append.2 ⟨flat_nest (flat_bracketed fun o h => ho o (hsort _ o h)),
        flat_noted (by decide) hi⟩⟩
      simp only [List.mem_append, not_or]
      exact ⟨hd, by decide⟩

theorem nl_declaration {t n : Str} (ht : '\n' ∉ t) (hn : '\n' ∉ n) (i : Int) :
    '\n' ∉ declarationOf t n i := by
  unfold declarationOf
  have := nl_itoa i
  simp only [List.mem_append, not_or]
  refine ⟨⟨⟨?_, hn⟩, by decide⟩, this⟩
  split
  · exact List.not_mem_nil
  · simp [ht]

theorem flat_block {c : Option Comment} {head : Str} {body : Option (List Item)} {gap emptyGap : List Item}
    (hc : NoNL (commentStrings c)) (hh : '\n' ∉ head) (hb : ∀ b, body = some b → Flat b)
    (hg : Flat gap) (he : Flat emptyGap) : Flat (blockItems c head body gap emptyGap) := by
  unfold blockItems
  refine flat_append.2 ⟨flat_note hc, ?_⟩
  cases body with
  | none =>
    refine flat_cons_line.2 ⟨?_, he⟩
    simp only [List.mem_append, not_or]
    exact ⟨hh, by decide⟩
  | some b =>
    dsimp only
    rw [List.cons_append]
    refine flat_cons_line.2 ⟨?_, flat_append.2 ⟨flat_nest (hb b rfl), flat_cons_line.2 ⟨by decide, hg⟩⟩⟩
    simp only [List.mem_append, not_or]
    exact ⟨hh, by decide⟩

theorem flat_blank : Flat [blank] := flat_cons_line.2 ⟨List.not_mem_nil, flat_nil⟩

/-- The strings of a node and of the nodes in it are without newlines. -/
def NodesNL (ns : List Node) : Prop := ∀ n ∈ ns, NoNL (stringsOf n.self)

theorem nodesNL_append {a b : List Node} : NodesNL (a ++ b) ↔ NodesNL a ∧ NodesNL b := by
  unfold NodesNL
  simp only [List.mem_append]
  exact ⟨fun h => ⟨fun s m => h s (.inl m), fun s m => h s (.inr m)⟩,
    fun h s m => m.elim (h.1 s) (h.2 s)⟩

theorem nodesNL_cons {n : Node} {l : List Node} :
    NodesNL (n :: l) ↔ NoNL (stringsOf n.self) ∧ NodesNL l := by
  unfold NodesNL
  simp

theorem nodesNL_options {a : List Element} {os : List Opt}
    (h : NodesNL (os.map fun o => ⟨a, .option o⟩)) : ∀ o ∈ os, OptNL o :=
  fun o ho => h ⟨a, .option o⟩ (List.mem_map.2 ⟨o, ho, rfl⟩)

theorem nodesAll_option {a : List Element} {es : List Element} (h : NodesNL (nodesAll a es)) :
    ∀ o ∈ optionsAmong es, OptNL o := by
  induction es with
  | nil => exact fun o ho => nomatch ho
  | cons e es ih =>
    unfold nodesAll at h
    obtain ⟨h1, h2⟩ := nodesNL_append.1 h
    intro o ho
    have : optionsAmong (e :: es) = optionsAmong [e] ++ optionsAmong es := filterMap_cons_append _ _ _
    rw [this, List.mem_append] at ho
    rcases ho with ho | ho
    · cases e <;> first
        | (cases List.mem_singleton.1 ho
           unfold nodes at h1
           exact (nodesNL_cons.1 h1).1)
        | exact nomatch ho
    · exact ih h2 o ho

section Elements

variable {sort : List Opt → List Opt} (hsort : ∀ l, ∀ o ∈ sort l, o ∈ l) (isProto2 : Bool)

include hsort

mutual

theorem flat_element : ∀ (around : Around) (a : List Element) (e : Element), NodesNL (nodes a e) →
    Flat (elementItems sort isProto2 around e)
  | around, a, .comment c, h => by
    unfold nodes at h; unfold elementItems
    exact flat_append.2 ⟨flat_note (c := some c) (nodesNL_cons.1 h).1, flat_blank⟩
  | around, a, .syntax _, h => by unfold elementItems; exact flat_nil
  | around, a, .package _, h => by unfold elementItems; exact flat_nil
  | around, a, .import _, h => by unfold elementItems; exact flat_nil
  | around, a, .option o, h => by
    unfold nodes at h; unfold elementItems innerOptionItems
    cases around with
    | none => exact flat_nil
    | group => exact flat_cons_problem.2 flat_nil
    | _ => exact flat_statement (nodesNL_cons.1 h).1
  | around, a, .message m es, h => by
    unfold nodes at h; unfold elementItems
    obtain ⟨h1, h2⟩ := nodesNL_cons.1 h
    obtain ⟨h3, h4⟩ := noNL_cons.1 (show NoNL (m.name :: commentStrings m.comment) from h1)
    refine flat_block h4 ?_ (fun b hb => ?_) ?_ flat_blank
    · rw [List.mem_append, not_or]; exact ⟨by split <;> decide, h3⟩
    · split at hb
      · cases hb
      · cases hb; exact flat_elements .message _ es h2
    · split
      · exact flat_blank
      · exact flat_nil
  | around, a, .enum m es, h => by
    unfold nodes at h; unfold elementItems
    obtain ⟨h1, h2⟩ := nodesNL_cons.1 h
    obtain ⟨h3, h4⟩ := noNL_cons.1 (show NoNL (m.name :: commentStrings m.comment) from h1)
    refine flat_block h4 ?_ (fun b hb => ?_) ?_ flat_blank
    · rw [List.mem_append, not_or]; exact ⟨by decide, h3⟩
    · split at hb
      · cases hb
      · cases hb; exact flat_elements .enum _ es h2
    · split
      · exact flat_blank
      · exact flat_nil
  | around, a, .service m es, h => by
    unfold nodes at h; unfold elementItems
    obtain ⟨h1, h2⟩ := nodesNL_cons.1 h
    obtain ⟨h3, h4⟩ := noNL_cons.1 (show NoNL (m.name :: commentStrings m.comment) from h1)
    refine flat_block h4 ?_ (fun b hb => ?_) flat_blank flat_blank
    · rw [List.mem_append, not_or]; exact ⟨by decide, h3⟩
    · split at hb
      · cases hb
      · cases hb; exact flat_elements .service _ es h2
  | around, a, .oneof m es, h => by
    unfold nodes at h; unfold elementItems
    obtain ⟨h1, h2⟩ := nodesNL_cons.1 h
    obtain ⟨h3, h4⟩ := noNL_cons.1 (show NoNL (m.name :: commentStrings m.comment) from h1)
    refine flat_block h4 ?_ (fun b hb => ?_) flat_nil flat_nil
    · rw [List.mem_append, not_or]; exact ⟨by decide, h3⟩
    · split at hb
      · cases hb
      · cases hb; exact flat_elements .oneof _ es h2
  | around, a, .group m es, h => by
    unfold nodes at h; unfold elementItems
    obtain ⟨h1, h2⟩ := nodesNL_cons.1 h
    obtain ⟨h3, h4⟩ := noNL_cons.1 (show NoNL (m.name :: commentStrings m.comment) from h1)
    refine flat_block h4 ?_ (fun b hb => ?_) flat_nil flat_nil
    · have := nl_itoa m.sequence
      simp only [List.mem_append, not_or]
      exact ⟨⟨⟨⟨by split <;> decide, by decide⟩, h3⟩, by decide⟩, this⟩
    · split at hb
      · cases hb
      · cases hb; exact flat_elements .group _ es h2
  | around, a, .enumField f es, h => by
    unfold nodes at h; unfold elementItems
    obtain ⟨h1, h2⟩ := nodesNL_cons.1 h
    obtain ⟨h3, h4⟩ := noNL_append.1
      (show NoNL ((f.name :: commentStrings f.comment) ++ commentStrings f.inlineComment) from h1)
    obtain ⟨h5, h6⟩ := noNL_cons.1 h3
    exact flat_field hsort (nl_declaration List.not_mem_nil h5 _) h6 h4 (nodesAll_option h2)
  | around, a, .rpc r es, h => by
    unfold nodes at h; unfold elementItems rpcItems
    obtain ⟨h1, h2⟩ := nodesNL_cons.1 h
    obtain ⟨h3, h4⟩ := noNL_append.1 (show NoNL ([r.name, r.requestType, r.returnsType] ++
      commentStrings r.comment ++ commentStrings r.inlineComment) from h1)
    obtain ⟨h5, h6⟩ := noNL_append.1 h3
    obtain ⟨k1, k2⟩ := noNL_cons.1 h5
    obtain ⟨k2, k3⟩ := noNL_cons.1 k2
    have k3 := (noNL_cons.1 k3).1
    dsimp only
    have hhead : '\n' ∉ s%"rpc " ++ r.name ++ s%"(" ++ (if r.streamsRequest then s%"stream " else []) ++
        r.requestType ++ s%") returns (" ++ (if r.streamsReturns then s%"stream " else []) ++
        r.returnsType := by
      simp only [List.mem_append, not_or]
      exact ⟨⟨⟨⟨⟨⟨⟨by decide, k1⟩, by decide⟩, by split <;> decide⟩, k2⟩, by decide⟩,
        by split <;> decide⟩, k3⟩
    refine flat_append.2 ⟨flat_note h6, ?_⟩
    split
    · refine flat_noted ?_ h4
      rw [List.mem_append, not_or]; exact ⟨hhead, by decide⟩
    · rw [List.cons_append]
      refine flat_cons_line.2 ⟨?_, flat_append.2 ⟨flat_nest (flat_flatMap fun o ho =>
        flat_statement (nodesAll_option h2 o (hsort _ o ho))), flat_noted (by decide) h4⟩⟩
      rw [List.mem_append, not_or]; exact ⟨hhead, by decide⟩
  | around, a, .normalField f, h => by
    unfold nodes at h; unfold elementItems
    obtain ⟨h1, h2⟩ := nodesNL_cons.1 h
    obtain ⟨h3, h4⟩ := noNL_append.1 (show NoNL ([f.field.name, f.field.type] ++
      commentStrings f.field.comment ++ commentStrings f.field.inlineComment) from h1)
    obtain ⟨h5, h6⟩ := noNL_append.1 h3
    obtain ⟨k1, k2⟩ := noNL_cons.1 h5
    have k2 := (noNL_cons.1 k2).1
    refine flat_field hsort ?_ h6 h4 (nodesNL_options h2)
    rw [List.mem_append, not_or]
    refine ⟨?_, nl_declaration k2 k1 _⟩
    unfold labelOf
    repeat' split
    all_goals decide
  | around, a, .mapField f, h => by
    unfold nodes at h; unfold elementItems
    obtain ⟨h1, h2⟩ := nodesNL_cons.1 h
    obtain ⟨h0, h1⟩ := noNL_cons.1 (show NoNL (f.keyType :: fieldStrings f.field) from h1)
    obtain ⟨h3, h4⟩ := noNL_append.1 (show NoNL ([f.field.name, f.field.type] ++
      commentStrings f.field.comment ++ commentStrings f.field.inlineComment) from h1)
    obtain ⟨h5, h6⟩ := noNL_append.1 h3
    obtain ⟨k1, k2⟩ := noNL_cons.1 h5
    have k2 := (noNL_cons.1 k2).1
    refine flat_field hsort (nl_declaration ?_ k1 _) h6 h4 (nodesNL_options h2)
    simp only [List.mem_append, not_or]
    exact ⟨⟨⟨⟨by decide, h0⟩, by decide⟩, k2⟩, by decide⟩
  | around, a, .oneofField f, h => by
    unfold nodes at h; unfold elementItems
    obtain ⟨h1, h2⟩ := nodesNL_cons.1 h
    obtain ⟨h3, h4⟩ := noNL_append.1 (show NoNL ([f.name, f.type] ++
      commentStrings f.comment ++ commentStrings f.inlineComment) from h1)
    obtain ⟨h5, h6⟩ := noNL_append.1 h3
    obtain ⟨k1, k2⟩ := noNL_cons.1 h5
    have k2 := (noNL_cons.1 k2).1
    exact flat_field hsort (nl_declaration k2 k1 _) h6 h4 (nodesNL_options h2)
  | around, a, .reserved r, h => by
    unfold nodes at h; unfold elementItems reservedItems
    obtain ⟨h1, h2⟩ := nodesNL_cons.1 h
    obtain ⟨h3, h4⟩ := noNL_append.1 (show NoNL (r.fieldNames ++
      commentStrings r.comment ++ commentStrings r.inlineComment) from h1)
    obtain ⟨h5, h6⟩ := noNL_append.1 h3
    split
    · exact flat_cons_problem.2 flat_nil
    · refine flat_append.2 ⟨flat_note h6, ?_⟩
      split
      · refine flat_noted ?_ h4
        simp only [List.mem_append, not_or]
        refine ⟨⟨by decide, nl_join (by decide) ?_⟩, by decide⟩
        intro s hs
        obtain ⟨x, _, rfl⟩ := List.mem_map.1 hs
        exact nl_range x
      · split
        · refine flat_noted ?_ h4
          simp only [List.mem_append, not_or]
          refine ⟨⟨by decide, nl_join (by decide) ?_⟩, by decide⟩
          intro s hs
          obtain ⟨x, hx, rfl⟩ := List.mem_map.1 hs
          have := h5 x hx
          simp [this]
        · exact flat_nil
  | around, a, .extensions r, h => by
    unfold nodes at h; unfold elementItems
    obtain ⟨h1, h2⟩ := nodesNL_cons.1 h
    obtain ⟨h3, h4⟩ := noNL_append.1 (show NoNL (
      commentStrings r.comment ++ commentStrings r.inlineComment) from h1)
    refine flat_append.2 ⟨flat_note h3, flat_noted ?_ h4⟩
    simp only [List.mem_append, not_or]
    refine ⟨⟨by decide, nl_join (by decide) ?_⟩, by decide⟩
    intro s hs
    obtain ⟨x, _, rfl⟩ := List.mem_map.1 hs
    exact nl_range x

theorem flat_elements : ∀ (around : Around) (a : List Element) (es : List Element),
    NodesNL (nodesAll a es) → Flat (elementsItems sort isProto2 around es)
  | around, a, [], _ => by unfold elementsItems; exact flat_nil
  | around, a, e :: es, h => by
    unfold nodesAll at h; unfold elementsItems
    obtain ⟨h1, h2⟩ := nodesNL_append.1 h
    exact flat_append.2 ⟨flat_element around a e h1, flat_elements around a es h2⟩

end

end Elements

/-! ## The whole file -/

theorem oneLine_nodes {es : List Element} (h : OneLine es) : NodesNL (nodesAll [] es) := h

theorem nodesAll_mem {a : List Element} {es : List Element} (h : NodesNL (nodesAll a es)) :
    ∀ e ∈ es, NodesNL (nodes a e) := by
  induction es with
  | nil => exact fun e he => nomatch he
  | cons e es ih =>
    unfold nodesAll at h
    obtain ⟨h1, h2⟩ := nodesNL_append.1 h
    intro e' he
    rcases List.mem_cons.1 he with rfl | he
    · exact h1
    · exact ih h2 e' he

theorem syntax_mem {es : List Element} {s : Syntax} (h : s ∈ syntaxesAmong es) : .syntax s ∈ es := by
  unfold syntaxesAmong at h
  obtain ⟨e, he, hs⟩ := List.mem_filterMap.1 h
  cases e <;> cases hs
  exact he

theorem package_mem {es : List Element} {s : Package} (h : s ∈ packagesAmong es) : .package s ∈ es := by
  unfold packagesAmong at h
  obtain ⟨e, he, hs⟩ := List.mem_filterMap.1 h
  cases e <;> cases hs
  exact he

theorem import_mem {es : List Element} {s : Import} (h : s ∈ importsAmong es) : .import s ∈ es := by
  unfold importsAmong at h
  obtain ⟨e, he, hs⟩ := List.mem_filterMap.1 h
  cases e <;> cases hs
  exact he

theorem option_mem {es : List Element} {s : Opt} (h : s ∈ optionsAmong es) : .option s ∈ es := by
  unfold optionsAmong at h
  obtain ⟨e, he, hs⟩ := List.mem_filterMap.1 h
  cases e <;> cases hs
  exact he

theorem flat_syntax {s : Option Syntax} (h : ∀ x, s = some x → NoNL (stringsOf (.syntax x))) :
    Flat (syntaxItems s) := by
  cases s with
  | none => exact flat_nil
  | some s =>
    obtain ⟨h3, h4⟩ := noNL_append.1
      (show NoNL ((s.value :: commentStrings s.comment) ++ commentStrings s.inlineComment) from h s rfl)
    obtain ⟨h5, h6⟩ := noNL_cons.1 h3
    unfold syntaxItems
    refine flat_append.2 ⟨flat_append.2 ⟨flat_append.2 ⟨flat_note h6, ?_⟩, flat_noted ?_ h4⟩, flat_blank⟩
    · split
      · exact flat_blank
      · exact flat_nil
    · simp only [List.mem_append, not_or]
      exact ⟨⟨by decide, h5⟩, by decide⟩

theorem flat_package {s : Option Package} (h : ∀ x, s = some x → NoNL (stringsOf (.package x))) :
    Flat (packageItems s) := by
  cases s with
  | none => exact flat_nil
  | some s =>
    obtain ⟨h3, h4⟩ := noNL_append.1
      (show NoNL ((s.name :: commentStrings s.comment) ++ commentStrings s.inlineComment) from h s rfl)
    obtain ⟨h5, h6⟩ := noNL_cons.1 h3
    unfold packageItems
    refine flat_append.2 ⟨flat_append.2 ⟨flat_note h6, flat_noted ?_ h4⟩, flat_blank⟩
    simp only [List.mem_append, not_or]
    exact ⟨⟨by decide, h5⟩, by decide⟩

theorem flat_import {i : Import} (h : NoNL (stringsOf (.import i))) : Flat (importItems i) := by
  obtain ⟨h3, h4⟩ := noNL_append.1
    (show NoNL ([i.filename, i.kind] ++ commentStrings i.comment ++ commentStrings i.inlineComment) from h)
  obtain ⟨h5, h6⟩ := noNL_append.1 h3
  obtain ⟨k1, k2⟩ := noNL_cons.1 h5
  have k2 := (noNL_cons.1 k2).1
  unfold importItems
  refine flat_append.2 ⟨flat_note h6, flat_noted ?_ h4⟩
  simp only [List.mem_append, not_or]
  refine ⟨⟨⟨⟨by decide, ?_⟩, by decide⟩, k1⟩, by decide⟩
  split
  · exact List.not_mem_nil
  · simp [k2]

theorem flat_duplicates (a b : Bool) (es : List Element) : Flat (duplicateItems.go a b es) := by
  induction es generalizing a b with
  | nil => exact flat_nil
  | cons e es ih =>
    unfold duplicateItems.go
    split
    · rename_i h; cases h
    · rename_i h; cases h
      refine flat_append.2 ⟨?_, ih _ _⟩
      split
      · exact flat_cons_problem.2 flat_nil
      · exact flat_nil
    · rename_i h; cases h
      refine flat_append.2 ⟨?_, ih _ _⟩
      split
      · exact flat_cons_problem.2 flat_nil
      · exact flat_nil
    · rename_i h; cases h
      exact ih _ _

/-- The sections of a file, given what is at the top and the options. -/
theorem flat_file {sort : List Opt → List Opt} (hsort : ∀ l, ∀ o ∈ sort l, o ∈ l) (isProto2 : Bool)
    {options : List Opt} {imports : List Import} {es : List Element} (h : OneLine es)
    (ho : ∀ o ∈ options, OptNL o) (hi : ∀ i ∈ imports, i ∈ importsAmong es) :
    Flat (fileItems sort isProto2 [] options imports es) := by
  have hn := nodesAll_mem (oneLine_nodes h)
  unfold fileItems duplicateItems
  refine flat_append.2 ⟨flat_append.2 ⟨flat_append.2 ⟨flat_append.2 ⟨flat_append.2 ⟨flat_append.2
    ⟨flat_duplicates false false es, flat_nil⟩, ?_⟩, ?_⟩, ?_⟩, ?_⟩, ?_⟩
  · refine flat_syntax fun x hx => ?_
    have := hn _ (syntax_mem (List.mem_of_mem_head? hx))
    unfold nodes at this
    exact (nodesNL_cons.1 this).1
  · refine flat_package fun x hx => ?_
    have := hn _ (package_mem (List.mem_of_mem_head? hx))
    unfold nodes at this
    exact (nodesNL_cons.1 this).1
  · unfold fileOptionItems
    split
    · exact flat_nil
    · exact flat_append.2 ⟨flat_flatMap fun o hm => flat_statement (ho o hm), flat_blank⟩
  · unfold fileImportItems
    split
    · exact flat_nil
    · refine flat_append.2 ⟨flat_flatMap fun i hm => ?_, flat_blank⟩
      have := hn _ (import_mem (hi i hm))
      unfold nodes at this
      exact flat_import (nodesNL_cons.1 this).1
  · exact flat_flatMap fun e he =>
      flat_element hsort isProto2 .none [] e (hn e ((List.dropWhile_suffix _).subset he))

theorem fileItems_top (sort : List Opt → List Opt) (isProto2 : Bool) (top : List Item)
    (options : List Opt) (imports : List Import) (es : List Element) (P : List Item → Prop)
    (happ : ∀ a b, P (a ++ b) ↔ P a ∧ P b) (ht : P top)
    (h : P (fileItems sort isProto2 [] options imports es)) :
    P (fileItems sort isProto2 top options imports es) := by
  unfold fileItems at h ⊢
  simp only [List.append_nil, List.append_assoc, happ] at h ⊢
  exact ⟨h.1, ht, h.2⟩

theorem flat_lead {es : List Element} (h : OneLine es) :
    Flat ((es.takeWhile isComment).flatMap (elementItems id true .none)) :=
  flat_flatMap fun e he => flat_element (sort := id) (fun _ _ h => h) true .none [] e
    (nodesAll_mem (oneLine_nodes h) e ((List.takeWhile_prefix _).subset he))

/-! ## White space at the end of lines -/

/-- Only a newline may be in front of a newline. -/
def NoTrail : Str → Prop
  | [] => True
  | [_] => True
  | c :: d :: s => (d = '\n' → isSpace c = true → c = '\n') ∧ NoTrail (d :: s)

theorem noTrail_append {a b : Str} (ha : NoTrail a) (hb : NoTrail b)
    (h : ∀ c, a.getLast? = some c → b.head? = some '\n' → isSpace c = true → c = '\n') :
    NoTrail (a ++ b) := by
  induction a with
  | nil => exact hb
  | cons c a ih =>
    cases a with
    | nil =>
      cases b with
      | nil => trivial
      | cons d b =>
        refine ⟨fun hd => h c rfl (by rw [hd]; rfl), hb⟩
    | cons d a =>
      refine ⟨ha.1, ih ha.2 fun c' hc' => h c' ?_⟩
      rw [List.getLast?_cons_cons]; exact hc'

theorem NoTrail.left {a b : Str} (h : NoTrail (a ++ b)) : NoTrail a := by
  induction a with
  | nil => trivial
  | cons c a ih =>
    cases a with
    | nil => trivial
    | cons d a => exact ⟨h.1, ih h.2⟩

theorem NoTrail.tail {c : Char} {s : Str} (h : NoTrail (c :: s)) : NoTrail s := by
  cases s with
  | nil => trivial
  | cons d s => exact h.2

theorem NoTrail.right {a b : Str} (h : NoTrail (a ++ b)) : NoTrail b := by
  induction a with
  | nil => exact h
  | cons c a ih => exact ih h.tail

theorem NoTrail.at {a : Str} {c : Char} {b : Str} (h : NoTrail (a ++ c :: '\n' :: b))
    (hc : isSpace c = true) : c = '\n' := h.right.1 rfl hc

theorem noTrail_of_not_mem {s : Str} (h : '\n' ∉ s) : NoTrail s := by
  induction s with
  | nil => trivial
  | cons c s ih =>
    cases s with
    | nil => trivial
    | cons d s =>
      exact ⟨fun hd => absurd (by simp [hd]) h, ih fun hm => h (List.mem_cons_of_mem _ hm)⟩

theorem cleanLines_of {s : Str} (h : NoTrail s)
    (hl : ∀ c, s.getLast? = some c → isSpace c = true → c = '\n') : CleanLines s := by
  induction hn : s.length using Nat.strongRecOn generalizing s with
  | ind n ih =>
    by_cases hm : '\n' ∈ s
    · obtain ⟨w, rest, rfl, hw⟩ := List.eq_append_cons_of_mem hm
      intro l hlm
      rw [splitChar_append _ hw] at hlm
      rcases List.mem_cons.1 hlm with rfl | hlm
      · intro c hc
        cases hsp : isSpace c with
        | false => rfl
        | true =>
          obtain ⟨w', rfl⟩ : ∃ w', l = w' ++ [c] := by
            refine ⟨l.dropLast, ?_⟩
            have hne : l ≠ [] := by rintro rfl; cases hc
            rw [List.getLast?_eq_some_getLast hne] at hc
            cases hc
            exact (List.dropLast_concat_getLast hne).symm
          have h' : NoTrail (w' ++ c :: '\n' :: rest) := by simpa using h
          exact absurd (by simp [h'.at hsp]) hw
      · refine ih rest.length ?_ (NoTrail.tail h.right) (fun c hc => hl c ?_) rfl l hlm
        · simp at hn; omega
        · rw [List.getLast?_append, List.getLast?_cons, hc]
          rfl
    · intro l hlm c hc
      rw [splitChar_of_not_mem hm, List.mem_singleton] at hlm
      subst hlm
      cases hsp : isSpace c with
      | false => rfl
      | true => exact absurd (hl c hc hsp ▸ List.mem_of_getLast? hc) hm

/-- A line that leaves no white space before a newline. -/
def Neat (items : List Item) : Prop :=
  ∀ d t, Item.line d t ∈ items → '\n' ∉ t ∨ (d = 0 ∧ NoTrail t)

theorem neat_append (a b : List Item) : Neat (a ++ b) ↔ Neat a ∧ Neat b := by
  unfold Neat
  simp only [List.mem_append]
  exact ⟨fun h => ⟨fun d t m => h d t (.inl m), fun d t m => h d t (.inr m)⟩,
    fun h d t m => m.elim (h.1 d t) (h.2 d t)⟩

theorem Flat.neat {items : List Item} (h : Flat items) : Neat items := fun d t m => .inl (h d t m)

theorem trimRightBy_append_spaces (s : Str) : ∃ ws, s = trimRightBy isSpace s ++ ws := by
  obtain ⟨t, ht⟩ := trimRightBy_prefix isSpace s
  exact ⟨t, ht.symm⟩

theorem noTrail_line {d : Nat} {t : Str} (h : '\n' ∉ t ∨ (d = 0 ∧ NoTrail t)) :
    NoTrail (lineText d t) := by
  unfold lineText
  have h0 : NoTrail (List.replicate (2 * d) ' ' ++ t) := by
    rcases h with h | ⟨rfl, h⟩
    · apply noTrail_of_not_mem
      rw [List.mem_append, not_or]
      refine ⟨fun hm => ?_, h⟩
      have := List.eq_of_mem_replicate hm
      revert this; decide
    · exact h
  refine noTrail_append ?_ trivial (fun c hc _ hsp => ?_)
  · obtain ⟨ws, hws⟩ := trimRightBy_append_spaces (List.replicate (2 * d) ' ' ++ t)
    rw [hws] at h0
    exact h0.left
  · rw [getLast?_trimRightBy hc] at hsp; cases hsp

theorem textOf_ends (items : List Item) : ∀ c, (textOf items).getLast? = some c → c = '\n' := by
  induction items with
  | nil => exact fun c h => nomatch h
  | cons i items ih =>
    intro c hc
    have e : textOf (i :: items) = textOf [i] ++ textOf items := textOf_append [i] items
    rw [e, List.getLast?_append] at hc
    cases hl : (textOf items).getLast? with
    | some d => rw [hl] at hc; exact ih c (by rw [hl]; exact hc)
    | none =>
      rw [hl, Option.none_or] at hc
      cases i with
      | line d t =>
        have : textOf [Item.line d t] = trimRightBy isSpace (List.replicate (2 * d) ' ' ++ t) ++ ['\n'] := by
          simp [textOf, lineText]
        rw [this, List.getLast?_append] at hc
        exact (Option.some.inj hc).symm
      | problem f => exact nomatch hc

theorem noTrail_text {items : List Item} (h : Neat items) : NoTrail (textOf items) := by
  induction items with
  | nil => trivial
  | cons i items ih =>
    have e : textOf (i :: items) = textOf [i] ++ textOf items := textOf_append [i] items
    obtain ⟨h1, h2⟩ := (neat_append [i] items).1 h
    rw [e]
    refine noTrail_append ?_ (ih h2) (fun c hc _ _ => textOf_ends [i] c hc)
    cases i with
    | line d t =>
      have : textOf [Item.line d t] = lineText d t := by simp [textOf]
      rw [this]
      exact noTrail_line (h1 d t (List.mem_cons_self ..))
    | problem f => trivial

/-- Trimming takes white space away at both ends. -/
theorem trimSpace_parts (s : Str) : ∃ a b, s = a ++ trimSpace s ++ b ∧
    (∀ c ∈ a, isSpace c = true) := by
  unfold trimSpace trimLeftBy
  obtain ⟨ws, hws⟩ := trimRightBy_append_spaces (s.dropWhile isSpace)
  refine ⟨s.takeWhile isSpace, ws, ?_, fun c hc => mem_takeWhile hc⟩
  rw [List.append_assoc, ← hws, List.takeWhile_append_dropWhile]

theorem finish_ends (items : List Item) : CanonicalEnds (finish items) := by
  unfold finish
  split
  · exact .inl rfl
  · rename_i hne
    obtain ⟨h1, h2⟩ := trimmed_trimSpace (textOf items)
    cases hs : trimSpace (textOf items) with
    | nil => exact absurd hs hne
    | cons c s =>
      rw [hs] at h1 h2
      refine .inr ⟨c, c :: s, (c :: s).getLast (List.cons_ne_nil _ _), rfl, rfl, h1 c rfl,
        List.getLast?_eq_some_getLast _, h2 _ (List.getLast?_eq_some_getLast _)⟩

theorem finish_clean {items : List Item} (h : Neat items) : CleanLines (finish items) := by
  unfold finish
  split
  · intro l hl c hc
    rw [List.mem_singleton.1 (show l ∈ [[]] from hl)] at hc
    cases hc
  · obtain ⟨a, b, he, _⟩ := trimSpace_parts (textOf items)
    have hn := noTrail_text h
    rw [he] at hn
    refine cleanLines_of (noTrail_append hn.left.right trivial fun c hc _ hsp => ?_) fun c hc _ => ?_
    · rw [(trimmed_trimSpace (textOf items)).2 c hc] at hsp; cases hsp
    · rw [List.getLast?_append] at hc
      exact (Option.some.inj hc).symm

/-! ## The values `--fix` writes -/

theorem nl_upperChar {c : Char} (h : c ≠ '\n') : upperChar c ≠ '\n' := by
  intro he
  cases hl : isLower c with
  | false => rw [upperChar_of_not_lower hl] at he; exact h he
  | true =>
    have := isUpper_upperChar_of_lower hl
    rw [he] at this
    revert this; decide

theorem nl_titleGo (prev : Char) (s : Str) (h : '\n' ∉ s) : '\n' ∉ titleGo prev s := by
  induction s generalizing prev with
  | nil => exact List.not_mem_nil
  | cons c s ih =>
    have hc : c ≠ '\n' := fun e => h (by simp [e])
    unfold titleGo
    rw [List.mem_cons, not_or]
    refine ⟨fun e => ?_, ih c fun m => h (List.mem_cons_of_mem _ m)⟩
    split at e
    · exact nl_upperChar hc e.symm
    · exact hc e.symm

theorem nl_title {s : Str} (h : '\n' ∉ s) : '\n' ∉ title s := nl_titleGo _ _ h

theorem nl_splitChar {c : Char} {s w : Str} (h : '\n' ∉ s) (hw : w ∈ splitChar c s) : '\n' ∉ w := by
  intro hm
  apply h
  rw [← join_splitChar c s]
  obtain ⟨a, b, hab⟩ := List.append_of_mem hw
  rw [hab]
  clear hab hw h
  induction a with
  | nil =>
    cases b with
    | nil => exact hm
    | cons x b =>
      show '\n' ∈ w ++ [c] ++ join [c] (x :: b)
      simp [hm]
  | cons x a ih =>
    cases hx : a ++ w :: b with
    | nil => exact absurd hx (by simp)
    | cons y l =>
      rw [hx] at ih
      show '\n' ∈ join [c] (x :: (a ++ w :: b))
      rw [hx]
      show '\n' ∈ x ++ [c] ++ join [c] (y :: l)
      rw [List.mem_append]
      exact .inr ih

theorem nl_getLastD {l : List Str} (h : ∀ w ∈ l, '\n' ∉ w) : '\n' ∉ l.getLastD [] := by
  rw [List.getLastD_eq_getLast?]
  cases hl : l.getLast? with
  | none => exact List.not_mem_nil
  | some w => exact h w (List.mem_of_getLast? hl)

theorem nl_csharp {s : Str} (h : '\n' ∉ s) : '\n' ∉ Protostrs.csharpNamespace s := by
  unfold Protostrs.csharpNamespace
  split
  · exact List.not_mem_nil
  · split
    · simp only [List.mem_append, not_or]
      refine ⟨⟨⟨⟨nl_title (nl_join (by decide) fun w hw => nl_splitChar h (List.dropLast_subset _ hw)),
        by decide⟩, nl_itoa _⟩, by decide⟩, nl_itoa _⟩
    · exact nl_title h

theorem nl_php {s : Str} (h : '\n' ∉ s) : '\n' ∉ Protostrs.phpNamespace s := by
  unfold Protostrs.phpNamespace replaceChar
  intro hm
  obtain ⟨x, hx, he⟩ := List.mem_flatMap.1 hm
  split at he
  · revert he; decide
  · rw [List.mem_singleton.1 he] at hm
    exact nl_csharp h (List.mem_singleton.1 he ▸ hx)

theorem nl_go {s : Str} (h : '\n' ∉ s) : '\n' ∉ Protostrs.goPackage s := by
  unfold Protostrs.goPackage
  split
  · exact List.not_mem_nil
  · rw [List.mem_append, not_or]
    exact ⟨nl_getLastD fun w hw => nl_splitChar h hw, by decide⟩

theorem nl_goV2 {s : Str} (h : '\n' ∉ s) : '\n' ∉ Protostrs.goPackageV2 s := by
  unfold Protostrs.goPackageV2
  split
  · exact List.not_mem_nil
  · split
    · exact nl_go h
    · dsimp only
      rw [List.mem_append, not_or]
      exact ⟨nl_getLastD fun w hw => nl_splitChar h (List.dropLast_subset _ hw),
        nl_getLastD fun w hw => nl_splitChar h hw⟩

theorem nl_javaPrefix {s p : Str} (h : '\n' ∉ s) (hp : '\n' ∉ p) :
    '\n' ∉ Protostrs.javaPackagePrefixOverride s p := by
  unfold Protostrs.javaPackagePrefixOverride
  split
  · exact List.not_mem_nil
  · split
    · simp only [List.mem_append, not_or]
      exact ⟨⟨hp, by decide⟩, h⟩
    · rw [List.mem_append, not_or]
      exact ⟨by decide, h⟩

theorem nl_objc {s : Str} (h : '\n' ∉ s) : '\n' ∉ Protostrs.objcClassPrefix s := by
  unfold Protostrs.objcClassPrefix
  split
  · exact List.not_mem_nil
  · dsimp only
    have hs : '\n' ∉ ((if (Protostrs.majorBetaVersion s).isSome = true then (splitChar '.' s).dropLast
        else splitChar '.' s).flatMap fun element =>
        match element with
        | [] => []
        | c :: _ => [upperChar c]) := by
      intro hm
      obtain ⟨w, hw, he⟩ := List.mem_flatMap.1 hm
      have hw : w ∈ splitChar '.' s := by
        split at hw
        · exact List.dropLast_subset _ hw
        · exact hw
      cases w with
      | nil => cases he
      | cons c w =>
        exact nl_upperChar (fun e => nl_splitChar h hw (by simp [e])) (List.mem_singleton.1 he).symm
    revert hs
    generalize ((if (Protostrs.majorBetaVersion s).isSome = true then (splitChar '.' s).dropLast
        else splitChar '.' s).flatMap fun element =>
        match element with
        | [] => []
        | c :: _ => [upperChar c]) = t
    intro hs
    split
    · exact List.not_mem_nil
    · simp only [List.mem_append, not_or]; exact ⟨hs, by decide⟩
    · simp only [List.mem_append, not_or]; exact ⟨hs, by decide⟩
    · split
      · decide
      · exact hs
    · exact hs

theorem nl_camelGo (prev : Option Char) (s : Str) : '\n' ∉ Strs.toUpperCamelGo prev s := by
  induction s generalizing prev with
  | nil => exact List.not_mem_nil
  | cons c s ih =>
    unfold Strs.toUpperCamelGo
    dsimp only
    rw [List.mem_append, not_or]
    refine ⟨?_, ih _⟩
    by_cases hd : Strs.isDelimiter c = true
    · rw [if_pos hd]; exact List.not_mem_nil
    · have hc : c ≠ '\n' := fun e => hd (by rw [e]; decide)
      rw [if_neg hd]
      have h1 : '\n' ∉ [upperChar c] := by
        rw [List.mem_singleton]; exact fun e => nl_upperChar hc e.symm
      have h2 : '\n' ∉ [lowerChar c] := by
        rw [List.mem_singleton]
        intro e
        cases hu : isUpper c with
        | false => rw [lowerChar, hu] at e; exact hc e.symm
        | true =>
          have := isLower_lowerChar_of_upper hu
          rw [← e] at this
          revert this; decide
      repeat' split
      all_goals assumption

theorem nl_outer (f : Str) : '\n' ∉ Protostrs.javaOuterClassname f := by
  unfold Protostrs.javaOuterClassname
  split
  · exact List.not_mem_nil
  · dsimp only
    rw [List.mem_append, not_or]
    exact ⟨nl_camelGo _ _, by decide⟩

theorem optNL_withValue {name : Str} (hn : '\n' ∉ name) {os : List Opt} (ho : ∀ o ∈ os, OptNL o)
    {l : Literal} (hl : NoNL (literalStrings l)) : OptNL (withValue name os l) := by
  unfold withValue
  cases hf : lastOption name os with
  | none =>
    show NoNL (name :: [] ++ [] ++ literalStrings l)
    exact noNL_append.2 ⟨noNL_cons.2 ⟨hn, noNL_nil⟩, hl⟩
  | some o =>
    unfold lastOption at hf
    obtain ⟨h1, h2, h3, _⟩ := optNL (ho o (List.mem_filter.1 (List.mem_of_getLast? hf)).1)
    show NoNL (o.name :: commentStrings o.comment ++ commentStrings o.inlineComment ++ literalStrings l)
    exact noNL_append.2 ⟨noNL_append.2 ⟨noNL_cons.2 ⟨h1, h2⟩, h3⟩, hl⟩

theorem literal_str {s : Str} (h : '\n' ∉ s) : NoNL (literalStrings (.str s)) := by
  unfold Literal.str literalStrings arrayStrings mapStrings
  exact noNL_cons.2 ⟨h, noNL_cons.2 ⟨by decide, noNL_nil⟩⟩

theorem literal_plain {s : Str} (h : '\n' ∉ s) : NoNL (literalStrings (.plain s)) := by
  unfold Literal.plain literalStrings arrayStrings mapStrings
  exact noNL_cons.2 ⟨h, noNL_cons.2 ⟨by decide, noNL_nil⟩⟩

theorem optNL_managed {q : Params} (hp : '\n' ∉ q.javaPackagePrefix) {package : Str}
    (hk : '\n' ∉ package) {os : List Opt} (ho : ∀ o ∈ os, OptNL o) :
    ∀ o ∈ managedOptions q package os, OptNL o := by
  intro o hm
  unfold managedOptions at hm
  rw [List.mem_append] at hm
  rcases hm with hm | hm
  · simp only [List.mem_cons, List.not_mem_nil, or_false] at hm
    rcases hm with rfl | rfl | rfl | rfl
    · refine optNL_withValue (by decide) ho (literal_str ?_)
      split
      · exact nl_goV2 hk
      · exact nl_go hk
    · exact optNL_withValue (by decide) ho (literal_plain (by decide))
    · exact optNL_withValue (by decide) ho (literal_str (nl_outer _))
    · exact optNL_withValue (by decide) ho (literal_str (nl_javaPrefix hk hp))
  · split at hm
    · simp only [List.mem_cons, List.not_mem_nil, or_false] at hm
      rcases hm with rfl | rfl | rfl
      · exact optNL_withValue (by decide) ho (literal_str (nl_csharp hk))
      · exact optNL_withValue (by decide) ho (literal_str (nl_objc hk))
      · exact optNL_withValue (by decide) ho (literal_str (nl_php hk))
    · cases hm

theorem optNL_optionsOf {q : Params} (hp : '\n' ∉ q.javaPackagePrefix) {es : List Element}
    (h : OneLine es) : ∀ o ∈ optionsOf q es, OptNL o := by
  have hall := nodesAll_option (oneLine_nodes h)
  intro o hm
  unfold optionsOf at hm
  split at hm
  · exact hall o hm
  · rw [List.mem_append] at hm
    rcases hm with hm | hm
    · exact hall o (List.mem_filter.1 hm).1
    · cases hk : (packagesAmong es).head? with
      | none => rw [hk] at hm; cases hm
      | some p =>
        rw [hk] at hm
        refine optNL_managed hp ?_ hall o hm
        have := nodesAll_mem (oneLine_nodes h) _ (package_mem (List.mem_of_mem_head? hk))
        unfold nodes at this
        have := (nodesNL_cons.1 this).1
        exact this p.name (by simp [stringsOf])

theorem noTrail_of_clean {s : Str} (h : CleanLines s) : NoTrail s := by
  induction hn : s.length using Nat.strongRecOn generalizing s with
  | ind n ih =>
    by_cases hm : '\n' ∈ s
    · obtain ⟨w, rest, rfl, hw⟩ := List.eq_append_cons_of_mem hm
      have hr : CleanLines rest := fun l hl => h l (by
        rw [splitChar_append _ hw]; exact List.mem_cons_of_mem _ hl)
      have hrest := ih rest.length (by simp at hn; omega) hr rfl
      refine noTrail_append (noTrail_of_not_mem hw) ?_ fun c hc _ hsp => ?_
      · cases rest with
        | nil => trivial
        | cons d rest => exact ⟨fun _ _ => rfl, hrest⟩
      · rw [h w (by rw [splitChar_append _ hw]; exact List.mem_cons_self ..) c hc] at hsp
        cases hsp
    · exact noTrail_of_not_mem hm

theorem neat_layout (srt : SortSlice) {q : Params} (hp : '\n' ∉ q.javaPackagePrefix)
    (hh : CleanLines q.fileHeader) (isProto2 : Bool) {es : List Element} (h : OneLine es) :
    Neat (layout srt q isProto2 es) := by
  unfold layout
  refine fileItems_top _ _ _ _ _ _ Neat neat_append ?_ (Flat.neat (flat_file
    (fun l o ho => (srt.perm _ l).mem_iff.1 ho) isProto2 h
    (fun o ho => optNL_optionsOf hp h o ((srt.perm _ _).mem_iff.1 ho))
    fun i hi => (srt.perm _ _).mem_iff.1 hi))
  unfold topItems
  split
  · intro d t m
    simp only [List.mem_cons, Item.line.injEq, List.not_mem_nil, or_false] at m
    rcases m with ⟨rfl, rfl⟩ | ⟨rfl, rfl⟩
    · exact .inr ⟨rfl, noTrail_of_clean hh⟩
    · exact .inl List.not_mem_nil
  · exact (flat_lead h).neat

end Verif.Format
