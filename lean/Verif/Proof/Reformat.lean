import Verif.Proof.FormatFix
import Verif.Proof.Grammar
import Verif.Proof.ReadTwice
import Verif.Spec.Reformatted

/-! # The nodes of a file and of its formatted text -/

namespace Verif.Reform

open Verif Str Proto Spec Lint
open _root_.Verif.Format (tidyAll_eq optionsAmong)

/-! ## What is kept -/

mutual

theorem bareValue_bareValue : ∀ l : Literal, bareValue (bareValue l) = bareValue l
  | .mk source isString quote [] [] => by
    unfold bareValue
    cases isString <;> simp [Literal.plain, bareValue]
  | .mk source isString quote (a :: as) m => by
    have ha := bareValue_bareValue a
    have has := bareList_bareList as
    rw [bareValue, bareList, bareValue, bareList, ha, has]
  | .mk source isString quote [] (e :: es) => by
    have he := bareEntry_bareEntry e
    have hes := bareEntries_bareEntries es
    rw [bareValue, bareEntries, bareValue, bareEntries, he, hes]

theorem bareList_bareList : ∀ l : List Literal, bareList (bareList l) = bareList l
  | [] => by unfold bareList; unfold bareList; rfl
  | a :: as => by
    have ha := bareValue_bareValue a
    have has := bareList_bareList as
    rw [bareList, bareList, ha, has]

theorem bareEntries_bareEntries : ∀ l : List (Str × Literal), bareEntries (bareEntries l) = bareEntries l
  | [] => by unfold bareEntries; unfold bareEntries; rfl
  | a :: as => by
    have ha := bareEntry_bareEntry a
    have has := bareEntries_bareEntries as
    rw [bareEntries, bareEntries, ha, has]

theorem bareEntry_bareEntry : ∀ l : Str × Literal, bareEntry (bareEntry l) = bareEntry l
  | (n, l) => by
    have hl := bareValue_bareValue l
    rw [bareEntry, bareEntry, hl]

end

mutual

theorem kept_nothing : ∀ e : Element, kept (fun _ => none) e = bare e
  | .comment c => by unfold kept bare; rfl
  | .syntax c => by unfold kept bare; rfl
  | .package c => by unfold kept bare; rfl
  | .import c => by unfold kept bare; rfl
  | .option c => by unfold kept bare; rfl
  | .reserved c => by unfold kept bare; rfl
  | .extensions c => by unfold kept bare; rfl
  | .normalField c => by unfold kept bare; rfl
  | .mapField c => by unfold kept bare; rfl
  | .oneofField c => by unfold kept bare; rfl
  | .message m es => by unfold kept bare; rw [keptAll_nothing es]
  | .enum m es => by unfold kept bare; rw [keptAll_nothing es]
  | .enumField m es => by unfold kept bare; rw [keptAll_nothing es]
  | .service m es => by unfold kept bare; rw [keptAll_nothing es]
  | .rpc m es => by unfold kept bare; rw [keptAll_nothing es]
  | .oneof m es => by unfold kept bare; rw [keptAll_nothing es]
  | .group m es => by unfold kept bare; rw [keptAll_nothing es]

theorem keptAll_nothing : ∀ es : List Element, keptAll (fun _ => none) es = bareAll es
  | [] => by unfold keptAll bareAll; rfl
  | e :: es => by
    have h1 := kept_nothing e
    have h2 := keptAll_nothing es
    cases e <;> simp only [keptAll, bareAll, h1, h2]

end

variable {old new keep : Option Comment → Option Comment}

/-- Whether it is not a comment. -/
def notComment (e : Element) : Bool := !isComment e

theorem keptAll_eq (es : List Element) : keptAll keep es = (es.filter notComment).map (kept keep) := by
  induction es with
  | nil => simp [keptAll]
  | cons e es ih => cases e <;> simp [keptAll, ih, notComment, isComment]

theorem children_kept (e : Element) : children (kept keep e) = keptAll keep (children e) := by
  have hopt : ∀ os : List Opt, (os.map (keptOption keep)).map Element.option = keptAll keep (os.map Element.option) := by
    intro os
    rw [keptAll_eq, List.filter_eq_self.2 (by intro e he; obtain ⟨o, _, rfl⟩ := List.mem_map.1 he; rfl),
      List.map_map, List.map_map]
    refine List.map_congr_left fun o _ => ?_
    simp only [Function.comp]
    unfold kept; rfl
  cases e <;> unfold kept children
  case normalField => exact hopt _
  case mapField => exact hopt _
  case oneofField => exact hopt _
  all_goals first | rfl | simp [keptAll]

/-! ## The heads of declarations -/

/-- A field of no interest. -/
def dummy : Element := .oneofField { name := [], type := [], sequence := 0 }

/-- An option of no interest. -/
def jsonName : Opt := { name := s%"json_name", constant := .plain [] }

/-- How often an option is `json_name`. -/
def jsonNames (os : List Opt) : Nat := os.countP fun o => o.name = s%"json_name"

/-- A field without its options. It keeps their number for one of them. -/
def headField (keep : Option Comment → Option Comment) (f : Field) : Field :=
  { comment := keep f.comment, name := f.name, type := f.type, sequence := f.sequence
    options := List.replicate (jsonNames f.options) jsonName
    inlineComment := keep f.inlineComment }

/-- A declaration without what is in it. A message keeps the number of its fields. -/
def head (keep : Option Comment → Option Comment) : Element → Element
  | .comment c => .comment c
  | .syntax s => .syntax { value := s.value, inlineComment := keep s.inlineComment }
  | .package p => .package { comment := keep p.comment, name := p.name, inlineComment := keep p.inlineComment }
  | .option o => .option (keptOption keep o)
  | .import i => .import { comment := keep i.comment, filename := i.filename, kind := i.kind
                           inlineComment := keep i.inlineComment }
  | .message m es => .message { comment := keep m.comment, name := m.name, isExtend := m.isExtend }
      (List.replicate (fieldCounts es) dummy)
  | .enum e _ => .enum { comment := keep e.comment, name := e.name } []
  | .enumField f _ => .enumField { comment := keep f.comment, name := f.name, integer := f.integer
                                   inlineComment := keep f.inlineComment } []
  | .service s _ => .service { comment := keep s.comment, name := s.name } []
  | .rpc r _ =>
    .rpc { comment := keep r.comment, name := r.name, requestType := r.requestType
           streamsRequest := r.streamsRequest, returnsType := r.returnsType
           streamsReturns := r.streamsReturns, inlineComment := keep r.inlineComment } []
  | .normalField f => .normalField { f with field := headField keep f.field }
  | .mapField f => .mapField { f with field := headField keep f.field }
  | .oneof o _ => .oneof { comment := keep o.comment, name := o.name } []
  | .oneofField f => .oneofField (headField keep f)
  | .reserved r => .reserved { comment := keep r.comment, ranges := r.ranges.map bareRange
                               fieldNames := r.fieldNames, inlineComment := keep r.inlineComment }
  | .extensions e => .extensions { comment := keep e.comment, ranges := e.ranges.map bareRange
                                   inlineComment := keep e.inlineComment }
  | .group g _ => .group { comment := keep g.comment, name := g.name, optional := g.optional
                           sequence := g.sequence } []

/-- A node without what is in it. -/
def shade (keep : Option Comment → Option Comment) (n : Node) : Node :=
  ⟨n.around.map (head keep), head keep n.self⟩

mutual

theorem fieldCount_kept : ∀ e : Element, fieldCount (kept keep e) = fieldCount e
  | .oneof o es => by unfold kept fieldCount; exact fieldCounts_kept es
  | .comment _ => by unfold kept; rfl
  | .syntax _ => by unfold kept; unfold fieldCount; rfl
  | .package _ => by unfold kept; unfold fieldCount; rfl
  | .import _ => by unfold kept; unfold fieldCount; rfl
  | .option _ => by unfold kept; unfold fieldCount; rfl
  | .reserved _ => by unfold kept; unfold fieldCount; rfl
  | .extensions _ => by unfold kept; unfold fieldCount; rfl
  | .normalField _ => by unfold kept; unfold fieldCount; rfl
  | .mapField _ => by unfold kept; unfold fieldCount; rfl
  | .oneofField _ => by unfold kept; unfold fieldCount; rfl
  | .message _ _ => by unfold kept fieldCount; rfl
  | .enum _ _ => by unfold kept fieldCount; rfl
  | .enumField _ _ => by unfold kept fieldCount; rfl
  | .service _ _ => by unfold kept fieldCount; rfl
  | .rpc _ _ => by unfold kept fieldCount; rfl
  | .group _ _ => by unfold kept fieldCount; rfl

theorem fieldCounts_kept : ∀ es : List Element, fieldCounts (keptAll keep es) = fieldCounts es
  | [] => by unfold keptAll; rfl
  | e :: es => by
    have h1 : fieldCount (kept keep e) = _ := fieldCount_kept e
    have h2 : fieldCounts (keptAll keep es) = _ := fieldCounts_kept es
    cases e
    case comment => rw [keptAll, h2, fieldCounts, fieldCount, Nat.zero_add] <;> simp
    all_goals (rw [keptAll, fieldCounts, fieldCounts, h1, h2]; simp)

end

mutual

theorem fieldCount_tidy {sort : List Opt → List Opt} : ∀ e : Element, fieldCount (tidy sort e) = fieldCount e
  | .oneof o es => by unfold tidy fieldCount; exact fieldCounts_tidy es
  | .comment _ => by unfold tidy; rfl
  | .syntax _ => by unfold tidy; rfl
  | .package _ => by unfold tidy; rfl
  | .import _ => by unfold tidy; rfl
  | .option _ => by unfold tidy; rfl
  | .reserved _ => by unfold tidy; rfl
  | .extensions _ => by unfold tidy; rfl
  | .normalField _ => by unfold tidy; unfold fieldCount; rfl
  | .mapField _ => by unfold tidy; unfold fieldCount; rfl
  | .oneofField _ => by unfold tidy; unfold fieldCount; rfl
  | .message _ _ => by unfold tidy fieldCount; rfl
  | .enum _ _ => by unfold tidy fieldCount; rfl
  | .enumField _ _ => by unfold tidy fieldCount; rfl
  | .service _ _ => by unfold tidy fieldCount; rfl
  | .rpc _ _ => by unfold tidy fieldCount; rfl
  | .group _ _ => by unfold tidy fieldCount; rfl

theorem fieldCounts_tidy {sort : List Opt → List Opt} : ∀ es : List Element, fieldCounts (tidyAll sort es) = fieldCounts es
  | [] => by unfold tidyAll; rfl
  | e :: es => by
    have h1 : fieldCount (tidy sort e) = _ := fieldCount_tidy e
    have h2 : fieldCounts (tidyAll sort es) = _ := fieldCounts_tidy es
    rw [tidyAll, fieldCounts, fieldCounts, h1, h2]

end

theorem fieldCounts_dummies (n : Nat) : fieldCounts (List.replicate n dummy) = n := by
  induction n with
  | zero => rfl
  | succ n ih => rw [List.replicate_succ, fieldCounts, ih]; unfold dummy fieldCount; omega

theorem jsonNames_replicate (n : Nat) : jsonNames (List.replicate n jsonName) = n := by
  unfold jsonNames
  rw [List.countP_replicate, if_pos (by decide)]

theorem jsonNames_kept (os : List Opt) : jsonNames (os.map (keptOption keep)) = jsonNames os := by
  unfold jsonNames
  rw [List.countP_map]
  rfl

theorem head_tidy {sort : List Opt → List Opt} (hs : ∀ l, (sort l).Perm l) (e : Element) :
    head keep (tidy sort e) = head keep e := by
  have hj : ∀ os, jsonNames (sort os) = jsonNames os := fun os => (hs os).countP_eq _
  cases e <;> unfold tidy head <;> first | rfl | skip
  all_goals simp only [fieldCounts_tidy, headField, hj]

theorem head_kept (hk : ∀ c, new (old c) = old c) (e : Element) : head new (kept old e) = head old e := by
  have hr : ∀ rs : List Range, (rs.map bareRange).map bareRange = rs.map bareRange := by
    intro rs
    rw [List.map_map]
    refine List.map_congr_left fun r _ => ?_
    unfold bareRange
    simp only [Function.comp]
    cases h : r.max <;> simp [h]
  cases e <;> unfold kept head <;>
    simp only [hk, keptOption, bareValue_bareValue, headField, keptField, fieldCounts_kept, hr, jsonNames_kept]

/-! ## Nodes -/

/-- The nodes in the order in which they begin or in which they end. -/
def listing (ends : Bool) (around es : List Element) : List Node :=
  if ends then endingAll around es else nodesAll around es

/-- The nodes in `es` of a kind, without what is in them. -/
def shades (keep : Option Comment → Option Comment) (ends : Bool) (p : Element → Bool)
    (around es : List Element) : List Node :=
  ((listing ends around es).filter fun n => p n.self).map (shade keep)

variable {ends : Bool} {p : Element → Bool}

theorem listing_nil (around : List Element) : listing ends around [] = [] := by
  cases ends <;> rfl

theorem listing_append (around l l' : List Element) :
    listing ends around (l ++ l') = listing ends around l ++ listing ends around l' := by
  cases ends
  · exact nodesAll_append around l l'
  · show endingAll around (l ++ l') = endingAll around l ++ endingAll around l'
    induction l with
    | nil => simp [endingAll]
    | cons e l ih => rw [List.cons_append, endingAll, ih, endingAll, List.append_assoc]

theorem listing_options (around : List Element) (os : List Opt) :
    listing ends around (os.map .option) = os.map fun o => ⟨around, .option o⟩ := by
  cases ends
  · exact nodesAll_options around os
  · show endingAll around (os.map .option) = _
    induction os with
    | nil => simp [endingAll]
    | cons o os ih => simp [endingAll, ending, ih]

theorem listing_one (around : List Element) (e : Element) :
    listing ends around [e] =
      if ends then listing true (e :: around) (children e) ++ [⟨around, e⟩]
      else ⟨around, e⟩ :: listing false (e :: around) (children e) := by
  cases ends
  · show nodesAll around [e] = ⟨around, e⟩ :: nodesAll (e :: around) (children e)
    rw [nodesAll, nodesAll, List.append_nil, nodes_eq]
  · show endingAll around [e] = endingAll (e :: around) (children e) ++ [⟨around, e⟩]
    rw [endingAll, endingAll, List.append_nil]
    have ho := fun a os => listing_options (ends := true) a os
    simp only [listing, if_true] at ho
    cases e <;> simp [ending, children, ho, endingAll]

theorem shades_nil (around : List Element) : shades keep ends p around [] = [] := by
  unfold shades
  rw [listing_nil]; rfl

theorem shades_append (around l l' : List Element) :
    shades keep ends p around (l ++ l') = shades keep ends p around l ++ shades keep ends p around l' := by
  unfold shades
  rw [listing_append, List.filter_append, List.map_append]

theorem shades_one (around : List Element) (e : Element) :
    shades keep ends p around [e] =
      (if ends then [] else if p e then [⟨around.map (head keep), head keep e⟩] else []) ++
      shades keep ends p (e :: around) (children e) ++
      (if ends then if p e then [⟨around.map (head keep), head keep e⟩] else [] else []) := by
  unfold shades
  rw [listing_one]
  cases ends <;> by_cases h : p e <;> simp [h, shade]

theorem shades_cons (around : List Element) (e : Element) (es : List Element) :
    shades keep ends p around (e :: es) = shades keep ends p around [e] ++ shades keep ends p around es :=
  shades_append around [e] es

theorem shades_comment (hc : ∀ c, p (.comment c) = false) (around : List Element) (c : Comment) :
    shades keep ends p around [.comment c] = [] := by
  rw [shades_one, hc]
  simp [children, shades_nil]

theorem shades_keptAll (hk : ∀ c, new (old c) = old c) (hc : ∀ c, p (.comment c) = false)
    (hp : ∀ e, p (kept old e) = p e) {es : List Element} :
    ∀ around around' : List Element, around'.map (head new) = around.map (head old) →
      shades new ends p around' (keptAll old es) = shades old ends p around es := by
  have one : ∀ e : Element, ∀ around around' : List Element, around'.map (head new) = around.map (head old) →
      shades new ends p around' (keptAll old [e]) = shades old ends p around [e] := by
    refine element_ind fun e ih around around' ha => ?_
    by_cases he : ∃ c, e = .comment c
    · obtain ⟨c, rfl⟩ := he
      rw [shades_comment hc]
      simp [keptAll, shades_nil]
    · have h1 : keptAll old [e] = [kept old e] := by
        rw [keptAll, keptAll]
        exact fun c h => he ⟨c, h⟩
      have h2 : (kept old e :: around').map (head new) = (e :: around).map (head old) := by
        rw [List.map_cons, List.map_cons, head_kept hk, ha]
      have h3 : ∀ cs : List Element, (∀ c ∈ cs, ∀ around around' : List Element,
          around'.map (head new) = around.map (head old) →
          shades new ends p around' (keptAll old [c]) = shades old ends p around [c]) →
          shades new ends p (kept old e :: around') (keptAll old cs) = shades old ends p (e :: around) cs := by
        intro cs hcs
        induction cs with
        | nil => simp [keptAll, shades_nil]
        | cons c cs ihc =>
          have := keptAll_eq (keep := old) (c :: cs)
          have hsplit : keptAll old (c :: cs) = keptAll old [c] ++ keptAll old cs := by
            rw [keptAll_eq, keptAll_eq, keptAll_eq, ← List.map_append, ← List.filter_append]; rfl
          rw [hsplit, shades_append, shades_cons, hcs c List.mem_cons_self _ _ h2,
            ihc fun c hc => hcs c (List.mem_cons_of_mem _ hc)]
      rw [h1, shades_one, shades_one, hp, head_kept hk, ha, children_kept, h3 _ ih]
  intro around around' ha
  induction es with
  | nil => simp [keptAll, shades_nil]
  | cons e es ih =>
    have hsplit : keptAll old (e :: es) = keptAll old [e] ++ keptAll old es := by
      rw [keptAll_eq, keptAll_eq, keptAll_eq, ← List.map_append, ← List.filter_append]; rfl
    rw [hsplit, shades_append, shades_cons, one e _ _ ha, ih]

/-- The same in some order, and in this order if options do not count. -/
def Close (p : Element → Bool) (l l' : List Node) : Prop :=
  l.Perm l' ∧ ((∀ o, p (.option o) = false) → l = l')

theorem Close.rfl {l : List Node} : Close p l l := ⟨.refl _, fun _ => Eq.refl _⟩

theorem Close.append {l l' m m' : List Node} (h : Close p l l') (h' : Close p m m') :
    Close p (l ++ m) (l' ++ m') :=
  ⟨h.1.append h'.1, fun ho => by rw [h.2 ho, h'.2 ho]⟩

theorem Close.trans {l m n : List Node} (h : Close p l m) (h' : Close p m n) : Close p l n :=
  ⟨h.1.trans h'.1, fun ho => (h.2 ho).trans (h'.2 ho)⟩

theorem shades_options (around : List Element) (os : List Opt) :
    shades keep ends p around (os.map .option) =
      (os.filter fun o => p (.option o)).map fun o => ⟨around.map (head keep), head keep (.option o)⟩ := by
  unfold shades
  rw [listing_options, List.filter_map, List.map_map]
  rfl

theorem shades_sorted {sort : List Opt → List Opt} (hs : ∀ l, (sort l).Perm l)
    {around around' : List Element} (ha : around'.map (head keep) = around.map (head keep)) (os : List Opt) :
    Close p (shades keep ends p around' ((sort os).map .option)) (shades keep ends p around (os.map .option)) := by
  rw [shades_options, shades_options, ha]
  refine ⟨((hs os).filter _).map _, fun ho => ?_⟩
  rw [List.filter_eq_nil_iff.2 (fun o _ => by simp [ho]), List.filter_eq_nil_iff.2 (fun o _ => by simp [ho])]

theorem shades_optionsAmong (hc : ∀ c, p (.comment c) = false) (around : List Element) {es : List Element}
    (h : ∀ e ∈ es, (∃ c, e = .comment c) ∨ ∃ o, e = .option o) :
    shades keep ends p around ((optionsAmong es).map .option) = shades keep ends p around es := by
  induction es with
  | nil => rfl
  | cons e es ih =>
    have ih' := ih fun e he => h e (List.mem_cons_of_mem _ he)
    rw [shades_cons around e es]
    rcases h e List.mem_cons_self with ⟨c, rfl⟩ | ⟨o, rfl⟩
    · rw [shades_comment hc, List.nil_append, ← ih']; rfl
    · have : (optionsAmong (.option o :: es)).map Element.option = [.option o] ++ (optionsAmong es).map .option := rfl
      rw [this, shades_append, ih']

theorem children_mayBeIn {around : List Element} {e : Element}
    (hg : ∀ n ∈ nodes around e, mayBeIn n.around n.self = true) :
    (∀ c ∈ children e, ∀ n ∈ nodes (e :: around) c, mayBeIn n.around n.self = true) ∧
    ∀ c ∈ children e, mayBeIn (e :: around) c = true := by
  rw [nodes_eq] at hg
  have h : ∀ c ∈ children e, ∀ n ∈ nodes (e :: around) c, mayBeIn n.around n.self = true := fun c hc n hn =>
    hg n (List.mem_cons_of_mem _ (nodesAll_mem.2 ⟨c, hc, hn⟩))
  exact ⟨h, fun c hc => h c hc _ (self_mem _ _)⟩

theorem shades_tidyAll {sort : List Opt → List Opt} (hs : ∀ l, (sort l).Perm l)
    (hc : ∀ c, p (.comment c) = false) (hp : ∀ e, p (tidy sort e) = p e) {es : List Element}
    {around around' : List Element} (ha : around'.map (head keep) = around.map (head keep))
    (hg : ∀ e ∈ es, ∀ n ∈ nodes around e, mayBeIn n.around n.self = true) :
    Close p (shades keep ends p around' (tidyAll sort es)) (shades keep ends p around es) := by
  have list : ∀ (es around around' : List Element), around'.map (head keep) = around.map (head keep) →
      (∀ e ∈ es, ∀ n ∈ nodes around e, mayBeIn n.around n.self = true) →
      (∀ e ∈ es, ∀ around around' : List Element, around'.map (head keep) = around.map (head keep) →
        (∀ n ∈ nodes around e, mayBeIn n.around n.self = true) →
        Close p (shades keep ends p around' [tidy sort e]) (shades keep ends p around [e])) →
      Close p (shades keep ends p around' (tidyAll sort es)) (shades keep ends p around es) := by
    intro es
    induction es with
    | nil => intro _ _ _ _ _; exact .rfl
    | cons e es ih =>
      intro around around' ha hg he
      rw [tidyAll, shades_cons, shades_cons around e es]
      exact (he e List.mem_cons_self _ _ ha (hg e List.mem_cons_self)).append
        (ih around around' ha (fun e h => hg e (List.mem_cons_of_mem _ h))
          fun e h => he e (List.mem_cons_of_mem _ h))
  refine list es around around' ha hg fun e _ => ?_
  revert e
  suffices ∀ e : Element, ∀ around around' : List Element, around'.map (head keep) = around.map (head keep) →
      (∀ n ∈ nodes around e, mayBeIn n.around n.self = true) →
      Close p (shades keep ends p around' [tidy sort e]) (shades keep ends p around [e]) from fun e _ => this e
  refine element_ind fun e ih around around' ha hg => ?_
  have h2 : (tidy sort e :: around').map (head keep) = (e :: around).map (head keep) := by
    rw [List.map_cons, List.map_cons, head_tidy hs, ha]
  rw [shades_one, shades_one, hp, head_tidy hs, ha]
  refine (Close.rfl.append ?_).append .rfl
  obtain ⟨hg1, hg2⟩ := children_mayBeIn hg
  have body : children (tidy sort e) = tidyAll sort (children e) →
      Close p (shades keep ends p (tidy sort e :: around') (children (tidy sort e)))
        (shades keep ends p (e :: around) (children e)) := fun h => by
    rw [h]
    exact list _ _ _ h2 hg1 fun c hc => ih c hc
  have leaf : children (tidy sort e) = (sort (optionsAmong (children e))).map .option →
      (∀ c ∈ children e, (∃ d, c = .comment d) ∨ ∃ o, c = .option o) →
      Close p (shades keep ends p (tidy sort e :: around') (children (tidy sort e)))
        (shades keep ends p (e :: around) (children e)) := fun h hl => by
    rw [h, ← shades_optionsAmong hc _ hl]
    exact shades_sorted hs h2 _
  have opts : ∀ os : List Opt, (optionsAmong (os.map .option)) = os := by
    intro os
    induction os with
    | nil => rfl
    | cons o os ih => exact congrArg (o :: ·) ih
  have only : ∀ os : List Opt, ∀ c ∈ os.map Element.option, (∃ d, c = .comment d) ∨ ∃ o, c = .option o := by
    intro os c hc
    obtain ⟨o, _, rfl⟩ := List.mem_map.1 hc
    exact .inr ⟨o, Eq.refl _⟩
  cases e
  case message => exact body (by unfold tidy children; rfl)
  case enum => exact body (by unfold tidy children; rfl)
  case service => exact body (by unfold tidy children; rfl)
  case oneof => exact body (by unfold tidy children; rfl)
  case group => exact body (by unfold tidy children; rfl)
  case enumField f es =>
    refine leaf (by unfold tidy children; rfl) fun c hc => ?_
    have := hg2 c hc
    cases c <;> first | exact .inl ⟨_, rfl⟩ | exact .inr ⟨_, rfl⟩ | exact absurd this Bool.false_ne_true
  case rpc f es =>
    refine leaf (by unfold tidy children; rfl) fun c hc => ?_
    have := hg2 c hc
    cases c <;> first | exact .inl ⟨_, rfl⟩ | exact .inr ⟨_, rfl⟩ | exact absurd this Bool.false_ne_true
  case normalField f => exact leaf (by unfold tidy children; rw [opts]) (only _)
  case mapField f => exact leaf (by unfold tidy children; rw [opts]) (only _)
  case oneofField f => exact leaf (by unfold tidy children; rw [opts]) (only _)
  all_goals exact body (by unfold tidy children; rfl)

/-! ## Files -/

theorem shades_flatMap (around es : List Element) :
    shades keep ends p around es = es.flatMap fun e => shades keep ends p around [e] := by
  induction es with
  | nil => exact shades_nil _
  | cons e es ih => rw [shades_cons, ih, List.flatMap_cons]

theorem shades_perm {around l l' : List Element} (h : l.Perm l') :
    (shades keep ends p around l).Perm (shades keep ends p around l') := by
  rw [shades_flatMap, shades_flatMap around l']
  exact h.flatMap_right _

theorem groups_perm (es : List Element) :
    ((syntaxesAmong es).map Element.syntax ++ ((packagesAmong es).map Element.package ++
      ((optionsAmong es).map Element.option ++ ((importsAmong es).map Element.import ++
        es.filter staysPut)))).Perm es := by
  induction es with
  | nil => exact .refl _
  | cons e es ih =>
    cases e
    case «syntax» s => exact .cons _ ih
    case package s => exact List.perm_middle.trans (.cons _ ih)
    case option s =>
      refine .trans ?_ (.cons _ ih)
      refine .trans (.append_left _ ?_) List.perm_middle
      exact List.perm_middle
    case «import» s =>
      refine .trans ?_ (.cons _ ih)
      refine .trans (.append_left _ ?_) List.perm_middle
      refine .trans (.append_left _ ?_) List.perm_middle
      exact List.perm_middle
    all_goals
      refine .trans ?_ (.cons _ ih)
      refine .trans (.append_left _ ?_) List.perm_middle
      refine .trans (.append_left _ ?_) List.perm_middle
      refine .trans (.append_left _ ?_) List.perm_middle
      exact List.perm_middle

theorem shades_comments (hc : ∀ c, p (.comment c) = false) (around : List Element) {es : List Element}
    (h : ∀ e ∈ es, isComment e = true) : shades keep ends p around es = [] := by
  rw [shades_flatMap, List.flatMap_eq_nil_iff]
  intro e he
  have := h e he
  cases e <;> first | exact shades_comment hc _ _ | cases this

theorem shades_none (around : List Element) {es : List Element}
    (h : ∀ e ∈ es, children e = [] ∧ p e = false) : shades keep ends p around es = [] := by
  rw [shades_flatMap, List.flatMap_eq_nil_iff]
  intro e he
  rw [shades_one, (h e he).1, (h e he).2, shades_nil]
  cases ends <;> rfl

theorem takeWhile_imp {α : Type} {q : α → Bool} {l : List α} {a : α} (h : a ∈ l.takeWhile q) : q a = true := by
  induction l with
  | nil => cases h
  | cons b l ih =>
    rw [List.takeWhile_cons] at h
    split at h
    · rename_i hb
      rcases List.mem_cons.1 h with rfl | h
      · exact hb
      · exact ih h
    · cases h

theorem dropped_comments (es : List Element) : ∃ cs, (∀ e ∈ cs, isComment e = true) ∧
    es = cs ++ es.dropWhile isComment ∧ es.takeWhile isComment = cs := by
  refine ⟨es.takeWhile isComment, ?_, List.takeWhile_append_dropWhile.symm, rfl⟩
  intro e he
  exact takeWhile_imp he

theorem among_dropWhile {α : Type} {f : Element → Option α} (hf : ∀ c, f (.comment c) = none)
    (es : List Element) : (es.dropWhile isComment).filterMap f = es.filterMap f := by
  induction es with
  | nil => rfl
  | cons e es ih =>
    by_cases h : isComment e = true
    · rw [List.dropWhile_cons_of_pos h, ih]
      cases e <;> first | rw [List.filterMap_cons_none (hf _)] | cases h
    · rw [List.dropWhile_cons_of_neg h]

/-- What the formatter does to the nodes of a file. -/
theorem shades_tidyFile {sort : List Opt → List Opt} (hs : ∀ l, (sort l).Perm l) {imports : List Import}
    {es : List Element} (hi : imports.Perm (importsAmong es))
    (hc : ∀ c, p (.comment c) = false) (hp : ∀ e, p (tidy sort e) = p e)
    (hg : ∀ e ∈ es, ∀ n ∈ nodes [] e, mayBeIn n.around n.self = true) :
    (shades keep ends p [] (tidyFile sort (fun _ => imports) es)).Perm (shades keep ends p [] es) ∧
    ((∀ e, staysPut e = false → p e = false) →
      shades keep ends p [] (tidyFile sort (fun _ => imports) es) = shades keep ends p [] es) := by
  have hrest : Close p (shades keep ends p [] (tidyAll sort ((es.dropWhile isComment).filter staysPut)))
      (shades keep ends p [] (es.filter staysPut)) := by
    refine Close.trans (m := shades keep ends p [] ((es.dropWhile isComment).filter staysPut))
      (shades_tidyAll hs hc hp rfl fun e he => hg e ?_) ?_
    · exact (List.dropWhile_sublist _).mem (List.mem_filter.1 he).1
    · obtain ⟨cs, h1, h2, -⟩ := dropped_comments es
      conv => rhs; rw [h2]
      rw [List.filter_append, shades_append, shades_comments hc _ fun e he => h1 e (List.mem_filter.1 he).1]
      exact .rfl
  have hcom : shades keep ends p [] (es.takeWhile isComment) = [] :=
    shades_comments hc _ fun e he => takeWhile_imp he
  unfold tidyFile
  simp only [shades_append, hcom, List.nil_append, List.append_assoc]
  constructor
  · refine .trans ?_ (shades_perm (groups_perm es))
    simp only [shades_append]
    refine .append_left _ (.append_left _ (.append ?_ (.append ?_ hrest.1)))
    · exact shades_perm ((hs _).map _)
    · exact shades_perm (hi.map _)
  · intro h
    have e1 : ∀ l : List Syntax, shades keep ends p [] (l.map .syntax) = [] := fun l =>
      shades_none _ fun e he => by obtain ⟨o, _, rfl⟩ := List.mem_map.1 he; exact ⟨rfl, h _ rfl⟩
    have e2 : ∀ l : List Package, shades keep ends p [] (l.map .package) = [] := fun l =>
      shades_none _ fun e he => by obtain ⟨o, _, rfl⟩ := List.mem_map.1 he; exact ⟨rfl, h _ rfl⟩
    have e3 : ∀ l : List Opt, shades keep ends p [] (l.map .option) = [] := fun l =>
      shades_none _ fun e he => by obtain ⟨o, _, rfl⟩ := List.mem_map.1 he; exact ⟨rfl, h _ rfl⟩
    have e4 : ∀ l : List Import, shades keep ends p [] (l.map .import) = [] := fun l =>
      shades_none _ fun e he => by obtain ⟨o, _, rfl⟩ := List.mem_map.1 he; exact ⟨rfl, h _ rfl⟩
    rw [e1, e2, e3, e4, hrest.2 fun o => h _ rfl]
    simp only [List.nil_append]
    rw [shades_flatMap, shades_flatMap [] es]
    clear hrest hcom hg hi
    induction es with
    | nil => rfl
    | cons e es ih =>
      rw [List.flatMap_cons, ← ih]
      cases he : staysPut e with
      | true => rw [List.filter_cons_of_pos he, List.flatMap_cons]
      | false =>
        rw [List.filter_cons_of_neg (by simp [he]), shades_none (es := [e]) _ ?_, List.nil_append]
        intro e' he'
        rw [List.mem_singleton.1 he']
        refine ⟨?_, h e he⟩
        cases e <;> first | rfl | cases he

/-! ## A file and the file rearranged -/

/-- The nodes that are printed in their place. -/
def solid (e : Element) : Bool := staysPut e && notComment e

/-- What `keep` keeps of the comments is what is kept. -/
structure Keeps (old new : Option Comment → Option Comment) : Prop where
  again : ∀ c, new (new c) = new c
  new_old : ∀ c, new (old c) = old c
  none_old : old none = none
  none_new : new none = none

theorem shades_rearranged {before after : List Element} (hk : Keeps old new)
    (h : PutInOrder old new before after)
    (hg : ∀ e ∈ before, ∀ n ∈ nodes [] e, mayBeIn n.around n.self = true) :
    (shades new ends notComment [] after).Perm (shades old ends notComment [] before) ∧
    shades new ends solid [] after = shades old ends solid [] before := by
  obtain ⟨sort, imports, hs, hi, he⟩ := h
  have key : ∀ p : Element → Bool, (∀ c, p (.comment c) = false) →
      (∀ e, p (kept new e) = p e) → (∀ e, p (kept old e) = p e) →
      shades new ends p [] after = shades old ends p [] (tidyFile sort (fun _ => imports) before) := by
    intro p h1 h2 h3
    rw [← shades_keptAll (old := new) (new := new) hk.again h1 h2 [] [] rfl, he,
      shades_keptAll (old := old) (new := new) hk.new_old h1 h3 [] [] rfl]
  constructor
  · rw [key notComment (fun _ => rfl) (fun e => by cases e <;> unfold kept <;> rfl)
      (fun e => by cases e <;> unfold kept <;> rfl)]
    exact (shades_tidyFile hs hi (fun _ => rfl) (fun e => by cases e <;> unfold tidy <;> rfl) hg).1
  · rw [key solid (fun _ => rfl) (fun e => by cases e <;> unfold kept <;> rfl)
      (fun e => by cases e <;> unfold kept <;> rfl)]
    refine (shades_tidyFile hs hi (fun _ => rfl) (fun e => by cases e <;> unfold tidy <;> rfl) hg).2 ?_
    intro e h
    unfold solid
    rw [h]; rfl

theorem among_kept {α : Type} {f : Element → Option α} {β : α → α} (hc : ∀ c, f (.comment c) = none)
    (hf : ∀ e, f (kept keep e) = (f e).map β) (es : List Element) :
    (keptAll keep es).filterMap f = (es.filterMap f).map β := by
  rw [keptAll_eq]
  induction es with
  | nil => rfl
  | cons e es ih =>
    by_cases h : notComment e = true
    · rw [List.filter_cons_of_pos h, List.map_cons, List.filterMap_cons, List.filterMap_cons, hf, ih]
      cases f e <;> rfl
    · rw [List.filter_cons_of_neg h, ih]
      cases e <;> first | rw [List.filterMap_cons_none (hc _)] | cases h rfl

def headPackage (keep : Option Comment → Option Comment) (p : Package) : Package :=
  { comment := keep p.comment, name := p.name, inlineComment := keep p.inlineComment }

def headSyntax (keep : Option Comment → Option Comment) (s : Syntax) : Syntax :=
  { value := s.value, inlineComment := keep s.inlineComment }

theorem filterMap_nil {α β : Type} {f : α → Option β} {l : List α} (h : ∀ a ∈ l, f a = none) :
    l.filterMap f = [] := List.filterMap_eq_nil_iff.2 h

theorem filterMap_rest {α : Type} {f : Element → Option α} {sort : List Opt → List Opt}
    (hf : ∀ e, staysPut e = true → f (tidy sort e) = none) (es : List Element) :
    (tidyAll sort (es.filter staysPut)).filterMap f = [] := by
  rw [tidyAll_eq]
  refine filterMap_nil fun e he => ?_
  obtain ⟨e', h', rfl⟩ := List.mem_map.1 he
  exact hf _ (List.mem_filter.1 h').2

theorem filterMap_top {α : Type} {f : Element → Option α} (hf : ∀ c, f (.comment c) = none) (es : List Element) :
    (es.takeWhile isComment).filterMap f = [] := by
  refine filterMap_nil fun e he => ?_
  have := takeWhile_imp he
  cases e <;> first | exact hf _ | cases this

theorem filterMap_tidyFile {α : Type} {f : Element → Option α} {sort : List Opt → List Opt}
    (hc : ∀ c, f (.comment c) = none) (hf : ∀ e, staysPut e = true → f (tidy sort e) = none)
    (imports : List Import) (es : List Element) :
    (tidyFile sort (fun _ => imports) es).filterMap f =
      (syntaxesAmong es).filterMap (fun s => f (.syntax s)) ++
      ((packagesAmong es).filterMap (fun s => f (.package s)) ++
      ((sort (optionsAmong es)).filterMap (fun s => f (.option s)) ++
      imports.filterMap (fun s => f (.import s)))) := by
  unfold tidyFile
  simp only [List.filterMap_append, filterMap_top hc, filterMap_rest hf, List.filterMap_map, List.nil_append,
    List.append_nil, List.append_assoc]
  rfl

theorem packagesAmong_tidyFile (sort : List Opt → List Opt) (imports : List Import) (es : List Element) :
    packagesAmong (tidyFile sort (fun _ => imports) es) = packagesAmong es := by
  refine (filterMap_tidyFile (fun _ => rfl) (fun e h => by cases e <;> unfold tidy <;> first | rfl | cases h)
    imports es).trans ?_
  show (syntaxesAmong es).filterMap (fun _ => none) ++ ((packagesAmong es).filterMap some ++
    ((sort (optionsAmong es)).filterMap (fun _ => none) ++ imports.filterMap (fun _ => none))) = _
  rw [filterMap_nil fun _ _ => rfl, filterMap_nil (fun _ _ => rfl), filterMap_nil (fun _ _ => rfl),
    List.append_nil, List.append_nil, List.nil_append]
  exact List.filterMap_some

theorem syntaxesAmong_tidyFile (sort : List Opt → List Opt) (imports : List Import) (es : List Element) :
    syntaxesAmong (tidyFile sort (fun _ => imports) es) = syntaxesAmong es := by
  refine (filterMap_tidyFile (fun _ => rfl) (fun e h => by cases e <;> unfold tidy <;> first | rfl | cases h)
    imports es).trans ?_
  show (syntaxesAmong es).filterMap some ++ ((packagesAmong es).filterMap (fun _ => none) ++
    ((sort (optionsAmong es)).filterMap (fun _ => none) ++ imports.filterMap (fun _ => none))) = _
  rw [filterMap_nil fun _ _ => rfl, filterMap_nil (fun _ _ => rfl), filterMap_nil (fun _ _ => rfl),
    List.append_nil, List.append_nil, List.append_nil]
  exact List.filterMap_some

theorem among_rearranged {α : Type} {f : Element → Option α} {βo βn : α → α} (hc : ∀ c, f (.comment c) = none)
    (ho : ∀ e, f (kept old e) = (f e).map βo) (hn : ∀ e, f (kept new e) = (f e).map βn)
    (ht : ∀ sort imports es, (tidyFile sort (fun _ => imports) es).filterMap f = es.filterMap f)
    {before after : List Element} (h : PutInOrder old new before after) :
    (after.filterMap f).map βn = (before.filterMap f).map βo := by
  obtain ⟨sort, imports, hs, hi, he⟩ := h
  rw [← among_kept hc hn, he, among_kept hc ho, ht]

/-- What a file and the file rearranged have in common. -/
structure Twin (old new : Option Comment → Option Comment) (d d' : FileDescriptor) : Prop where
  keeps : Keeps old new
  filename : d'.filename = d.filename
  config : d'.config = d.config
  well : Lintable d
  well' : Lintable d'
  all : ∀ ends, (shades new ends notComment [] d'.elements).Perm (shades old ends notComment [] d.elements)
  put : ∀ ends, shades new ends solid [] d'.elements = shades old ends solid [] d.elements
  packages : (packages d').map (headPackage new) = (packages d).map (headPackage old)
  syntaxes : (syntaxes d').map (headSyntax new) = (syntaxes d).map (headSyntax old)

theorem syntaxes_eq (d : FileDescriptor) : syntaxes d = syntaxesAmong d.elements := by
  unfold syntaxes syntaxesAmong
  rw [Format.inside_nothing, List.filterMap_map]
  refine congrFun (congrArg _ (funext fun e => ?_)) _
  cases e <;> rfl

theorem twin_of {d d' : FileDescriptor} (hk : Keeps old new) (h : Reprinted old new d d') : Twin old new d d' where
  keeps := hk
  filename := h.filename
  config := h.config
  well := h.wellBefore
  well' := h.wellAfter
  all ends := (shades_rearranged hk h.rearranged fun e he n hn =>
    h.wellBefore.grammatical n (nodesAll_mem.2 ⟨e, he, hn⟩)).1
  put ends := (shades_rearranged hk h.rearranged fun e he n hn =>
    h.wellBefore.grammatical n (nodesAll_mem.2 ⟨e, he, hn⟩)).2
  packages := by
    rw [Format.packages_eq, Format.packages_eq]
    exact among_rearranged (fun _ => rfl) (fun e => by cases e <;> unfold kept <;> rfl)
      (fun e => by cases e <;> unfold kept <;> rfl) packagesAmong_tidyFile h.rearranged
  syntaxes := by
    rw [syntaxes_eq, syntaxes_eq]
    exact among_rearranged (fun _ => rfl) (fun e => by cases e <;> unfold kept <;> rfl)
      (fun e => by cases e <;> unfold kept <;> rfl) syntaxesAmong_tidyFile h.rearranged

end Verif.Reform
