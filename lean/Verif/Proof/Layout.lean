import Verif.Spec.Layout
import Verif.Proof.Strs

/-! # The formatter prints the layout -/

namespace Verif.Format

open Verif Str Proto Spec

/-! ## Items -/

/-- All lines `n` levels further in. -/
def shift (n : Nat) (items : List Item) : List Item :=
  items.map fun
    | .line depth text => .line (n + depth) text
    | .problem f => .problem f

theorem shift_append (n : Nat) (a b : List Item) : shift n (a ++ b) = shift n a ++ shift n b :=
  List.map_append

theorem shift_zero (items : List Item) : shift 0 items = items := by
  unfold shift
  refine List.map_id'' (fun i => ?_) items
  cases i <;> simp

theorem shift_nest (n : Nat) (items : List Item) : shift n (nest items) = shift (n + 1) items := by
  unfold shift nest
  rw [List.map_map]
  refine List.map_congr_left fun i _ => ?_
  cases i with
  | line d t => show Item.line (n + (d + 1)) t = Item.line (n + 1 + d) t; congr 1; omega
  | problem f => rfl

theorem textOf_append (a b : List Item) : textOf (a ++ b) = textOf a ++ textOf b :=
  List.flatMap_append

theorem problemsOf_append (a b : List Item) : problemsOf (a ++ b) = problemsOf a ++ problemsOf b :=
  List.filterMap_append

theorem problemsOf_nest (items : List Item) : problemsOf (nest items) = problemsOf items := by
  unfold problemsOf nest
  rw [List.filterMap_map]
  congr 1
  funext i
  cases i <;> rfl

/-- A printer that indents by two spaces. -/
def Two (v : Base) : Prop := v.printer.indent = s%"  "

/-- Print items. -/
def emit (items : List Item) (v : Base) : Base where
  printer := { v.printer with
    buffer := v.printer.buffer ++ textOf (shift v.printer.indentCount items) }
  failures := v.failures ++ problemsOf items

theorem two_emit {v : Base} (h : Two v) (items : List Item) : Two (emit items v) := h

theorem two_in {v : Base} (h : Two v) : Two v.in_ := h

theorem two_out {v : Base} (h : Two v) : Two v.out := by
  unfold Two Base.out Buf.Printer.out
  split <;> exact h

theorem emit_nil (v : Base) : emit [] v = v := by
  unfold emit
  simp [shift, textOf, problemsOf]

theorem emit_emit (a b : List Item) (v : Base) : emit b (emit a v) = emit (a ++ b) v := by
  unfold emit
  simp only [shift_append, textOf_append, problemsOf_append, List.append_assoc]

theorem out_emit_in (items : List Item) (v : Base) : (emit items v.in_).out = emit (nest items) v := by
  unfold emit Base.out Base.in_ Buf.Printer.out Buf.Printer.in_
  simp only [shift_nest, problemsOf_nest]
  simp

theorem flatten_replicate_two (n : Nat) :
    (List.replicate n s%"  ").flatten = List.replicate (2 * n) ' ' := by
  induction n with
  | zero => rfl
  | succ n ih =>
    rw [List.replicate_succ, List.flatten_cons, ih, show 2 * (n + 1) = 2 * n + 1 + 1 by omega,
      List.replicate_succ, List.replicate_succ]
    rfl

theorem trimRight_spaces (n : Nat) : trimRightBy isSpace (List.replicate n ' ') = [] := by
  unfold trimRightBy
  rw [List.reverse_replicate]
  have : (List.replicate n ' ').dropWhile isSpace = [] := by
    induction n with
    | zero => rfl
    | succ n ih =>
      rw [List.replicate_succ, List.dropWhile_cons]
      have : isSpace ' ' = true := by decide
      rw [if_pos this, ih]
  rw [this]
  rfl

theorem mem_takeWhile {α : Type} {p : α → Bool} {x : α} : ∀ {l : List α}, x ∈ l.takeWhile p → p x = true
  | [], h => nomatch h
  | a :: l, h => by
    rw [List.takeWhile_cons] at h
    by_cases ha : p a = true
    · rw [if_pos ha] at h
      rcases List.mem_cons.1 h with rfl | h
      · exact ha
      · exact mem_takeWhile h
    · rw [if_neg ha] at h; cases h

/-- A trimmed line that is only white space is empty. -/
theorem trimRight_blank (s : Str) (h : (trimSpace (trimRightBy isSpace s)).length = 0) :
    trimRightBy isSpace s = [] := by
  cases hs : trimRightBy isSpace s with
  | nil => rfl
  | cons c cs =>
    exfalso
    have hne : trimRightBy isSpace s ≠ [] := by rw [hs]; exact List.cons_ne_nil _ _
    have hlast := List.getLast?_eq_some_getLast hne
    have hsp := getLast?_trimRightBy hlast
    have h0 := List.eq_nil_of_length_eq_zero h
    -- the last character survives both trims
    unfold trimSpace trimLeftBy at h0
    have hd : (trimRightBy isSpace s).dropWhile isSpace ≠ [] := by
      intro hall
      have ht := List.takeWhile_append_dropWhile (p := isSpace) (l := trimRightBy isSpace s)
      rw [hall, List.append_nil] at ht
      have hx : (trimRightBy isSpace s).getLast hne ∈ (trimRightBy isSpace s).takeWhile isSpace := by
        rw [ht]; exact List.getLast_mem hne
      rw [mem_takeWhile hx] at hsp; cases hsp
    have hl2 : ((trimRightBy isSpace s).dropWhile isSpace).getLast? = (trimRightBy isSpace s).getLast? := by
      obtain ⟨t, ht⟩ := List.dropWhile_suffix (l := trimRightBy isSpace s) isSpace
      have := congrArg List.getLast? ht
      rw [List.getLast?_append, List.getLast?_eq_some_getLast hd] at this
      rw [← this, List.getLast?_eq_some_getLast hd]
      rfl
    have : trimRightBy isSpace ((trimRightBy isSpace s).dropWhile isSpace) =
        (trimRightBy isSpace s).dropWhile isSpace := trimRightBy_eq_self fun c hc => by
      rw [hl2] at hc
      exact getLast?_trimRightBy hc
    rw [this] at h0
    exact hd h0

theorem p_eq {v : Base} (h : Two v) (args : List Str) : v.p args = emit [flush args.flatten] v := by
  unfold Base.p Buf.Printer.p emit
  have hl : textOf (shift v.printer.indentCount [flush args.flatten]) =
      lineText v.printer.indentCount args.flatten := by
    simp [shift, textOf]
  rw [hl]
  have hp : problemsOf [flush args.flatten] = [] := rfl
  rw [hp, List.append_nil]
  unfold Two at h
  split
  · rename_i he
    rw [List.eq_nil_of_length_eq_zero he]
    unfold lineText
    rw [List.flatten_nil, List.append_nil, trimRight_spaces]
    rfl
  · dsimp only
    rw [h, flatten_replicate_two]
    unfold lineText
    split
    · rw [List.append_assoc]
    · rename_i hb
      rw [trimRight_blank _ (Decidable.not_not.1 hb)]
      rfl

theorem pCommentLines_eq {v : Base} (h : Two v) (lines : List Str) :
    v.pCommentLines lines = emit (lines.map fun l => flush (s%"//" ++ l.dropWhile (· == '/'))) v := by
  unfold Base.pCommentLines
  induction lines generalizing v with
  | nil => rw [List.map_nil, emit_nil]; rfl
  | cons l ls ih =>
    rw [List.foldl_cons, p_eq h, ih (two_emit h _), emit_emit]
    simp [cleanCommentLine, trimLeftBy]

theorem pComment_eq {v : Base} (h : Two v) (c : Option Comment) :
    v.pComment c = emit (note c) v := by
  cases c with
  | none => exact (emit_nil v).symm
  | some c => exact pCommentLines_eq h c.lines

theorem pWithInlineComment_eq {v : Base} (h : Two v) (c : Option Comment) (args : List Str) :
    v.pWithInlineComment c args = emit (noted args.flatten c) v := by
  unfold Base.pWithInlineComment noted
  cases c with
  | none => exact p_eq h args
  | some c =>
    dsimp only
    cases c.lines with
    | nil => exact p_eq h args
    | cons l ls =>
      dsimp only
      rw [p_eq h, pCommentLines_eq (two_emit h _), emit_emit]
      simp [cleanCommentLine, trimLeftBy]

/-! ## Values -/

mutual

theorem pInnerLiteral_eq (name : Str) (suffix : Str) : ∀ (l : Literal) (v : Base), Two v →
    pInnerLiteral name l suffix v = emit (valueItems name suffix l) v
  | .mk source isString quote array map, v, h => by
    unfold pInnerLiteral valueItems
    have hkey : (if name ≠ [] then name ++ s%": " else []) =
        (if name = [] then [] else name ++ s%": ") := by
      by_cases hn : name = [] <;> simp [hn]
    dsimp only
    rw [hkey]
    cases array with
    | nil =>
      cases map with
      | nil =>
        rw [if_pos ⟨rfl, rfl⟩]
        dsimp only
        by_cases hs : (Literal.mk source isString quote [] []).sourceRepresentation = []
        · rw [if_neg (fun h => h hs), if_pos hs, emit_nil]
        · rw [if_pos hs, if_neg hs, p_eq h]
          simp
      | cons m ms =>
        rw [if_neg (fun h => nomatch h.2), if_neg (show ¬ ([] : List Literal).length > 0 from Nat.lt_irrefl 0)]
        dsimp only
        rw [p_eq h, pInnerMap_eq _ _ (two_in (two_emit h _)), out_emit_in, p_eq (two_emit (two_emit h _) _),
          emit_emit, emit_emit]
        simp
    | cons a as =>
      rw [if_neg (fun h => nomatch h.1), if_pos (show (a :: as).length > 0 from Nat.succ_pos _)]
      dsimp only
      rw [p_eq h, pInnerArray_eq _ _ (two_in (two_emit h _)), out_emit_in, p_eq (two_emit (two_emit h _) _),
        emit_emit, emit_emit]
      simp

theorem pInnerArray_eq : ∀ (ls : List Literal) (v : Base), Two v →
    pInnerArray ls v = emit (arrayItems ls) v
  | [], v, _ => by unfold pInnerArray arrayItems; exact (emit_nil v).symm
  | l :: ls, v, h => by
    unfold pInnerArray arrayItems
    rw [pInnerLiteral_eq _ _ l v h, pInnerArray_eq ls _ (two_emit h _), emit_emit]
    cases ls <;> rfl

theorem pInnerMap_eq : ∀ (ls : List (Str × Literal)) (v : Base), Two v →
    pInnerMap ls v = emit (mapItems ls) v
  | [], v, _ => by unfold pInnerMap mapItems; exact (emit_nil v).symm
  | l :: ls, v, h => by
    unfold pInnerMap mapItems
    rw [pInnerNamed_eq l v h, pInnerMap_eq ls _ (two_emit h _), emit_emit]

theorem pInnerNamed_eq : ∀ (l : Str × Literal) (v : Base), Two v →
    pInnerNamed l v = emit (entryItems l) v
  | (name, l), v, h => by
    unfold pInnerNamed entryItems
    exact pInnerLiteral_eq name [] l v h

end

/-! ## Options -/

theorem isSingle_iff (l : Literal) : isSingleValueLiteral l = true ↔ IsScalar l := by
  unfold isSingleValueLiteral IsScalar
  simp

theorem pOption_eq {v : Base} (h : Two v) (pre suffix : Str) (o : Opt) :
    v.pOption pre suffix o = emit (optionItems pre suffix o) v := by
  unfold Base.pOption optionItems
  dsimp only
  rw [pComment_eq h]
  by_cases hs : IsScalar o.constant
  · rw [if_pos ((isSingle_iff _).2 hs), if_pos hs]
    by_cases hr : o.constant.sourceRepresentation = []
    · rw [if_neg (fun h => h hr), if_pos hr, List.append_nil]
    · rw [if_pos hr, if_neg hr, pWithInlineComment_eq (two_emit h _), emit_emit]
      simp
  · rw [if_neg (fun h => hs ((isSingle_iff _).1 h)), if_neg hs]
    by_cases ha : o.constant.array = []
    · rw [if_neg (by simp [ha]), if_neg (fun h => h ha)]
      rw [p_eq (two_emit h _), pInnerMap_eq _ _ (two_in (two_emit (two_emit h _) _)), out_emit_in,
        pWithInlineComment_eq (two_emit (two_emit (two_emit h _) _) _), emit_emit, emit_emit, emit_emit]
      simp
    · rw [if_pos (List.length_pos_iff.2 ha), if_pos ha]
      unfold emit
      simp [shift_append, textOf_append, problemsOf_append, shift, textOf, problemsOf]

theorem pOptionsLoop_field {v : Base} (h : Two v) (os : List Opt) :
    v.pOptionsLoop true os = emit (bracketed os) v := by
  induction os generalizing v with
  | nil => unfold Base.pOptionsLoop bracketed; exact (emit_nil v).symm
  | cons o os ih =>
    unfold Base.pOptionsLoop bracketed
    dsimp only
    rw [pOption_eq h, ih (two_emit h _), emit_emit]
    cases os <;> rfl

theorem pOptionsLoop_statement {v : Base} (h : Two v) (os : List Opt) :
    v.pOptionsLoop false os = emit (os.flatMap optionStatement) v := by
  induction os generalizing v with
  | nil => unfold Base.pOptionsLoop; exact (emit_nil v).symm
  | cons o os ih =>
    unfold Base.pOptionsLoop
    dsimp only
    rw [pOption_eq h, ih (two_emit h _), emit_emit]
    rfl

/-- The order of options of an implementation of `sort.Slice`. -/
def sortOpts (srt : SortSlice) (os : List Opt) : List Opt := srt.run (fun a b => lt a.name b.name) os

/-- The order of imports of an implementation of `sort.Slice`. -/
def sortImps (srt : SortSlice) (is : List Import) : List Import :=
  srt.run (fun a b => lt a.filename b.filename) is

theorem sortOpts_one (srt : SortSlice) (o : Opt) : sortOpts srt [o] = [o] :=
  List.perm_singleton.1 (srt.perm _ [o])

theorem pField_core {v : Base} (h : Two v) (srt : SortSlice) (pre name type : Str) (tag : Int)
    (comment inline : Option Comment) (options : List Opt) :
    v.pMessageOrEnumField srt pre name type tag comment inline options =
      emit (fieldItems (sortOpts srt) (pre ++ declarationOf type name tag) comment inline options) v := by
  unfold Base.pMessageOrEnumField fieldItems declarationOf
  dsimp only
  have htype : (if type ≠ [] then type ++ s%" " else type) = (if type = [] then [] else type ++ s%" ") := by
    by_cases ht : type = [] <;> simp [ht]
  rw [htype, pComment_eq h]
  have hmulti : ∀ os : List Opt, ((((emit (note comment) v).p [pre,
        (if type = [] then [] else type ++ s%" "), name, s%" = ", itoa tag, s%" ["]).in_.pOptions srt true
          os).out).pWithInlineComment inline [s%"];"] =
      emit (note comment ++ (flush (pre ++ ((if type = [] then [] else type ++ s%" ") ++ name ++ s%" = " ++
        itoa tag) ++ s%" [") :: nest (bracketed (sortOpts srt os)) ++ noted s%"];" inline)) v := by
    intro os
    unfold Base.pOptions
    rw [p_eq (two_emit h _), pOptionsLoop_field (two_in (two_emit (two_emit h _) _)), out_emit_in,
      pWithInlineComment_eq (two_emit (two_emit (two_emit h _) _) _), emit_emit, emit_emit, emit_emit]
    simp [sortOpts]
  match options with
  | [] =>
    dsimp only
    rw [if_pos rfl, pWithInlineComment_eq (two_emit h _), emit_emit]
    simp
  | [o] =>
    dsimp only
    rw [if_neg (List.cons_ne_nil _ _)]
    unfold onLine
    by_cases hc : IsScalar o.constant ∧ o.constant.sourceRepresentation ≠ []
    · rw [if_pos ⟨(isSingle_iff _).2 hc.1, hc.2⟩]
      simp only [if_pos hc]
      rw [pWithInlineComment_eq (two_emit h _), emit_emit]
      simp
    · rw [if_neg (fun h => hc ⟨(isSingle_iff _).1 h.1, h.2⟩)]
      simp only [if_neg hc]
      exact hmulti [o]
  | o :: o' :: os =>
    dsimp only
    rw [if_neg (List.cons_ne_nil _ _)]
    exact hmulti _

theorem pField_eq {v : Base} (h : Two v) (srt : SortSlice) (pre type : Str) (f : Field) :
    v.pField srt pre type f =
      emit (fieldItems (sortOpts srt) (pre ++ declarationOf type f.name f.sequence) f.comment
        f.inlineComment f.options) v := pField_core h ..

theorem visitReserved_eq {v : Base} (h : Two v) (r : Reserved) :
    v.visitReserved r = emit (reservedItems r) v := by
  unfold Base.visitReserved reservedItems
  have hr0 : r.ranges.length > 0 ↔ r.ranges ≠ [] := List.length_pos_iff
  have hn0 : r.fieldNames.length > 0 ↔ r.fieldNames ≠ [] := List.length_pos_iff
  simp only [hr0, hn0]
  by_cases hb : r.ranges ≠ [] ∧ r.fieldNames ≠ []
  · rw [if_pos hb, if_pos hb]
    unfold Base.addFailure emit
    simp [shift, textOf, problemsOf]
  · rw [if_neg hb, if_neg hb]
    rw [pComment_eq h]
    by_cases hr : r.ranges ≠ []
    · rw [if_pos hr, if_pos hr, pWithInlineComment_eq (two_emit h _), emit_emit]
      simp
    · rw [if_neg hr, if_neg hr]
      by_cases hn : r.fieldNames ≠ []
      · rw [if_pos hn, if_pos hn, pWithInlineComment_eq (two_emit h _), emit_emit]
        simp
      · rw [if_neg hn, if_neg hn, List.append_nil]

theorem visitRPC_eq {v : Base} (h : Two v) (srt : SortSlice) (r : RPC) (es : List Element) :
    v.visitRPC srt r es = emit (rpcItems (sortOpts srt) r es) v := by
  unfold Base.visitRPC rpcItems
  dsimp only
  rw [pComment_eq h]
  by_cases ho : optionsAmong es = []
  · rw [if_pos (by rw [ho]; rfl), if_pos ho, pWithInlineComment_eq (two_emit h _), emit_emit]
    simp
  · rw [if_neg (fun h => ho (List.eq_nil_of_length_eq_zero h)), if_neg ho]
    unfold Base.pOptions
    rw [p_eq (two_emit h _), pOptionsLoop_statement (two_in (two_emit (two_emit h _) _)), out_emit_in,
      pWithInlineComment_eq (two_emit (two_emit (two_emit h _) _) _), emit_emit, emit_emit, emit_emit]
    simp [sortOpts]

theorem visitExtensions_eq {v : Base} (h : Two v) (e : Extensions) :
    v.visitExtensions e = emit (note e.comment ++
      noted (s%"extensions " ++ join s%", " (e.ranges.map (·.sourceRepresentation)) ++ s%";")
        e.inlineComment) v := by
  unfold Base.visitExtensions
  rw [pComment_eq h, pWithInlineComment_eq (two_emit h _), emit_emit]
  simp

theorem visitOption_eq {v : Base} (h : Two v) (srt : SortSlice) (around : Around) (o : Opt) :
    v.visitOption srt around o = emit (innerOptionItems around o) v := by
  have key : v.pOptions srt false [o] = emit (optionStatement o) v := by
    unfold Base.pOptions
    rw [pOptionsLoop_statement h]
    have := sortOpts_one srt o
    unfold sortOpts at this
    rw [this]
    simp
  unfold Base.visitOption innerOptionItems
  cases around with
  | none => exact (emit_nil v).symm
  | group =>
    unfold Base.addFailure emit
    simp [shift, textOf, problemsOf]
  | enum => exact key
  | message => exact key
  | oneof => exact key
  | service => exact key

theorem normalPrefix_eq (isProto2 : Bool) (f : NormalField) :
    normalPrefix isProto2 f = labelOf isProto2 f := by
  unfold normalPrefix labelOf
  rfl

/-! ## Declarations -/

theorem hit_eq (f : Base → Base) (v : Main) : v.hit f = ⟨f v.base, true⟩ := rfl

theorem two_new : Two newBaseVisitor := rfl

/-- The declarations with a body. -/
theorem block_eq {b : Base} (h : Two b) (srt : SortSlice) (isProto2 : Bool) (around : Around)
    (es : List Element)
    (ih : ∀ b : Base, Two b → visitAll srt isProto2 around es ⟨b, true⟩ =
      ⟨emit (elementsItems (sortOpts srt) isProto2 around es) b, true⟩)
    (comment : Option Comment) (head : Str) (args : List Str) (ha : args.flatten = head ++ s%" {")
    (gap emptyGap : List Item) (hes : es ≠ []) (finish : Base → Base)
    (hf : ∀ b : Base, Two b → finish b = emit gap (b.out.p [s%"}"])) :
    (visitAll srt isProto2 around es ((⟨b.pComment comment, true⟩ : Main).on fun b => (b.p args).in_)).on
      finish =
      ⟨emit (blockItems comment head (some (elementsItems (sortOpts srt) isProto2 around es)) gap emptyGap) b,
        true⟩ := by
  unfold Main.on
  dsimp only
  rw [pComment_eq h, p_eq (two_emit h _), ih _ (two_in (two_emit (two_emit h _) _)), ha]
  dsimp only
  rw [hf _ (two_emit (two_in (two_emit (two_emit h _) _)) _), out_emit_in,
    p_eq (two_emit (two_emit (two_emit h _) _) _), emit_emit, emit_emit, emit_emit, emit_emit]
  unfold blockItems
  simp

theorem emptyBlock_eq {b : Base} (h : Two b) (comment : Option Comment) (head : Str) (args : List Str)
    (ha : args.flatten = head ++ s%" {}") (gap : List Item) :
    ((b.pComment comment).p args).p [] = emit (blockItems comment head none gap [blank]) b ∧
    (b.pComment comment).p args = emit (blockItems comment head none gap []) b := by
  rw [pComment_eq h, p_eq (two_emit h _), ha, p_eq (two_emit (two_emit h _) _), emit_emit, emit_emit,
    emit_emit]
  unfold blockItems
  simp

theorem length_eq_zero_ne {α : Type} {l : List α} (h : ¬ l.length = 0) : l ≠ [] :=
  fun h' => h (h' ▸ rfl)

theorem gap_eq {parent : Around} (b : Base) (h : Two b) :
    (if parent = .none then (b.out.p [s%"}"]).p [] else b.out.p [s%"}"]) =
      emit (if parent = .none then [blank] else []) (b.out.p [s%"}"]) := by
  have h2 : Two (b.out.p [s%"}"]) := by
    have h' : Two b.out := two_out h
    rw [p_eq h']; exact two_emit h' _
  by_cases hp : parent = .none
  · rw [if_pos hp, if_pos hp, p_eq h2]; rfl
  · rw [if_neg hp, if_neg hp, emit_nil]

mutual

theorem visit_eq (srt : SortSlice) (isProto2 : Bool) (around : Around) : ∀ (e : Element) (v : Main),
    Two v.base → (v.haveHitNonComment = true ∨ isComment e = false) →
    visit srt isProto2 around e v = ⟨emit (elementItems (sortOpts srt) isProto2 around e) v.base, true⟩
  | .comment c, v, h, hh => by
    have hh : v.haveHitNonComment = true := hh.elim id (fun h => nomatch h)
    unfold visit elementItems
    rw [if_pos hh]
    unfold Main.on
    dsimp only
    rw [pComment_eq h, p_eq (two_emit h _), emit_emit, hh]
    rfl
  | .syntax s, v, h, hh => by unfold visit elementItems; rw [hit_eq, emit_nil]; rfl
  | .package p, v, h, hh => by unfold visit elementItems; rw [hit_eq, emit_nil]; rfl
  | .import i, v, h, hh => by unfold visit elementItems; rw [hit_eq, emit_nil]; rfl
  | .option o, v, h, hh => by unfold visit elementItems; rw [hit_eq, visitOption_eq h]
  | .rpc r es, v, h, hh => by unfold visit elementItems; rw [hit_eq, visitRPC_eq h]
  | .normalField f, v, h, hh => by
    unfold visit elementItems; rw [hit_eq, pField_eq h, normalPrefix_eq]
  | .mapField f, v, h, hh => by
    unfold visit elementItems; rw [hit_eq, pField_eq h, List.nil_append]
  | .oneofField f, v, h, hh => by
    unfold visit elementItems; rw [hit_eq, pField_eq h, List.nil_append]
  | .enumField f es, v, h, hh => by
    unfold visit elementItems Base.pEnumField; rw [hit_eq, pField_core h, List.nil_append]
  | .reserved r, v, h, hh => by unfold visit elementItems; rw [hit_eq, visitReserved_eq h]
  | .extensions e, v, h, hh => by unfold visit elementItems; rw [hit_eq, visitExtensions_eq h]
  | .message m es, v, h, hh => by
    unfold visit elementItems
    dsimp only
    rw [hit_eq]
    by_cases hes : es.length = 0
    · rw [if_pos hes, if_pos hes]
      exact congrArg (Main.mk · true) (emptyBlock_eq h _ _ _ (by simp) _).1
    · rw [if_neg hes, if_neg hes]
      exact block_eq h srt isProto2 .message es (fun b hb => visitAll_eq srt isProto2 .message es ⟨b, true⟩ hb rfl)
        _ _ _ (by simp) _ _ (length_eq_zero_ne hes) _ gap_eq
  | .enum e es, v, h, hh => by
    unfold visit elementItems
    dsimp only
    rw [hit_eq]
    by_cases hes : es.length = 0
    · rw [if_pos hes, if_pos hes]
      exact congrArg (Main.mk · true) (emptyBlock_eq h _ _ _ (by simp) _).1
    · rw [if_neg hes, if_neg hes]
      exact block_eq h srt isProto2 .enum es (fun b hb => visitAll_eq srt isProto2 .enum es ⟨b, true⟩ hb rfl)
        _ _ _ (by simp) _ _ (length_eq_zero_ne hes) _ gap_eq
  | .service s es, v, h, hh => by
    unfold visit elementItems
    dsimp only
    rw [hit_eq]
    by_cases hes : es.length = 0
    · rw [if_pos hes, if_pos hes]
      exact congrArg (Main.mk · true) (emptyBlock_eq h _ _ _ (by simp) _).1
    · rw [if_neg hes, if_neg hes]
      exact block_eq h srt isProto2 .service es (fun b hb => visitAll_eq srt isProto2 .service es ⟨b, true⟩ hb rfl)
        _ _ _ (by simp) _ _ (length_eq_zero_ne hes) _ (fun b hb => gap_eq (parent := .none) b hb)
  | .oneof o es, v, h, hh => by
    unfold visit elementItems
    dsimp only
    rw [hit_eq]
    by_cases hes : es.length = 0
    · rw [if_pos hes, if_pos hes]
      exact congrArg (Main.mk · true) (emptyBlock_eq h _ _ _ (by simp) _).2
    · rw [if_neg hes, if_neg hes]
      exact block_eq h srt isProto2 .oneof es (fun b hb => visitAll_eq srt isProto2 .oneof es ⟨b, true⟩ hb rfl)
        _ _ _ (by simp) _ _ (length_eq_zero_ne hes) _ (fun b _ => (emit_nil _).symm)
  | .group g es, v, h, hh => by
    unfold visit elementItems
    dsimp only
    rw [hit_eq]
    by_cases hes : es.length = 0
    · rw [if_pos hes, if_pos hes]
      exact congrArg (Main.mk · true) (emptyBlock_eq h _ _ _ (by simp) _).2
    · rw [if_neg hes, if_neg hes]
      exact block_eq h srt isProto2 .group es (fun b hb => visitAll_eq srt isProto2 .group es ⟨b, true⟩ hb rfl)
        _ _ _ (by simp) _ _ (length_eq_zero_ne hes) _ (fun b _ => (emit_nil _).symm)

theorem visitAll_eq (srt : SortSlice) (isProto2 : Bool) (around : Around) :
    ∀ (es : List Element) (v : Main), Two v.base → v.haveHitNonComment = true →
    visitAll srt isProto2 around es v = ⟨emit (elementsItems (sortOpts srt) isProto2 around es) v.base, true⟩
  | [], v, _, hh => by
    unfold visitAll elementsItems
    rw [emit_nil, ← hh]
  | e :: es, v, h, hh => by
    unfold visitAll elementsItems
    rw [visit_eq srt isProto2 around e v h (.inl hh)]
    refine Eq.trans (visitAll_eq srt isProto2 around es _ (two_emit h _) rfl) ?_
    rw [emit_emit]

end

theorem elementsItems_eq (sort : List Opt → List Opt) (isProto2 : Bool) (around : Around)
    (es : List Element) :
    elementsItems sort isProto2 around es = es.flatMap (elementItems sort isProto2 around) := by
  induction es with
  | nil => unfold elementsItems; rfl
  | cons e es ih => unfold elementsItems; rw [ih]; rfl

/-- The main visitor skips the comments at the top. -/
theorem visitAll_top (srt : SortSlice) (isProto2 : Bool) (es : List Element) :
    (visitAll srt isProto2 .none es {}).base =
      emit ((es.dropWhile isComment).flatMap (elementItems (sortOpts srt) isProto2 .none)) newBaseVisitor := by
  induction es with
  | nil => unfold visitAll; exact (emit_nil _).symm
  | cons e es ih =>
    by_cases he : isComment e = true
    · rw [List.dropWhile_cons, if_pos he, ← ih]
      cases e with
      | comment c =>
        rw [visitAll]
        congr 2
      | _ => cases he
    · have he : isComment e = false := by simpa using he
      rw [List.dropWhile_cons, he]
      unfold visitAll
      rw [visit_eq srt isProto2 .none e {} two_new (.inr he)]
      refine Eq.trans (congrArg Main.base
        (visitAll_eq srt isProto2 .none es _ (two_emit two_new _) rfl)) ?_
      dsimp only
      rw [emit_emit, elementsItems_eq]
      rfl

/-! ## The first pass -/

theorem pSyntax_eq {v : Base} (h : Two v) (s : Option Syntax) : v.pSyntax s = emit (syntaxItems s) v := by
  unfold Base.pSyntax syntaxItems
  cases s with
  | none => exact (emit_nil v).symm
  | some s =>
    dsimp only
    rw [pComment_eq h]
    cases hc : s.comment with
    | none =>
      rw [if_neg (by simp), if_neg (by simp), pWithInlineComment_eq (two_emit h _),
        p_eq (two_emit (two_emit h _) _), emit_emit, emit_emit]
      simp
    | some c =>
      rw [if_pos (Option.isSome_some), if_pos (Option.isSome_some), p_eq (two_emit h _), pWithInlineComment_eq (two_emit (two_emit h _) _),
        p_eq (two_emit (two_emit (two_emit h _) _) _), emit_emit, emit_emit, emit_emit]
      simp

theorem pPackage_eq {v : Base} (h : Two v) (p : Option Package) :
    v.pPackage p = emit (packageItems p) v := by
  unfold Base.pPackage packageItems
  cases p with
  | none => exact (emit_nil v).symm
  | some p =>
    dsimp only
    rw [pComment_eq h, pWithInlineComment_eq (two_emit h _), p_eq (two_emit (two_emit h _) _), emit_emit,
      emit_emit]
    simp

theorem pImports_eq {v : Base} (h : Two v) (srt : SortSlice) (is : List Import) :
    v.pImports srt is = emit ((sortImps srt is).flatMap importItems) v := by
  unfold Base.pImports
  show (sortImps srt is).foldl _ v = _
  generalize sortImps srt is = l
  induction l generalizing v with
  | nil => exact (emit_nil v).symm
  | cons i l ih =>
    rw [List.foldl_cons, pComment_eq h, pWithInlineComment_eq (two_emit h _), emit_emit,
      ih (two_emit h _), emit_emit, List.flatMap_cons]
    congr 1
    congr 1
    unfold importItems
    by_cases hk : i.kind = [] <;> simp [hk]

/-- The field of the visitor for a managed option. -/
def FirstPass.get (name : Str) (v : FirstPass) : Option Opt :=
  if name = s%"csharp_namespace" then v.csharpNamespaceOption
  else if name = s%"go_package" then v.goPackageOption
  else if name = s%"java_multiple_files" then v.javaMultipleFilesOption
  else if name = s%"java_outer_classname" then v.javaOuterClassnameOption
  else if name = s%"java_package" then v.javaPackageOption
  else if name = s%"objc_class_prefix" then v.objcClassPrefixOption
  else if name = s%"php_namespace" then v.phpNamespaceOption
  else none

theorem mem_managedNames {name : Str} (h : name ∈ managedNames) :
    name = s%"csharp_namespace" ∨ name = s%"go_package" ∨ name = s%"java_multiple_files" ∨
    name = s%"java_outer_classname" ∨ name = s%"java_package" ∨ name = s%"objc_class_prefix" ∨
    name = s%"php_namespace" := by
  simpa [managedNames] using h

theorem visitOption_get (q : Params) (hq : q.fix ≠ fixNone) (o : Opt) (v : FirstPass) {name : Str}
    (hn : name ∈ managedNames) :
    (v.visitOption q o).get name = if o.name = name then some o else v.get name := by
  unfold FirstPass.visitOption
  dsimp only
  rw [if_pos hq]
  rcases mem_managedNames hn with h | h | h | h | h | h | h <;> subst h <;>
  · repeat' split
    all_goals first
      | rfl
      | (exfalso; simp_all)
      | (exfalso; rename_i h1 h2; revert h1 h2; intro h1 h2; rw [h1] at h2; revert h2; decide)
      | skip

/-- What visiting an option leaves alone. -/
theorem visitOption_rest (q : Params) (o : Opt) (v : FirstPass) :
    (v.visitOption q o).syntax_ = v.syntax_ ∧ (v.visitOption q o).package = v.package ∧
    (v.visitOption q o).imports = v.imports ∧ (v.visitOption q o).base = v.base ∧
    (v.visitOption q o).haveHitNonComment = true ∧
    (v.visitOption q o).options = v.options ++
      (if q.fix ≠ fixNone ∧ o.name ∈ managedNames then [] else [o]) := by
  unfold FirstPass.visitOption
  dsimp only
  by_cases hq : q.fix ≠ fixNone
  · rw [if_pos hq]
    by_cases hm : o.name ∈ managedNames
    · have he : (if q.fix ≠ fixNone ∧ o.name ∈ managedNames then [] else [o]) = [] := if_pos ⟨hq, hm⟩
      rw [he, List.append_nil]
      rcases mem_managedNames hm with h | h | h | h | h | h | h <;> rw [h] <;>
        exact ⟨rfl, rfl, rfl, rfl, rfl, rfl⟩
    · have he : (if q.fix ≠ fixNone ∧ o.name ∈ managedNames then [] else [o]) = [o] :=
        if_neg (fun h => hm h.2)
      rw [he]
      have hm' : ∀ n ∈ managedNames, o.name ≠ n := fun n hn he => hm (he ▸ hn)
      rw [if_neg (hm' _ (by decide)), if_neg (hm' _ (by decide)), if_neg (hm' _ (by decide)),
        if_neg (hm' _ (by decide)), if_neg (hm' _ (by decide)), if_neg (hm' _ (by decide)),
        if_neg (hm' _ (by decide))]
      exact ⟨rfl, rfl, rfl, rfl, rfl, rfl⟩
  · rw [if_neg hq, if_neg (fun h => hq h.1)]
    exact ⟨rfl, rfl, rfl, rfl, rfl, rfl⟩

/-- What the first pass prints for an element. -/
def firstItems (q : Params) (v : FirstPass) : Element → List Item
  | .comment c =>
    if !v.haveHitNonComment ∧ (q.fix = fixNone ∨ q.fileHeader = []) then note (some c) ++ [blank] else []
  | .syntax s =>
    if v.syntax_.isSome then [.problem ⟨[], s.position.line, s.position.column, [],
      s%"duplicate syntax specified"⟩] else []
  | .package p =>
    if v.package.isSome then [.problem ⟨[], p.position.line, p.position.column, [],
      s%"duplicate package specified"⟩] else []
  | _ => []

theorem emit_problem (f : Text.Failure) (v : Base) :
    emit [.problem f] v = { v with failures := v.failures ++ [f] } := by
  unfold emit
  simp [shift, textOf, problemsOf]

/-- One step of the first pass. -/
theorem firstVisit_eq (q : Params) (v : FirstPass) (h : Two v.base) (e : Element) :
    (v.visit q e).syntax_ = v.syntax_.or (syntaxesAmong [e]).head? ∧
    (v.visit q e).package = v.package.or (packagesAmong [e]).head? ∧
    (v.visit q e).imports = v.imports ++ importsAmong [e] ∧
    (v.visit q e).base = emit (firstItems q v e) v.base ∧
    (v.visit q e).haveHitNonComment = (v.haveHitNonComment || !isComment e) ∧
    (v.visit q e).options = v.options ++
      (optionsAmong [e]).filter (fun o => ¬ (q.fix ≠ fixNone ∧ o.name ∈ managedNames)) ∧
    (q.fix ≠ fixNone → ∀ name ∈ managedNames, (v.visit q e).get name =
      (lastOption name (optionsAmong [e])).or (v.get name)) := by
  cases e with
  | comment c =>
    unfold FirstPass.visit firstItems
    dsimp only
    split
    · refine ⟨by simp [syntaxesAmong], by simp [packagesAmong], by simp [importsAmong], ?_,
        by simp [isComment], by simp [optionsAmong], fun _ name _ => rfl⟩
      dsimp only
      rw [pComment_eq h, p_eq (two_emit h _), emit_emit]
      rfl
    · exact ⟨by simp [syntaxesAmong], by simp [packagesAmong], by simp [importsAmong],
        (emit_nil _).symm, by simp [isComment], by simp [optionsAmong], fun _ name _ => rfl⟩
  | «syntax» s =>
    unfold FirstPass.visit firstItems
    dsimp only
    cases hs : v.syntax_ with
    | none =>
      exact ⟨by simp [syntaxesAmong], by simp [packagesAmong], by simp [importsAmong],
        (emit_nil _).symm, by simp [isComment], by simp [optionsAmong], fun _ name _ => rfl⟩
    | some s' =>
      exact ⟨by simp [syntaxesAmong, hs], by simp [packagesAmong], by simp [importsAmong],
        (emit_problem _ _).symm, by simp [isComment], by simp [optionsAmong], fun _ name _ => rfl⟩
  | package s =>
    unfold FirstPass.visit firstItems
    dsimp only
    cases hs : v.package with
    | none =>
      exact ⟨by simp [syntaxesAmong], by simp [packagesAmong], by simp [importsAmong],
        (emit_nil _).symm, by simp [isComment], by simp [optionsAmong], fun _ name _ => rfl⟩
    | some s' =>
      exact ⟨by simp [syntaxesAmong], by simp [packagesAmong, hs], by simp [importsAmong],
        (emit_problem _ _).symm, by simp [isComment], by simp [optionsAmong], fun _ name _ => rfl⟩
  | option o =>
    obtain ⟨h1, h2, h3, h4, h5, h6⟩ := visitOption_rest q o v
    unfold FirstPass.visit firstItems
    refine ⟨by simp [syntaxesAmong, h1], by simp [packagesAmong, h2], by simp [importsAmong, h3],
      by rw [emit_nil, h4], by simp [isComment, h5], ?_, fun hq name hn => ?_⟩
    · rw [h6]
      congr 1
      by_cases hc : q.fix ≠ fixNone ∧ o.name ∈ managedNames
      · rw [if_pos hc]
        simp only [optionsAmong, List.filterMap_cons, List.filterMap_nil]
        rw [List.filter_cons_of_neg (by simpa using hc)]
        rfl
      · rw [if_neg hc]
        simp only [optionsAmong, List.filterMap_cons, List.filterMap_nil]
        exact (List.filter_eq_self.2 (fun o' ho' => by
          cases List.mem_singleton.1 ho'
          exact decide_eq_true hc)).symm
    · rw [visitOption_get q hq o v hn]
      unfold lastOption optionsAmong
      by_cases he : o.name = name <;> simp [he]
  | «import» i =>
    unfold FirstPass.visit firstItems
    exact ⟨by simp [syntaxesAmong], by simp [packagesAmong], by simp [importsAmong],
      (emit_nil _).symm, by simp [isComment], by simp [optionsAmong], fun _ name _ => rfl⟩
  | _ =>
    exact ⟨by simp [syntaxesAmong, FirstPass.visit], by simp [packagesAmong, FirstPass.visit],
      by simp [importsAmong, FirstPass.visit],
      (emit_nil _).symm, by simp [isComment, FirstPass.visit], by simp [optionsAmong, FirstPass.visit],
      fun _ name _ => rfl⟩

/-- The comments at the top, if the first pass prints them. -/
def leadItems (q : Params) (hit : Bool) (es : List Element) : List Item :=
  if hit = true ∨ ¬ (q.fix = fixNone ∨ q.fileHeader = []) then []
  else (es.takeWhile isComment).flatMap (elementItems id true .none)

theorem filterMap_cons_append {α β : Type} (f : α → Option β) (a : α) (l : List α) :
    (a :: l).filterMap f = [a].filterMap f ++ l.filterMap f := by
  rw [show a :: l = [a] ++ l from rfl, List.filterMap_append]

theorem lastOption_append (name : Str) (a b : List Opt) :
    lastOption name (a ++ b) = (lastOption name b).or (lastOption name a) := by
  unfold lastOption
  rw [List.filter_append, List.getLast?_append]

theorem head?_append_or {α : Type} (a b : List α) : (a ++ b).head? = a.head?.or b.head? := by
  cases a <;> rfl

theorem option_or_assoc {α : Type} (a b c : Option α) : (a.or b).or c = a.or (b.or c) := by
  cases a <;> rfl

theorem isSome_or {α : Type} (a b : Option α) : (a.or b).isSome = (a.isSome || b.isSome) := by
  cases a <;> simp

/-- What one step adds, and what is left for the others. -/
theorem first_items_step (q : Params) (v : FirstPass) (e : Element) (es : List Element) :
    ∃ rest, firstItems q v e ++ (leadItems q (v.haveHitNonComment || !isComment e) es ++
        duplicateItems.go (v.syntax_.or (syntaxesAmong [e]).head?).isSome
          (v.package.or (packagesAmong [e]).head?).isSome es) = rest ∧
      rest = leadItems q v.haveHitNonComment (e :: es) ++
        duplicateItems.go v.syntax_.isSome v.package.isSome (e :: es) := by
  refine ⟨_, rfl, ?_⟩
  have lead : isComment e = false → leadItems q v.haveHitNonComment (e :: es) = [] := by
    intro he
    unfold leadItems
    split
    · rfl
    · rw [List.takeWhile_cons, he]; rfl
  have lead' : isComment e = false → leadItems q (v.haveHitNonComment || !isComment e) es = [] := by
    intro he
    unfold leadItems
    rw [he, if_pos (.inl (by simp))]
  cases e with
  | comment c =>
    have hd : ∀ a b, duplicateItems.go a b (Element.comment c :: es) = duplicateItems.go a b es := by
      intro a b; rw [duplicateItems.go] <;> (intros; contradiction)
    rw [hd]
    have h1 : (v.syntax_.or (syntaxesAmong [.comment c]).head?) = v.syntax_ := by simp [syntaxesAmong]
    have h2 : (v.package.or (packagesAmong [.comment c]).head?) = v.package := by simp [packagesAmong]
    rw [h1, h2, ← List.append_assoc]
    congr 1
    unfold firstItems leadItems
    cases hh : v.haveHitNonComment with
    | true => simp
    | false =>
      by_cases hq : q.fix = fixNone ∨ q.fileHeader = []
      · simp [hq, isComment, List.takeWhile_cons, elementItems]
      · simp [hq]
  | «syntax» s =>
    rw [lead rfl, lead' rfl, duplicateItems.go]
    have h2 : (v.package.or (packagesAmong [.syntax s]).head?) = v.package := by simp [packagesAmong]
    rw [h2]
    have h1 : (v.syntax_.or (syntaxesAmong [.syntax s]).head?).isSome = true := by simp [syntaxesAmong]
    rw [h1]
    rfl
  | package s =>
    rw [lead rfl, lead' rfl, duplicateItems.go]
    have h2 : (v.syntax_.or (syntaxesAmong [.package s]).head?) = v.syntax_ := by simp [syntaxesAmong]
    rw [h2]
    have h1 : (v.package.or (packagesAmong [.package s]).head?).isSome = true := by simp [packagesAmong]
    rw [h1]
    rfl
  | _ =>
    rw [lead rfl, lead' rfl, duplicateItems.go]
    · simp [syntaxesAmong, packagesAmong, firstItems]
    all_goals (intros; contradiction)

/-- The first pass over the elements. -/
theorem first_eq (q : Params) (es : List Element) : ∀ (v : FirstPass), Two v.base →
    let w := es.foldl (fun v e => v.visit q e) v
    w.syntax_ = v.syntax_.or (syntaxesAmong es).head? ∧
    w.package = v.package.or (packagesAmong es).head? ∧
    w.imports = v.imports ++ importsAmong es ∧
    w.base = emit (leadItems q v.haveHitNonComment es ++
      duplicateItems.go v.syntax_.isSome v.package.isSome es) v.base ∧
    w.options = v.options ++
      (optionsAmong es).filter (fun o => ¬ (q.fix ≠ fixNone ∧ o.name ∈ managedNames)) ∧
    (q.fix ≠ fixNone → ∀ name ∈ managedNames, w.get name =
      (lastOption name (optionsAmong es)).or (v.get name)) := by
  induction es with
  | nil =>
    intro v h
    refine ⟨by simp [syntaxesAmong], by simp [packagesAmong], by simp [importsAmong], ?_,
      by simp [optionsAmong], fun _ name _ => by simp [optionsAmong, lastOption]⟩
    unfold leadItems duplicateItems.go
    rw [List.takeWhile_nil, List.flatMap_nil, ite_self, List.append_nil, emit_nil]
    rfl
  | cons e es ih =>
    intro v h
    obtain ⟨h1, h2, h3, h4, h5, h6, h7⟩ := firstVisit_eq q v h e
    have hb : Two (v.visit q e).base := by rw [h4]; exact two_emit h _
    obtain ⟨k1, k2, k3, k4, k5, k6⟩ := ih (v.visit q e) hb
    rw [List.foldl_cons]
    have a1 : syntaxesAmong (e :: es) = syntaxesAmong [e] ++ syntaxesAmong es := filterMap_cons_append _ _ _
    have a2 : packagesAmong (e :: es) = packagesAmong [e] ++ packagesAmong es := filterMap_cons_append _ _ _
    have a3 : importsAmong (e :: es) = importsAmong [e] ++ importsAmong es := filterMap_cons_append _ _ _
    have a4 : optionsAmong (e :: es) = optionsAmong [e] ++ optionsAmong es := filterMap_cons_append _ _ _
    refine ⟨?_, ?_, ?_, ?_, ?_, ?_⟩
    · rw [k1, h1, a1, head?_append_or, option_or_assoc]
    · rw [k2, h2, a2, head?_append_or, option_or_assoc]
    · rw [k3, h3, a3, List.append_assoc]
    · obtain ⟨rest, r1, r2⟩ := first_items_step q v e es
      rw [k4, h4, emit_emit, h5, h1, h2, r1, r2]
    · rw [k5, h6, a4, List.filter_append, List.append_assoc]
    · intro hq name hn
      rw [k6 hq name hn, h7 hq name hn, a4, lastOption_append, option_or_assoc]

/-! ## The transformer -/

theorem note_no_problems (c : Option Comment) : problemsOf (note c) = [] := by
  unfold note problemsOf
  cases c with
  | none => rfl
  | some c =>
    rw [List.filterMap_map]
    exact List.filterMap_eq_nil_iff.2 fun _ _ => rfl

theorem lead_no_problems (q : Params) (hit : Bool) (es : List Element) :
    problemsOf (leadItems q hit es) = [] := by
  unfold leadItems
  split
  · rfl
  · induction es with
    | nil => rfl
    | cons e es ih =>
      rw [List.takeWhile_cons]
      split
      · rename_i he
        rw [List.flatMap_cons, problemsOf_append, ih, List.append_nil]
        cases e with
        | comment c =>
          rw [elementItems, problemsOf_append, note_no_problems]; rfl
        | _ => cases he
      · rfl

theorem duplicates_no_text (a b : Bool) (es : List Element) (n : Nat) :
    textOf (shift n (duplicateItems.go a b es)) = [] := by
  induction es generalizing a b with
  | nil => rfl
  | cons e es ih =>
    unfold duplicateItems.go
    split
    · rename_i h; cases h
    · rename_i h; cases h
      rw [shift_append, textOf_append, ih, List.append_nil]
      split <;> rfl
    · rename_i h; cases h
      rw [shift_append, textOf_append, ih, List.append_nil]
      split <;> rfl
    · rename_i h; cases h
      exact ih _ _

/-- Failures and lines do not mix. -/
theorem emit_swap (a b : List Item) (ha : problemsOf a = []) (hb : ∀ n, textOf (shift n b) = [])
    (v : Base) : emit (a ++ b) v = emit (b ++ a) v := by
  unfold emit
  simp [shift_append, textOf_append, problemsOf_append, ha, hb]

theorem isProto2Of_eq (es : List Element) :
    (proto2Of es = none ∧ ∃ s, (syntaxesAmong es).head? = some s ∧
      isProto2Of (syntaxesAmong es).head? = .error (s%"unknown syntax: " ++ s.value)) ∨
    ∃ b, proto2Of es = some b ∧ isProto2Of (syntaxesAmong es).head? = .ok b := by
  unfold proto2Of isProto2Of
  cases (syntaxesAmong es).head? with
  | none => exact .inr ⟨true, rfl, rfl⟩
  | some s =>
    dsimp only
    by_cases h1 : s.value = []
    · exact .inr ⟨true, by rw [if_pos (.inl h1)], by rw [if_pos h1]⟩
    · by_cases h2 : s.value = s%"proto2"
      · exact .inr ⟨true, by rw [if_pos (.inr h2)], by rw [if_neg h1, if_pos h2]⟩
      · by_cases h3 : s.value = s%"proto3"
        · exact .inr ⟨false, by rw [if_neg (fun h => h.elim h1 h2), if_pos h3],
            by rw [if_neg h1, if_neg h2, if_pos h3]⟩
        · exact .inl ⟨by rw [if_neg (fun h => h.elim h1 h2), if_neg h3], s, rfl,
            by rw [if_neg h1, if_neg h2, if_neg h3]⟩

theorem updated_eq (name : Str) (os : List Opt) (l : Literal) :
    updated (lastOption name os) name l = withValue name os l := rfl

/-- The options the first pass prints. -/
theorem first_options (q : Params) (es : List Element) :
    let w := es.foldl (fun v e => v.visit q e) ({} : FirstPass)
    w.allOptions q = optionsOf q es := by
  obtain ⟨_, h2, _, _, h5, h6⟩ := first_eq q es {} two_new
  dsimp only at h2 h5 h6 ⊢
  generalize es.foldl (fun v e => v.visit q e) ({} : FirstPass) = w at h2 h5 h6 ⊢
  unfold optionsOf FirstPass.allOptions
  rw [h2, Option.none_or, h5, List.nil_append]
  by_cases hq : q.fix = fixNone
  · rw [if_pos hq]
    have hf : (optionsAmong es).filter (fun o => ¬ (q.fix ≠ fixNone ∧ o.name ∈ managedNames)) =
        optionsAmong es := List.filter_eq_self.2 fun o _ => by simp [hq]
    rw [hf]
    cases (packagesAmong es).head? with
    | none => rfl
    | some p => exact if_neg (fun h => h hq)
  · rw [if_neg hq]
    have hf : (optionsAmong es).filter (fun o => ¬ (q.fix ≠ fixNone ∧ o.name ∈ managedNames)) =
        (optionsAmong es).filter (fun o => o.name ∉ managedNames) :=
      List.filter_congr fun o _ => by simp [hq]
    rw [hf]
    cases (packagesAmong es).head? with
    | none => simp
    | some p =>
      dsimp only
      rw [if_pos hq]
      congr 1
      have g : ∀ name ∈ managedNames, w.get name = lastOption name (optionsAmong es) := by
        intro name hn
        rw [h6 hq name hn]
        have : ({} : FirstPass).get name = none := by
          rcases mem_managedNames hn with h | h | h | h | h | h | h <;> subst h <;> rfl
        rw [this, Option.or_none]
      have g1 : w.csharpNamespaceOption = _ := g s%"csharp_namespace" (by decide)
      have g2 : w.goPackageOption = _ := g s%"go_package" (by decide)
      have g3 : w.javaMultipleFilesOption = _ := g s%"java_multiple_files" (by decide)
      have g4 : w.javaOuterClassnameOption = _ := g s%"java_outer_classname" (by decide)
      have g5 : w.javaPackageOption = _ := g s%"java_package" (by decide)
      have g6 : w.objcClassPrefixOption = _ := g s%"objc_class_prefix" (by decide)
      have g7 : w.phpNamespaceOption = _ := g s%"php_namespace" (by decide)
      unfold FirstPass.managed managedOptions
      rw [g1, g2, g3, g4, g5, g6, g7]
      simp only [updated_eq]

/-- The known fix values. -/
def KnownFix (q : Params) : Prop := q.fix = fixNone ∨ q.fix = fixV1 ∨ q.fix = fixV2

/-- The lines of a formatted file. -/
def layout (srt : SortSlice) (q : Params) (isProto2 : Bool) (es : List Element) : List Item :=
  fileItems (sortOpts srt) isProto2 (topItems q es) (sortOpts srt (optionsOf q es))
    (sortImps srt (importsAmong es)) es

theorem run_nil_iff (srt : SortSlice) {α : Type} (less : α → α → Bool) (l : List α) :
    srt.run less l = [] ↔ l = [] := by
  constructor
  · intro h
    have := srt.perm less l
    rw [h] at this
    exact (List.nil_perm.1 this)
  · rintro rfl
    exact List.perm_nil.1 (srt.perm less [])

theorem sortOpts_nil_iff (srt : SortSlice) (l : List Opt) : sortOpts srt l = [] ↔ l = [] :=
  run_nil_iff srt _ l

theorem sortImps_nil_iff (srt : SortSlice) (l : List Import) : sortImps srt l = [] ↔ l = [] :=
  run_nil_iff srt _ l

theorem do_eq (srt : SortSlice) (q : Params) (es : List Element) :
    (es.foldl (fun v e => v.visit q e) ({} : FirstPass)).do_ srt q =
      emit (duplicateItems es ++ topItems q es ++ syntaxItems (syntaxesAmong es).head? ++
        packageItems (packagesAmong es).head? ++ fileOptionItems (sortOpts srt (optionsOf q es)) ++
        fileImportItems (sortImps srt (importsAmong es))) newBaseVisitor := by
  have hopts := first_options q es
  obtain ⟨h1, h2, h3, h4, _, _⟩ := first_eq q es {} two_new
  dsimp only at h1 h2 h3 h4 hopts
  generalize es.foldl (fun v e => v.visit q e) ({} : FirstPass) = w at h1 h2 h3 h4 hopts ⊢
  unfold FirstPass.do_
  dsimp only
  rw [hopts, h1, h2, h3, h4, List.nil_append, Option.none_or, Option.none_or]
  have htop : (if q.fix ≠ fixNone ∧ q.fileHeader ≠ [] then
      ((emit (leadItems q false es ++ duplicateItems.go false false es) newBaseVisitor).p [q.fileHeader]).p []
      else emit (leadItems q false es ++ duplicateItems.go false false es) newBaseVisitor) =
      emit (duplicateItems es ++ topItems q es) newBaseVisitor := by
    unfold topItems leadItems duplicateItems
    by_cases hc : q.fix ≠ fixNone ∧ q.fileHeader ≠ []
    · rw [if_pos hc, if_pos hc, if_pos (.inr (by rw [not_or]; exact hc)), p_eq (two_emit two_new _),
        p_eq (two_emit (two_emit two_new _) _), emit_emit, emit_emit]
      simp
    · rw [if_neg hc, if_neg hc]
      have := emit_swap (leadItems q false es) (duplicateItems.go false false es)
        (lead_no_problems q false es) (duplicates_no_text false false es) newBaseVisitor
      have hl : ¬ (false = true ∨ ¬ (q.fix = fixNone ∨ q.fileHeader = [])) := by
        rintro (h | h)
        · cases h
        · rw [not_or] at h; exact hc h
      unfold leadItems at this
      rw [if_neg hl] at this ⊢
      exact this
  refine Eq.trans (b := _) ?_ rfl
  have htop' := htop
  simp only [show ({} : FirstPass).haveHitNonComment = false from rfl,
    show ({} : FirstPass).syntax_.isSome = false from rfl,
    show ({} : FirstPass).package.isSome = false from rfl,
    show ({} : FirstPass).base = newBaseVisitor from rfl]
  rw [htop', pSyntax_eq (two_emit two_new _), pPackage_eq (two_emit (two_emit two_new _) _), emit_emit,
    emit_emit]
  have two : ∀ l, Two (emit l newBaseVisitor) := two_emit two_new
  have hO : (if (optionsOf q es).length > 0 then
      ((emit (duplicateItems es ++ topItems q es ++ syntaxItems (syntaxesAmong es).head? ++
        packageItems (packagesAmong es).head?) newBaseVisitor).pOptions srt false (optionsOf q es)).p []
      else emit (duplicateItems es ++ topItems q es ++ syntaxItems (syntaxesAmong es).head? ++
        packageItems (packagesAmong es).head?) newBaseVisitor) =
      emit (duplicateItems es ++ topItems q es ++ syntaxItems (syntaxesAmong es).head? ++
        packageItems (packagesAmong es).head? ++ fileOptionItems (sortOpts srt (optionsOf q es)))
        newBaseVisitor := by
    unfold fileOptionItems
    by_cases ho : optionsOf q es = []
    · rw [if_neg (by simp [ho]), if_pos ((sortOpts_nil_iff srt _).2 ho), List.append_nil]
    · rw [if_pos (List.length_pos_iff.2 ho), if_neg (fun h => ho ((sortOpts_nil_iff srt _).1 h))]
      unfold Base.pOptions
      rw [pOptionsLoop_statement (two _), p_eq (two_emit (two _) _), emit_emit, emit_emit]
      simp [sortOpts]
  rw [← List.append_assoc, hO]
  unfold fileImportItems
  by_cases hi : importsAmong es = []
  · rw [if_neg (by simp [hi]), if_pos ((sortImps_nil_iff srt _).2 hi), List.append_nil]
  · rw [if_pos (List.length_pos_iff.2 hi), if_neg (fun h => hi ((sortImps_nil_iff srt _).1 h)),
      pImports_eq (two _), p_eq (two_emit (two _) _), emit_emit, emit_emit]
    simp

theorem finish_eq (items : List Item) :
    (if (trimSpace (textOf items)).length > 0 then trimSpace (textOf items) ++ ['\n'] else []) =
      finish items := by
  unfold finish
  by_cases h : trimSpace (textOf items) = []
  · rw [if_pos h, h]; rfl
  · rw [if_neg h, if_pos (List.length_pos_iff.2 h)]

/-- **The formatter prints the layout.** -/
theorem transform_eq (srt : SortSlice) (q : Params) (hq : KnownFix q) (es : List Element) :
    (∃ s, proto2Of es = none ∧ (syntaxesAmong es).head? = some s ∧
      transform srt q es = .error (s%"unknown syntax: " ++ s.value)) ∨
    ∃ isProto2, proto2Of es = some isProto2 ∧
      transform srt q es = .ok (finish (layout srt q isProto2 es),
        Text.sortFailures (problemsOf (layout srt q isProto2 es))) := by
  have h1 := (first_eq q es {} two_new).1
  dsimp only at h1
  unfold transform
  rw [if_neg (by
    rintro ⟨a, b, c⟩
    exact hq.elim a (fun h => h.elim b c))]
  dsimp only
  rw [h1, Option.none_or, do_eq]
  rcases isProto2Of_eq es with ⟨hp, s, hs, he⟩ | ⟨b, hp, hb⟩
  · refine .inl ⟨s, hp, hs, ?_⟩
    rw [he]
  · refine .inr ⟨b, hp, ?_⟩
    rw [hb]
    dsimp only
    rw [visitAll_top]
    have ht : ∀ l, (emit l newBaseVisitor).printer.buffer = textOf l := by
      intro l; unfold emit newBaseVisitor Buf.newPrinter; dsimp only; rw [shift_zero]; rfl
    have hf : ∀ l, (emit l newBaseVisitor).failures = problemsOf l := fun l => List.nil_append _
    rw [ht, ht, hf, hf, ← textOf_append, ← problemsOf_append]
    unfold layout fileItems
    rw [← finish_eq]
    split <;> rfl

end Verif.Format
