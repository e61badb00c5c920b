import Verif.Proof.Attached
import Verif.Proof.CommentsFile

/-! # The printed declarations are read with their comments -/

namespace Verif.Format

open Verif Str Proto Spec

/-! ## Statements -/

/-- There is something on the first and on the last line. -/
def Seen (init : List Item) (last : Str) : Prop :=
  (∃ c ∈ last, isSpace c = false) ∧
  ∀ x l, init = x :: l → ∃ d t, x = .line d t ∧ ∃ c ∈ t, isSpace c = false

theorem seen_last {last : Str} {c : Char} (hc : c ∈ last) (hs : isSpace c = false) : Seen [] last :=
  ⟨⟨c, hc, hs⟩, fun _ _ e => nomatch e⟩

theorem Rows.single {i : Item} {rows : List (List Token)} (h : Rows keep [i] rows) : ∃ r, rows = [r] ∧ Row keep i r := by
  cases h with
  | cons h h' => cases h'; exact ⟨_, rfl, h⟩

theorem noted_short {last : Str} {i : Option Comment} (h : ShortComment i) : ∃ x, noted last i = [flush x] := by
  unfold noted
  cases i with
  | none => exact ⟨_, rfl⟩
  | some c =>
    unfold ShortComment at h
    dsimp only
    match hc : c.lines, (show c.lines.length ≤ 1 from h) with
    | [], _ => exact ⟨_, rfl⟩
    | [l], _ => exact ⟨_, rfl⟩

theorem rows_leaf {around : Around} {f : Option Comment → Option Comment → List Item} {init : List Item} {last : Str}
    (hf : ∀ c i, f c i = note c ++ (init ++ noted last i)) (hs : Seen init last) {w : Str} {ts : List Token}
    {c i : Option Comment} (hc : CommentFits c) (hi : CommentFits i) (hsh : ShortComment i)
    (hL : ∀ i, CommentFits i → Lines true (f none i) (.word w :: ts ++ noteToks true i)) {e : Element}
    (hopen : ∀ rest, (if mayOpen around (.word w :: ts ++ rest) then braceAt (.word w :: ts ++ rest) else none) = none)
    (hread : ∀ rest n, (Token.word w :: ts).length ≤ n → readElement around n (.word w :: ts ++ rest) = some (e, rest))
    (he : takesInline e = true) :
    ∃ rows, Rows true (f c i) rows ∧ Reads around rows [withComments (plainComment c) (plainComment i) e] := by
  obtain ⟨R, hR, hRf⟩ := hL none (fun _ h => (List.not_mem_nil h).elim)
  obtain ⟨R', hR', hRf'⟩ := hL i hi
  rw [hf] at hR hR' ⊢
  obtain ⟨x, hx⟩ := noted_short (last := last) hsh
  have hR : Rows true (init ++ [flush last]) R := hR
  have hR' : Rows true (init ++ [flush x]) R' := by rw [hx] at hR'; exact hR'
  obtain ⟨A, B, rfl, hA, hB⟩ := hR.split
  obtain ⟨A', B', rfl, hA', hB'⟩ := hR'.split
  obtain ⟨r, rfl, hr⟩ := hB.single
  obtain ⟨r', rfl, hr'⟩ := hB'.single
  obtain rfl := hA'.unique hA
  have e1 : noteToks true none = [] := rfl
  rw [e1, List.append_nil] at hRf
  rw [← hRf] at hRf'
  simp only [List.flatten_append, List.flatten_cons, List.flatten_nil, List.append_nil, List.append_assoc] at hRf'
  obtain rfl := List.append_cancel_left hRf'
  have hlast : r ≠ [] := by
    obtain ⟨ch, h1, h2⟩ := hs.1
    exact Closed.visible (a := last) hr h1 h2
  have hfirst : ∀ q rows, A' = q :: rows → q ≠ [] := by
    intro q rows eA
    subst eA
    cases hA with
    | @cons y items _ _ h1 _ =>
      obtain ⟨d, t, rfl, ch, h2, h3⟩ := hs.2 _ _ rfl
      exact Closed.visible (a := t) h1 h2 h3
  refine ⟨noteRows c ++ (A' ++ [r ++ noteToks true i]), (rows_note hc).append ?_,
    reads_statement hsh hRf hlast hfirst hopen hread he⟩
  rw [hx]
  exact hR'

/-- The words that a declaration with a body may begin with. -/
def openWords : List Str :=
  [s%"message", s%"extend", s%"enum", s%"service", s%"rpc", s%"oneof", s%"group", s%"optional", s%"required",
   s%"repeated"]

theorem mayOpen_word {around : Around} {w : Str} (h : w ∉ openWords) (ts : List Token) :
    mayOpen around (.word w :: ts) = false := by
  simp only [openWords, List.mem_cons, List.not_mem_nil, or_false, not_or] at h
  unfold mayOpen
  split
  · rename_i e; cases e; simp [h]
  · rfl

theorem mayOpen_enum (ts : List Token) : mayOpen .enum ts = false := by
  unfold mayOpen
  split <;> simp [holdsMessages]

theorem mayOpen_oneof {w : Str} (h : w ≠ s%"group") (ts : List Token) : mayOpen .oneof (.word w :: ts) = false := by
  unfold mayOpen
  split
  · rename_i e; cases e; simp [holdsMessages, h]
  · rfl

theorem mayOpen_field {around : Around} (ha : holdsMessages around = true) {w : Str} (h : w ∉ messageWords)
    (ts : List Token) : mayOpen around (.word w :: ts) = false := by
  have h := not_words h
  have ha' := holds_ne ha
  unfold mayOpen
  split
  · rename_i e; cases e; simp_all
  · rfl

theorem mayOpen_label {around : Around} (ha : holdsMessages around = true) {w v : Str}
    (h : w = s%"optional" ∨ w = s%"required" ∨ w = s%"repeated") (hv : v ≠ s%"group") (ts : List Token) :
    mayOpen around (.word w :: .word v :: ts) = false := by
  have ha' := holds_ne ha
  unfold mayOpen
  dsimp only
  rcases h with rfl | rfl | rfl <;> simp [ha', hv]

theorem field_core (sort : List Opt → List Opt) (declaration : Str) (os : List Opt) :
    ∃ init last, Seen init last ∧
      ∀ c i, fieldItems sort declaration c i os = note c ++ (init ++ noted last i) := by
  by_cases ho : os = []
  · refine ⟨[], declaration ++ s%";", seen_last (c := ';') (by simp) (by decide), fun c i => ?_⟩
    unfold fieldItems
    rw [if_pos ho, List.nil_append]
  · cases hl : onLine os with
    | some o =>
      refine ⟨[], declaration ++ s%" [" ++ o.name ++ s%" = " ++ o.constant.sourceRepresentation ++ s%"];",
        seen_last (c := ';') (by simp) (by decide), fun c i => ?_⟩
      unfold fieldItems
      rw [if_neg ho, hl, List.nil_append]
    | none =>
      refine ⟨flush (declaration ++ s%" [") :: nest (bracketed (sort os)), s%"];",
        ⟨⟨';', by simp, by decide⟩, fun x l e => ?_⟩, fun c i => ?_⟩
      · cases e
        exact ⟨_, _, rfl, '[', by simp, by decide⟩
      · unfold fieldItems
        rw [if_neg ho, hl]

theorem option_core {o : Opt} (h : OptionFits o) (hn : problemsOf (optionStatement o) = []) :
    ∃ init last, Seen init last ∧
      ∀ c i, optionStatement { o with comment := c, inlineComment := i } = note c ++ (init ++ noted last i) := by
  unfold optionStatement optionItems at hn ⊢
  by_cases hsc : IsScalar o.constant
  · obtain ⟨_, h2⟩ := gives_opt (keep := true) h hsc
    refine ⟨[], s%"option " ++ o.name ++ s%" = " ++ o.constant.sourceRepresentation ++ s%";",
      seen_last (c := ';') (by simp) (by decide), fun c i => ?_⟩
    dsimp only
    rw [if_pos hsc, if_neg h2, List.nil_append]
  · rw [if_neg hsc] at hn
    by_cases ha : o.constant.array = []
    · refine ⟨flush (s%"option " ++ o.name ++ s%" = {") :: nest (mapItems o.constant.orderedMap), s%"}" ++ s%";",
        ⟨⟨';', by simp, by decide⟩, fun x l e => ?_⟩, fun c i => ?_⟩
      · cases e
        exact ⟨_, _, rfl, '{', by simp, by decide⟩
      · dsimp only
        rw [if_neg hsc, if_neg fun h => h ha]
    · rw [if_pos ha, problemsOf_append] at hn
      exact absurd (List.append_eq_nil_iff.1 hn).2 (by simp [problemsOf])

/-- A declaration without a body. -/
def isLeaf : Element → Bool
  | .option _ | .enumField _ _ | .normalField _ | .mapField _ | .oneofField _ | .reserved _ | .extensions _ => true
  | .rpc _ es => optionsAmong es = []
  | _ => false

/-- The comment above a declaration. -/
def aboveOf : Element → Option Comment
  | .comment _ => none
  | .syntax s => s.comment
  | .package p => p.comment
  | .option o => o.comment
  | .import i => i.comment
  | .message m _ => m.comment
  | .enum e _ => e.comment
  | .enumField f _ => f.comment
  | .service s _ => s.comment
  | .rpc r _ => r.comment
  | .normalField f => f.field.comment
  | .mapField f => f.field.comment
  | .oneof o _ => o.comment
  | .oneofField f => f.comment
  | .reserved r => r.comment
  | .extensions e => e.comment
  | .group g _ => g.comment

/-- The comment behind a declaration. -/
def behindOf : Element → Option Comment
  | .syntax s => s.inlineComment
  | .package p => p.inlineComment
  | .option o => o.inlineComment
  | .import i => i.inlineComment
  | .enumField f _ => f.inlineComment
  | .rpc r _ => r.inlineComment
  | .normalField f => f.field.inlineComment
  | .mapField f => f.field.inlineComment
  | .oneofField f => f.inlineComment
  | .reserved r => r.inlineComment
  | .extensions e => e.inlineComment
  | _ => none

theorem withComments_self (e : Element) : withComments (aboveOf e) (behindOf e) e = e := by
  cases e <;> rfl

theorem problems_noted {t : Str} {i : Option Comment} : problemsOf (noted t i) = [] := by
  unfold noted
  (repeat' split) <;> simp [problemsOf]

theorem leaf_core {sort : List Opt → List Opt} {isProto2 : Bool} {around : Around} {e : Element} (hl : isLeaf e = true)
    (hs : staysPut e = true ∨ around ≠ .none) (h : ElementFits isProto2 around e)
    (hn : problemsOf (elementItems sort isProto2 around e) = []) :
    ∃ init last, Seen init last ∧
      ∀ c i, elementItems sort isProto2 around (withComments c i e) = note c ++ (init ++ noted last i) := by
  cases e with
  | option o =>
    unfold ElementFits at h
    unfold elementItems innerOptionItems at hn
    cases around with
    | none => exact (hs.elim (fun e => nomatch e) fun e => e rfl).elim
    | group => cases hn
    | _ =>
      obtain ⟨init, last, h1, h2⟩ := option_core h hn
      refine ⟨init, last, h1, fun c i => ?_⟩
      rw [← h2]
      unfold withComments elementItems
      rfl
  | enumField f es =>
    obtain ⟨init, last, h1, h2⟩ := field_core sort (declarationOf [] f.name f.integer) (optionsAmong es)
    refine ⟨init, last, h1, fun c i => ?_⟩
    rw [← h2]
    unfold withComments elementItems
    rfl
  | normalField f =>
    obtain ⟨init, last, h1, h2⟩ := field_core sort
      (labelOf isProto2 f ++ declarationOf f.field.type f.field.name f.field.sequence) f.field.options
    refine ⟨init, last, h1, fun c i => ?_⟩
    rw [← h2]
    unfold withComments elementItems
    rfl
  | mapField f =>
    obtain ⟨init, last, h1, h2⟩ := field_core sort
      (declarationOf (s%"map<" ++ f.keyType ++ s%", " ++ f.field.type ++ s%">") f.field.name f.field.sequence)
      f.field.options
    refine ⟨init, last, h1, fun c i => ?_⟩
    rw [← h2]
    unfold withComments elementItems
    rfl
  | oneofField f =>
    obtain ⟨init, last, h1, h2⟩ := field_core sort (declarationOf f.type f.name f.sequence) f.options
    refine ⟨init, last, h1, fun c i => ?_⟩
    rw [← h2]
    unfold withComments elementItems
    rfl
  | reserved r =>
    unfold ElementFits at h
    obtain ⟨_, _, _, hx, _⟩ := h
    by_cases hr : r.ranges = []
    · refine ⟨[], s%"reserved " ++ join s%", " (r.fieldNames.map fun n => s%"\"" ++ n ++ s%"\"") ++ s%";",
        seen_last (c := ';') (by simp) (by decide), fun c i => ?_⟩
      unfold withComments elementItems reservedItems
      dsimp only
      rw [if_neg fun h => h.1 hr, if_neg fun h => h hr, if_pos (hx.1 hr)]
      rfl
    · have hf : ¬ r.fieldNames ≠ [] := fun h => hr (hx.2 h)
      refine ⟨[], s%"reserved " ++ join s%", " (r.ranges.map (·.sourceRepresentation)) ++ s%";",
        seen_last (c := ';') (by simp) (by decide), fun c i => ?_⟩
      unfold withComments elementItems reservedItems
      dsimp only
      rw [if_neg fun h => hf h.2, if_pos hr]
      rfl
  | extensions r =>
    refine ⟨[], s%"extensions " ++ join s%", " (r.ranges.map (·.sourceRepresentation)) ++ s%";",
        seen_last (c := ';') (by simp) (by decide), fun c i => ?_⟩
    unfold withComments elementItems
    rfl
  | rpc r es =>
    have he : optionsAmong es = [] := by unfold isLeaf at hl; exact of_decide_eq_true hl
    refine ⟨[], (s%"rpc " ++ r.name ++ s%"(" ++ (if r.streamsRequest then s%"stream " else []) ++
      r.requestType ++ s%") returns (" ++ (if r.streamsReturns then s%"stream " else []) ++ r.returnsType) ++ s%");",
        seen_last (c := ';') (by simp) (by decide), fun c i => ?_⟩
    unfold withComments elementItems rpcItems
    dsimp only
    rw [if_pos he, List.nil_append]
  | _ => cases hl

theorem leaf_fits {isProto2 : Bool} {around : Around} {e : Element} (hl : isLeaf e = true)
    (h : ElementFits isProto2 around e) {c i : Option Comment} (hc : CommentFits c) (hi : CommentFits i) :
    ElementFits isProto2 around (withComments c i e) := by
  cases e with
  | option o =>
    unfold ElementFits at h
    unfold withComments ElementFits
    exact ⟨hc, hi, h.name, h.value⟩
  | enumField f es =>
    unfold ElementFits at h
    unfold withComments ElementFits
    exact ⟨h.1, hc, hi, h.2.2.2⟩
  | normalField f =>
    unfold ElementFits at h
    unfold withComments ElementFits
    exact ⟨h.1, ⟨hc, hi, h.2.1.name, h.2.1.type, h.2.1.options⟩, h.2.2⟩
  | mapField f =>
    unfold ElementFits at h
    unfold withComments ElementFits
    exact ⟨h.1, ⟨hc, hi, h.2.1.name, h.2.1.type, h.2.1.options⟩, h.2.2⟩
  | oneofField f =>
    unfold ElementFits at h
    unfold withComments ElementFits
    exact ⟨h.1, ⟨hc, hi, h.2.1.name, h.2.1.type, h.2.1.options⟩, h.2.2⟩
  | reserved r =>
    unfold ElementFits at h
    unfold withComments ElementFits
    exact ⟨h.1, hc, hi, h.2.2.2⟩
  | extensions r =>
    unfold ElementFits at h
    unfold withComments ElementFits
    exact ⟨h.1, hc, hi, h.2.2.2⟩
  | rpc r es =>
    unfold ElementFits at h
    unfold withComments ElementFits
    exact ⟨h.1, hc, hi, h.2.2.2⟩
  | _ => cases hl

theorem leaf_comments {isProto2 : Bool} {around : Around} {e : Element} (hl : isLeaf e = true)
    (h : ElementFits isProto2 around e) : CommentFits (aboveOf e) ∧ CommentFits (behindOf e) := by
  cases e <;> first | cases hl | skip
  all_goals unfold ElementFits at h
  all_goals first
    | exact ⟨h.comment, h.inlineComment⟩
    | exact ⟨h.2.1.comment, h.2.1.inlineComment⟩
    | exact ⟨h.2.1, h.2.2.1⟩

theorem leaf_toks {sort : List Opt → List Opt} (hsort : ∀ l, (sort l).Perm l) {isProto2 : Bool} {e : Element}
    (hl : isLeaf e = true) (i : Option Comment) :
    elementToks true isProto2 (tidy sort (withComments none i e)) =
      elementToks false isProto2 (tidy sort e) ++ noteToks true i := by
  have hw : ∀ ts : List Token, wrap true none ts i = ts ++ noteToks true i := fun ts => by
    rw [wrap_eq]; rfl
  cases e with
  | option o =>
    unfold withComments tidy elementToks optionToks
    rw [hw, wrap_false]
    rfl
  | reserved o =>
    unfold withComments tidy elementToks reservedToks
    rw [hw, wrap_false]
  | rpc r es =>
    have he : optionsAmong es = [] := by unfold isLeaf at hl; exact of_decide_eq_true hl
    have hn : sort (optionsAmong es) = [] := by rw [he]; exact (hsort []).eq_nil
    unfold withComments tidy elementToks rpcToks
    rw [hn]
    rw [show optionsAmong (([] : List Opt).map Element.option) = [] from rfl, if_pos rfl, if_pos rfl, hw, wrap_false]
  | enumField f es =>
    unfold withComments tidy elementToks
    rw [hw, wrap_false]
  | normalField f =>
    unfold withComments tidy elementToks
    dsimp only
    rw [hw, wrap_false]
    rfl
  | mapField f =>
    unfold withComments tidy elementToks
    dsimp only
    rw [hw, wrap_false]
  | oneofField f =>
    unfold withComments tidy elementToks
    dsimp only
    rw [hw, wrap_false]
  | extensions f =>
    unfold withComments tidy elementToks
    dsimp only
    rw [hw, wrap_false]
  | _ => cases hl

theorem braceAt_rpc (s : Bool) (t : Str) (ts : List Token) : braceAt (streamToks s t ++ ts) = none ↔ braceAt ts = none := by
  unfold streamToks
  cases s <;> simp [braceAt]

theorem leaf_opens {sort : List Opt → List Opt} (hsort : ∀ l, (sort l).Perm l) {isProto2 : Bool} {around : Around}
    {e : Element} (hl : isLeaf e = true) (h : ElementFits isProto2 around e) (rest : List Token) :
    (if mayOpen around (elementToks false isProto2 (tidy sort e) ++ rest) then
      braceAt (elementToks false isProto2 (tidy sort e) ++ rest) else none) = none := by
  have key : ∀ {ts : List Token}, mayOpen around ts = false → (if mayOpen around ts then braceAt ts else none) = none :=
    fun h => by rw [h]; rfl
  cases e with
  | option o =>
    unfold tidy elementToks optionToks
    rw [wrap_false]
    exact key (mayOpen_word (by decide) _)
  | reserved o =>
    unfold tidy elementToks reservedToks
    rw [wrap_false]
    exact key (mayOpen_word (by decide) _)
  | extensions o =>
    unfold tidy elementToks
    rw [wrap_false]
    exact key (mayOpen_word (by decide) _)
  | mapField o =>
    unfold tidy elementToks
    rw [wrap_false]
    exact key (mayOpen_word (by decide) _)
  | enumField f es =>
    unfold ElementFits at h
    obtain ⟨rfl, _⟩ := h
    exact key (mayOpen_enum _)
  | oneofField f =>
    unfold ElementFits at h
    obtain ⟨rfl, _, ht⟩ := h
    unfold tidy elementToks
    rw [wrap_false]
    exact key (mayOpen_oneof (fun e => ht (by rw [e]; decide)) _)
  | rpc r es =>
    have he : optionsAmong es = [] := by unfold isLeaf at hl; exact of_decide_eq_true hl
    have hn : sort (optionsAmong es) = [] := by rw [he]; exact (hsort []).eq_nil
    have : braceAt (elementToks false isProto2 (tidy sort (.rpc r es)) ++ rest) = none := by
      unfold tidy elementToks rpcToks
      rw [hn]
      rw [show optionsAmong (([] : List Opt).map Element.option) = [] from rfl, if_pos rfl, wrap_false]
      unfold streamToks
      cases r.streamsRequest <;> cases r.streamsReturns <;> simp [braceAt]
    rw [this]
    split <;> rfl
  | normalField f =>
    unfold ElementFits at h
    obtain ⟨ha, hf, hlab⟩ := h
    unfold tidy elementToks
    rw [wrap_false]
    dsimp only
    obtain ⟨field, repeated, optional, required⟩ := f
    obtain ⟨hg, hlab⟩ := hlab
    have labelled : ∀ w : Str, w = s%"optional" ∨ w = s%"required" ∨ w = s%"repeated" → ∀ ts : List Token,
        (if mayOpen around (.word w :: .word field.type :: ts) then braceAt (.word w :: .word field.type :: ts)
          else none) = none := fun w hw ts => key (mayOpen_label ha hw hg ts)
    cases isProto2 with
    | true =>
      rw [if_pos rfl] at hlab
      simp only [List.mem_cons, List.not_mem_nil, or_false, Prod.mk.injEq] at hlab
      rcases hlab with ⟨rfl, rfl, rfl⟩ | ⟨rfl, rfl, rfl⟩ | ⟨rfl, rfl, rfl⟩
      · exact labelled s%"repeated" (.inr (.inr rfl)) _
      · exact labelled s%"optional" (.inl rfl) _
      · exact labelled s%"required" (.inr (.inl rfl)) _
    | false =>
      rw [if_neg (by decide)] at hlab
      dsimp only at hlab
      obtain ⟨rfl, rfl, ht⟩ := hlab
      cases repeated with
      | true => exact labelled s%"repeated" (.inr (.inr rfl)) _
      | false => exact key (mayOpen_field ha (ht rfl) _)
  | _ => cases hl

theorem keptOption_quiet {o : Opt} (h : NoComments o) : keptOption plainComment o = bareOption o := by
  unfold keptOption bareOption
  rw [h.1, h.2]
  rfl

theorem keptOptions_quiet {os : List Opt} (h : ∀ o ∈ os, NoComments o) :
    os.map (keptOption plainComment) = os.map bareOption :=
  List.map_congr_left fun o ho => keptOption_quiet (h o ho)

theorem shownAll_options (os : List Opt) :
    shownAll (os.map .option) = os.map fun o => .option (keptOption plainComment o) := by
  induction os with
  | nil => simp [shownAll]
  | cons o os ih =>
    rw [List.map_cons, List.map_cons, ← ih]
    simp [shownAll, shown, shownAll.silent]

theorem leaf_shown {sort : List Opt → List Opt} (hsort : ∀ l, (sort l).Perm l) {e : Element}
    (hl : isLeaf e = true) (ho : CommentsOutside e) :
    shownAll [tidy sort e] =
      [withComments (plainComment (aboveOf e)) (plainComment (behindOf e)) (bare (tidy sort e))] := by
  have hs : ∀ e, shownAll.silent e = false → shownAll [e] = [shown e] := fun e h => by
    simp [shownAll, h]
  cases e with
  | option o =>
    rw [hs _ (by simp [tidy, shownAll.silent])]
    simp only [tidy, shown, bare, withComments, bareOption, keptOption, aboveOf, behindOf]
  | reserved o =>
    rw [hs _ (by simp [tidy, shownAll.silent])]
    simp only [tidy, shown, bare, withComments, aboveOf, behindOf]
  | extensions o =>
    rw [hs _ (by simp [tidy, shownAll.silent])]
    simp only [tidy, shown, bare, withComments, aboveOf, behindOf]
  | rpc r es =>
    have he : optionsAmong es = [] := by unfold isLeaf at hl; exact of_decide_eq_true hl
    have hn : sort (optionsAmong es) = [] := by rw [he]; exact (hsort []).eq_nil
    rw [hs _ (by simp [tidy, shownAll.silent])]
    simp only [tidy, hn, List.map_nil, shown, bare, withComments, aboveOf, behindOf, shownAll, bareAll]
  | enumField f es =>
    rw [hs _ (by simp [tidy, shownAll.silent])]
    unfold CommentsOutside at ho
    have hq : ∀ o ∈ sort (optionsAmong es), NoComments o := fun o hm => by
      have := mem_options ((hsort _).mem_iff.1 hm)
      obtain ⟨p, e, hp⟩ := ho _ this
      cases e
      exact hp
    simp only [tidy, shown, bare, withComments, aboveOf, behindOf]
    rw [shownAll_options]
    congr 1
    congr 1
    have := keptOptions_quiet hq
    have hb : ∀ os : List Opt, bareAll (os.map .option) = os.map fun o => .option (bareOption o) := by
      intro os
      induction os with
      | nil => simp [bareAll]
      | cons o os ih => simp [bareAll, bare, ih]
    rw [hb]
    exact List.map_congr_left fun o ho => by rw [keptOption_quiet (hq o ho)]
  | normalField f =>
    rw [hs _ (by simp [tidy, shownAll.silent])]
    unfold CommentsOutside at ho
    simp only [tidy, shown, bare, withComments, keptField, bareField, aboveOf, behindOf]
    rw [keptOptions_quiet fun o hm => ho o ((hsort _).mem_iff.1 hm)]
  | mapField f =>
    rw [hs _ (by simp [tidy, shownAll.silent])]
    unfold CommentsOutside at ho
    simp only [tidy, shown, bare, withComments, keptField, bareField, aboveOf, behindOf]
    rw [keptOptions_quiet fun o hm => ho o ((hsort _).mem_iff.1 hm)]
  | oneofField f =>
    rw [hs _ (by simp [tidy, shownAll.silent])]
    unfold CommentsOutside at ho
    simp only [tidy, shown, bare, withComments, keptField, bareField, aboveOf, behindOf]
    rw [keptOptions_quiet fun o hm => ho o ((hsort _).mem_iff.1 hm)]
  | _ => cases hl

theorem leaf_inline {sort : List Opt → List Opt} {e : Element} (hl : isLeaf e = true) :
    takesInline (bare (tidy sort e)) = true := by
  cases e <;> first | cases hl | skip
  all_goals simp [tidy, bare, takesInline]

theorem leaf_short {e : Element} (hl : isLeaf e = true) (h : ShortIn e) : ShortComment (behindOf e) := by
  cases e <;> first | cases hl | skip
  all_goals unfold ShortIn at h
  all_goals first | exact h | exact h.1

/-- A declaration without a body. -/
theorem rows_statement {sort : List Opt → List Opt} (hsort : ∀ l, (sort l).Perm l) (isProto2 : Bool)
    (around : Around) {e : Element} (hl : isLeaf e = true) (hs : staysPut e = true ∨ around ≠ .none)
    (h : ElementFits isProto2 around e) (ho : CommentsOutside e) (hsh : ShortIn e)
    (hn : problemsOf (elementItems sort isProto2 around e) = []) :
    ∃ rows, Rows true (elementItems sort isProto2 around e) rows ∧ Reads around rows (shownAll [tidy sort e]) := by
  obtain ⟨init, last, h1, h2⟩ := leaf_core hl hs h hn
  obtain ⟨hc, hi⟩ := leaf_comments hl h
  have hcom : isComment (tidy sort e) = false := by
    cases e <;> first | cases hl | skip
    all_goals simp [tidy, isComment]
  obtain ⟨w, ts, hw⟩ := element_head isProto2 hcom
  have hinit : problemsOf init = [] := by
    have := h2 (aboveOf e) (behindOf e)
    rw [withComments_self] at this
    rw [this] at hn
    exact (problems_append (problems_append hn).2).1
  have hL : ∀ i, CommentFits i → Lines true (elementItems sort isProto2 around (withComments none i e))
      (.word w :: ts ++ noteToks true i) := by
    intro i hi
    have := lines_element (keep := true) hsort isProto2 around (withComments none i e) (by
      cases e <;> first | cases hl | skip
      all_goals exact hs) (leaf_fits hl h (fun _ h => (List.not_mem_nil h).elim) hi) (by
      have hq := quiet_outside e ho
      cases e <;> first | cases hl | skip
      all_goals (unfold QuietIn at hq; unfold withComments QuietIn; exact hq)) (by
      rw [h2, problemsOf_append, problemsOf_append, hinit, problems_noted]
      rfl)
    rw [leaf_toks hsort hl, hw] at this
    exact this
  have := rows_leaf (around := around) (f := fun c i => elementItems sort isProto2 around (withComments c i e)) h2 h1
    hc hi (leaf_short hl hsh) hL (e := bare (tidy sort e))
    (fun rest => by rw [← hw]; exact leaf_opens hsort hl h rest)
    (fun rest n hlen => by
      rw [← hw] at hlen ⊢
      exact readElement_toks isProto2 around _ n rest hcom (fits_tidy hsort isProto2 around e h) hlen)
    (leaf_inline hl)
  rw [leaf_shown hsort hl ho]
  rw [withComments_self] at this
  exact this

/-! ## Declarations with a body -/

theorem row_flush {text : Str} {ts : List Token} (h : Gives true text ts) : Rows true [flush text] [ts] :=
  .cons (by simpa using h.closed stops_newline closed_newline : Closed true (text ++ ['\n']) ts) .nil

theorem row_blank : Rows true [blank] [[]] := row_flush closed_nil.gives

theorem row_noted {last : Str} {ts : List Token} (h : Gives true last ts) {i : Option Comment} (hi : CommentFits i)
    (hs : ShortComment i) : Rows true (noted last i) [ts ++ noteToks true i] := by
  obtain ⟨x, hx⟩ := noted_short (last := last) hs
  obtain ⟨R, hR, hf⟩ := lines_noted (keep := true) h hi
  rw [hx] at hR ⊢
  obtain ⟨r, rfl, hr⟩ := hR.single
  rw [← hf]
  simpa using hR

theorem rows_body {around : Around} {c i : Option Comment} (hc : CommentFits c) (hi : CommentFits i)
    (hs : ShortComment i) {head : Str} {w : Str} {h : List Token} (hg : Gives true head (.word w :: h))
    (hh : ∀ t ∈ h, t ≠ .sym '{' ∧ t ≠ .sym ';') (hopen : ∀ rest, mayOpen around (.word w :: h ++ rest) = true)
    {e : Element} (hread : readElement around (h.length + 4) (.word w :: h ++ [.sym '{', .sym '}']) = some (e, []))
    {items : List Item} {R : List (List Token)} {es : List Element} (hR : Rows true items R)
    (hrows : Reads (insideOf e) R es) (hold : mayHold e es = true)
    (he : commentStrings i = [] ∨ takesInline (withBody es e) = true) :
    ∃ rows, Rows true (note c ++ (flush (head ++ s%" {") :: nest items ++ noted s%"}" i)) rows ∧
      Reads around rows [withComments (plainComment c) (plainComment i) (withBody es e)] := by
  refine ⟨_, ?_, reads_block hs hh hopen hread hrows hold he⟩
  refine (rows_note hc).append ?_
  have h1 := row_flush (hg.ends (ends_of_run (keep := true) (c := ' ') (b := s%"{") (ts := [.sym '{']) (by decide) rfl))
  have h2 := row_noted (closed_of_run (keep := true) (a := s%"}") (ts := [.sym '}']) rfl).gives hi hs
  exact (h1.append hR.nest).append h2

theorem rows_declaration {around : Around} {c : Option Comment} (hc : CommentFits c) {head : Str} {w : Str}
    {h : List Token} (hg : Gives true head (.word w :: h))
    (hh : ∀ t ∈ h, t ≠ .sym '{' ∧ t ≠ .sym ';') (hopen : ∀ rest, mayOpen around (.word w :: h ++ rest) = true)
    {e : Element} (hread : readElement around (h.length + 4) (.word w :: h ++ [.sym '{', .sym '}']) = some (e, []))
    {es : List Element} {items : List Item} {es' : List Element}
    (hb : problemsOf items = [] → ∃ R, Rows true items R ∧ Reads (insideOf e) R es') (hb0 : es = [] → es' = [])
    (hold : ∀ es, mayHold e es = true) {gap emptyGap : List Item} (hgap : gap = [] ∨ gap = [blank])
    (hgap0 : emptyGap = [] ∨ emptyGap = [blank])
    (hn : problemsOf (blockItems c head (if es.length = 0 then none else some items) gap emptyGap) = []) :
    ∃ rows, Rows true (blockItems c head (if es.length = 0 then none else some items) gap emptyGap) rows ∧
      Reads around rows [withComments (plainComment c) none (withBody es' e)] := by
  have hp := problems_block hn
  have add : ∀ {gap items : List Item} {fs : List Element}, gap = [] ∨ gap = [blank] →
      (∃ rows, Rows true items rows ∧ Reads around rows fs) →
      ∃ rows, Rows true (items ++ gap) rows ∧ Reads around rows fs := by
    rintro gap items fs (rfl | rfl) ⟨rows, h1, h2⟩
    · exact ⟨rows, by simpa using h1, h2⟩
    · exact ⟨rows ++ [[]], h1.append row_blank, by simpa using h2.append (reads_blank around)⟩
  cases es with
  | nil =>
    rw [if_pos List.length_nil]
    unfold blockItems
    dsimp only
    have h1 := row_flush (hg.ends (ends_of_run (keep := true) (c := ' ') (b := s%"{}") (ts := [.sym '{', .sym '}'])
      (by decide) rfl))
    have := add hgap0 ⟨_, (rows_note hc).append h1, reads_empty hh hopen hread (hold _)⟩
    rw [hb0 rfl]
    simpa using this
  | cons e es =>
    rw [if_neg (show ¬ (e :: es).length = 0 by simp)]
    unfold blockItems
    dsimp only
    obtain ⟨R, hR, hrows⟩ := hb (hp (by simp))
    have := add hgap (rows_body (i := none) hc (fun _ h => (List.not_mem_nil h).elim) (Nat.zero_le _) hg hh hopen hread
      hR hrows (hold _) (.inl rfl))
    rw [show plainComment none = none from rfl] at this
    simpa [noted] using this

theorem shownAll_cons (e : Element) (es : List Element) : shownAll (e :: es) = shownAll [e] ++ shownAll es := by
  simp [shownAll]

theorem shownAll_append (a b : List Element) : shownAll (a ++ b) = shownAll a ++ shownAll b := by
  induction a with
  | nil => simp [shownAll]
  | cons e a ih => rw [List.cons_append, shownAll_cons, ih, shownAll_cons e a, List.append_assoc]

/-! ## RPCs with options -/

theorem gives_rpc {r : RPC} (h1 : IsWord r.name) (h2 : IsWord r.requestType) (h3 : IsWord r.returnsType) :
    Gives true ((s%"rpc " ++ r.name ++ s%"(" ++ (if r.streamsRequest then s%"stream " else []) ++
      r.requestType ++ s%") returns (" ++ (if r.streamsReturns then s%"stream " else []) ++ r.returnsType) ++ s%")")
      (.word s%"rpc" :: (.word r.name :: (streamToks r.streamsRequest r.requestType ++
        .word s%"returns" :: streamToks r.streamsReturns r.returnsType))) := by
  have a := (closed_of_run (keep := true) (a := s%"rpc ") (ts := [.word s%"rpc"]) rfl).before (gives_word h1)
  have b := a.word (c := '(') (b := []) (t := [.sym '(']) (by decide) rfl (gives_stream (keep := true) r.streamsRequest h2)
  have c := b.word (c := ')') (b := s%" returns (") (t := [.sym ')', .word s%"returns", .sym '('])
    (by decide) rfl (gives_stream (keep := true) r.streamsReturns h3)
  have d := c.ends (ends_of_run (keep := true) (c := ')') (b := []) (ts := [.sym ')']) (by decide) rfl)
  simpa [streamToks] using d

theorem read_openRPC (r : RPC) (n : Nat) :
    readElement .service (n + 2) (.word s%"rpc" :: (.word r.name :: (streamToks r.streamsRequest r.requestType ++
        .word s%"returns" :: streamToks r.streamsReturns r.returnsType)) ++ [.sym '{', .sym '}']) =
      some (.rpc (bareRPC r) [], []) := by
  rw [List.cons_append, read_rpc]
  unfold readRPC
  simp only [List.cons_append, List.append_assoc, ident, Option.bind_some, readStreamed_toks, keyword, if_pos,
    symbol]
  simp [readOptions, symbol, bareRPC]

/-- The options in the body of an RPC. -/
theorem rows_options {isProto2 : Bool} : ∀ {os : List Opt}, (∀ o ∈ os, OptionFits o) →
    (∀ o ∈ os, ShortComment o.inlineComment) → problemsOf (os.flatMap optionStatement) = [] →
    ∃ rows, Rows true (os.flatMap optionStatement) rows ∧ Reads .service rows (shownAll (os.map .option))
  | [], _, _, _ => ⟨[], .nil, by simpa [shownAll] using reads_nil .service⟩
  | o :: os, h, hs, hn => by
    rw [List.flatMap_cons] at hn ⊢
    obtain ⟨n1, n2⟩ := problems_append hn
    obtain ⟨r1, a1, b1⟩ := rows_statement (sort := id) (fun _ => .refl _) isProto2 .service (e := .option o) rfl
      (.inr (by decide)) (by unfold ElementFits; exact h o (List.mem_cons_self ..)) (by unfold CommentsOutside; trivial)
      (by unfold ShortIn; exact hs o (List.mem_cons_self ..)) (by unfold elementItems innerOptionItems; exact n1)
    obtain ⟨r2, a2, b2⟩ := rows_options (isProto2 := isProto2) (fun o ho => h o (List.mem_cons_of_mem _ ho))
      (fun o ho => hs o (List.mem_cons_of_mem _ ho)) n2
    rw [List.map_cons, shownAll_cons]
    unfold elementItems innerOptionItems at a1
    unfold tidy at b1
    exact ⟨r1 ++ r2, a1.append a2, b1.append b2⟩

/-! ## All declarations -/

theorem shortAll_iff {es : List Element} : ShortAll es ↔ ∀ e ∈ es, ShortIn e := by
  induction es with
  | nil => exact ⟨fun _ _ h => (List.not_mem_nil h).elim, fun _ => by unfold ShortAll; trivial⟩
  | cons e es ih => unfold ShortAll; rw [ih, List.forall_mem_cons]

theorem short_option {es : List Element} (h : ShortAll es) {o : Opt} (ho : .option o ∈ es) :
    ShortComment o.inlineComment := by
  have := shortAll_iff.1 h _ ho
  unfold ShortIn at this
  exact this

theorem reads_head {isProto2 : Bool} {around : Around} {e : Element} {w : Str} {h : List Token}
    (hc : isComment e = false) (hf : ElementFits isProto2 around e)
    (ht : elementToks false isProto2 e = .word w :: h ++ [.sym '{', .sym '}']) (hb : bare e = e) :
    readElement around (h.length + 4) (.word w :: h ++ [.sym '{', .sym '}']) = some (e, []) := by
  have := readElement_toks isProto2 around e (h.length + 4) [] hc hf (by
    rw [ht]; simp)
  rw [ht, List.append_nil, hb] at this
  exact this

theorem opens_message {around : Around} (ha : around = .none ∨ holdsMessages around = true) {w : Str}
    (hw : w = s%"message" ∨ w = s%"extend" ∨ w = s%"enum") (v : Str) (ts : List Token) :
    mayOpen around (.word w :: .word v :: ts) = true := by
  unfold mayOpen
  rcases ha with rfl | ha <;> rcases hw with rfl | rfl | rfl <;> simp_all

mutual

theorem rows_element {sort : List Opt → List Opt} (hsort : ∀ l, (sort l).Perm l) (isProto2 : Bool)
    (around : Around) : ∀ (e : Element), staysPut e = true ∨ around ≠ .none → ElementFits isProto2 around e →
    CommentsOutside e → ShortIn e → problemsOf (elementItems sort isProto2 around e) = [] →
    ∃ rows, Rows true (elementItems sort isProto2 around e) rows ∧ Reads around rows (shownAll [tidy sort e])
  | .comment c, _, h, _, _, _ => by
    unfold ElementFits at h
    unfold elementItems tidy
    exact ⟨_, (rows_note h).append row_blank, reads_comment c⟩
  | .syntax s, hs, h, _, _, _ => by
    unfold ElementFits at h
    exact (hs.elim (fun e => nomatch e) fun e => e h.1).elim
  | .package s, hs, h, _, _, _ => by
    unfold ElementFits at h
    exact (hs.elim (fun e => nomatch e) fun e => e h.1).elim
  | .import s, hs, h, _, _, _ => by
    unfold ElementFits at h
    exact (hs.elim (fun e => nomatch e) fun e => e h.1).elim
  | .option o, hs, h, ho, hsh, hn => rows_statement hsort isProto2 around rfl hs h ho hsh hn
  | .enumField f es, hs, h, ho, hsh, hn => rows_statement hsort isProto2 around rfl hs h ho hsh hn
  | .normalField f, hs, h, ho, hsh, hn => rows_statement hsort isProto2 around rfl hs h ho hsh hn
  | .mapField f, hs, h, ho, hsh, hn => rows_statement hsort isProto2 around rfl hs h ho hsh hn
  | .oneofField f, hs, h, ho, hsh, hn => rows_statement hsort isProto2 around rfl hs h ho hsh hn
  | .reserved r, hs, h, ho, hsh, hn => rows_statement hsort isProto2 around rfl hs h ho hsh hn
  | .extensions r, hs, h, ho, hsh, hn => rows_statement hsort isProto2 around rfl hs h ho hsh hn
  | .message m es, _, h, ho, hsh, hn => by
    unfold ElementFits at h
    obtain ⟨ha, hc, hw, hes⟩ := h
    unfold CommentsOutside at ho
    unfold ShortIn at hsh
    unfold elementItems at hn ⊢
    have hg : Gives true ((if m.isExtend then s%"extend " else s%"message ") ++ m.name)
        [.word (if m.isExtend then s%"extend" else s%"message"), .word m.name] := by
      split
      · exact (closed_of_run (keep := true) (a := s%"extend ") (ts := [.word s%"extend"]) rfl).before (gives_word hw)
      · exact (closed_of_run (keep := true) (a := s%"message ") (ts := [.word s%"message"]) rfl).before (gives_word hw)
    have := rows_declaration (around := around) (es' := shownAll (tidyAll sort es)) hc hg (by simp)
      (fun rest => opens_message ha (by split <;> simp) _ _)
      (reads_head (isProto2 := isProto2) (e := .message { name := m.name, isExtend := m.isExtend } []) rfl
        (by unfold ElementFits; exact ⟨ha, fun _ h => (List.not_mem_nil h).elim, hw, by unfold ElementsFit; trivial⟩)
        (by simp [elementToks, elementsToks, wrap_false]) (by simp [bare, bareAll]))
      (rows_elements hsort isProto2 .message es (by decide) hes ho hsh)
      (fun e => by rw [e, tidyAll_nil]; simp [shownAll]) (fun _ => rfl) (by split <;> simp) (.inr rfl) hn
    simpa [tidy, shownAll, shownAll.silent, shown, withComments, withBody] using this
  | .enum m es, _, h, ho, hsh, hn => by
    unfold ElementFits at h
    obtain ⟨ha, hc, hw, hes⟩ := h
    unfold CommentsOutside at ho
    unfold ShortIn at hsh
    unfold elementItems at hn ⊢
    have := rows_declaration (around := around) (es' := shownAll (tidyAll sort es)) hc
      ((closed_of_run (keep := true) (a := s%"enum ") (ts := [.word s%"enum"]) rfl).before (gives_word hw)) (by simp)
      (fun rest => opens_message ha (by simp) _ _)
      (reads_head (isProto2 := isProto2) (e := .enum { name := m.name } []) rfl
        (by unfold ElementFits; exact ⟨ha, fun _ h => (List.not_mem_nil h).elim, hw, by unfold ElementsFit; trivial⟩)
        (by simp [elementToks, elementsToks, wrap_false]) (by simp [bare, bareAll]))
      (rows_elements hsort isProto2 .enum es (by decide) hes ho hsh)
      (fun e => by rw [e, tidyAll_nil]; simp [shownAll]) (fun _ => rfl) (by split <;> simp) (.inr rfl) hn
    simpa [tidy, shownAll, shownAll.silent, shown, withComments, withBody] using this
  | .service m es, _, h, ho, hsh, hn => by
    unfold ElementFits at h
    obtain ⟨ha, hc, hw, hes⟩ := h
    unfold CommentsOutside at ho
    unfold ShortIn at hsh
    unfold elementItems at hn ⊢
    have := rows_declaration (around := around) (es' := shownAll (tidyAll sort es)) hc
      ((closed_of_run (keep := true) (a := s%"service ") (ts := [.word s%"service"]) rfl).before (gives_word hw)) (by simp)
      (fun rest => by rw [ha]; simp [mayOpen])
      (reads_head (isProto2 := isProto2) (e := .service { name := m.name } []) rfl
        (by unfold ElementFits; exact ⟨ha, fun _ h => (List.not_mem_nil h).elim, hw, by unfold ElementsFit; trivial⟩)
        (by simp [elementToks, elementsToks, wrap_false]) (by simp [bare, bareAll]))
      (rows_elements hsort isProto2 .service es (by decide) hes ho hsh)
      (fun e => by rw [e, tidyAll_nil]; simp [shownAll]) (fun _ => rfl) (.inr rfl) (.inr rfl) hn
    simpa [tidy, shownAll, shownAll.silent, shown, withComments, withBody] using this
  | .oneof m es, _, h, ho, hsh, hn => by
    unfold ElementFits at h
    obtain ⟨ha, hc, hw, hes⟩ := h
    unfold CommentsOutside at ho
    unfold ShortIn at hsh
    unfold elementItems at hn ⊢
    have := rows_declaration (around := around) (es' := shownAll (tidyAll sort es)) hc
      ((closed_of_run (keep := true) (a := s%"oneof ") (ts := [.word s%"oneof"]) rfl).before (gives_word hw)) (by simp)
      (fun rest => by simp [mayOpen, ha])
      (reads_head (isProto2 := isProto2) (e := .oneof { name := m.name } []) rfl
        (by unfold ElementFits; exact ⟨ha, fun _ h => (List.not_mem_nil h).elim, hw, by unfold ElementsFit; trivial⟩)
        (by simp [elementToks, elementsToks, wrap_false]) (by simp [bare, bareAll]))
      (rows_elements hsort isProto2 .oneof es (by decide) hes ho hsh)
      (fun e => by rw [e, tidyAll_nil]; simp [shownAll]) (fun _ => rfl) (.inl rfl) (.inl rfl) hn
    simpa [tidy, shownAll, shownAll.silent, shown, withComments, withBody] using this
  | .group g es, _, h, ho, hsh, hn => by
    unfold ElementFits at h
    obtain ⟨ha, hc, hw, hes⟩ := h
    unfold CommentsOutside at ho
    unfold ShortIn at hsh
    unfold elementItems at hn ⊢
    have h1 := (closed_of_run (keep := true) (a := s%"group ") (ts := [.word s%"group"]) rfl).before (gives_word hw)
    have h2 := h1.word (c := ' ') (b := s%"= ") (t := [.sym '=']) (by decide) rfl
      (gives_word (isWord_itoa g.sequence))
    cases hopt : g.optional with
    | false =>
      have := rows_declaration (around := around) (es' := shownAll (tidyAll sort es)) hc
        (w := s%"group") (h := [.word g.name, .sym '=', .word (itoa g.sequence)]) (by simpa [hopt] using h2) (by simp)
        (fun rest => by rcases ha with ⟨ha, _⟩ | ha <;> simp [mayOpen, ha])
        (reads_head (isProto2 := isProto2) (e := .group { name := g.name, sequence := g.sequence, optional := false } []) rfl
          (by unfold ElementFits; exact ⟨ha.imp (fun h => ⟨h.1, rfl⟩) id, fun _ h => (List.not_mem_nil h).elim, hw, by unfold ElementsFit; trivial⟩)
          (by simp [elementToks, elementsToks, wrap_false]) (by simp [bare, bareAll]))
        (rows_elements hsort isProto2 .group es (by decide) hes ho hsh)
        (fun e => by rw [e, tidyAll_nil]; simp [shownAll]) (fun _ => rfl) (.inl rfl) (.inl rfl) hn
      simpa [tidy, shownAll, shownAll.silent, shown, withComments, withBody, hopt] using this
    | true =>
      have ha : holdsMessages around = true := ha.elim (fun h => by rw [hopt] at h; exact nomatch h.2) id
      have := rows_declaration (around := around) (es' := shownAll (tidyAll sort es)) hc
        (w := s%"optional") (h := [.word s%"group", .word g.name, .sym '=', .word (itoa g.sequence)])
        (by
          have := (closed_of_run (keep := true) (a := s%"optional ") (ts := [.word s%"optional"]) rfl).before h2
          simpa [hopt] using this) (by simp)
        (fun rest => by simp [mayOpen, ha])
        (reads_head (isProto2 := isProto2) (e := .group { name := g.name, sequence := g.sequence, optional := true } []) rfl
          (by unfold ElementFits; exact ⟨.inr ha, fun _ h => (List.not_mem_nil h).elim, hw, by unfold ElementsFit; trivial⟩)
          (by simp [elementToks, elementsToks, wrap_false]) (by simp [bare, bareAll]))
        (rows_elements hsort isProto2 .group es (by decide) hes ho hsh)
        (fun e => by rw [e, tidyAll_nil]; simp [shownAll]) (fun _ => rfl) (.inl rfl) (.inl rfl) hn
      simpa [tidy, shownAll, shownAll.silent, shown, withComments, withBody, hopt] using this
  | .rpc r es, hs, h, ho, hsh, hn => by
    by_cases he : optionsAmong es = []
    · exact rows_statement hsort isProto2 around (by simp [isLeaf, he]) hs h ho hsh hn
    unfold ElementFits at h
    obtain ⟨rfl, hc, hi, h1, h2, h3, hes⟩ := h
    unfold ShortIn at hsh
    unfold elementItems rpcItems at hn ⊢
    dsimp only at hn ⊢
    rw [if_neg he] at hn ⊢
    have hp := problems_nest (problems_append (problems_cons (problems_append hn).2)).1
    obtain ⟨R, hR, hrows⟩ := rows_options (isProto2 := isProto2) (os := sort (optionsAmong es))
      (fun o hm => optionsAmong_fit hes o ((hsort _).mem_iff.1 hm))
      (fun o hm => short_option hsh.2 (mem_options ((hsort _).mem_iff.1 hm))) hp
    have := rows_body (around := .service) hc hi hsh.1 (gives_rpc h1 h2 h3)
      (by unfold streamToks; cases r.streamsRequest <;> cases r.streamsReturns <;> simp)
      (fun rest => by simp [mayOpen]) (read_openRPC r _) hR hrows
      (by rw [shownAll_options]; simp [mayHold]) (.inr rfl)
    simpa [tidy, shownAll, shownAll.silent, shown, withComments, withBody, bareRPC] using this

theorem rows_elements {sort : List Opt → List Opt} (hsort : ∀ l, (sort l).Perm l) (isProto2 : Bool)
    (around : Around) : ∀ (es : List Element), around ≠ .none → ElementsFit isProto2 around es →
    AllOutside es → ShortAll es → problemsOf (elementsItems sort isProto2 around es) = [] →
    ∃ rows, Rows true (elementsItems sort isProto2 around es) rows ∧
      Reads around rows (shownAll (tidyAll sort es))
  | [], _, _, _, _, _ => by
    unfold elementsItems tidyAll shownAll
    exact ⟨[], .nil, reads_nil around⟩
  | e :: es, ha, h, ho, hs, hn => by
    unfold ElementsFit at h
    unfold elementsItems at hn ⊢
    unfold tidyAll
    unfold AllOutside at ho
    unfold ShortAll at hs
    obtain ⟨h1, h2⟩ := problems_append hn
    obtain ⟨r1, a1, b1⟩ := rows_element hsort isProto2 around e (.inr ha) h.1 ho.1 hs.1 h1
    obtain ⟨r2, a2, b2⟩ := rows_elements hsort isProto2 around es ha h.2 ho.2 hs.2 h2
    rw [shownAll_cons]
    exact ⟨r1 ++ r2, a1.append a2, b1.append b2⟩

end

end Verif.Format
