import Verif.Proof.Lexer
import Verif.Proof.Split

/-! # The tokens of the printed declarations -/

namespace Verif.Format

open Verif Str Proto Spec

/-! ## Text -/

theorem lexStep_acc (acc ts : List Token) (m : Mode) (c : Char) :
    lexStep keep ⟨acc ++ ts, m⟩ c = (lexStep keep ⟨ts, m⟩ c).map fun l => ⟨acc ++ l.tokens, l.mode⟩ := by
  have hf : ∀ us, fresh (acc ++ us) c = ⟨acc ++ (fresh us c).tokens, (fresh us c).mode⟩ := by
    intro us
    unfold fresh
    (repeat' split) <;> simp
  cases m <;> unfold lexStep <;> dsimp only
  · rw [hf]; rfl
  · split
    · rfl
    · rw [List.append_assoc, hf]; rfl
  · (repeat' split) <;> simp
  · split <;> rfl
  · (repeat' split)
    · rfl
    · rfl
    · rw [List.append_assoc, hf]; rfl
  all_goals ((repeat' split) <;> simp)

theorem lexFrom_acc (acc ts : List Token) (m : Mode) (a : Str) :
    lexFrom keep ⟨acc ++ ts, m⟩ a = (lexFrom keep ⟨ts, m⟩ a).map fun l => ⟨acc ++ l.tokens, l.mode⟩ := by
  induction a generalizing ts m with
  | nil => rfl
  | cons c a ih =>
    unfold lexFrom
    rw [lexStep_acc]
    cases lexStep keep ⟨ts, m⟩ c with
    | none => rfl
    | some l => exact ih l.tokens l.mode

theorem closed_of_run {a : Str} {ts : List Token}
    (h : lexFrom keep ⟨[], .between⟩ a = some ⟨ts, .between⟩) : Closed keep a ts := by
  intro acc b
  have := lexFrom_acc (keep := keep) acc [] .between a
  rw [List.append_nil, h] at this
  rw [lexFrom_append, this]
  rfl

/-- What may follow a word: nothing, or something that is no word. -/
def Ends (keep : Bool) (b : Str) (ts : List Token) : Prop := (b = [] ∧ ts = []) ∨ (Stops b ∧ Closed keep b ts)

theorem ends_nil : Ends keep [] [] := .inl ⟨rfl, rfl⟩

theorem ends_of_run {c : Char} {b : Str} {ts : List Token} (hc : isWordChar c = false)
    (h : lexFrom keep ⟨[], .between⟩ (c :: b) = some ⟨ts, .between⟩) : Ends keep (c :: b) ts :=
  .inr ⟨⟨c, b, rfl, hc⟩, closed_of_run h⟩

theorem Gives.ends {a b : Str} {s t : List Token} (h : Gives keep a s) (k : Ends keep b t) : Gives keep (a ++ b) (s ++ t) := by
  rcases k with ⟨rfl, rfl⟩ | ⟨hb, k⟩
  · simpa using h
  · exact (h.closed hb k).gives

theorem Ends.append {a b : Str} {s t : List Token} (h : Ends keep a s) (k : Ends keep b t) : Ends keep (a ++ b) (s ++ t) := by
  rcases h with ⟨rfl, rfl⟩ | ⟨ha, h⟩
  · simpa using k
  · refine .inr ⟨ha.append b, ?_⟩
    rcases k with ⟨rfl, rfl⟩ | ⟨_, k⟩
    · simpa using h
    · exact h.append k

/-- A word or a name between spaces or signs. -/
theorem Gives.word {a : Str} {s : List Token} (h : Gives keep a s) {c : Char} {b : Str} {t : List Token} {w : Str}
    {u : List Token} (hc : isWordChar c = false)
    (hb : lexFrom keep ⟨[], .between⟩ (c :: b) = some ⟨t, .between⟩) (hw : Gives keep w u) :
    Gives keep (a ++ (c :: b) ++ w) (s ++ t ++ u) :=
  (h.closed ⟨c, b, rfl, hc⟩ (closed_of_run hb)).before hw

/-! ## Numbers -/

theorem digit_word {c : Char} (h : isDigit c = true) : isWordChar c = true := by
  unfold isWordChar Char.isAlphanum
  have : c.isDigit = true := by
    unfold isDigit at h
    simp only [Bool.and_eq_true, decide_eq_true_eq] at h
    unfold Char.isDigit
    simp only [Bool.and_eq_true, decide_eq_true_eq, UInt32.le_iff_toNat_le]
    exact h
  simp [this]

theorem isWord_itoa (n : Int) : IsWord (itoa n) := by
  unfold itoa
  split
  · refine ⟨by simp, fun c hc => ?_⟩
    rcases List.mem_cons.1 hc with rfl | hc
    · decide
    · exact digit_word (natStr_digits _ _ hc)
  · exact ⟨natStr_ne_nil _, fun c hc => digit_word (natStr_digits _ _ hc)⟩

theorem readInt_itoa (n : Int) : readInt (itoa n) = some n := by
  have hall : ∀ k, natStr k ≠ [] ∧ (natStr k).all isDigit = true := fun k =>
    ⟨natStr_ne_nil k, List.all_eq_true.2 (natStr_digits k)⟩
  unfold itoa
  split
  · rename_i h
    show (if natStr n.natAbs ≠ [] ∧ (natStr n.natAbs).all isDigit then
      some (-(decValue (natStr n.natAbs) : Int)) else none) = _
    rw [if_pos (hall _), decValue_natStr]
    congr 1
    omega
  · rename_i h
    have hne : ∀ s, natStr n.natAbs ≠ '-' :: s := by
      intro s e
      have := natStr_digits n.natAbs '-' (e ▸ List.mem_cons_self ..)
      exact absurd this (by decide)
    unfold readInt
    split
    · rename_i e; exact absurd e (hne _)
    · rw [if_pos (hall _), decValue_natStr]
      congr 1
      omega

/-! ## Values -/

mutual

/-- The tokens of a value. -/
def valueToks : Literal → List Token
  | .mk source isString quote array map =>
    match array, map with
    | [], [] => if isString then [.str quote source] else [.word source]
    | a :: as, _ => .sym '[' :: listToks (a :: as) ++ [.sym ']']
    | [], m :: ms => .sym '{' :: entriesToks (m :: ms) ++ [.sym '}']

def listToks : List Literal → List Token
  | [] => []
  | l :: ls => valueToks l ++ (if ls = [] then [] else [.sym ',']) ++ listToks ls

def entriesToks : List (Str × Literal) → List Token
  | [] => []
  | l :: ls => entryToks l ++ entriesToks ls

def entryToks : Str × Literal → List Token
  | (name, l) => nameTokens none name ++ [.sym ':'] ++ valueToks l

end

/-- The tokens of the key in front of a value. -/
def keyToks (name : Str) : List Token := if name = [] then [] else nameTokens none name ++ [.sym ':']

/-- A value on the line. -/
theorem gives_scalar {source : Str} {isString : Bool} {quote : Char}
    (h : ValueFits (.mk source isString quote [] [])) :
    Gives keep (Literal.mk source isString quote [] []).sourceRepresentation
        (valueToks (.mk source isString quote [] [])) ∧
      (Literal.mk source isString quote [] []).sourceRepresentation ≠ [] := by
  unfold ValueFits at h
  unfold valueToks Literal.sourceRepresentation
  dsimp only at h ⊢
  by_cases hs : isString = true
  · rw [if_pos hs] at h
    rw [if_pos hs, if_pos hs]
    exact ⟨(closed_str h.1 h.2).gives, by simp⟩
  · rw [if_neg hs] at h
    rw [if_neg hs, if_neg hs]
    exact ⟨gives_word h, h.1⟩

theorem closed_key {name : Str} (h : name = [] ∨ IsName name) :
    Closed keep (if name = [] then [] else name ++ s%": ") (keyToks name) := by
  unfold keyToks
  rcases h with rfl | h
  · exact closed_nil
  · rw [if_neg h.1, if_neg h.1]
    exact (gives_name h).closed ⟨':', _, rfl, by decide⟩ (closed_of_run (keep := keep) rfl)

mutual

theorem lines_value : ∀ (l : Literal) (name suffix : Str) (sts : List Token), ValueFits l →
    (name = [] ∨ IsName name) → Ends keep suffix sts →
    Lines keep (valueItems name suffix l) (keyToks name ++ valueToks l ++ sts)
  | .mk source isString quote [] [] => by
    intro name suffix sts h hn hs
    unfold valueItems
    dsimp only
    obtain ⟨h1, h2⟩ := gives_scalar (keep := keep) h
    rw [if_neg h2]
    exact lines_flush (keep := keep) (((closed_key (keep := keep) hn).before h1).ends hs)
  | .mk source isString quote (a :: as) map => by
    intro name suffix sts h hn hs
    have hl : ListFits (a :: as) := by unfold ValueFits at h; exact h
    unfold valueItems valueToks
    dsimp only
    have h1 := lines_flush (keep := keep) ((closed_key (keep := keep) hn).append (closed_of_run (keep := keep) (a := s%"[") (ts := [.sym '[']) rfl)).gives
    have h2 := (lines_list (keep := keep) (a :: as) hl).nest
    have h3 := lines_flush (keep := keep) ((closed_of_run (keep := keep) (a := s%"]") (ts := [.sym ']']) rfl).gives.ends hs)
    have := (h1.append h2).append h3
    simpa using this
  | .mk source isString quote [] (m :: ms) => by
    intro name suffix sts h hn hs
    have hl : EntriesFit (m :: ms) := by unfold ValueFits at h; exact h
    unfold valueItems valueToks
    dsimp only
    have h1 := lines_flush (keep := keep) ((closed_key (keep := keep) hn).append (closed_of_run (keep := keep) (a := s%"{") (ts := [.sym '{']) rfl)).gives
    have h2 := (lines_entries (keep := keep) (m :: ms) hl).nest
    have h3 := lines_flush (keep := keep) ((closed_of_run (keep := keep) (a := s%"}") (ts := [.sym '}']) rfl).gives.ends hs)
    have := (h1.append h2).append h3
    simpa using this

theorem lines_list : ∀ (ls : List Literal), ListFits ls → Lines keep (arrayItems ls) (listToks ls)
  | [], _ => by unfold arrayItems listToks; exact lines_nil
  | l :: ls, h => by
    have hl : ValueFits l ∧ ListFits ls := by unfold ListFits at h; exact h
    unfold arrayItems listToks
    refine Lines.append ?_ (lines_list ls hl.2)
    have := lines_value (keep := keep) l [] (if ls = [] then [] else s%",") (if ls = [] then [] else [.sym ',']) hl.1
      (.inl rfl) (by
        split
        · exact ends_nil
        · exact ends_of_run (keep := keep) (by decide) rfl)
    exact this

theorem lines_entries : ∀ (ls : List (Str × Literal)), EntriesFit ls → Lines keep (mapItems ls) (entriesToks ls)
  | [], _ => by unfold mapItems entriesToks; exact lines_nil
  | l :: ls, h => by
    have hl : EntryFits l ∧ EntriesFit ls := by unfold EntriesFit at h; exact h
    unfold mapItems entriesToks
    exact Lines.append (lines_entry l hl.1) (lines_entries ls hl.2)

theorem lines_entry : ∀ (l : Str × Literal), EntryFits l → Lines keep (entryItems l) (entryToks l)
  | (name, l), h => by
    have hl : IsName name ∧ ValueFits l := by unfold EntryFits at h; exact h
    unfold entryItems entryToks
    have := lines_value (keep := keep) l name [] [] hl.2 (.inr hl.1) ends_nil
    unfold keyToks at this
    rw [if_neg hl.1.1, List.append_nil] at this
    exact this

end

/-! ## Options -/

/-- The tokens of an option. -/
def optToks (o : Opt) : List Token := nameTokens none o.name ++ [.sym '='] ++ valueToks o.constant

/-- The tokens of an option statement. -/
def optionToks (keep : Bool) (o : Opt) : List Token :=
  wrap keep o.comment (.word s%"option" :: optToks o ++ [.sym ';']) o.inlineComment

theorem literal_scalar {l : Literal} (h : IsScalar l) : ∃ s b q, l = .mk s b q [] [] := by
  obtain ⟨s, b, q, a, m⟩ := l
  obtain ⟨h1, h2⟩ := h
  dsimp only [Literal.array, Literal.orderedMap] at h1 h2
  subst h1 h2
  exact ⟨s, b, q, rfl⟩

/-- `name = value` for a value on the line. -/
theorem gives_opt {o : Opt} (h : OptionFits o) (hs : IsScalar o.constant) :
    Gives keep (o.name ++ s%" = " ++ o.constant.sourceRepresentation) (optToks o) ∧
      o.constant.sourceRepresentation ≠ [] := by
  obtain ⟨s, b, q, e⟩ := literal_scalar hs
  have hv := h.value
  rw [e] at hv
  obtain ⟨h1, h2⟩ := gives_scalar (keep := keep) hv
  unfold optToks
  rw [e]
  exact ⟨(gives_name h.name).word (t := [.sym '=']) (by decide) rfl h1, h2⟩

theorem lines_opt {pre suffix : Str} {pts sts : List Token} (hp : Closed keep pre pts) (hs : Ends keep suffix sts)
    {o : Opt} (h : OptionFits o) (hn : problemsOf (optionItems pre suffix o) = []) :
    Lines keep (optionItems pre suffix o) (wrap keep o.comment (pts ++ optToks o ++ sts) o.inlineComment) := by
  unfold optionItems at hn ⊢
  rw [wrap_eq]
  refine (lines_note h.comment).append ?_
  by_cases hsc : IsScalar o.constant
  · obtain ⟨h1, h2⟩ := gives_opt (keep := keep) h hsc
    rw [if_pos hsc, if_neg h2]
    refine lines_noted ?_ h.inlineComment
    have := (hp.before h1).ends hs
    simpa using this
  · rw [if_neg hsc] at hn ⊢
    by_cases ha : o.constant.array = []
    · rw [if_neg (fun h => h ha)] at hn ⊢
      obtain ⟨k, hmap⟩ : ∃ k : Literal, k = o.constant := ⟨_, rfl⟩
      have hv := h.value
      unfold optToks
      rw [← hmap] at ha hsc hv ⊢
      obtain ⟨s, b, q, a, m⟩ := k
      dsimp only [Literal.array] at ha
      subst ha
      cases m with
      | nil => exact (hsc ⟨rfl, rfl⟩).elim
      | cons m ms =>
        have hl : EntriesFit (m :: ms) := by unfold ValueFits at hv; exact hv
        have h1 := lines_flush (keep := keep) (hp.before ((gives_name h.name).closed ⟨' ', _, rfl, by decide⟩
          (closed_of_run (keep := keep) (a := s%" = {") (ts := [.sym '=', .sym '{']) rfl)).gives)
        have h2 := (lines_entries (keep := keep) (m :: ms) hl).nest
        have h3 := lines_noted (keep := keep) ((closed_of_run (keep := keep) (a := s%"}") (ts := [.sym '}']) rfl).gives.ends hs)
          h.inlineComment
        have := (h1.append h2).append h3
        unfold valueToks
        simpa [Literal.orderedMap] using this
    · rw [if_pos ha, problemsOf_append] at hn
      exact absurd (List.append_eq_nil_iff.1 hn).2 (by simp [problemsOf])

theorem lines_optionStatement {o : Opt} (h : OptionFits o) (hn : problemsOf (optionStatement o) = []) :
    Lines keep (optionStatement o) (optionToks keep o) :=
  lines_opt (pts := [.word s%"option"]) (closed_of_run (keep := keep) rfl) (ends_of_run (keep := keep) (by decide) rfl) h hn

theorem problems_cons {i : Item} {a : List Item} (h : problemsOf (i :: a) = []) : problemsOf a = [] := by
  rw [show i :: a = [i] ++ a from rfl, problemsOf_append] at h
  exact (List.append_eq_nil_iff.1 h).2

theorem problems_append {a b : List Item} (h : problemsOf (a ++ b) = []) :
    problemsOf a = [] ∧ problemsOf b = [] := by
  rw [problemsOf_append] at h
  exact List.append_eq_nil_iff.1 h

theorem problems_nest {a : List Item} (h : problemsOf (nest a) = []) : problemsOf a = [] := by
  rwa [problemsOf_nest] at h

theorem problems_flatMap {α : Type} {f : α → List Item} {l : List α} (h : problemsOf (l.flatMap f) = []) :
    ∀ a ∈ l, problemsOf (f a) = [] := by
  induction l with
  | nil => exact fun _ h => (List.not_mem_nil h).elim
  | cons b l ih =>
    obtain ⟨h1, h2⟩ := problems_append h
    intro a ha
    rcases List.mem_cons.1 ha with rfl | ha
    · exact h1
    · exact ih h2 a ha

theorem lines_flatMap {α : Type} {f : α → List Item} {g : α → List Token} {l : List α}
    (h : ∀ a ∈ l, Lines keep (f a) (g a)) : Lines keep (l.flatMap f) (l.flatMap g) := by
  induction l with
  | nil => exact lines_nil
  | cons a l ih =>
    exact (h a (List.mem_cons_self ..)).append (ih fun b hb => h b (List.mem_cons_of_mem _ hb))

/-- The tokens of options in brackets. -/
def bracketToks : List Opt → List Token
  | [] => []
  | o :: os => optToks o ++ (if os = [] then [] else [.sym ',']) ++ bracketToks os

theorem lines_bracketed {os : List Opt} (h : ∀ o ∈ os, OptionFits o) (hq : ∀ o ∈ os, Quiet keep o) (hn : problemsOf (bracketed os) = []) :
    Lines keep (bracketed os) (bracketToks os) := by
  induction os with
  | nil => exact lines_nil
  | cons o os ih =>
    unfold bracketed at hn ⊢
    unfold bracketToks
    obtain ⟨h1, h2⟩ := problems_append hn
    refine Lines.append ?_ (ih (fun p hp => h p (List.mem_cons_of_mem _ hp))
      (fun p hp => hq p (List.mem_cons_of_mem _ hp)) h2)
    have := lines_opt (keep := keep) (pts := []) closed_nil
      (sts := if os = [] then [] else [.sym ',']) (by
      split
      · exact ends_nil
      · exact ends_of_run (keep := keep) (by decide) rfl) (h o (List.mem_cons_self ..)) h1
    obtain ⟨q1, q2⟩ := (hq o (List.mem_cons_self ..)).toks
    rw [wrap_eq, q1, q2, List.append_nil] at this
    exact this

/-- The tokens behind the number of a field. -/
def fieldOptionToks (os : List Opt) : List Token :=
  (if os = [] then [] else .sym '[' :: bracketToks os ++ [.sym ']']) ++ [.sym ';']

/-- The tokens behind the name of a field. -/
def fieldEndToks (number : Int) (os : List Opt) : List Token :=
  [.sym '=', .word (itoa number)] ++ fieldOptionToks os

theorem lines_field {sort : List Opt → List Opt} (hsort : ∀ l, (sort l).Perm l) {declaration : Str}
    {d : List Token} (hd : Gives keep declaration d) {comment inline : Option Comment}
    (hc : CommentFits comment) (hi : CommentFits inline) {os : List Opt} (ho : ∀ o ∈ os, OptionFits o)
    (hq : ∀ o ∈ os, Quiet keep o) (hn : problemsOf (fieldItems sort declaration comment inline os) = []) :
    Lines keep (fieldItems sort declaration comment inline os)
      (wrap keep comment (d ++ fieldOptionToks (sort os)) inline) := by
  have hnil : sort os = [] ↔ os = [] :=
    ⟨fun h => by have := hsort os; rw [h] at this; exact this.nil_eq.symm,
      fun h => by have := hsort os; rw [h] at this; rw [h]; exact this.eq_nil⟩
  unfold fieldItems at hn ⊢
  unfold fieldOptionToks
  rw [wrap_eq]
  refine (lines_note hc).append ?_
  by_cases he : os = []
  · rw [if_pos he, if_pos (hnil.2 he)]
    exact lines_noted (keep := keep) (hd.ends (ends_of_run (keep := keep) (by decide) rfl)) hi
  · rw [if_neg he] at hn
    rw [if_neg he, if_neg fun h => he (hnil.1 h)]
    cases hl : onLine os with
    | some o =>
      dsimp only
      have hos : os = [o] ∧ IsScalar o.constant := by
        unfold onLine at hl
        split at hl
        · split at hl
          · cases hl; rename_i h; exact ⟨rfl, h.1⟩
          · cases hl
        · cases hl
      obtain ⟨rfl, hsc⟩ := hos
      have hso : sort [o] = [o] := List.perm_singleton.1 (hsort [o])
      rw [hso]
      refine lines_noted ?_ hi
      have h1 := (gives_opt (keep := keep) (ho o (List.mem_cons_self ..)) hsc).1
      have h2 := (hd.closed ⟨' ', _, rfl, by decide⟩ (closed_of_run (keep := keep) (a := s%" [") (ts := [.sym '[']) rfl)).before h1
      have h3 := h2.ends (ends_of_run (keep := keep) (c := ']') (b := s%";") (ts := [.sym ']', .sym ';']) (by decide) rfl)
      simpa [bracketToks] using h3
    | none =>
      rw [hl] at hn
      dsimp only at hn ⊢
      have h1 := lines_flush (keep := keep) (hd.ends (ends_of_run (keep := keep) (c := ' ') (b := s%"[") (ts := [.sym '[']) (by decide) rfl))
      have h2 := (lines_bracketed (keep := keep) (fun o h => ho o ((hsort os).mem_iff.1 h))
        (fun o h => hq o ((hsort os).mem_iff.1 h))
        (problems_nest (problems_append (problems_cons (problems_append hn).2)).1)).nest
      have h3 := lines_noted (keep := keep) (closed_of_run (keep := keep) (a := s%"];") (ts := [.sym ']', .sym ';']) rfl).gives hi
      have := (h1.append h2).append h3
      simpa using this

/-! ## Ranges and reserved names -/

/-- The tokens of a range. -/
def rangeToks (r : Range) : List Token :=
  .word (itoa r.start) ::
    if r.max then [.word s%"to", .word s%"max"]
    else if r.start ≠ r.stop then [.word s%"to", .word (itoa r.stop)] else []

theorem gives_range (r : Range) : Gives keep r.sourceRepresentation (rangeToks r) := by
  unfold Range.sourceRepresentation rangeToks
  have h1 := gives_word (keep := keep) (isWord_itoa r.start)
  split
  · exact h1.word (c := ' ') (b := s%"to ") (t := [.word s%"to"]) (w := s%"max") (u := [.word s%"max"])
      (by decide) rfl (gives_word ⟨by simp, by decide⟩) |> fun h => by simpa using h
  · split
    · exact h1.word (c := ' ') (b := s%"to ") (t := [.word s%"to"])
        (by decide) rfl (gives_word (isWord_itoa r.stop)) |> fun h => by simpa using h
    · simpa using h1

/-- Tokens separated by commas. -/
def commaToks {α : Type} (f : α → List Token) : List α → List Token
  | [] => []
  | [a] => f a
  | a :: as => f a ++ [.sym ','] ++ commaToks f as

theorem gives_join {α : Type} {f : α → Str} {g : α → List Token} : ∀ {l : List α}, l ≠ [] →
    (∀ a ∈ l, Gives keep (f a) (g a)) → Gives keep (join s%", " (l.map f)) (commaToks g l)
  | [], h, _ => (h rfl).elim
  | [a], _, h => h a (List.mem_cons_self ..)
  | a :: b :: l, _, h => by
    have ih := gives_join (keep := keep) (l := b :: l) (by simp) fun c hc => h c (List.mem_cons_of_mem _ hc)
    exact (h a (List.mem_cons_self ..)).word (c := ',') (b := s%" ") (t := [.sym ',']) (by decide) rfl ih

/-- The tokens of a reserved statement. -/
def reservedToks (keep : Bool) (r : Reserved) : List Token :=
  wrap keep r.comment (.word s%"reserved" ::
    (if r.ranges ≠ [] then commaToks rangeToks r.ranges
     else commaToks (fun n => [.str '"' n]) r.fieldNames) ++ [.sym ';']) r.inlineComment

theorem gives_comma_ranges {rs : List Range} (h : rs ≠ []) :
    Gives keep (join s%", " (rs.map (·.sourceRepresentation))) (commaToks rangeToks rs) :=
  gives_join (keep := keep) h fun r _ => gives_range r

theorem lines_reserved {r : Reserved} (hc : CommentFits r.comment) (hi : CommentFits r.inlineComment)
    (hx : r.ranges = [] ↔ r.fieldNames ≠ []) (hq : ∀ n ∈ r.fieldNames, insideQuotes '"' n = true) :
    Lines keep (reservedItems r) (reservedToks keep r) := by
  unfold reservedItems reservedToks
  rw [if_neg fun h => h.1 (hx.2 h.2)]
  rw [wrap_eq]
  refine (lines_note hc).append ?_
  by_cases hr : r.ranges = []
  · rw [if_neg (fun h => h hr), if_pos (hx.1 hr), if_neg (fun h => h hr)]
    refine lines_noted ?_ hi
    have h1 := gives_join (keep := keep) (f := fun n => s%"\"" ++ n ++ s%"\"") (g := fun n => [Token.str '"' n]) (hx.1 hr)
      fun n hn => (closed_str (.inl rfl) (hq n hn)).gives
    have := ((closed_of_run (keep := keep) (a := s%"reserved ") (ts := [.word s%"reserved"]) rfl).before h1).ends
      (ends_of_run (keep := keep) (c := ';') (b := []) (ts := [.sym ';']) (by decide) rfl)
    simpa using this
  · rw [if_pos hr, if_pos hr]
    refine lines_noted ?_ hi
    have h1 := gives_comma_ranges (keep := keep) hr
    have := ((closed_of_run (keep := keep) (a := s%"reserved ") (ts := [.word s%"reserved"]) rfl).before h1).ends
      (ends_of_run (keep := keep) (c := ';') (b := []) (ts := [.sym ';']) (by decide) rfl)
    simpa using this

/-! ## RPCs -/

/-- The tokens of a type that may be streamed. -/
def streamToks (streams : Bool) (type : Str) : List Token :=
  .sym '(' :: (if streams then [.word s%"stream"] else []) ++ [.word type, .sym ')']

/-- The tokens of an RPC. -/
def rpcToks (keep : Bool) (r : RPC) (os : List Opt) : List Token :=
  wrap keep r.comment ([.word s%"rpc", .word r.name] ++ streamToks r.streamsRequest r.requestType ++
    [.word s%"returns"] ++ streamToks r.streamsReturns r.returnsType ++
    if os = [] then [.sym ';'] else .sym '{' :: os.flatMap (optionToks keep) ++ [.sym '}']) r.inlineComment

theorem gives_stream (streams : Bool) {type : Str} (h : IsWord type) :
    Gives keep ((if streams then s%"stream " else []) ++ type)
      ((if streams then [.word s%"stream"] else []) ++ [.word type]) := by
  cases streams
  · exact gives_word h
  · exact (closed_of_run (keep := keep) (a := s%"stream ") (ts := [.word s%"stream"]) rfl).before (gives_word h)

theorem lines_rpc {sort : List Opt → List Opt} (hsort : ∀ l, (sort l).Perm l) {r : RPC} {es : List Element}
    (hc : CommentFits r.comment) (hi : CommentFits r.inlineComment) (h1 : IsWord r.name)
    (h2 : IsWord r.requestType) (h3 : IsWord r.returnsType) (ho : ∀ o ∈ optionsAmong es, OptionFits o)
    (hn : problemsOf (rpcItems sort r es) = []) :
    Lines keep (rpcItems sort r es) (rpcToks keep r (sort (optionsAmong es))) := by
  have hnil : sort (optionsAmong es) = [] ↔ optionsAmong es = [] :=
    ⟨fun h => by have := hsort (optionsAmong es); rw [h] at this; exact this.nil_eq.symm,
      fun h => by have := hsort (optionsAmong es); rw [h] at this; rw [h]; exact this.eq_nil⟩
  have head : Gives keep (s%"rpc " ++ r.name ++ s%"(" ++ (if r.streamsRequest then s%"stream " else []) ++
      r.requestType ++ s%") returns (" ++ (if r.streamsReturns then s%"stream " else []) ++ r.returnsType)
      ([.word s%"rpc", .word r.name, .sym '('] ++
        ((if r.streamsRequest then [.word s%"stream"] else []) ++ [.word r.requestType]) ++
        [.sym ')', .word s%"returns", .sym '('] ++
        ((if r.streamsReturns then [.word s%"stream"] else []) ++ [.word r.returnsType])) := by
    have a := (closed_of_run (keep := keep) (a := s%"rpc ") (ts := [.word s%"rpc"]) rfl).before (gives_word h1)
    have b := a.word (c := '(') (b := []) (t := [.sym '(']) (by decide) rfl (gives_stream (keep := keep) r.streamsRequest h2)
    have c := b.word (c := ')') (b := s%" returns (") (t := [.sym ')', .word s%"returns", .sym '('])
      (by decide) rfl (gives_stream (keep := keep) r.streamsReturns h3)
    simpa using c
  unfold rpcItems at hn ⊢
  unfold rpcToks
  dsimp only at hn ⊢
  rw [wrap_eq]
  refine (lines_note hc).append ?_
  by_cases he : optionsAmong es = []
  · rw [if_pos he, if_pos (hnil.2 he)]
    refine lines_noted ?_ hi
    have := head.ends (ends_of_run (keep := keep) (c := ')') (b := s%";") (ts := [.sym ')', .sym ';']) (by decide) rfl)
    simpa [streamToks] using this
  · rw [if_neg he] at hn
    rw [if_neg he, if_neg fun h => he (hnil.1 h)]
    have a := lines_flush (keep := keep) (head.ends
      (ends_of_run (keep := keep) (c := ')') (b := s%" {") (ts := [.sym ')', .sym '{']) (by decide) rfl))
    have hp := problems_nest (problems_append (problems_cons (problems_append hn).2)).1
    have b := (lines_flatMap (f := optionStatement) (g := optionToks keep) (l := sort (optionsAmong es))
      fun o hm => lines_optionStatement (ho o ((hsort _).mem_iff.1 hm)) (problems_flatMap hp o hm)).nest
    have c := lines_noted (keep := keep) (closed_of_run (keep := keep) (a := s%"}") (ts := [.sym '}']) rfl).gives hi
    have := (a.append b).append c
    simpa [streamToks] using this

/-! ## Declarations -/

/-- The tokens of the label of a field. -/
def labelToks (isProto2 : Bool) (f : NormalField) : List Token :=
  if f.repeated then [.word s%"repeated"]
  else if isProto2 then (if f.required then [.word s%"required"] else [.word s%"optional"])
  else []

mutual

/-- The tokens of a declaration. -/
def elementToks (keep isProto2 : Bool) : Element → List Token
  | .comment c => noteToks keep (some c)
  | .syntax s => wrap keep s.comment [.word s%"syntax", .sym '=', .str '"' s.value, .sym ';'] s.inlineComment
  | .package p => wrap keep p.comment [.word s%"package", .word p.name, .sym ';'] p.inlineComment
  | .option o => optionToks keep o
  | .import i => wrap keep i.comment (.word s%"import" :: (if i.kind = [] then [] else [.word i.kind]) ++
      [.str '"' i.filename, .sym ';']) i.inlineComment
  | .message m es => wrap keep m.comment
      ([.word (if m.isExtend then s%"extend" else s%"message"), .word m.name, .sym '{'] ++
        elementsToks keep isProto2 es ++ [.sym '}']) none
  | .enum e es => wrap keep e.comment
      ([.word s%"enum", .word e.name, .sym '{'] ++ elementsToks keep isProto2 es ++ [.sym '}']) none
  | .enumField f es => wrap keep f.comment (.word f.name :: fieldEndToks f.integer (optionsAmong es)) f.inlineComment
  | .service s es => wrap keep s.comment
      ([.word s%"service", .word s.name, .sym '{'] ++ elementsToks keep isProto2 es ++ [.sym '}']) none
  | .rpc r es => rpcToks keep r (optionsAmong es)
  | .normalField f => wrap keep f.field.comment (labelToks isProto2 f ++ [.word f.field.type, .word f.field.name] ++
      fieldEndToks f.field.sequence f.field.options) f.field.inlineComment
  | .mapField f => wrap keep f.field.comment ([.word s%"map", .sym '<', .word f.keyType, .sym ',',
      .word f.field.type, .sym '>', .word f.field.name] ++ fieldEndToks f.field.sequence f.field.options)
      f.field.inlineComment
  | .oneof o es => wrap keep o.comment
      ([.word s%"oneof", .word o.name, .sym '{'] ++ elementsToks keep isProto2 es ++ [.sym '}']) none
  | .oneofField f => wrap keep f.comment ([.word f.type, .word f.name] ++ fieldEndToks f.sequence f.options)
      f.inlineComment
  | .reserved r => reservedToks keep r
  | .extensions e => wrap keep e.comment (.word s%"extensions" :: commaToks rangeToks e.ranges ++ [.sym ';'])
      e.inlineComment
  | .group g es => wrap keep g.comment ((if g.optional then [.word s%"optional"] else []) ++
      [.word s%"group", .word g.name, .sym '=', .word (itoa g.sequence), .sym '{'] ++
      elementsToks keep isProto2 es ++ [.sym '}']) none

def elementsToks (keep isProto2 : Bool) : List Element → List Token
  | [] => []
  | e :: es => elementToks keep isProto2 e ++ elementsToks keep isProto2 es

end

mutual

/-- The options of fields and enum values have no comments, or they are not kept. -/
def QuietIn (keep : Bool) : Element → Prop
  | .message _ es => QuietAll keep es
  | .enum _ es => QuietAll keep es
  | .enumField _ es => ∀ o ∈ optionsAmong es, Quiet keep o
  | .service _ es => QuietAll keep es
  | .normalField f => ∀ o ∈ f.field.options, Quiet keep o
  | .mapField f => ∀ o ∈ f.field.options, Quiet keep o
  | .oneof _ es => QuietAll keep es
  | .oneofField f => ∀ o ∈ f.options, Quiet keep o
  | .group _ es => QuietAll keep es
  | _ => True

def QuietAll (keep : Bool) : List Element → Prop
  | [] => True
  | e :: es => QuietIn keep e ∧ QuietAll keep es

end

mutual

theorem quietIn_false : ∀ (e : Element), QuietIn false e
  | .message _ es | .enum _ es | .service _ es | .oneof _ es | .group _ es => by
    unfold QuietIn; exact quietAll_false es
  | .enumField _ _ | .normalField _ | .mapField _ | .oneofField _ => by
    unfold QuietIn; exact fun _ _ h => nomatch h
  | .comment _ | .syntax _ | .package _ | .option _ | .import _ | .rpc _ _ | .reserved _ | .extensions _ => by
    unfold QuietIn; trivial

theorem quietAll_false : ∀ (es : List Element), QuietAll false es
  | [] => by unfold QuietAll; trivial
  | e :: es => by unfold QuietAll; exact ⟨quietIn_false e, quietAll_false es⟩

end

theorem gives_declaration {type name : Str} {number : Int} {t : List Token}
    (ht : type ≠ [] ∧ Gives keep type t ∨ type = [] ∧ t = []) (hn : IsWord name) :
    Gives keep (declarationOf type name number) (t ++ [.word name, .sym '=', .word (itoa number)]) := by
  unfold declarationOf
  have h1 : Gives keep ((if type = [] then [] else type ++ s%" ") ++ name) (t ++ [.word name]) := by
    rcases ht with ⟨h, g⟩ | ⟨rfl, rfl⟩
    · rw [if_neg h]
      have := g.word (c := ' ') (b := []) (t := []) (by decide) rfl (gives_word hn)
      simpa using this
    · exact gives_word hn
  have := h1.word (c := ' ') (b := s%"= ") (t := [.sym '=']) (by decide) rfl (gives_word (isWord_itoa number))
  simpa using this

theorem lines_block {comment : Option Comment} {head : Str} {h : List Token} (hc : CommentFits comment)
    (hh : Gives keep head h) {body : Option (List Item)} {b : List Token}
    (hb : ∀ items, body = some items → Lines keep items b) (hb0 : body = none → b = [])
    {gap emptyGap : List Item} (hg : Lines keep gap []) (hg0 : Lines keep emptyGap []) :
    Lines keep (blockItems comment head body gap emptyGap)
      (wrap keep comment (h ++ [.sym '{'] ++ b ++ [.sym '}']) none) := by
  unfold blockItems
  rw [wrap_eq, noteToks_none, List.append_nil]
  refine (lines_note hc).append ?_
  cases body with
  | none =>
    dsimp only
    have h1 := lines_flush (keep := keep) (hh.ends (ends_of_run (keep := keep) (c := ' ') (b := s%"{}") (ts := [.sym '{', .sym '}'])
      (by decide) rfl))
    have := h1.append hg0
    rw [hb0 rfl]
    simpa using this
  | some items =>
    dsimp only
    have h1 := lines_flush (keep := keep) (hh.ends (ends_of_run (keep := keep) (c := ' ') (b := s%"{") (ts := [.sym '{']) (by decide) rfl))
    have h2 := (hb items rfl).nest
    have h3 := lines_flush (keep := keep) (closed_of_run (keep := keep) (a := s%"}") (ts := [.sym '}']) rfl).gives
    have := (h1.append h2).append (h3.append hg)
    simpa using this

theorem lines_gap (p : Prop) [Decidable p] : Lines keep (if p then [blank] else []) [] := by
  split
  · exact lines_blank
  · exact lines_nil

theorem optionsAmong_fit {es : List Element} (h : ∀ e ∈ es, OnlyOption e) :
    ∀ o ∈ optionsAmong es, OptionFits o := by
  intro o ho
  obtain ⟨e, he, hs⟩ := List.mem_filterMap.1 ho
  have := h e he
  cases e <;> cases hs
  exact this

theorem optionsAmong_map (os : List Opt) : optionsAmong (os.map .option) = os := by
  unfold optionsAmong
  rw [List.filterMap_map]
  exact List.filterMap_some

theorem gives_label (isProto2 : Bool) (f : NormalField) {a : Str} {ts : List Token} (h : Gives keep a ts) :
    Gives keep (labelOf isProto2 f ++ a) (labelToks isProto2 f ++ ts) := by
  unfold labelOf labelToks
  (repeat' split) <;> first
    | exact h
    | exact (closed_of_run (keep := keep) (a := s%"repeated ") (ts := [.word s%"repeated"]) rfl).before h
    | exact (closed_of_run (keep := keep) (a := s%"required ") (ts := [.word s%"required"]) rfl).before h
    | exact (closed_of_run (keep := keep) (a := s%"optional ") (ts := [.word s%"optional"]) rfl).before h

theorem tidyAll_nil (sort : List Opt → List Opt) : tidyAll sort [] = [] := by unfold tidyAll; rfl

theorem elementsToks_nil (isProto2 : Bool) : elementsToks keep isProto2 [] = [] := by unfold elementsToks; rfl

/-- The problems of a body. -/
theorem problems_block {comment : Option Comment} {head : Str} {es : List Element} {items : List Item}
    {gap emptyGap : List Item}
    (h : problemsOf (blockItems comment head (if es.length = 0 then none else some items) gap emptyGap) = []) :
    es ≠ [] → problemsOf items = [] := by
  intro hne
  unfold blockItems at h
  rw [if_neg (by simpa using hne)] at h
  dsimp only at h
  exact problems_nest (problems_append (problems_cons (problems_append h).2)).1

/-- A declaration with a body. -/
theorem lines_declaration {comment : Option Comment} {head : Str} {h : List Token} (hc : CommentFits comment)
    (hh : Gives keep head h) {es : List Element} {items : List Item} {b : List Token}
    (hb : problemsOf items = [] → Lines keep items b) (hb0 : es = [] → b = []) {gap emptyGap : List Item}
    (hg : Lines keep gap []) (hg0 : Lines keep emptyGap [])
    (hn : problemsOf (blockItems comment head (if es.length = 0 then none else some items) gap emptyGap) = []) :
    Lines keep (blockItems comment head (if es.length = 0 then none else some items) gap emptyGap)
      (wrap keep comment (h ++ [.sym '{'] ++ b ++ [.sym '}']) none) := by
  have hp := problems_block hn
  cases es with
  | nil =>
    rw [if_pos List.length_nil]
    exact lines_block (body := none) hc hh (fun _ e => nomatch e) (fun _ => hb0 rfl) hg hg0
  | cons e es =>
    rw [if_neg (show ¬ (e :: es).length = 0 by simp)]
    exact lines_block (body := some items) hc hh (fun i h => by cases h; exact hb (hp (by simp))) (fun h => nomatch h) hg hg0

mutual

theorem lines_element {sort : List Opt → List Opt} (hsort : ∀ l, (sort l).Perm l) (isProto2 : Bool)
    (around : Around) : ∀ (e : Element), staysPut e = true ∨ around ≠ .none → ElementFits isProto2 around e →
    QuietIn keep e → problemsOf (elementItems sort isProto2 around e) = [] →
    Lines keep (elementItems sort isProto2 around e) (elementToks keep isProto2 (tidy sort e))
  | .comment c, _, h, _, _ => by
    unfold ElementFits at h
    unfold elementItems tidy elementToks
    simpa using (lines_note (keep := keep) h).append lines_blank
  | .syntax s, hs, h, _, _ => by
    unfold ElementFits at h
    exact (hs.elim (fun e => nomatch e) fun e => e h.1).elim
  | .package s, hs, h, _, _ => by
    unfold ElementFits at h
    exact (hs.elim (fun e => nomatch e) fun e => e h.1).elim
  | .import s, hs, h, _, _ => by
    unfold ElementFits at h
    exact (hs.elim (fun e => nomatch e) fun e => e h.1).elim
  | .option o, hs, h, _, hn => by
    unfold ElementFits at h
    unfold elementItems innerOptionItems at hn ⊢
    unfold tidy elementToks
    cases around with
    | none => exact (hs.elim (fun e => nomatch e) fun e => e rfl).elim
    | group => cases hn
    | _ => exact lines_optionStatement h hn
  | .message m es, _, h, hk, hn => by
    unfold ElementFits at h
    obtain ⟨_, hc, hw, hes⟩ := h
    unfold elementItems at hn ⊢
    unfold tidy elementToks
    have hh : Gives keep ((if m.isExtend then s%"extend " else s%"message ") ++ m.name)
        [.word (if m.isExtend then s%"extend" else s%"message"), .word m.name] := by
      split
      · exact (closed_of_run (keep := keep) (a := s%"extend ") (ts := [.word s%"extend"]) rfl).before (gives_word hw)
      · exact (closed_of_run (keep := keep) (a := s%"message ") (ts := [.word s%"message"]) rfl).before (gives_word hw)
    exact lines_declaration hc hh (lines_elements hsort isProto2 .message es (by decide) hes (by unfold QuietIn at hk; exact hk))
      (fun e => by rw [e, tidyAll_nil, elementsToks_nil]) (lines_gap _) lines_blank hn
  | .enum m es, _, h, hk, hn => by
    unfold ElementFits at h
    obtain ⟨_, hc, hw, hes⟩ := h
    unfold elementItems at hn ⊢
    unfold tidy elementToks
    exact lines_declaration hc
      ((closed_of_run (keep := keep) (a := s%"enum ") (ts := [.word s%"enum"]) rfl).before (gives_word hw))
      (lines_elements hsort isProto2 .enum es (by decide) hes (by unfold QuietIn at hk; exact hk))
      (fun e => by rw [e, tidyAll_nil, elementsToks_nil]) (lines_gap _) lines_blank hn
  | .service m es, _, h, hk, hn => by
    unfold ElementFits at h
    obtain ⟨_, hc, hw, hes⟩ := h
    unfold elementItems at hn ⊢
    unfold tidy elementToks
    exact lines_declaration hc
      ((closed_of_run (keep := keep) (a := s%"service ") (ts := [.word s%"service"]) rfl).before (gives_word hw))
      (lines_elements hsort isProto2 .service es (by decide) hes (by unfold QuietIn at hk; exact hk))
      (fun e => by rw [e, tidyAll_nil, elementsToks_nil]) lines_blank lines_blank hn
  | .oneof m es, _, h, hk, hn => by
    unfold ElementFits at h
    obtain ⟨_, hc, hw, hes⟩ := h
    unfold elementItems at hn ⊢
    unfold tidy elementToks
    exact lines_declaration hc
      ((closed_of_run (keep := keep) (a := s%"oneof ") (ts := [.word s%"oneof"]) rfl).before (gives_word hw))
      (lines_elements hsort isProto2 .oneof es (by decide) hes (by unfold QuietIn at hk; exact hk))
      (fun e => by rw [e, tidyAll_nil, elementsToks_nil]) lines_nil lines_nil hn
  | .group g es, _, h, hk, hn => by
    unfold ElementFits at h
    obtain ⟨_, hc, hw, hes⟩ := h
    unfold elementItems at hn ⊢
    unfold tidy elementToks
    have hh : Gives keep ((if g.optional then s%"optional " else []) ++ s%"group " ++ g.name ++ s%" = " ++
        itoa g.sequence) ((if g.optional then [.word s%"optional"] else []) ++
        [.word s%"group", .word g.name, .sym '=', .word (itoa g.sequence)]) := by
      have h1 := (closed_of_run (keep := keep) (a := s%"group ") (ts := [.word s%"group"]) rfl).before (gives_word hw)
      have h2 := h1.word (c := ' ') (b := s%"= ") (t := [.sym '=']) (by decide) rfl
        (gives_word (isWord_itoa g.sequence))
      cases g.optional
      · simpa using h2
      · simpa using (closed_of_run (keep := keep) (a := s%"optional ") (ts := [.word s%"optional"]) rfl).before h2
    have := lines_declaration hc hh (lines_elements hsort isProto2 .group es (by decide) hes (by unfold QuietIn at hk; exact hk))
      (fun e => by rw [e, tidyAll_nil, elementsToks_nil]) lines_nil lines_nil hn
    simpa using this
  | .enumField f es, _, h, hk, hn => by
    unfold ElementFits at h
    obtain ⟨_, hc, hi, hw, _, hes⟩ := h
    unfold elementItems at hn ⊢
    unfold tidy elementToks fieldEndToks
    rw [optionsAmong_map]
    have := lines_field (keep := keep) hsort (gives_declaration (number := f.integer) (.inr ⟨rfl, rfl⟩) hw) hc hi
      (optionsAmong_fit hes) (by unfold QuietIn at hk; exact hk) hn
    simpa using this
  | .rpc r es, _, h, hk, hn => by
    unfold ElementFits at h
    obtain ⟨_, hc, hi, h1, h2, h3, hes⟩ := h
    unfold elementItems at hn ⊢
    unfold tidy elementToks
    rw [optionsAmong_map]
    exact lines_rpc hsort hc hi h1 h2 h3 (optionsAmong_fit hes) hn
  | .normalField f, _, h, hk, hn => by
    unfold ElementFits at h
    obtain ⟨_, hf, _⟩ := h
    unfold elementItems at hn ⊢
    unfold tidy elementToks fieldEndToks
    have := lines_field (keep := keep) hsort (gives_label isProto2 f (gives_declaration (number := f.field.sequence)
      (.inl ⟨hf.type.1, gives_word hf.type⟩) hf.name)) hf.comment hf.inlineComment hf.options (by unfold QuietIn at hk; exact hk) hn
    simpa [labelToks] using this
  | .mapField f, _, h, hk, hn => by
    unfold ElementFits at h
    obtain ⟨_, hf, hkey⟩ := h
    unfold elementItems at hn ⊢
    unfold tidy elementToks fieldEndToks
    have ht : Gives keep (s%"map<" ++ f.keyType ++ s%", " ++ f.field.type ++ s%">")
        [.word s%"map", .sym '<', .word f.keyType, .sym ',', .word f.field.type, .sym '>'] :=
      (((closed_of_run (keep := keep) (a := s%"map<") (ts := [.word s%"map", .sym '<']) rfl).before (gives_word hkey)).word
        (c := ',') (b := s%" ") (t := [.sym ',']) (by decide) rfl (gives_word hf.type)).ends
        (ends_of_run (keep := keep) (c := '>') (b := []) (ts := [.sym '>']) (by decide) rfl)
    have := lines_field (keep := keep) hsort (gives_declaration (number := f.field.sequence)
      (.inl ⟨by simp, ht⟩) hf.name) hf.comment hf.inlineComment hf.options (by unfold QuietIn at hk; exact hk) hn
    simpa using this
  | .oneofField f, _, h, hk, hn => by
    unfold ElementFits at h
    obtain ⟨_, hf, _⟩ := h
    unfold elementItems at hn ⊢
    unfold tidy elementToks fieldEndToks
    have := lines_field (keep := keep) hsort (gives_declaration (number := f.sequence)
      (.inl ⟨hf.type.1, gives_word hf.type⟩) hf.name) hf.comment hf.inlineComment hf.options (by unfold QuietIn at hk; exact hk) hn
    simpa using this
  | .reserved r, _, h, _, _ => by
    unfold ElementFits at h
    obtain ⟨_, hc, hi, hx, hq⟩ := h
    unfold elementItems tidy elementToks
    exact lines_reserved hc hi hx hq
  | .extensions e, _, h, _, _ => by
    unfold ElementFits at h
    obtain ⟨_, hc, hi, hr⟩ := h
    unfold elementItems tidy elementToks
    rw [wrap_eq]
    refine (lines_note hc).append (lines_noted ?_ hi)
    have := ((closed_of_run (keep := keep) (a := s%"extensions ") (ts := [.word s%"extensions"]) rfl).before
      (gives_comma_ranges (keep := keep) hr)).ends (ends_of_run (keep := keep) (c := ';') (b := []) (ts := [.sym ';']) (by decide) rfl)
    simpa using this

theorem lines_elements {sort : List Opt → List Opt} (hsort : ∀ l, (sort l).Perm l) (isProto2 : Bool)
    (around : Around) : ∀ (es : List Element), around ≠ .none → ElementsFit isProto2 around es →
    QuietAll keep es → problemsOf (elementsItems sort isProto2 around es) = [] →
    Lines keep (elementsItems sort isProto2 around es) (elementsToks keep isProto2 (tidyAll sort es))
  | [], _, _, _, _ => by unfold elementsItems tidyAll elementsToks; exact lines_nil
  | e :: es, ha, h, hk, hn => by
    unfold ElementsFit at h
    unfold elementsItems at hn ⊢
    unfold tidyAll elementsToks
    obtain ⟨h1, h2⟩ := problems_append hn
    unfold QuietAll at hk
    exact (lines_element hsort isProto2 around e (.inr ha) h.1 hk.1 h1).append
      (lines_elements hsort isProto2 around es ha h.2 hk.2 h2)

end

end Verif.Format
