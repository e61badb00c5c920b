import Verif.Proof.Layout
import Verif.Spec.Bare

/-! # What the lexer makes of the printed lines -/

namespace Verif.Format

open Verif Str Proto Spec

theorem lexFrom_append (l : Lexing) (a b : Str) :
    lexFrom keep l (a ++ b) = (lexFrom keep l a).bind (lexFrom keep · b) := by
  induction a generalizing l with
  | nil => rfl
  | cons c a ih =>
    show (lexStep keep l c).bind _ = ((lexStep keep l c).bind _).bind _
    cases lexStep keep l c with
    | none => rfl
    | some l' => exact ih l'

/-- The text is these tokens and nothing is left open. -/
def Closed (keep : Bool) (a : Str) (ts : List Token) : Prop :=
  ∀ acc b, lexFrom keep ⟨acc, .between⟩ (a ++ b) = lexFrom keep ⟨acc ++ ts, .between⟩ b

/-- A text that goes on with something else than a word. -/
def Stops (b : Str) : Prop := ∃ c s, b = c :: s ∧ isWordChar c = false

/-- The text is these tokens if no word follows. -/
def Gives (keep : Bool) (a : Str) (ts : List Token) : Prop :=
  ∀ acc b, Stops b → lexFrom keep ⟨acc, .between⟩ (a ++ b) = lexFrom keep ⟨acc ++ ts, .between⟩ b

theorem Closed.gives {a : Str} {ts : List Token} (h : Closed keep a ts) : Gives keep a ts := fun acc b _ => h acc b

theorem closed_nil : Closed keep [] [] := fun acc b => by rw [List.append_nil]; rfl

theorem Closed.append {a b : Str} {s t : List Token} (h : Closed keep a s) (k : Closed keep b t) :
    Closed keep (a ++ b) (s ++ t) := by
  intro acc c
  rw [List.append_assoc, h, k, List.append_assoc]

theorem Closed.before {a b : Str} {s t : List Token} (h : Closed keep a s) (k : Gives keep b t) :
    Gives keep (a ++ b) (s ++ t) := by
  intro acc c hc
  rw [List.append_assoc, h, k _ _ hc, List.append_assoc]

theorem Stops.append {a : Str} (h : Stops a) (b : Str) : Stops (a ++ b) := by
  obtain ⟨c, s, rfl, hc⟩ := h
  exact ⟨c, s ++ b, rfl, hc⟩

theorem Gives.closed {a b : Str} {s t : List Token} (h : Gives keep a s) (hb : Stops b) (k : Closed keep b t) :
    Closed keep (a ++ b) (s ++ t) := by
  intro acc c
  rw [List.append_assoc, h _ _ (hb.append c), k, List.append_assoc]

theorem Gives.append {a b : Str} {s t : List Token} (h : Gives keep a s) (hb : Stops b) (k : Gives keep b t) :
    Gives keep (a ++ b) (s ++ t) := by
  intro acc c hc
  rw [List.append_assoc, h _ _ (hb.append c), k _ _ hc, List.append_assoc]

theorem closed_space {c : Char} (h : isSpace c = true) : Closed keep [c] [] := by
  intro acc b
  show lexFrom keep (fresh acc c) b = _
  unfold fresh
  rw [if_pos h, List.append_nil]

theorem closed_spaces {a : Str} (h : ∀ c ∈ a, isSpace c = true) : Closed keep a [] := by
  induction a with
  | nil => exact closed_nil
  | cons c a ih =>
    exact (closed_space (h c (List.mem_cons_self ..))).append (ih fun d hd => h d (List.mem_cons_of_mem _ hd))

theorem closed_sym {c : Char} (h1 : isSpace c = false) (h2 : isWordChar c = false)
    (h3 : ¬ (c = '"' ∨ c = '\'')) (h4 : c ≠ '/') : Closed keep [c] [.sym c] := by
  intro acc b
  show lexFrom keep (fresh acc c) b = _
  unfold fresh
  rw [if_neg (by simp [h1]), if_neg (by simp [h2]), if_neg h3, if_neg h4]

/-- A word that has begun. -/
theorem lex_word (acc : List Token) (w a b : Str) (h : ∀ c ∈ a, isWordChar c = true) (hb : Stops b) :
    lexFrom keep ⟨acc, .word w⟩ (a ++ b) = lexFrom keep ⟨acc ++ [.word (w ++ a)], .between⟩ b := by
  induction a generalizing w with
  | nil =>
    obtain ⟨c, s, rfl, hc⟩ := hb
    show (lexStep keep ⟨acc, .word w⟩ c).bind _ = (lexStep keep _ c).bind _
    unfold lexStep
    dsimp only
    rw [if_neg (by simp [hc]), List.append_nil]
  | cons c a ih =>
    show (lexStep keep ⟨acc, .word w⟩ c).bind _ = _
    unfold lexStep
    dsimp only
    rw [if_pos (h c (List.mem_cons_self ..))]
    show lexFrom keep _ (a ++ b) = _
    rw [ih _ fun d hd => h d (List.mem_cons_of_mem _ hd), List.append_assoc]
    rfl

theorem wordChar_not_space {c : Char} (h : isWordChar c = true) : isSpace c = false := by
  unfold isWordChar at h
  simp only [Bool.or_eq_true, Char.isAlphanum, Char.isAlpha, Char.isUpper, Char.isLower, Char.isDigit,
    Bool.and_eq_true, decide_eq_true_eq, beq_iff_eq] at h
  unfold isSpace
  simp only [Bool.or_eq_false_iff, Bool.and_eq_false_iff, decide_eq_false_iff_not, beq_eq_false_iff_ne]
  rcases h with (((h | h) | h) | h) | h
  · have hn : 48 ≤ c.toNat ∧ c.toNat ≤ 122 := by
      rcases h with (h | h) | h <;>
        (obtain ⟨h1, h2⟩ := h
         have h1 := UInt32.le_iff_toNat_le.1 h1
         have h2 := UInt32.le_iff_toNat_le.1 h2
         simp at h1 h2
         omega)
    omega
  all_goals (subst h; decide)

theorem gives_word {s : Str} (h : IsWord s) : Gives keep s [.word s] := by
  intro acc b hb
  obtain ⟨hne, hs⟩ := h
  cases s with
  | nil => exact (hne rfl).elim
  | cons c s =>
    have hc := hs c (List.mem_cons_self ..)
    show (lexStep keep _ c).bind _ = _
    have : lexStep keep ⟨acc, .between⟩ c = some ⟨acc, .word [c]⟩ := by
      show some (fresh acc c) = _
      unfold fresh
      rw [if_neg (by simp [wordChar_not_space hc]), if_pos hc]
    rw [this]
    exact lex_word (keep := keep) acc [c] s b (fun d hd => hs d (List.mem_cons_of_mem _ hd)) hb

/-! ## Strings -/

theorem lex_text {q : Char} (hq : q = '"' ∨ q = '\'') : ∀ (n : Nat) (s : Str), s.length ≤ n →
    insideQuotes q s = true → ∀ (acc : List Token) (p b : Str),
    lexFrom keep ⟨acc, .text q p⟩ (s ++ q :: b) = lexFrom keep ⟨acc ++ [.str q (p ++ s)], .between⟩ b := by
  have hqn : q ≠ '\n' := by rcases hq with rfl | rfl <;> decide
  intro n
  induction n with
  | zero =>
    intro s hs _ acc p b
    have : s = [] := List.length_eq_zero_iff.1 (Nat.le_zero.1 hs)
    subst this
    show (lexStep keep _ q).bind _ = _
    unfold lexStep
    dsimp only
    rw [if_neg hqn, if_pos rfl, List.append_nil]
    rfl
  | succ n ih =>
    intro s hs h acc p b
    cases s with
    | nil =>
      show (lexStep keep _ q).bind _ = _
      unfold lexStep
      dsimp only
      rw [if_neg hqn, if_pos rfl, List.append_nil]
      rfl
    | cons c s =>
      by_cases hc : c = '\\'
      · subst hc
        cases s with
        | nil => unfold insideQuotes at h; cases h
        | cons d s =>
          have h' : (d != '\n' && insideQuotes q s) = true := by unfold insideQuotes at h; exact h
          obtain ⟨hd, hs'⟩ := Bool.and_eq_true_iff.1 h'
          have hd : d ≠ '\n' := by simpa using hd
          show (lexStep keep _ '\\').bind _ = _
          have e1 : lexStep keep ⟨acc, .text q p⟩ '\\' = some ⟨acc, .escape q (p ++ ['\\'])⟩ := by
            unfold lexStep
            dsimp only
            rw [if_neg (by decide), if_neg (by rcases hq with rfl | rfl <;> decide), if_pos rfl]
          rw [e1]
          show (lexStep keep _ d).bind _ = _
          have e2 : lexStep keep ⟨acc, .escape q (p ++ ['\\'])⟩ d = some ⟨acc, .text q (p ++ ['\\'] ++ [d])⟩ := by
            unfold lexStep
            dsimp only
            rw [if_neg hd]
          rw [e2]
          show lexFrom keep _ (s ++ q :: b) = _
          rw [ih s (by simp at hs; omega) hs']
          simp
      · have h' : (c != q && c != '\n' && insideQuotes q s) = true := by
          unfold insideQuotes at h
          split at h
          · rename_i e; cases e
          · rename_i e; exact absurd (List.cons.inj e).1 hc
          · rename_i e; exact absurd (List.cons.inj e).1 hc
          · rename_i e; obtain ⟨rfl, rfl⟩ := List.cons.inj e; exact h
        simp only [Bool.and_eq_true, bne_iff_ne] at h'
        show (lexStep keep _ c).bind _ = _
        have e1 : lexStep keep ⟨acc, .text q p⟩ c = some ⟨acc, .text q (p ++ [c])⟩ := by
          unfold lexStep
          dsimp only
          rw [if_neg h'.1.2, if_neg h'.1.1, if_neg hc]
        rw [e1]
        show lexFrom keep _ (s ++ q :: b) = _
        rw [ih s (by simp at hs; omega) h'.2]
        simp

theorem closed_str {q : Char} (hq : q = '"' ∨ q = '\'') {s : Str} (h : insideQuotes q s = true) :
    Closed keep (q :: (s ++ [q])) [.str q s] := by
  intro acc b
  show (lexStep keep _ q).bind _ = _
  have e1 : lexStep keep ⟨acc, .between⟩ q = some ⟨acc, .text q []⟩ := by
    show some (fresh acc q) = _
    unfold fresh
    rw [if_neg (by rcases hq with rfl | rfl <;> decide), if_neg (by rcases hq with rfl | rfl <;> decide),
      if_pos hq]
  rw [e1]
  show lexFrom keep _ ((s ++ [q]) ++ b) = _
  rw [List.append_assoc]
  exact lex_text hq s.length s (Nat.le_refl _) h acc [] b

/-! ## Names -/

/-- The tokens of a name behind the beginning of a word. -/
def nameTokens : Option Str → Str → List Token
  | none, [] => []
  | some w, [] => [.word w]
  | none, c :: s =>
    if isWordChar c then nameTokens (some [c]) s else .sym c :: nameTokens none s
  | some w, c :: s =>
    if isWordChar c then nameTokens (some (w ++ [c])) s else .word w :: .sym c :: nameTokens none s

/-- A character of a name. -/
def NameChar (c : Char) : Prop := isWordChar c = true ∨ c = '(' ∨ c = ')' ∨ c = '[' ∨ c = ']'

theorem nameChar_sym {c : Char} (h : NameChar c) (hw : ¬ isWordChar c = true) : Closed keep [c] [.sym c] := by
  rcases h with h | rfl | rfl | rfl | rfl
  · exact absurd h hw
  all_goals exact closed_sym (by decide) (by decide) (by decide) (by decide)

theorem lex_name (s : Str) (h : ∀ c ∈ s, NameChar c) : ∀ (acc : List Token) (b : Str), Stops b →
    (lexFrom keep ⟨acc, .between⟩ (s ++ b) = lexFrom keep ⟨acc ++ nameTokens none s, .between⟩ b) ∧
    ∀ w, lexFrom keep ⟨acc, .word w⟩ (s ++ b) = lexFrom keep ⟨acc ++ nameTokens (some w) s, .between⟩ b := by
  induction s with
  | nil =>
    intro acc b hb
    refine ⟨by unfold nameTokens; rw [List.append_nil]; rfl, fun w => ?_⟩
    have := lex_word (keep := keep) acc w [] b (fun _ hc => (List.not_mem_nil hc).elim) hb
    rw [List.append_nil] at this
    exact this
  | cons c s ih =>
    have ih := ih fun d hd => h d (List.mem_cons_of_mem _ hd)
    have hc := h c (List.mem_cons_self ..)
    intro acc b hb
    by_cases hw : isWordChar c = true
    · constructor
      · unfold nameTokens
        rw [if_pos hw, ← (ih acc b hb).2]
        show (lexStep keep _ c).bind _ = _
        have : lexStep keep ⟨acc, .between⟩ c = some ⟨acc, .word [c]⟩ := by
          show some (fresh acc c) = _
          unfold fresh
          rw [if_neg (by simp [wordChar_not_space hw]), if_pos hw]
        rw [this]
        rfl
      · intro w
        unfold nameTokens
        rw [if_pos hw, ← (ih acc b hb).2]
        show (lexStep keep _ c).bind _ = _
        have : lexStep keep ⟨acc, .word w⟩ c = some ⟨acc, .word (w ++ [c])⟩ := by
          unfold lexStep
          dsimp only
          rw [if_pos hw]
        rw [this]
        rfl
    · have hs := nameChar_sym (keep := keep) hc hw
      constructor
      · unfold nameTokens
        rw [if_neg hw]
        have := hs acc (s ++ b)
        rw [show (c :: s) ++ b = [c] ++ (s ++ b) from rfl, this, (ih _ b hb).1, List.append_assoc]
        rfl
      · intro w
        unfold nameTokens
        rw [if_neg hw]
        have h1 := lex_word (keep := keep) acc w [] ((c :: s) ++ b) (fun _ hc => (List.not_mem_nil hc).elim)
          ⟨c, s ++ b, rfl, by simpa using hw⟩
        rw [List.append_nil] at h1
        rw [show (c :: s) ++ b = [] ++ ((c :: s) ++ b) from rfl, h1]
        have := hs (acc ++ [.word w]) (s ++ b)
        rw [show (c :: s) ++ b = [c] ++ (s ++ b) from rfl, this, (ih _ b hb).1]
        simp

theorem gives_name {s : Str} (h : IsName s) : Gives keep s (nameTokens none s) := fun acc b hb =>
  (lex_name s h.2 acc b hb).1

/-! ## Lines -/

/-- The quote of an open string is no white space. -/
def Sane (l : Lexing) : Prop :=
  match l.mode with
  | .text q _ => isSpace q = false
  | .escape q _ => isSpace q = false
  | _ => True

theorem sane_fresh (ts : List Token) (c : Char) : Sane (fresh ts c) := by
  unfold fresh
  by_cases h1 : isSpace c = true
  · rw [if_pos h1]; trivial
  rw [if_neg h1]
  by_cases h2 : isWordChar c = true
  · rw [if_pos h2]; trivial
  rw [if_neg h2]
  by_cases h3 : c = '"' ∨ c = '\''
  · rw [if_pos h3]; exact Bool.eq_false_iff.2 h1
  rw [if_neg h3]
  split <;> trivial

theorem sane_step {l l' : Lexing} {c : Char} (h : Sane l) (e : lexStep keep l c = some l') : Sane l' := by
  obtain ⟨ts, m⟩ := l
  cases m <;> unfold lexStep at e <;> dsimp only at e
  · cases e; exact sane_fresh ..
  · split at e <;> cases e
    · trivial
    · exact sane_fresh ..
  · (repeat' split at e) <;> first | cases e | skip
    all_goals first | trivial | exact h
  · split at e <;> cases e
    exact h
  · (repeat' split at e) <;> cases e
    all_goals first | trivial | exact sane_fresh ..
  all_goals ((repeat' split at e) <;> cases e; all_goals trivial)

theorem sane_from {l l' : Lexing} {a : Str} (h : Sane l) (e : lexFrom keep l a = some l') : Sane l' := by
  induction a generalizing l with
  | nil => cases e; exact h
  | cons c a ih =>
    unfold lexFrom at e
    obtain ⟨m, hm, e⟩ := Option.bind_eq_some_iff.1 e
    exact ih (sane_step h hm) e

theorem trimRight_space {s : Str} {c : Char} (hc : isSpace c = true) :
    trimRightBy isSpace (s ++ [c]) = trimRightBy isSpace s := by
  unfold trimRightBy
  rw [List.reverse_append, List.reverse_singleton, List.singleton_append, List.dropWhile_cons, if_pos hc]

/-- White space before the end of a line changes nothing. -/
theorem lex_trailing {keep : Bool} {l : Lexing} (h : Sane l) {c : Char} (hc : isSpace c = true) :
    lexFrom keep l [c, '\n'] = lexFrom keep l ['\n'] := by
  have hw : isWordChar c = false := by
    cases hw : isWordChar c with
    | false => rfl
    | true => exact absurd hc (by simp [wordChar_not_space hw])
  have hf : ∀ ts, fresh ts c = ⟨ts, .between⟩ := fun ts => by unfold fresh; rw [if_pos hc]
  have hn : ∀ ts, fresh ts '\n' = ⟨ts, .between⟩ := fun ts => rfl
  have hnl : isSpace '\n' = true := by decide
  have h1 : ∀ k : Char, isSpace k = false → c ≠ k := fun k hk e => by subst e; rw [hk] at hc; cases hc
  obtain ⟨ts, m⟩ := l
  cases m with
  | between => simp only [lexFrom, lexStep, Option.bind_some, hf, hn]
  | word s =>
    simp only [lexFrom, lexStep, Option.bind_some, hw, hf]
    rfl
  | text q s =>
    have hq : isSpace q = false := h
    simp only [lexFrom, lexStep]
    by_cases e : c = '\n'
    · simp [e]
    · rw [if_neg e, if_neg (h1 q hq), if_neg (h1 '\\' (by decide))]
      simp
  | escape q s =>
    simp only [lexFrom, lexStep]
    by_cases e : c = '\n'
    · simp [e]
    · rw [if_neg e]
      simp
  | slash =>
    simp only [lexFrom, lexStep]
    rw [if_neg (h1 '/' (by decide)), if_neg (h1 '*' (by decide)), hf]
    rfl
  | line s =>
    simp only [lexFrom, lexStep]
    by_cases e : c = '\n'
    · simp [e, hn]
    · rw [if_neg e]
      simp [trimRight_space hc]
  | block =>
    simp only [lexFrom, lexStep]
    rw [if_neg (h1 '*' (by decide)), if_pos hc]
    simp
  | star =>
    simp only [lexFrom, lexStep]
    rw [if_neg (h1 '/' (by decide)), if_neg (h1 '*' (by decide)), if_pos hc]
    simp [hnl]

theorem lex_trailings {keep : Bool} {l : Lexing} (h : Sane l) {a : Str} (ha : ∀ c ∈ a, isSpace c = true) :
    lexFrom keep l (a ++ ['\n']) = lexFrom keep l ['\n'] := by
  induction a generalizing l with
  | nil => rfl
  | cons c a ih =>
    have := lex_trailing (keep := keep) h (ha c (List.mem_cons_self ..))
    rw [← this]
    show (lexStep keep l c).bind _ = (lexStep keep l c).bind _
    cases e : lexStep keep l c with
    | none => rfl
    | some l' => exact ih (sane_step h e) fun d hd => ha d (List.mem_cons_of_mem _ hd)

/-- `trimRightBy` takes away white space. -/
theorem trimRight_parts (s : Str) :
    ∃ w, s = trimRightBy isSpace s ++ w ∧ ∀ c ∈ w, isSpace c = true := by
  refine ⟨(s.reverse.takeWhile isSpace).reverse, ?_, fun c hc => ?_⟩
  · unfold trimRightBy
    rw [← List.reverse_append, List.takeWhile_append_dropWhile, List.reverse_reverse]
  · exact mem_takeWhile (List.mem_reverse.1 hc)

theorem lex_trim {keep : Bool} {l : Lexing} (h : Sane l) (a : Str) :
    lexFrom keep l (trimRightBy isSpace a ++ ['\n']) = lexFrom keep l (a ++ ['\n']) := by
  obtain ⟨w, ha, hw⟩ := trimRight_parts a
  conv => rhs; rw [ha]
  rw [List.append_assoc, lexFrom_append, lexFrom_append]
  cases e : lexFrom keep l (trimRightBy isSpace a) with
  | none => rfl
  | some l' => exact (lex_trailings (sane_from h e) hw).symm

theorem closed_lineText (depth : Nat) {text : Str} {ts : List Token} (h : Closed keep (text ++ ['\n']) ts) :
    Closed keep (lineText depth text) ts := by
  intro acc b
  unfold lineText
  rw [lexFrom_append, lex_trim (l := ⟨_, .between⟩) trivial, ← lexFrom_append]
  have := (closed_spaces (a := List.replicate (2 * depth) ' ')
    (fun c hc => by rw [List.eq_of_mem_replicate hc]; decide)).append h
  rw [← List.append_assoc] at this
  exact this acc b

/-- The tokens of a line. -/
def Row (keep : Bool) : Item → List Token → Prop
  | .line _ text, ts => Closed keep (text ++ ['\n']) ts
  | .problem _, ts => ts = []

/-- The tokens of each line. -/
inductive Rows (keep : Bool) : List Item → List (List Token) → Prop
  | nil : Rows keep [] []
  | cons {i : Item} {items : List Item} {r : List Token} {rows : List (List Token)} :
      Row keep i r → Rows keep items rows → Rows keep (i :: items) (r :: rows)

theorem Rows.append {a b : List Item} {s t : List (List Token)} (h : Rows keep a s) (k : Rows keep b t) :
    Rows keep (a ++ b) (s ++ t) := by
  induction h with
  | nil => exact k
  | cons h _ ih => exact .cons h ih

theorem Rows.nest {a : List Item} {s : List (List Token)} (h : Rows keep a s) : Rows keep (nest a) s := by
  induction h with
  | nil => exact .nil
  | @cons i _ _ _ h _ ih =>
    refine .cons ?_ ih
    cases i <;> exact h

theorem Rows.closed {a : List Item} {s : List (List Token)} (h : Rows keep a s) (n : Nat) :
    Closed keep (textOf (shift n a)) s.flatten := by
  induction h with
  | nil => exact closed_nil
  | @cons i items r rows h _ ih =>
    rw [show shift n (i :: items) = shift n [i] ++ shift n items from rfl, textOf_append, List.flatten_cons]
    refine Closed.append ?_ ih
    cases i with
    | line d t =>
      show Closed keep (lineText (n + d) t ++ []) r
      rw [List.append_nil]
      exact closed_lineText _ h
    | problem f =>
      cases (show r = [] from h)
      exact closed_nil

/-- The lines are these tokens, and no token goes on from one line to the next. -/
def Lines (keep : Bool) (items : List Item) (ts : List Token) : Prop :=
  ∃ rows, Rows keep items rows ∧ rows.flatten = ts

theorem Lines.closed {a : List Item} {s : List Token} (h : Lines keep a s) (n : Nat) :
    Closed keep (textOf (shift n a)) s := by
  obtain ⟨rows, h, rfl⟩ := h
  exact h.closed n

theorem lines_nil : Lines keep [] [] := ⟨[], .nil, rfl⟩

theorem Lines.append {a b : List Item} {s t : List Token} (h : Lines keep a s) (k : Lines keep b t) :
    Lines keep (a ++ b) (s ++ t) := by
  obtain ⟨rows, h, rfl⟩ := h
  obtain ⟨rows', k, rfl⟩ := k
  exact ⟨rows ++ rows', h.append k, List.flatten_append⟩

theorem Lines.nest {a : List Item} {s : List Token} (h : Lines keep a s) : Lines keep (nest a) s := by
  obtain ⟨rows, h, rfl⟩ := h
  exact ⟨rows, h.nest, rfl⟩

theorem stops_newline : Stops ['\n'] := ⟨'\n', [], rfl, by decide⟩

theorem closed_newline : Closed keep ['\n'] [] := closed_space (by decide)

theorem lines_flush_closed {text : Str} {ts : List Token} (h : Closed keep (text ++ ['\n']) ts) :
    Lines keep [flush text] ts := ⟨[ts], .cons h .nil, List.append_nil ts⟩

theorem lines_flush {text : Str} {ts : List Token} (h : Gives keep text ts) : Lines keep [flush text] ts :=
  lines_flush_closed (by simpa using h.closed stops_newline closed_newline)

theorem lines_blank : Lines keep [blank] [] := lines_flush closed_nil.gives

/-- A comment up to the end of its line. -/
theorem closed_comment {l : Str} (h : '\n' ∉ l) :
    Closed keep (s%"//" ++ l ++ ['\n']) (said keep (trimRightBy isSpace l)) := by
  have hl : ∀ (acc : List Token) (p : Str) (b : Str),
      lexFrom keep ⟨acc, .line p⟩ (l ++ '\n' :: b) =
        lexFrom keep ⟨acc ++ said keep (trimRightBy isSpace (p ++ l)), .between⟩ b := by
    induction l with
    | nil => intro acc p b; rw [List.append_nil]; rfl
    | cons c l ih =>
      intro acc p b
      have hc : c ≠ '\n' := fun e => h (e ▸ List.mem_cons_self ..)
      show (lexStep keep _ c).bind _ = _
      have : lexStep keep ⟨acc, .line p⟩ c = some ⟨acc, .line (p ++ [c])⟩ := by
        unfold lexStep
        dsimp only
        rw [if_neg hc]
      rw [this]
      have := ih (fun hm => h (List.mem_cons_of_mem _ hm)) acc (p ++ [c]) b
      rw [List.append_assoc, List.singleton_append] at this
      exact this
  intro acc b
  have : s%"//" ++ l ++ ['\n'] ++ b = '/' :: '/' :: (l ++ '\n' :: b) := by simp
  rw [this]
  exact hl acc [] b

/-- The comments as tokens, if they are kept. -/
def noteToks : Bool → Option Comment → List Token
  | true, some c => c.lines.map fun l => .comment (commentText l)
  | _, _ => []

/-- Tokens between comments, if those are kept. -/
def wrap : Bool → Option Comment → List Token → Option Comment → List Token
  | false, _, ts, _ => ts
  | true, c, ts, i => noteToks true c ++ ts ++ noteToks true i

@[simp] theorem wrap_false (c : Option Comment) (ts : List Token) (i : Option Comment) : wrap false c ts i = ts := rfl

theorem noteToks_none : noteToks keep none = [] := by cases keep <;> rfl

theorem wrap_eq (c : Option Comment) (ts : List Token) (i : Option Comment) :
    wrap keep c ts i = noteToks keep c ++ (ts ++ noteToks keep i) := by
  cases keep with
  | false => exact (List.append_nil ts).symm
  | true => exact List.append_assoc ..

/-- The option has no comments, or they are not kept. -/
def Quiet (keep : Bool) (o : Opt) : Prop := keep = true → o.comment = none ∧ o.inlineComment = none

theorem Quiet.toks {o : Opt} (h : Quiet keep o) :
    noteToks keep o.comment = [] ∧ noteToks keep o.inlineComment = [] := by
  cases keep with
  | false => exact ⟨rfl, rfl⟩
  | true => rw [(h rfl).1, (h rfl).2]; exact ⟨rfl, rfl⟩

theorem noteToks_lines (c : Comment) :
    noteToks keep (some c) = c.lines.flatMap fun l => said keep (commentText l) := by
  cases keep with
  | false =>
    unfold noteToks
    symm
    exact List.flatMap_eq_nil_iff.2 fun _ _ => rfl
  | true =>
    show c.lines.map _ = _
    induction c.lines with
    | nil => rfl
    | cons l ls ih => rw [List.map_cons, ih]; rfl

theorem no_newline_drop {l : Str} (h : '\n' ∉ l) : '\n' ∉ l.dropWhile (· == '/') :=
  fun hm => h ((List.dropWhile_sublist _).subset hm)

theorem lines_comments {ls : List Str} (h : ∀ l ∈ ls, '\n' ∉ l) :
    Lines keep (ls.map fun l => flush (s%"//" ++ l.dropWhile (· == '/')))
      (ls.flatMap fun l => said keep (commentText l)) := by
  induction ls with
  | nil => exact lines_nil
  | cons l ls ih =>
    have h1 := lines_flush_closed (keep := keep) (closed_comment (no_newline_drop (h l (List.mem_cons_self ..))))
    exact h1.append (ih fun l hl => h l (List.mem_cons_of_mem _ hl))

theorem lines_note {c : Option Comment} (h : CommentFits c) : Lines keep (note c) (noteToks keep c) := by
  cases c with
  | none => cases keep <;> exact lines_nil
  | some c => rw [noteToks_lines]; exact lines_comments h

theorem lines_noted {text : Str} {ts : List Token} (h : Gives keep text ts) {c : Option Comment}
    (hc : CommentFits c) : Lines keep (noted text c) (ts ++ noteToks keep c) := by
  unfold noted
  cases c with
  | none =>
    have : noteToks keep none = [] := by cases keep <;> rfl
    rw [this, List.append_nil]
    exact lines_flush h
  | some c =>
    have hc : ∀ l ∈ c.lines, '\n' ∉ l := hc
    rw [noteToks_lines]
    dsimp only
    cases e : c.lines with
    | nil => rw [List.flatMap_nil, List.append_nil]; exact lines_flush h
    | cons l ls =>
      rw [e] at hc
      have h1 : Closed keep (text ++ s%" //" ++ l.dropWhile (· == '/') ++ ['\n'])
          (ts ++ said keep (commentText l)) := by
        have h2 := (closed_space (keep := keep) (c := ' ') (by decide)).append
          (closed_comment (no_newline_drop (hc l (List.mem_cons_self ..))))
        have h3 := h.closed ⟨' ', _, rfl, by decide⟩ h2
        rw [List.nil_append] at h3
        have e : text ++ s%" //" ++ l.dropWhile (· == '/') ++ ['\n'] =
            text ++ ([' '] ++ (s%"//" ++ l.dropWhile (· == '/') ++ ['\n'])) := by simp
        rw [e]
        exact h3
      have := (lines_flush_closed h1).append
        (lines_comments (keep := keep) fun l hl => hc l (List.mem_cons_of_mem _ hl))
      rw [List.flatMap_cons, ← List.append_assoc]
      exact this

/-! ## The file -/

theorem lex_leading {a : Str} (acc : List Token) (h : ∀ c ∈ a, isSpace c = true) (b : Str) :
    lexFrom keep ⟨acc, .between⟩ (a ++ b) = lexFrom keep ⟨acc, .between⟩ b := by
  rw [closed_spaces h acc b, List.append_nil]

theorem lex_finish {items : List Item} {ts : List Token} (h : Lines keep items ts) :
    lex keep (finish items) = some ts := by
  have h := h.closed 0
  rw [shift_zero] at h
  have h0 : lexFrom keep ⟨[], .between⟩ (textOf items ++ ['\n']) = some ⟨ts, .between⟩ := by
    rw [h [] ['\n']]
    rfl
  have hsplit : textOf items = (textOf items).takeWhile isSpace ++ trimLeftBy isSpace (textOf items) :=
    List.takeWhile_append_dropWhile.symm
  have h1 : lexFrom keep ⟨[], .between⟩ (trimSpace (textOf items) ++ ['\n']) = some ⟨ts, .between⟩ := by
    unfold trimSpace
    rw [lex_trim (l := ⟨_, .between⟩) trivial, ← h0]
    conv => rhs; rw [hsplit]
    rw [List.append_assoc, lex_leading _ fun c hc => mem_takeWhile hc]
  unfold lex finish
  by_cases e : trimSpace (textOf items) = []
  · rw [if_pos e]
    rw [e] at h1
    cases h1
    rfl
  · rw [if_neg e, h1]
    rfl

theorem tokensOf_finish {items : List Item} {ts : List Token} (h : Lines false items ts) :
    tokensOf (finish items) = some ts := lex_finish h

end Verif.Format
