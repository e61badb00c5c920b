import Verif.Proof.Placed

/-! # Reading the printed declarations with their comments -/

namespace Verif.Format

open Verif Str Proto Spec

/-! ## Where the next token is -/

/-- The tokens begin on this line or below it. -/
def Later (line : Int) (ts : List (Int × Token)) : Prop := ∀ l t us, ts = (l, t) :: us → line ≤ l

theorem Later.mono {a b : Int} {ts : List (Int × Token)} (h : Later b ts) (hab : a ≤ b) : Later a ts :=
  fun l t us e => Int.le_trans hab (h l t us e)

theorem later_place (line : Int) (rows : List (List Token)) {rest : List (Int × Token)}
    (h : Later (line + rows.length) rest) : Later line (place line rows ++ rest) := by
  induction rows generalizing line with
  | nil => simpa [place] using h
  | cons r rows ih =>
    cases r with
    | nil =>
      simp only [place, List.map_nil, List.nil_append]
      refine (ih (line + 1) (h.mono ?_)).mono (by omega)
      rw [List.length_cons]; omega
    | cons t r =>
      intro l u us e
      simp only [place, List.map_cons, List.cons_append] at e
      cases e
      exact Int.le_refl _

/-! ## Comments -/

/-- The rows of a comment. -/
def noteRows (c : Option Comment) : List (List Token) := (noteToks true c).map fun t => [t]

theorem rows_comments {ls : List Str} (h : ∀ l ∈ ls, '\n' ∉ l) :
    Rows true (ls.map fun l => flush (s%"//" ++ l.dropWhile (· == '/')))
      ((ls.map fun l => Token.comment (commentText l)).map fun t => [t]) := by
  induction ls with
  | nil => exact .nil
  | cons l ls ih =>
    exact .cons (closed_comment (keep := true) (no_newline_drop (h l (List.mem_cons_self ..))))
      (ih fun l hl => h l (List.mem_cons_of_mem _ hl))

theorem rows_note {c : Option Comment} (h : CommentFits c) : Rows true (note c) (noteRows c) := by
  cases c with
  | none => exact .nil
  | some c => exact rows_comments h

/-- The comment is none of the comments on the line. -/
theorem following_place (ls : List Str) (line : Int) (ts : List (Int × Token))
    (h : ∀ s us, ts ≠ (line + ls.length + 1, .comment s) :: us) :
    following line (place (line + 1) ((ls.map Token.comment).map fun t => [t]) ++ ts) =
      (ls, line + ls.length, ts) := by
  induction ls generalizing line with
  | nil =>
    have h' : ∀ s us, ts ≠ (line + 1, .comment s) :: us := by simpa using h
    simp only [List.map_nil, place, List.nil_append, List.length_nil]
    unfold following
    split
    · rename_i l s us
      rw [if_neg fun e => h' s us (by rw [e])]
      simp
    · simp
  | cons s ls ih =>
    simp only [List.map_cons, place, List.map_nil, List.cons_append, List.nil_append]
    unfold following
    rw [if_pos rfl, ih (line + 1) (fun s us e => h s us (by rw [e, List.length_cons]; congr 2; omega))]
    simp only [List.length_cons, Prod.mk.injEq, true_and, and_true]
    omega

theorem noteToks_some {c : Option Comment} :
    noteToks true c = ((commentStrings c).map commentText).map Token.comment := by
  cases c with
  | none => rfl
  | some c => show c.lines.map _ = (c.lines.map _).map _; simp

theorem plainComment_eq (c : Option Comment) :
    plainComment c = if commentStrings c = [] then none else some (remark ((commentStrings c).map commentText)) := by
  cases c <;> rfl

/-- The comment above a declaration. -/
theorem read_above {n : Nat} {around : Around} {line : Int} {c : Option Comment} {t : Token} {us : List (Int × Token)}
    (ht : ∀ s, t ≠ .comment s) (hb : t ≠ .sym '}') :
    readCommented (n + 1) around (place line (noteRows c) ++ (line + (noteRows c).length, t) :: us) =
      readNext (fun a t => readCommented n a t) around (plainComment c)
        ((line + (noteRows c).length, t) :: us) := by
  unfold noteRows
  rw [noteToks_some, plainComment_eq]
  cases hc : commentStrings c with
  | nil =>
    rw [if_pos rfl]
    simp only [List.map_nil, place, List.nil_append, List.length_nil]
    conv => lhs; unfold readCommented
    split
    · rename_i e; cases e
    · rename_i e; cases e; exact (ht _ rfl).elim
    · rename_i e
      cases e
      rw [if_neg fun h => hb h.2]
  | cons l ls =>
    rw [if_neg (by simp)]
    simp only [List.map_cons, place, List.map_nil, List.cons_append, List.nil_append, List.length_cons]
    conv => lhs; unfold readCommented
    dsimp only
    have e : following line (place (line + 1) (((ls.map commentText).map Token.comment).map fun t => [t]) ++
        (line + ((((ls.map commentText).map Token.comment).map fun t => [t]).length + 1 : Nat), t) :: us) =
        (ls.map commentText, line + ls.length,
          (line + ((((ls.map commentText).map Token.comment).map fun t => [t]).length + 1 : Nat), t) :: us) := by
      have := following_place (ls.map commentText) line
        ((line + ((((ls.map commentText).map Token.comment).map fun t => [t]).length + 1 : Nat), t) :: us)
        (fun s us e => ht s (Prod.mk.inj (List.cons.inj e).1).2)
      rw [this]
      simp
    rw [e]
    dsimp only
    rw [if_pos]
    unfold beginsBelow
    simp only [List.length_map, Bool.and_eq_true, decide_eq_true_eq, Bool.not_eq_true']
    refine ⟨by omega, ?_⟩
    simp [hb]

/-- A comment by itself. -/
theorem read_apart {n : Nat} {around : Around} {line : Int} {c : Option Comment} (hc : commentStrings c ≠ [])
    {ts : List (Int × Token)} (h : Later (line + (noteRows c).length + 1) ts) :
    readCommented (n + 1) around (place line (noteRows c) ++ ts) =
      (readCommented n around ts).map fun r =>
        (.comment (remark ((commentStrings c).map commentText)) :: r.1, r.2) := by
  unfold noteRows at h ⊢
  rw [noteToks_some] at h ⊢
  cases e : commentStrings c with
  | nil => exact (hc e).elim
  | cons l ls =>
    rw [e] at h
    simp only [List.map_cons, place, List.map_nil, List.cons_append, List.nil_append, List.length_cons,
      List.length_map] at h ⊢
    conv => lhs; unfold readCommented
    dsimp only
    have e : following line (place (line + 1) (((ls.map commentText).map Token.comment).map fun t => [t]) ++ ts) =
        (ls.map commentText, line + ls.length, ts) := by
      rw [following_place (ls.map commentText) line ts fun s us e => by
        have := h _ _ _ e
        simp only [List.length_map] at this
        omega]
      simp
    rw [e]
    dsimp only
    rw [if_neg]
    unfold beginsBelow
    split
    · rename_i l t us
      have := h _ _ _ rfl
      simp only [Bool.and_eq_true, decide_eq_true_eq]
      intro hh
      omega
    · simp

/-- The comment behind a declaration. -/
theorem behind_note {e : Element} {line : Int} {i : Option Comment} (hi : ShortComment i)
    (he : commentStrings i = [] ∨ takesInline e = true) {rest : List (Int × Token)} (h : Later (line + 1) rest) :
    behind e line ((noteToks true i).map (fun t => (line, t)) ++ rest) = (plainComment i, rest) := by
  rw [noteToks_some, plainComment_eq]
  unfold ShortComment at hi
  match hs : commentStrings i, hi, he with
  | [], _, _ =>
    rw [if_pos rfl]
    simp only [List.map_nil, List.nil_append]
    unfold behind
    split
    · rename_i l s us
      have := h _ _ _ rfl
      rw [if_neg fun hh => by omega]
    · rfl
  | [l], _, he =>
    rw [if_neg (by simp)]
    simp only [List.map_cons, List.map_nil, List.cons_append, List.nil_append]
    unfold behind
    dsimp only
    rw [if_pos ⟨rfl, he.resolve_left (by simp)⟩]

/-! ## Reading rows -/

/-- The rows are read as these declarations, whatever follows below. -/
def Reads (around : Around) (rows : List (List Token)) (es : List Element) : Prop :=
  ∀ (line : Int) (rest : List (Int × Token)) (n : Nat), Later (line + rows.length) rest →
    (place line rows ++ rest).length + 1 ≤ n →
    ∃ m, rest.length + 1 ≤ m ∧ readCommented n around (place line rows ++ rest) =
      (readCommented m around rest).map fun r => (es ++ r.1, r.2)

theorem reads_nil (around : Around) : Reads around [] [] := fun line rest n _ hn => by
  refine ⟨n, by simpa [place] using hn, ?_⟩
  simp [place]

theorem reads_blank (around : Around) : Reads around [[]] [] := fun line rest n _ hn => by
  refine ⟨n, by simpa [place] using hn, ?_⟩
  simp [place]

theorem Reads.append {around : Around} {a b : List (List Token)} {es fs : List Element}
    (h : Reads around a es) (k : Reads around b fs) : Reads around (a ++ b) (es ++ fs) := by
  intro line rest n hl hn
  rw [place_append, List.append_assoc] at hn ⊢
  have hl' : Later (line + a.length + b.length) rest := hl.mono (by rw [List.length_append]; omega)
  obtain ⟨m, hm, e⟩ := h line (place (line + a.length) b ++ rest) n (later_place _ _ hl') hn
  obtain ⟨m', hm', e'⟩ := k (line + a.length) rest m hl' hm
  refine ⟨m', hm', ?_⟩
  rw [e, e']
  cases readCommented m' around rest <;> simp

theorem reads_comment {around : Around} (c : Comment) :
    Reads around (noteRows (some c) ++ [[]]) (shownAll [.comment c]) := by
  have hs : shownAll [.comment c] = if c.lines = [] then [] else [.comment (remark (c.lines.map commentText))] := by
    simp only [shownAll, shownAll.silent, List.append_nil, shown]
    simp
  rw [hs]
  by_cases hc : c.lines = []
  · rw [if_pos hc]
    have : noteRows (some c) = [] := by unfold noteRows; rw [noteToks_some]; simp [commentStrings, hc]
    rw [this]
    exact reads_blank around
  · rw [if_neg hc]
    intro line rest n hl hn
    rw [place_append, List.append_assoc] at hn ⊢
    have hp : place (line + (noteRows (some c)).length) [[]] ++ rest = rest := by simp [place]
    rw [hp] at hn ⊢
    have hne : (noteRows (some c)).length ≠ 0 := by
      unfold noteRows; rw [noteToks_some]
      simpa [commentStrings] using hc
    have hlen : 1 ≤ (place line (noteRows (some c))).length := by
      rw [place_length]
      unfold noteRows at hne ⊢
      simp only [List.length_map] at hne
      have : ((noteToks true (some c)).map fun t => [t]).flatten = noteToks true (some c) := by
        induction noteToks true (some c) with
        | nil => rfl
        | cons a l ih => simp [ih]
      rw [this]
      omega
    rw [List.length_append] at hn
    obtain ⟨n, rfl⟩ : ∃ k, n = k + 1 := ⟨n - 1, by omega⟩
    refine ⟨n, by omega, ?_⟩
    rw [read_apart (c := some c) hc (hl.mono (by rw [List.length_append, List.length_singleton]; omega))]
    rfl

/-! ## Statements -/

theorem lastLine_append (a : List (Int × Token)) (line : Int) {r : List Token} (h : r ≠ []) :
    lastLine (a ++ r.map fun t => (line, t)) = line := by
  unfold lastLine
  rw [List.getLast?_append]
  obtain ⟨r', t, rfl⟩ : ∃ r' t, r = r' ++ [t] := ⟨_, _, (List.dropLast_concat_getLast h).symm⟩
  simp

theorem next_statement {more : Around → List (Int × Token) → Option (List Element × Int × List (Int × Token))}
    {around : Around} {above i : Option Comment} (hi : ShortComment i) {init : List (List Token)} {last : List Token}
    {ts : List Token} (hts : (init ++ [last]).flatten = ts) (hlast : last ≠ []) {e : Element}
    (hopen : ∀ rest, (if mayOpen around (ts ++ rest) then braceAt (ts ++ rest) else none) = none)
    (hread : ∀ rest n, ts.length ≤ n → readElement around n (ts ++ rest) = some (e, rest))
    (he : takesInline e = true) {line : Int} {rest : List (Int × Token)} (h : Later (line + init.length + 1) rest) :
    readNext more around above (place line (init ++ [last ++ noteToks true i]) ++ rest) =
      (more around rest).map fun r => (withComments above (plainComment i) e :: r.1, r.2) := by
  have hsplit : place line (init ++ [last ++ noteToks true i]) ++ rest =
      place line (init ++ [last]) ++ ((noteToks true i).map (fun t => (line + (init.length : Int), t)) ++ rest) := by
    rw [place_append, place_append]
    simp [place]
  generalize hR : (noteToks true i).map (fun t => (line + (init.length : Int), t)) ++ rest = R at hsplit
  rw [hsplit]
  have hplain : (place line (init ++ [last]) ++ R).map (fun t => t.2) = ts ++ R.map (fun t => t.2) := by
    rw [List.map_append, place_plain, hts]
  have hlen : (place line (init ++ [last])).length = ts.length := by rw [place_length, hts]
  have hd : readDeclaration more around (place line (init ++ [last]) ++ R) =
      some (e, line + init.length, R) := by
    unfold readDeclaration
    dsimp only
    rw [hplain, hopen, hread _ _ (by rw [List.length_append]; omega)]
    dsimp only [Option.map_some]
    have hk : (place line (init ++ [last]) ++ R).length - (R.map fun t => t.2).length =
        (place line (init ++ [last])).length := by
      rw [List.length_append, List.length_map]; omega
    rw [hk, List.take_left, List.drop_left]
    rw [place_append]
    have : place (line + init.length) [last] = last.map fun t => (line + (init.length : Int), t) := by simp [place]
    rw [this, lastLine_append _ _ hlast]
  unfold readNext
  rw [hd]
  dsimp only [Option.bind_some]
  rw [← hR, behind_note hi (.inr he) h]

/-- A statement with its comments. -/
theorem reads_statement {around : Around} {c i : Option Comment} (hi : ShortComment i) {init : List (List Token)}
    {last : List Token} {w : Str} {ts : List Token} (hts : (init ++ [last]).flatten = .word w :: ts)
    (hlast : last ≠ []) (hfirst : ∀ r rows, init = r :: rows → r ≠ []) {e : Element}
    (hopen : ∀ rest, (if mayOpen around (.word w :: ts ++ rest) then braceAt (.word w :: ts ++ rest) else none) = none)
    (hread : ∀ rest n, (Token.word w :: ts).length ≤ n → readElement around n (.word w :: ts ++ rest) = some (e, rest))
    (he : takesInline e = true) :
    Reads around (noteRows c ++ (init ++ [last ++ noteToks true i]))
      [withComments (plainComment c) (plainComment i) e] := by
  intro line rest n hl hn
  rw [place_append, List.append_assoc] at hn ⊢
  generalize hk : line + ((noteRows c).length : Int) = k at *
  have hnext := fun more => next_statement (more := more) (above := plainComment c) hi hts hlast hopen hread he
    (line := k) (rest := rest) (hl.mono (by
      rw [List.length_append, List.length_append, List.length_singleton]; omega))
  obtain ⟨us, hus⟩ : ∃ us, place k (init ++ [last ++ noteToks true i]) ++ rest = (k, .word w) :: us := by
    cases init with
    | nil =>
      cases last with
      | nil => exact (hlast rfl).elim
      | cons t last =>
        simp only [List.nil_append, List.flatten_cons, List.flatten_nil, List.append_nil] at hts
        cases hts
        exact ⟨_, rfl⟩
    | cons r rows =>
      cases r with
      | nil => exact (hfirst _ _ rfl rfl).elim
      | cons t r =>
        simp only [List.cons_append, List.flatten_cons] at hts
        cases hts
        exact ⟨_, rfl⟩
  rw [hus] at hn hnext ⊢
  have h1 : rest.length ≤ us.length := by
    have := congrArg List.length hus
    rw [List.length_append, place_length, List.flatten_append, List.flatten_singleton, List.length_append,
      List.length_append] at this
    rw [List.flatten_append, List.flatten_singleton] at hts
    have h2 := congrArg List.length hts
    rw [List.length_append] at h2
    simp only [List.length_cons] at this h2
    omega
  obtain ⟨n, rfl⟩ : ∃ k, n = k + 1 := ⟨n - 1, by omega⟩
  refine ⟨n, by simp only [List.length_append, List.length_cons] at hn; omega, ?_⟩
  rw [← hk, read_above (by simp) (by simp), hk, hnext]
  rfl

/-! ## Bodies -/

theorem braceAt_head {h : List Token} (hh : ∀ t ∈ h, t ≠ .sym '{' ∧ t ≠ .sym ';') (ts : List Token) :
    braceAt (h ++ .sym '{' :: ts) = some (h.length + 1) := by
  induction h with
  | nil => rfl
  | cons t h ih =>
    rw [List.cons_append]
    unfold braceAt
    have := hh t (List.mem_cons_self ..)
    rw [if_neg this.1, if_neg this.2, ih fun t ht => hh t (List.mem_cons_of_mem _ ht)]
    simp

/-- A body up to its brace. -/
theorem Reads.body {around : Around} {rows : List (List Token)} {es : List Element} (h : Reads around rows es)
    (ha : around ≠ .none) {line : Int} {rest : List (Int × Token)} {n : Nat}
    (hn : (place line rows ++ (line + rows.length, .sym '}') :: rest).length + 1 ≤ n) :
    readCommented n around (place line rows ++ (line + rows.length, .sym '}') :: rest) =
      some (es, line + rows.length, rest) := by
  obtain ⟨m, hm, e⟩ := h line ((line + rows.length, .sym '}') :: rest) n
    (fun l t us e => by cases e; exact Int.le_refl _) hn
  rw [e]
  obtain ⟨m, rfl⟩ : ∃ k, m = k + 1 := ⟨m - 1, by omega⟩
  conv => lhs; unfold readCommented
  split
  · rename_i e; cases e
  · rename_i e; cases e
  · rename_i e
    cases e
    rw [if_pos ⟨ha, rfl⟩]
    simp

theorem next_block {n : Nat} {around : Around} {above i : Option Comment} (hi : ShortComment i) {h : List Token}
    (hh : ∀ t ∈ h, t ≠ .sym '{' ∧ t ≠ .sym ';') (hopen : ∀ rest, mayOpen around (h ++ rest) = true) {e : Element}
    (hread : readElement around (h.length + 3) (h ++ [.sym '{', .sym '}']) = some (e, []))
    {es : List Element} (hold : mayHold e es = true)
    (he : commentStrings i = [] ∨ takesInline (withBody es e) = true)
    {line line' : Int} {body rest : List (Int × Token)}
    (hbody : ∀ rest, (body ++ (line', .sym '}') :: rest).length + 1 ≤ n →
      readCommented n (insideOf e) (body ++ (line', .sym '}') :: rest) = some (es, line', rest))
    (hl : Later (line' + 1) rest)
    (hn : (body ++ (line', .sym '}') :: ((noteToks true i).map (fun t => (line', t)) ++ rest)).length + 1 ≤ n) :
    readNext (fun a t => readCommented n a t) around above
        ((h ++ [Token.sym '{']).map (fun t => (line, t)) ++
          (body ++ (line', .sym '}') :: ((noteToks true i).map (fun t => (line', t)) ++ rest))) =
      (readCommented n around rest).map fun r =>
        (withComments above (plainComment i) (withBody es e) :: r.1, r.2) := by
  generalize hR : (noteToks true i).map (fun t => (line', t)) ++ rest = R at *
  have hd : readDeclaration (fun a t => readCommented n a t) around ((h ++ [Token.sym '{']).map (fun t => (line, t)) ++
      (body ++ (line', .sym '}') :: R)) = some (withBody es e, line', R) := by
    unfold readDeclaration
    dsimp only
    have hplain : ((h ++ [Token.sym '{']).map (fun t => (line, t)) ++ (body ++ (line', Token.sym '}') :: R)).map
        (fun t => t.2) = h ++ .sym '{' :: (body ++ (line', Token.sym '}') :: R).map (fun t => t.2) := by
      rw [List.map_append, List.map_map]
      simp [Function.comp_def]
    rw [hplain, if_pos (hopen _), braceAt_head hh]
    dsimp only
    have ht : (h ++ Token.sym '{' :: (body ++ (line', Token.sym '}') :: R).map (fun t => t.2)).take (h.length + 1) =
        h ++ [.sym '{'] := by
      rw [show ∀ X, h ++ Token.sym '{' :: X = (h ++ [.sym '{']) ++ X by simp]
      exact List.take_left' (by simp)
    have hdr : ((h ++ [Token.sym '{']).map (fun t => (line, t)) ++ (body ++ (line', Token.sym '}') :: R)).drop
        (h.length + 1) = body ++ (line', .sym '}') :: R := List.drop_left' (by simp)
    rw [ht, hdr, List.append_assoc]
    rw [show h.length + 1 + 2 = h.length + 3 from rfl]
    simp only [List.cons_append, List.nil_append]
    rw [hread]
    dsimp only [Option.bind_some]
    rw [hbody R hn]
    dsimp only [Option.bind_some]
    rw [if_pos hold]
  unfold readNext
  rw [hd]
  dsimp only [Option.bind_some]
  rw [← hR, behind_note hi he hl]

/-- A declaration with a body. -/
theorem reads_block {around : Around} {c i : Option Comment} (hi : ShortComment i) {w : Str} {h : List Token}
    (hh : ∀ t ∈ h, t ≠ .sym '{' ∧ t ≠ .sym ';') (hopen : ∀ rest, mayOpen around (.word w :: h ++ rest) = true)
    {e : Element} (hread : readElement around (h.length + 4) (.word w :: h ++ [.sym '{', .sym '}']) = some (e, []))
    {rows : List (List Token)} {es : List Element} (hrows : Reads (insideOf e) rows es)
    (hold : mayHold e es = true) (he : commentStrings i = [] ∨ takesInline (withBody es e) = true) :
    Reads around (noteRows c ++ ((.word w :: h ++ [.sym '{']) :: (rows ++ [.sym '}' :: noteToks true i])))
      [withComments (plainComment c) (plainComment i) (withBody es e)] := by
  intro line rest n hl hn
  have ha : insideOf e ≠ .none := by cases e <;> simp [insideOf]
  rw [place_append, List.append_assoc] at hn ⊢
  generalize hk : line + ((noteRows c).length : Int) = k at *
  have hsplit : place k ((.word w :: h ++ [.sym '{']) :: (rows ++ [.sym '}' :: noteToks true i])) ++ rest =
      (.word w :: h ++ [Token.sym '{']).map (fun t => (k, t)) ++ (place (k + 1) rows ++
        (k + 1 + rows.length, .sym '}') ::
          ((noteToks true i).map (fun t => (k + 1 + (rows.length : Int), t)) ++ rest)) := by
    simp only [place, place_append]
    simp
  rw [hsplit] at hn ⊢
  have hlen := hn
  simp only [List.length_append, List.length_map, List.length_cons, List.length_nil] at hlen
  obtain ⟨n, rfl⟩ : ∃ k, n = k + 1 := ⟨n - 1, by omega⟩
  refine ⟨n, by omega, ?_⟩
  have h1 := read_above (n := n) (around := around) (line := line) (c := c) (t := .word w)
    (us := (h ++ [Token.sym '{']).map (fun t => (k, t)) ++ (place (k + 1) rows ++
        (k + 1 + rows.length, .sym '}') ::
          ((noteToks true i).map (fun t => (k + 1 + (rows.length : Int), t)) ++ rest))) (by simp) (by simp)
  rw [hk] at h1
  rw [show (.word w :: h ++ [Token.sym '{']).map (fun t => (k, t)) =
    (k, Token.word w) :: (h ++ [Token.sym '{']).map (fun t => (k, t)) from rfl, List.cons_append, h1]
  have h2 := next_block (n := n) (above := plainComment c) (h := .word w :: h) hi (fun t ht => by
      rcases List.mem_cons.1 ht with rfl | ht
      · simp
      · exact hh t ht) hopen hread hold he (line := k) (line' := k + 1 + rows.length) (body := place (k + 1) rows)
    (rest := rest) (fun rest hr => hrows.body ha hr) (hl.mono (by
      simp only [List.length_append, List.length_cons, List.length_nil]; omega)) (by
      simp only [List.length_append, List.length_map, List.length_cons]; omega)
  rw [List.cons_append] at h2
  rw [show (Token.word w :: (h ++ [Token.sym '{'])).map (fun t => (k, t)) =
    (k, Token.word w) :: (h ++ [Token.sym '{']).map (fun t => (k, t)) from rfl, List.cons_append] at h2
  rw [h2]
  rfl

/-- A declaration with an empty body. -/
theorem reads_empty {around : Around} {c : Option Comment} {w : Str} {h : List Token}
    (hh : ∀ t ∈ h, t ≠ .sym '{' ∧ t ≠ .sym ';') (hopen : ∀ rest, mayOpen around (.word w :: h ++ rest) = true)
    {e : Element} (hread : readElement around (h.length + 4) (.word w :: h ++ [.sym '{', .sym '}']) = some (e, []))
    (hold : mayHold e [] = true) :
    Reads around (noteRows c ++ [.word w :: h ++ [.sym '{', .sym '}']])
      [withComments (plainComment c) none (withBody [] e)] := by
  intro line rest n hl hn
  have ha : insideOf e ≠ .none := by cases e <;> simp [insideOf]
  rw [place_append, List.append_assoc] at hn ⊢
  generalize hk : line + ((noteRows c).length : Int) = k at *
  have hsplit : place k [.word w :: h ++ [.sym '{', .sym '}']] ++ rest =
      (.word w :: h ++ [Token.sym '{']).map (fun t => (k, t)) ++ ([] ++
        (k, .sym '}') :: ((noteToks true none).map (fun t => (k, t)) ++ rest)) := by
    simp [place, noteToks]
  rw [hsplit] at hn ⊢
  have hlen := hn
  simp only [List.length_append, List.length_map, List.length_cons, List.length_nil] at hlen
  obtain ⟨n, rfl⟩ : ∃ k, n = k + 1 := ⟨n - 1, by omega⟩
  refine ⟨n, by omega, ?_⟩
  have h1 := read_above (n := n) (around := around) (line := line) (c := c) (t := .word w)
    (us := (h ++ [Token.sym '{']).map (fun t => (k, t)) ++ ([] ++
        (k, .sym '}') :: ((noteToks true none).map (fun t => (k, t)) ++ rest))) (by simp) (by simp)
  rw [hk] at h1
  rw [show (.word w :: h ++ [Token.sym '{']).map (fun t => (k, t)) =
    (k, Token.word w) :: (h ++ [Token.sym '{']).map (fun t => (k, t)) from rfl, List.cons_append, h1]
  have h2 := next_block (n := n) (above := plainComment c) (i := none) (h := .word w :: h) (Nat.zero_le _) (fun t ht => by
      rcases List.mem_cons.1 ht with rfl | ht
      · simp
      · exact hh t ht) hopen hread hold (.inl rfl) (line := k) (line' := k) (body := [])
    (rest := rest) (fun rest hr => by
      have := (reads_nil (insideOf e)).body ha (line := k) (rest := rest) (n := n)
        (by simpa [place] using hr)
      simpa [place] using this) (hl.mono (by
      simp only [List.length_append, List.length_cons, List.length_nil]; omega)) (by
      simp only [List.length_append, List.length_map, List.length_cons, List.length_nil, noteToks]; omega)
  rw [List.cons_append] at h2
  rw [show (Token.word w :: (h ++ [Token.sym '{'])).map (fun t => (k, t)) =
    (k, Token.word w) :: (h ++ [Token.sym '{']).map (fun t => (k, t)) from rfl, List.cons_append] at h2
  rw [h2]
  rfl

end Verif.Format
