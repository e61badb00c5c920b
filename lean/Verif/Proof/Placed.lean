import Verif.Proof.RoundTrip
import Verif.Proof.FormatText
import Verif.Spec.Attached

/-! # The lines of the tokens of the printed text -/

namespace Verif.Format

open Verif Str Proto Spec

/-- The rows from this line on. -/
def place (line : Int) : List (List Token) → List (Int × Token)
  | [] => []
  | r :: rows => r.map (fun t => (line, t)) ++ place (line + 1) rows

theorem place_append (line : Int) (a b : List (List Token)) :
    place line (a ++ b) = place line a ++ place (line + a.length) b := by
  induction a generalizing line with
  | nil => simp [place]
  | cons r a ih =>
    simp only [List.cons_append, place, ih, List.length_cons, List.append_assoc]
    congr 3
    omega

theorem place_plain (line : Int) (a : List (List Token)) : (place line a).map (fun t => t.2) = a.flatten := by
  induction a generalizing line with
  | nil => rfl
  | cons r a ih => simp [place, ih, Function.comp_def]

theorem place_length (line : Int) (a : List (List Token)) : (place line a).length = a.flatten.length := by
  rw [← place_plain line a, List.length_map]

/-! ## Lexing -/

theorem placed_step {line : Int} {m : Mode} {c : Char} {cs : Str} {l : Lexing}
    (h : lexStep true ⟨[], m⟩ c = some l) :
    lexPlaced line m (c :: cs) = (lexPlaced (if c = '\n' then line + 1 else line) l.mode cs).map
      fun ts => l.tokens.map (fun t => (line, t)) ++ ts := by
  conv => lhs; unfold lexPlaced
  rw [h]
  rfl

theorem placed_run {a : Str} (ha : '\n' ∉ a) : ∀ {line : Int} {m : Mode} {b : Str} {l : Lexing},
    lexFrom true ⟨[], m⟩ a = some l →
    lexPlaced line m (a ++ b) = (lexPlaced line l.mode b).map fun ts => l.tokens.map (fun t => (line, t)) ++ ts := by
  induction a with
  | nil =>
    intro line m b l h
    cases h
    simp
  | cons c a ih =>
    intro line m b l h
    unfold lexFrom at h
    obtain ⟨k, hk, h⟩ := Option.bind_eq_some_iff.1 h
    have hc : c ≠ '\n' := fun e => ha (e ▸ List.mem_cons_self ..)
    have hac := lexFrom_acc (keep := true) k.tokens [] k.mode a
    rw [List.append_nil] at hac
    rw [show lexFrom true k a = some l from h] at hac
    obtain ⟨l', hl', e⟩ := Option.map_eq_some_iff.1 hac.symm
    rw [List.cons_append, placed_step hk, if_neg hc, ih (fun hm => ha (List.mem_cons_of_mem _ hm)) hl']
    subst e
    cases lexPlaced line l'.mode b <;> simp

theorem placed_row {a : Str} (ha : '\n' ∉ a) {r : List Token} (h : Closed true (a ++ ['\n']) r) (line : Int) (b : Str) :
    lexPlaced line .between (a ++ '\n' :: b) =
      (lexPlaced (line + 1) .between b).map fun ts => r.map (fun t => (line, t)) ++ ts := by
  have h0 := h [] []
  rw [List.append_nil, lexFrom_append] at h0
  obtain ⟨l, hl, h1⟩ := Option.bind_eq_some_iff.1 h0
  have h2 : lexStep true l '\n' = some ⟨r, .between⟩ := by
    unfold lexFrom at h1
    obtain ⟨k, hk, h1⟩ := Option.bind_eq_some_iff.1 h1
    rw [hk]
    cases h1
    rfl
  have h3 := lexStep_acc (keep := true) l.tokens [] l.mode '\n'
  rw [List.append_nil] at h3
  rw [show lexStep true ⟨l.tokens, l.mode⟩ '\n' = _ from h2] at h3
  obtain ⟨k, hk, e⟩ := Option.map_eq_some_iff.1 h3.symm
  obtain ⟨kt, km⟩ := k
  simp only [Lexing.mk.injEq] at e
  obtain ⟨e1, rfl⟩ := e
  rw [placed_run ha hl, placed_step hk, if_pos rfl]
  subst e1
  cases lexPlaced (line + 1) .between b <;> simp

theorem placed_spaces {a : Str} (h : ∀ c ∈ a, isSpace c = true) (line : Int) (b : Str) :
    lexPlaced line .between (a ++ b) = lexPlaced (line + (a.filter (· = '\n')).length) .between b := by
  induction a generalizing line with
  | nil => simp
  | cons c a ih =>
    have hs : lexStep true ⟨[], .between⟩ c = some ⟨[], .between⟩ := by
      show some (fresh [] c) = _
      unfold fresh
      rw [if_pos (h c (List.mem_cons_self ..))]
    rw [List.cons_append, placed_step hs]
    simp only [List.map_nil, List.nil_append, Option.map_id_fun', id]
    rw [ih fun d hd => h d (List.mem_cons_of_mem _ hd)]
    by_cases e : c = '\n'
    · rw [if_pos e, List.filter_cons_of_pos (by simpa using e), List.length_cons]
      congr 1
      omega
    · rw [if_neg e, List.filter_cons_of_neg (by simpa using e)]

theorem placed_line {d : Nat} {t : Str} (ht : '\n' ∉ t) {r : List Token} (h : Closed true (t ++ ['\n']) r)
    (line : Int) (b : Str) :
    lexPlaced line .between (lineText d t ++ b) =
      (lexPlaced (line + 1) .between b).map fun ts => r.map (fun t => (line, t)) ++ ts := by
  have h1 := closed_lineText (keep := true) d h
  unfold lineText at h1 ⊢
  rw [List.append_assoc, List.singleton_append]
  refine placed_row (fun hm => ?_) h1 line b
  obtain ⟨w, hw, _⟩ := trimRight_parts (List.replicate (2 * d) ' ' ++ t)
  have := List.mem_append_left w hm
  rw [← hw] at this
  rcases List.mem_append.1 this with h | h
  · exact absurd (List.eq_of_mem_replicate h) (by decide)
  · exact ht h

theorem placed_items {items : List Item} {rows : List (List Token)} (h : Rows true items rows) (hf : Flat items)
    (hp : problemsOf items = []) (line : Int) (b : Str) :
    lexPlaced line .between (textOf items ++ b) =
      (lexPlaced (line + rows.length) .between b).map fun ts => place line rows ++ ts := by
  induction h generalizing line with
  | nil => simp [textOf, place]
  | @cons i items r rows h _ ih =>
    cases i with
    | problem f => cases hp
    | line d t =>
      obtain ⟨h1, h2⟩ := flat_cons_line.1 hf
      rw [show textOf (.line d t :: items) = lineText d t ++ textOf items from rfl, List.append_assoc,
        placed_line h1 h, ih h2 (problems_cons hp)]
      have : line + 1 + (rows.length : Int) = line + ((r :: rows).length : Int) := by
        rw [List.length_cons]; omega
      rw [this]
      cases lexPlaced (line + ((r :: rows).length : Int)) .between b <;> simp [place]

/-- White space before the end changes nothing. -/
theorem placed_trailing {line : Int} {m : Mode} (h : Sane ⟨[], m⟩) {a : Str} (ha : ∀ c ∈ a, isSpace c = true) :
    lexPlaced line m (a ++ ['\n']) = lexPlaced line m ['\n'] := by
  induction a generalizing m line with
  | nil => rfl
  | cons c a ih =>
    have hc := ha c (List.mem_cons_self ..)
    have ha := fun d hd => ha d (List.mem_cons_of_mem _ hd)
    have e1 : lexPlaced line m (c :: a ++ ['\n']) = lexPlaced line m [c, '\n'] := by
      rw [List.cons_append]
      cases hs : lexStep true ⟨[], m⟩ c with
      | none => unfold lexPlaced; rw [hs]; rfl
      | some l =>
        rw [placed_step hs, placed_step hs, ih (m := l.mode) ?_ ha]
        have := sane_step h hs
        exact this
    rw [e1]
    have hw : isWordChar c = false := by
      cases hw : isWordChar c with
      | false => rfl
      | true => exact absurd hc (by simp [wordChar_not_space hw])
    have hf : ∀ ts, fresh ts c = ⟨ts, .between⟩ := fun ts => by unfold fresh; rw [if_pos hc]
    have hn : ∀ ts, fresh ts '\n' = ⟨ts, .between⟩ := fun ts => rfl
    have h1 : ∀ k : Char, isSpace k = false → c ≠ k := fun k hk e => by subst e; rw [hk] at hc; cases hc
    have hend : ∀ l : Int, lexPlaced l .between ['\n'] = some [] := fun l => rfl
    cases m with
    | between =>
      rw [placed_step (l := ⟨[], .between⟩) (by show some (fresh [] c) = _; rw [hf]), hend]
      rfl
    | word s =>
      rw [placed_step (l := ⟨[.word s], .between⟩) (by
        show (if isWordChar c then _ else some (fresh _ c)) = _
        rw [if_neg (by simp [hw]), hf]; rfl), hend]
      rfl
    | text q s =>
      have hq : isSpace q = false := h
      by_cases e : c = '\n'
      · subst e; rfl
      · rw [placed_step (l := ⟨[], .text q (s ++ [c])⟩) (by
          show (if _ then _ else _) = _
          rw [if_neg e, if_neg (h1 q hq), if_neg (h1 '\\' (by decide))]), if_neg e]
        rfl
    | escape q s =>
      by_cases e : c = '\n'
      · subst e; rfl
      · rw [placed_step (l := ⟨[], .text q (s ++ [c])⟩) (by
          show (if _ then _ else _) = _
          rw [if_neg e]), if_neg e]
        rfl
    | slash =>
      rw [placed_step (l := ⟨[.sym '/'], .between⟩) (by
        show (if _ then _ else _) = _
        rw [if_neg (h1 '/' (by decide)), if_neg (h1 '*' (by decide)), hf]; rfl), hend]
      rfl
    | line s =>
      by_cases e : c = '\n'
      · subst e; rfl
      · rw [placed_step (l := ⟨[], .line (s ++ [c])⟩) (by
          show (if _ then _ else _) = _
          rw [if_neg e]), if_neg e]
        show (some [(line, Token.comment (trimRightBy isSpace (s ++ [c])))]).map _ = some [(line, Token.comment (trimRightBy isSpace s))]
        rw [trimRight_space hc]
        rfl
    | block s =>
      rw [placed_step (l := ⟨[], .block s⟩) (by
        show (if _ then _ else _) = _
        rw [if_neg (h1 '*' (by decide)), if_pos hc])]
      rfl
    | star s =>
      rw [placed_step (l := ⟨[], .block (s ++ ['*'])⟩) (by
        show (if _ then _ else _) = _
        rw [if_neg (h1 '/' (by decide)), if_neg (h1 '*' (by decide)), if_pos hc])]
      rfl

theorem placed_congr {a b b' : Str}
    (h : ∀ (line : Int) (m : Mode), Sane ⟨[], m⟩ → lexPlaced line m b = lexPlaced line m b') :
    ∀ (line : Int) (m : Mode), Sane ⟨[], m⟩ → lexPlaced line m (a ++ b) = lexPlaced line m (a ++ b') := by
  induction a with
  | nil => exact h
  | cons c a ih =>
    intro line m hm
    rw [List.cons_append, List.cons_append]
    cases hs : lexStep true ⟨[], m⟩ c with
    | none => unfold lexPlaced; rw [hs]; rfl
    | some l => rw [placed_step hs, placed_step hs, ih _ l.mode (show Sane l from sane_step hm hs)]

/-- The tokens of a file: on which line it begins does not matter. -/
theorem placed_finish {items : List Item} {rows : List (List Token)} (h : Rows true items rows) (hf : Flat items)
    (hp : problemsOf items = []) :
    ∃ line, lexPlaced 1 .between (finish items) = some (place line rows) := by
  obtain ⟨w, hw, hws⟩ := trimRight_parts (trimLeftBy isSpace (textOf items))
  have hsplit : textOf items = (textOf items).takeWhile isSpace ++ trimLeftBy isSpace (textOf items) :=
    List.takeWhile_append_dropWhile.symm
  generalize hk : (((textOf items).takeWhile isSpace).filter (· = '\n')).length = k at *
  refine ⟨1 - k, ?_⟩
  have h0 : lexPlaced (1 - k) .between (textOf items ++ ['\n']) = some (place (1 - k) rows) := by
    rw [placed_items h hf hp, show ∀ l : Int, lexPlaced l .between ['\n'] = some [] from fun _ => rfl]
    simp
  have h1 : lexPlaced 1 .between (trimSpace (textOf items) ++ ['\n']) = some (place (1 - k) rows) := by
    rw [← h0]
    conv => rhs; rw [hsplit]
    rw [List.append_assoc, placed_spaces fun c hc => mem_takeWhile hc]
    rw [show (1 - (k : Int) + (((textOf items).takeWhile isSpace).filter (· = '\n')).length) = 1 by rw [hk]; omega]
    conv => rhs; rw [hw]
    rw [List.append_assoc]
    exact placed_congr (fun line m hm => (placed_trailing hm hws).symm) 1 .between trivial
  unfold finish
  by_cases e : trimSpace (textOf items) = []
  · rw [if_pos e]
    rw [e] at h1
    exact h1
  · rw [if_neg e]
    exact h1

/-! ## Rows -/

theorem Closed.unique {a : Str} {s t : List Token} (h : Closed keep a s) (k : Closed keep a t) : s = t := by
  have := (h [] []).symm.trans (k [] [])
  simpa [lexFrom] using this

theorem Row.unique {i : Item} {s t : List Token} (h : Row keep i s) (k : Row keep i t) : s = t := by
  cases i with
  | line d a => exact Closed.unique (show Closed keep (a ++ ['\n']) s from h) k
  | problem f => exact (show s = [] from h).trans (show t = [] from k).symm

theorem Rows.unique {a : List Item} {s t : List (List Token)} (h : Rows keep a s) (k : Rows keep a t) : s = t := by
  induction h generalizing t with
  | nil => cases k; rfl
  | cons h _ ih => cases k with | cons k1 k2 => rw [h.unique k1, ih k2]

theorem Rows.split {a b : List Item} {s : List (List Token)} (h : Rows keep (a ++ b) s) :
    ∃ t u, s = t ++ u ∧ Rows keep a t ∧ Rows keep b u := by
  induction a generalizing s with
  | nil => exact ⟨[], s, rfl, .nil, h⟩
  | cons i a ih =>
    cases h with
    | cons h1 h2 =>
      obtain ⟨t, u, rfl, ht, hu⟩ := ih h2
      exact ⟨_ :: t, u, rfl, .cons h1 ht, hu⟩

theorem Rows.length {a : List Item} {s : List (List Token)} (h : Rows keep a s) : s.length = a.length := by
  induction h with
  | nil => rfl
  | cons _ _ ih => rw [List.length_cons, List.length_cons, ih]

/-- A text that is not only white space has tokens. -/
theorem visible_from : ∀ {a : Str} {m : Mode} {ts : List Token},
    lexFrom true ⟨[], m⟩ a = some ⟨ts, .between⟩ → (m ≠ .between ∨ ∃ c ∈ a, isSpace c = false) → ts ≠ [] := by
  intro a
  induction a with
  | nil =>
    intro m ts h hm
    cases h
    rcases hm with hm | ⟨c, hc, _⟩
    · exact (hm rfl).elim
    · exact (List.not_mem_nil hc).elim
  | cons c a ih =>
    intro m ts h hm
    unfold lexFrom at h
    obtain ⟨k, hk, h⟩ := Option.bind_eq_some_iff.1 h
    have hac := lexFrom_acc (keep := true) k.tokens [] k.mode a
    rw [List.append_nil] at hac
    rw [show lexFrom true k a = _ from h] at hac
    obtain ⟨l', hl', e⟩ := Option.map_eq_some_iff.1 hac.symm
    obtain ⟨lt, lm⟩ := l'
    simp only [Lexing.mk.injEq] at e
    obtain ⟨e, rfl⟩ := e
    intro hts
    rw [hts] at e
    obtain ⟨ek, el⟩ := List.append_eq_nil_iff.1 e
    refine absurd el (ih hl' ?_)
    have hfresh : ∀ us c, (fresh us c).tokens = [] → (fresh us c).mode = .between → isSpace c = true := by
      intro us c h1 h2
      unfold fresh at h1 h2
      by_cases hs : isSpace c = true
      · exact hs
      · rw [if_neg hs] at h1 h2
        (repeat' split at h2) <;> first | cases h2 | skip
        simp_all
    have hfresh' : ∀ u us c, (fresh (us ++ [u]) c).tokens ≠ [] := by
      intro u us c
      unfold fresh
      (repeat' split) <;> simp
    by_cases hb : k.mode = .between
    · obtain ⟨kt, km⟩ := k
      dsimp only at ek hb
      subst ek hb
      cases m with
      | between =>
        have hk : fresh [] c = ⟨[], .between⟩ := Option.some.inj hk
        have hc := hfresh [] c (by rw [hk]) (by rw [hk])
        rcases hm with hm | ⟨d, hd, hs⟩
        · exact (hm rfl).elim
        · rcases List.mem_cons.1 hd with rfl | hd
          · rw [hc] at hs; cases hs
          · exact .inr ⟨d, hd, hs⟩
      | word s =>
        unfold lexStep at hk
        dsimp only at hk
        split at hk
        · cases hk
        · exact absurd (congrArg Lexing.tokens (Option.some.inj hk)) (hfresh' (.word s) [] c)
      | slash =>
        unfold lexStep at hk
        dsimp only at hk
        (repeat' split at hk)
        · cases hk
        · cases hk
        · exact absurd (congrArg Lexing.tokens (Option.some.inj hk)) (hfresh' (.sym '/') [] c)
      | _ =>
        unfold lexStep at hk
        dsimp only at hk
        (repeat' split at hk) <;> cases hk
    · exact .inl hb

theorem Closed.visible {a : Str} {r : List Token} (h : Closed true (a ++ ['\n']) r) {c : Char} (hc : c ∈ a)
    (hs : isSpace c = false) : r ≠ [] :=
  visible_from (by have := h [] []; rw [List.append_nil] at this; exact this)
    (.inr ⟨c, List.mem_append_left _ hc, hs⟩)

end Verif.Format
