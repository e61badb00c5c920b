import Verif.Proof.Strs
import Verif.Spec.Strs

/-! # Lemmas on CamelCase words -/

namespace Verif.Strs

open Str Spec

theorem toSnakeGo_append_no_upper (p : Option Char) (t rest : Str) (c : Char)
    (h : ∀ x ∈ c :: t, isUpper x = false) :
    toSnakeGo p ((c :: t) ++ rest) = (c :: t) ++ toSnakeGo (some ((c :: t).getLast (by simp))) rest := by
  induction t generalizing p c with
  | nil =>
    have hc := h c (List.mem_cons_self ..)
    cases p <;> simp [toSnakeGo, underscoreBefore, hc]
  | cons d ds ih =>
    have hc := h c (List.mem_cons_self ..)
    have := ih (some c) d (fun x hx => h x (List.mem_cons_of_mem _ hx))
    show toSnakeGo p (c :: ((d :: ds) ++ rest)) = _
    rw [toSnakeGo, this]
    cases p <;> simp [underscoreBefore, hc]

theorem camelWord_no_underscore {w : Str} (h : CamelWord w) : '_' ∉ w := by
  obtain ⟨c, t, rfl, hc, _, ht⟩ := h.shape
  intro hm
  rcases List.mem_cons.mp hm with e | hm
  · subst e; revert hc; decide
  · have := ht _ hm; revert this; decide

theorem camelWord_alnum {w : Str} (h : CamelWord w) :
    ∀ x ∈ w, isLetter x = true ∨ isDigit x = true := by
  obtain ⟨c, t, rfl, hc, _, ht⟩ := h.shape
  intro x hx
  rcases List.mem_cons.mp hx with rfl | hx
  · left; simp [isLetter, hc]
  · rcases ht x hx with h | h
    · left; simp [isLetter, h]
    · right; exact h

theorem toSnakeGo_word (p : Option Char) {w : Str} (h : CamelWord w) (rest : Str)
    (hp : p ≠ some '_') :
    ∃ q, q ≠ '_' ∧ toSnakeGo p (w ++ rest) =
      (if p = none then w else '_' :: w) ++ toSnakeGo (some q) rest := by
  have hu := camelWord_no_underscore h
  obtain ⟨c, t, rfl, hc, ht0, ht⟩ := h.shape
  cases t with
  | nil => exact absurd rfl ht0
  | cons d ds =>
    have hno : ∀ x ∈ d :: ds, isUpper x = false := fun x hx => by
      rcases ht x hx with h | h
      · exact isLower_not_upper h
      · exact isDigit_not_upper h
    refine ⟨(d :: ds).getLast (by simp), fun e => hu ?_, ?_⟩
    · rw [← e]; exact List.mem_cons_of_mem _ (List.getLast_mem _)
    · show toSnakeGo p (c :: ((d :: ds) ++ rest)) = _
      rw [toSnakeGo, toSnakeGo_append_no_upper _ _ _ _ hno]
      have hd := hno d (List.mem_cons_self ..)
      cases p with
      | none => simp [underscoreBefore]
      | some q =>
        have hq : q ≠ '_' := fun e => hp (by rw [e])
        simp [underscoreBefore, hc, hq, hd]

theorem toSnakeGo_words (q : Char) (hq : q ≠ '_') {ws : List Str} (h : ∀ w ∈ ws, CamelWord w) :
    toSnakeGo (some q) ws.flatten = ws.flatMap ('_' :: ·) := by
  induction ws generalizing q with
  | nil => rfl
  | cons w ws ih =>
    rw [List.flatten_cons]
    obtain ⟨r, hr, he⟩ := toSnakeGo_word (some q) (h w (List.mem_cons_self ..)) ws.flatten
      (by simpa using hq)
    rw [he, ih r hr (fun x hx => h x (List.mem_cons_of_mem _ hx))]
    simp

theorem join_underscore (w : Str) (ws : List Str) :
    join ['_'] (w :: ws) = w ++ ws.flatMap ('_' :: ·) := by
  induction ws generalizing w with
  | nil => simp [join]
  | cons v vs ih =>
    rw [join, ih v]
    · simp
    · simp

theorem flatten_trimmed {ws : List Str} (h : ∀ w ∈ ws, CamelWord w) : trimSpace ws.flatten = ws.flatten := by
  apply trimSpace_eq_self
  apply trimmed_of_all
  intro c hc
  obtain ⟨w, hw, hcw⟩ := List.mem_flatten.mp hc
  exact not_isSpace_of_alnum (camelWord_alnum (h w hw) c hcw)

theorem toSnake_words {ws : List Str} (h : ∀ w ∈ ws, CamelWord w) :
    toSnake ws.flatten = join ['_'] ws := by
  unfold toSnake
  rw [flatten_trimmed h]
  cases ws with
  | nil => rfl
  | cons w ws =>
    rw [List.flatten_cons]
    obtain ⟨r, hr, he⟩ := toSnakeGo_word none (h w (List.mem_cons_self ..)) ws.flatten (by simp)
    rw [he, toSnakeGo_words r hr (fun x hx => h x (List.mem_cons_of_mem _ hx)), join_underscore]
    simp

theorem toLower_join (ws : List Str) : toLower (join ['_'] ws) = join ['_'] (ws.map toLower) := by
  cases ws with
  | nil => rfl
  | cons w ws =>
    rw [List.map_cons, join_underscore, join_underscore]
    induction ws generalizing w with
    | nil => simp [toLower]
    | cons v vs ih =>
      have := ih v
      simp only [toLower, List.map_append, List.flatMap_cons, List.map_cons] at this ⊢
      simp only [List.cons_append]
      rw [show (List.map lowerChar v ++ List.map lowerChar (List.flatMap (fun x => '_' :: x) vs)) = _ from this]
      rfl

theorem toUpper_join (ws : List Str) : toUpper (join ['_'] ws) = join ['_'] (ws.map toUpper) := by
  cases ws with
  | nil => rfl
  | cons w ws =>
    rw [List.map_cons, join_underscore, join_underscore]
    induction ws generalizing w with
    | nil => simp [toUpper]
    | cons v vs ih =>
      have := ih v
      simp only [toUpper, List.map_append, List.flatMap_cons, List.map_cons] at this ⊢
      simp only [List.cons_append]
      rw [show (List.map upperChar v ++ List.map upperChar (List.flatMap (fun x => '_' :: x) vs)) = _ from this]
      rfl

/-! ## Upper camel case -/

theorem isDelimiter_alnum {c : Char} (h : isLetter c = true ∨ isDigit c = true) :
    isDelimiter c = false := by
  simp only [isLetter, Bool.or_eq_true, isUpper_iff, isLower_iff, isDigit_iff] at h
  rw [Bool.eq_false_iff]
  intro h'
  simp only [isDelimiter, Bool.or_eq_true, decide_eq_true_eq] at h'
  rcases h' with ((((h' | h') | h') | h') | h') | h' <;> subst h' <;> revert h <;> decide

theorem toUpperCamelGo_low (q : Char) (hq : isDelimiter q = false) (t rest : Str)
    (h : ∀ x ∈ t, isLower x = true ∨ isDigit x = true) :
    ∃ r, isDelimiter r = false ∧ toUpperCamelGo (some q) (t ++ rest) = t ++ toUpperCamelGo (some r) rest := by
  induction t generalizing q with
  | nil => exact ⟨q, hq, rfl⟩
  | cons d ds ih =>
    have hd := h d (List.mem_cons_self ..)
    have hdel : isDelimiter d = false := isDelimiter_alnum (by
      rcases hd with h | h
      · left; simp [isLetter, h]
      · right; exact h)
    have hup : isUpper d = false := by
      rcases hd with h | h
      · exact isLower_not_upper h
      · exact isDigit_not_upper h
    obtain ⟨r, hr, he⟩ := ih d hdel (fun x hx => h x (List.mem_cons_of_mem _ hx))
    refine ⟨r, hr, ?_⟩
    show toUpperCamelGo (some q) (d :: (ds ++ rest)) = _
    rw [toUpperCamelGo, he]
    simp [hdel, hq, hup, lowerChar_of_not_upper]

theorem toUpperCamelGo_word (p : Option Char) (hp : p = none ∨ p = some '_') {w : Str}
    (h : CamelWord w) (rest : Str) :
    ∃ r, isDelimiter r = false ∧
      toUpperCamelGo p (toLower w ++ rest) = w ++ toUpperCamelGo (some r) rest := by
  obtain ⟨c, t, rfl, hc, _, ht⟩ := h.shape
  have hl := isLower_lowerChar_of_upper hc
  have hdel : isDelimiter (lowerChar c) = false :=
    isDelimiter_alnum (Or.inl (by simp [isLetter, hl]))
  have htl : toLower t = t := by
    unfold toLower
    conv => rhs; rw [← List.map_id t]
    apply List.map_congr_left
    intro x hx
    apply lowerChar_of_not_upper
    rcases ht x hx with h | h
    · exact isLower_not_upper h
    · exact isDigit_not_upper h
  obtain ⟨r, hr, he⟩ := toUpperCamelGo_low (lowerChar c) hdel t rest ht
  refine ⟨r, hr, ?_⟩
  show toUpperCamelGo p (lowerChar c :: (toLower t ++ rest)) = _
  rw [htl]
  rcases hp with rfl | rfl
  · rw [toUpperCamelGo, he]
    simp [hdel, upperChar_lowerChar_of_upper hc]
  · rw [toUpperCamelGo, he]
    have : isDelimiter '_' = true := by decide
    simp [hdel, upperChar_lowerChar_of_upper hc, this]

theorem toUpperCamelGo_words (q : Char) (hq : isDelimiter q = false) {ws : List Str}
    (h : ∀ w ∈ ws, CamelWord w) :
    toUpperCamelGo (some q) ((ws.map toLower).flatMap ('_' :: ·)) = ws.flatten := by
  induction ws generalizing q with
  | nil => rfl
  | cons w ws ih =>
    have hw := h w (List.mem_cons_self ..)
    obtain ⟨r, hr, he⟩ := toUpperCamelGo_word (some '_') (Or.inr rfl) hw
      ((ws.map toLower).flatMap ('_' :: ·))
    rw [List.map_cons, List.flatMap_cons, List.cons_append, toUpperCamelGo, he,
      ih r hr (fun x hx => h x (List.mem_cons_of_mem _ hx))]
    have : isDelimiter '_' = true := by decide
    simp [this]

/-! ## Splitting -/

theorem foldl_splitStep_word (ws : List Str) (cur : Str) (p : Char) (hp : p ≠ '_') (w : Str)
    (hw : '_' ∉ w) :
    ∃ q, q ≠ '_' ∧ w.foldl splitStep ⟨ws, cur, p⟩ = ⟨ws, cur ++ w, q⟩ := by
  induction w generalizing cur p with
  | nil => exact ⟨p, hp, by simp⟩
  | cons c cs ih =>
    have hc : c ≠ '_' := fun e => hw (by simp [e])
    obtain ⟨q, hq, he⟩ := ih (cur ++ [c]) c hc (fun hm => hw (List.mem_cons_of_mem _ hm))
    refine ⟨q, hq, ?_⟩
    simp only [List.foldl_cons, splitStep, hc, hp, ne_eq, not_false_eq_true, if_true, if_false]
    rw [he]; simp

theorem foldl_splitStep_underscore (ws : List Str) (cur : Str) (hcur : cur ≠ []) (p : Char)
    (w : Str) (hne : w ≠ []) (hw : '_' ∉ w) :
    ∃ q, q ≠ '_' ∧ ('_' :: w).foldl splitStep ⟨ws, cur, p⟩ = ⟨ws ++ [cur], w, q⟩ := by
  cases w with
  | nil => exact absurd rfl hne
  | cons c cs =>
    have hc : c ≠ '_' := fun e => hw (by simp [e])
    obtain ⟨q, hq, he⟩ := foldl_splitStep_word (ws ++ [cur]) [c] c hc cs
      (fun hm => hw (List.mem_cons_of_mem _ hm))
    refine ⟨q, hq, ?_⟩
    simp only [List.foldl_cons, splitStep, hc, hcur, ne_eq, not_false_eq_true, not_true_eq_false,
      if_true, if_false]
    rw [he]; simp

theorem foldl_splitStep_words (ws : List Str) (done : List Str) (cur : Str) (hcur : cur ≠ [])
    (p : Char) (hws : ∀ w ∈ ws, w ≠ [] ∧ '_' ∉ w) :
    ∃ st, (ws.flatMap ('_' :: ·)).foldl splitStep ⟨done, cur, p⟩ = st ∧ st.cur ≠ [] ∧
      st.words ++ [st.cur] = done ++ cur :: ws := by
  induction ws generalizing done cur p with
  | nil => exact ⟨_, rfl, hcur, rfl⟩
  | cons w ws ih =>
    have ⟨h1, h2⟩ := hws w (List.mem_cons_self ..)
    obtain ⟨q, _, he⟩ := foldl_splitStep_underscore done cur hcur p w h1 h2
    obtain ⟨st, h3, h4, h5⟩ := ih (done ++ [cur]) w h1 q
      (fun x hx => hws x (List.mem_cons_of_mem _ hx))
    refine ⟨st, ?_, h4, ?_⟩
    · rw [List.flatMap_cons, List.foldl_append, he, h3]
    · rw [h5]; simp

theorem toSnakeGo_split (q : Option Char) (a : Str) (c : Char) (t : Str) :
    ∃ x, toSnakeGo q (a ++ c :: t) = x ++ c :: toSnakeGo (some c) t ∧
      x.filter (· ≠ '_') = a.filter (· ≠ '_') := by
  induction a generalizing q with
  | nil =>
    rw [List.nil_append, toSnakeGo]
    split
    · exact ⟨['_'], rfl, by simp⟩
    · exact ⟨[], rfl, rfl⟩
  | cons y ys ih =>
    obtain ⟨x, hx, hf⟩ := ih (some y)
    rw [List.cons_append, toSnakeGo, hx]
    split
    · exact ⟨'_' :: y :: x, rfl, by simp only [List.filter_cons, hf]; simp⟩
    · exact ⟨y :: x, rfl, by simp only [List.filter_cons, hf]⟩

end Verif.Strs
