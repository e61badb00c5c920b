import Verif.Spec.Derived
import Verif.Proof.Names

/-! # Lemmas on the values derived from packages -/

namespace Verif.Protostrs

open Verif Str Spec

/-- A character of an identifier. -/
theorem Identifier.char {s : Str} (h : Identifier s) {x : Char} (hx : x ∈ s) :
    isLetter x = true ∨ isDigit x = true ∨ x = '_' := by
  obtain ⟨c, t, rfl, hc, ht⟩ := h
  rcases List.mem_cons.1 hx with rfl | hx
  · rcases hc with h | h
    · exact .inl h
    · exact .inr (.inr h)
  · exact ht x hx

theorem not_separator {x : Char} (h : isLetter x = true ∨ isDigit x = true ∨ x = '_') :
    isSeparator x = false := by
  unfold isSeparator
  have hn : x.toNat < 128 := by
    rcases h with h | h | h
    · unfold isLetter at h
      rw [Bool.or_eq_true, isUpper_iff, isLower_iff] at h
      omega
    · rw [isDigit_iff] at h; omega
    · subst h; decide
  rw [if_pos hn]
  rcases h with h | h | h <;> simp [h]

theorem no_period {s : Str} (h : Identifier s) : '.' ∉ s := fun hm => by
  have := not_separator (Identifier.char h hm)
  exact absurd this (by decide)

theorem identifier_ne_nil {s : Str} (h : Identifier s) : s ≠ [] := by
  obtain ⟨c, t, rfl, _⟩ := h
  simp

theorem titleGo_inside (q : Char) (hq : isSeparator q = false) (t rest : Str)
    (ht : ∀ x ∈ t, isSeparator x = false) :
    titleGo q (t ++ rest) = t ++ titleGo (t.getLastD q) rest := by
  induction t generalizing q with
  | nil => rfl
  | cons x t ih =>
    have hx := ht x List.mem_cons_self
    rw [List.cons_append, titleGo, hq, ih x hx fun y hy => ht y (List.mem_cons_of_mem _ hy)]
    rw [List.getLastD_cons]; simp

theorem getLastD_mem {t : Str} {q : Char} : t.getLastD q ∈ q :: t := by
  induction t generalizing q with
  | nil => exact List.mem_singleton.2 rfl
  | cons x t ih =>
    rw [List.getLastD_cons]
    exact List.mem_cons_of_mem _ ih

theorem titleGo_word (p : Char) (hp : isSeparator p = true) {w : Str} (h : Identifier w) (rest : Str) :
    ∃ q, isSeparator q = false ∧ titleGo p (w ++ rest) = capitalize w ++ titleGo q rest := by
  obtain ⟨c, t, rfl, hc, ht⟩ := h
  have hall : ∀ x ∈ c :: t, isSeparator x = false := fun x hx =>
    not_separator (Identifier.char ⟨c, t, rfl, hc, ht⟩ hx)
  refine ⟨t.getLastD c, hall _ getLastD_mem, ?_⟩
  rw [List.cons_append, titleGo, if_pos hp,
    titleGo_inside c (hall c List.mem_cons_self) t rest fun x hx => hall x (List.mem_cons_of_mem _ hx)]
  rfl

theorem titleGo_words (p : Char) (hp : isSeparator p = true) {cs : List Str}
    (h : ∀ c ∈ cs, Identifier c) : titleGo p (join s%"." cs) = join s%"." (cs.map capitalize) := by
  induction cs generalizing p with
  | nil => rfl
  | cons c cs ih =>
    have hc := h c List.mem_cons_self
    cases cs with
    | nil =>
      obtain ⟨q, _, he⟩ := titleGo_word p hp hc []
      rw [List.append_nil] at he
      show titleGo p c = capitalize c
      rw [he]; simp [titleGo]
    | cons d ds =>
      obtain ⟨q, hq, he⟩ := titleGo_word p hp hc (s%"." ++ join s%"." (d :: ds))
      show titleGo p (c ++ s%"." ++ join s%"." (d :: ds)) =
        capitalize c ++ s%"." ++ join s%"." ((d :: ds).map capitalize)
      rw [List.append_assoc, he, List.singleton_append, titleGo, hq,
        ih '.' (by decide) fun x hx => h x (List.mem_cons_of_mem _ hx)]
      simp

theorem title_words {cs : List Str} (h : PackageParts cs) :
    title (packageName cs) = packageName (cs.map capitalize) :=
  titleGo_words ' ' (by decide) h.identifiers

theorem split_components {cs : List Str} (h : PackageParts cs) :
    splitChar '.' (packageName cs) = cs :=
  splitChar_join '.' h.nonempty fun c hc => no_period (h.identifiers c hc)

theorem packageName_ne_nil {cs : List Str} (h : PackageParts cs) : packageName cs ≠ [] := by
  obtain ⟨h1, h2⟩ := h
  match cs, h1 with
  | [c], _ => exact identifier_ne_nil (h2 c List.mem_cons_self)
  | c :: d :: ds, _ =>
    intro h
    have : c ++ s%"." ++ join s%"." (d :: ds) = [] := h
    simp at this

theorem capitalize_no_period {c : Str} (h : Identifier c) : '.' ∉ capitalize c := by
  have hp := no_period h
  obtain ⟨x, t, rfl, hx, _⟩ := h
  intro hm
  rcases List.mem_cons.1 hm with hm | hm
  · have h1 := upperChar_toNat x
    have h2 : (upperChar x).toNat = 46 := by rw [← hm]; rfl
    rcases hx with hx | hx
    · unfold isLetter at hx
      rw [Bool.or_eq_true] at hx
      rcases hx with hx | hx
      · rw [upperChar_of_not_lower (isUpper_not_lower hx)] at h2
        rw [isUpper_iff] at hx; omega
      · have := isUpper_upperChar_of_lower hx
        rw [isUpper_iff] at this; omega
    · subst hx; exact absurd h2 (by decide)
  · exact hp (List.mem_cons_of_mem _ hm)

theorem replaceChar_join {cs : List Str} (h : ∀ c ∈ cs, '.' ∉ c) (by_ : Str) :
    replaceChar '.' by_ (join s%"." cs) = join by_ cs := by
  have word : ∀ c : Str, '.' ∉ c → replaceChar '.' by_ c = c := by
    intro c hc
    induction c with
    | nil => rfl
    | cons x t ih =>
      have hx : x ≠ '.' := fun e => hc (by simp [e])
      unfold replaceChar at ih ⊢
      rw [List.flatMap_cons, if_neg hx, ih fun hm => hc (List.mem_cons_of_mem _ hm)]
      rfl
  induction cs with
  | nil => rfl
  | cons c cs ih =>
    have hc := word c (h c List.mem_cons_self)
    cases cs with
    | nil => exact hc
    | cons d ds =>
      have := ih fun x hx => h x (List.mem_cons_of_mem _ hx)
      show replaceChar '.' by_ (c ++ s%"." ++ join s%"." (d :: ds)) = c ++ by_ ++ join by_ (d :: ds)
      unfold replaceChar at this hc ⊢
      rw [List.flatMap_append, List.flatMap_append, this, hc]
      simp

/-- The version is the last of at least two components. -/
theorem versioned_components {cs : List Str} (h : PackageParts cs) {major beta : Nat}
    (hv : VersionedAs (packageName cs) major beta) :
    ∃ ds v, cs = ds ++ [v] ∧ ds ≠ [] ∧ PackageParts ds := by
  have hm := (Props.C13_majorBetaVersion _ _ _).2 hv
  unfold majorBetaVersion at hm
  rw [if_neg (packageName_ne_nil h)] at hm
  dsimp only at hm
  rw [split_components h] at hm
  split at hm
  · cases hm
  · rename_i hlen
    refine ⟨cs.dropLast, cs.getLast h.nonempty, (List.dropLast_concat_getLast h.nonempty).symm, ?_, ?_⟩
    · intro he
      have := List.length_dropLast (xs := cs)
      rw [he, List.length_nil] at this
      omega
    · refine ⟨?_, fun c hc => h.identifiers c (List.dropLast_sublist cs |>.mem hc)⟩
      intro he
      have := List.length_dropLast (xs := cs)
      rw [he, List.length_nil] at this
      omega

theorem initials_eq (cs : List Str) :
    (cs.flatMap fun (element : Str) =>
      match element with
      | [] => []
      | c :: _ => [upperChar c]) = initials cs := by
  unfold initials
  induction cs with
  | nil => rfl
  | cons c cs ih =>
    rw [List.flatMap_cons, ih, List.filterMap_cons]
    cases c <;> rfl

theorem initials_ne_nil {cs : List Str} (h : PackageParts cs) : initials cs ≠ [] := by
  obtain ⟨h1, h2⟩ := h
  match cs, h1 with
  | c :: cs, _ =>
    obtain ⟨x, t, rfl, _⟩ := h2 c List.mem_cons_self
    exact List.cons_ne_nil _ _

theorem pad_eq {s : Str} (h : s ≠ []) :
    (match s.length with
      | 0 => []
      | 1 => s ++ s%"XX"
      | 2 => s ++ s%"X"
      | 3 => if s = s%"GPB" then s%"GPX" else s
      | _ => s) = abbreviation s := by
  unfold abbreviation
  match s, h with
  | [a], _ =>
    show [a, 'X', 'X'] = _
    rw [if_neg (by intro h; injections)]; rfl
  | [a, b], _ =>
    show [a, b, 'X'] = _
    rw [if_neg (by intro h; injections)]; rfl
  | [a, b, c], _ =>
    show (if [a, b, c] = s%"GPB" then s%"GPX" else [a, b, c]) = _
    split
    · rfl
    · exact (List.append_nil _).symm
  | a :: b :: c :: d :: t, _ =>
    have hn : a :: b :: c :: d :: t ≠ s%"GPB" := by intro h; injections
    show a :: b :: c :: d :: t = _
    rw [if_neg hn]
    have : 3 - (a :: b :: c :: d :: t).length = 0 := by simp only [List.length_cons]; omega
    rw [this]
    exact (List.append_nil _).symm

end Verif.Protostrs
