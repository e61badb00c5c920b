import Verif.Spec.Path
import Verif.Go.Path
import Verif.Proof.Split

/-!
# Lemmas about absolute paths
-/

namespace Verif.Path

open Verif Str Spec

theorem components_nil : Components [] := by intro c h; cases h

theorem components_append {a b : List Str} : Components (a ++ b) ↔ Components a ∧ Components b := by
  unfold Components
  constructor
  · intro h
    exact ⟨fun c hc => h c (by simp [hc]), fun c hc => h c (by simp [hc])⟩
  · rintro ⟨h, g⟩ c hc
    rcases List.mem_append.1 hc with hc | hc
    · exact h c hc
    · exact g c hc

theorem components_cons {c : Str} {b : List Str} : Components (c :: b) ↔ Component c ∧ Components b := by
  unfold Components; simp

theorem components_single {c : Str} : Components [c] ↔ Component c := by
  unfold Components; simp

theorem flatMap_slash {cs : List Str} (h : cs ≠ []) :
    (cs.flatMap fun c => '/' :: c) = '/' :: join s%"/" cs := by
  induction cs with
  | nil => exact absurd rfl h
  | cons c cs ih =>
    cases cs with
    | nil => simp [join]
    | cons d ds =>
      rw [List.flatMap_cons, ih (by simp)]
      simp [join]

theorem absPath_eq (cs : List Str) : absPath cs = '/' :: join s%"/" cs := by
  cases cs with
  | nil => rfl
  | cons c cs => exact flatMap_slash (by simp)

theorem absPath_nil : absPath [] = s%"/" := rfl

theorem absPath_ne_nil {cs : List Str} (h : cs ≠ []) : absPath cs = cs.flatMap fun c => '/' :: c := by
  cases cs with
  | nil => exact absurd rfl h
  | cons c cs => rfl

theorem isAbs_absPath (cs : List Str) : isAbs (absPath cs) = true := by
  rw [absPath_eq]; rfl

theorem noSlash {cs : List Str} (h : Components cs) : ∀ c ∈ cs, '/' ∉ c := fun c hc => (h c hc).2.1

theorem split_absPath {cs : List Str} (h : Components cs) (hne : cs ≠ []) :
    splitChar '/' (absPath cs) = [] :: cs := by
  rw [absPath_eq]
  have : splitChar '/' ('/' :: join s%"/" cs) = [] :: splitChar '/' (join s%"/" cs) := by
    conv => lhs; rw [splitChar]
    simp
  rw [this, splitChar_join '/' hne (noSlash h)]

theorem split_root : splitChar '/' (absPath []) = [[], []] := by rfl

theorem absPath_inj {a b : List Str} (ha : Components a) (hb : Components b)
    (h : absPath a = absPath b) : a = b := by
  have hs : splitChar '/' (absPath a) = splitChar '/' (absPath b) := by rw [h]
  by_cases ea : a = []
  · by_cases eb : b = []
    · rw [ea, eb]
    · rw [split_absPath hb eb] at hs
      subst ea
      rw [split_root] at hs
      injection hs with _ hs
      have : Component [] := hb [] (by rw [← hs]; simp)
      exact absurd rfl this.1
  · by_cases eb : b = []
    · rw [split_absPath ha ea] at hs
      subst eb
      rw [split_root] at hs
      injection hs with _ hs
      have : Component [] := ha [] (by rw [hs]; simp)
      exact absurd rfl this.1
    · rw [split_absPath ha ea, split_absPath hb eb] at hs
      injection hs

/-! ## Clean -/

theorem cleanStep_component {rooted : Bool} {stack : List Str} {c : Str} (h : Component c) :
    cleanStep rooted stack c = c :: stack := by
  obtain ⟨h1, _, h3, h4⟩ := h
  unfold cleanStep
  rw [if_neg h1, if_neg h3, if_neg h4]

theorem foldl_cleanStep {rooted : Bool} {cs stack : List Str} (h : Components cs) :
    cs.foldl (cleanStep rooted) stack = cs.reverse ++ stack := by
  induction cs generalizing stack with
  | nil => rfl
  | cons c cs ih =>
    rw [components_cons] at h
    rw [List.foldl_cons, cleanStep_component h.1, ih h.2]
    simp

theorem cleanStep_nil (rooted : Bool) (stack : List Str) : cleanStep rooted stack [] = stack := by
  unfold cleanStep; rw [if_pos rfl]

theorem cleanComps_absPath {cs : List Str} (h : Components cs) : cleanComps true (absPath cs) = cs := by
  unfold cleanComps
  by_cases e : cs = []
  · subst e; rfl
  · rw [split_absPath h e, List.foldl_cons, cleanStep_nil, foldl_cleanStep h]
    simp

theorem clean_of_abs {p : Str} (h : isAbs p = true) : clean p = absPath (cleanComps true p) := by
  unfold clean
  simp only [h, if_true]
  rw [absPath_eq]

theorem clean_absPath {cs : List Str} (h : Components cs) : clean (absPath cs) = absPath cs := by
  rw [clean_of_abs (isAbs_absPath cs), cleanComps_absPath h]

/-- What `cleanStep` keeps when the path is rooted: components only. -/
theorem cleanStep_components {stack : List Str} {c : Str} (hs : Components stack) (hc : '/' ∉ c) :
    Components (cleanStep true stack c) := by
  unfold cleanStep
  split
  · exact hs
  · split
    · exact hs
    · split
      · split
        · exact components_nil
        · rename_i t ts
          rw [components_cons] at hs
          split
          · rename_i e; exact absurd e hs.1.2.2.2
          · exact hs.2
      · rename_i h1 h2 h3
        rw [components_cons]
        exact ⟨⟨h1, hc, h2, h3⟩, hs⟩

theorem foldl_cleanStep_components {l stack : List Str} (hs : Components stack)
    (hl : ∀ c ∈ l, '/' ∉ c) : Components (l.foldl (cleanStep true) stack) := by
  induction l generalizing stack with
  | nil => exact hs
  | cons c cs ih =>
    exact ih (cleanStep_components hs (hl c (by simp))) fun d hd => hl d (by simp [hd])

theorem components_reverse {l : List Str} : Components l.reverse ↔ Components l := by
  unfold Components; simp

theorem cleanComps_components (p : Str) : Components (cleanComps true p) := by
  unfold cleanComps
  rw [components_reverse]
  exact foldl_cleanStep_components components_nil fun c hc => splitChar_no_sep hc

theorem clean_isAbsPath {p : Str} (h : isAbs p = true) : IsAbsPath (clean p) :=
  ⟨_, cleanComps_components p, clean_of_abs h⟩

theorem clean_of_isAbsPath {p : Str} (h : IsAbsPath p) : clean p = p := by
  obtain ⟨cs, h, rfl⟩ := h
  exact clean_absPath h

theorem isAbs_of_isAbsPath {p : Str} (h : IsAbsPath p) : isAbs p = true := by
  obtain ⟨cs, _, rfl⟩ := h
  exact isAbs_absPath cs

/-! ## Dir, Base, Join -/

theorem absPath_snoc {cs : List Str} {c : Str} (h : cs ≠ []) : absPath (cs ++ [c]) = absPath cs ++ '/' :: c := by
  rw [absPath_ne_nil h, absPath_ne_nil (by simp)]
  simp

theorem absPath_single (c : Str) : absPath [c] = '/' :: c := by
  rw [absPath_eq]; rfl

theorem dropWhile_append_of_all {α : Type} {p : α → Bool} {a b : List α} (h : ∀ x ∈ a, p x = true) :
    (a ++ b).dropWhile p = b.dropWhile p := by
  induction a with
  | nil => rfl
  | cons x xs ih =>
    rw [List.cons_append, List.dropWhile_cons, if_pos (h x (by simp))]
    exact ih fun y hy => h y (by simp [hy])

theorem takeWhile_append_of_all {α : Type} {p : α → Bool} {a b : List α} (h : ∀ x ∈ a, p x = true) :
    (a ++ b).takeWhile p = a ++ b.takeWhile p := by
  induction a with
  | nil => rfl
  | cons x xs ih =>
    rw [List.cons_append, List.takeWhile_cons, if_pos (h x (by simp)),
      ih fun y hy => h y (by simp [hy])]
    rfl

theorem dropSlash {c : Str} (h : '/' ∉ c) (q : Str) :
    ((q ++ '/' :: c).reverse.dropWhile (· ≠ '/')).reverse = q ++ ['/'] := by
  have : (q ++ '/' :: c).reverse = c.reverse ++ ('/' :: q.reverse) := by simp
  rw [this, dropWhile_append_of_all]
  · simp [List.dropWhile_cons]
  · intro x hx
    have : x ≠ '/' := fun e => h (by rw [← e]; exact List.mem_reverse.1 hx)
    simpa using this

theorem clean_trailing {cs : List Str} (h : Components cs) (hne : cs ≠ []) :
    clean (absPath cs ++ ['/']) = absPath cs := by
  have ha : isAbs (absPath cs ++ ['/']) = true := by rw [absPath_eq]; rfl
  rw [clean_of_abs ha]
  congr 1
  unfold cleanComps
  have : splitChar '/' (absPath cs ++ ['/']) = splitChar '/' (absPath cs) ++ [[]] :=
    splitChar_append_last '/' (absPath cs) (w := []) (by simp)
  rw [this, List.foldl_append, split_absPath h hne]
  simp [cleanStep_nil, foldl_cleanStep h]

theorem dir_snoc {cs : List Str} {c : Str} (h : Components (cs ++ [c])) :
    dir (absPath (cs ++ [c])) = absPath cs := by
  rw [components_append, components_single] at h
  unfold dir
  by_cases e : cs = []
  · subst e
    rw [List.nil_append, absPath_single]
    have := dropSlash h.2.2.1 []
    simp only [List.nil_append] at this
    rw [this]; rfl
  · rw [absPath_snoc e, dropSlash h.2.2.1, clean_trailing h.1 e]

theorem dir_root : dir (absPath []) = absPath [] := by rfl

theorem base_snoc {cs : List Str} {c : Str} (h : Components (cs ++ [c])) :
    base (absPath (cs ++ [c])) = c := by
  rw [components_append, components_single] at h
  obtain ⟨_, hne, hslash, _, _⟩ := h
  have key : ∀ q : Str, base (q ++ '/' :: c) = c := by
    intro q
    unfold base
    rw [if_neg (by simp)]
    have hrev : (q ++ '/' :: c).reverse = c.reverse ++ ('/' :: q.reverse) := by simp
    have hdrop : (q ++ '/' :: c).reverse.dropWhile (· = '/') = c.reverse ++ ('/' :: q.reverse) := by
      rw [hrev]
      cases hc : c.reverse with
      | nil => exact absurd (by simpa using hc) hne
      | cons x xs =>
        rw [List.cons_append, List.dropWhile_cons, if_neg]
        have : x ≠ '/' := fun e => hslash (by rw [← List.mem_reverse, hc, e]; simp)
        simpa using this
    have htake : (c.reverse ++ ('/' :: q.reverse)).takeWhile (· ≠ '/') = c.reverse := by
      rw [takeWhile_append_of_all]
      · simp [List.takeWhile_cons]
      · intro x hx
        have : x ≠ '/' := fun e => hslash (by rw [← e]; exact List.mem_reverse.1 hx)
        simpa using this
    dsimp only
    rw [hdrop, htake, List.reverse_reverse, if_neg hne]
  by_cases e : cs = []
  · subst e; rw [List.nil_append, absPath_single]; exact key []
  · rw [absPath_snoc e]; exact key _

theorem joinPath_two {a : Str} (h : a ≠ []) (b : Str) : joinPath [a, b] = clean (a ++ s%"/" ++ b) := by
  have : [a, b].dropWhile (· = []) = [a, b] := by
    rw [List.dropWhile_cons, if_neg (by simpa using h)]
  unfold joinPath
  simp only [this, join]

/-- `filepath.Join` of an absolute path with anything. -/
theorem joinPath_absPath {cs : List Str} (h : Components cs) (r : Str) :
    joinPath [absPath cs, r] =
      absPath (((splitChar '/' r).foldl (cleanStep true) cs.reverse).reverse) := by
  rw [joinPath_two (by rw [absPath_eq]; simp)]
  have ha : isAbs (absPath cs ++ s%"/" ++ r) = true := by rw [absPath_eq]; rfl
  rw [clean_of_abs ha]
  congr 1
  unfold cleanComps
  congr 1
  have hsplit : ∀ (a b : Str), splitChar '/' (a ++ '/' :: b) = splitChar '/' a ++ splitChar '/' b := by
    intro a b
    induction a with
    | nil => simp [splitChar]
    | cons x xs ih =>
      rw [List.cons_append, splitChar, splitChar]
      split
      · rw [ih]; rfl
      · rw [ih]
        cases hx : splitChar '/' xs with
        | nil => exact absurd hx (splitChar_ne_nil _ _)
        | cons w ws => rfl
  have : absPath cs ++ s%"/" ++ r = absPath cs ++ '/' :: r := by simp
  rw [this, hsplit, List.foldl_append]
  congr 1
  by_cases e : cs = []
  · subst e; rfl
  · rw [split_absPath h e, List.foldl_cons, cleanStep_nil, foldl_cleanStep h]; simp

theorem joinPath_isAbsPath {p : Str} (h : IsAbsPath p) (r : Str) : IsAbsPath (joinPath [p, r]) := by
  obtain ⟨cs, h, rfl⟩ := h
  rw [joinPath_absPath h]
  refine ⟨_, ?_, rfl⟩
  rw [components_reverse]
  exact foldl_cleanStep_components (components_reverse.2 h) fun c hc => splitChar_no_sep hc

theorem joinPath_component {cs : List Str} {c : Str} (h : Components (cs ++ [c])) :
    joinPath [absPath cs, c] = absPath (cs ++ [c]) := by
  rw [components_append, components_single] at h
  rw [joinPath_absPath h.1, splitChar_of_not_mem h.2.2.1]
  simp [cleanStep_component h.2]

/-! ## Within -/

theorem within_iff {cs ds : List Str} (hc : Components cs) (hd : Components ds) :
    Within (absPath cs) (absPath ds) ↔ ds <+: cs := by
  constructor
  · rintro ⟨a, b, hab, e1, e2⟩
    have ea := absPath_inj hd (components_append.1 hab).1 e1
    have eb := absPath_inj hc hab e2
    rw [ea, eb]; exact ⟨b, rfl⟩
  · rintro ⟨b, rfl⟩
    exact ⟨ds, b, hc, rfl, rfl⟩

theorem below_iff {cs ds : List Str} (hc : Components cs) (hd : Components ds) :
    Below (absPath cs) (absPath ds) ↔ ds <+: cs ∧ ds ≠ cs := by
  constructor
  · rintro ⟨a, b, hab, hb, e1, e2⟩
    have ea := absPath_inj hd (components_append.1 hab).1 e1
    have eb := absPath_inj hc hab e2
    rw [ea, eb]
    refine ⟨⟨b, rfl⟩, fun e => hb ?_⟩
    have : (a ++ b).length = a.length := by rw [← e]
    simpa using this
  · rintro ⟨⟨b, rfl⟩, hne⟩
    refine ⟨ds, b, hc, fun e => hne (by simp [e]), rfl, rfl⟩

theorem within_refl {p : Str} (h : IsAbsPath p) : Within p p := by
  obtain ⟨cs, h, rfl⟩ := h
  exact ⟨cs, [], by simpa using h, rfl, by simp⟩

theorem within_isAbsPath {p d : Str} (h : Within p d) : IsAbsPath p ∧ IsAbsPath d := by
  obtain ⟨a, b, hab, rfl, rfl⟩ := h
  exact ⟨⟨_, hab, rfl⟩, ⟨_, (components_append.1 hab).1, rfl⟩⟩

theorem below_isAbsPath {p d : Str} (h : Below p d) : IsAbsPath p ∧ IsAbsPath d := by
  obtain ⟨a, b, hab, _, rfl, rfl⟩ := h
  exact ⟨⟨_, hab, rfl⟩, ⟨_, (components_append.1 hab).1, rfl⟩⟩

theorem within_iff_below {p d : Str} (hp : IsAbsPath p) (hd : IsAbsPath d) :
    Within p d ↔ p = d ∨ Below p d := by
  obtain ⟨cs, hc, rfl⟩ := hp
  obtain ⟨ds, hd, rfl⟩ := hd
  rw [within_iff hc hd, below_iff hc hd]
  constructor
  · intro h
    by_cases e : ds = cs
    · exact Or.inl (by rw [e])
    · exact Or.inr ⟨h, e⟩
  · rintro (h | h)
    · rw [absPath_inj hc hd h]; exact List.prefix_refl _
    · exact h.1

theorem within_trans {p q r : Str} (h1 : Within p q) (h2 : Within q r) : Within p r := by
  obtain ⟨hp, hq⟩ := within_isAbsPath h1
  obtain ⟨_, hr⟩ := within_isAbsPath h2
  obtain ⟨a, ha, rfl⟩ := hp
  obtain ⟨b, hb, rfl⟩ := hq
  obtain ⟨c, hc, rfl⟩ := hr
  rw [within_iff ha hb] at h1
  rw [within_iff hb hc] at h2
  rw [within_iff ha hc]
  exact h2.trans h1

/-! ## filepath.Rel -/

theorem relComps_absPath {cs : List Str} (h : Components cs) : relComps (absPath cs) = cs := by
  unfold relComps
  by_cases e : cs = []
  · subst e; rfl
  · rw [split_absPath h e, List.filter_cons_of_neg (by simp), List.filter_eq_self]
    intro c hc
    simpa using (h c hc).1

theorem dropCommon_spec (a b : List Str) :
    ∃ p : List Str, a = p ++ (dropCommon a b).1 ∧ b = p ++ (dropCommon a b).2 := by
  induction a generalizing b with
  | nil => exact ⟨[], rfl, by cases b <;> rfl⟩
  | cons x a ih =>
    cases b with
    | nil => exact ⟨[], rfl, rfl⟩
    | cons y b =>
      rw [dropCommon]
      by_cases e : x = y
      · rw [if_pos e]
        obtain ⟨p, h1, h2⟩ := ih b
        exact ⟨x :: p, by rw [List.cons_append, ← h1], by rw [List.cons_append, ← h2, e]⟩
      · rw [if_neg e]
        exact ⟨[], rfl, rfl⟩

theorem dropCommon_append (p b : List Str) : dropCommon p (p ++ b) = ([], b) := by
  induction p with
  | nil => cases b <;> rfl
  | cons x p ih => rw [List.cons_append, dropCommon, if_pos rfl, ih]

/-- `filepath.Rel` between absolute paths always succeeds. -/
theorem rel_absPath {bs ts : List Str} (hb : Components bs) (ht : Components ts) :
    rel (absPath bs) (absPath ts) = some (if ts = bs then s%"." else
      join s%"/" ((dropCommon bs ts).1.map (fun _ => s%"..") ++ (dropCommon bs ts).2)) := by
  unfold rel
  rw [clean_absPath hb, clean_absPath ht]
  dsimp only
  by_cases e : ts = bs
  · rw [if_pos (by rw [e]), if_pos e]
  · rw [if_neg (fun h => e (absPath_inj ht hb h)), if_neg e]
    have hdot : absPath bs ≠ s%"." := by rw [absPath_eq]; simp
    rw [if_neg hdot, isAbs_absPath, isAbs_absPath, if_neg (by simp), relComps_absPath hb, relComps_absPath ht]
    rw [if_neg]
    intro h
    obtain ⟨p, h1, _⟩ := dropCommon_spec bs ts
    cases hd : (dropCommon bs ts).1 with
    | nil => rw [hd] at h; cases h
    | cons x xs =>
      rw [hd] at h h1
      injection h with h
      exact (hb x (by rw [h1]; simp)).2.2.2 h

/-- The relative path of something within the base. -/
theorem rel_within {bs ts : List Str} (h : Components (bs ++ ts)) (hne : ts ≠ []) :
    rel (absPath bs) (absPath (bs ++ ts)) = some (join s%"/" ts) := by
  rw [rel_absPath (components_append.1 h).1 h, if_neg (by
    intro e
    have := congrArg List.length e
    simp only [List.length_append] at this
    exact hne (List.length_eq_zero_iff.1 (by omega))), dropCommon_append]
  rfl

end Verif.Path
