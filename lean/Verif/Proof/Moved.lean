import Verif.Spec.Moved
import Verif.Proof.DiscoveryOrder
import Verif.Proof.CompileArgs
import Verif.Proof.RenameRun

/-!
# A moved tree: paths and settings
-/

namespace Verif.Proof.Moved

open Verif Str Path Settings File Spec

variable {r r' : List Str}

theorem symm {p p' : Str} (h : MovedPath r r' p p') : MovedPath r' r p' p := by
  obtain ⟨x, hx, h1, h2⟩ := h
  exact ⟨x, hx, h2, h1⟩

theorem of (x : List Str) (hx : Components x) : MovedPath r r' (absPath (r ++ x)) (absPath (r' ++ x)) :=
  ⟨x, hx, rfl, rfl⟩

section
variable (hr : Components r) (hr' : Components r')
include hr

theorem comps {x : List Str} (hx : Components x) : Components (r ++ x) := components_append.2 ⟨hr, hx⟩

theorem isAbsPath {p p' : Str} (h : MovedPath r r' p p') : IsAbsPath p := by
  obtain ⟨x, hx, h1, _⟩ := h
  exact ⟨r ++ x, comps hr hx, h1⟩

theorem rel_inj {x y : List Str} (hx : Components x) (hy : Components y)
    (h : absPath (r ++ x) = absPath (r ++ y)) : x = y :=
  List.append_cancel_left (absPath_inj (comps hr hx) (comps hr hy) h)

include hr'

theorem eq_iff {p p' q q' : Str} (h : MovedPath r r' p p') (k : MovedPath r r' q q') : p = q ↔ p' = q' := by
  obtain ⟨x, hx, rfl, rfl⟩ := h
  obtain ⟨y, hy, rfl, rfl⟩ := k
  exact ⟨fun e => by rw [rel_inj hr hx hy e], fun e => by rw [rel_inj hr' hx hy e]⟩

theorem within_iff {p p' q q' : Str} (h : MovedPath r r' p p') (k : MovedPath r r' q q') :
    Within p q ↔ Within p' q' := by
  obtain ⟨x, hx, rfl, rfl⟩ := h
  obtain ⟨y, hy, rfl, rfl⟩ := k
  rw [Path.within_iff (comps hr hx) (comps hr hy), Path.within_iff (comps hr' hx) (comps hr' hy),
    List.prefix_append_right_inj, List.prefix_append_right_inj]

theorem below_iff {p p' q q' : Str} (h : MovedPath r r' p p') (k : MovedPath r r' q q') :
    Below p q ↔ Below p' q' := by
  obtain ⟨x, hx, rfl, rfl⟩ := h
  obtain ⟨y, hy, rfl, rfl⟩ := k
  rw [Path.below_iff (comps hr hx) (comps hr hy), Path.below_iff (comps hr' hx) (comps hr' hy),
    List.prefix_append_right_inj, List.prefix_append_right_inj]
  simp

omit hr hr' in
theorem prefix_flat {x : List Str} (hx : Components x) (y : List Str) : absPath (r ++ x) <+: absPath (r ++ y) ↔
    (x.flatMap fun c => '/' :: c) <+: y.flatMap fun c => '/' :: c := by
  by_cases h : r ++ x = []
  · have hx0 : x = [] := (List.append_eq_nil_iff.1 h).2
    rw [h, hx0, absPath_nil, absPath_eq]
    exact ⟨fun _ => List.nil_prefix, fun _ => ⟨_, rfl⟩⟩
  · rw [absPath_ne_nil h]
    by_cases h' : r ++ y = []
    · have hy : y = [] := (List.append_eq_nil_iff.1 h').2
      have hr0 : r = [] := (List.append_eq_nil_iff.1 h').1
      subst hr0 hy
      cases x with
      | nil => exact absurd rfl h
      | cons c x =>
        have hc : c ≠ [] := (hx c (by simp)).1
        constructor
        · rintro ⟨t, ht⟩
          have := congrArg List.length ht
          have hl := List.length_pos_iff.2 hc
          simp only [List.nil_append, List.flatMap_cons, List.length_append, List.length_cons, absPath_nil,
            List.length_nil] at this
          omega
        · rintro ⟨t, ht⟩
          simp at ht
    · rw [absPath_ne_nil h', List.flatMap_append, List.flatMap_append, List.prefix_append_right_inj]

omit hr hr' in
theorem hasPrefix_eq {p p' q q' : Str} (h : MovedPath r r' p p') (k : MovedPath r r' q q') :
    hasPrefix p' q' = hasPrefix p q := by
  obtain ⟨x, hx, rfl, rfl⟩ := h
  obtain ⟨y, hy, rfl, rfl⟩ := k
  have e : ∀ a b : Str, hasPrefix a b = true ↔ b <+: a := by
    intro a b
    rw [hasPrefix_iff]
    exact ⟨fun ⟨t, h⟩ => ⟨t, h.symm⟩, fun ⟨t, h⟩ => ⟨t, h.symm⟩⟩
  rw [Bool.eq_iff_iff, e, e, prefix_flat hy, prefix_flat hy]

/-! ## Directories, relative and joined paths -/

omit hr hr' in
theorem dropCommon_base (s a b : List Str) : dropCommon (s ++ a) (s ++ b) = dropCommon a b := by
  induction s with
  | nil => rfl
  | cons x s ih => rw [List.cons_append, List.cons_append, dropCommon, if_pos rfl, ih]

theorem rel_eq {p p' q q' : Str} (h : MovedPath r r' p p') (k : MovedPath r r' q q') : rel p' q' = rel p q := by
  obtain ⟨x, hx, rfl, rfl⟩ := h
  obtain ⟨y, hy, rfl, rfl⟩ := k
  rw [rel_absPath (comps hr hx) (comps hr hy), rel_absPath (comps hr' hx) (comps hr' hy), dropCommon_base,
    dropCommon_base]
  simp only [List.append_cancel_left_eq]

theorem dir_entry {x : List Str} {c : Str} (h : Components (x ++ [c])) :
    MovedPath r r' (dir (absPath (r ++ (x ++ [c])))) (dir (absPath (r' ++ (x ++ [c])))) := by
  have h1 : Components (r ++ x ++ [c]) := by rw [List.append_assoc]; exact comps hr h
  have h2 : Components (r' ++ x ++ [c]) := by rw [List.append_assoc]; exact comps hr' h
  rw [← List.append_assoc, ← List.append_assoc, dir_snoc h1, dir_snoc h2]
  exact of x (components_append.1 h).1

omit hr hr' in
/-- Cleaning steps that stay in the tree do not see what is above it. -/
theorem foldl_stays {cs : List Str} (hcs : ∀ c ∈ cs, '/' ∉ c) : ∀ {x : List Str}, Components x →
    stays x.length cs = true → ∃ y, Components y ∧ ∀ s, Components s →
      cs.foldl (cleanStep true) (x ++ s) = y ++ s := by
  induction cs with
  | nil => intro x hx _; exact ⟨x, hx, fun s _ => rfl⟩
  | cons c cs ih =>
    intro x hx h
    have ih := @ih (fun d hd => hcs d (by simp [hd]))
    rw [stays.eq_def] at h
    dsimp only at h
    split at h
    · rename_i h0
      obtain ⟨y, hy, e⟩ := ih hx h
      refine ⟨y, hy, fun s hs => ?_⟩
      rw [List.foldl_cons, ← e s hs]
      congr 1
      rcases h0 with rfl | rfl
      · exact cleanStep_nil _ _
      · unfold cleanStep; simp
    · rename_i h0
      have hc0 : c ≠ [] := fun e => h0 (Or.inl e)
      have hc1 : c ≠ s%"." := fun e => h0 (Or.inr e)
      split at h
      · rename_i h1
        subst h1
        cases x with
        | nil => cases h
        | cons d x =>
          obtain ⟨y, hy, e⟩ := ih (components_cons.1 hx).2 h
          refine ⟨y, hy, fun s hs => ?_⟩
          rw [List.foldl_cons, ← e s hs]
          congr 1
          have hd := (components_cons.1 hx).1.2.2.2
          unfold cleanStep
          simp [hd]
      · rename_i h1
        have hcc : Component c := ⟨hc0, hcs c (by simp), hc1, h1⟩
        obtain ⟨y, hy, e⟩ := ih (x := c :: x) (components_cons.2 ⟨hcc, hx⟩) h
        refine ⟨y, hy, fun s hs => ?_⟩
        rw [List.foldl_cons, ← e s hs]
        congr 1
        exact cleanStep_component hcc

/-- A path that does not leave the tree. -/
theorem join {x : List Str} (hx : Components x) {p : Str} (h : InTree x.length p) :
    MovedPath r r' (joinPath [absPath (r ++ x), p]) (joinPath [absPath (r' ++ x), p]) := by
  obtain ⟨y, hy, e⟩ := foldl_stays (cs := splitChar '/' p) (fun c hc => splitChar_no_sep hc)
    (x := x.reverse) (components_reverse.2 hx) (by rw [List.length_reverse]; exact h.2)
  refine ⟨y.reverse, components_reverse.2 hy, ?_, ?_⟩
  · rw [joinPath_absPath (comps hr hx), List.reverse_append, e _ (components_reverse.2 hr), List.reverse_append,
      List.reverse_reverse]
  · rw [joinPath_absPath (comps hr' hx), List.reverse_append, e _ (components_reverse.2 hr'), List.reverse_append,
      List.reverse_reverse]

theorem clean_join {x : List Str} (hx : Components x) {p : Str} (h : InTree x.length p) :
    MovedPath r r' (clean (joinPath [absPath (r ++ x), p])) (clean (joinPath [absPath (r' ++ x), p])) := by
  rw [clean_of_isAbsPath (joinPath_isAbsPath ⟨_, comps hr hx, rfl⟩ p),
    clean_of_isAbsPath (joinPath_isAbsPath ⟨_, comps hr' hx, rfl⟩ p)]
  exact join hr hr' hx h

theorem resolve {x : List Str} (hx : Components x) {p : Str} (h : InTree x.length p) :
    MovedPath r r' (Settings.resolve (absPath (r ++ x)) p) (Settings.resolve (absPath (r' ++ x)) p) := by
  unfold Settings.resolve
  rw [h.1]
  exact clean_join hr hr' hx h

/-! ## Settings -/

omit hr hr' in
theorem pointwise_map_same {α β γ : Type} {R : β → γ → Prop} {f : α → β} {g : α → γ} {l : List α}
    (h : ∀ a ∈ l, R (f a) (g a)) : Pointwise R (l.map f) (l.map g) := by
  induction l with
  | nil => exact .nil
  | cons a l ih => exact .cons (h a (by simp)) (ih fun b hb => h b (by simp [hb]))

theorem excludeLoop {x : List Str} (hx : Components x) (l : List Str) (hl : ∀ p ∈ l, InTree x.length p)
    {es : List Str} (h : Settings.excludeLoop (absPath (r ++ x)) l = .ok es) :
    ∃ es', Settings.excludeLoop (absPath (r' ++ x)) l = .ok es' ∧ Pointwise (MovedPath r r') es es' := by
  induction l generalizing es with
  | nil => rw [Settings.excludeLoop] at h; injection h with h; subst h; exact ⟨[], rfl, .nil⟩
  | cons p l ih =>
    rw [Settings.excludeLoop] at h ⊢
    dsimp only at h ⊢
    have hp := resolve hr hr' hx (hl p (by simp))
    have hd : MovedPath r r' _ _ := of x hx
    rw [hasPrefix_eq hp hd]
    split at h
    · cases h
    · rename_i h1
      rw [if_neg (fun e => h1 ((eq_iff hr hr' hp hd).2 e))]
      split at h
      · cases h
      · rename_i h2
        rw [if_neg h2]
        cases h3 : Settings.excludeLoop (absPath (r ++ x)) l with
        | error e => rw [h3] at h; cases h
        | ok rest =>
          rw [h3] at h
          injection h with h
          subst h
          obtain ⟨rest', hrest, hpw⟩ := ih (fun q hq => hl q (by simp [hq])) h3
          rw [hrest]
          exact ⟨_, rfl, .cons hp hpw⟩

omit hr hr' in
theorem inTree_sortUniq {n : Nat} {l : List Str} (h : ∀ p ∈ l, InTree n p) : ∀ p ∈ Strs.sortUniq l, InTree n p :=
  fun p hp => h p ((mem_sortUniq l p).1 hp).1

theorem includes {x : List Str} (hx : Components x) (l : List Str) (hl : ∀ p ∈ l, InTree x.length p) :
    Pointwise (MovedPath r r') (includePathsOf l (absPath (r ++ x))) (includePathsOf l (absPath (r' ++ x))) :=
  pointwise_map_same fun p hp => resolve hr hr' hx (inTree_sortUniq hl p hp)

/-! ### Maps -/

omit hr hr' in
theorem get_rel {κ κ' ν ν' : Type} [DecidableEq κ] [DecidableEq κ'] {K : κ → κ' → Prop} {V : ν → ν' → Prop}
    (hK : ∀ a a' b b', K a a' → K b b' → (a = b ↔ a' = b')) {m : GoMap κ ν} {m' : GoMap κ' ν'}
    (h : Pointwise (fun a b => K a.1 b.1 ∧ V a.2 b.2) m m') {k : κ} {k' : κ'} (hk : K k k') :
    (m.get? k = none ∧ m'.get? k' = none) ∨ ∃ v v', m.get? k = some v ∧ m'.get? k' = some v' ∧ V v v' := by
  induction h with
  | nil => exact Or.inl ⟨rfl, rfl⟩
  | cons h1 h2 ih =>
    rename_i a b as bs
    rw [GoMap.get?_cons, GoMap.get?_cons]
    by_cases e : a.1 = k
    · rw [if_pos e, if_pos ((hK _ _ _ _ h1.1 hk).1 e)]
      exact Or.inr ⟨_, _, rfl, rfl, h1.2⟩
    · rw [if_neg e, if_neg (fun e' => e ((hK _ _ _ _ h1.1 hk).2 e'))]
      exact ih

omit hr hr' in
theorem set_rel {κ κ' ν ν' : Type} [DecidableEq κ] [DecidableEq κ'] {K : κ → κ' → Prop} {V : ν → ν' → Prop}
    (hK : ∀ a a' b b', K a a' → K b b' → (a = b ↔ a' = b')) {m : GoMap κ ν} {m' : GoMap κ' ν'}
    (h : Pointwise (fun a b => K a.1 b.1 ∧ V a.2 b.2) m m') {k : κ} {k' : κ'} (hk : K k k') {v : ν} {v' : ν'}
    (hv : V v v') : Pointwise (fun a b => K a.1 b.1 ∧ V a.2 b.2) (m.set k v) (m'.set k' v') := by
  induction h with
  | nil => exact .cons ⟨hk, hv⟩ .nil
  | cons h1 h2 ih =>
    rename_i a b as bs
    rw [GoMap.set, GoMap.set]
    by_cases e : a.1 = k
    · rw [if_pos e, if_pos ((hK _ _ _ _ h1.1 hk).1 e)]
      exact .cons ⟨hk, hv⟩ h2
    · rw [if_neg e, if_neg (fun e' => e ((hK _ _ _ _ h1.1 hk).2 e'))]
      exact .cons h1 ih

omit hr hr' in
theorem pw_append {α β : Type} {R : α → β → Prop} {a a' : List α} {b b' : List β} (h : Pointwise R a b)
    (h' : Pointwise R a' b') : Pointwise R (a ++ a') (b ++ b') := by
  induction h with
  | nil => exact h'
  | cons h1 _ ih => exact .cons h1 ih

omit hr hr' in
/-- `m[k] = append(m[k], …)`. -/
theorem append_rel {κ κ' ν ν' : Type} [DecidableEq κ] [DecidableEq κ'] {K : κ → κ' → Prop} {V : ν → ν' → Prop}
    (hK : ∀ a a' b b', K a a' → K b b' → (a = b ↔ a' = b')) {m : GoMap κ (List ν)} {m' : GoMap κ' (List ν')}
    (h : Pointwise (fun a b => K a.1 b.1 ∧ Pointwise V a.2 b.2) m m') {k : κ} {k' : κ'} (hk : K k k') {v : List ν}
    {v' : List ν'} (hv : Pointwise V v v') :
    Pointwise (fun a b => K a.1 b.1 ∧ Pointwise V a.2 b.2) (m.set k ((m.get? k).getD [] ++ v))
      (m'.set k' ((m'.get? k').getD [] ++ v')) := by
  refine set_rel hK h hk (V := Pointwise V) ?_
  rcases get_rel hK h hk with ⟨h1, h2⟩ | ⟨u, u', h1, h2, h3⟩
  · rw [h1, h2]; exact hv
  · rw [h1, h2]; exact pw_append h3 hv

theorem ignores {x : List Str} (hx : Components x) (l : List (Str × List Str))
    (hl : ∀ i ∈ l, ∀ p ∈ i.2, InTree x.length p) :
    Pointwise (fun a b => b.1 = a.1 ∧ Pointwise (MovedPath r r') a.2 b.2) (ignoresOf l (absPath (r ++ x)))
      (ignoresOf l (absPath (r' ++ x))) := by
  unfold ignoresOf
  suffices h : ∀ m m' : GoMap Str (List Str),
      Pointwise (fun a b => b.1 = a.1 ∧ Pointwise (MovedPath r r') a.2 b.2) m m' →
      Pointwise (fun a b => b.1 = a.1 ∧ Pointwise (MovedPath r r') a.2 b.2)
        (l.foldl (fun m ignore =>
          ignore.2.foldl (fun m p => addIgnore m (toUpper ignore.1) (Settings.resolve (absPath (r ++ x)) p)) m) m)
        (l.foldl (fun m ignore =>
          ignore.2.foldl (fun m p => addIgnore m (toUpper ignore.1) (Settings.resolve (absPath (r' ++ x)) p)) m) m') from
    h [] [] .nil
  induction l with
  | nil => intro m m' h; exact h
  | cons i l ih =>
    intro m m' h
    rw [List.foldl_cons, List.foldl_cons]
    refine ih (fun j hj => hl j (by simp [hj])) _ _ ?_
    have hi := hl i (by simp)
    generalize i.2 = ps at hi
    induction ps generalizing m m' with
    | nil => exact h
    | cons p ps ih2 =>
      rw [List.foldl_cons, List.foldl_cons]
      refine ih2 _ _ ?_ (fun q hq => hi q (by simp [hq]))
      exact append_rel (K := fun a b : Str => b = a) (V := MovedPath r r') (fun a a' b b' e1 e2 => by rw [e1, e2]) h
        rfl (.cons (resolve hr hr' hx (hi p (by simp))) .nil)

theorem packages {x : List Str} (hx : Components x) (l : List (Str × Str)) (hl : ∀ i ∈ l, InTree x.length i.1) :
    ∀ {m m' out : GoMap Str Str}, Pointwise (fun a b => MovedPath r r' a.1 b.1 ∧ b.2 = a.2) m m' →
      createPackagesOf (absPath (r ++ x)) l m = .ok out →
      ∃ out', createPackagesOf (absPath (r' ++ x)) l m' = .ok out' ∧
        Pointwise (fun a b => MovedPath r r' a.1 b.1 ∧ b.2 = a.2) out out' := by
  induction l with
  | nil =>
    intro m m' out hm h
    rw [createPackagesOf] at h
    injection h with h
    subst h
    exact ⟨m', rfl, hm⟩
  | cons i l ih =>
    obtain ⟨d, b⟩ := i
    intro m m' out hm h
    rw [createPackagesOf] at h ⊢
    split at h
    · cases h
    · rename_i h1
      rw [if_neg h1]
      split at h
      · cases h
      · rename_i h2
        rw [if_neg h2]
        split at h
        · cases h
        · rename_i h3
          rw [if_neg h3]
          exact ih (fun j hj => hl j (by simp [hj]))
            (set_rel (K := MovedPath r r') (V := fun a b : Str => b = a) (fun a a' b b' e1 e2 => eq_iff hr hr' e1 e2) hm
              (clean_join hr hr' hx (hl (d, b) (by simp))) rfl) h

theorem plugin {x : List Str} (hx : Components x) {p : ExternalPlugin} (hp : InTree x.length p.output)
    {g : GenPlugin} (h : genPluginOf (absPath (r ++ x)) p = .ok g) :
    ∃ g', genPluginOf (absPath (r' ++ x)) p = .ok g' ∧ MovedPlugin r r' g g' := by
  unfold genPluginOf at h ⊢
  split at h
  · cases h
  · rename_i t ht
    split at h
    · cases h
    · rename_i ho
      rw [if_neg ho]
      unfold outputPathOf at h ⊢
      rw [hp.1] at h ⊢
      simp only [if_false, Bool.false_eq_true] at h ⊢
      split at h
      · cases h
      · injection h with h
        subst h
        exact ⟨_, rfl, rfl, clean_join hr hr' hx hp⟩

theorem plugins {x : List Str} (hx : Components x) (l : List ExternalPlugin)
    (hl : ∀ p ∈ l, InTree x.length p.output) : ∀ {gs : List GenPlugin},
      genPluginsOf (absPath (r ++ x)) l = .ok gs →
      ∃ gs', genPluginsOf (absPath (r' ++ x)) l = .ok gs' ∧ Pointwise (MovedPlugin r r') gs gs' := by
  induction l with
  | nil =>
    intro gs h
    rw [genPluginsOf] at h
    injection h with h
    subst h
    exact ⟨[], rfl, .nil⟩
  | cons p l ih =>
    intro gs h
    rw [genPluginsOf] at h ⊢
    cases h1 : genPluginOf (absPath (r ++ x)) p with
    | error e => rw [h1] at h; cases h
    | ok g =>
      rw [h1] at h
      dsimp only at h
      obtain ⟨g', hg, hm⟩ := plugin hr hr' hx (hl p (by simp)) h1
      rw [hg]
      cases h2 : genPluginsOf (absPath (r ++ x)) l with
      | error e => rw [h2] at h; cases h
      | ok gs1 =>
        rw [h2] at h
        injection h with h
        subst h
        obtain ⟨gs', hgs, hms⟩ := ih (fun q hq => hl q (by simp [hq])) h2
        dsimp only
        rw [hgs]
        exact ⟨_, rfl, .cons hm hms⟩

end

end Verif.Proof.Moved
