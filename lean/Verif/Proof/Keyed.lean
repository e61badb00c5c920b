import Verif.Go.Keyed

/-! # Lemmas about maps keyed by a field of the value -/

namespace Verif

variable {α κ : Type} [DecidableEq κ] {key : α → κ}

theorem kset_of_not_mem {l : List α} {a : α} (h : ∀ x ∈ l, key x ≠ key a) :
    kset key l a = l ++ [a] := by
  induction l with
  | nil => rfl
  | cons x xs ih =>
    have hx : key x ≠ key a := h x (by simp)
    simp [kset, hx, ih fun y hy => h y (by simp [hy])]

theorem kmap_foldl_of_nodup {l acc : List α} (h : ((acc ++ l).map key).Nodup) :
    l.foldl (kset key) acc = acc ++ l := by
  induction l generalizing acc with
  | nil => simp
  | cons a l ih =>
    have hn : ∀ x ∈ acc, key x ≠ key a := by
      intro x hx he
      simp only [List.map_append, List.map_cons, List.nodup_append] at h
      exact h.2.2 (key x) (List.mem_map_of_mem hx) (key a) (by simp) he
    rw [List.foldl_cons, kset_of_not_mem hn, ih (by simpa using h)]
    simp

/-- A map filled from elements with distinct keys holds exactly these elements. -/
theorem kmap_of_nodup {l : List α} (h : (l.map key).Nodup) : kmap key l = l := by
  have := kmap_foldl_of_nodup (key := key) (l := l) (acc := []) (by simpa using h)
  simpa [kmap] using this

theorem kget_eq_none {l : List α} {k : κ} : kget key l k = none ↔ ∀ a ∈ l, key a ≠ k := by
  simp [kget]

theorem kget_some_mem {l : List α} {k : κ} {a : α} (h : kget key l k = some a) :
    a ∈ l ∧ key a = k := by
  unfold kget at h
  exact ⟨List.mem_of_find?_eq_some h, by simpa using List.find?_some h⟩

theorem eq_of_key_eq {l : List α} (hn : (l.map key).Nodup) {a b : α} (ha : a ∈ l) (hb : b ∈ l)
    (h : key a = key b) : a = b := by
  induction l with
  | nil => cases ha
  | cons x xs ih =>
    simp only [List.map_cons, List.nodup_cons] at hn
    rcases List.mem_cons.1 ha with rfl | ha <;> rcases List.mem_cons.1 hb with rfl | hb
    · rfl
    · exact absurd (h ▸ List.mem_map_of_mem hb) hn.1
    · rename_i ha'
      exact absurd (h ▸ List.mem_map_of_mem ha') hn.1
    · exact ih hn.2 ha hb

theorem kget_eq_some {l : List α} (hn : (l.map key).Nodup) {k : κ} {a : α} :
    kget key l k = some a ↔ a ∈ l ∧ key a = k := by
  refine ⟨kget_some_mem, fun ⟨ha, hk⟩ => ?_⟩
  cases h : kget key l k with
  | none => exact absurd hk (kget_eq_none.1 h a ha)
  | some b =>
    have := kget_some_mem h
    rw [eq_of_key_eq hn this.1 ha (by rw [this.2, hk])]

/-! ## Maps filled from elements with possibly equal keys -/

theorem kget_kset {l : List α} {a : α} {k : κ} :
    kget key (kset key l a) k = if key a = k then some a else kget key l k := by
  induction l with
  | nil => simp [kset, kget]
  | cons x xs ih =>
    by_cases hx : key x = key a
    · simp only [kset, hx, if_true, kget, List.find?_cons]
      by_cases hk : key a = k <;> simp [hk]
    · simp only [kset, hx, if_false, kget, List.find?_cons] at ih ⊢
      by_cases hk : key x = k
      · have : key a ≠ k := fun h => hx (hk.trans h.symm)
        simp [hk, this]
      · simp [hk, ih]

/-- The last element with the key wins. -/
theorem kget_kmap {l : List α} {k : κ} :
    kget key (kmap key l) k = (l.filter fun a => key a = k).getLast? := by
  suffices h : ∀ acc : List α, kget key (l.foldl (kset key) acc) k =
      ((l.filter fun a => key a = k).getLast?).or (kget key acc k) by
    simpa [kmap, kget] using h []
  induction l with
  | nil => intro acc; simp
  | cons a l ih =>
    intro acc
    rw [List.foldl_cons, ih, kget_kset]
    by_cases hk : key a = k
    · simp only [hk, List.filter_cons, decide_true, if_true, List.getLast?_cons]
      cases (List.filter (fun a => decide (key a = k)) l).getLast? <;> simp
    · simp [hk, List.filter_cons]

theorem kset_keys_nodup {l : List α} {a : α} (h : (l.map key).Nodup) :
    ((kset key l a).map key).Nodup := by
  induction l with
  | nil => simp [kset]
  | cons x xs ih =>
    simp only [List.map_cons, List.nodup_cons] at h
    by_cases hx : key x = key a
    · simp only [kset, hx, if_true, List.map_cons, List.nodup_cons]
      exact ⟨hx ▸ h.1, h.2⟩
    · simp only [kset, hx, if_false, List.map_cons, List.nodup_cons]
      refine ⟨?_, ih h.2⟩
      have hmem : ∀ (ys : List α) (y : κ), y ∈ (kset key ys a).map key → y ∈ ys.map key ∨ y = key a := by
        intro ys
        induction ys with
        | nil => intro y hy; simp [kset] at hy; exact .inr hy
        | cons z zs ihz =>
          intro y hy
          by_cases hz : key z = key a
          · simp only [kset, hz, if_true, List.map_cons, List.mem_cons] at hy ⊢
            rcases hy with hy | hy
            · exact .inr hy
            · exact .inl (.inr hy)
          · simp only [kset, hz, if_false, List.map_cons, List.mem_cons] at hy ⊢
            rcases hy with hy | hy
            · exact .inl (.inl hy)
            · rcases ihz y hy with h | h
              · exact .inl (.inr h)
              · exact .inr h
      intro hm
      rcases hmem xs _ hm with h' | h'
      · exact h.1 h'
      · exact hx h'

theorem kmap_keys_nodup {l : List α} : ((kmap key l).map key).Nodup := by
  suffices h : ∀ acc : List α, (acc.map key).Nodup → ((l.foldl (kset key) acc).map key).Nodup from
    h [] (by simp)
  induction l with
  | nil => intro acc h; simpa using h
  | cons a l ih => intro acc h; exact ih _ (kset_keys_nodup h)

theorem mem_kmap {l : List α} {a : α} (h : a ∈ kmap key l) :
    (l.filter fun b => key b = key a).getLast? = some a := by
  rw [← kget_kmap]
  exact (kget_eq_some kmap_keys_nodup).2 ⟨h, rfl⟩

theorem mem_kmap_iff {l : List α} {a : α} :
    a ∈ kmap key l ↔ (l.filter fun b => key b = key a).getLast? = some a := by
  refine ⟨mem_kmap, fun h => ?_⟩
  rw [← kget_kmap] at h
  exact (kget_some_mem h).1

/-! ## setInsert -/

theorem mem_setInsert {l : List κ} {a x : κ} : x ∈ setInsert l a ↔ x ∈ l ∨ x = a := by
  unfold setInsert
  split
  · rename_i h
    constructor
    · exact .inl
    · rintro (h' | rfl) <;> assumption
  · simp

theorem mem_foldl_setInsert {l acc : List κ} {x : κ} :
    x ∈ l.foldl setInsert acc ↔ x ∈ acc ∨ x ∈ l := by
  induction l generalizing acc with
  | nil => simp
  | cons a l ih => rw [List.foldl_cons, ih, mem_setInsert]; simp [or_assoc]

/-! ## mapLoop -/

theorem findSome_perm_none {β : Type} {l l' : List β} {f : β → Option Err} (h : l.Perm l') :
    l.findSome? f = none ↔ l'.findSome? f = none := by
  simp only [List.findSome?_eq_none_iff]
  exact ⟨fun g x hx => g x (h.mem_iff.2 hx), fun g x hx => g x (h.mem_iff.1 hx)⟩

theorem mapLoop_ok {β γ : Type} (o : Order) (site : Site) (l : List γ) (g : γ → β)
    (f : γ → Except Err β) (h : ∀ x ∈ l, f x = .ok (g x)) :
    mapLoop o site (l.map f) = .ok (l.map g) := by
  have hl : l.map f = l.map fun x => Except.ok (g x) := List.map_congr_left h
  unfold mapLoop
  rw [hl]
  have : (o.ord site (l.map fun x => Except.ok (g x))).findSome? (errOf (β := β)) = none := by
    rw [findSome_perm_none (o.perm site _), List.findSome?_eq_none_iff]
    intro x hx
    obtain ⟨y, _, rfl⟩ := List.mem_map.1 hx
    rfl
  rw [this]
  simp [List.filterMap_map, Function.comp_def, okOf]

end Verif
