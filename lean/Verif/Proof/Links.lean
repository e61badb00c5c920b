import Verif.Proof.Extract

/-! # The links between packages -/

namespace Verif.Proof.Extract

open Verif Reflect Verif.Extract Spec

/-- The name of the wrapped package. -/
abbrev xname (p : XPackage) : Str := p.proto.name

/-- `ps'` is `ps` with the links of the edges `E` (from a package to a dependency) added. -/
def Linked (E : Str → Str → Prop) (ps ps' : List XPackage) : Prop :=
  ∀ p' ∈ ps', ∃ p ∈ ps, p'.proto = p.proto ∧
    (∀ d, d ∈ p'.dependencies ↔ d ∈ p.dependencies ∨ (E (xname p) d ∧ d ∈ ps.map xname)) ∧
    (∀ i, i ∈ p'.importers ↔ i ∈ p.importers ∨ E i (xname p))

theorem Linked.trans {E E' F : Str → Str → Prop} {ps ps1 ps2 : List XPackage} (h : Linked E ps ps1)
    (h' : Linked E' ps1 ps2) (hn : ps1.map xname = ps.map xname)
    (hF : ∀ a b, F a b ↔ E a b ∨ E' a b) : Linked F ps ps2 := by
  intro p2 hp2
  obtain ⟨p1, hp1, he1, hd1, hi1⟩ := h' p2 hp2
  obtain ⟨p, hp, he, hd, hi⟩ := h p1 hp1
  refine ⟨p, hp, he1.trans he, ?_, ?_⟩
  · intro d
    rw [hd1, hd, hF, hn, show xname p1 = xname p by simp [xname, he]]
    constructor
    · rintro ((h | ⟨h, h2⟩) | ⟨h, h2⟩)
      · exact .inl h
      · exact .inr ⟨.inl h, h2⟩
      · exact .inr ⟨.inr h, h2⟩
    · rintro (h | ⟨h | h, h2⟩)
      · exact .inl (.inl h)
      · exact .inl (.inr ⟨h, h2⟩)
      · exact .inr ⟨h, h2⟩
  · intro i
    rw [hi1, hi, hF, show xname p1 = xname p by simp [xname, he], or_assoc]

theorem linked_refl {E : Str → Str → Prop} {ps : List XPackage}
    (h : ∀ a b, E a b → b ∉ ps.map xname) : Linked E ps ps := by
  intro p hp
  refine ⟨p, hp, rfl, ?_, ?_⟩
  · intro d
    exact ⟨.inl, fun h' => h'.elim id fun ⟨h1, h2⟩ => absurd h2 (h _ _ h1)⟩
  · intro i
    exact ⟨.inl, fun h' => h'.elim id fun h1 => absurd (List.mem_map_of_mem hp) (h _ _ h1)⟩

theorem linkDependency_linked {b : Bool} {name d : Str} {ps ps' : List XPackage}
    (h : linkDependency b name ps d = .ok ps') : Linked (fun a x => a = name ∧ x = d) ps ps' := by
  unfold linkDependency at h
  split at h
  · rename_i hk
    split at h
    · cases h
      apply linked_refl
      rintro a x ⟨_, rfl⟩ hm
      obtain ⟨p, hp, hx⟩ := List.mem_map.1 hm
      exact kget_eq_none.1 hk p hp hx
    · cases h
  · rename_i q hk
    have hq := kget_some_mem hk
    have hd : d ∈ ps.map xname := List.mem_map.2 ⟨q, hq.1, hq.2⟩
    cases h
    rw [List.map_map]
    intro p' hp'
    obtain ⟨p, hp, rfl⟩ := List.mem_map.1 hp'
    refine ⟨p, hp, ?_, ?_, ?_⟩
    · simp only [Function.comp_apply]
      split <;> split <;> rfl
    · intro x
      simp only [Function.comp_apply]
      by_cases h1 : p.proto.name = name
      · simp only [if_pos h1]
        split
        · simp only [mem_setInsert]
          constructor
          · rintro (h | rfl)
            · exact .inl h
            · exact .inr ⟨⟨h1, rfl⟩, hd⟩
          · rintro (h | ⟨⟨_, rfl⟩, _⟩)
            · exact .inl h
            · exact .inr rfl
        · simp only [mem_setInsert]
          constructor
          · rintro (h | rfl)
            · exact .inl h
            · exact .inr ⟨⟨h1, rfl⟩, hd⟩
          · rintro (h | ⟨⟨_, rfl⟩, _⟩)
            · exact .inl h
            · exact .inr rfl
      · simp only [if_neg h1]
        split
        · exact ⟨.inl, fun h => h.elim id fun ⟨⟨h, _⟩, _⟩ => absurd h h1⟩
        · exact ⟨.inl, fun h => h.elim id fun ⟨⟨h, _⟩, _⟩ => absurd h h1⟩
    · intro i
      simp only [Function.comp_apply]
      have hb : (if p.proto.name = name then
          { p with dependencies := setInsert p.dependencies d } else p).importers = p.importers := by
        split <;> rfl
      by_cases h2 : p.proto.name = d
      · have : (if p.proto.name = name then
          { p with dependencies := setInsert p.dependencies d } else p).proto.name = d := by
          split <;> exact h2
        rw [if_pos this]
        simp only [mem_setInsert, hb]
        constructor
        · rintro (h | rfl)
          · exact .inl h
          · exact .inr ⟨rfl, h2⟩
        · rintro (h | ⟨rfl, _⟩)
          · exact .inl h
          · exact .inr rfl
      · have : ¬ (if p.proto.name = name then
          { p with dependencies := setInsert p.dependencies d } else p).proto.name = d := by
          split <;> exact h2
        rw [if_neg this, hb]
        exact ⟨.inl, fun h => h.elim id fun ⟨_, h⟩ => absurd h h2⟩

theorem linkDependencies_linked {b : Bool} {name : Str} {ds : List Str} {ps ps' : List XPackage}
    (h : linkDependencies b name ds ps = .ok ps') : Linked (fun a x => a = name ∧ x ∈ ds) ps ps' := by
  induction ds generalizing ps with
  | nil => cases h; exact linked_refl (by simp)
  | cons d ds ih =>
    rw [linkDependencies] at h
    split at h
    · cases h
    · rename_i h1
      refine (linkDependency_linked h1).trans (ih h) (names_of_strip (linkDependency_strip h1)) ?_
      intro a x
      rw [List.mem_cons]
      constructor
      · rintro ⟨h, h' | h'⟩
        · exact .inl ⟨h, h'⟩
        · exact .inr ⟨h, h'⟩
      · rintro (⟨h, h'⟩ | ⟨h, h'⟩)
        · exact ⟨h, .inl h'⟩
        · exact ⟨h, .inr h'⟩

/-- The package of that name in the list has that dependency name. -/
def Edge (l : List XPackage) (a x : Str) : Prop := ∃ q ∈ l, a = xname q ∧ x ∈ q.proto.dependencyNames

theorem linkPackages_linked {b : Bool} {l ps ps' : List XPackage}
    (h : linkPackages b l ps = .ok ps') : Linked (Edge l) ps ps' := by
  induction l generalizing ps with
  | nil => cases h; exact linked_refl (by simp [Edge])
  | cons p l ih =>
    rw [linkPackages] at h
    split at h
    · cases h
    · rename_i h1
      refine (linkDependencies_linked h1).trans (ih h) (names_of_strip (linkDependencies_strip h1)) ?_
      intro a x
      unfold Edge
      simp only [List.mem_cons, exists_eq_or_imp]

theorem linkDependency_resolves {b : Bool} {name d : Str} {ps ps' : List XPackage}
    (h : linkDependency b name ps d = .ok ps') : Resolves b ps d := by
  unfold linkDependency at h
  split at h
  · split at h
    · rename_i hi; exact .inr hi
    · cases h
  · rename_i q hk
    have hq := kget_some_mem hk
    exact .inl (List.mem_map.2 ⟨q, hq.1, hq.2⟩)

theorem linkDependencies_resolves {b : Bool} {name : Str} {ds : List Str} {ps ps' : List XPackage}
    (h : linkDependencies b name ds ps = .ok ps') : ∀ d ∈ ds, Resolves b ps d := by
  induction ds generalizing ps with
  | nil => simp
  | cons d ds ih =>
    rw [linkDependencies] at h
    split at h
    · cases h
    · rename_i h1
      intro e he
      rcases List.mem_cons.1 he with rfl | he
      · exact linkDependency_resolves h1
      · have := ih h e he
        unfold Resolves at this ⊢
        rwa [names_of_strip (linkDependency_strip h1)] at this

theorem linkPackages_resolves {b : Bool} {l ps ps' : List XPackage}
    (h : linkPackages b l ps = .ok ps') : ∀ p ∈ l, ∀ d ∈ p.proto.dependencyNames, Resolves b ps d := by
  induction l generalizing ps with
  | nil => simp
  | cons p l ih =>
    rw [linkPackages] at h
    split at h
    · cases h
    · rename_i h1
      intro q hq d hd
      rcases List.mem_cons.1 hq with rfl | hq
      · exact linkDependencies_resolves h1 d hd
      · have := ih h q hq d hd
        unfold Resolves at this ⊢
        rwa [names_of_strip (linkDependencies_strip h1)] at this

theorem fillPackage_links {o : Order} {p p' : XPackage} (h : fillPackage o p = .ok p') :
    p'.proto = p.proto ∧ p'.dependencies = p.dependencies ∧ p'.importers = p.importers := by
  unfold fillPackage at h
  split at h
  · cases h
  · cases h; exact ⟨rfl, rfl, rfl⟩

/-- A loop that succeeds ran every body successfully. -/
theorem mapLoop_inv {β γ : Type} {o : Order} {site : Site} {l : List γ} {f : γ → Except Err β}
    {r : List β} (h : mapLoop o site (l.map f) = .ok r) : l.map f = r.map .ok := by
  unfold mapLoop at h
  split at h
  · cases h
  · rename_i hn
    cases h
    rw [findSome_perm_none (o.perm site _)] at hn
    clear site o
    induction l with
    | nil => rfl
    | cons a l ih =>
      rw [List.map_cons] at hn ⊢
      rw [List.findSome?_cons] at hn
      cases ha : f a with
      | error e => rw [ha] at hn; cases hn
      | ok c =>
        rw [ha] at hn
        rw [List.filterMap_cons]
        show _ = List.map Except.ok (c :: (l.map f).filterMap okOf)
        rw [List.map_cons, ← ih hn]

theorem fill_protos {o : Order} {l r : List XPackage}
    (h : l.map (fillPackage o) = r.map .ok) :
    r.map (fun p => (p.proto, p.dependencies, p.importers)) =
      l.map (fun p => (p.proto, p.dependencies, p.importers)) := by
  induction l generalizing r with
  | nil =>
    cases r with
    | nil => rfl
    | cons _ _ => cases h
  | cons a l ih =>
    cases r with
    | nil => cases h
    | cons c r =>
      simp only [List.map_cons, List.cons.injEq] at h ⊢
      obtain ⟨h1, h2⟩ := h
      obtain ⟨e1, e2, e3⟩ := fillPackage_links h1
      rw [e1, e2, e3]
      exact ⟨rfl, ih h2⟩

/-- What a successful construction returns. -/
theorem newPackageSet_links {o : Order} {ps : PackageSet} {b : Bool} {x : XPackageSet}
    (h : newPackageSet o ps b = .ok x) :
    (x.packages.map xname).Nodup ∧
    x.packages.map (·.proto) = (basePackages b ps).map (·.proto) ∧
    (∀ p ∈ x.packages,
      (∀ d, d ∈ p.dependencies ↔ d ∈ p.proto.dependencyNames ∧ d ∈ x.packages.map xname) ∧
      (∀ i, i ∈ p.importers ↔ ∃ q ∈ x.packages, xname q = i ∧ xname p ∈ q.proto.dependencyNames)) ∧
    (∀ p ∈ x.packages, ∀ d ∈ p.proto.dependencyNames, d ∈ x.packages.map xname ∨ ignorePackage b d = true) := by
  unfold newPackageSet at h
  dsimp only at h
  split at h
  · cases h
  · rename_i linked hl
    split at h
    · cases h
    · rename_i packages hf
      cases h
      have hfill := fill_protos (mapLoop_inv hf)
      have hs := linkPackages_strip hl
      have hpr : packages.map (·.proto) = (basePackages b ps).map (·.proto) := by
        have h1 : packages.map (·.proto) = linked.map (·.proto) := by
          have := congrArg (List.map fun t : Package × List Str × List Str => t.1) hfill
          simpa [List.map_map, Function.comp_def] using this
        have h2 := congrArg (List.map fun p : XPackage => p.proto) hs
        rw [h1]
        simpa [List.map_map, Function.comp_def, strip] using h2
      have hnames : packages.map xname = (basePackages b ps).map xname := by
        have := congrArg (List.map fun p : Package => p.name) hpr
        simpa [List.map_map, Function.comp_def] using this
      have hnd : (packages.map xname).Nodup := by
        rw [hnames]
        exact kmap_keys_nodup (key := fun p : XPackage => p.proto.name)
      have hbase : ∀ p ∈ basePackages b ps, p.dependencies = [] ∧ p.importers = [] := by
        intro p hp
        have := mem_kmap hp
        have := List.mem_of_getLast? this
        obtain ⟨q, _, rfl⟩ := List.mem_map.1 (List.mem_filter.1 this).1
        exact ⟨rfl, rfl⟩
      have hedge : ∀ a d, Edge (o.ord [s%"link"] (basePackages b ps)) a d ↔
          ∃ q ∈ packages, a = xname q ∧ d ∈ q.proto.dependencyNames := by
        intro a d
        unfold Edge
        constructor
        · rintro ⟨q, hq, ha, hd⟩
          have hq := (o.perm _ _).mem_iff.1 hq
          have : q.proto ∈ packages.map (·.proto) := hpr ▸ List.mem_map_of_mem hq
          obtain ⟨q', hq', he⟩ := List.mem_map.1 this
          exact ⟨q', hq', by rw [ha, xname, xname, he], by rw [he]; exact hd⟩
        · rintro ⟨q, hq, ha, hd⟩
          have : q.proto ∈ (basePackages b ps).map (·.proto) := hpr ▸ List.mem_map_of_mem hq
          obtain ⟨q', hq', he⟩ := List.mem_map.1 this
          exact ⟨q', (o.perm _ _).mem_iff.2 hq', by rw [ha, xname, xname, he], by rw [he]; exact hd⟩
      refine ⟨hnd, hpr, ?_, ?_⟩
      · intro p hp
        have hm : (p.proto, p.dependencies, p.importers) ∈
            linked.map (fun p => (p.proto, p.dependencies, p.importers)) :=
          hfill ▸ List.mem_map_of_mem (f := fun p : XPackage => (p.proto, p.dependencies, p.importers)) hp
        obtain ⟨p1, hp1, he⟩ := List.mem_map.1 hm
        simp only [Prod.mk.injEq] at he
        obtain ⟨e1, e2, e3⟩ := he
        obtain ⟨p0, hp0, e0, hd, hi⟩ := linkPackages_linked hl p1 hp1
        have hx : xname p0 = xname p := by rw [xname, xname, ← e0, e1]
        rw [← e2, ← e3]
        refine ⟨?_, ?_⟩
        · intro d
          rw [hd, (hbase p0 hp0).1, hedge, hx, ← hnames]
          simp only [List.not_mem_nil, false_or]
          constructor
          · rintro ⟨⟨q, hq, ha, hdq⟩, hm⟩
            rw [eq_of_key_eq (key := xname) hnd hp hq ha]
            exact ⟨hdq, hm⟩
          · rintro ⟨h1, h2⟩
            exact ⟨⟨p, hp, rfl, h1⟩, h2⟩
        · intro i
          rw [hi, (hbase p0 hp0).2, hedge, hx]
          simp only [List.not_mem_nil, false_or]
          exact ⟨fun ⟨q, hq, h1, h2⟩ => ⟨q, hq, h1.symm, h2⟩, fun ⟨q, hq, h1, h2⟩ => ⟨q, hq, h1.symm, h2⟩⟩
      · intro p hp d hd
        have : p.proto ∈ (basePackages b ps).map (·.proto) := hpr ▸ List.mem_map_of_mem hp
        obtain ⟨p0, hp0, he⟩ := List.mem_map.1 this
        have := linkPackages_resolves hl p0 ((o.perm _ _).mem_iff.2 hp0) d (by rw [he]; exact hd)
        rw [hnames]
        exact this

/-- The packages wrapped, with distinct names. -/
theorem mem_basePackages {b : Bool} {ps : PackageSet} (h : (ps.map (·.name)).Nodup) {p : Package} :
    p ∈ (basePackages b ps).map (·.proto) ↔ p ∈ ps ∧ ignorePackage b p.name = false := by
  rw [basePackages_eq h]
  simp [List.map_map, Function.comp_def, kept]

end Verif.Proof.Extract
