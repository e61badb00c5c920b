import Verif.Proof.ReflectMessage
import Verif.Props.Strs

/-! # Reflection of file descriptor sets -/

namespace Verif.Proof.Reflect

open Verif Descriptor Verif.Reflect Spec

/-! ## Loops that stop at errors -/

theorem eq_map_ok {β : Type} {rs : List (Except Err β)} :
    (∀ r ∈ rs, ∃ b, r = .ok b) → rs = (rs.filterMap okOf).map .ok := by
  induction rs with
  | nil => intro _; rfl
  | cons r rs ih =>
    intro h
    obtain ⟨b, rfl⟩ := h r (by simp)
    rw [List.filterMap_cons]
    show _ = Except.ok b :: (rs.filterMap okOf).map Except.ok
    rw [← ih fun x hx => h x (by simp [hx])]

theorem filterMap_okOf_map {β : Type} (bs : List β) :
    ((bs.map Except.ok : List (Except Err β)).filterMap okOf) = bs := by
  induction bs with
  | nil => rfl
  | cons b bs ih => rw [List.map_cons, List.filterMap_cons]; show b :: _ = _; rw [ih]

theorem map_ok_perm {β : Type} {rs : List (Except Err β)} {bs : List β} (h : rs.Perm (bs.map .ok)) :
    ∃ bs' : List β, rs = bs'.map .ok ∧ bs'.Perm bs := by
  refine ⟨rs.filterMap okOf, eq_map_ok ?_, ?_⟩
  · intro r hr
    obtain ⟨b, _, hb⟩ := List.mem_map.1 (h.mem_iff.1 hr)
    exact ⟨b, hb.symm⟩
  · have := h.filterMap okOf
    rwa [filterMap_okOf_map] at this

theorem mapLoop_ok_iff {β : Type} {o : Order} {site : Site} {rs : List (Except Err β)} {bs : List β} :
    mapLoop o site rs = .ok bs ↔ rs = bs.map .ok := by
  unfold mapLoop
  constructor
  · intro h
    split at h
    · cases h
    · rename_i hn
      cases h
      rw [findSome_perm_none (o.perm site rs), List.findSome?_eq_none_iff] at hn
      refine eq_map_ok fun r hr => ?_
      have := hn r hr
      cases r with
      | error e => cases this
      | ok b => exact ⟨b, rfl⟩
  · rintro rfl
    have hn : (o.ord site (bs.map Except.ok : List (Except Err β))).findSome? errOf = none := by
      rw [findSome_perm_none (o.perm _ _), List.findSome?_eq_none_iff]
      intro r hr
      obtain ⟨b, _, rfl⟩ := List.mem_map.1 hr
      rfl
    rw [hn]
    show Except.ok _ = _
    rw [filterMap_okOf_map]

theorem concatRes_ok {α : Type} {rs : List (Except Err (List α))} {ys : List α} :
    concatRes rs = .ok ys ↔ ∃ xss : List (List α), rs = xss.map .ok ∧ ys = xss.flatten := by
  induction rs generalizing ys with
  | nil =>
    constructor
    · intro h; cases h; exact ⟨[], rfl, rfl⟩
    · rintro ⟨xss, h, rfl⟩
      cases xss with
      | nil => rfl
      | cons x xss => cases h
  | cons r rs ih =>
    cases r with
    | error e =>
      constructor
      · intro h; cases h
      · rintro ⟨xss, h, rfl⟩
        cases xss with
        | nil => cases h
        | cons x xss => cases h
    | ok x =>
      rw [concatRes]
      constructor
      · intro h
        split at h
        · cases h
        · rename_i zs hzs
          cases h
          obtain ⟨xss, h1, rfl⟩ := ih.1 hzs
          exact ⟨x :: xss, by rw [h1]; rfl, rfl⟩
      · rintro ⟨xss, h, rfl⟩
        cases xss with
        | nil => cases h
        | cons y xss =>
          rw [List.map_cons, List.cons.injEq] at h
          obtain ⟨h1, h2⟩ := h
          cases h1
          rw [ih.2 ⟨xss, h2, rfl⟩]
          rfl

theorem concatRes_perm {α : Type} {rs rs' : List (Except Err (List α))} {ys : List α} (hp : rs.Perm rs')
    (h : concatRes rs = .ok ys) : ∃ ys', concatRes rs' = .ok ys' ∧ ys'.Perm ys := by
  obtain ⟨xss, rfl, rfl⟩ := concatRes_ok.1 h
  obtain ⟨xss', rfl, hp'⟩ := map_ok_perm hp.symm
  exact ⟨_, concatRes_ok.2 ⟨xss', rfl, rfl⟩, hp'.flatten⟩

/-! ## Collecting files -/

variable {marshal : FileDesc → Except Err Str}

/-- The files listed for a package. -/
def entry (m : FileMap) (k : Str) : List FileDesc := (m.get? k).getD []

/-- The map holds the processed files, by package. -/
structure Groups (m : FileMap) (P : List FileDesc) : Prop where
  keys : (m.map (·.1)).Nodup
  nonempty : ∀ p ∈ m, p.2 ≠ []
  names : ∀ k, ((entry m k).map (·.name)).Nodup
  mem : ∀ k f, f ∈ entry m k ↔ f ∈ P ∧ f.package = k

theorem groups_nil : Groups [] [] := ⟨by simp, by simp, by simp [entry, GoMap.get?_nil], by simp [entry, GoMap.get?_nil]⟩

theorem entry_of_mem {m : FileMap} {P : List FileDesc} (h : Groups m P) {k : Str} {fs : List FileDesc}
    (hm : (k, fs) ∈ m) : entry m k = fs := by
  unfold entry
  rw [GoMap.get?_of_mem h.keys hm]
  rfl

theorem mem_of_entry {m : FileMap} {k : Str} (h : entry m k ≠ []) : (k, entry m k) ∈ m := by
  unfold entry at *
  cases hg : m.get? k with
  | none => rw [hg] at h; exact absurd rfl h
  | some fs => exact GoMap.get?_some_mem hg

theorem Groups.congr {m : FileMap} {P P' : List FileDesc} (h : Groups m P) (hP : ∀ f, f ∈ P ↔ f ∈ P') :
    Groups m P' := ⟨h.keys, h.nonempty, h.names, fun k f => by rw [h.mem, hP]⟩

theorem groups_add {m : FileMap} {P : List FileDesc} (h : Groups m P) {f : FileDesc}
    (hn : ∀ g ∈ entry m f.package, g.name ≠ f.name) :
    Groups (m.set f.package (entry m f.package ++ [f])) (f :: P) := by
  have he : ∀ k, entry (m.set f.package (entry m f.package ++ [f])) k =
      if f.package = k then entry m f.package ++ [f] else entry m k := by
    intro k
    show (GoMap.get? (GoMap.set m f.package _) k).getD [] = _
    rw [GoMap.get?_set]
    split
    · rfl
    · rfl
  refine ⟨GoMap.set_keys_nodup h.keys _ _, ?_, ?_, ?_⟩
  · intro p hp hnil
    obtain ⟨k, fs⟩ := p
    have hk := GoMap.get?_of_mem (GoMap.set_keys_nodup h.keys f.package (entry m f.package ++ [f])) hp
    rw [GoMap.get?_set] at hk
    split at hk
    · cases hk
      simp at hnil
    · exact h.nonempty _ (GoMap.get?_some_mem hk) hnil
  · intro k
    rw [he]
    split
    · rw [List.map_append, List.nodup_append]
      refine ⟨h.names _, by simp, ?_⟩
      rintro a ha b hb rfl
      obtain ⟨g, hg, rfl⟩ := List.mem_map.1 ha
      simp at hb
      exact hn g hg hb
    · exact h.names k
  · intro k g
    rw [he]
    split
    · rename_i hk
      rw [List.mem_append, h.mem, List.mem_singleton, List.mem_cons]
      constructor
      · rintro (⟨h1, h2⟩ | rfl)
        · exact ⟨.inr h1, h2.trans hk⟩
        · exact ⟨.inl rfl, hk⟩
      · rintro ⟨rfl | h1, h2⟩
        · exact .inr rfl
        · exact .inl ⟨h1, h2.trans hk.symm⟩
    · rename_i hk
      rw [h.mem, List.mem_cons]
      constructor
      · rintro ⟨h1, h2⟩
        exact ⟨.inr h1, h2⟩
      · rintro ⟨rfl | h1, h2⟩
        · exact absurd h2 hk
        · exact ⟨h1, h2⟩

/-- A package name that reflection accepts. -/
def ProperPackage (f : FileDesc) : Prop := f.package ≠ [] ∧ ¬ Qualified f.package

theorem addFile_eq (m : FileMap) (f : FileDesc) (hp : ProperPackage f) :
    addFile marshal m f =
      match kget (·.name) (entry m f.package) f.name with
      | some existing =>
        match marshal f with
        | .error e => .error e
        | .ok data =>
          match marshal existing with
          | .error e => .error e
          | .ok existingData =>
            if data ≠ existingData then .error (s%"unequal FileDescriptorProtos for " ++ f.name)
            else .ok m
      | none => .ok (m.set f.package (entry m f.package ++ [f])) := by
  unfold addFile
  split
  · rename_i h
    exact absurd h hp.1
  · rename_i c cs h
    split
    · rename_i hc
      exact absurd ⟨cs, by rw [h, hc]⟩ hp.2
    · rfl

theorem addFile_proper {m m' : FileMap} {f : FileDesc} (h : addFile marshal m f = .ok m') :
    ProperPackage f := by
  unfold addFile at h
  split at h
  · cases h
  · rename_i c cs hpk
    split at h
    · cases h
    · rename_i hc
      refine ⟨by rw [hpk]; simp, ?_⟩
      rintro ⟨r, hr⟩
      rw [hpk] at hr
      cases hr
      exact hc rfl

theorem addFile_ok {m m' : FileMap} {P : List FileDesc} (hg : Groups m P) {f : FileDesc}
    (hf : FaithfulOn marshal fun g => g ∈ f :: P) (h : addFile marshal m f = .ok m') :
    Groups m' (f :: P) := by
  rw [addFile_eq m f (addFile_proper h)] at h
  cases hk : kget (·.name) (entry m f.package) f.name with
  | none =>
    rw [hk] at h
    cases h
    exact groups_add hg fun g hgm => kget_eq_none.1 hk g hgm
  | some g =>
    rw [hk] at h
    dsimp only at h
    obtain ⟨hgm, hgn⟩ := kget_some_mem hk
    have hgP := ((hg.mem _ _).1 hgm).1
    obtain ⟨x, hx⟩ := hf.total f (by simp)
    obtain ⟨y, hy⟩ := hf.total g (by simp [hgP])
    rw [hx, hy] at h
    dsimp only at h
    split at h
    · cases h
    · rename_i hxy
      have hxy : x = y := Classical.not_not.1 hxy
      cases h
      have : f = g := hf.injective f g x (by simp) (by simp [hgP]) hx (by rw [hxy]; exact hy)
      subst this
      refine hg.congr fun k => ?_
      rw [List.mem_cons]
      exact ⟨.inr, fun h => h.elim (fun h => h ▸ hgP) id⟩

theorem addFile_complete {m : FileMap} {P : List FileDesc} (hg : Groups m P) {f : FileDesc}
    (hf : FaithfulOn marshal fun g => g ∈ f :: P) (hp : ProperPackage f)
    (hs : ∀ g ∈ P, g.name = f.name → g = f) : ∃ m', addFile marshal m f = .ok m' := by
  rw [addFile_eq m f hp]
  cases hk : kget (·.name) (entry m f.package) f.name with
  | none => exact ⟨_, rfl⟩
  | some g =>
    dsimp only
    obtain ⟨hgm, hgn⟩ := kget_some_mem hk
    have hgP := ((hg.mem _ _).1 hgm).1
    rw [hs g hgP hgn]
    obtain ⟨x, hx⟩ := hf.total f (by simp)
    rw [hx]
    simp

theorem collect_ok {L P : List FileDesc} {m m' : FileMap} (hg : Groups m P)
    (hf : FaithfulOn marshal fun g => g ∈ L ∨ g ∈ P) (h : collect marshal L m = .ok m') :
    (∀ f ∈ L, ProperPackage f) ∧ Groups m' (L ++ P) := by
  induction L generalizing m P with
  | nil => cases h; exact ⟨by simp, hg⟩
  | cons f L ih =>
    rw [collect] at h
    split at h
    · cases h
    · rename_i m1 hm1
      have hf1 : FaithfulOn marshal fun g => g ∈ f :: P :=
        ⟨fun g hg => hf.total g (by simp at hg ⊢; rcases hg with h | h <;> simp [h]),
         fun g k x hg hk => hf.injective g k x
           (by simp at hg ⊢; rcases hg with h | h <;> simp [h])
           (by simp at hk ⊢; rcases hk with h | h <;> simp [h])⟩
      have hf2 : FaithfulOn marshal fun g => g ∈ L ∨ g ∈ f :: P :=
        ⟨fun g hg => hf.total g (by simp at hg ⊢; rcases hg with h | h | h <;> simp [h]),
         fun g k x hg hk => hf.injective g k x
           (by simp at hg ⊢; rcases hg with h | h | h <;> simp [h])
           (by simp at hk ⊢; rcases hk with h | h | h <;> simp [h])⟩
      obtain ⟨h1, h2⟩ := ih (addFile_ok hg hf1 hm1) hf2 h
      refine ⟨?_, h2.congr fun g => ?_⟩
      · simp only [List.mem_cons, forall_eq_or_imp]
        exact ⟨addFile_proper hm1, h1⟩
      · simp only [List.mem_append, List.mem_cons]
        constructor
        · rintro (h | h | h)
          · exact .inl (.inr h)
          · exact .inl (.inl h)
          · exact .inr h
        · rintro ((h | h) | h)
          · exact .inr (.inl h)
          · exact .inl h
          · exact .inr (.inr h)

theorem collect_complete {L P : List FileDesc} {m : FileMap} (hg : Groups m P)
    (hf : FaithfulOn marshal fun g => g ∈ L ∨ g ∈ P) (hp : ∀ f ∈ L, ProperPackage f)
    (hs : ∀ f, f ∈ L ∨ f ∈ P → ∀ g, g ∈ L ∨ g ∈ P → f.name = g.name → f = g) :
    ∃ m', collect marshal L m = .ok m' := by
  induction L generalizing m P with
  | nil => exact ⟨_, rfl⟩
  | cons f L ih =>
    have hin : ∀ g, g ∈ f :: P → g ∈ f :: L ∨ g ∈ P := by
      intro g hg; simp at hg ⊢; rcases hg with h | h <;> simp [h]
    have hin2 : ∀ g, g ∈ L ∨ g ∈ f :: P → g ∈ f :: L ∨ g ∈ P := by
      intro g hg; simp at hg ⊢; rcases hg with h | h | h <;> simp [h]
    have hf1 : FaithfulOn marshal fun g => g ∈ f :: P :=
      ⟨fun g hg => hf.total g (hin g hg), fun g k x hg hk => hf.injective g k x (hin g hg) (hin k hk)⟩
    have hf2 : FaithfulOn marshal fun g => g ∈ L ∨ g ∈ f :: P :=
      ⟨fun g hg => hf.total g (hin2 g hg), fun g k x hg hk => hf.injective g k x (hin2 g hg) (hin2 k hk)⟩
    obtain ⟨m1, hm1⟩ := addFile_complete hg hf1 (hp f (by simp))
      (fun g hg hn => hs g (.inr hg) f (.inl (by simp)) hn)
    rw [collect, hm1]
    exact ih (addFile_ok hg hf1 hm1) hf2 (fun g hg => hp g (by simp [hg]))
      (fun a ha b hb => hs a (hin2 a ha) b (hin2 b hb))

/-! ## The table from file names to packages -/

/-- The table loop over (file name, package) pairs. -/
def addPairs : List (Str × Str) → GoMap Str Str → Except Err (GoMap Str Str)
  | [], t => .ok t
  | (n, k) :: rest, t =>
    match t.get? n with
    | some existing =>
      if existing ≠ k then
        .error (s%"mismatched packages names " ++ existing ++ s%" and " ++ k ++ s%" for file " ++ n)
      else addPairs rest t
    | none => addPairs rest (t.set n k)

theorem addPairs_append (a b : List (Str × Str)) (t : GoMap Str Str) :
    addPairs (a ++ b) t = (addPairs a t).bind (addPairs b) := by
  induction a generalizing t with
  | nil => rfl
  | cons p a ih =>
    obtain ⟨n, k⟩ := p
    rw [List.cons_append, addPairs, addPairs]
    cases t.get? n with
    | none => exact ih _
    | some e =>
      dsimp only
      split
      · rfl
      · exact ih _

theorem addFileNames_eq (k : Str) (ns : List Str) (t : GoMap Str Str) :
    addFileNames k ns t = addPairs (ns.map fun n => (n, k)) t := by
  induction ns generalizing t with
  | nil => rfl
  | cons n ns ih =>
    rw [addFileNames, List.map_cons, addPairs]
    cases t.get? n with
    | none => exact ih _
    | some e =>
      dsimp only
      split
      · rfl
      · exact ih _

/-- The pairs in the order visited. -/
def pairsOf (o : Order) (m : FileMap) : List (Str × Str) :=
  m.flatMap fun p => (o.ord [p.1, s%"names"] (p.2.map (·.name))).map fun n => (n, p.1)

theorem fileNameToPackageName_eq (o : Order) (m : FileMap) (t : GoMap Str Str) :
    fileNameToPackageName o m t = addPairs (pairsOf o m) t := by
  induction m generalizing t with
  | nil => rfl
  | cons p m ih =>
    obtain ⟨k, fs⟩ := p
    rw [fileNameToPackageName, addFileNames_eq]
    show _ = addPairs ((o.ord [k, s%"names"] (fs.map (·.name))).map (fun n => (n, k)) ++ pairsOf o m) t
    rw [addPairs_append]
    cases addPairs ((o.ord [k, s%"names"] (fs.map (·.name))).map (fun n => (n, k))) t with
    | error e => rfl
    | ok t' => exact ih t'

theorem addPairs_ok {l : List (Str × Str)} {t t' : GoMap Str Str} (h : addPairs l t = .ok t') :
    (∀ n k, t'.get? n = some k ↔ t.get? n = some k ∨ (n, k) ∈ l) := by
  induction l generalizing t with
  | nil => cases h; simp
  | cons p l ih =>
    obtain ⟨n, k⟩ := p
    rw [addPairs] at h
    cases hg : t.get? n with
    | none =>
      rw [hg] at h
      intro n' k'
      rw [ih h, GoMap.get?_set]
      simp only [List.mem_cons, Prod.mk.injEq]
      split
      · rename_i he
        subst he
        rw [hg]
        simp only [Option.some.injEq]
        constructor
        · rintro (h | h)
          · exact .inr (.inl ⟨by simp, h.symm⟩)
          · exact .inr (.inr h)
        · rintro (h | h | h)
          · cases h
          · exact .inl h.2.symm
          · exact .inr h
      · rename_i he
        constructor
        · rintro (h | h)
          · exact .inl h
          · exact .inr (.inr h)
        · rintro (h | h | h)
          · exact .inl h
          · exact absurd h.1.symm he
          · exact .inr h
    | some e =>
      rw [hg] at h
      dsimp only at h
      split at h
      · cases h
      · rename_i hek
        have hek : e = k := Classical.not_not.1 hek
        subst hek
        intro n' k'
        rw [ih h]
        simp only [List.mem_cons, Prod.mk.injEq]
        constructor
        · rintro (h | h)
          · exact .inl h
          · exact .inr (.inr h)
        · rintro (h | ⟨rfl, rfl⟩ | h)
          · exact .inl h
          · exact .inl hg
          · exact .inr h

theorem addPairs_complete {l : List (Str × Str)} {t : GoMap Str Str}
    (h : ∀ n k k', (t.get? n = some k ∨ (n, k) ∈ l) → (t.get? n = some k' ∨ (n, k') ∈ l) → k = k') :
    ∃ t', addPairs l t = .ok t' := by
  induction l generalizing t with
  | nil => exact ⟨_, rfl⟩
  | cons p l ih =>
    obtain ⟨n, k⟩ := p
    rw [addPairs]
    cases hg : t.get? n with
    | none =>
      refine ih ?_
      intro n' a b ha hb
      refine h n' a b ?_ ?_
      · rw [GoMap.get?_set] at ha
        rcases ha with ha | ha
        · split at ha
          · rename_i he
            cases ha; cases he
            exact .inr (by simp)
          · exact .inl ha
        · exact .inr (by simp [ha])
      · rw [GoMap.get?_set] at hb
        rcases hb with ha | ha
        · split at ha
          · rename_i he
            cases ha; cases he
            exact .inr (by simp)
          · exact .inl ha
        · exact .inr (by simp [ha])
    | some e =>
      dsimp only
      have : e = k := h n e k (.inl hg) (.inr (by simp))
      rw [if_neg (by simpa using this)]
      refine ih ?_
      intro n' a b ha hb
      exact h n' a b (ha.imp id fun h => by simp [h]) (hb.imp id fun h => by simp [h])

theorem mem_pairsOf {o o' : Order} {site : Site} {m : FileMap} {P : List FileDesc} (hg : Groups m P) {n k : Str} :
    (n, k) ∈ pairsOf o (o'.ord site m) ↔ ∃ f ∈ P, f.name = n ∧ f.package = k := by
  unfold pairsOf
  simp only [List.mem_flatMap, (o'.perm site m).mem_iff]
  constructor
  · rintro ⟨⟨k', fs⟩, hm, h⟩
    obtain ⟨n', hn', he⟩ := List.mem_map.1 h
    cases he
    rw [(o.perm _ _).mem_iff] at hn'
    obtain ⟨f, hf, rfl⟩ := List.mem_map.1 hn'
    have := (hg.mem k' f).1 (by rw [entry_of_mem hg hm]; exact hf)
    exact ⟨f, this.1, rfl, this.2⟩
  · rintro ⟨f, hf, rfl, rfl⟩
    have hfe : f ∈ entry m f.package := (hg.mem _ _).2 ⟨hf, rfl⟩
    refine ⟨(f.package, entry m f.package), mem_of_entry (List.ne_nil_of_mem hfe), ?_⟩
    refine List.mem_map.2 ⟨f.name, ?_, rfl⟩
    rw [(o.perm _ _).mem_iff]
    exact List.mem_map_of_mem hfe

/-- The table answers with the package of the file. -/
def TableOf (t : GoMap Str Str) (P : List FileDesc) : Prop :=
  ∀ n k, t.get? n = some k ↔ ∃ f ∈ P, f.name = n ∧ f.package = k

theorem table_ok {o : Order} {site : Site} {m : FileMap} {P : List FileDesc} (hg : Groups m P)
    {t : GoMap Str Str} (h : fileNameToPackageName o (o.ord site m) [] = .ok t) : TableOf t P := by
  rw [fileNameToPackageName_eq] at h
  intro n k
  rw [addPairs_ok h, mem_pairsOf hg, GoMap.get?_nil]
  simp

theorem table_complete {o : Order} {site : Site} {m : FileMap} {P : List FileDesc} (hg : Groups m P)
    (h : ∀ f ∈ P, ∀ g ∈ P, f.name = g.name → f.package = g.package) :
    ∃ t, fileNameToPackageName o (o.ord site m) [] = .ok t := by
  rw [fileNameToPackageName_eq]
  refine addPairs_complete ?_
  intro n k k' hk hk'
  rw [GoMap.get?_nil, mem_pairsOf hg] at hk hk'
  simp only [reduceCtorEq, false_or] at hk hk'
  obtain ⟨f, hf, hn, rfl⟩ := hk
  obtain ⟨g, hgm, hn', rfl⟩ := hk'
  exact h f hf g hgm (hn.trans hn'.symm)

theorem TableOf.consistent {t : GoMap Str Str} {P : List FileDesc} (h : TableOf t P) :
    ∀ f ∈ P, ∀ g ∈ P, f.name = g.name → f.package = g.package := by
  intro f hf g hg hn
  have h1 := (h f.name f.package).2 ⟨f, hf, rfl, rfl⟩
  have h2 := (h f.name g.package).2 ⟨g, hg, hn.symm, rfl⟩
  rw [h1] at h2
  exact Option.some.inj h2

/-! ## Dependencies -/

theorem fileDependencies_ok {t : GoMap Str Str} {k : Str} {ds r : List Str}
    (h : fileDependencies t k ds = .ok r) :
    (∀ d ∈ ds, ∃ q, t.get? d = some q) ∧ ∀ q, q ∈ r ↔ q ≠ k ∧ ∃ d ∈ ds, t.get? d = some q := by
  induction ds generalizing r with
  | nil => cases h; simp
  | cons d ds ih =>
    rw [fileDependencies] at h
    cases hg : t.get? d with
    | none => rw [hg] at h; cases h
    | some p =>
      rw [hg] at h
      dsimp only at h
      cases hr : fileDependencies t k ds with
      | error e => rw [hr] at h; cases h
      | ok rest =>
        rw [hr] at h
        cases h
        obtain ⟨h1, h2⟩ := ih hr
        refine ⟨?_, ?_⟩
        · simp only [List.mem_cons, forall_eq_or_imp]
          exact ⟨⟨p, hg⟩, h1⟩
        · intro q
          simp only [List.mem_cons, exists_eq_or_imp]
          rw [hg, Option.some.injEq]
          split
          · rename_i hpk
            rw [List.mem_cons, h2]
            constructor
            · rintro (rfl | ⟨a, b⟩)
              · exact ⟨hpk, .inl rfl⟩
              · exact ⟨a, .inr b⟩
            · rintro ⟨a, rfl | b⟩
              · exact .inl rfl
              · exact .inr ⟨a, b⟩
          · rename_i hpk
            have hpk : p = k := Classical.not_not.1 hpk
            rw [h2]
            constructor
            · rintro ⟨a, b⟩
              exact ⟨a, .inr b⟩
            · rintro ⟨a, rfl | b⟩
              · exact absurd hpk a
              · exact ⟨a, b⟩

theorem fileDependencies_complete {t : GoMap Str Str} {k : Str} {ds : List Str}
    (h : ∀ d ∈ ds, ∃ q, t.get? d = some q) : ∃ r, fileDependencies t k ds = .ok r := by
  induction ds with
  | nil => exact ⟨_, rfl⟩
  | cons d ds ih =>
    obtain ⟨q, hq⟩ := h d (by simp)
    obtain ⟨r, hr⟩ := ih fun x hx => h x (by simp [hx])
    rw [fileDependencies, hq, hr]
    exact ⟨_, rfl⟩

theorem concat_map_ok {α β : Type} {fs : List α} {F : α → Except Err (List β)} {ys : List β}
    (h : concatRes (fs.map F) = .ok ys) :
    (∀ f ∈ fs, ∃ r, F f = .ok r) ∧ ∀ y, y ∈ ys ↔ ∃ f ∈ fs, ∃ r, F f = .ok r ∧ y ∈ r := by
  obtain ⟨xss, h1, rfl⟩ := concatRes_ok.1 h
  have hf : ∀ f ∈ fs, ∃ r, F f = .ok r := by
    intro f hf
    have : F f ∈ xss.map Except.ok := h1 ▸ List.mem_map_of_mem hf
    obtain ⟨r, _, hr⟩ := List.mem_map.1 this
    exact ⟨r, hr.symm⟩
  refine ⟨hf, fun y => ?_⟩
  rw [List.mem_flatten]
  constructor
  · rintro ⟨r, hr, hy⟩
    have : Except.ok r ∈ fs.map F := h1 ▸ List.mem_map_of_mem hr
    obtain ⟨f, hf, he⟩ := List.mem_map.1 this
    exact ⟨f, hf, r, he, hy⟩
  · rintro ⟨f, hf, r, he, hy⟩
    have : F f ∈ xss.map Except.ok := h1 ▸ List.mem_map_of_mem hf
    rw [he] at this
    obtain ⟨r', hr', hrr⟩ := List.mem_map.1 this
    cases hrr
    exact ⟨r, hr', hy⟩

theorem concat_map_complete {α β : Type} {fs : List α} {F : α → Except Err (List β)}
    (h : ∀ f ∈ fs, ∃ r, F f = .ok r) : ∃ ys, concatRes (fs.map F) = .ok ys :=
  ⟨_, concatRes_ok.2 ⟨_, eq_map_ok (by
    intro r hr
    obtain ⟨f, hf, rfl⟩ := List.mem_map.1 hr
    exact h f hf), rfl⟩⟩

theorem packageDependencies_ok {o : Order} {t : GoMap Str Str} {k : Str} {fs : List FileDesc} {r : List Str}
    (hne : ∀ n q, t.get? n = some q → q ≠ [])
    (h : packageDependencies o t k fs = .ok r) :
    (∀ f ∈ fs, ∀ d ∈ f.dependency, ∃ q, t.get? d = some q) ∧
    (∀ q, q ∈ r ↔ q ≠ k ∧ ∃ f ∈ fs, ∃ d ∈ f.dependency, t.get? d = some q) ∧
    r.Pairwise fun a b => Str.lt a b = true := by
  unfold packageDependencies at h
  split at h
  · cases h
  · rename_i ns hns
    cases h
    obtain ⟨ys, hys, hp⟩ := concatRes_perm (o.perm _ _) hns
    obtain ⟨h1, h2⟩ := concat_map_ok hys
    have hmem : ∀ q, q ∈ ns ↔ q ≠ k ∧ ∃ f ∈ fs, ∃ d ∈ f.dependency, t.get? d = some q := by
      intro q
      rw [← hp.mem_iff, h2]
      constructor
      · rintro ⟨f, hf, r, hr, hq⟩
        obtain ⟨a, b⟩ := ((fileDependencies_ok hr).2 q).1 hq
        exact ⟨a, f, hf, b⟩
      · rintro ⟨a, f, hf, b⟩
        obtain ⟨r, hr⟩ := h1 f hf
        exact ⟨f, hf, r, hr, ((fileDependencies_ok hr).2 q).2 ⟨a, b⟩⟩
    refine ⟨?_, ?_⟩
    · intro f hf
      obtain ⟨r, hr⟩ := h1 f hf
      exact (fileDependencies_ok hr).1
    · split
      · obtain ⟨s1, s2⟩ := Props.C14_sortUniq (o.sub (k ++ s%" sort")) ns
        refine ⟨fun q => ?_, s1⟩
        rw [s2, hmem]
        constructor
        · exact fun h => h.1
        · rintro ⟨a, f, hf, d, hd, hq⟩
          exact ⟨⟨a, f, hf, d, hd, hq⟩, hne _ _ hq⟩
      · rename_i hl
        refine ⟨hmem, ?_⟩
        have : ns = [] := List.eq_nil_of_length_eq_zero (Classical.not_not.1 hl)
        rw [this]
        exact List.Pairwise.nil

theorem packageDependencies_complete {o : Order} {t : GoMap Str Str} {k : Str} {fs : List FileDesc}
    (h : ∀ f ∈ fs, ∀ d ∈ f.dependency, ∃ q, t.get? d = some q) :
    ∃ r, packageDependencies o t k fs = .ok r := by
  unfold packageDependencies
  obtain ⟨ys, hys⟩ := concat_map_complete (fs := fs) (F := fun f => fileDependencies t k f.dependency)
    fun f hf => fileDependencies_complete (h f hf)
  obtain ⟨zs, hzs, _⟩ := concatRes_perm (o.perm [k, s%"dependencies"] _).symm hys
  rw [hzs]
  exact ⟨_, rfl⟩

/-! ## One package -/

theorem perm_map_some {α : Type} {as bs : List α} (h : (as.map some).Perm (bs.map some)) : as.Perm bs := by
  have := h.filterMap id
  simpa [List.filterMap_map] using this

theorem getMessages_ok {s : SortSlice} {o : Order} {site : Site} {ds : List MessageDesc} {xs : List Message}
    (h : getMessages s o site ds = .ok xs) :
    ∃ ms, ds.map (reflectMessage s) = ms.map some ∧ xs.Perm ms := by
  unfold getMessages at h
  split at h
  · cases h
  · rename_i ms hms
    cases h
    exact ⟨ms, newMessages_ok.1 hms, s.perm _ _⟩

theorem getMessages_complete {s : SortSlice} {o : Order} {site : Site} {ds : List MessageDesc}
    (h : MessagesQualified ds) : ∃ xs, getMessages s o site ds = .ok xs := by
  obtain ⟨ms, hms⟩ := (reflectMessages_isSome s ds).2 h
  unfold getMessages
  rw [newMessages_ok.2 hms]
  exact ⟨_, rfl⟩

theorem getServices_ok {s : SortSlice} {ds : List ServiceDesc} {xs : List Service}
    (h : getServices s ds = .ok xs) :
    (∀ d ∈ ds, ServiceQualified d) ∧ xs.Perm (ds.map (builtService s)) := by
  unfold getServices at h
  split at h
  · cases h
  · rename_i ms hms
    cases h
    rw [mapErr_ok] at hms
    obtain ⟨h1, rfl⟩ := (map_some_of_forall (P := ServiceQualified) (g := builtService s)
      fun a b => okOf_some.trans newService_ok).1 hms
    exact ⟨h1, s.perm _ _⟩

theorem getServices_complete {s : SortSlice} {ds : List ServiceDesc} (h : ∀ d ∈ ds, ServiceQualified d) :
    ∃ xs, getServices s ds = .ok xs := by
  have hms : mapErr (newService s) ds = .ok (ds.map (builtService s)) := by
    rw [mapErr_ok]
    exact (map_some_of_forall (P := ServiceQualified) (g := builtService s)
      fun a b => okOf_some.trans newService_ok).2 ⟨h, rfl⟩
  unfold getServices
  rw [hms]
  exact ⟨_, rfl⟩

theorem concat_messages {s : SortSlice} {o : Order} {site : FileDesc → Site} {fs : List FileDesc} {ys : List Message}
    (h : concatRes (fs.map fun f => getMessages s o (site f) f.messages) = .ok ys) :
    ∃ ms, (fs.flatMap (·.messages)).map (reflectMessage s) = ms.map some ∧ ys.Perm ms := by
  induction fs generalizing ys with
  | nil => cases h; exact ⟨[], rfl, .refl _⟩
  | cons f fs ih =>
    obtain ⟨xss, h1, rfl⟩ := concatRes_ok.1 h
    cases xss with
    | nil => cases h1
    | cons x xss =>
      rw [List.map_cons, List.map_cons, List.cons.injEq] at h1
      obtain ⟨ms, hms, hp⟩ := getMessages_ok h1.1
      obtain ⟨ns, hns, hp'⟩ := ih (concatRes_ok.2 ⟨xss, h1.2, rfl⟩)
      refine ⟨ms ++ ns, ?_, hp.append hp'⟩
      rw [List.flatMap_cons, List.map_append, List.map_append, hms, hns]

theorem concat_services {s : SortSlice} {fs : List FileDesc} {ys : List Service}
    (h : concatRes (fs.map fun f => getServices s f.services) = .ok ys) :
    (∀ f ∈ fs, ∀ d ∈ f.services, ServiceQualified d) ∧
    ys.Perm ((fs.flatMap (·.services)).map (builtService s)) := by
  induction fs generalizing ys with
  | nil => cases h; exact ⟨by simp, .refl _⟩
  | cons f fs ih =>
    obtain ⟨xss, h1, rfl⟩ := concatRes_ok.1 h
    cases xss with
    | nil => cases h1
    | cons x xss =>
      rw [List.map_cons, List.map_cons, List.cons.injEq] at h1
      obtain ⟨hq, hp⟩ := getServices_ok h1.1
      obtain ⟨hq', hp'⟩ := ih (concatRes_ok.2 ⟨xss, h1.2, rfl⟩)
      refine ⟨?_, ?_⟩
      · simp only [List.mem_cons, forall_eq_or_imp]
        exact ⟨hq, hq'⟩
      · rw [List.flatMap_cons, List.map_append]
        exact hp.append hp'

theorem concat_enums {s : SortSlice} {fs : List FileDesc} {ys : List Enum}
    (h : concatRes (fs.map fun f => .ok (getEnums s f.enums)) = .ok ys) :
    ys.Perm ((fs.flatMap (·.enums)).map (newEnum s)) := by
  induction fs generalizing ys with
  | nil => cases h; exact .refl _
  | cons f fs ih =>
    obtain ⟨xss, h1, rfl⟩ := concatRes_ok.1 h
    cases xss with
    | nil => cases h1
    | cons x xss =>
      rw [List.map_cons, List.map_cons, List.cons.injEq] at h1
      have := ih (concatRes_ok.2 ⟨xss, h1.2, rfl⟩)
      rw [List.flatMap_cons, List.map_append]
      obtain ⟨h1, _⟩ := h1
      cases h1
      exact (getEnums_perm s f.enums).append this

/-- The package is built from the listed files. -/
structure BuiltPackage (s : SortSlice) (files : List FileDesc) (p : Package) : Prop where
  enums : p.enums.Perm ((files.flatMap (·.enums)).map (newEnum s))
  enums_sorted : ByName (·.name) p.enums
  messages : ∃ ms, (files.flatMap (·.messages)).map (reflectMessage s) = ms.map some ∧ p.messages.Perm ms
  messages_sorted : ByName Message.name p.messages
  services : p.services.Perm ((files.flatMap (·.services)).map (builtService s))
  services_sorted : ByName (·.name) p.services

theorem populate_ok {s : SortSlice} {o : Order} {k : Str} {ds : List Str} {fs : List FileDesc} {p : Package}
    (h : populate s o k ds fs = .ok p) :
    p.name = k ∧ p.dependencyNames = ds ∧ BuiltPackage s fs p ∧
      ∀ f ∈ fs, ∀ d ∈ f.services, ServiceQualified d := by
  unfold populate at h
  split at h
  · cases h
  · rename_i es hes
    split at h
    · cases h
    · rename_i ms hms
      split at h
      · cases h
      · rename_i ss hss
        cases h
        obtain ⟨es', hes', hpe⟩ := concatRes_perm (o.perm _ _) hes
        obtain ⟨ms', hms', hpm⟩ := concatRes_perm (o.perm _ _) hms
        obtain ⟨ss', hss', hps⟩ := concatRes_perm (o.perm _ _) hss
        obtain ⟨ms'', h1, h2⟩ := concat_messages (site := fun f => [k, f.name]) hms'
        obtain ⟨h3, h4⟩ := concat_services hss'
        refine ⟨rfl, rfl, ⟨?_, byName_run s _ _, ⟨ms'', h1, ?_⟩, byName_run s _ _, ?_, byName_run s _ _⟩, h3⟩
        · exact (s.perm _ _).trans (hpe.symm.trans (concat_enums hes'))
        · exact (s.perm _ _).trans (hpm.symm.trans h2)
        · exact (s.perm _ _).trans (hps.symm.trans h4)

theorem populate_complete {s : SortSlice} {o : Order} {k : Str} {ds : List Str} {fs : List FileDesc}
    (hm : ∀ f ∈ fs, MessagesQualified f.messages) (hs : ∀ f ∈ fs, ∀ d ∈ f.services, ServiceQualified d) :
    ∃ p, populate s o k ds fs = .ok p := by
  unfold populate
  obtain ⟨es, hes⟩ := concat_map_complete (fs := fs)
    (F := fun f => (.ok (getEnums s f.enums) : Except Err (List Enum))) fun f _ => ⟨_, rfl⟩
  obtain ⟨ms, hms⟩ := concat_map_complete (fs := fs)
    (F := fun f => getMessages s o [k, f.name] f.messages) fun f hf => getMessages_complete (hm f hf)
  obtain ⟨ss, hss⟩ := concat_map_complete (fs := fs)
    (F := fun f => getServices s f.services) fun f hf => getServices_complete (hs f hf)
  obtain ⟨_, hes, _⟩ := concatRes_perm (o.perm [k, s%"enums"] _).symm hes
  obtain ⟨_, hms, _⟩ := concatRes_perm (o.perm [k, s%"messages"] _).symm hms
  obtain ⟨_, hss, _⟩ := concatRes_perm (o.perm [k, s%"services"] _).symm hss
  rw [hes]; dsimp only
  rw [hms]; dsimp only
  rw [hss]
  exact ⟨_, rfl⟩

/-! ## The whole set -/

/-- The package set is built from the files. -/
structure Built (s : SortSlice) (all : List FileDesc) (ps : PackageSet) : Prop where
  sorted : ps.Pairwise fun a b => Str.lt a.name b.name = true
  names : ∀ n, (∃ p ∈ ps, p.name = n) ↔ ∃ f ∈ all, f.package = n
  packages : ∀ p ∈ ps, ∃ files, FilesOf all p.name files ∧ BuiltPackage s files p
  dependencies : ∀ p ∈ ps, ∀ q, q ∈ p.dependencyNames ↔ q ≠ p.name ∧
    ∃ f ∈ all, f.package = p.name ∧ ∃ d ∈ f.dependency, ∃ g ∈ all, g.name = d ∧ g.package = q
  dependencies_sorted : ∀ p ∈ ps, p.dependencyNames.Pairwise fun a b => Str.lt a b = true

theorem built_nil (s : SortSlice) : Built s [] [] :=
  ⟨List.Pairwise.nil, by simp, by simp, by simp, by simp⟩

theorem populateDependencies_ok {o : Order} {m : FileMap} {P : List FileDesc} (hg : Groups m P)
    {ds : List (Str × List Str × List FileDesc)} (h : populateDependencies o m = .ok ds) :
    ∃ t, TableOf t P ∧ ∃ ns : Str × List FileDesc → List Str,
      ds = m.map (fun p => (p.1, ns p, p.2)) ∧ ∀ p ∈ m, packageDependencies o t p.1 p.2 = .ok (ns p) := by
  unfold populateDependencies at h
  split at h
  · cases h
  · rename_i t ht
    rw [mapLoop_ok_iff] at h
    refine ⟨t, table_ok hg ht, fun p => (okOf (packageDependencies o t p.1 p.2)).getD [], ?_⟩
    clear ht hg
    induction m generalizing ds with
    | nil =>
      cases ds with
      | nil => exact ⟨rfl, by simp⟩
      | cons d ds => cases h
    | cons p m ih =>
      cases ds with
      | nil => cases h
      | cons d ds =>
        rw [List.map_cons, List.map_cons, List.cons.injEq] at h
        obtain ⟨h1, h2⟩ := h
        obtain ⟨ih1, ih2⟩ := ih h2
        cases hp : packageDependencies o t p.1 p.2 with
        | error e => rw [hp] at h1; cases h1
        | ok ns =>
          rw [hp] at h1
          cases h1
          refine ⟨?_, ?_⟩
          · rw [List.map_cons, ← ih1]; dsimp only; rw [hp]; rfl
          · simp only [List.mem_cons, forall_eq_or_imp]
            exact ⟨by rw [hp]; rfl, ih2⟩

theorem map_map_ok {α β : Type} {F : α → Except Err β} {l : List α} {bs : List β}
    (h : l.map F = bs.map .ok) : (∀ a ∈ l, ∃ b ∈ bs, F a = .ok b) ∧ ∀ b ∈ bs, ∃ a ∈ l, F a = .ok b := by
  constructor
  · intro a ha
    have : F a ∈ bs.map Except.ok := h ▸ List.mem_map_of_mem ha
    obtain ⟨b, hb, he⟩ := List.mem_map.1 this
    exact ⟨b, hb, he.symm⟩
  · intro b hb
    have : Except.ok b ∈ l.map F := h ▸ List.mem_map_of_mem hb
    obtain ⟨a, ha, he⟩ := List.mem_map.1 this
    exact ⟨a, ha, he⟩

theorem map_map_keys {α β κ : Type} {F : α → Except Err β} {ka : α → κ} {kb : β → κ} {l : List α} {bs : List β}
    (h : l.map F = bs.map .ok) (hk : ∀ a b, F a = .ok b → kb b = ka a) : bs.map kb = l.map ka := by
  induction l generalizing bs with
  | nil =>
    cases bs with
    | nil => rfl
    | cons b bs => cases h
  | cons a l ih =>
    cases bs with
    | nil => cases h
    | cons b bs =>
      rw [List.map_cons, List.map_cons, List.cons.injEq] at h
      rw [List.map_cons, List.map_cons, ih h.2, hk a b h.1]

theorem filesOf_entry {m : FileMap} {P : List FileDesc} (hg : Groups m P) (k : Str) :
    FilesOf P k (entry m k) :=
  ⟨List.Pairwise.of_map _ (fun _ _ hne he => hne (congrArg _ he)) (hg.names k), hg.mem k⟩

theorem newPackageSet_ok {s : SortSlice} {o : Order} {sets : List FileSet} {ps : PackageSet}
    (hf : FaithfulOn marshal fun f => f ∈ sets.flatten)
    (h : newPackageSet s o marshal sets = .ok ps) :
    Reflectable sets.flatten ∧ Built s sets.flatten ps := by
  unfold newPackageSet at h
  split at h
  · rename_i hl
    have : sets = [] := List.eq_nil_of_length_eq_zero hl
    subst this
    cases h
    exact ⟨⟨by simp, by simp, by simp, by simp, by simp⟩, built_nil s⟩
  · split at h
    · cases h
    · rename_i m hm
      split at h
      · cases h
      · rename_i ds hds
        split at h
        · cases h
        · rename_i packages hpk
          cases h
          obtain ⟨hproper, hg⟩ := collect_ok groups_nil (by simpa using hf) hm
          rw [List.append_nil] at hg
          obtain ⟨t, ht, ns, hdse, hns⟩ := populateDependencies_ok hg hds
          subst hdse
          rw [mapLoop_ok_iff, List.map_map] at hpk
          obtain ⟨hall, hrev⟩ := map_map_ok hpk
          have hkeys : packages.map (·.name) = m.map (·.1) :=
            map_map_keys hpk fun a b hab => (populate_ok hab).1
          have hperm := (s.perm (fun a b : Package => Str.lt a.name b.name)
            (o.ord [s%"packages"] packages)).trans (o.perm _ _)
          have hne : ∀ n q, t.get? n = some q → q ≠ [] := by
            intro n q hq
            obtain ⟨f, hf, _, rfl⟩ := (ht n q).1 hq
            exact (hproper f hf).1
          have hentry : ∀ f ∈ sets.flatten, (f.package, entry m f.package) ∈ m := fun f hf =>
            mem_of_entry (List.ne_nil_of_mem ((hg.mem f.package f).2 ⟨hf, rfl⟩))
          have hin : ∀ f ∈ sets.flatten, f ∈ entry m f.package := fun f hf => (hg.mem f.package f).2 ⟨hf, rfl⟩
          refine ⟨⟨hproper, ?_, ?_, ?_, ?_⟩, ⟨?_, ?_, ?_, ?_, ?_⟩⟩
          · intro f hf g hgm hn
            have hpk := ht.consistent f hf g hgm hn
            exact eq_of_key_eq (key := fun f : FileDesc => f.name) (hg.names f.package) (hin f hf)
              (hpk ▸ hin g hgm) hn
          · intro f hf d hd
            obtain ⟨q, hq⟩ := (packageDependencies_ok hne (hns _ (hentry f hf))).1 f (hin f hf) d hd
            obtain ⟨g, hgm, hn, _⟩ := (ht d q).1 hq
            exact ⟨g, hgm, hn⟩
          · intro f hf
            obtain ⟨p, _, hp⟩ := hall _ (hentry f hf)
            obtain ⟨_, _, hb, _⟩ := populate_ok hp
            obtain ⟨ms, hms, _⟩ := hb.messages
            have hq := (reflectMessages_isSome s _).1 ⟨ms, hms⟩
            exact messagesQualified_flatMap hq f (hin f hf)
          · intro f hf sv hsv
            obtain ⟨p, _, hp⟩ := hall _ (hentry f hf)
            exact (populate_ok hp).2.2.2 f (hin f hf) sv hsv
          · have h1 := s.sorted (fun a b : Package => Str.lt a.name b.name) (o.ord [s%"packages"] packages)
              (SWO.str.on _)
            have h2 : ((s.run (fun a b : Package => Str.lt a.name b.name)
                (o.ord [s%"packages"] packages)).map (·.name)).Nodup := by
              rw [(hperm.map _).nodup_iff, hkeys]
              exact hg.keys
            rw [List.Nodup, List.pairwise_map] at h2
            refine (h2.and h1).imp fun ⟨hne, hlt⟩ => ?_
            rcases Str.lt_trichotomy _ _ with h | h | h
            · exact h
            · exact absurd h hne
            · rw [h] at hlt; cases hlt
          · intro n
            simp only [hperm.mem_iff]
            constructor
            · rintro ⟨p, hp, rfl⟩
              have : p.name ∈ m.map (·.1) := hkeys ▸ List.mem_map_of_mem (f := fun p : Package => p.name) hp
              obtain ⟨⟨k, fs⟩, hkm, hk⟩ := List.mem_map.1 this
              dsimp only at hk
              obtain ⟨f, hfm⟩ := List.exists_mem_of_ne_nil _ (hg.nonempty _ hkm)
              dsimp only at hfm
              rw [← entry_of_mem hg hkm, hg.mem] at hfm
              exact ⟨f, hfm.1, hfm.2.trans hk⟩
            · rintro ⟨f, hf, rfl⟩
              obtain ⟨p, hp, hpo⟩ := hall _ (hentry f hf)
              exact ⟨p, hp, (populate_ok hpo).1⟩
          · intro p hp
            obtain ⟨⟨k, fs⟩, hkm, hpo⟩ := hrev p (hperm.mem_iff.1 hp)
            obtain ⟨h1, h2, h3, _⟩ := populate_ok hpo
            refine ⟨fs, ?_, h3⟩
            rw [h1, ← entry_of_mem hg hkm]
            exact filesOf_entry hg k
          · intro p hp q
            obtain ⟨⟨k, fs⟩, hkm, hpo⟩ := hrev p (hperm.mem_iff.1 hp)
            obtain ⟨h1, h2, h3, _⟩ := populate_ok hpo
            obtain ⟨_, hd, _⟩ := packageDependencies_ok hne (hns _ hkm)
            dsimp only at h1 h2 hd
            rw [h2, hd, h1]
            refine and_congr Iff.rfl ?_
            constructor
            · rintro ⟨f, hf, d, hd, hq⟩
              rw [← entry_of_mem hg hkm, hg.mem] at hf
              obtain ⟨g, hgm, hn, hq⟩ := (ht d q).1 hq
              exact ⟨f, hf.1, hf.2, d, hd, g, hgm, hn, hq⟩
            · rintro ⟨f, hf, hk, d, hd, g, hgm, hn, hq⟩
              refine ⟨f, ?_, d, hd, (ht d q).2 ⟨g, hgm, hn, hq⟩⟩
              rw [← entry_of_mem hg hkm, hg.mem]
              exact ⟨hf, hk⟩
          · intro p hp
            obtain ⟨⟨k, fs⟩, hkm, hpo⟩ := hrev p (hperm.mem_iff.1 hp)
            obtain ⟨h1, h2, h3, _⟩ := populate_ok hpo
            rw [h2]
            exact (packageDependencies_ok hne (hns _ hkm)).2.2
where
  messagesQualified_append {as bs : List MessageDesc} (h : MessagesQualified (as ++ bs)) :
      MessagesQualified as ∧ MessagesQualified bs := by
    induction as with
    | nil => exact ⟨trivial, h⟩
    | cons a as ih =>
      rw [List.cons_append, MessagesQualified] at h
      obtain ⟨h1, h2⟩ := ih h.2
      exact ⟨by rw [MessagesQualified]; exact ⟨h.1, h1⟩, h2⟩
  messagesQualified_flatMap {fs : List FileDesc} (h : MessagesQualified (fs.flatMap (·.messages))) :
      ∀ f ∈ fs, MessagesQualified f.messages := by
    induction fs with
    | nil => simp
    | cons f fs ih =>
      rw [List.flatMap_cons] at h
      obtain ⟨h1, h2⟩ := messagesQualified_append h
      simp only [List.mem_cons, forall_eq_or_imp]
      exact ⟨h1, ih h2⟩

theorem newPackageSet_complete {s : SortSlice} {o : Order} {sets : List FileSet}
    (hf : FaithfulOn marshal fun f => f ∈ sets.flatten) (hr : Reflectable sets.flatten) :
    ∃ ps, newPackageSet s o marshal sets = .ok ps := by
  unfold newPackageSet
  split
  · exact ⟨_, rfl⟩
  · obtain ⟨m, hm⟩ := collect_complete groups_nil (by simpa using hf) (fun f hf => hr.packages f hf)
      (by simpa using hr.one_copy)
    obtain ⟨hproper, hg⟩ := collect_ok groups_nil (by simpa using hf) hm
    rw [List.append_nil] at hg
    obtain ⟨t, ht⟩ := table_complete (o := o) (site := [s%"table"]) hg
      fun f hf g hgm hn => by rw [hr.one_copy f hf g hgm hn]
    have htab := table_ok hg ht
    have hmem : ∀ p ∈ m, ∀ f ∈ p.2, f ∈ sets.flatten := by
      intro p hp f hfp
      have : f ∈ entry m p.1 := by rw [entry_of_mem hg (k := p.1) (fs := p.2) hp]; exact hfp
      exact ((hg.mem _ _).1 this).1
    have hdeps : ∃ ds, populateDependencies o m = .ok ds := by
      unfold populateDependencies
      rw [ht]
      dsimp only
      refine ⟨_, mapLoop_ok_iff.2 (eq_map_ok ?_)⟩
      intro r hr'
      obtain ⟨p, hp, rfl⟩ := List.mem_map.1 hr'
      obtain ⟨ns, hns⟩ := packageDependencies_complete (o := o) (t := t) (k := p.1) (fs := p.2) (by
        intro f hfp d hd
        obtain ⟨g, hgm, hn⟩ := hr.imports f (hmem p hp f hfp) d hd
        exact ⟨g.package, (htab d g.package).2 ⟨g, hgm, hn, rfl⟩⟩)
      rw [hns]
      exact ⟨_, rfl⟩
    obtain ⟨ds, hds⟩ := hdeps
    obtain ⟨_, _, ns, hdse, _⟩ := populateDependencies_ok hg hds
    subst hdse
    rw [hm]; dsimp only
    rw [hds]; dsimp only
    have hpop : ∃ packages, mapLoop o [s%"populate"]
        ((m.map fun p => (p.1, ns p, p.2)).map fun p => populate s o p.1 p.2.1 p.2.2) = .ok packages := by
      refine ⟨_, mapLoop_ok_iff.2 (eq_map_ok ?_)⟩
      intro r hr'
      obtain ⟨q, hq, rfl⟩ := List.mem_map.1 hr'
      obtain ⟨p, hp, rfl⟩ := List.mem_map.1 hq
      exact populate_complete (fun f hfp => hr.messages f (hmem p hp f hfp))
        (fun f hfp d hd => hr.methods f (hmem p hp f hfp) d hd)
    obtain ⟨packages, hpk⟩ := hpop
    rw [hpk]
    exact ⟨_, rfl⟩

end Verif.Proof.Reflect
