import Verif.Proof.Discovery
import Verif.Proof.Map

/-!
# Proofs about the directory walk
-/

namespace Verif.File

open Verif Str Path Spec Settings

/-! ## Ext -/

theorem takeWhile_all {α : Type} {p : α → Bool} {l : List α} (h : ∀ x ∈ l, p x = true) :
    l.takeWhile p = l := by
  have := takeWhile_append_of_all (b := []) h
  simpa using this

theorem ext_proto_iff (p : Str) : ext p = s%".proto" ↔ ∃ q, p = q ++ s%".proto" := by
  constructor
  · intro h
    unfold ext at h
    dsimp only at h
    have hr : p.reverse = p.reverse.takeWhile (· ≠ '/') ++ p.reverse.dropWhile (· ≠ '/') :=
      (List.takeWhile_append_dropWhile).symm
    generalize ht : p.reverse.takeWhile (· ≠ '/') = r at h hr
    have hr2 : r = r.takeWhile (· ≠ '.') ++ r.dropWhile (· ≠ '.') :=
      (List.takeWhile_append_dropWhile).symm
    cases hd : r.dropWhile (· ≠ '.') with
    | nil => rw [hd] at h; cases h
    | cons x xs =>
      rw [hd] at h hr2
      simp only at h
      have hx : x = '.' := by
        have := List.head_dropWhile_not (p := fun c : Char => decide (c ≠ '.')) (l := r)
          (by rw [hd]; simp)
        simp only [hd, List.head_cons] at this
        simpa using this
      injection h with _ h
      have h' : r.takeWhile (· ≠ '.') = s%"otorp" := by
        have := congrArg List.reverse h
        rw [List.reverse_reverse] at this
        rw [this]; rfl
      rw [h', hx] at hr2
      rw [hr2] at hr
      generalize p.reverse.dropWhile (· ≠ '/') = t at hr
      have := congrArg List.reverse hr
      rw [List.reverse_reverse] at this
      refine ⟨t.reverse ++ xs.reverse, ?_⟩
      rw [this]
      simp
  · rintro ⟨q, rfl⟩
    unfold ext
    have hrev : (q ++ s%".proto").reverse = s%"otorp." ++ q.reverse := by simp
    rw [hrev, takeWhile_append_of_all (by decide)]
    have h1 : (s%"otorp." ++ q.reverse.takeWhile (· ≠ '/')).dropWhile (· ≠ '.') =
        '.' :: q.reverse.takeWhile (· ≠ '/') := by simp
    have h2 : (s%"otorp." ++ q.reverse.takeWhile (· ≠ '/')).takeWhile (· ≠ '.') = s%"otorp" := by simp
    dsimp only
    rw [h1, h2]
    rfl

/-! ## nodeAt -/

theorem nodeAt_nil (n : Node) : nodeAt n [] = some n := by cases n <;> rfl

theorem nodeAt_file_cons (c : Str) (cs : List Str) : nodeAt .file (c :: cs) = none := rfl

theorem nodeAt_dir_cons {entries : List (Str × Node)} (hn : (entries.map (·.1)).Nodup) (c : Str)
    (cs : List Str) {n : Node} :
    nodeAt (.dir entries) (c :: cs) = some n ↔ ∃ node, (c, node) ∈ entries ∧ nodeAt node cs = some n := by
  rw [nodeAt]
  constructor
  · intro h
    split at h
    · rename_i e he
      have hm := List.mem_of_find?_eq_some he
      have hc : e.1 = c := by simpa using List.find?_some he
      exact ⟨e.2, by rw [← hc]; exact hm, h⟩
    · cases h
  · rintro ⟨node, hm, h⟩
    have : entries.find? (fun e => decide (e.1 = c)) = some (c, node) := by
      cases hf : entries.find? (fun e => decide (e.1 = c)) with
      | none =>
        rw [List.find?_eq_none] at hf
        exact absurd (decide_eq_true rfl) (hf _ hm)
      | some e =>
        have hm' := List.mem_of_find?_eq_some hf
        have hc : e.1 = c := by simpa using List.find?_some hf
        have h1 := GoMap.get?_of_mem (m := entries) hn (k := c) (v := node) hm
        have h2 := GoMap.get?_of_mem (m := entries) hn (k := c) (v := e.2) (by rw [← hc]; exact hm')
        rw [h1] at h2
        injection h2 with h2
        rw [h2, ← hc]
    rw [this]
    exact h

theorem treeOK_child {entries : List (Str × Node)} (h : TreeOK (.dir entries)) {c : Str} {node : Node}
    (hm : (c, node) ∈ entries) : TreeOK node := by
  intro ds es hd
  have hn := (h [] entries rfl).1
  exact h (c :: ds) es ((nodeAt_dir_cons hn c ds).2 ⟨node, hm, hd⟩)

theorem readable_child {entries : List (Str × Node)} (h : Readable (.dir entries))
    (hn : (entries.map (·.1)).Nodup) {c : Str} {node : Node}
    (hm : (c, node) ∈ entries) : Readable node := by
  intro ds n hd
  exact h (c :: ds) n ((nodeAt_dir_cons hn c ds).2 ⟨node, hm, hd⟩)

/-! ## The walk -/

/-- The invariant of the walk when it reaches `path`: only declared excludes have been
collected, among them all that are declared above `path`. -/
structure Inv (c : WalkConfig) (D : List Str) (path : Str) (excludes : List Str) : Prop where
  declared : ∀ e ∈ excludes, Declared c D e
  data : c.hasConfigData = true → ∀ e ∈ D, e ∈ excludes
  above : c.hasConfigData = false → ∀ d es e, Within d c.absDirPath → Below path d →
    c.excludesForDir d = .ok es → e ∈ es → e ∈ excludes

theorem below_of_within_below {p e d : Str} (h1 : Within p e) (h2 : Below e d) : Below p d := by
  obtain ⟨⟨ps, hp, rfl⟩, es, he, rfl⟩ := within_isAbsPath h1
  obtain ⟨_, ds, hd, rfl⟩ := below_isAbsPath h2
  rw [within_iff hp he] at h1
  rw [below_iff he hd] at h2
  rw [below_iff hp hd]
  refine ⟨h2.1.trans h1, fun e => h2.2 ?_⟩
  subst e
  exact List.IsPrefix.eq_of_length h2.1 (Nat.le_antisymm h2.1.length_le h1.length_le)

theorem within_of_below {p d : Str} (h : Below p d) : Within p d := by
  obtain ⟨a, b, hab, _, rfl, rfl⟩ := h
  exact ⟨a, b, hab, rfl, rfl⟩

/-- The excludes collected so far decide whether a path is excluded. -/
theorem isExcluded_inv {c : WalkConfig} {D : List Str} (hv : c.hasConfigData = false → ExcludesBelow c.excludesForDir)
    {path : Str} (hp : Within path c.absDirPath) {excludes : List Str} (h : Inv c D path excludes) :
    ∃ b, isExcluded path c.absDirPath excludes = some b ∧ (b = true ↔ ExcludedIn c D path) := by
  obtain ⟨hpa, hra⟩ := within_isAbsPath hp
  obtain ⟨b, hb⟩ := isExcluded_terminates hpa hra excludes
  refine ⟨b, hb, ?_⟩
  have hiff := isExcluded_iff hp excludes
  rw [hb, Option.some.injEq] at hiff
  rw [hiff]
  constructor
  · rintro ⟨e, he, h1, h2⟩
    exact ⟨e, h.declared e he, h1, h2⟩
  · rintro ⟨e, he, h1, h2⟩
    refine ⟨e, ?_, h1, h2⟩
    unfold Declared at he
    cases hdata : c.hasConfigData with
    | true => rw [hdata] at he; exact h.data hdata e he
    | false =>
      rw [hdata] at he
      obtain ⟨d, es, hd, hes, hm⟩ := he
      have hbelow := hv hdata d es e (within_isAbsPath hd).1 hes hm
      exact h.above hdata d es e hd (below_of_within_below h1 hbelow) hes hm

/-- The files the walk finds in a node at `path`. -/
def Found (c : WalkConfig) (D : List Str) (cs : List Str) (node : Node) (fs : List ProtoFile) : Prop :=
  (fs.map (·.path)).Nodup ∧
    (∀ f ∈ fs, f.displayPath = displayPathOf c.absWorkDirPath f.path) ∧
    ∀ p, p ∈ fs.map (·.path) ↔ ∃ ds q, nodeAt node ds = some .file ∧ p = absPath (cs ++ ds) ∧
      p = q ++ s%".proto" ∧ ¬ ExcludedIn c D p

theorem inv_snoc {c : WalkConfig} {D : List Str} {cs : List Str} {name : Str} {excludes : List Str}
    (hc : Components (cs ++ [name])) (h : Inv c D (absPath cs) excludes)
    (hown : c.hasConfigData = false → ∀ es e, c.excludesForDir (absPath cs) = .ok es → e ∈ es → e ∈ excludes) :
    Inv c D (absPath (cs ++ [name])) excludes := by
  refine ⟨h.declared, h.data, fun hd d es e hw hb hes hm => ?_⟩
  obtain ⟨_, ds, hds, rfl⟩ := below_isAbsPath hb
  have hcs := (components_append.1 hc).1
  rw [below_iff hc hds, List.prefix_concat_iff] at hb
  rcases hb with ⟨hb | hb, hne⟩
  · exact absurd hb hne
  · by_cases e' : ds = cs
    · subst e'; exact hown hd es e hes hm
    · exact h.above hd (absPath ds) es e hw ((below_iff hcs hds).2 ⟨hb, e'⟩) hes hm

theorem inv_mono {c : WalkConfig} {D : List Str} {path : Str} {a b : List Str} (h : Inv c D path a)
    (hsub : ∀ e ∈ a, e ∈ b) (hdecl : ∀ e ∈ b, Declared c D e) : Inv c D path b :=
  ⟨hdecl, fun hd e he => hsub e (h.data hd e he),
    fun hd d es e hw hb hes hm => hsub e (h.above hd d es e hw hb hes hm)⟩

theorem excludedIn_mono {c : WalkConfig} {D : List Str} {p q : Str} (h : ExcludedIn c D q)
    (hw : Within p q) : ExcludedIn c D p := by
  obtain ⟨e, he, h1, h2⟩ := h
  exact ⟨e, he, within_trans hw h1, h2⟩

/-- What the callback on a directory does. -/
theorem visitDir_spec {c : WalkConfig} {D : List Str} (hv : c.hasConfigData = false → ExcludesBelow c.excludesForDir)
    {cs : List Str} (hc : Components cs) (hp : Within (absPath cs) c.absDirPath) {st : WalkState}
    (h : Inv c D (absPath cs) st.excludes) :
    (∃ e, visitDir c (absPath cs) st = .fail e ∧ c.hasConfigData = false ∧
        c.excludesForDir (absPath cs) = .error e) ∨
      ∃ st', st'.protoFiles = st.protoFiles ∧ (∀ e ∈ st.excludes, e ∈ st'.excludes) ∧
        (∀ e ∈ st'.excludes, Declared c D e) ∧
        (c.hasConfigData = false → ∀ es e, c.excludesForDir (absPath cs) = .ok es → e ∈ es →
          e ∈ st'.excludes) ∧
        ((ExcludedIn c D (absPath cs) ∧ visitDir c (absPath cs) st = .skipDir st') ∨
          (¬ ExcludedIn c D (absPath cs) ∧ visitDir c (absPath cs) st = .next st')) := by
  unfold visitDir
  cases hdata : c.hasConfigData with
  | true =>
    rw [if_pos rfl]
    obtain ⟨b, hb, hiff⟩ := isExcluded_inv hv hp h
    refine Or.inr ⟨st, rfl, fun e he => he, h.declared, by simp, ?_⟩
    rw [hb]
    cases b with
    | true => exact Or.inl ⟨hiff.1 rfl, rfl⟩
    | false => exact Or.inr ⟨fun hx => absurd (hiff.2 hx) (by simp), rfl⟩
  | false =>
    rw [if_neg (by simp)]
    cases hes : c.excludesForDir (absPath cs) with
    | error e => exact Or.inl ⟨e, rfl, rfl, rfl⟩
    | ok es =>
      have hdecl : ∀ e ∈ st.excludes ++ es, Declared c D e := by
        intro e he
        rcases List.mem_append.1 he with he | he
        · exact h.declared e he
        · unfold Declared
          rw [hdata]
          exact ⟨absPath cs, es, hp, hes, he⟩
      have hinv : Inv c D (absPath cs) (st.excludes ++ es) :=
        inv_mono h (fun e he => List.mem_append.2 (Or.inl he)) hdecl
      obtain ⟨b, hb, hiff⟩ := isExcluded_inv hv hp hinv
      refine Or.inr ⟨⟨st.excludes ++ es, st.protoFiles⟩, rfl, fun e he => List.mem_append.2 (Or.inl he),
        hdecl, ?_, ?_⟩
      · intro _ es' e h1 h2
        injection h1 with h1
        subst h1
        exact List.mem_append.2 (Or.inr h2)
      · dsimp only
        rw [hb]
        cases b with
        | true => exact Or.inl ⟨hiff.1 rfl, rfl⟩
        | false => exact Or.inr ⟨fun hx => absurd (hiff.2 hx) (by simp), rfl⟩

/-- What the callback on a file does. -/
theorem visitFile_spec {c : WalkConfig} {D : List Str} (hv : c.hasConfigData = false → ExcludesBelow c.excludesForDir)
    {cs : List Str} (hp : Within (absPath cs) c.absDirPath) {st : WalkState}
    (h : Inv c D (absPath cs) st.excludes) :
    ∃ fs, visitFile c (absPath cs) st = .next ⟨st.excludes, st.protoFiles ++ fs⟩ ∧ Found c D cs .file fs := by
  have hnode : ∀ ds, nodeAt .file ds = some .file ↔ ds = [] := by
    intro ds
    cases ds with
    | nil => simp [nodeAt]
    | cons a as => simp [nodeAt]
  unfold visitFile
  by_cases hext : ext (absPath cs) = s%".proto"
  · rw [if_neg (by simp [hext])]
    obtain ⟨b, hb, hiff⟩ := isExcluded_inv hv hp h
    rw [hb]
    obtain ⟨q, hq⟩ := (ext_proto_iff _).1 hext
    cases b with
    | true =>
      refine ⟨[], by simp [onExcluded], by simp, by simp, fun p => ?_⟩
      simp only [List.map_nil, List.not_mem_nil, false_iff]
      rintro ⟨ds, q', hd, rfl, _, hne⟩
      rw [hnode] at hd; subst hd
      rw [List.append_nil] at hne
      exact hne (hiff.1 rfl)
    | false =>
      refine ⟨[_], rfl, by simp, by simp, fun p => ?_⟩
      simp only [List.map_cons, List.map_nil, List.mem_singleton]
      constructor
      · rintro rfl
        exact ⟨[], q, rfl, by simp, hq, fun hx => absurd (hiff.2 hx) (by simp)⟩
      · rintro ⟨ds, q', hd, rfl, _, _⟩
        rw [hnode] at hd; subst hd
        simp
  · rw [if_pos hext]
    refine ⟨[], by simp, by simp, by simp, fun p => ?_⟩
    simp only [List.map_nil, List.not_mem_nil, false_iff]
    rintro ⟨ds, q', hd, rfl, hq, _⟩
    rw [hnode] at hd; subst hd
    rw [List.append_nil] at hq
    exact hext ((ext_proto_iff _).2 ⟨q', hq⟩)

theorem within_append {cs ds : List Str} (h : Components (cs ++ ds)) :
    Within (absPath (cs ++ ds)) (absPath cs) := ⟨cs, ds, h, rfl, rfl⟩

/-- A path to a node goes through components. -/
theorem nodeAt_components {node : Node} (h : TreeOK node) {ds : List Str} {n : Node}
    (hd : nodeAt node ds = some n) : Components ds := by
  induction ds generalizing node with
  | nil => exact components_nil
  | cons c cs ih =>
    cases node with
    | file => cases hd
    | unreadable e => cases hd
    | broken e => cases hd
    | dir entries =>
      obtain ⟨hn, hcomp⟩ := h [] entries rfl
      obtain ⟨node, hm, hx⟩ := (nodeAt_dir_cons hn c cs).1 hd
      exact components_cons.2 ⟨hcomp _ hm, ih (treeOK_child h hm) hx⟩

/-- The files found in the entries of a directory. -/
def FoundEntries (c : WalkConfig) (D : List Str) (cs : List Str) (entries : List (Str × Node))
    (fs : List ProtoFile) : Prop :=
  (fs.map (·.path)).Nodup ∧
    (∀ f ∈ fs, f.displayPath = displayPathOf c.absWorkDirPath f.path) ∧
    ∀ p, p ∈ fs.map (·.path) ↔ ∃ name node ds q, (name, node) ∈ entries ∧
      nodeAt node ds = some .file ∧ p = absPath (cs ++ name :: ds) ∧
      p = q ++ s%".proto" ∧ ¬ ExcludedIn c D p

mutual
theorem walk_spec {c : WalkConfig} {D : List Str}
    (hv : c.hasConfigData = false → ExcludesBelow c.excludesForDir) :
    ∀ (node : Node), TreeOK node → ∀ (cs : List Str), Components cs → Within (absPath cs) c.absDirPath →
      ∀ st st', Inv c D (absPath cs) st.excludes → walk c node (absPath cs) st = .ok st' →
      (∀ e ∈ st.excludes, e ∈ st'.excludes) ∧ (∀ e ∈ st'.excludes, Declared c D e) ∧
      ∃ fs, st'.protoFiles = st.protoFiles ++ fs ∧ Found c D cs node fs
  | .file, _, cs, hc, hp, st, st', hi, h => by
    obtain ⟨fs, hvis, hf⟩ := visitFile_spec hv hp hi
    rw [walk, hvis] at h
    injection h with h
    subst h
    exact ⟨fun e he => he, hi.declared, fs, rfl, hf⟩
  | .dir entries, ht, cs, hc, hp, st, st', hi, h => by
    obtain ⟨hn, hcomp⟩ := ht [] entries rfl
    rw [walk] at h
    rcases visitDir_spec hv hc hp hi with ⟨e, hvis, _⟩ | ⟨st1, hpf, hsub, hdecl, hown, hvis⟩
    · rw [hvis] at h; cases h
    rcases hvis with ⟨hex, hvis⟩ | ⟨hex, hvis⟩
    · rw [hvis] at h
      injection h with h
      subst h
      refine ⟨hsub, hdecl, [], by simp [hpf], by simp, by simp, fun p => ?_⟩
      simp only [List.map_nil, List.not_mem_nil, false_iff]
      rintro ⟨ds, q, hd, rfl, _, hne⟩
      exact hne (excludedIn_mono hex (within_append (components_append.2 ⟨hc, nodeAt_components ht hd⟩)))
    · rw [hvis] at h
      dsimp only at h
      have hi1 := inv_mono hi hsub hdecl
      obtain ⟨hs2, hd2, fs, hfs, hnd, hdisp, hmem⟩ := walkEntries_spec hv entries
        (fun name node hm => treeOK_child ht hm) hn (fun name node hm => hcomp _ hm) cs hc hp st1 st'
        (fun name node hm => inv_snoc (components_snoc hc (hcomp _ hm)) hi1 hown) h
      refine ⟨fun e he => hs2 e (hsub e he), hd2 hdecl, fs, by rw [hfs, hpf], hnd, hdisp, fun p => ?_⟩
      rw [hmem]
      constructor
      · rintro ⟨name, node, ds, q, hm, hd, h1, h2, h3⟩
        exact ⟨name :: ds, q, (nodeAt_dir_cons hn name ds).2 ⟨node, hm, hd⟩, h1, h2, h3⟩
      · rintro ⟨ds, q, hd, h1, h2, h3⟩
        cases ds with
        | nil => cases hd
        | cons name ds =>
          obtain ⟨node, hm, hd⟩ := (nodeAt_dir_cons hn name ds).1 hd
          exact ⟨name, node, ds, q, hm, hd, h1, h2, h3⟩
  | .unreadable e, _, _, _, _, _, _, _, h => by rw [walk] at h; cases h
  | .broken e, _, _, _, _, _, _, _, h => by rw [walk] at h; cases h

theorem walkEntries_spec {c : WalkConfig} {D : List Str}
    (hv : c.hasConfigData = false → ExcludesBelow c.excludesForDir) :
    ∀ (entries : List (Str × Node)), (∀ name node, (name, node) ∈ entries → TreeOK node) →
      (entries.map (·.1)).Nodup → (∀ name node, (name, node) ∈ entries → Component name) →
      ∀ (cs : List Str), Components cs → Within (absPath cs) c.absDirPath →
      ∀ st st', (∀ name node, (name, node) ∈ entries → Inv c D (absPath (cs ++ [name])) st.excludes) →
      walkEntries c entries (absPath cs) st = .ok st' →
      (∀ e ∈ st.excludes, e ∈ st'.excludes) ∧
      ((∀ e ∈ st.excludes, Declared c D e) → ∀ e ∈ st'.excludes, Declared c D e) ∧
      ∃ fs, st'.protoFiles = st.protoFiles ++ fs ∧ FoundEntries c D cs entries fs
  | [], _, _, _, cs, hc, hp, st, st', hi, h => by
    rw [walkEntries] at h
    injection h with h
    subst h
    exact ⟨fun e he => he, fun hd => hd, [], by simp, by simp, by simp, by simp⟩
  | (name, node) :: rest, ht, hn, hcomp, cs, hc, hp, st, st', hi, h => by
    rw [walkEntries] at h
    have hname := hcomp name node (by simp)
    have hcn := components_snoc hc hname
    rw [joinPath_component hcn] at h
    cases hw : walk c node (absPath (cs ++ [name])) st with
    | error e => rw [hw] at h; cases h
    | ok st1 =>
      rw [hw] at h
      dsimp only at h
      obtain ⟨hs1, hd1, fs1, hfs1, hnd1, hdisp1, hmem1⟩ := walk_spec hv node (ht name node (by simp)) (cs ++ [name]) hcn
        (within_trans (within_append hcn) hp) st st1 (hi name node (by simp)) hw
      simp only [List.map_cons, List.nodup_cons] at hn
      obtain ⟨hs2, hd2, fs2, hfs2, hnd2, hdisp2, hmem2⟩ := walkEntries_spec hv rest
        (fun n m hm => ht n m (by simp [hm])) hn.2 (fun n m hm => hcomp n m (by simp [hm])) cs hc hp st1 st'
        (fun n m hm => inv_mono (hi n m (by simp [hm])) hs1 hd1) h
      refine ⟨fun e he => hs2 e (hs1 e he), fun _ => hd2 hd1, fs1 ++ fs2, by rw [hfs2, hfs1, List.append_assoc],
        ?_, ?_, ?_⟩
      · rw [List.map_append, List.nodup_append]
        refine ⟨hnd1, hnd2, fun a ha b hb hab => ?_⟩
        subst hab
        obtain ⟨ds, q, hx, e1, _⟩ := (hmem1 a).1 ha
        obtain ⟨name', node', ds', q', hm, hx', e2, _⟩ := (hmem2 a).1 hb
        have hc1 : Components (cs ++ [name] ++ ds) :=
          components_append.2 ⟨hcn, nodeAt_components (ht name node (by simp)) hx⟩
        have hc2 : Components (cs ++ name' :: ds') :=
          components_append.2 ⟨hc, components_cons.2 ⟨hcomp name' node' (by simp [hm]),
            nodeAt_components (ht name' node' (by simp [hm])) hx'⟩⟩
        have := absPath_inj hc1 hc2 (e1.symm.trans e2)
        rw [List.append_assoc] at this
        have := List.append_cancel_left this
        injection this with hname' _
        exact hn.1 (by rw [hname']; exact List.mem_map.2 ⟨_, hm, rfl⟩)
      · intro f hf
        rcases List.mem_append.1 hf with hf | hf
        · exact hdisp1 f hf
        · exact hdisp2 f hf
      · intro p
        rw [List.map_append, List.mem_append, hmem1, hmem2]
        constructor
        · rintro (⟨ds, q, hx, h1, h2, h3⟩ | ⟨name', node', ds, q, hm, hx, h1, h2, h3⟩)
          · exact ⟨name, node, ds, q, by simp, hx, by rw [h1]; simp, h2, h3⟩
          · exact ⟨name', node', ds, q, by simp [hm], hx, h1, h2, h3⟩
        · rintro ⟨name', node', ds, q, hm, hx, h1, h2, h3⟩
          rcases List.mem_cons.1 hm with hm | hm
          · injection hm with e1 e2
            subst e1 e2
            exact Or.inl ⟨ds, q, hx, by rw [h1]; simp, h2, h3⟩
          · exact Or.inr ⟨name', node', ds, q, hm, hx, h1, h2, h3⟩
end

/-! ## The walk succeeds on a readable tree -/

mutual
theorem walk_ok {c : WalkConfig} {D : List Str}
    (hv : c.hasConfigData = false → ExcludesBelow c.excludesForDir) :
    ∀ (node : Node), TreeOK node → Readable node → ∀ (cs : List Str), Components cs →
      Within (absPath cs) c.absDirPath →
      (c.hasConfigData = false → ∀ ds entries, nodeAt node ds = some (.dir entries) →
        ∃ es, c.excludesForDir (absPath (cs ++ ds)) = .ok es) →
      ∀ st, Inv c D (absPath cs) st.excludes → ∃ st', walk c node (absPath cs) st = .ok st'
  | .file, _, _, cs, _, hp, _, st, hi => by
    obtain ⟨fs, hvis, _⟩ := visitFile_spec hv hp hi
    rw [walk, hvis]
    exact ⟨_, rfl⟩
  | .dir entries, ht, hr, cs, hc, hp, hok, st, hi => by
    obtain ⟨hn, hcomp⟩ := ht [] entries rfl
    rw [walk]
    rcases visitDir_spec hv hc hp hi with ⟨e, hvis, hd, he⟩ | ⟨st1, hpf, hsub, hdecl, hown, hvis⟩
    · obtain ⟨es, hes⟩ := hok hd [] entries rfl
      rw [List.append_nil, he] at hes
      cases hes
    rcases hvis with ⟨hex, hvis⟩ | ⟨hex, hvis⟩
    · rw [hvis]; exact ⟨_, rfl⟩
    · rw [hvis]
      have hi1 := inv_mono hi hsub hdecl
      exact walkEntries_ok hv entries (fun name node hm => treeOK_child ht hm)
        (fun name node hm => readable_child hr hn hm) (fun name node hm => hcomp _ hm) cs hc hp
        (fun hd name node hm ds es hx => by
          obtain ⟨es, he⟩ := hok hd (name :: ds) es ((nodeAt_dir_cons hn name ds).2 ⟨node, hm, hx⟩)
          exact ⟨es, by rw [← he]; simp⟩)
        st1 (fun name node hm => inv_snoc (components_snoc hc (hcomp _ hm)) hi1 hown)
  | .unreadable e, _, hr, _, _, _, _, _, _ => by
    rcases hr [] _ rfl with h | ⟨_, h⟩ <;> cases h
  | .broken e, _, hr, _, _, _, _, _, _ => by
    rcases hr [] _ rfl with h | ⟨_, h⟩ <;> cases h

theorem walkEntries_ok {c : WalkConfig} {D : List Str}
    (hv : c.hasConfigData = false → ExcludesBelow c.excludesForDir) :
    ∀ (entries : List (Str × Node)), (∀ name node, (name, node) ∈ entries → TreeOK node) →
      (∀ name node, (name, node) ∈ entries → Readable node) →
      (∀ name node, (name, node) ∈ entries → Component name) →
      ∀ (cs : List Str), Components cs → Within (absPath cs) c.absDirPath →
      (c.hasConfigData = false → ∀ name node, (name, node) ∈ entries → ∀ ds entries,
        nodeAt node ds = some (.dir entries) →
          ∃ es, c.excludesForDir (absPath (cs ++ [name] ++ ds)) = .ok es) →
      ∀ st, (∀ name node, (name, node) ∈ entries → Inv c D (absPath (cs ++ [name])) st.excludes) →
      ∃ st', walkEntries c entries (absPath cs) st = .ok st'
  | [], _, _, _, cs, _, _, _, st, _ => by rw [walkEntries]; exact ⟨_, rfl⟩
  | (name, node) :: rest, ht, hr, hcomp, cs, hc, hp, hok, st, hi => by
    rw [walkEntries]
    have hname := hcomp name node (by simp)
    have hcn := components_snoc hc hname
    rw [joinPath_component hcn]
    obtain ⟨st1, hw⟩ := walk_ok hv node (ht name node (by simp)) (hr name node (by simp)) (cs ++ [name]) hcn
      (within_trans (within_append hcn) hp) (fun hd => hok hd name node (by simp)) st (hi name node (by simp))
    rw [hw]
    obtain ⟨hs1, hd1, _⟩ := walk_spec hv node (ht name node (by simp)) (cs ++ [name]) hcn
      (within_trans (within_append hcn) hp) st st1 (hi name node (by simp)) hw
    exact walkEntries_ok hv rest (fun n m hm => ht n m (by simp [hm])) (fun n m hm => hr n m (by simp [hm]))
      (fun n m hm => hcomp n m (by simp [hm])) cs hc hp (fun hd n m hm => hok hd n m (by simp [hm])) st1
      (fun n m hm => inv_mono (hi n m (by simp [hm])) hs1 hd1)
end

/-- The invariant holds at the start of the walk. -/
theorem inv_start {c : WalkConfig} {D : List Str} (hd : c.hasConfigData = false → D = []) :
    Inv c D c.absDirPath D := by
  refine ⟨fun e he => ?_, fun _ e he => he, fun hf d es e hw hb _ _ => ?_⟩
  · unfold Declared
    cases hx : c.hasConfigData with
    | true => exact he
    | false => rw [hd hx] at he; cases he
  · exfalso
    obtain ⟨⟨ds, hds, rfl⟩, rs, hrs, e⟩ := within_isAbsPath hw
    rw [e] at hw hb
    have h1 := (within_iff hds hrs).1 hw
    have h2 := (below_iff hrs hds).1 hb
    exact h2.2 (List.IsPrefix.eq_of_length h2.1 (Nat.le_antisymm h2.1.length_le h1.length_le))

/-- The files of a complete walk. -/
theorem walkAll_spec {c : WalkConfig} {D : List Str} {root : Node}
    (hv : c.hasConfigData = false → ExcludesBelow c.excludesForDir)
    (hd : c.hasConfigData = false → D = []) (hroot : IsAbsPath c.absDirPath) (ht : TreeOK root)
    {fs : List ProtoFile} (h : walkAll c root D = .ok fs) :
    (fs.map (·.path)).Nodup ∧
    (∀ f ∈ fs, f.displayPath = displayPathOf c.absWorkDirPath f.path) ∧
    ∀ p, p ∈ fs.map (·.path) ↔ ProtoFileIn c.absDirPath root p ∧ ¬ ExcludedIn c D p := by
  obtain ⟨rs, hrs, e⟩ := hroot
  unfold walkAll at h
  cases hw : walk c root c.absDirPath ⟨D, []⟩ with
  | error e => rw [hw] at h; cases h
  | ok st =>
    rw [hw] at h
    injection h with h
    subst h
    rw [e] at hw
    obtain ⟨_, _, fs, hfs, hn, hdisp, hmem⟩ := walk_spec hv root ht rs hrs
      (by rw [e]; exact within_refl ⟨rs, hrs, rfl⟩) ⟨D, []⟩ st (by rw [← e]; exact inv_start hd) hw
    rw [hfs, List.nil_append]
    refine ⟨hn, hdisp, fun p => ?_⟩
    rw [hmem]
    constructor
    · rintro ⟨ds, q, h1, h2, h3, h4⟩
      exact ⟨⟨rs, ds, q, hrs, e, h2, h1, h3⟩, h4⟩
    · rintro ⟨⟨rs', ds, q, hrs', e', h2, h1, h3⟩, h4⟩
      have := absPath_inj hrs hrs' (e.symm.trans e')
      subst this
      exact ⟨ds, q, h1, h2, h3, h4⟩

theorem walkAll_ok {c : WalkConfig} {D : List Str} {root : Node}
    (hv : c.hasConfigData = false → ExcludesBelow c.excludesForDir)
    (hd : c.hasConfigData = false → D = []) (hroot : IsAbsPath c.absDirPath) (ht : TreeOK root)
    (hr : Readable root)
    (hok : c.hasConfigData = false → ∀ d, Within d c.absDirPath → ∃ es, c.excludesForDir d = .ok es) :
    ∃ fs, walkAll c root D = .ok fs := by
  obtain ⟨rs, hrs, e⟩ := hroot
  have hw : Within (absPath rs) c.absDirPath := by rw [e]; exact within_refl ⟨rs, hrs, rfl⟩
  obtain ⟨st, hst⟩ := walk_ok (D := D) hv root ht hr rs hrs hw
    (fun hf ds es hx => hok hf _ (within_trans (within_append (components_append.2
      ⟨hrs, nodeAt_components ht hx⟩)) hw)) ⟨D, []⟩ (by rw [← e]; exact inv_start hd)
  unfold walkAll
  rw [e, hst]
  exact ⟨_, rfl⟩

/-! ## Grouping by directory -/

theorem group_getD (fs : List ProtoFile) (m : GoMap Str (List ProtoFile)) (d : Str) :
    GoMap.get? (fs.foldl (fun m f => m.set (dir f.path) ((m.get? (dir f.path)).getD [] ++ [f])) m) d =
      if fs.filter (fun f => dir f.path = d) = [] then GoMap.get? m d
      else some ((GoMap.get? m d).getD [] ++ fs.filter (fun f => dir f.path = d)) := by
  induction fs generalizing m with
  | nil => simp
  | cons f fs ih =>
    rw [List.foldl_cons, ih, GoMap.get?_set]
    by_cases h : dir f.path = d
    · subst h
      simp only [decide_true, List.filter_cons_of_pos, if_true, reduceCtorEq, if_false, Option.getD_some]
      split
      · rename_i h; rw [h]
      · simp
    · rw [if_neg h, List.filter_cons_of_neg (by simpa using h)]

theorem group_get? (fs : List ProtoFile) (d : Str) :
    GoMap.get? (getDirPathToProtoFiles fs) d =
      if fs.filter (fun f => dir f.path = d) = [] then none
      else some (fs.filter (fun f => dir f.path = d)) := by
  unfold getDirPathToProtoFiles
  rw [group_getD]
  simp [GoMap.get?_nil]

theorem group_nodup (fs : List ProtoFile) : ((getDirPathToProtoFiles fs).map (·.1)).Nodup := by
  unfold getDirPathToProtoFiles
  suffices h : ∀ m : GoMap Str (List ProtoFile), (m.map (·.1)).Nodup →
      ((fs.foldl (fun m f => m.set (dir f.path) ((m.get? (dir f.path)).getD [] ++ [f])) m).map (·.1)).Nodup by
    exact h [] (by simp)
  induction fs with
  | nil => exact fun m h => h
  | cons f fs ih => exact fun m h => ih _ (GoMap.set_keys_nodup h _ _)

/-! ## Base sets -/

theorem configFor_fun {c : Provider} {w d d' k : Str} {a b : Config}
    (h : configFor c w d = .ok (k, a)) (h' : configFor c w d' = .ok (k, b)) : a = b := by
  unfold configFor at h h'
  by_cases hd : c.configData = []
  · rw [if_pos hd] at h h'
    cases h1 : getFilePathForDirOf c.host d with
    | none => rw [h1] at h; cases h
    | some r =>
      cases h2 : getFilePathForDirOf c.host d' with
      | none => rw [h2] at h'; cases h'
      | some r' =>
        rw [h1] at h; rw [h2] at h'
        cases r with
        | error e => cases h
        | ok p =>
          cases r' with
          | error e => cases h'
          | ok p' =>
            dsimp only at h h'
            have key : ∀ {q : Str} {x : Config},
                (if q ≠ [] then
                  match getConfig c.sort c.host c.develMode q with
                  | .error e => Except.error e
                  | .ok config => Except.ok (q, config)
                else
                  match getForDir c.sort c.host c.develMode w with
                  | none => Except.error (s%"does not terminate")
                  | some (.error e) => Except.error e
                  | some (.ok config) => Except.ok ([], config)) = Except.ok (k, x) →
                q = k ∧ ((k ≠ [] ∧ getConfig c.sort c.host c.develMode k = .ok x) ∨
                  (k = [] ∧ getForDir c.sort c.host c.develMode w = some (.ok x))) := by
              intro q x hq
              split at hq
              · rename_i hne
                split at hq
                · cases hq
                · injection hq with hq; injection hq with e1 e2
                  subst e1 e2
                  rename_i hx
                  exact ⟨rfl, Or.inl ⟨hne, hx⟩⟩
              · rename_i hne
                split at hq
                · cases hq
                · cases hq
                · injection hq with hq; injection hq with e1 e2
                  rename_i hx
                  subst e1 e2
                  exact ⟨Classical.not_not.1 hne, Or.inr ⟨rfl, hx⟩⟩
            obtain ⟨_, k1⟩ := key h
            obtain ⟨_, k2⟩ := key h'
            rcases k1 with ⟨n1, k1⟩ | ⟨n1, k1⟩ <;> rcases k2 with ⟨n2, k2⟩ | ⟨n2, k2⟩
            · rw [k1] at k2; injection k2
            · exact absurd n2 n1
            · exact absurd n1 n2
            · rw [k1] at k2; injection k2 with k2; injection k2
  · rw [if_neg hd] at h h'
    split at h
    · cases h
    · rename_i hx
      rw [hx] at h'
      injection h with h; injection h with _ e1
      injection h' with h'; injection h' with _ e2
      rw [← e1, ← e2]

/-- What `configFor` says about a directory if there is no configuration data. -/
theorem configFor_nearest {c : Provider} {w d k : Str} {a : Config} (hd : c.configData = [])
    (habs : IsAbsPath d) (h : configFor c w d = .ok (k, a)) :
    (∃ dd, NearestConfig c.host.stat d dd ∧ ConfigFile c.host.stat dd k ∧
      getConfig c.sort c.host c.develMode k = .ok a) ∨
    ((∀ dd, Within d dd → NoConfig c.host.stat dd) ∧
      getForDir c.sort c.host c.develMode w = some (.ok a)) := by
  obtain ⟨r, hr, ho⟩ := getFilePathForDirOf_outcome c.host (isAbs_of_isAbsPath habs)
  rw [clean_of_isAbsPath habs] at ho
  unfold configFor at h
  rw [if_pos hd, hr] at h
  rcases ho with ⟨p, dd, rfl, hne, hn, hp, hq⟩ | ⟨rfl, hn⟩ | ⟨e, dd, p, q, rfl, _⟩
  · dsimp only at h
    rw [if_pos hne] at h
    split at h
    · cases h
    · rename_i hx
      injection h with h; injection h with e1 e2
      subst e1 e2
      exact Or.inl ⟨dd, hn, hp, hx⟩
  · dsimp only at h
    rw [if_neg (by simp)] at h
    split at h
    · cases h
    · cases h
    · rename_i hx
      injection h with h; injection h with e1 e2
      subst e1 e2
      exact Or.inr ⟨hn, hx⟩
  · cases h

/-- The invariant of the loop over the directories. -/
structure BaseInv (c : Provider) (w : Str) (done : List (Str × List ProtoFile))
    (m : GoMap Str BaseSet) : Prop where
  nodup : (m.map (·.1)).Nodup
  filesNodup : ∀ k b, GoMap.get? m k = some b → (b.1.map (·.1)).Nodup
  cover : ∀ x ∈ done, ∃ k b, GoMap.get? m k = some b ∧ GoMap.get? b.1 x.1 = some x.2
  only : ∀ k b, GoMap.get? m k = some b → ∀ d fs, GoMap.get? b.1 d = some fs → (d, fs) ∈ done
  config : ∀ k b, GoMap.get? m k = some b → ∃ d, configFor c w d = .ok (k, b.2)
  configs : ∀ k b, GoMap.get? m k = some b → ∀ d fs, GoMap.get? b.1 d = some fs →
    configFor c w d = .ok (k, b.2)

theorem baseLoop_inv {c : Provider} {w : Str} :
    ∀ (todo done : List (Str × List ProtoFile)) (m m' : GoMap Str BaseSet),
      ((done ++ todo).map (·.1)).Nodup → BaseInv c w done m → baseLoop c w todo m = .ok m' →
      BaseInv c w (done ++ todo) m' := by
  intro todo
  induction todo with
  | nil =>
    intro done m m' _ hi h
    rw [baseLoop] at h
    injection h with h
    subst h
    simpa using hi
  | cons x todo ih =>
    obtain ⟨d, fs⟩ := x
    intro done m m' hn hi h
    rw [baseLoop] at h
    cases hc : configFor c w d with
    | error e => rw [hc] at h; cases h
    | ok r =>
      obtain ⟨k, cfg⟩ := r
      rw [hc] at h
      dsimp only at h
      have hnew : ∀ fs', (d, fs') ∉ done := by
        intro fs' hm
        rw [List.map_append, List.nodup_append] at hn
        exact hn.2.2 d (List.mem_map.2 ⟨_, hm, rfl⟩) d (by simp) rfl
      generalize hfl : (((GoMap.get? m k).map (·.1)).getD [] : GoMap Str (List ProtoFile)) = files at h
      have hfiles : ∀ d' fs', GoMap.get? files d' = some fs' → (d', fs') ∈ done ∧
          configFor c w d' = .ok (k, cfg) := by
        intro d' fs' hg
        subst hfl
        cases hk : GoMap.get? m k with
        | none => rw [hk] at hg; cases hg
        | some b =>
          rw [hk] at hg
          have h1 := hi.configs k b hk d' fs' hg
          have := configFor_fun h1 hc
          rw [this] at h1
          exact ⟨hi.only k b hk d' fs' hg, h1⟩
      have hnone : GoMap.get? files d = none := by
        cases hg : GoMap.get? files d with
        | none => rfl
        | some fs' => exact absurd (hfiles d fs' hg).1 (hnew fs')
      have hfn : (files.map (·.1)).Nodup := by
        subst hfl
        cases hk : GoMap.get? m k with
        | none => simp
        | some b => exact hi.filesNodup k b hk
      rw [hnone] at h
      simp only [Option.getD_none, List.nil_append] at h
      have := ih (done ++ [(d, fs)]) _ m' (by simpa using hn) ?_ h
      · simpa using this
      · refine ⟨GoMap.set_keys_nodup hi.nodup _ _, ?_, ?_, ?_, ?_, ?_⟩
        · intro k' b hg
          rw [GoMap.get?_set] at hg
          split at hg
          · injection hg with hg; subst hg
            exact GoMap.set_keys_nodup hfn _ _
          · exact hi.filesNodup k' b hg
        · intro x hx
          rcases List.mem_append.1 hx with hx | hx
          · obtain ⟨k', b, hg, hb⟩ := hi.cover x hx
            by_cases e : k = k'
            · subst e
              refine ⟨k, _, by rw [GoMap.get?_set, if_pos rfl], ?_⟩
              dsimp only
              rw [GoMap.get?_set]
              have hne : d ≠ x.1 := fun e => hnew x.2 (by rw [e]; exact hx)
              rw [if_neg hne]
              subst hfl
              rw [hg]
              exact hb
            · exact ⟨k', b, by rw [GoMap.get?_set, if_neg e]; exact hg, hb⟩
          · rw [List.mem_singleton] at hx
            subst hx
            refine ⟨k, _, by rw [GoMap.get?_set, if_pos rfl], ?_⟩
            dsimp only
            rw [GoMap.get?_set, if_pos rfl]
        · intro k' b hg d' fs' hb
          rw [GoMap.get?_set] at hg
          split at hg
          · injection hg with hg; subst hg
            dsimp only at hb
            rw [GoMap.get?_set] at hb
            split at hb
            · injection hb with hb
              rename_i e1
              subst e1 hb
              simp
            · exact List.mem_append.2 (Or.inl (hfiles d' fs' hb).1)
          · exact List.mem_append.2 (Or.inl (hi.only k' b hg d' fs' hb))
        · intro k' b hg
          rw [GoMap.get?_set] at hg
          split at hg
          · injection hg with hg; subst hg
            rename_i e; subst e
            exact ⟨d, hc⟩
          · exact hi.config k' b hg
        · intro k' b hg d' fs' hb
          rw [GoMap.get?_set] at hg
          split at hg
          · injection hg with hg; subst hg
            rename_i e; subst e
            dsimp only at hb
            rw [GoMap.get?_set] at hb
            split at hb
            · rename_i e; subst e; exact hc
            · exact (hfiles d' fs' hb).2
          · exact hi.configs k' b hg d' fs' hb

/-- If discovery ends with one set, it has all the files. -/
theorem getBaseProtoSets_single {c : Provider} {o : Order} {w : Str} {m : GoMap Str (List ProtoFile)}
    (hn : (m.map (·.1)).Nodup) {b : BaseSet} (h : getBaseProtoSets c o w m = .ok [b]) :
    (b.1.map (·.1)).Nodup ∧ (∀ d, GoMap.get? b.1 d = GoMap.get? m d) ∧
      ∀ d fs, GoMap.get? b.1 d = some fs → ∃ k, configFor c w d = .ok (k, b.2) := by
  unfold getBaseProtoSets at h
  by_cases hm : m.length = 0
  · rw [if_pos hm] at h
    have : m = [] := List.length_eq_zero_iff.1 hm
    subst this
    have hb : b.1 = [] := by
      split at h
      · cases h
      · rename_i b' hb'
        injection h with h
        injection h with h _
        subst h
        unfold defaultBaseSet at hb'
        split at hb'
        · split at hb'
          · cases hb'
          · cases hb'
          · injection hb' with hb'; subst hb'; rfl
        · split at hb'
          · cases hb'
          · injection hb' with hb'; subst hb'; rfl
    rw [hb]
    exact ⟨by simp, fun d => rfl, fun d fs h => by cases h⟩
  · rw [if_neg hm] at h
    cases hl : baseLoop c w (o.ord [s%"dirs"] m) [] with
    | error e => rw [hl] at h; cases h
    | ok sets =>
      rw [hl] at h
      injection h with h
      have hperm : sets.map (·.2) |>.Perm [b] := by
        have h1 := c.sort.perm (fun a b : BaseSet => Str.lt a.2.dirPath b.2.dirPath)
          (o.ord [s%"sets"] (sets.map (·.2)))
        rw [h] at h1
        exact ((o.perm [s%"sets"] (sets.map (·.2))).symm.trans h1.symm)
      have hone := List.perm_singleton.1 hperm
      obtain ⟨k, hsets⟩ : ∃ k, sets = [(k, b)] := by
        match sets, hone with
        | [(k, b')], hone => injection hone with hone _; exact ⟨k, by rw [show b' = b from hone]⟩
      subst hsets
      have hpm := o.perm [s%"dirs"] m
      have hi := baseLoop_inv (o.ord [s%"dirs"] m) [] [] [(k, b)]
        (by rw [List.nil_append]; exact (hpm.map (·.1)).nodup_iff.2 hn)
        ⟨by simp, fun k b h => (by cases h), by simp, fun k b h => (by cases h), fun k b h => (by cases h),
          fun k b h => (by cases h)⟩ hl
      rw [List.nil_append] at hi
      have hk : GoMap.get? [(k, b)] k = some b := by rw [GoMap.get?_cons, if_pos rfl]
      refine ⟨hi.filesNodup k b hk, fun d => ?_, fun d fs hd => ⟨k, hi.configs k b hk d fs hd⟩⟩
      cases hd : GoMap.get? m d with
      | some fs =>
        obtain ⟨k', b', h1, h2⟩ := hi.cover (d, fs) (hpm.mem_iff.2 (GoMap.get?_some_mem hd))
        rw [GoMap.get?_cons] at h1
        split at h1
        · injection h1 with h1; subst h1; exact h2
        · cases h1
      | none =>
        cases hb : GoMap.get? b.1 d with
        | none => rfl
        | some fs =>
          have := hpm.mem_iff.1 (hi.only k b hk d fs hb)
          rw [GoMap.get?_of_mem hn this] at hd
          cases hd

/-! ## Discovery for a directory -/

theorem absClean_isAbsPath {wd path : Str} (hwd : IsAbsPath wd) (hp : path ≠ []) :
    IsAbsPath (absClean wd path) := by
  unfold absClean
  rw [if_neg hp]
  split
  · exact joinPath_isAbsPath hwd _
  · rename_i h
    exact clean_isAbsPath (by simpa using h)

theorem dir_isAbsPath {cs : List Str} {name : Str} (h : Components (cs ++ [name])) :
    dir (absPath (cs ++ [name])) = absPath cs := dir_snoc h

/-- The directory that is walked. -/
theorem walkRoot_spec {c : Provider} {w d r : Str} (hw : IsAbsPath w) (hd : IsAbsPath d)
    (h : walkRoot c w d = .ok r) :
    IsAbsPath r ∧
    (c.configData ≠ [] → r = w) ∧
    (c.configData = [] → NearestConfig c.host.stat d r ∨
      (r = d ∧ ∀ dd, Within d dd → NoConfig c.host.stat dd)) := by
  unfold walkRoot at h
  by_cases hc : c.configData = []
  · rw [if_pos hc] at h
    obtain ⟨x, hx, ho⟩ := getFilePathForDirOf_outcome c.host (isAbs_of_isAbsPath hd)
    rw [clean_of_isAbsPath hd] at ho
    rw [hx] at h
    rcases ho with ⟨p, dd, rfl, hne, hn, hp, hq⟩ | ⟨rfl, hn⟩ | ⟨e, dd, p, q, rfl, _⟩
    · injection h with h
      rw [if_pos hne] at h
      obtain ⟨cs, name, hcs, hname, rfl, rfl, _⟩ := hp
      have hcomp : Components (cs ++ [name]) := by
        rcases hname with rfl | rfl
        · exact components_snoc hcs component_yaml
        · exact components_snoc hcs component_json
      rw [dir_isAbsPath hcomp] at h
      subst h
      exact ⟨⟨cs, hcs, rfl⟩, fun h => absurd hc h, fun _ => Or.inl hn⟩
    · injection h with h
      rw [if_neg (by simp)] at h
      subst h
      exact ⟨hd, fun h => absurd hc h, fun _ => Or.inr ⟨rfl, hn⟩⟩
    · cases h
  · rw [if_neg hc] at h
    injection h with h
    subst h
    exact ⟨hw, fun _ => rfl, fun h => absurd h hc⟩

/-- The stages of a successful discovery. -/
theorem getForDirOf_stages {c : Provider} {o : Order} {w d : Str} {ps : ProtoSet}
    (h : getForDirOf c o w d = .ok ps) :
    ∃ root D fs b, walkRoot c (absClean c.wd w) (absClean c.wd d) = .ok root ∧
      dataExcludes c (absClean c.wd w) = .ok D ∧
      walkAll (walkConfig c (absClean c.wd w) root) (c.tree root) D = .ok fs ∧
      getBaseProtoSets c o (absClean c.wd w) (getDirPathToProtoFiles fs) = .ok [b] ∧
      ps = ⟨absClean c.wd w, absClean c.wd d, b.1, b.2⟩ := by
  unfold getForDirOf at h
  cases hm : getMultipleForDir c o w d with
  | error e => rw [hm] at h; cases h
  | ok sets =>
    rw [hm] at h
    match sets, h with
    | [ps'], h =>
      injection h with h
      subst h
      unfold getMultipleForDir at hm
      dsimp only at hm
      cases hr : walkRoot c (absClean c.wd w) (absClean c.wd d) with
      | error e => rw [hr] at hm; cases hm
      | ok root =>
        rw [hr] at hm
        dsimp only at hm
        cases hwk : walkAndGetAllProtoFiles c (absClean c.wd w) root with
        | error e => rw [hwk] at hm; cases hm
        | ok fs =>
          rw [hwk] at hm
          dsimp only at hm
          cases hb : getBaseProtoSets c o (absClean c.wd w) (getDirPathToProtoFiles fs) with
          | error e => rw [hb] at hm; cases hm
          | ok sets =>
            rw [hb] at hm
            dsimp only at hm
            cases hv : validateSets o sets with
            | error e => rw [hv] at hm; cases hm
            | ok u =>
              rw [hv] at hm
              dsimp only at hm
              injection hm with hm
              unfold walkAndGetAllProtoFiles at hwk
              cases hD : dataExcludes c (absClean c.wd w) with
              | error e => rw [hD] at hwk; cases hwk
              | ok D =>
                rw [hD] at hwk
                match sets, hm with
                | [b], hm =>
                  injection hm with hm _
                  exact ⟨root, D, fs, b, rfl, rfl, hwk, hb, hm.symm⟩

end Verif.File
