import Verif.Proof.MovedConfig

/-!
# A moved tree: discovery
-/

namespace Verif.Proof.Moved

open Verif Str Path Settings File Spec

variable {r r' : List Str}

theorem excluded_eq (hr : Components r) (hr' : Components r') {f f' d d' : Str} (hf : MovedPath r r' f f')
    (hd : MovedPath r r' d d') (hw : Within f d) {es es' : List Str} (he : Pointwise (MovedPath r r') es es') :
    isExcluded f' d' es' = isExcluded f d es := by
  have hw' := (within_iff hr hr' hf hd).1 hw
  obtain ⟨b, hb⟩ := isExcluded_terminates (isAbsPath hr hf) (isAbsPath hr hd) es
  obtain ⟨b', hb'⟩ := isExcluded_terminates (isAbsPath hr' (symm hf)) (isAbsPath hr' (symm hd)) es'
  have h1 := isExcluded_iff hw es
  have h2 := isExcluded_iff hw' es'
  have h3 : ExcludedBy f d es ↔ ExcludedBy f' d' es' := by
    constructor
    · rintro ⟨e, h1, h2, h3⟩
      obtain ⟨e', h4, h5⟩ := pointwise_mem_left he e h1
      exact ⟨e', h4, (within_iff hr hr' hf h5).1 h2, (below_iff hr hr' h5 hd).1 h3⟩
    · rintro ⟨e', h1, h2, h3⟩
      obtain ⟨e, h4, h5⟩ := pointwise_mem_right he e' h1
      exact ⟨e, h4, (within_iff hr hr' hf h5).2 h2, (below_iff hr hr' h5 hd).2 h3⟩
  rw [hb] at h1
  rw [hb'] at h2
  rw [hb, hb']
  have : (some b' = some true) ↔ (some b = some true) := by rw [h1, h2, h3]
  cases b <;> cases b' <;> simp_all

/-! ## The walk -/

/-- The same file, somewhere below the root. -/
structure Inner (r r' : List Str) (f f' : ProtoFile) : Prop where
  path : ∃ y c, Components (y ++ [c]) ∧ f.path = absPath (r ++ (y ++ [c])) ∧ f'.path = absPath (r' ++ (y ++ [c]))
  displayPath : f'.displayPath = f.displayPath

theorem Inner.moved {f f' : ProtoFile} (h : Inner r r' f f') : MovedFile r r' f f' := by
  obtain ⟨⟨y, c, h1, h2, h3⟩, h4⟩ := h
  exact ⟨⟨_, h1, h2, h3⟩, h4⟩

theorem Inner.dir (hr : Components r) (hr' : Components r') {f f' : ProtoFile} (h : Inner r r' f f') :
    MovedPath r r' (Path.dir f.path) (Path.dir f'.path) := by
  obtain ⟨⟨y, c, h1, h2, h3⟩, h4⟩ := h
  rw [h2, h3]
  exact dir_entry hr hr' h1

/-- The settings of two walks of the same tree. -/
structure Walks (r r' : List Str) (c c' : WalkConfig) : Prop where
  hasConfigData : c'.hasConfigData = c.hasConfigData
  work : MovedPath r r' c.absWorkDirPath c'.absWorkDirPath
  dir : MovedPath r r' c.absDirPath c'.absDirPath
  excludes : ∀ x es, Components x → c.excludesForDir (absPath (r ++ x)) = .ok es →
    ∃ es', c'.excludesForDir (absPath (r' ++ x)) = .ok es' ∧ Pointwise (MovedPath r r') es es'

/-- Related states. -/
structure States (r r' : List Str) (st st' : WalkState) : Prop where
  excludes : Pointwise (MovedPath r r') st.excludes st'.excludes
  files : Pointwise (Inner r r') st.protoFiles st'.protoFiles

/-- Related results of the callback. -/
inductive Visits (r r' : List Str) : Visit → Visit → Prop
  | next {st st'} : States r r' st st' → Visits r r' (.next st) (.next st')
  | skipDir {st st'} : States r r' st st' → Visits r r' (.skipDir st) (.skipDir st')
  | fail {e v} : Visits r r' (.fail e) v

theorem onExcluded_moved {b : Option Bool} {y y' n n' : Visit} (hy : Visits r r' y y') (hn : Visits r r' n n') :
    Visits r r' (onExcluded b y n) (onExcluded b y' n') := by
  unfold onExcluded
  match b with
  | none => exact .fail
  | some true => exact hy
  | some false => exact hn

theorem visitFile_moved (hr : Components r) (hr' : Components r') {c c' : WalkConfig} (hc : Walks r r' c c')
    {y : List Str} {n : Str} (hy : Components (y ++ [n])) (hw : Within (absPath (r ++ (y ++ [n]))) c.absDirPath)
    {st st' : WalkState} (hs : States r r' st st') :
    Visits r r' (visitFile c (absPath (r ++ (y ++ [n]))) st) (visitFile c' (absPath (r' ++ (y ++ [n]))) st') := by
  have hm : MovedPath r r' _ _ := of (y ++ [n]) hy
  have hext : ext (absPath (r' ++ (y ++ [n]))) = ext (absPath (r ++ (y ++ [n]))) := by
    rw [← List.append_assoc, ← List.append_assoc]
    exact ext_last (hy n (by simp)).2.1
  unfold visitFile
  rw [hext, excluded_eq hr hr' hm hc.dir hw hs.excludes]
  split
  · exact .next hs
  · refine onExcluded_moved (.next hs) (.next ⟨hs.excludes, ?_⟩)
    refine pw_append hs.files (.cons ⟨⟨y, n, hy, rfl, rfl⟩, ?_⟩ .nil)
    unfold displayPathOf
    rw [rel_eq hr hr' hc.work hm]
    obtain ⟨a, ha, e, _⟩ := hc.work
    rw [e, rel_absPath (comps hr ha) (comps hr hy)]
    rfl

theorem visitDir_moved (hr : Components r) (hr' : Components r') {c c' : WalkConfig} (hc : Walks r r' c c')
    {x : List Str} (hx : Components x) (hw : Within (absPath (r ++ x)) c.absDirPath)
    {st st' : WalkState} (hs : States r r' st st') :
    Visits r r' (visitDir c (absPath (r ++ x)) st) (visitDir c' (absPath (r' ++ x)) st') := by
  have hm : MovedPath r r' _ _ := of x hx
  unfold visitDir
  rw [hc.hasConfigData]
  split
  · rw [excluded_eq hr hr' hm hc.dir hw hs.excludes]
    exact onExcluded_moved (.skipDir hs) (.next hs)
  · cases he : c.excludesForDir (absPath (r ++ x)) with
    | error e => exact .fail
    | ok es =>
      obtain ⟨es', h1, h2⟩ := hc.excludes x es hx he
      rw [h1]
      dsimp only
      have hs2 : States r r' { st with excludes := st.excludes ++ es } { st' with excludes := st'.excludes ++ es' } :=
        ⟨pw_append hs.excludes h2, hs.files⟩
      rw [excluded_eq hr hr' hm hc.dir hw hs2.excludes]
      exact onExcluded_moved (.skipDir hs2) (.next hs2)

mutual
theorem walk_moved (hr : Components r) (hr' : Components r') {c c' : WalkConfig} (hc : Walks r r' c c') :
    ∀ (node : File.Node), TreeOK node → ∀ x, Components x → (x = [] → ∃ es, node = .dir es) →
      Within (absPath (r ++ x)) c.absDirPath → ∀ st st' out, States r r' st st' →
      walk c node (absPath (r ++ x)) st = .ok out →
      ∃ out', walk c' node (absPath (r' ++ x)) st' = .ok out' ∧ States r r' out out'
  | .file, _, x, hx, htop, hw, st, st', out, hs, h => by
    have hne : x ≠ [] := fun e => by obtain ⟨es, h⟩ := htop e; cases h
    obtain ⟨y, n, rfl⟩ : ∃ y n, x = y ++ [n] := ⟨x.dropLast, x.getLast hne, (List.dropLast_concat_getLast hne).symm⟩
    have hv := visitFile_moved hr hr' hc hx hw hs
    rw [walk] at h ⊢
    generalize visitFile c (absPath (r ++ (y ++ [n]))) st = v at h hv
    generalize visitFile c' (absPath (r' ++ (y ++ [n]))) st' = v' at hv
    cases hv with
    | next hs2 => injection h with h; subst h; exact ⟨_, rfl, hs2⟩
    | skipDir hs2 => injection h with h; subst h; exact ⟨_, rfl, hs2⟩
    | fail => cases h
  | .dir entries, ht, x, hx, _, hw, st, st', out, hs, h => by
    have hv := visitDir_moved hr hr' hc hx hw hs
    rw [walk] at h ⊢
    generalize visitDir c (absPath (r ++ x)) st = v at h hv
    generalize visitDir c' (absPath (r' ++ x)) st' = v' at hv
    cases hv with
    | next hs2 =>
      exact walkEntries_moved hr hr' hc entries (fun name node hm => treeOK_child ht hm)
        (fun name node hm => (ht [] entries rfl).2 _ hm) x hx hw _ _ _ hs2 h
    | skipDir hs2 => injection h with h; subst h; exact ⟨_, rfl, hs2⟩
    | fail => cases h
  | .unreadable e, _, _, _, _, _, _, _, _, _, h => by rw [walk] at h; cases h
  | .broken e, _, _, _, _, _, _, _, _, _, h => by rw [walk] at h; cases h

theorem walkEntries_moved (hr : Components r) (hr' : Components r') {c c' : WalkConfig} (hc : Walks r r' c c') :
    ∀ (entries : List (Str × File.Node)), (∀ name node, (name, node) ∈ entries → TreeOK node) →
      (∀ name node, (name, node) ∈ entries → Component name) → ∀ x, Components x →
      Within (absPath (r ++ x)) c.absDirPath → ∀ st st' out, States r r' st st' →
      walkEntries c entries (absPath (r ++ x)) st = .ok out →
      ∃ out', walkEntries c' entries (absPath (r' ++ x)) st' = .ok out' ∧ States r r' out out'
  | [], _, _, x, hx, hw, st, st', out, hs, h => by
    rw [walkEntries] at h ⊢
    injection h with h
    subst h
    exact ⟨_, rfl, hs⟩
  | (name, node) :: rest, ht, hcomp, x, hx, hw, st, st', out, hs, h => by
    rw [walkEntries] at h ⊢
    have hxn := components_snoc hx (hcomp name node (by simp))
    have hj : ∀ s, Components s → joinPath [absPath (s ++ x), name] = absPath (s ++ (x ++ [name])) := by
      intro s hs
      rw [joinPath_component (components_snoc (comps hs hx) (hcomp name node (by simp))), List.append_assoc]
    rw [hj r hr] at h
    rw [hj r' hr']
    cases hk : walk c node (absPath (r ++ (x ++ [name]))) st with
    | error e => rw [hk] at h; cases h
    | ok st1 =>
      rw [hk] at h
      have hcs : Components (r ++ x ++ [name]) := by rw [List.append_assoc]; exact comps hr hxn
      obtain ⟨st1', h1, h2⟩ := walk_moved hr hr' hc node (ht name node (by simp)) (x ++ [name]) hxn (by simp)
        (by rw [← List.append_assoc]; exact within_trans (within_append hcs) hw) st st' st1 hs hk
      rw [h1]
      exact walkEntries_moved hr hr' hc rest (fun n m hm => ht n m (by simp [hm]))
        (fun n m hm => hcomp n m (by simp [hm])) x hx hw st1 st1' out h2 h
end

/-! ## Grouping and validation -/

/-- The same directory with the same files below the root. -/
def InnerDir (r r' : List Str) (d d' : Str × List ProtoFile) : Prop :=
  MovedPath r r' d.1 d'.1 ∧ Pointwise (Inner r r') d.2 d'.2

theorem pw_mono {α β : Type} {R S : α → β → Prop} (h : ∀ a b, R a b → S a b) {l : List α} {l' : List β}
    (hp : Pointwise R l l') : Pointwise S l l' := by
  induction hp with
  | nil => exact .nil
  | cons h1 _ ih => exact .cons (h _ _ h1) ih

theorem InnerDir.moved {d d' : Str × List ProtoFile} (h : InnerDir r r' d d') : MovedDir r r' d d' :=
  ⟨h.1, pw_mono (fun _ _ h => h.moved) h.2⟩

theorem group_moved (hr : Components r) (hr' : Components r') {fs fs' : List ProtoFile}
    (h : Pointwise (Inner r r') fs fs') :
    Pointwise (InnerDir r r') (getDirPathToProtoFiles fs) (getDirPathToProtoFiles fs') := by
  unfold getDirPathToProtoFiles
  suffices key : ∀ m m' : GoMap Str (List ProtoFile), Pointwise (InnerDir r r') m m' →
      Pointwise (InnerDir r r')
        (fs.foldl (fun (m : GoMap Str (List ProtoFile)) f => m.set (dir f.path) ((m.get? (dir f.path)).getD [] ++ [f])) m)
        (fs'.foldl (fun (m : GoMap Str (List ProtoFile)) f => m.set (dir f.path) ((m.get? (dir f.path)).getD [] ++ [f])) m') from key [] [] .nil
  induction h with
  | nil => exact fun m m' h => h
  | cons h1 _ ih =>
    intro m m' hm
    rw [List.foldl_cons, List.foldl_cons]
    exact ih _ _ (append_rel (K := MovedPath r r') (V := Inner r r') (fun a a' b b' e1 e2 => eq_iff hr hr' e1 e2) hm
      (h1.dir hr hr') (.cons h1 .nil))

theorem validate_moved (hr : Components r) (hr' : Components r') {cd cd' d d' : Str} (hc : MovedPath r r' cd cd')
    (hd : MovedPath r r' d d') {fs fs' : List ProtoFile} (h : Pointwise (Inner r r') fs fs')
    (hv : validateFiles cd d fs = .ok ()) : validateFiles cd' d' fs' = .ok () := by
  induction h with
  | nil => rfl
  | cons h1 h2 ih =>
    rename_i f f' fs fs'
    rw [validateFiles] at hv ⊢
    split at hv
    · cases hv
    · rename_i h3
      rw [if_neg (fun e => h3 (fun e' => e ((eq_iff hr hr' (h1.dir hr hr') hd).1 e')))]
      have : validateIsRel cd' f'.path = validateIsRel cd f.path := by
        unfold validateIsRel
        rw [rel_eq hr hr' hc h1.moved.path]
      rw [this]
      cases h4 : validateIsRel cd f.path with
      | error e => rw [h4] at hv; cases hv
      | ok u => rw [h4] at hv; exact ih hv

/-! ## Base sets -/

variable {c c' : Provider}

/-- The same configuration file, or both none. -/
def Keys (r r' : List Str) (k k' : Str) : Prop := (k = [] ∧ k' = []) ∨ MovedPath r r' k k'

theorem keys_fun (hr : Components r) (hr' : Components r') {k k1 k2 : Str} (h1 : Keys r r' k k1)
    (h2 : Keys r r' k k2) : k1 = k2 := by
  rcases h1 with ⟨rfl, rfl⟩ | h1
  · rcases h2 with ⟨_, rfl⟩ | ⟨x, _, e, _⟩
    · rfl
    · exact absurd e.symm (absPath_ne_empty _)
  · rcases h2 with ⟨rfl, rfl⟩ | h2
    · obtain ⟨x, _, e, _⟩ := h1
      exact absurd e.symm (absPath_ne_empty _)
    · exact (eq_iff hr hr' h1 h2).1 rfl

/-- The configuration data is portable. -/
def DataPortable (c : Provider) (x : List Str) : Prop :=
  ∀ e, jsonUnmarshalStrict c.configData = .ok e → Portable x.length e

theorem configFor_moved (H : MovedProvider r r' c c') {w d : List Str} (hw : Components w) (hd : Components d)
    (hdata : DataPortable c w) {k : Str} {a : Config}
    (h : configFor c (absPath (r ++ w)) (absPath (r ++ d)) = .ok (k, a)) :
    ∃ k' a', configFor c' (absPath (r' ++ w)) (absPath (r' ++ d)) = .ok (k', a') ∧ Keys r r' k k' ∧
      MovedConfig r r' a a' := by
  unfold configFor at h ⊢
  rw [H.configData, H.develMode]
  split at h
  · rename_i h0
    rw [if_pos h0]
    cases hp : getFilePathForDirOf c.host (absPath (r ++ d)) with
    | none => rw [hp] at h; cases h
    | some q =>
      cases q with
      | error e => rw [hp] at h; cases h
      | ok p =>
        rw [hp] at h
        dsimp only at h
        rcases filePath H.host hd hp with ⟨rfl, e⟩ | ⟨y, name, hy, rfl, e⟩
        · rw [e]
          rw [if_neg (by simp)] at h
          dsimp only
          rw [if_neg (by simp)]
          cases hg : getForDir c.sort c.host c.develMode (absPath (r ++ w)) with
          | none => rw [hg] at h; cases h
          | some q =>
            cases q with
            | error e => rw [hg] at h; cases h
            | ok cfg =>
              rw [hg] at h
              injection h with h
              injection h with e1 e2
              subst e1 e2
              obtain ⟨c1, h1, h2⟩ := dirConfig H.host c.sort c'.sort hw hg
              rw [h1]
              exact ⟨[], c1, rfl, Or.inl ⟨rfl, rfl⟩, h2⟩
        · rw [e]
          rw [if_pos (absPath_ne_empty _)] at h
          dsimp only
          rw [if_pos (absPath_ne_empty _)]
          cases hg : getConfig c.sort c.host c.develMode (absPath (r ++ (y ++ [name]))) with
          | error e => rw [hg] at h; cases h
          | ok cfg =>
            rw [hg] at h
            injection h with h
            injection h with e1 e2
            subst e1 e2
            obtain ⟨c1, h1, h2⟩ := fileConfig H.host c.sort c'.sort hy hg
            rw [h1]
            exact ⟨_, c1, rfl, Or.inr (of _ hy), h2⟩
  · rename_i h0
    rw [if_neg h0]
    cases hg : getForData c.sort c.host c.develMode (absPath (r ++ w)) c.configData with
    | error e => rw [hg] at h; cases h
    | ok cfg =>
      rw [hg] at h
      injection h with h
      injection h with e1 e2
      subst e1 e2
      obtain ⟨c1, h1, h2⟩ := dataConfig H.host c.sort c'.sort hw hdata hg
      rw [h1]
      exact ⟨[], c1, rfl, Or.inl ⟨rfl, rfl⟩, h2⟩

theorem base_moved (H : MovedProvider r r' c c') (o o' : Order) {w : List Str} (hw : Components w)
    (hdata : DataPortable c w) {m m' : GoMap Str (List ProtoFile)} (hm : Pointwise (InnerDir r r') m m')
    (hn : (m.map (·.1)).Nodup) (hn' : (m'.map (·.1)).Nodup) {b : BaseSet}
    (h : getBaseProtoSets c o (absPath (r ++ w)) m = .ok [b]) :
    ∃ b', getBaseProtoSets c' o' (absPath (r' ++ w)) m' = .ok [b'] ∧ b'.1.Perm m' ∧ MovedConfig r r' b.2 b'.2 := by
  cases hm with
  | nil =>
    unfold getBaseProtoSets at h ⊢
    rw [if_pos List.length_nil] at h ⊢
    unfold defaultBaseSet at h ⊢
    rw [H.configData, H.develMode]
    split at h
    · cases h
    · rename_i b0 hb
      injection h with h
      injection h with h _
      subst h
      split at hb
      · rename_i h0
        rw [if_pos h0]
        cases hg : getForDir c.sort c.host c.develMode (absPath (r ++ w)) with
        | none => rw [hg] at hb; cases hb
        | some q =>
          cases q with
          | error e => rw [hg] at hb; cases hb
          | ok cfg =>
            rw [hg] at hb
            injection hb with hb
            subst hb
            obtain ⟨c1, h1, h2⟩ := dirConfig H.host c.sort c'.sort hw hg
            rw [h1]
            exact ⟨_, rfl, .refl _, h2⟩
      · rename_i h0
        rw [if_neg h0]
        cases hg : getForData c.sort c.host c.develMode (absPath (r ++ w)) c.configData with
        | error e => rw [hg] at hb; cases hb
        | ok cfg =>
          rw [hg] at hb
          injection hb with hb
          subst hb
          obtain ⟨c1, h1, h2⟩ := dataConfig H.host c.sort c'.sort hw hdata hg
          rw [h1]
          exact ⟨_, rfl, .refl _, h2⟩
  | cons hx hrest =>
    rename_i x x' rest rest'
    obtain ⟨k, hk⟩ := getBaseProtoSets_uniform hn (by simp) h
    have key : ∀ d d', MovedPath r r' d d' → configFor c (absPath (r ++ w)) d = .ok (k, b.2) →
        ∃ k' a', configFor c' (absPath (r' ++ w)) d' = .ok (k', a') ∧ Keys r r' k k' ∧
          MovedConfig r r' b.2 a' := by
      rintro d d' ⟨y, hy, rfl, rfl⟩ hc
      exact configFor_moved H hw hy hdata hc
    obtain ⟨k', a', h1, h2, h3⟩ := key _ _ hx.1 (hk x (by simp))
    have hall : ∀ z ∈ x' :: rest', configFor c' (absPath (r' ++ w)) z.1 = .ok (k', a') := by
      intro z hz
      obtain ⟨z0, hz0, hzz⟩ := pointwise_mem_right (Pointwise.cons hx hrest) z hz
      obtain ⟨k2, a2, g1, g2, g3⟩ := key _ _ hzz.1 (hk z0 hz0)
      have ek := keys_fun H.host.root H.host.root' h2 g2
      subst ek
      rw [g1, configFor_fun g1 h1]
    obtain ⟨b', g1, g2, g3⟩ := getBaseProtoSets_of_uniform (o' := o') hn' (by simp) hall
    exact ⟨b', g1, g2, by rw [g3]; exact h3⟩

/-! ## Discovery -/

theorem walkRoot_moved (H : MovedProvider r r' c c') {w d : List Str} (hw : Components w) (hd : Components d)
    {p : Str} (h : walkRoot c (absPath (r ++ w)) (absPath (r ++ d)) = .ok p) :
    ∃ y, Components y ∧ p = absPath (r ++ y) ∧
      walkRoot c' (absPath (r' ++ w)) (absPath (r' ++ d)) = .ok (absPath (r' ++ y)) := by
  unfold walkRoot at h ⊢
  rw [H.configData]
  split at h
  · rename_i h0
    rw [if_pos h0]
    cases hp : getFilePathForDirOf c.host (absPath (r ++ d)) with
    | none => rw [hp] at h; cases h
    | some q =>
      cases q with
      | error e => rw [hp] at h; cases h
      | ok p =>
        rw [hp] at h
        injection h with h
        subst h
        rcases filePath H.host hd hp with ⟨rfl, e⟩ | ⟨y, name, hy, rfl, e⟩
        · rw [e]
          exact ⟨d, hd, rfl, rfl⟩
        · rw [e]
          have h1 := comps H.host.root hy
          have h2 := comps H.host.root' hy
          dsimp only
          rw [if_pos (absPath_ne_empty _), if_pos (absPath_ne_empty _)]
          rw [← List.append_assoc] at h1 h2
          rw [← List.append_assoc, ← List.append_assoc, dir_snoc h1, dir_snoc h2]
          exact ⟨y, (components_append.1 hy).1, rfl, rfl⟩
  · rename_i h0
    rw [if_neg h0]
    injection h with h
    subst h
    exact ⟨w, hw, rfl, rfl⟩

theorem walkAll_moved (H : MovedProvider r r' c c') {w y : List Str} (hw : Components w) (hy : Components y)
    (hdata : DataPortable c w) {fs : List ProtoFile}
    (h : walkAndGetAllProtoFiles c (absPath (r ++ w)) (absPath (r ++ y)) = .ok fs) :
    ∃ fs', walkAndGetAllProtoFiles c' (absPath (r' ++ w)) (absPath (r' ++ y)) = .ok fs' ∧
      Pointwise (Inner r r') fs fs' := by
  unfold walkAndGetAllProtoFiles at h ⊢
  have hex : ∀ es, File.dataExcludes c (absPath (r ++ w)) = .ok es →
      ∃ es', File.dataExcludes c' (absPath (r' ++ w)) = .ok es' ∧ Pointwise (MovedPath r r') es es' := by
    intro es he
    unfold File.dataExcludes at he ⊢
    rw [H.configData]
    split at he
    · rename_i h0
      rw [if_pos h0]
      exact dataExcludes H.host hw hdata he
    · rename_i h0
      rw [if_neg h0]
      injection he with he
      subst he
      exact ⟨[], rfl, .nil⟩
  cases he : File.dataExcludes c (absPath (r ++ w)) with
  | error e => rw [he] at h; cases h
  | ok es =>
    rw [he] at h
    obtain ⟨es', h1, h2⟩ := hex es he
    rw [h1]
    dsimp only at h ⊢
    unfold walkAll at h ⊢
    have hm : MovedPath r r' (absPath (r ++ y)) (absPath (r' ++ y)) := of y hy
    rw [H.tree _ _ hm]
    have hwk : Walks r r' (walkConfig c (absPath (r ++ w)) (absPath (r ++ y)))
        (walkConfig c' (absPath (r' ++ w)) (absPath (r' ++ y))) :=
      ⟨by unfold walkConfig; rw [H.configData], of w hw, hm, fun x es hx he => dirExcludes H.host hx he⟩
    cases hk : walk (walkConfig c (absPath (r ++ w)) (absPath (r ++ y))) (c.tree (absPath (r ++ y)))
        (absPath (r ++ y)) ⟨es, []⟩ with
    | error e =>
      rw [show (walkConfig c (absPath (r ++ w)) (absPath (r ++ y))).absDirPath = absPath (r ++ y) from rfl, hk] at h
      cases h
    | ok out =>
      rw [show (walkConfig c (absPath (r ++ w)) (absPath (r ++ y))).absDirPath = absPath (r ++ y) from rfl, hk] at h
      injection h with h
      subst h
      obtain ⟨out', g1, g2⟩ := walk_moved H.host.root H.host.root' hwk _ (H.names _ _ hm) y hy
        (fun e => by subst e; rw [List.append_nil]; exact H.top)
        (within_refl ⟨_, comps H.host.root hy, rfl⟩) ⟨es, []⟩ ⟨es', []⟩ out ⟨h2, .nil⟩ hk
      rw [show (walkConfig c' (absPath (r' ++ w)) (absPath (r' ++ y))).absDirPath = absPath (r' ++ y) from rfl, g1]
      exact ⟨_, rfl, g2.files⟩

/-- Discovery in a moved tree. -/
theorem discovery (H : MovedProvider r r' c c') (o o' : Order) {w d : List Str} (hw : Components w)
    (hd : Components d) (hdata : DataPortable c w) {aw ad aw' ad' : Str}
    (e1 : absClean c.wd aw = absPath (r ++ w)) (e2 : absClean c.wd ad = absPath (r ++ d))
    (e3 : absClean c'.wd aw' = absPath (r' ++ w)) (e4 : absClean c'.wd ad' = absPath (r' ++ d)) {ps : ProtoSet}
    (h : getForDirOf c o aw ad = .ok ps) :
    ∃ ps', getForDirOf c' o' aw' ad' = .ok ps' ∧ MovedSet r r' ps ps' := by
  obtain ⟨root, fs, b, h1, h2, h3, h4, rfl⟩ := getForDirOf_iff.1 h
  rw [e1, e2] at h1
  rw [e1] at h2 h3
  obtain ⟨y, hy, rfl, g1⟩ := walkRoot_moved H hw hd h1
  obtain ⟨fs', g2, hfs⟩ := walkAll_moved H hw hy hdata h2
  have hg := group_moved H.host.root H.host.root' hfs
  obtain ⟨b', g3, hp', hcfg⟩ := base_moved H o o' hw hdata hg (group_nodup fs) (group_nodup fs') h3
  obtain ⟨b0, hb0, hp0, _⟩ := getBaseProtoSets_reordered (o' := o) (group_nodup fs) h3
  rw [h3] at hb0
  injection hb0 with hb0
  injection hb0 with hb0 _
  subst hb0
  refine ⟨⟨_, _, b'.1, b'.2⟩, getForDirOf_iff.2 ⟨absPath (r' ++ y), fs', b', by rw [e3, e4]; exact g1,
    by rw [e3]; exact g2, by rw [e3]; exact g3, ?_, rfl⟩, ?_⟩
  · intro p hp
    obtain ⟨q, hq, hqp⟩ := pointwise_mem_right hg p (hp'.mem_iff.1 hp)
    exact validate_moved H.host.root H.host.root' hcfg.dirPath hqp.1 hqp.2 (h4 q (hp0.mem_iff.2 hq))
  · refine ⟨by rw [e1, e3]; exact of w hw, by rw [e2, e4]; exact of d hd, hcfg, ?_⟩
    obtain ⟨l, hl1, hl2⟩ := Lint.pointwise_perm hp0.symm hg
    exact ⟨l, pw_mono (fun _ _ h => h.moved) hl2, hp'.trans hl1.symm⟩

theorem providerSymm (H : MovedProvider r r' c c') : MovedProvider r' r c' c where
  host := hostSymm H.host
  develMode := H.develMode.symm
  configData := H.configData.symm
  tree p p' k := (H.tree _ _ (symm k)).symm
  names p p' k := by rw [H.tree _ _ (symm k)]; exact H.names _ _ (symm k)
  top := by
    obtain ⟨entries, h⟩ := H.top
    refine ⟨entries, ?_⟩
    have := H.tree _ _ (of [] (fun _ h => nomatch h))
    rw [List.append_nil, List.append_nil] at this
    rw [this, h]

end Verif.Proof.Moved
