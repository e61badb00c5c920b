import Verif.Proof.Walk
import Verif.Proof.Settings
import Verif.Spec.Rename

/-!
# The names discovery gives to files

Relative to the working directory a file is called by a path that leads back to it.
-/

namespace Verif.File

open Verif Str Path Spec Settings

/-! ## Relative paths -/

theorem foldl_dots (n k : Nat) :
    (List.replicate n s%"..").foldl (cleanStep false) (List.replicate k s%"..") =
      List.replicate (k + n) s%".." := by
  induction n generalizing k with
  | zero => rfl
  | succ n ih =>
    rw [List.replicate_succ, List.foldl_cons]
    have : cleanStep false (List.replicate k s%"..") s%".." = List.replicate (k + 1) s%".." := by
      cases k with
      | zero => rfl
      | succ k => rfl
    rw [this, ih]
    congr 1
    omega

theorem foldl_dots_up {rooted : Bool} {a stack : List Str} (h : Components a) :
    (List.replicate a.length s%"..").foldl (cleanStep rooted) (a ++ stack) = stack := by
  induction a with
  | nil => rfl
  | cons x a ih =>
    rw [components_cons] at h
    rw [List.length_cons, List.replicate_succ, List.foldl_cons]
    have : cleanStep rooted (x :: a ++ stack) s%".." = a ++ stack := by
      unfold cleanStep
      rw [if_neg (by decide), if_neg (by decide), if_pos rfl]
      show (if x = s%".." then _ else a ++ stack) = _
      rw [if_neg h.1.2.2.2]
    rw [this, ih h.2]

/-- Some ways up, then at least one component. -/
def upDown (n : Nat) (cs : List Str) : Str := join s%"/" (List.replicate n s%".." ++ cs)

theorem split_upDown {n : Nat} {cs : List Str} (h : Components cs) (hne : cs ≠ []) :
    splitChar '/' (upDown n cs) = List.replicate n s%".." ++ cs := by
  refine splitChar_join '/' (by simp [hne]) fun w hw => ?_
  rcases List.mem_append.1 hw with hw | hw
  · rw [(List.mem_replicate.1 hw).2]; decide
  · exact (h w hw).2.1

theorem isAbs_upDown {n : Nat} {cs : List Str} (h : Components cs) (hne : cs ≠ []) :
    isAbs (upDown n cs) = false := by
  cases hb : isAbs (upDown n cs) with
  | false => rfl
  | true =>
    exfalso
    have hp : ∃ r, upDown n cs = '/' :: r := by
      unfold isAbs at hb
      cases hu : upDown n cs with
      | nil => rw [hu] at hb; cases hb
      | cons x r =>
        rw [hu] at hb
        refine ⟨r, ?_⟩
        have : x = '/' := by
          have : '/' = x := by simpa [hasPrefix, List.isPrefixOf] using hb
          exact this.symm
        rw [this]
    obtain ⟨r, hr⟩ := hp
    have hs := split_upDown (n := n) h hne
    rw [hr, splitChar, if_pos rfl] at hs
    cases n with
    | zero =>
      cases cs with
      | nil => exact hne rfl
      | cons c cs =>
        injection hs with h1 _
        exact (h c (by simp)).1 h1.symm
    | succ n =>
      rw [List.replicate_succ] at hs
      injection hs with h1 _
      cases h1

theorem clean_upDown {n : Nat} {cs : List Str} (h : Components cs) (hne : cs ≠ []) :
    clean (upDown n cs) = upDown n cs := by
  unfold clean
  rw [isAbs_upDown h hne]
  have : cleanComps false (upDown n cs) = List.replicate n s%".." ++ cs := by
    unfold cleanComps
    rw [split_upDown h hne, List.foldl_append]
    have := foldl_dots n 0
    rw [show List.replicate 0 s%".." = ([] : List Str) from rfl] at this
    rw [this, foldl_cleanStep h]
    simp
  dsimp only
  rw [this, if_neg (by simp), if_neg (by simp [hne])]
  rfl

theorem upDown_ne_nil {n : Nat} {cs : List Str} (h : Components cs) (hne : cs ≠ []) :
    upDown n cs ≠ [] := by
  intro e
  have hs := split_upDown (n := n) h hne
  rw [e] at hs
  have h1 : splitChar '/' ([] : Str) = [[]] := rfl
  rw [h1] at hs
  cases n with
  | zero =>
    cases cs with
    | nil => exact hne rfl
    | cons c cs =>
      injection hs with h2 _
      exact (h c (by simp)).1 h2.symm
  | succ n =>
    rw [List.replicate_succ] at hs
    injection hs with h2 _
    cases h2

theorem upDown_snoc (n : Nat) (cs : List Str) (c : Str) :
    upDown n (cs ++ [c]) = c ∨ ∃ q, upDown n (cs ++ [c]) = q ++ '/' :: c := by
  unfold upDown
  rw [← List.append_assoc]
  generalize List.replicate n s%".." ++ cs = l
  by_cases hl : l = []
  · left; subst hl; rfl
  · right
    rw [join_append_last s%"/" hl c]
    exact ⟨join s%"/" l, by simp⟩

theorem base_of_last {c : Str} (h : Component c) {p : Str} (hp : p = c ∨ ∃ q, p = q ++ '/' :: c) :
    base p = c := by
  obtain ⟨hne, hslash, _, _⟩ := h
  have key : ∀ r : Str, (r = [] ∨ ∃ r', r = '/' :: r') → base (c.reverse ++ r).reverse = c := by
    intro r hr
    unfold base
    rw [if_neg (by simp [hne])]
    have hdrop : (c.reverse ++ r).reverse.reverse.dropWhile (· = '/') = c.reverse ++ r := by
      rw [List.reverse_reverse]
      cases hc : c.reverse with
      | nil => exact absurd (by simpa using hc) hne
      | cons x xs =>
        rw [List.cons_append, List.dropWhile_cons, if_neg]
        have : x ≠ '/' := fun e => hslash (by rw [← List.mem_reverse, hc, e]; simp)
        simpa using this
    have htake : (c.reverse ++ r).takeWhile (· ≠ '/') = c.reverse := by
      rw [takeWhile_append_of_all]
      · rcases hr with rfl | ⟨r', rfl⟩ <;> simp [List.takeWhile_cons]
      · intro x hx
        have : x ≠ '/' := fun e => hslash (by rw [← e]; exact List.mem_reverse.1 hx)
        simpa using this
    dsimp only
    rw [hdrop, htake, List.reverse_reverse, if_neg hne]
  rcases hp with rfl | ⟨q, rfl⟩
  · simpa using key [] (.inl rfl)
  · simpa using key ('/' :: q.reverse) (.inr ⟨_, rfl⟩)

/-- The display path of a file that is not the working directory or above it. -/
theorem displayPathOf_spec {ws ps : List Str} (hw : Components ws) (hp : Components ps)
    (hnot : ¬ ps <+: ws) :
    ∃ pre a b, ws = pre ++ a ∧ ps = pre ++ b ∧ b ≠ [] ∧
      displayPathOf (absPath ws) (absPath ps) = upDown a.length b := by
  obtain ⟨pre, h1, h2⟩ := dropCommon_spec ws ps
  have hb : (dropCommon ws ps).2 ≠ [] := by
    intro e
    rw [e, List.append_nil] at h2
    exact hnot ⟨_, by rw [h2]; exact h1.symm⟩
  refine ⟨pre, (dropCommon ws ps).1, (dropCommon ws ps).2, h1, h2, hb, ?_⟩
  have hne : ps ≠ ws := fun e => hnot (by rw [e]; exact List.prefix_refl _)
  unfold displayPathOf
  rw [rel_absPath hw hp, if_neg hne, Option.getD_some]
  have hmap : (dropCommon ws ps).1.map (fun _ => s%"..") = List.replicate (dropCommon ws ps).1.length s%".." := by
    rw [List.map_const']
  rw [hmap]
  have hcb : Components (dropCommon ws ps).2 := by
    rw [h2, components_append] at hp
    exact hp.2
  exact clean_upDown hcb hb

/-- What can be said of the display path. -/
theorem displayPathOf_leads {w p : Str} (hw : IsAbsPath w) (hp : IsAbsPath p) (hnot : ¬ Within w p) :
    isAbs (displayPathOf w p) = false ∧ absClean w (displayPathOf w p) = p ∧
      base (displayPathOf w p) = base p := by
  obtain ⟨ws, hws, rfl⟩ := hw
  obtain ⟨ps, hps, rfl⟩ := hp
  rw [within_iff hws hps] at hnot
  obtain ⟨pre, a, b, rfl, rfl, hb, hd⟩ := displayPathOf_spec hws hps hnot
  obtain ⟨hpre, ha⟩ := components_append.1 hws
  obtain ⟨_, hcb⟩ := components_append.1 hps
  rw [hd]
  refine ⟨isAbs_upDown hcb hb, ?_, ?_⟩
  · unfold absClean
    rw [if_neg (upDown_ne_nil hcb hb), isAbs_upDown hcb hb, if_pos (by decide), joinPath_absPath hws,
      split_upDown hcb hb, List.foldl_append, List.reverse_append]
    have := foldl_dots_up (rooted := true) (stack := pre.reverse) (components_reverse.2 ha)
    rw [List.length_reverse] at this
    rw [this, foldl_cleanStep hcb]
    simp
  · have hlast := List.dropLast_concat_getLast hb
    have hc : Component (b.getLast hb) := hcb _ (List.getLast_mem hb)
    have h1 : base (absPath (pre ++ b)) = b.getLast hb := by
      generalize b.getLast hb = x at hlast
      rw [← hlast, ← List.append_assoc] at hps ⊢
      exact base_snoc hps
    rw [h1]
    apply base_of_last hc
    have := upDown_snoc a.length b.dropLast (b.getLast hb)
    rw [hlast] at this
    exact this

/-! ## Discovery -/

/-- A configuration lies in the directory it is for, or in one above it; or so it is with the
working directory. -/
theorem configFor_dirPath {c : Provider} {w d k : Str} {a : Config} (hw : IsAbsPath w)
    (hd : IsAbsPath d) (h : configFor c w d = .ok (k, a)) : Within d a.dirPath ∨ Within w a.dirPath := by
  have build : ∀ e dd, IsAbsPath dd → externalConfigToConfig c.sort c.host c.develMode e dd = .ok a →
      a.dirPath = dd := by
    intro e dd hdd he
    rcases externalConfigToConfig_spec c.sort c.host c.develMode e hdd with ⟨_, _, _, _, _, hx⟩ | ⟨_, err, hx⟩
    · rw [hx] at he
      injection he with he
      rw [← he]
      rfl
    · rw [hx] at he; cases he
  have file : ∀ dd p, ConfigFile c.host.stat dd p → getConfig c.sort c.host c.develMode p = .ok a →
      a.dirPath = dd := by
    rintro dd p ⟨cs, name, hcs, hname, rfl, rfl, _⟩ hcf
    have hcomp : Components (cs ++ [name]) := by
      rcases hname with rfl | rfl
      · exact components_snoc hcs component_yaml
      · exact components_snoc hcs component_json
    unfold getConfig at hcf
    rw [isAbs_absPath, clean_absPath hcomp, dir_snoc hcomp] at hcf
    simp only [Bool.not_true, Bool.false_eq_true, if_false] at hcf
    split at hcf
    · cases hcf
    · exact build _ _ ⟨cs, hcs, rfl⟩ hcf
  by_cases hc : c.configData = []
  · rcases configFor_nearest hc hd h with ⟨dd, hn, hp, hcf⟩ | ⟨_, hg⟩
    · left
      rw [file dd k hp hcf]
      exact hn.1
    · right
      unfold getForDir at hg
      obtain ⟨r, hr, ho⟩ := getFilePathForDirOf_outcome c.host (isAbs_of_isAbsPath hw)
      rw [hr] at hg
      rcases ho with ⟨p, dd, rfl, hne, hn, hp, _⟩ | ⟨rfl, _⟩ | ⟨e, _, _, _, rfl, _⟩
      · dsimp only at hg
        rw [if_neg hne] at hg
        injection hg with hg
        rw [file dd p hp hg]
        have := hn.1
        rwa [clean_of_isAbsPath hw] at this
      · dsimp only at hg
        rw [if_pos rfl] at hg
        injection hg with hg
        rw [build _ _ hw hg]
        exact within_refl hw
      · cases hg
  · right
    unfold configFor at h
    rw [if_neg hc] at h
    split at h
    · cases h
    · rename_i cfg hg
      injection h with h
      injection h with _ h
      subst h
      unfold getForData at hg
      rw [isAbs_of_isAbsPath hw, clean_of_isAbsPath hw] at hg
      simp only [Bool.not_true, Bool.false_eq_true, if_false] at hg
      split at hg
      · cases hg
      · rw [build _ _ hw hg]
        exact within_refl hw

theorem validateIsRel_within {b p : Str} (hb : IsAbsPath b) (hp : IsAbsPath p)
    (h : validateIsRel b p = .ok ()) : Within p b := by
  obtain ⟨bs, hbs, rfl⟩ := hb
  obtain ⟨ps, hps, rfl⟩ := hp
  rw [within_iff hps hbs]
  unfold validateIsRel at h
  rw [rel_absPath hbs hps] at h
  dsimp only at h
  by_cases e : ps = bs
  · rw [e]; exact List.prefix_refl _
  · rw [if_neg e] at h
    obtain ⟨pre, h1, h2⟩ := dropCommon_spec bs ps
    cases hd : (dropCommon bs ps).1 with
    | nil =>
      rw [hd, List.append_nil] at h1
      exact ⟨_, by rw [h1]; exact h2.symm⟩
    | cons x xs =>
      rw [hd] at h
      split at h
      · cases h
      · rw [if_pos] at h
        · cases h
        · have : ∀ l : List Str, hasPrefix (join s%"/" (s%".." :: l)) s%".." = true := by
            intro l
            cases l with
            | nil => rfl
            | cons y l => rfl
          exact this _

theorem validateFiles_mem {cd d : Str} {fs : List ProtoFile} (h : validateFiles cd d fs = .ok ()) :
    ∀ f ∈ fs, validateIsRel cd f.path = .ok () := by
  induction fs with
  | nil => intro f hf; cases hf
  | cons g fs ih =>
    rw [validateFiles] at h
    split at h
    · cases h
    · split at h
      · cases h
      · rename_i hv
        intro f hf
        rcases List.mem_cons.1 hf with rfl | hf
        · exact hv
        · exact ih h f hf

theorem validateDirs_mem {cd : Str} {m : List (Str × List ProtoFile)} (h : validateDirs cd m = .ok ()) :
    ∀ p ∈ m, ∀ f ∈ p.2, validateIsRel cd f.path = .ok () := by
  induction m with
  | nil => intro p hp; cases hp
  | cons q m ih =>
    obtain ⟨d, fs⟩ := q
    rw [validateDirs] at h
    split at h
    · cases h
    · rename_i hv
      intro p hp
      rcases List.mem_cons.1 hp with rfl | hp
      · exact validateFiles_mem hv
      · exact ih h p hp

/-- The set that is returned was validated. -/
theorem getForDirOf_valid {c : Provider} {o : Order} {w d : Str} {ps : ProtoSet}
    (h : getForDirOf c o w d = .ok ps) :
    ∀ p ∈ ps.dirPathToFiles, ∀ f ∈ p.2, validateIsRel ps.config.dirPath f.path = .ok () := by
  unfold getForDirOf at h
  cases hm : getMultipleForDir c o w d with
  | error e => rw [hm] at h; cases h
  | ok sets =>
    rw [hm] at h
    match sets, h with
    | [ps'], h =>
      injection h with h
      subst h
      unfold getMultipleForDir at hm
      dsimp only at hm
      split at hm
      · cases hm
      · split at hm
        · cases hm
        · split at hm
          · cases hm
          · rename_i sets _
            split at hm
            · cases hm
            · rename_i hv
              injection hm with hm
              match sets, hm, hv with
              | [b], hm, hv =>
                injection hm with hm _
                subst hm
                rw [validateSets] at hv
                split at hv
                · cases hv
                · rename_i hv'
                  intro p hp
                  exact validateDirs_mem hv' p ((o.perm _ _).mem_iff.2 hp)

/-- What discovery says about the names and places of the files. -/
theorem discovered {c : Provider} {o : Order} {w d : Str} (hwd : IsAbsPath c.wd) (hw : w ≠ [])
    (hd : d ≠ []) (ht : ∀ p, TreeOK (c.tree p))
    (hbelow : c.configData = [] → ExcludesBelow (getExcludePrefixesForDir c.host))
    {ps : ProtoSet} (h : getForDirOf c o w d = .ok ps) (hhere : absClean c.wd w = c.wd)
    (hnot : ∀ f ∈ allFiles ps, ¬ Within c.wd f.path) :
    ∀ f ∈ allFiles ps, IsAbsPath f.path ∧ f.displayPath = displayPathOf c.wd f.path ∧
      s%".proto" <:+ f.path ∧ Below f.path ps.config.dirPath := by
  have hv := getForDirOf_valid h
  obtain ⟨root, D, fs, b, h1, h2, h3, h4, rfl⟩ := getForDirOf_stages h
  rw [hhere] at h1 h2 h3 h4
  have hda := absClean_isAbsPath hwd hd
  obtain ⟨hra, _, _⟩ := walkRoot_spec hwd hda h1
  have hD : c.configData = [] → D = [] := by
    intro e
    unfold dataExcludes at h2
    rw [if_neg (by simp [e])] at h2
    injection h2 with h2; exact h2.symm
  have hb0 : (walkConfig c c.wd root).hasConfigData = false → c.configData = [] := by
    intro hx
    simpa [walkConfig] using hx
  obtain ⟨_, hdisp, hmem⟩ := walkAll_spec (c := walkConfig c c.wd root)
    (fun hx => hbelow (hb0 hx)) (fun hx => hD (hb0 hx)) hra (ht root) h3
  obtain ⟨hbn, hget, hcfg⟩ := getBaseProtoSets_single (group_nodup fs) h4
  intro f hf
  obtain ⟨⟨dir, files⟩, hp, hff⟩ := List.mem_flatMap.1 hf
  have hg := GoMap.get?_of_mem hbn hp
  obtain ⟨k, hk⟩ := hcfg dir files hg
  rw [hget, group_get?] at hg
  split at hg
  · cases hg
  · injection hg with hg
    dsimp only at hff
    rw [← hg, List.mem_filter] at hff
    obtain ⟨hin, hdir⟩ := hff
    obtain ⟨⟨rs, ds, q, hrs, e, hpath, hnode, hq⟩, _⟩ := (hmem f.path).1 (List.mem_map.2 ⟨f, hin, rfl⟩)
    have hcomp : Components (rs ++ ds) := components_append.2 ⟨hrs, nodeAt_components (ht root) hnode⟩
    have hne : rs ++ ds ≠ [] := by
      intro hx
      rw [hx, hq] at hpath
      have := congrArg List.length hpath
      simp [absPath] at this
    have habs : IsAbsPath f.path := ⟨_, hcomp, hpath⟩
    refine ⟨habs, hdisp f hin, ⟨q, hq.symm⟩, ?_⟩
    have hdirEq : Path.dir f.path = dir := by simpa using hdir
    generalize rs ++ ds = cs at *
    rw [← List.dropLast_concat_getLast hne] at hcomp hpath
    have hd' : dir = absPath cs.dropLast := by rw [← hdirEq, hpath, dir_snoc hcomp]
    have hdabs : IsAbsPath dir := ⟨_, (components_append.1 hcomp).1, hd'⟩
    rcases configFor_dirPath hwd hdabs hk with hx | hx
    · obtain ⟨as, bs, hab, e1, e2⟩ := hx
      have := absPath_inj (components_append.1 hcomp).1 hab (hd'.symm.trans e2)
      rw [this] at hcomp hpath
      rw [List.append_assoc] at hcomp hpath
      exact ⟨as, _, hcomp, by simp, e1, hpath⟩
    · have hcd := (within_isAbsPath hx).2
      have hwithin := validateIsRel_within hcd habs (hv (dir, files) hp f (by
        rw [← hg]; exact List.mem_filter.2 ⟨hin, hdir⟩))
      rcases (within_iff_below habs hcd).1 hwithin with e | hb
      · rw [← e] at hx
        exact absurd hx (hnot f hf)
      · exact hb

/-- The files that discovery finds are properly named. -/
theorem discovered_displayed {c : Provider} {ps : ProtoSet} (hwd : IsAbsPath c.wd)
    (hf : ∀ f ∈ allFiles ps, IsAbsPath f.path ∧ f.displayPath = displayPathOf c.wd f.path)
    (hnot : ∀ f ∈ allFiles ps, ¬ Within c.wd f.path)
    {host : Lint.Host} (habs : ∀ p, host.abs p = .ok (absClean c.wd p)) : Displayed host ps := by
  have lead : ∀ f ∈ allFiles ps, isAbs f.displayPath = false ∧ absClean c.wd f.displayPath = f.path ∧
      base f.displayPath = base f.path := by
    intro f hm
    rw [(hf f hm).2]
    exact displayPathOf_leads hwd (hf f hm).1 (hnot f hm)
  refine ⟨fun f hm => isAbs_of_isAbsPath (hf f hm).1, fun f hm => ?_, fun f hm => (lead f hm).2.2,
    fun f hm g hm' => ⟨fun e => ?_, fun e => ?_⟩⟩
  · unfold LiesAt
    rw [(lead f hm).1, habs, (lead f hm).2.1]
    rfl
  · rw [(hf f hm).2, (hf g hm').2, e]
  · rw [← (lead f hm).2.1, ← (lead g hm').2.1, e]

/-- The file is a proto file under that name too. -/
theorem displayPathOf_proto {w p : Str} (hw : IsAbsPath w) (hp : IsAbsPath p) (hnot : ¬ Within w p)
    (hs : s%".proto" <:+ p) : s%".proto" <:+ displayPathOf w p := by
  obtain ⟨ws, hws, rfl⟩ := hw
  obtain ⟨ps, hps, rfl⟩ := hp
  rw [within_iff hws hps] at hnot
  obtain ⟨pre, a, b, rfl, rfl, hb, hd⟩ := displayPathOf_spec hws hps hnot
  rw [hd]
  have hlast := List.dropLast_concat_getLast hb
  generalize b.getLast hb = x at hlast
  generalize b.dropLast = b' at hlast
  subst hlast
  have hx : s%".proto" <:+ x := by
    have hpath : '/' :: x <:+ absPath (pre ++ (b' ++ [x])) := by
      rw [← List.append_assoc]
      by_cases e : pre ++ b' = []
      · rw [e, List.nil_append, absPath_single]
        exact List.suffix_refl _
      · rw [absPath_snoc e]
        exact ⟨_, rfl⟩
    rcases List.suffix_or_suffix_of_suffix hs hpath with h | h
    · rcases List.suffix_cons_iff.1 h with h | h
      · injection h with h1 _
        exact absurd h1 (by decide)
      · exact h
    · exact absurd (h.subset (show '/' ∈ '/' :: x by simp)) (by decide)
  rcases upDown_snoc a.length b' x with h | ⟨q, h⟩
  · rw [h]; exact hx
  · rw [h]
    exact hx.trans ⟨q ++ ['/'], by simp⟩

/-- The files that discovery finds are proto files below the directory of the configuration,
under both kinds of names. -/
theorem discovered_files {c : Provider} {ps : ProtoSet} (hwd : IsAbsPath c.wd)
    (hf : ∀ f ∈ allFiles ps, IsAbsPath f.path ∧ f.displayPath = displayPathOf c.wd f.path ∧
      s%".proto" <:+ f.path ∧ Below f.path ps.config.dirPath)
    (hnot : ∀ f ∈ allFiles ps, ¬ Within c.wd f.path)
    {host : Lint.Host} (habs : ∀ p, host.abs p = .ok (absClean c.wd p)) (absolutePaths : Bool) :
    ∀ p ∈ ps.dirPathToFiles, ∀ f ∈ p.2, s%".proto" <:+ nameIn absolutePaths f ∧
      ∃ path, LiesAt host (nameIn absolutePaths f) path ∧ Below path ps.config.dirPath := by
  intro p hp f hfp
  have hm : f ∈ allFiles ps := List.mem_flatMap.2 ⟨p, hp, hfp⟩
  obtain ⟨h1, h2, h3, h4⟩ := hf f hm
  have hd := discovered_displayed hwd (fun f hm => ⟨(hf f hm).1, (hf f hm).2.1⟩) hnot habs
  cases absolutePaths with
  | true =>
    refine ⟨h3, f.path, ?_, h4⟩
    unfold LiesAt nameIn
    rw [if_pos rfl, hd.absolute f hm]
    rfl
  | false =>
    refine ⟨?_, f.path, hd.lies f hm, h4⟩
    show s%".proto" <:+ f.displayPath
    rw [h2]
    exact displayPathOf_proto hwd h1 (hnot f hm) h3

end Verif.File
