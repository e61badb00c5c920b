import Verif.Proof.ExecMore
import Verif.Proof.Walk
import Verif.Props.ExecMoreSample

/-!
# Break check as a command (C66, C69)
-/

namespace Verif.Props

open Verif Str Descriptor Extract Spec Exec Path

/-- The parts of a break check of descriptor sets. -/
theorem breakCheckSets_parts {s : SortSlice} {o : Order} {marshal : FileDesc → Except Err Str}
    {config : Breaking.BreakConfig} {frm to : List FileSet} {fs : List Text.Failure}
    (h : Breaking.breakCheckSets s o marshal config frm to = .ok fs) :
    ∃ xf xt, Breaking.packageSetOf s (o.sub s%"to") marshal to = .ok xt ∧
      Breaking.packageSetOf s (o.sub s%"from") marshal frm = .ok xf ∧
      Breaking.run o config xf xt = .ok fs := by
  unfold Breaking.breakCheckSets at h
  split at h
  · cases h
  · rename_i xt ht
    split at h
    · cases h
    · rename_i xf hf
      exact ⟨xf, xt, ht, hf, h⟩

theorem gitArgs_eq (src branch dir : Str) : gitArgs src branch dir = cloneArgs src branch dir := by
  unfold gitArgs cloneArgs
  by_cases h : branch = []
  · rw [if_neg (not_not_intro h), if_pos h]
    rfl
  · rw [if_pos h, if_neg h]
    rfl

/-- The clone is made. -/
theorem temporaryClone_ok {h : Host} {t : Tools} {branch : Str} {w : World} {dir : Str} {disk' : Disk}
    (hc : Clones h t branch w.disk dir disk') :
    temporaryClone h t branch w = ({ w with disk := disk' }, .ok dir) := by
  obtain ⟨h1, h2, h3⟩ := hc
  unfold temporaryClone
  simp only [gitArgs_eq]
  rw [h1]
  dsimp only
  rw [h2]
  dsimp only
  rw [h3]

/-- After cloning and removing the clone the files are as before. -/
theorem removed_same {h : Host} {t : Tools} {branch : Str} {disk disk' : Disk} {dir : Str}
    (ht : TempDirsOK t disk) (hc : Clones h t branch disk dir disk') : t.removeAll dir disk' = disk := by
  obtain ⟨_, h2, h3⟩ := hc
  funext p
  rcases Classical.em (Within p dir) with hp | hp
  · rw [ht.removed dir _ p hp, ht.fresh dir h2 p hp]
  · have := ht.clone (File.absClean h.wd h.workDirPath) branch dir (Disk.set disk dir (some [])) p hp
    rw [h3] at this
    change disk' p = _ at this
    rw [ht.kept dir _ p hp, this]
    refine if_neg ?_
    rintro rfl
    exact hp (within_refl (ht.isAbs _ h2))

/-- C66: break check against a descriptor set prints the failures of comparing it with the files
and exits with 255 if there are any. It changes nothing. -/
theorem C66_descriptor_set (h : Host) (hp : Prints h) (hj : h.json = true → ∀ f, ∃ t, h.toJSON f = .ok t)
    (t : Tools) (args : List Str) (path : Str) (hpath : path ≠ []) (m : Meta) (sets : List FileSet)
    (w : World) (hc : CompilesTo h args { doFileDescriptorSet := true } w.disk m sets)
    (data : Str) (hd : w.disk path = some data) (set : FileSet) (hdec : t.decode data = .ok set)
    (failures : List Text.Failure)
    (hr : Breaking.breakCheckSets t.srt t.order t.marshal m.protoSet.config.break_ [set] sets = .ok failures) :
    breakCheckCmd h t args [] path w =
      ({ w with out := w.out ++ breakLines h failures }, breakOutcome failures) := by
  obtain ⟨xf, xt, h1, h2, h3⟩ := breakCheckSets_parts hr
  have hread : readFile h path w = (w, .ok data) := by unfold readFile; rw [hd]
  have hfrom : getPackageSetForDescriptorSetPath h t path w = (w, .ok xf) := by
    unfold getPackageSetForDescriptorSetPath
    rw [bind_of_ok hread, hdec, bind_of_ok (show Run.lift (.ok set) w = (w, .ok set) from rfl), h2]
    rfl
  unfold breakCheckCmd
  rw [if_neg (by simp), bind_of_ok (getPackageSetAndConfig_of hp hc h1), if_pos hpath, bind_of_ok hfrom]
  exact breakReport_ok hp hj h3 w

/-- C66: the same against the repository, comparing with the directory in the clone, which is gone
afterwards. -/
theorem C66_git (h : Host) (hp : Prints h) (hj : h.json = true → ∀ f, ∃ t, h.toJSON f = .ok t)
    (t : Tools) (args : List Str) (branch : Str) (m m' : Meta) (sets sets' : List FileSet)
    (w : World) (ht : TempDirsOK t w.disk)
    (hc : CompilesTo h args { doFileDescriptorSet := true } w.disk m sets)
    (hrel : isAbs (fileOrDir args) = false)
    (hin : File.absClean h.wd h.workDirPath <+: File.absClean h.wd (fileOrDir args))
    (dir : Str) (disk' : Disk) (hclone : Clones h t branch w.disk dir disk')
    (hc' : CompilesTo { h with workDirPath := dir, stat := t.treeStat, getForDir := t.treeForDir } [cloneDirFor dir (fileOrDir args)]
      { doFileDescriptorSet := true } disk' m' sets')
    (failures : List Text.Failure)
    (hr : Breaking.breakCheckSets t.srt t.order t.marshal m.protoSet.config.break_ sets' sets = .ok failures) :
    breakCheckCmd h t args branch [] w =
      ({ w with out := w.out ++ breakLines h failures }, breakOutcome failures) := by
  obtain ⟨xf, xt, h1, h2, h3⟩ := breakCheckSets_parts hr
  have hcheck : checkRelDirPath h (fileOrDir args) = .ok () := by
    unfold checkRelDirPath
    rw [hrel]
    simp only [Bool.false_eq_true, if_false]
    rw [if_neg]
    have : hasPrefix (File.absClean h.wd (fileOrDir args)) (File.absClean h.wd h.workDirPath) = true :=
      List.isPrefixOf_iff_prefix.2 hin
    simp [this]
  have hp' : Prints (cloneForWorkDirPath h t dir) := hp
  unfold breakCheckCmd
  rw [if_neg (by simp), bind_of_ok (getPackageSetAndConfig_of hp hc h1), if_neg (by simp), hcheck,
    bind_of_ok (show Run.lift (.ok ()) w = (w, .ok ()) from rfl), bind_of_ok (temporaryClone_ok hclone)]
  unfold removing
  have hw : ({ w with disk := disk' } : World).disk = disk' := rfl
  rw [bind_of_ok (getPackageSetAndConfig_of (w := { w with disk := disk' }) hp' hc' h2)]
  dsimp only
  rw [breakReport_ok hp hj h3]
  dsimp only
  rw [removed_same ht hclone]

/-- C66: with failures something is printed, unless a failure has no text. -/
theorem C66_exit (failures : List Text.Failure) :
    (breakOutcome failures = .ok () ↔ failures = []) ∧
    (breakOutcome failures = .error (.exit 255 []) ↔ failures ≠ []) := by
  unfold breakOutcome
  by_cases h : failures = []
  · simp [h]
  · simp [h]

/-- C66 with C01: against the repository, break check ends well exactly if the files are
compatible with those of the clone. -/
theorem C66_compatible (h : Host) (hp : Prints h) (hj : h.json = true → ∀ f, ∃ t, h.toJSON f = .ok t)
    (t : Tools) (args : List Str) (branch : Str) (m m' : Meta) (sets sets' : List FileSet)
    (w : World) (ht : TempDirsOK t w.disk)
    (hc : CompilesTo h args { doFileDescriptorSet := true } w.disk m sets)
    (hrel : isAbs (fileOrDir args) = false)
    (hin : File.absClean h.wd h.workDirPath <+: File.absClean h.wd (fileOrDir args))
    (dir : Str) (disk' : Disk) (hclone : Clones h t branch w.disk dir disk')
    (hc' : CompilesTo { h with workDirPath := dir, stat := t.treeStat, getForDir := t.treeForDir } [cloneDirFor dir (fileOrDir args)]
      { doFileDescriptorSet := true } disk' m' sets')
    (hff : FaithfulOn t.marshal fun f => f ∈ sets'.flatten)
    (hft : FaithfulOn t.marshal fun f => f ∈ sets.flatten) (hf : DescriptorsOK sets'.flatten)
    (hto : DescriptorsOK sets.flatten) :
    ∃ old new, DescribesSet sets'.flatten old ∧ DescribesSet sets.flatten new ∧
      ((breakCheckCmd h t args branch [] w).2 = .ok () ↔
        Compatible (Checked m.protoSet.config.break_.includeBeta) old new ∧
        (m.protoSet.config.break_.includeBeta = false → m.protoSet.config.break_.allowBetaDeps = false →
          NoBetaDependencies new)) ∧
      ((breakCheckCmd h t args branch [] w).2 ≠ .ok () →
        (breakCheckCmd h t args branch [] w).2 = .error (.exit 255 [])) := by
  obtain ⟨old, ho, hos⟩ := C12_schemaOK t.srt (t.order.sub (s%"from")) t.marshal sets' hff hf
  obtain ⟨new, hn, hns⟩ := C12_schemaOK t.srt (t.order.sub (s%"to")) t.marshal sets hft hto
  have heq := breakCheckSets_eq t.srt t.order t.marshal m.protoSet.config.break_ sets' sets old new ho hn
  obtain ⟨fs, hfs, _⟩ := C06_reports t.order m.protoSet.config.break_ old new hos hns
  have hrun := C66_git h hp hj t args branch m m' sets sets' w ht hc hrel hin dir disk' hclone hc' fs
    (heq.trans hfs)
  refine ⟨old, new, C12_describes _ _ _ _ hff old ho, C12_describes _ _ _ _ hft new hn, ?_, ?_⟩
  · rw [hrun, ← C01_clean_iff_compatible t.order m.protoSet.config.break_ old new hos hns, hfs]
    show breakOutcome fs = .ok () ↔ _
    rw [(C66_exit fs).1]
    exact ⟨fun e => by rw [e], fun e => by cases e; rfl⟩
  · rw [hrun]
    show breakOutcome fs ≠ .ok () → breakOutcome fs = _
    rw [Ne, (C66_exit fs).1, (C66_exit fs).2]
    exact id

theorem quiet_fromDescriptorSet (h : Host) (t : Tools) (path : Str) :
    Quiet (getPackageSetForDescriptorSetPath h t path) :=
  quiet_bind (quiet_readFile h path) fun _ => quiet_bind (quiet_lift _) fun _ => quiet_lift _

/-- What comes before the clone leaves the files alone; after it they are as the clone left
them, with the clone removed. -/
theorem C66_files_partial (h : Host) (t : Tools) (args : List Str) (branch path : Str) (w : World)
    (ht : TempDirsOK t w.disk)
    (hg : path = [] → ∀ dir disk' output, ¬CloneFails h t branch w.disk dir disk' output) :
    (breakCheckCmd h t args branch path w).1.disk = w.disk ∧
      (breakCheckCmd h t args branch path w).1.writes = w.writes := by
  unfold breakCheckCmd
  split
  · exact quiet_exit _ w
  have hq := quiet_getPackageSetAndConfig h t s%"to" args w
  unfold Run.bind
  revert hq
  rcases getPackageSetAndConfig h t s%"to" args w with ⟨w1, to | e | _⟩
  case error => exact id
  case crash => exact id
  rintro ⟨hd, hw⟩
  dsimp only
  split
  · have := quiet_bind (quiet_fromDescriptorSet h t path)
      (fun frm => quiet_breakReport h t to.2 frm to.1) w1
    unfold Run.bind at this
    rw [← hd, ← hw]
    exact this
  rename_i hpath
  have hpath : path = [] := by simpa using hpath
  cases checkRelDirPath h (fileOrDir args) with
  | error e => exact ⟨hd, hw⟩
  | ok u =>
    show _ ∧ _
    simp only [Run.lift, Run.pure]
    have hclone : (∃ e, temporaryClone h t branch w1 = (w1, .error e)) ∨
        ∃ dir disk', Clones h t branch w.disk dir disk' ∧
          temporaryClone h t branch w1 = ({ w1 with disk := disk' }, .ok dir) := by
      unfold temporaryClone
      simp only [gitArgs_eq]
      split
      · exact .inl ⟨_, rfl⟩
      · rename_i hs
        split
        · exact .inl ⟨_, rfl⟩
        · rename_i dir hdir
          rw [hd]
          split
          · rename_i disk' e
            exact .inr ⟨dir, disk', ⟨hs, hdir, e⟩, rfl⟩
          · rename_i disk' output e
            exact absurd ⟨hs, hdir, e⟩ (hg hpath dir disk' output)
      · exact .inl ⟨_, rfl⟩
    rcases hclone with ⟨e, he⟩ | ⟨dir, disk', hc, he⟩
    · rw [he]
      exact ⟨hd, hw⟩
    · rw [he]
      dsimp only
      unfold removing
      have hq := quiet_bind (quiet_getPackageSetAndConfig (cloneForWorkDirPath h t dir) t s%"from"
          [cloneDirFor dir (fileOrDir args)])
        (fun frm => quiet_breakReport h t to.2 frm.1 to.1) { w1 with disk := disk' }
      unfold Run.bind at hq
      dsimp only
      refine ⟨?_, hq.2.trans hw⟩
      rw [hq.1]
      exact removed_same ht hc

/-- C66 does not hold when git fails, as for a branch that does not exist: the temporary directory
stays. -/
theorem C66_leaks (h : Host) (hp : Prints h) (t : Tools) (args : List Str) (branch : Str) (m : Meta)
    (sets : List FileSet) (x : XPackageSet) (w : World)
    (hc : CompilesTo h args { doFileDescriptorSet := true } w.disk m sets)
    (hx : Breaking.packageSetOf t.srt (t.order.sub s%"to") t.marshal sets = .ok x)
    (hrel : checkRelDirPath h (fileOrDir args) = .ok ()) (dir : Str) (disk' : Disk) (output : Str)
    (hf : CloneFails h t branch w.disk dir disk' output) :
    (breakCheckCmd h t args branch [] w).1.disk = disk' := by
  have he : ∃ e, temporaryClone h t branch w = ({ w with disk := disk' }, .error e) := by
    obtain ⟨h1, h2, h3⟩ := hf
    unfold temporaryClone
    simp only [gitArgs_eq]
    rw [h1]
    dsimp only
    rw [h2]
    dsimp only
    rw [h3]
    exact ⟨_, rfl⟩
  obtain ⟨e, he⟩ := he
  unfold breakCheckCmd
  rw [if_neg (by simp), bind_of_ok (getPackageSetAndConfig_of hp hc hx), if_neg (by simp), hrel,
    bind_of_ok (show Run.lift (.ok ()) w = (w, .ok ()) from rfl)]
  unfold Run.bind
  rw [he]

namespace BreakExample

open Exec.Sample ReflectExample

theorem repo_prints : Prints repoHost := fun _ _ => rfl

/-- The command on the directory `a` of the working directory. -/
theorem compiles : CompilesTo repoHost [s%"a"] { doFileDescriptorSet := true } world.disk dir new :=
  ⟨⟨s%"a", .inl rfl, .inl ⟨by rfl, by rfl, rfl⟩⟩, ⟨_, rfl⟩, by rfl⟩

theorem clones : Clones repoHost tools [] world.disk s%"/tmp/clone"
    (tools.git (cloneArgs s%"/w" [] s%"/tmp/clone") (Disk.set world.disk s%"/tmp/clone" (some []))).1 :=
  ⟨by rfl, rfl, by rfl⟩

theorem clone_compiles (d : Disk) : CompilesTo (cloneForWorkDirPath repoHost tools s%"/tmp/clone")
    [cloneDirFor s%"/tmp/clone" s%"a"] { doFileDescriptorSet := true } d { protoSet := cloneSet } old :=
  ⟨⟨_, .inl rfl, .inl ⟨by rfl, by rfl, rfl⟩⟩, ⟨_, rfl⟩, by rfl⟩

end BreakExample

open BreakExample Exec.Sample ReflectExample

example : (breakCheckCmd repoHost tools [s%"a"] [] [] world).2 = .ok () := by decide +kernel

example : (breakCheckCmd { repoHost with
    compile := fun _ _ ps => .ok ([], if ps.workDirPath = s%"/tmp/clone" then old else [[base]]) }
    tools [s%"a"] [] [] world).1.out = s%"Package \"foo.v1\" was deleted.\n" := by decide +kernel

example :=
  C66_compatible repoHost repo_prints (by intro _ f; exact ⟨_, rfl⟩) tools [s%"a"] [] dir
    { protoSet := cloneSet } new old world tools_ok compiles rfl (by decide) s%"/tmp/clone" _ clones
    (clone_compiles _) old_faithful new_faithful old_valid new_valid

/-- C66 fails: a break check against a missing branch leaves the temporary directory behind. -/
theorem C66_not : ∃ (h : Host) (t : Tools) (args : List Str) (branch : Str) (w : World),
    TempDirsOK t w.disk ∧ Prints h ∧ (breakCheckCmd h t args branch [] w).1.disk ≠ w.disk := by
  refine ⟨repoHost, failingGit, [s%"a"], s%"x", world, failingGit_ok, repo_prints, ?_⟩
  have h1 := C66_leaks repoHost repo_prints failingGit [s%"a"] s%"x" dir new _ world compiles
    (show Breaking.packageSetOf SortSlice.stable (Order.id.sub s%"to") byName new = .ok _ by rfl)
    (by rfl) s%"/tmp/clone" (Disk.set world.disk s%"/tmp/clone" (some [])) _ ⟨by rfl, by rfl, by rfl⟩
  rw [h1]
  intro e
  have := congrFun e s%"/tmp/clone"
  cases this

/-! ## C69 -/

theorem cleanStep_dots {stack : List Str} {c : Str} (h : s%".." ∈ stack) :
    s%".." ∈ cleanStep false stack c := by
  unfold cleanStep
  split
  · exact h
  · split
    · exact h
    · split
      · split
        · cases h
        · split
          · exact List.mem_cons_self
          · rename_i hne
            rcases List.mem_cons.1 h with e | h
            · exact absurd e.symm hne
            · exact h
      · exact List.mem_cons_of_mem _ h

theorem foldl_dots {l stack : List Str} (h : s%".." ∈ stack) :
    s%".." ∈ l.foldl (cleanStep false) stack := by
  induction l generalizing stack with
  | nil => exact h
  | cons c l ih => exact ih (cleanStep_dots h)

/-- A relative path that stays inside means the same below any directory. -/
theorem foldl_inside {l stack base : List Str} (hs : s%".." ∉ stack)
    (h : s%".." ∉ l.foldl (cleanStep false) stack) :
    l.foldl (cleanStep true) (stack ++ base) = l.foldl (cleanStep false) stack ++ base := by
  induction l generalizing stack with
  | nil => rfl
  | cons c l ih =>
    rw [List.foldl_cons] at h ⊢
    have hn : s%".." ∉ cleanStep false stack c := fun hm => h (foldl_dots hm)
    rw [List.foldl_cons, ← ih hn h]
    congr 1
    unfold cleanStep at hn ⊢
    split
    · rfl
    · split
      · rfl
      · split
        · rename_i h1 h2 h3
          rw [if_neg h1, if_neg h2, if_pos h3] at hn
          cases stack with
          | nil => exact absurd (List.mem_singleton.2 rfl) hn
          | cons a stack =>
            have : a ≠ s%".." := fun e => hs (e ▸ List.mem_cons_self)
            simp only [List.cons_append, this, if_false]
        · rfl

/-- C69, what is proved: an argument that does not leave the working directory on its way is
accepted and stands for the same directory of the working directory and of the clone. -/
theorem C69_same_directory_partial (h : Host) (ws ds : List Str) (hw : Components ws) (hd : Components ds)
    (hwd : h.wd = absPath ws) (hwork : h.workDirPath = h.wd) (arg : Str) (hrel : isAbs arg = false)
    (hne : arg ≠ []) (hin : s%".." ∉ cleanComps false arg) :
    checkRelDirPath h arg = .ok () ∧
    ∃ cs, Components cs ∧ File.absClean h.wd arg = absPath (ws ++ cs) ∧
      cloneDirFor (absPath ds) arg = absPath (ds ++ cs) := by
  have hjoin : ∀ bs, Components bs → joinPath [absPath bs, arg] = absPath (bs ++ cleanComps false arg) := by
    intro bs hb
    rw [joinPath_absPath hb]
    have := foldl_inside (l := splitChar '/' arg) (stack := []) (base := bs.reverse) (by simp) (by
      intro hm
      exact hin (by unfold cleanComps; simpa using hm))
    rw [List.nil_append] at this
    rw [this, List.reverse_append, List.reverse_reverse]
    rfl
  have habs : File.absClean h.wd arg = absPath (ws ++ cleanComps false arg) := by
    unfold File.absClean
    rw [if_neg hne, hrel]
    simp only [Bool.not_false, if_true]
    rw [hwd]
    exact hjoin ws hw
  have hcomp : Components (cleanComps false arg) := by
    have h1 := foldl_inside (l := splitChar '/' arg) (stack := []) (base := []) (by simp) (by
      intro hm
      exact hin (by unfold cleanComps; simpa using hm))
    rw [List.append_nil, List.append_nil] at h1
    have : cleanComps false arg = cleanComps true arg := by unfold cleanComps; rw [h1]
    rw [this]
    exact cleanComps_components arg
  refine ⟨?_, cleanComps false arg, hcomp, habs, ?_⟩
  · unfold checkRelDirPath
    rw [hrel, habs]
    simp only [Bool.false_eq_true, if_false]
    rw [if_neg]
    have hwc : File.absClean h.wd h.workDirPath = absPath ws := by
      rw [hwork, hwd]
      unfold File.absClean
      rw [if_neg (by rw [absPath_eq]; simp), isAbs_absPath]
      simp only [Bool.not_true, Bool.false_eq_true, if_false]
      exact clean_absPath hw
    rw [hwc]
    have : hasPrefix (absPath (ws ++ cleanComps false arg)) (absPath ws) = true := by
      rw [hasPrefix_iff]
      cases ws with
      | nil =>
        rw [absPath_eq, absPath_eq]
        exact ⟨_, rfl⟩
      | cons a ws =>
        rw [absPath_ne_nil (by simp), absPath_ne_nil (by simp), List.flatMap_append]
        exact ⟨_, rfl⟩
    simp [this]
  · unfold cloneDirFor
    split
    · exact hjoin ds hd
    · rename_i hn
      have : arg = s%"." := by
        rcases Classical.em (arg = s%".") with e | e
        · exact e
        · exact absurd ⟨hne, e⟩ hn
      subst this
      show absPath ds = absPath (ds ++ [])
      rw [List.append_nil]

example : s%".." ∉ cleanComps false s%"x/../a/." := by decide

/-- C69 does not hold: an argument outside the working directory is accepted if its path merely
starts the same, and the other side of the comparison is outside the clone. -/
theorem C69_not_outside : ∃ h : Host, h.workDirPath = h.wd ∧ h.wd = s%"/w" ∧
    checkRelDirPath h s%"../w2" = .ok () ∧ File.absClean h.wd s%"../w2" = s%"/w2" ∧
    cloneDirFor s%"/tmp/clone" s%"../w2" = s%"/tmp/w2" :=
  ⟨Exec.Sample.host, rfl, rfl, by rfl, by rfl, by rfl⟩

/-- C69 does not hold: an argument inside the working directory that leaves it on its way stands
for a directory outside the clone. -/
theorem C69_not_inside : ∃ h : Host, h.workDirPath = h.wd ∧ h.wd = s%"/w" ∧
    checkRelDirPath h s%"../w/a" = .ok () ∧ File.absClean h.wd s%"../w/a" = s%"/w/a" ∧
    cloneDirFor s%"/tmp/clone" s%"../w/a" = s%"/tmp/w/a" :=
  ⟨Exec.Sample.host, rfl, rfl, by rfl, by rfl, by rfl⟩

end Verif.Props
