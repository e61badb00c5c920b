import Verif.Proof.ExecFormat
import Verif.Proof.ExecLint
import Verif.Spec.ExecSample
import Verif.Props.Discovery

/-!
# Properties C61 and C63: which files a command is about
-/

namespace Verif.Props

open Verif Str Spec Exec Path Settings File

/-- The files are found by discovery, from an absolute working directory, and the empty path does
not exist. -/
structure Discovers (h : Exec.Host) (c : File.Provider) (o : Order) : Prop where
  getForDir : h.getForDir = getForDirOf c o
  wd : IsAbsPath c.wd
  workDirPath : h.workDirPath ≠ []
  stat : ∀ k, h.stat [] ≠ .ok k
  tree : ∀ p, TreeOK (c.tree p)
  excludes : c.configData = [] → ExcludesBelow (getExcludePrefixesForDir c.host)

/-- `q` is a directory next to `d` whose name starts with that of `d`, or something below such a
directory. -/
def BelowLookalike (q d : Str) : Prop :=
  ∃ cs a b ds, Components (cs ++ [a]) ∧ Components (cs ++ [a ++ b] ++ ds) ∧ b ≠ [] ∧
    d = absPath (cs ++ [a]) ∧ q = absPath (cs ++ [a ++ b] ++ ds)

theorem flatMap_prefix {cs ds : List Str} (hc : Components cs) (hd : Components ds)
    (h : (cs.flatMap fun c => '/' :: c) <+: ds.flatMap fun c => '/' :: c) :
    cs <+: ds ∨ ∃ cs' a b rest, cs = cs' ++ [a] ∧ ds = cs' ++ [a ++ b] ++ rest ∧ b ≠ [] := by
  induction cs generalizing ds with
  | nil => exact .inl ⟨ds, rfl⟩
  | cons c cs ih =>
    cases ds with
    | nil => simp at h
    | cons d ds =>
      obtain ⟨c1, c2⟩ := components_cons.1 hc
      obtain ⟨d1, d2⟩ := components_cons.1 hd
      rw [List.flatMap_cons, List.flatMap_cons, List.cons_append, List.cons_append,
        List.cons_prefix_cons] at h
      replace h := h.2
      rcases List.prefix_or_prefix_of_prefix
        (((List.prefix_append c _).trans h)) (List.prefix_append d _) with ⟨b, rfl⟩ | ⟨b, rfl⟩
      · rw [List.append_assoc, List.prefix_append_right_inj] at h
        cases b with
        | nil =>
          rcases ih c2 d2 h with ⟨t, rfl⟩ | ⟨cs', a, b, rest, rfl, rfl, hb⟩
          · exact .inl ⟨t, by simp⟩
          · exact .inr ⟨c :: cs', a, b, rest, by simp, by simp, hb⟩
        | cons x b =>
          cases cs with
          | nil => exact .inr ⟨[], c, x :: b, ds, rfl, rfl, by simp⟩
          | cons e cs =>
            rw [List.flatMap_cons, List.cons_append, List.cons_append, List.cons_prefix_cons] at h
            exact absurd (by rw [← h.1]; simp) d1.2.1
      · rw [List.append_assoc, List.prefix_append_right_inj] at h
        cases b with
        | nil =>
          rw [List.append_nil] at *
          rcases ih c2 d2 h with ⟨t, rfl⟩ | ⟨cs', a, b, rest, rfl, rfl, hb⟩
          · exact .inl ⟨t, by simp⟩
          · exact .inr ⟨d :: cs', a, b, rest, by simp, by simp, hb⟩
        | cons x b =>
          cases ds with
          | nil => simp at h
          | cons e ds =>
            rw [List.flatMap_cons, List.cons_append, List.cons_append, List.cons_prefix_cons] at h
            exact absurd (by rw [h.1]; simp) c1.2.1

/-- What a common start means for two paths. -/
theorem prefix_iff_within {p d : Str} (hp : IsAbsPath p) (hd : IsAbsPath d) :
    d <+: p ↔ Within p d ∨ BelowLookalike p d := by
  constructor
  · intro h
    obtain ⟨cs, hcs, rfl⟩ := hd
    obtain ⟨ds, hds, rfl⟩ := hp
    cases hc : cs with
    | nil => exact .inl ⟨[], ds, by simpa using hds, rfl, rfl⟩
    | cons c cs' =>
      rw [← hc]
      have hne : cs ≠ [] := by rw [hc]; simp
      cases hd : ds with
      | nil =>
        exfalso
        rw [hd, absPath_ne_nil hne, hc, List.flatMap_cons, List.cons_append] at h
        have hl := h.length_le
        rw [hc] at hcs
        have hc1 := (components_cons.1 hcs).1.1
        have hpos := List.length_pos_iff.2 hc1
        simp [absPath] at hl
        exact hc1 (by simpa using hl.1)
      | cons d ds' =>
        rw [← hd]
        have hne' : ds ≠ [] := by rw [hd]; simp
        rw [absPath_ne_nil hne, absPath_ne_nil hne'] at h
        rcases flatMap_prefix hcs hds h with ⟨t, rfl⟩ | ⟨a1, a, b, rest, rfl, rfl, hb⟩
        · exact .inl ⟨cs, t, hds, rfl, rfl⟩
        · exact .inr ⟨a1, a, b, rest, hcs, hds, hb, rfl, rfl⟩
  · rintro (⟨cs, ds, hc, rfl, rfl⟩ | ⟨cs, a, b, ds, h1, h2, hb, rfl, rfl⟩)
    · cases cs with
      | nil =>
        cases ds with
        | nil => exact List.prefix_refl _
        | cons d ds => rw [List.nil_append, absPath_eq (d :: ds)]; exact ⟨_, rfl⟩
      | cons c cs =>
        rw [absPath_ne_nil (by simp), absPath_ne_nil (by simp), List.flatMap_append]
        exact List.prefix_append _ _
    · rw [absPath_ne_nil (by simp), absPath_ne_nil (by simp)]
      simp only [List.flatMap_append, List.flatMap_cons, List.flatMap_nil, List.append_nil,
        List.append_assoc]
      rw [List.prefix_append_right_inj]
      simp only [List.cons_append, List.cons_prefix_cons, true_and, List.append_assoc]
      exact List.prefix_append _ _

/-- The file is one of those that discovery found. -/
def Found (m : Meta) (f : ProtoFile) : Prop :=
  ∃ dir files, (dir, files) ∈ m.protoSet.dirPathToFiles ∧ f ∈ files

theorem clean_ne_nil (p : Str) : clean p ≠ [] := by
  have step : ∀ (l : List Str) (stack : List Str), (∀ c ∈ stack, c ≠ []) →
      ∀ c ∈ l.foldl (cleanStep false) stack, c ≠ [] := by
    intro l
    induction l with
    | nil => exact fun _ h => h
    | cons a l ih =>
      intro stack h
      refine ih _ ?_
      unfold cleanStep
      split
      · exact h
      · rename_i ha
        split
        · exact h
        · split
          · cases stack with
            | nil => intro c hc; simp at hc; rw [hc]; simp
            | cons t ts =>
              dsimp only
              split
              · intro c hc
                rcases List.mem_cons.1 hc with rfl | hc
                · simp
                · exact h c hc
              · exact fun c hc => h c (List.mem_cons_of_mem _ hc)
          · intro c hc
            rcases List.mem_cons.1 hc with rfl | hc
            · exact ha
            · exact h c hc
  unfold clean
  dsimp only
  split
  · simp
  · rename_i hr
    rw [Bool.not_eq_true] at hr
    rw [hr]
    split
    · simp
    · rename_i hne
      have hall : ∀ c ∈ cleanComps false p, c ≠ [] := by
        intro c hc
        exact step _ [] (by simp) c (List.mem_reverse.1 hc)
      revert hne hall
      cases cleanComps false p with
      | nil => intro hne; exact absurd rfl hne
      | cons a l =>
        intro _ hall hj
        have ha := hall a (by simp)
        cases l with
        | nil => exact ha (by simpa [join] using hj)
        | cons b l => simp [join] at hj

/-- Discovery gave the proto set, for the directory or the directory of the file. -/
theorem Discovers.get {h : Exec.Host} {c : File.Provider} {o : Order} (hd : Discovers h c o)
    {args : List Str} {m : Meta} (hm : Finds h args m) :
    ∃ d, getForDirOf c o h.workDirPath d = .ok m.protoSet ∧ d ≠ [] ∧
      ∀ arg, args = [arg] → h.stat arg = .ok .dir → d = arg := by
  obtain ⟨a, ha, hm⟩ := hm
  have same : ∀ arg, args = [arg] → arg = a := by
    rintro arg rfl
    rcases ha with ha | ⟨ha, _⟩
    · cases ha; rfl
    · simp at ha
  rcases hm with ⟨h1, h2, _⟩ | ⟨h1, h2, _⟩
  · refine ⟨a, hd.getForDir ▸ h2, fun e => hd.stat .dir (e ▸ h1), fun arg e _ => (same arg e).symm⟩
  · refine ⟨Path.dir a, hd.getForDir ▸ h2, clean_ne_nil _, fun arg e hs => ?_⟩
    rw [same arg e, h1] at hs
    cases hs

theorem entryOf_below {p dir d : Str} (he : EntryOf p dir) (hw : Within dir d) : Below p d := by
  obtain ⟨cs, x, hc, rfl, rfl⟩ := he
  obtain ⟨as, bs, hab, rfl, e⟩ := hw
  have := absPath_inj (components_append.1 hc).1 hab e
  subst this
  exact ⟨as, bs ++ [x], by rw [← List.append_assoc]; exact hc, by simp, rfl, by rw [← List.append_assoc]⟩

theorem below_entryOf {p dir d : Str} (he : EntryOf p dir) (hw : Below p d) : Within dir d := by
  obtain ⟨cs, x, hc, rfl, rfl⟩ := he
  obtain ⟨as, bs, hab, hb, rfl, e⟩ := hw
  rw [← List.dropLast_concat_getLast hb, ← List.append_assoc] at hab e
  have := absPath_inj hc hab e
  have := List.append_inj' this rfl
  rw [this.1]
  exact ⟨as, _, (components_append.1 hab).1, rfl, rfl⟩

/-- C61: of the files found, a command given a directory is about those below it and, contrary to
what the user asked for, those below a directory next to it whose name starts the same. -/
theorem C61_concerns_partial (h : Exec.Host) (c : File.Provider) (o : Order) (hd : Discovers h c o)
    (arg : Str) (m : Meta) (hm : Finds h [arg] m) (hdir : h.stat arg = .ok .dir) (f : ProtoFile) :
    Concerns h m f ↔ Found m f ∧
      (Below f.path (absClean c.wd arg) ∨
        ∃ dir, EntryOf f.path dir ∧ BelowLookalike dir (absClean c.wd arg)) := by
  obtain ⟨d, hg, hne, hda⟩ := hd.get hm
  obtain rfl := hda arg rfl hdir
  obtain ⟨root, D, _, _, h3, h4, h5⟩ := C21_discovery c o h.workDirPath d hd.wd hd.workDirPath hne
    hd.tree hd.excludes m.protoSet hg
  have hdp : m.protoSet.dirPath = absClean c.wd d := by
    obtain ⟨_, _, _, _, _, _, _, _, e⟩ := getForDirOf_stages hg
    rw [e]
  have hsingle : m.singleFilename = [] := by
    obtain ⟨a, ha, hm⟩ := hm
    have : a = d := by
      rcases ha with ha | ⟨ha, _⟩
      · cases ha; rfl
      · simp at ha
    subst this
    rcases hm with ⟨_, _, e⟩ | ⟨e, _⟩
    · exact e
    · rw [hdir] at e; cases e
  have habs := absClean_isAbsPath hd.wd hne
  have hentry : ∀ dir files, (dir, files) ∈ m.protoSet.dirPathToFiles → f ∈ files → EntryOf f.path dir :=
    fun dir files hmem hf => ((h3 dir f.path).1 ⟨files, f, GoMap.get?_of_mem h5 hmem, hf, rfl⟩).1
  have hiff : ∀ dir, EntryOf f.path dir → (absClean c.wd d <+: dir ↔
      Below f.path (absClean c.wd d) ∨ BelowLookalike dir (absClean c.wd d)) := by
    intro dir he
    have : IsAbsPath dir := by
      obtain ⟨cs, x, hc, rfl, _⟩ := he
      exact ⟨cs, (components_append.1 hc).1, rfl⟩
    rw [prefix_iff_within this habs]
    exact or_congr_left ⟨entryOf_below he, below_entryOf he⟩
  unfold Concerns Found
  rw [hdp]
  constructor
  · rintro ⟨⟨dir, files, hmem, hpre, hf⟩, _⟩
    have he := hentry dir files hmem hf
    refine ⟨⟨dir, files, hmem, hf⟩, ?_⟩
    rcases (hiff dir he).1 hpre with x | x
    · exact .inl x
    · exact .inr ⟨dir, he, x⟩
  · rintro ⟨⟨dir, files, hmem, hf⟩, hx⟩
    have he := hentry dir files hmem hf
    refine ⟨⟨dir, files, hmem, (hiff dir he).2 ?_, hf⟩, .inl hsingle⟩
    rcases hx with x | ⟨dir', he', x⟩
    · exact .inl x
    · have : dir' = dir := by
        obtain ⟨cs, y, hc, rfl, e1⟩ := he
        obtain ⟨cs', y', hc', rfl, e2⟩ := he'
        have := absPath_inj hc hc' (e1.symm.trans e2)
        rw [(List.append_inj' this rfl).1]
      exact .inr (this ▸ x)

/-- C61: if the directory has a configuration file of its own, or no directory above it has one, a
command is only about files below it. -/
theorem C61_below_partial (h : Exec.Host) (c : File.Provider) (o : Order) (hd : Discovers h c o)
    (hc : c.configData = [])
    (arg : Str) (m : Meta) (hm : Finds h [arg] m) (hdir : h.stat arg = .ok .dir)
    (hown : (∃ p, ConfigFile c.host.stat (absClean c.wd arg) p) ∨
      ∀ d, Below (absClean c.wd arg) d → NoConfig c.host.stat d)
    (f : ProtoFile) (hf : Concerns h m f) : Below f.path (absClean c.wd arg) := by
  obtain ⟨d, hg, hne, hda⟩ := hd.get hm
  obtain rfl := hda arg rfl hdir
  obtain ⟨root, D, _, h2, h3, h4, h5⟩ := C21_discovery c o h.workDirPath d hd.wd hd.workDirPath hne
    hd.tree hd.excludes m.protoSet hg
  have hdp : m.protoSet.dirPath = absClean c.wd d := by
    obtain ⟨_, _, _, _, _, _, _, _, e⟩ := getForDirOf_stages hg
    rw [e]
  rw [hdp] at h2
  have hroot : root = absClean c.wd d := by
    rcases (h2 hc).2 with ⟨hw, ⟨p, hp⟩, hnear⟩ | ⟨e, _⟩
    · have habs := absClean_isAbsPath hd.wd hne
      rcases (within_iff_below habs (within_isAbsPath hw).2).1 hw with e | hb
      · exact e.symm
      · rcases hown with ⟨q, hq⟩ | hno
        · exact absurd hq (hnear _ (within_refl habs) hb q)
        · exact absurd hp (hno root hb p)
    · exact e
  obtain ⟨⟨dir, files, hmem, hpre, hfm⟩, _⟩ := hf
  obtain ⟨he, ⟨rs, ds, q, hrs, e1, e2, e3, e4⟩, _⟩ :=
    (h3 dir f.path).1 ⟨files, f, GoMap.get?_of_mem h5 hmem, hfm, rfl⟩
  rw [← hroot, e1, e2]
  have hcomp := components_append.2 ⟨hrs, nodeAt_components (hd.tree root) e3⟩
  refine ⟨rs, ds, hcomp, ?_, rfl, rfl⟩
  rintro rfl
  rw [hdp, ← hroot, e1] at hpre
  rw [List.append_nil] at e2
  obtain ⟨cs, x, hcx, rfl, e5⟩ := he
  have e6 := absPath_inj hrs hcx (e2.symm.trans e5)
  have hl := hpre.length_le
  have hx := (components_append.1 hcx).2 x (by simp)
  have hpos := List.length_pos_iff.2 hx.1
  rw [e6] at hl
  cases cs with
  | nil => rw [List.nil_append, absPath_single] at hl; simp [absPath] at hl; exact hx.1 hl
  | cons a cs => rw [absPath_snoc (by simp)] at hl; simp at hl; omega

/-- Discovery never lists a file twice: the hypothesis `Distinct` of the theorems about format. -/
theorem C38_distinct (h : Exec.Host) (c : File.Provider) (o : Order) (hd : Discovers h c o)
    (args : List Str) (m : Meta) (hm : Finds h args m) : Distinct m := by
  obtain ⟨d, hg, hne, _⟩ := hd.get hm
  obtain ⟨root, D, _, h2, h3, h4, h5⟩ := C21_discovery c o h.workDirPath d hd.wd hd.workDirPath hne
    hd.tree hd.excludes m.protoSet hg
  have all : ∀ (l : List (Str × List ProtoFile)), (∀ x ∈ l, x ∈ m.protoSet.dirPathToFiles) →
      (l.map (·.1)).Nodup → ((l.flatMap fun d => d.2).map fun f => f.path).Nodup := by
    intro l
    induction l with
    | nil => intros; exact List.nodup_nil
    | cons x l ih =>
      intro hsub hn
      obtain ⟨dir, files⟩ := x
      rw [List.map_cons, List.nodup_cons] at hn
      rw [List.flatMap_cons, List.map_append, List.nodup_append]
      have hx := GoMap.get?_of_mem h5 (hsub (dir, files) (by simp))
      refine ⟨(h4 _ _ hx).2, ih (fun y hy => hsub y (List.mem_cons_of_mem _ hy)) hn.2, ?_⟩
      intro a ha b hb e
      subst e
      obtain ⟨f, hf, rfl⟩ := List.mem_map.1 ha
      obtain ⟨g, hg, e⟩ := List.mem_map.1 hb
      obtain ⟨y, hy, hgy⟩ := List.mem_flatMap.1 hg
      obtain ⟨dir', files'⟩ := y
      have h1 := ((h3 dir f.path).1 ⟨files, f, hx, hf, rfl⟩).1
      have h2 := ((h3 dir' g.path).1 ⟨files', g, GoMap.get?_of_mem h5 (hsub _ (List.mem_cons_of_mem _ hy)), hgy, rfl⟩).1
      rw [e] at h2
      obtain ⟨cs, y1, hc1, rfl, e1⟩ := h1
      obtain ⟨cs', y2, hc2, rfl, e2⟩ := h2
      have := absPath_inj hc1 hc2 (e1.symm.trans e2)
      have hcs := (List.append_inj' this rfl).1
      subst hcs
      exact hn.1 (List.mem_map.2 ⟨_, hy, rfl⟩)
  exact all _ (fun _ hx => hx) h5

/-! ## files -/

theorem sublist_flatMap {α β : Type} (f : α → List β) {l l' : List α} (h : l.Sublist l') :
    (l.flatMap f).Sublist (l'.flatMap f) := by
  induction h with
  | slnil => exact List.Sublist.refl _
  | cons a _ ih => exact ih.trans (List.sublist_append_right _ _)
  | cons_cons a _ ih => exact (List.Sublist.refl (f a)).append ih

/-- C63: the files command prints the display paths of the files it is about, one per line, sorted,
each as often as it was found. Given a single file it prints the files of its whole directory. -/
theorem C63_files (h : Exec.Host) (hp : Prints h) (o : Order) (args : List Str) (m : Meta)
    (hm : Finds h args m) (hn : ∀ f, Found m f → f.displayPath ≠ []) (w : World) :
    ∃ lines, filesCmd h o args w =
        ({ w with out := w.out ++ lines.flatMap (· ++ s%"\n") }, .ok ()) ∧
      Sorted Str.le lines ∧
      (∀ s, s ∈ lines ↔ ∃ f, Concerns h { m with singleFilename := [] } f ∧ f.displayPath = s) ∧
      (((m.protoSet.dirPathToFiles.flatMap fun d => d.2).map fun f => f.displayPath).Nodup →
        lines.Nodup) := by
  have hmem : ∀ s, s ∈ sortStrs ((dirsUnder o s%"Files" m.protoSet).flatMap fun d =>
      d.2.map fun f => f.displayPath) ↔
        ∃ f, Concerns h { m with singleFilename := [] } f ∧ f.displayPath = s := by
    intro s
    rw [mem_sortStrs, List.mem_flatMap]
    unfold dirsUnder Concerns
    constructor
    · rintro ⟨⟨dir, files⟩, hx, hs⟩
      rw [List.mem_filter, (o.perm _ _).mem_iff] at hx
      obtain ⟨f, hf, rfl⟩ := List.mem_map.1 hs
      exact ⟨f, ⟨⟨dir, files, hx.1, List.isPrefixOf_iff_prefix.1 hx.2, hf⟩, .inl rfl⟩, rfl⟩
    · rintro ⟨f, ⟨⟨dir, files, h1, h2, h3⟩, _⟩, rfl⟩
      refine ⟨(dir, files), ?_, List.mem_map.2 ⟨f, h3, rfl⟩⟩
      rw [List.mem_filter, (o.perm _ _).mem_iff]
      exact ⟨h1, List.isPrefixOf_iff_prefix.2 h2⟩
  refine ⟨_, ?_, sortStrs_sorted _, hmem, fun hnd => ?_⟩
  · unfold filesCmd
    rw [bind_of_ok (getMeta_ok.2 ⟨rfl, hm⟩)]
    refine printAll_ok' hp (fun s hs => ?_) w
    obtain ⟨f, ⟨⟨dir, files, h1, _, h3⟩, _⟩, rfl⟩ := (hmem s).1 hs
    exact hn f ⟨dir, files, h1, h3⟩
  · refine (sortStrs_perm _).nodup_iff.2 ?_
    unfold dirsUnder
    rw [List.map_flatMap] at hnd
    refine List.Nodup.sublist ?_ (((o.perm [s%"Files"] m.protoSet.dirPathToFiles).flatMap_right _).nodup_iff.2 hnd)
    exact sublist_flatMap _ List.filter_sublist

/-! ## C61 is false -/

/-- A directory `a` with a file, next to a directory `ab` with a file. -/
def lookalikeProvider : File.Provider :=
  { exProvider with
    wd := s%"/w"
    tree := fun _ => .dir [(s%"a", .dir [(s%"x.proto", .file)]), (s%"ab", .dir [(s%"y.proto", .file)])] }

/-- The host for these files. -/
def lookalikeHost : Exec.Host :=
  { Exec.Sample.host with
    stat := fun p => if p = s%"a" then .ok .dir else .error s%"no such file"
    workDirPath := s%"."
    getForDir := getForDirOf lookalikeProvider Order.id }

/-- Neither file is formatted. -/
def lookalikeWorld : World := ⟨fun _ => some s%"syntax=\"proto3\";", [], []⟩

theorem treeOK_file : TreeOK .file := by
  intro ds entries h
  cases ds <;> cases h

theorem treeOK_dir {entries : List (Str × File.Node)} (h1 : (entries.map (·.1)).Nodup)
    (h2 : ∀ e ∈ entries, Component e.1 ∧ TreeOK e.2) : TreeOK (.dir entries) := by
  intro ds es h
  cases ds with
  | nil => cases h; exact ⟨h1, fun e he => (h2 e he).1⟩
  | cons c cs =>
    unfold nodeAt at h
    cases hf : entries.find? fun e => e.1 = c with
    | none => rw [hf] at h; cases h
    | some e =>
      rw [hf] at h
      exact (h2 e (List.mem_of_find?_eq_some hf)).2 cs es h

theorem lookalike_discovers : Discovers lookalikeHost lookalikeProvider Order.id where
  getForDir := rfl
  wd := ⟨[s%"w"], components_single.2 (by unfold Component; decide), rfl⟩
  workDirPath := by decide
  stat := fun k h => by simp [lookalikeHost] at h
  tree := by
    intro p
    have hx : ∀ name, Component name → TreeOK (.dir [(name, .file)]) := fun name hn =>
      treeOK_dir (by simp) (by simp [hn, treeOK_file])
    refine treeOK_dir (by decide) ?_
    intro e he
    simp only [List.mem_cons, List.not_mem_nil, or_false] at he
    rcases he with rfl | rfl
    · exact ⟨by unfold Component; decide, hx _ (by unfold Component; decide)⟩
    · exact ⟨by unfold Component; decide, hx _ (by unfold Component; decide)⟩
  excludes := fun _ => exProvider_below

/-- C61 is false: told to format the directory `a`, the command also overwrites the file in the
directory `ab`, and `files a` prints it. -/
theorem C61_not : ∃ (h : Exec.Host) (c : File.Provider) (o : Order) (arg : Str) (m : Meta) (f : ProtoFile)
    (w : World), Discovers h c o ∧ Finds h [arg] m ∧ h.stat arg = .ok .dir ∧ Concerns h m f ∧
      ¬ Below f.path (absClean c.wd arg) ∧
      (∃ t, (f.path, t) ∈ (formatCmd h o .stable [arg] { overwrite := true } w).1.writes) ∧
      (filesCmd h o [arg] w).1.out = s%"a/x.proto\nab/y.proto\n" := by
  obtain ⟨ps, hps, hdir, hfiles⟩ : ∃ ps, getForDirOf lookalikeProvider Order.id s%"." s%"a" = .ok ps ∧
      ps.dirPath = s%"/w/a" ∧
      ps.dirPathToFiles = [(s%"/w/a", [⟨s%"/w/a/x.proto", s%"a/x.proto"⟩]),
        (s%"/w/ab", [⟨s%"/w/ab/y.proto", s%"ab/y.proto"⟩])] := ⟨_, rfl, rfl, rfl⟩
  refine ⟨lookalikeHost, lookalikeProvider, Order.id, s%"a", { protoSet := ps }, ⟨s%"/w/ab/y.proto", s%"ab/y.proto"⟩,
    lookalikeWorld, lookalike_discovers, ⟨s%"a", .inl rfl, .inl ⟨rfl, hps, rfl⟩⟩, rfl, ⟨⟨s%"/w/ab", [⟨s%"/w/ab/y.proto", s%"ab/y.proto"⟩], ?_, ?_, ?_⟩, .inl rfl⟩, ?_,
    ⟨s%"syntax = \"proto3\";\n", ?_⟩, ?_⟩
  · rw [hfiles]; simp
  · rw [hdir]; decide
  · simp
  · have c1 : Components [s%"w", s%"ab", s%"y.proto"] := by
      intro c hc
      simp only [List.mem_cons, List.not_mem_nil, or_false] at hc
      rcases hc with rfl | rfl | rfl <;> (unfold Component; decide)
    have c2 : Components [s%"w", s%"a"] := by
      intro c hc
      simp only [List.mem_cons, List.not_mem_nil, or_false] at hc
      rcases hc with rfl | rfl <;> (unfold Component; decide)
    show ¬ Below (absPath [s%"w", s%"ab", s%"y.proto"]) (absPath [s%"w", s%"a"])
    rw [below_iff c1 c2]
    rintro ⟨e, _⟩
    revert e
    decide
  · decide +kernel
  · decide +kernel

/-- The hypotheses of `C61_below_partial` hold for the directory with the configuration. -/
example : ∃ p, ConfigFile lookalikeProvider.host.stat (absClean lookalikeProvider.wd s%".") p :=
  ⟨_, [s%"w"], s%"prototool.yaml", components_single.2 (by unfold Component; decide), .inl rfl, rfl, rfl, by decide⟩

end Verif.Props
