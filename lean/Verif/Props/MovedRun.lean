import Verif.Proof.MovedRun
import Verif.Props.Moved
import Verif.Props.ExecNames
import Verif.Props.ExecOrder

/-!
# Moving the tree: commands (C104)
-/

namespace Verif.Props

open Verif Verif.Spec Str Path Settings File Exec

/-- The same program, run in the directory `x` of the tree at both places. The tools outside the
program do not depend on where the tree is: the compiler says the same about the same files, by
relative names, and the plugins make the same of them. -/
structure MovedSystem (r r' x : List Str) (h h' : Exec.Host) (c c' : Provider) (o o' : Order) : Prop where
  provider : MovedProvider r r' c c'
  below : Components x
  wd : c.wd = absPath (r ++ x)
  wd' : c'.wd = absPath (r' ++ x)
  discovers : Discovers h c o
  discovers' : Discovers h' c' o'
  runs : ∀ args m, Finds h args m → RunsHere h c m.protoSet
  runs' : ∀ args m, Finds h' args m → RunsHere h' c' m.protoSet
  process : h.wd = c.wd
  process' : h'.wd = c'.wd
  here : absClean c.wd h.workDirPath = c.wd
  here' : absClean c'.wd h'.workDirPath = c'.wd
  parser : ParserOK h
  same : h' = { h with wd := h'.wd, workDirPath := h'.workDirPath, stat := h'.stat, getForDir := h'.getForDir,
                       missing := h'.missing, writeFile := h'.writeFile, compile := h'.compile,
                       protocCommands := h'.protocCommands, generate := h'.generate }
  data : ∀ e, jsonUnmarshalStrict c.configData = .ok e → Portable x.length e
  stat : ∀ p, InTree x.length p → SameResult (fun a b => b = a) (h.stat p) (h'.stat p)
  compiles : ∀ flags d d' ps ps', MovedDisk r r' d d' → MovedSet r r' ps ps' →
    SameResult (SameCompilation x.length) (h.compile flags d ps) (h'.compile flags d' ps')
  generates : ∀ d d' ps ps', MovedDisk r r' d d' → MovedSet r r' ps ps' →
    MovedDisk r r' (h.generate d ps) (h'.generate d' ps')

/-- The argument names a place of the tree. -/
def ArgsInTree (n : Nat) (args : List Str) : Prop := ∀ a, args = [a] → InTree n a

/-- The same files, and the same single file. -/
structure MovedMeta (r r' : List Str) (h h' : Exec.Host) (args : List Str) (m m' : Meta) : Prop where
  finds : Finds h args m
  finds' : Finds h' args m'
  set : MovedSet r r' m.protoSet m'.protoSet
  name : m'.singleFilename = m.singleFilename
  single : m.singleFilename = [] ∨
    MovedPath r r' (absClean h.wd m.singleFilename) (absClean h'.wd m.singleFilename)

section
variable {r r' x : List Str} {h h' : Exec.Host} {c c' : Provider} {o o' : Order}
  (s : MovedSystem r r' x h h' c c' o o')
include s

theorem MovedSystem.written : h'.errorFormat = h.errorFormat ∧ h'.json = h.json ∧ h'.toJSON = h.toJSON ∧
    h'.write = h.write ∧ h'.flushed = h.flushed := by rw [s.same]; exact ⟨rfl, rfl, rfl, rfl, rfl⟩

theorem MovedSystem.parse : h'.parse = h.parse := by rw [s.same]

omit s in
theorem argInTree {args : List Str} (ha : ArgsInTree x.length args) : InTree x.length (fileOrDir args) := by
  unfold fileOrDir
  split
  · exact ha _ rfl
  · exact ⟨rfl, rfl⟩

theorem MovedSystem.get {d : Str}
    (hd : MovedPath r r' (absClean c.wd d) (absClean c'.wd d)) :
    SameResult (MovedSet r r') (h.getForDir h.workDirPath d) (h'.getForDir h'.workDirPath d) := by
  rw [s.discovers.getForDir, s.discovers'.getForDir]
  refine C104_discovery r r' c c' s.provider o o' h.workDirPath h'.workDirPath d d ?_ hd ?_
  · rw [s.here, s.here', s.wd, s.wd']
    exact Proof.Moved.of x s.below
  · intro y e hy e1 hj
    rw [s.here, s.wd] at e1
    have := Proof.Moved.rel_inj (r := r) s.provider.host.root s.below hy e1
    subst this
    exact s.data e hj

theorem MovedSystem.meta {args : List Str} (ha : ArgsInTree x.length args) :
    MovedRun r r' (MovedMeta r r' h h' args) (getMeta h args) (getMeta h' args) := by
  refine Proof.Moved.moved_lift ?_
  have hin := argInTree ha
  have hfa : args = [fileOrDir args] ∨ args.length ≠ 1 ∧ fileOrDir args = s%"." := by
    match args with
    | [] => exact .inr ⟨by simp, rfl⟩
    | [a] => exact .inl rfl
    | _ :: _ :: _ => exact .inr ⟨by simp, rfl⟩
  generalize fileOrDir args = a at hin hfa ⊢
  unfold metaOf
  have hst := s.stat a hin
  cases h1 : h.stat a with
  | error e =>
    cases h2 : h'.stat a with
    | error e' => trivial
    | ok k => rw [h1, h2] at hst; exact hst.elim
  | ok k =>
    cases h2 : h'.stat a with
    | error e' => rw [h1, h2] at hst; exact hst.elim
    | ok k' =>
      rw [h1, h2] at hst
      have hst := show k' = k from hst
      subst hst
      have hne : a ≠ [] := fun e => s.discovers.stat k' (e ▸ h1)
      cases k' with
      | other => trivial
      | dir =>
        dsimp only
        have := s.get (d := a) (by
          rw [s.wd, s.wd']
          exact Proof.Moved.absClean_arg s.provider.host.root s.provider.host.root' s.below hin hne)
        cases h3 : h.getForDir h.workDirPath a <;> cases h4 : h'.getForDir h'.workDirPath a <;> rw [h3, h4] at this
        · trivial
        · exact this.elim
        · exact this.elim
        · exact ⟨⟨a, hfa, .inl ⟨h1, h3, rfl⟩⟩, ⟨a, hfa, .inl ⟨h2, h4, rfl⟩⟩, this, rfl, .inl rfl⟩
      | regular =>
        dsimp only
        have := s.get (d := Path.dir a) (by
          rw [s.wd, s.wd']
          exact Proof.Moved.absClean_dir s.provider.host.root s.provider.host.root' s.below hin)
        cases h3 : h.getForDir h.workDirPath (Path.dir a) <;>
          cases h4 : h'.getForDir h'.workDirPath (Path.dir a) <;> rw [h3, h4] at this
        · trivial
        · exact this.elim
        · exact this.elim
        · refine ⟨⟨a, hfa, .inr ⟨h1, h3, rfl⟩⟩, ⟨a, hfa, .inr ⟨h2, h4, rfl⟩⟩, this, rfl, .inr ?_⟩
          rw [s.process, s.process', s.wd, s.wd']
          exact Proof.Moved.absClean_arg s.provider.host.root s.provider.host.root' s.below hin hne

theorem MovedSystem.printFailures {args : List Str} {m m' : Meta} (hm : MovedMeta r r' h h' args m m')
    {fs : List Text.Failure} (hf : Proof.Moved.Named r r' h.wd h'.wd fs) :
    MovedRun r r' (fun _ _ => True) (Exec.printFailures h [] m fs) (Exec.printFailures h' [] m' fs) :=
  Proof.Moved.printFailures_moved s.provider.host.root s.provider.host.root' s.written hm.name hm.single hf

theorem MovedSystem.doCompile {args : List Str} {m m' : Meta} (hm : MovedMeta r r' h h' args m m')
    (flags : CompileFlags) :
    MovedRun r r' (fun a b => b.Perm a) (Exec.doCompile h flags m) (Exec.doCompile h' flags m') := by
  intro w w' hw
  have hc := s.compiles flags w.disk w'.disk m.protoSet m'.protoSet hw.disk hm.set
  unfold Exec.doCompile
  dsimp only
  have hw1 : MovedWorld r r' (if flags.doGen then { w with disk := h.generate w.disk m.protoSet } else w)
      (if flags.doGen then { w' with disk := h'.generate w'.disk m'.protoSet } else w') := by
    split
    · exact ⟨s.generates _ _ _ _ hw.disk hm.set, hw.out, hw.writes⟩
    · exact hw
  revert hw1
  generalize (if flags.doGen then { w with disk := h.generate w.disk m.protoSet } else w) = w1
  generalize (if flags.doGen then { w' with disk := h'.generate w'.disk m'.protoSet } else w') = w1'
  intro hw1
  cases h1 : h.compile flags w.disk m.protoSet <;> cases h2 : h'.compile flags w'.disk m'.protoSet <;>
    rw [h1, h2] at hc
  · exact ⟨hw1, trivial⟩
  · exact hc.elim
  · exact hc.elim
  · rename_i a b
    obtain ⟨fs, sets⟩ := a
    obtain ⟨fs', sets'⟩ := b
    obtain ⟨e, hn, hp⟩ := hc
    dsimp only at e hp hn ⊢
    subst e
    refine Proof.Moved.moved_bind (R := fun _ _ => True) (s.printFailures hm fun f hf => ?_) (fun _ _ _ => ?_) w1 w1' hw1
    · by_cases h0 : f.filename = []
      · exact .inl h0
      · right
        rw [s.process, s.process', s.wd, s.wd']
        exact Proof.Moved.absClean_arg s.provider.host.root s.provider.host.root' s.below (hn f hf) h0
    · split
      · exact Proof.Moved.moved_fail _
      · exact Proof.Moved.moved_pure hp

theorem MovedSystem.compile {args : List Str} {m m' : Meta} (hm : MovedMeta r r' h h' args m m') (gen set : Bool) :
    MovedRun r r' (fun a b => b.Perm a) (Exec.compile h gen set false m) (Exec.compile h' gen set false m') := by
  unfold Exec.compile
  simp only [Bool.false_eq_true, if_false]
  exact s.doCompile hm _

theorem MovedSystem.lint {args : List Str} {m m' : Meta} (hm : MovedMeta r r' h h' args m m') (env : Lint.Env)
    (o'' : Order) : SameMoved r r' (Exec.lint h env m) (Exec.lint h' { env with order := o'' } m') := by
  unfold Exec.lint
  refine Proof.Moved.moved_fun fun w w' hw => ?_
  obtain ⟨_, hd, hs⟩ := C82_discovered h c o s.discovers args m hm.finds (s.runs _ _ hm.finds) s.parser w.disk
  have hparser' : ParserOK h' := ⟨by rw [s.parse]; exact s.parser.tree, by rw [s.parse]; exact s.parser.names⟩
  obtain ⟨_, hd', hs'⟩ := C82_discovered h' c' o' s.discovers' args m' hm.finds' (s.runs' _ _ hm.finds') hparser' w'.disk
  have hpm : ParsesMoved r r' (lintHost h w.disk) (lintHost h' w'.disk) := by
    intro p p' name hp
    unfold lintHost
    dsimp only
    rw [hw.disk p p' hp, s.parse]
    cases w.disk p with
    | none => trivial
    | some data =>
      dsimp only
      cases h.parse name data with
      | error e => trivial
      | ok es => rfl
  have hpm' : ParsesMoved r' r (lintHost h' w'.disk) (lintHost h w.disk) := by
    intro p p' name hp
    have := hpm p' p name (Proof.Moved.symm hp)
    cases h1 : (lintHost h w.disk).parse p' name <;> cases h2 : (lintHost h' w'.disk).parse p name <;>
      rw [h1, h2] at this
    · trivial
    · exact this
    · exact this
    · have := show _ = _ from this
      subst this
      rfl
  have hrun : ∀ fs, Lint.run env (lintHost h w.disk) m.protoSet false = some (.ok fs) ↔
      Lint.run { env with order := o'' } (lintHost h' w'.disk) m'.protoSet false = some (.ok fs) := by
    intro fs
    refine Iff.trans ?_ (C27_iteration_order env o'' _ _ _ _).symm
    exact ⟨Lint.run_moved s.provider.host.root s.provider.host.root' hpm hm.set (hs _) (hs' _) hd.lies hd'.lies,
      Lint.run_moved s.provider.host.root' s.provider.host.root hpm' (Proof.Moved.setSymm hm.set) (hs' _) (hs _)
        hd'.lies hd.lies⟩
  refine Proof.Moved.moved_bind (R := fun a b => b = a ∧ Proof.Moved.Named r r' h.wd h'.wd a)
    (Proof.Moved.moved_liftOption (fun fs hf => ⟨fs, (hrun fs).1 hf, rfl, fun f hff => ?_⟩)
      (fun fs hf => ⟨fs, (hrun fs).2 hf⟩)) ?_
  · right
    obtain ⟨_, g, hg, e⟩ := Lint.run_about (hs false) hf f hff
    have hg' : g ∈ allFiles m.protoSet := by
      obtain ⟨d, hd, hgd⟩ := List.mem_flatMap.1 hg
      exact List.mem_flatMap.2 ⟨d, (List.mem_filter.1 hd).1, hgd⟩
    obtain ⟨g', hg2, hgg⟩ := Proof.Moved.set_file hm.set hg'
    have e : f.filename = g.displayPath := e
    have h1 := Proof.Moved.lies_absClean (hd.lies g hg') (Proof.Moved.isAbsPath s.provider.host.root hgg.path)
    have h2 := Proof.Moved.lies_absClean (hd'.lies g' hg2)
      (Proof.Moved.isAbsPath s.provider.host.root' (Proof.Moved.symm hgg.path))
    rw [hgg.displayPath] at h2
    rw [e, h1, h2]
    exact hgg.path
  · rintro fs _ ⟨rfl, hn⟩
    refine Proof.Moved.moved_bind (R := fun _ _ => True) (s.printFailures hm hn) fun _ _ _ => ?_
    split
    · exact Proof.Moved.moved_fail _
    · exact Proof.Moved.moved_pure trivial

end

/-- C104: `files` prints the same wherever the tree is. -/
theorem C104_files (r r' x : List Str) (h h' : Exec.Host) (c c' : Provider) (o o' : Order)
    (s : MovedSystem r r' x h h' c c' o o') (o1 o2 : Order) (args : List Str) (ha : ArgsInTree x.length args) :
    SameMoved r r' (filesCmd h o1 args) (filesCmd h' o2 args) := by
  unfold filesCmd
  refine Proof.Moved.moved_bind (s.meta ha) fun m m' hm => ?_
  have : sortStrs ((dirsUnder o2 s%"Files" m'.protoSet).flatMap fun d => d.2.map fun f => f.displayPath) =
      sortStrs ((dirsUnder o1 s%"Files" m.protoSet).flatMap fun d => d.2.map fun f => f.displayPath) := by
    apply sortStrs_eq_of_perm
    unfold dirsUnder
    obtain ⟨l, hpw, hperm⟩ := hm.set.dirs
    have hf := Lint.pw_filter (p := fun d => hasPrefix d.1 m.protoSet.dirPath)
      (q := fun d => hasPrefix d.1 m'.protoSet.dirPath) hpw
      fun a b hab => Proof.Moved.hasPrefix_eq hab.path hm.set.dirPath
    refine ((((o2.perm _ _).trans hperm).filter _).flatMap_right _).trans ?_
    refine List.Perm.trans (.of_eq ?_) ((((o1.perm _ _).symm).filter _).flatMap_right _)
    have hpwf : ∀ {a b : List ProtoFile}, Pointwise (MovedFile r r') a b →
        b.map (fun f => f.displayPath) = a.map fun f => f.displayPath := by
      intro a b hab
      induction hab with
      | nil => rfl
      | cons h1 _ ih => rw [List.map_cons, List.map_cons, h1.displayPath, ih]
    generalize m.protoSet.dirPathToFiles.filter (fun d => hasPrefix d.1 m.protoSet.dirPath) = l1 at hf ⊢
    generalize l.filter (fun d => hasPrefix d.1 m'.protoSet.dirPath) = l2 at hf ⊢
    induction hf with
    | nil => rfl
    | cons h1 _ ih => rw [List.flatMap_cons, List.flatMap_cons, hpwf h1.files, ih]
  rw [this]
  exact Proof.Moved.moved_printAll s.written.2.2.2.1 _

/-- C104: `compile` prints the same and ends alike wherever the tree is. -/
theorem C104_compile (r r' x : List Str) (h h' : Exec.Host) (c c' : Provider) (o o' : Order)
    (s : MovedSystem r r' x h h' c c' o o') (args : List Str) (ha : ArgsInTree x.length args) :
    SameMoved r r' (compileCmd h args false) (compileCmd h' args false) := by
  unfold compileCmd
  exact Proof.Moved.moved_bind (s.meta ha) fun m m' hm =>
    Proof.Moved.moved_bind (s.compile hm false false) fun _ _ _ => Proof.Moved.moved_pure trivial

/-- C104: `generate` leaves the same files, prints the same and ends alike wherever the tree is. -/
theorem C104_generate (r r' x : List Str) (h h' : Exec.Host) (c c' : Provider) (o o' : Order)
    (s : MovedSystem r r' x h h' c c' o o') (args : List Str) (ha : ArgsInTree x.length args) :
    SameMoved r r' (genCmd h args false) (genCmd h' args false) := by
  unfold genCmd
  exact Proof.Moved.moved_bind (s.meta ha) fun m m' hm =>
    Proof.Moved.moved_bind (s.compile hm true false) fun _ _ _ => Proof.Moved.moved_pure trivial

/-- C104: `lint` prints the same and ends alike wherever the tree is. -/
theorem C104_lint (r r' x : List Str) (h h' : Exec.Host) (c c' : Provider) (o o' : Order)
    (s : MovedSystem r r' x h h' c c' o o') (env : Lint.Env) (o'' : Order) (srt srt' : SortSlice) (args : List Str)
    (ha : ArgsInTree x.length args) :
    SameMoved r r' (lintCmd h env srt args {}) (lintCmd h' { env with order := o'' } srt' args {}) := by
  have key : ∀ (h : Exec.Host) (env : Lint.Env) (srt : SortSlice), lintCmd h env srt args {} =
      Run.bind (getMeta h args) fun m => Run.bind (compile h false false false m) fun _ => Exec.lint h env m :=
    fun _ _ _ => rfl
  rw [key, key]
  exact Proof.Moved.moved_bind (s.meta ha) fun m m' hm =>
    Proof.Moved.moved_bind (s.compile hm false false) fun _ _ _ => s.lint hm env o''

/-! ## Commands in a tree at two places -/

/-- The program in the directory `a` of that tree; files say which syntax they are in. -/
def movedHost (root : Str) (o : Order) : Exec.Host :=
  { Exec.Sample.host with
    wd := root ++ s%"/a"
    workDirPath := s%"."
    stat := fun p => if p = s%"." then .ok .dir else if p = s%"x.proto" then .ok .regular else .error s%"no such file"
    getForDir := getForDirOf (movedProvider root) o
    missing := fun p => p
    parse := fun p c => .ok [.syntax { position := ⟨p, 1, 1⟩, value := c }] }

theorem movedProvider_tree (root p : Str) : TreeOK ((movedProvider root).tree p) := by
  have hx : ∀ name, Component name → TreeOK (.dir [(name, .file)]) := fun name hn =>
    treeOK_dir (by simp) (by simp [hn, treeOK_file])
  have h2 : TreeOK (.dir [(s%"x.proto", .file), (s%"z.proto", .file)]) := by
    refine treeOK_dir (by decide) fun e he => ?_
    simp only [List.mem_cons, List.not_mem_nil, or_false] at he
    rcases he with rfl | rfl
    · exact ⟨by decide, treeOK_file⟩
    · exact ⟨by decide, treeOK_file⟩
  show TreeOK (if p = _ then _ else if p = _ then _ else _)
  split
  · exact h2
  · split
    · exact hx _ (by decide)
    · refine treeOK_dir (by decide) fun e he => ?_
      simp only [List.mem_cons, List.not_mem_nil, or_false] at he
      rcases he with rfl | rfl | rfl | rfl
      · exact ⟨by decide, h2⟩
      · exact ⟨by decide, hx _ (by decide)⟩
      · exact ⟨by decide, treeOK_file⟩
      · exact ⟨by decide, treeOK_file⟩

theorem movedHost_discovers (root : Str) (hr : IsAbsPath (root ++ s%"/a"))
    (hy : ext (root ++ s%"/prototool.yaml") = s%".yaml") (o : Order) :
    Discovers (movedHost root o) (movedProvider root) o where
  getForDir := rfl
  wd := hr
  workDirPath := by show s%"." ≠ []; decide
  stat := fun k h => by simp [movedHost] at h
  tree := movedProvider_tree root
  excludes := fun _ => by
    apply C21_excludes_below
    intro f e h x hx _
    have : e.excludes = [s%"b"] := by
      unfold getExternalConfig at h
      simp only [movedProvider] at h
      split at h
      · cases h
      · rename_i data hd
        split at hd
        · rename_i hf
          subst hf
          rw [hy] at h
          cases hd
          injection h with h
          subst h
          rfl
        · cases hd
    rw [this, List.mem_singleton] at hx
    subst hx
    decide

theorem movedHost_finds {root : Str} {o : Order} {args : List Str} {m : Meta}
    (hm : Finds (movedHost root o) args m) : getForDirOf (movedProvider root) o s%"." s%"." = .ok m.protoSet := by
  obtain ⟨a, _, ⟨h1, h2, _⟩ | ⟨h1, h2, _⟩⟩ := hm
  · have : a = s%"." := by
      simp only [movedHost] at h1
      split at h1
      · assumption
      · split at h1 <;> cases h1
    subst this
    exact h2
  · have : a = s%"x.proto" := by
      simp only [movedHost] at h1
      split at h1
      · cases h1
      · split at h1
        · assumption
        · cases h1
    subst this
    exact h2

theorem movedHost_runs {root : Str} {o : Order}
    (hw : absClean (root ++ s%"/a") s%"." = root ++ s%"/a")
    (hf : ((getForDirOf (movedProvider root) o s%"." s%".").toOption.map fun ps =>
      (allFiles ps).all fun f => !Exec.Sample.isWithin (root ++ s%"/a") f.path) = some true)
    (args : List Str) (m : Meta) (hm : Finds (movedHost root o) args m) :
    RunsHere (movedHost root o) (movedProvider root) m.protoSet := by
  refine ⟨rfl, hw, fun f hx => ?_⟩
  rw [movedHost_finds hm] at hf
  have := List.all_eq_true.1 (Option.some.inj hf) f hx
  show ¬ Within (root ++ s%"/a") f.path
  rw [← Exec.Sample.isWithin_iff]
  simpa using this

/-- The system of the example. -/
theorem movedSystem : MovedSystem [s%"w"] [s%"home", s%"me"] [s%"a"] (movedHost s%"/w" Order.id)
    (movedHost s%"/home/me" Order.rev) (movedProvider s%"/w") (movedProvider s%"/home/me") Order.id Order.rev where
  provider := movedProvider_moved
  below := by decide
  wd := by decide +kernel
  wd' := by decide +kernel
  discovers := movedHost_discovers _ (Exec.Sample.isAbsPath_iff.2 (by decide)) (by decide +kernel) _
  discovers' := movedHost_discovers _ (Exec.Sample.isAbsPath_iff.2 (by decide)) (by decide +kernel) _
  runs := movedHost_runs (by decide +kernel) (by decide +kernel)
  runs' := movedHost_runs (by decide +kernel) (by decide +kernel)
  process := rfl
  process' := rfl
  here := by decide +kernel
  here' := by decide +kernel
  parser := by
    constructor
    · intro filename data elements h config
      cases h
      constructor <;> intro n hn <;> cases List.mem_singleton.1 hn
      · rfl
      · exact ⟨rfl, fun _ h => nomatch h⟩
    · intro filename data elements h ρ
      cases h
      rfl
  same := rfl
  data := by
    intro e h
    have : (jsonUnmarshalStrict []).toOption.isNone = true := by decide +kernel
    rw [show jsonUnmarshalStrict [] = .ok e from h] at this
    cases this
  stat := by
    intro p _
    show SameResult _ (if p = s%"." then _ else if p = s%"x.proto" then _ else _)
      (if p = s%"." then _ else if p = s%"x.proto" then _ else _)
    split
    · exact rfl
    · split
      · exact rfl
      · trivial
  compiles := fun _ _ _ _ _ _ _ =>
    show SameCompilation _ (([], []) : List Text.Failure × List Descriptor.FileSet) ([], []) from
      ⟨rfl, (fun _ h => by cases h), List.Perm.refl _⟩
  generates := fun _ _ _ _ h _ => h

/-- Two of the files are in proto2. -/
def movedWorld (root : Str) : World :=
  ⟨fun p => if p = root ++ s%"/a/x.proto" then some s%"proto3" else some s%"proto2", [], []⟩

/-- What `lint` says about one file. -/
def movedOutput : Str := s%"x.proto:1:1:File option \"go_package\" is required.\nx.proto:1:1:File option \"java_multiple_files\" is required.\nx.proto:1:1:File option \"java_outer_classname\" is required.\nx.proto:1:1:File option \"java_package\" is required.\nx.proto:1:1:No package declaration found.\n"

/-- Non-vacuity: `lint` finds the same failures at both places. -/
example : MovedWorld [s%"w"] [s%"home", s%"me"] (movedWorld s%"/w") (movedWorld s%"/home/me") ∧
    (lintCmd (movedHost s%"/w" Order.id) sampleEnv SortSlice.stable [s%"x.proto"] {} (movedWorld s%"/w")).1.out = movedOutput ∧
    (lintCmd (movedHost s%"/home/me" Order.rev) sampleEnv SortSlice.stable [s%"x.proto"] {}
      (movedWorld s%"/home/me")).1.out = movedOutput := by
  have hr : Components [s%"w"] := by decide
  have hr' : Components [s%"home", s%"me"] := by decide
  refine ⟨⟨?_, rfl, .nil⟩, by decide +kernel, by decide +kernel⟩
  intro p p' k
  have := Proof.Moved.eq_iff hr hr' k (Proof.Moved.of [s%"a", s%"x.proto"] (by decide))
  show (if p' = absPath ([s%"home", s%"me"] ++ [s%"a", s%"x.proto"]) then _ else _) =
    if p = absPath ([s%"w"] ++ [s%"a", s%"x.proto"]) then _ else _
  simp only [this]

end Verif.Props
