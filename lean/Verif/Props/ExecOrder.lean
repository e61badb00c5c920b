import Verif.Proof.ExecOrder
import Verif.Props.ExecLint
import Verif.Props.Inspect
import Verif.Props.BreakCmd
import Verif.Props.Desc

/-!
# Running a command twice (C86)
-/

namespace Verif.Props

open Verif Verif.Spec Str File Exec

/-- C86: discovery finds the same files and the same configuration in every order of the loops over
maps, or fails in every order. -/
theorem C86_discovery (c : Provider) (o o' : Order) (w d : Str) :
    SameResult SameSet (getForDirOf c o w d) (getForDirOf c o' w d) := by
  cases h : getForDirOf c o w d with
  | ok ps =>
    obtain ⟨ps', h', hs⟩ := getForDirOf_reordered o' h
    rw [h']
    exact hs
  | error e =>
    cases h' : getForDirOf c o' w d with
    | error e' => trivial
    | ok ps' =>
      obtain ⟨ps, h2, _⟩ := getForDirOf_reordered o h'
      rw [h] at h2
      cases h2

/-- C86: `files` prints the same. -/
theorem C86_files (h h' : Host) (r : Reordered h h') (o o' : Order) (args : List Str) :
    SameRun (filesCmd h o args) (filesCmd h' o' args) := by
  unfold filesCmd
  refine runAlike_bind (r.getMeta args) fun m m' hm => ?_
  have : sortStrs ((dirsUnder o' s%"Files" m'.protoSet).flatMap fun d => d.2.map fun f => f.displayPath) =
      sortStrs ((dirsUnder o s%"Files" m.protoSet).flatMap fun d => d.2.map fun f => f.displayPath) := by
    apply sortStrs_eq_of_perm
    unfold dirsUnder
    rw [hm.1.dirPath]
    exact ((((o'.perm _ _).trans hm.1.dirs).trans (o.perm _ _).symm).filter _).flatMap_right _
  rw [this, r.printAll]
  exact sameRun_refl _

/-- C86: `compile` prints the same and ends alike. -/
theorem C86_compile (h h' : Host) (r : Reordered h h') (args : List Str) :
    SameRun (compileCmd h args false) (compileCmd h' args false) := by
  unfold compileCmd
  exact runAlike_bind (r.getMeta args) fun m m' hm =>
    runAlike_bind (r.compile hm) fun _ _ _ => runAlike_pure trivial

/-! ## lint -/

theorem run_alike (env : Lint.Env) (o' : Order) (host : Lint.Host) {ps ps' : ProtoSet} (hs : SameSet ps ps')
    (b : Bool) (fs : List Text.Failure) :
    Lint.run { env with order := o' } host ps' b = some (.ok fs) ↔ Lint.run env host ps b = some (.ok fs) := by
  rw [C27_iteration_order]
  exact ⟨fun h => Lint.run_perm (sameSet_symm hs).dirPath (sameSet_symm hs).config hs.dirs.symm h,
    fun h => Lint.run_perm hs.dirPath hs.config hs.dirs h⟩

theorem lint_alike {h h' : Host} (r : Reordered h h') (env : Lint.Env) (o' : Order) {m m' : Meta}
    (hm : SameMeta m m') : SameRun (lint h env m) (lint h' { env with order := o' } m') := by
  unfold lint
  refine runAlike_fun fun w => ?_
  rw [r.lintHost]
  refine runAlike_bind (R := fun a b => b = a) (runAlike_liftOption (fun fs hf => ?_) (fun fs hf => ?_)) ?_
  · exact ⟨fs, (run_alike env o' _ hm.1 false fs).2 hf, rfl⟩
  · exact ⟨fs, (run_alike env o' _ hm.1 false fs).1 hf⟩
  · intro fs fs' hfs
    subst hfs
    rw [r.printFailures hm.2 [] (.refl _)]
    refine runAlike_bind (runAlike_refl _) fun _ _ _ => ?_
    split
    · exact runAlike_fail _
    · exact runAlike_pure trivial

theorem ignoresOf_order (o o' : Order) (m : GoMap Str (List Str)) :
    Lint.ignoresOf o' m = Lint.ignoresOf o m := by
  unfold Lint.ignoresOf
  rw [sortStrs_eq_of_perm ((o'.perm [s%"generateIgnores", s%"ids"] (GoMap.keys m)).trans (o.perm [s%"generateIgnores", s%"ids"] _).symm)]
  apply List.map_congr_left
  intro id _
  rw [sortStrs_eq_of_perm ((o'.perm [s%"generateIgnores", id] _).trans (o.perm [s%"generateIgnores", id] _).symm)]

theorem generateIgnores_order {env : Lint.Env} {o' : Order} {host : Lint.Host} {ps ps' : ProtoSet}
    (hs : SameSet ps ps') {c : Option Settings.ExternalConfig}
    (hg : Lint.generateIgnores env host ps = some (.ok c)) :
    Lint.generateIgnores { env with order := o' } host ps' = some (.ok c) := by
  unfold Lint.generateIgnores at hg ⊢
  dsimp only at hg ⊢
  rw [hs.config]
  generalize hcfg : ({ ps.config with lint := { ps.config.lint with ignoreIDToFilePaths := [] } } : Settings.Config) = cfg at hg ⊢
  have hs' : SameSet { ps with config := cfg } { ps' with config := cfg } :=
    ⟨hs.workDirPath, hs.dirPath, rfl, hs.dirs⟩
  cases hr : Lint.run env host { ps with config := cfg } true with
  | none => rw [hr] at hg; cases hg
  | some r =>
    cases r with
    | error e => rw [hr] at hg; cases hg
    | ok fs =>
      rw [hr] at hg
      rw [(run_alike env o' host hs' true fs).2 hr]
      dsimp only at hg ⊢
      split at hg
      · rename_i h0
        rw [if_pos h0]
        exact hg
      · rename_i h0
        rw [if_neg h0]
        cases ha : Lint.addIgnores ps.config.dirPath [] fs with
        | error e => rw [ha] at hg; cases hg
        | ok m =>
          rw [ha] at hg
          dsimp only at hg ⊢
          rw [ignoresOf_order env.order o']
          exact hg

theorem generateIgnores_alike {h h' : Host} (r : Reordered h h') (env : Lint.Env) (o' : Order) {m m' : Meta}
    (hm : SameMeta m m') :
    SameRun (generateIgnores h env m) (generateIgnores h' { env with order := o' } m') := by
  unfold generateIgnores
  refine runAlike_fun fun w => ?_
  rw [r.lintHost]
  refine runAlike_bind (R := fun a b => b = a) (runAlike_liftOption (fun c hf => ?_) (fun c hf => ?_)) ?_
  · exact ⟨c, generateIgnores_order hm.1 hf, rfl⟩
  · exact ⟨c, generateIgnores_order (env := { env with order := o' }) (o' := env.order) (sameSet_symm hm.1) hf⟩
  · intro c c' hc
    subst hc
    cases c' with
    | none => exact runAlike_pure trivial
    | some c =>
      dsimp only
      rw [r.toYAML]
      refine runAlike_bind (runAlike_refl _) ?_
      rintro d _ rfl
      rw [r.println]
      exact sameRun_refl _

/-- Listing linters prints their names only, sorted. -/
theorem printLinters_alike {h h' : Host} (r : Reordered h h') (srt srt' : SortSlice)
    (c : Settings.LintConfig) {ls ls' : List Lint.Linter} (hn : (ls.map (·.id)).Nodup)
    (hn' : (ls'.map (·.id)).Nodup) (hd : ∀ l ∈ ls ++ ls', l.purposeIn c = described c l.id)
    (hm : ∀ id, id ∈ ls'.map (·.id) ↔ id ∈ ls.map (·.id)) :
    printLinters h' srt' c ls' = printLinters h srt c ls := by
  have key : ∀ (srt : SortSlice) (ls : List Lint.Linter), (ls.map (·.id)).Nodup →
      (srt.run (fun a b => Str.lt a.id b.id) ls).map (·.id) = sortStrs (ls.map (·.id)) := by
    intro srt ls hn
    apply strictSorted_ext ?_ (sortStrs_strict hn)
    · intro id
      rw [mem_sortStrs]
      exact ((srt.perm _ ls).map _).mem_iff
    · have h1 := srt.sorted (fun a b : Lint.Linter => Str.lt a.id b.id) ls (SWO.str.on fun a : Lint.Linter => a.id)
      have h2 : ((srt.run (fun a b : Lint.Linter => Str.lt a.id b.id) ls).map (·.id)).Nodup :=
        (((srt.perm _ ls).map _).nodup_iff).2 hn
      unfold StrictSorted
      unfold List.Nodup at h2
      rw [List.pairwise_map] at h2 ⊢
      refine (h1.and h2).imp ?_
      rintro a b ⟨x, y⟩
      rcases lt_trichotomy a.id b.id with h | h | h
      · exact h
      · exact absurd h y
      · rw [h] at x; cases x
  have e : ∀ (srt : SortSlice) (ls : List Lint.Linter), (ls.map (·.id)).Nodup →
      (∀ l ∈ ls, l.purposeIn c = described c l.id) →
      (srt.run (fun a b => Str.lt a.id b.id) ls).map (fun l => (l.id, l.purposeIn c)) =
        (sortStrs (ls.map (·.id))).map fun id => (id, described c id) := by
    intro srt ls hn hd
    rw [← key srt ls hn, List.map_map]
    exact List.map_congr_left fun l hl => by rw [hd l ((srt.perm _ ls).mem_iff.1 hl)]; rfl
  unfold printLinters
  rw [r.write, e srt ls hn fun l hl => hd l (by simp [hl]), e srt' ls' hn' fun l hl => hd l (by simp [hl])]
  have : sortStrs (ls'.map (·.id)) = sortStrs (ls.map (·.id)) :=
    strictSorted_ext (sortStrs_strict hn') (sortStrs_strict hn) fun id => by
      rw [mem_sortStrs, mem_sortStrs, hm]
  rw [this]

theorem described_all {env env' : Lint.Env} {ls ls' : List Lint.Linter}
    (h : ∀ l ∈ ls, l ∈ Lint.allLinters env) (h' : ∀ l ∈ ls', l ∈ Lint.allLinters env') :
    ∀ c, ∀ l ∈ ls ++ ls', l.purposeIn c = described c l.id := fun c l hl =>
  (List.mem_append.1 hl).elim (fun g => Lint.purposeIn_eq (h l g) c) fun g => Lint.purposeIn_eq (h' l g) c

theorem lookupGroup_alike (env : Lint.Env) (o' : Order) (g : Str) :
    RunAlike (fun ls ls' : List Lint.Linter => (ls.map (·.id)).Nodup ∧ (ls'.map (·.id)).Nodup ∧
      (∀ c, ∀ l ∈ ls ++ ls', l.purposeIn c = described c l.id) ∧ ∀ id, id ∈ ls'.map (·.id) ↔ id ∈ ls.map (·.id))
      (lookupGroup env g) (lookupGroup { env with order := o' } g) := by
  intro w
  by_cases hg : toLower g ∈ docGroups
  · obtain ⟨ls, _, h1, h2, h3, h4⟩ := lookupGroup_ok env hg
    obtain ⟨ls', _, h1', h2', h3', h4'⟩ := lookupGroup_ok { env with order := o' } hg
    rw [h1, h1']
    exact ⟨rfl, h3, h3', described_all h2 h2', fun id => by rw [h4, h4']⟩
  · rw [lookupGroup_unknown env hg, lookupGroup_unknown _ hg]
    exact ⟨rfl, rfl, rfl⟩

theorem getLinterIDs_alike (env : Lint.Env) (o' : Order) (g : Str) :
    RunAlike (fun ids ids' : List Str => ids'.Perm ids)
      (getLinterIDs env g) (getLinterIDs { env with order := o' } g) := by
  intro w
  by_cases hg : toLower g ∈ docGroups
  · obtain ⟨ids, h1, h2, h3⟩ := getLinterIDs_ok env hg
    obtain ⟨ids', h1', h2', h3'⟩ := getLinterIDs_ok { env with order := o' } hg
    rw [h1, h1']
    exact ⟨rfl, (List.perm_ext_iff_of_nodup h2' h2).2 fun id => by rw [h3, h3']⟩
  · unfold getLinterIDs Run.bind
    rw [lookupGroup_unknown env hg, lookupGroup_unknown _ hg]
    exact ⟨rfl, rfl, rfl⟩

theorem diffMaps_order (o o' : Order) {one one' two two' : List Str} (h1 : one'.Perm one)
    (h2 : two'.Perm two) : diffMaps o' one' two' = diffMaps o one two := by
  unfold diffMaps
  apply sortStrs_eq_of_perm
  have e1 : (fun k => decide (k ∉ two')) = fun k => decide (k ∉ two) := by
    funext k; simp [h2.mem_iff]
  have e2 : (fun k => decide (k ∉ one')) = fun k => decide (k ∉ one) := by
    funext k; simp [h1.mem_iff]
  rw [e1, e2]
  exact (((((o'.perm _ _).trans h1).trans (o.perm _ _).symm).filter _).map _).append
    (((((o'.perm _ _).trans h2).trans (o.perm _ _).symm).filter _).map _)

theorem listLinters_alike {h h' : Host} (r : Reordered h h') (env : Lint.Env) (o' : Order)
    (srt srt' : SortSlice) {m m' : Meta} (hm : SameMeta m m') :
    SameRun (listLinters h env srt m) (listLinters h' { env with order := o' } srt' m') := by
  unfold listLinters
  rw [hm.1.config]
  refine runAlike_bind (R := fun ls ls' => (ls.map (·.id)).Nodup ∧ (ls'.map (·.id)).Nodup ∧
      (∀ c, ∀ l ∈ ls ++ ls', l.purposeIn c = described c l.id) ∧ ∀ id, id ∈ ls'.map (·.id) ↔ id ∈ ls.map (·.id)) (runAlike_lift ?_) ?_
  · rcases Lint.getLinters_spec env m.protoSet.config.lint with ⟨hk, ls, e, ha, hn, hi⟩ | ⟨hk, e, he⟩ <;>
    rcases Lint.getLinters_spec { env with order := o' } m.protoSet.config.lint with
      ⟨hk', ls', e', ha', hn', hi'⟩ | ⟨hk', e', he'⟩
    · rw [e, e']
      exact ⟨hn, hn', described_all ha ha', fun id => by rw [hi, hi']⟩
    · exact absurd hk hk'
    · exact absurd hk' hk
    · rw [he, he']
      trivial
  · rintro ls ls' ⟨hn, hn', hd, hi⟩
    rw [printLinters_alike r srt srt' _ hn hn' (hd _) hi]
    exact sameRun_refl _

/-- C86: `lint` prints the same and ends alike, with all its options. -/
theorem C86_lint (h h' : Host) (r : Reordered h h') (env : Lint.Env) (o' : Order) (srt srt' : SortSlice)
    (args : List Str) (flags : LintFlags) :
    SameRun (lintCmd h env srt args flags) (lintCmd h' { env with order := o' } srt' args flags) := by
  unfold lintCmd
  split
  · exact runAlike_fail _
  · split
    · unfold listAllLintGroups
      rw [r.printAll]
      have : sortStrs (o'.ord [s%"listAllLintGroups"] (GoMap.keys (Lint.groupToLinters { env with order := o' }))) =
          sortStrs (env.order.ord [s%"listAllLintGroups"] (GoMap.keys (Lint.groupToLinters env))) := by
        rw [sortStrs_eq_of_perm (o'.perm _ _), sortStrs_eq_of_perm (env.order.perm _ _)]
        rfl
      rw [this]
      exact sameRun_refl _
    · split
      · unfold diffLintGroups
        split
        · refine runAlike_bind (getLinterIDs_alike env o' _) fun one one' h1 => ?_
          refine runAlike_bind (getLinterIDs_alike env o' _) fun two two' h2 => ?_
          rw [r.printAll, diffMaps_order env.order o' h1 h2]
          exact sameRun_refl _
        · exact runAlike_fail _
      · refine runAlike_bind (r.getMeta args) fun m m' hm => ?_
        split
        · unfold listAllLinters
          rw [hm.1.config, printLinters_alike r srt srt' _ (ls := Lint.allLinters env)
            (by rw [Lint.allLinters_ids]; decide +kernel) (by rw [Lint.allLinters_ids]; decide +kernel)
            (described_all (fun _ h => h) (fun _ h => h) _)
            (fun id => by rw [Lint.allLinters_ids, Lint.allLinters_ids])]
          exact sameRun_refl _
        · split
          · exact listLinters_alike r env o' srt srt' hm
          · split
            · unfold listLintGroup
              refine runAlike_bind (lookupGroup_alike env o' _) ?_
              rintro ls ls' ⟨hn, hn', hd, hi⟩
              rw [hm.1.config, printLinters_alike r srt srt' _ hn hn' (hd _) hi]
              exact sameRun_refl _
            · refine runAlike_bind (r.compile hm) fun _ _ _ => ?_
              split
              · exact generateIgnores_alike r env o' hm
              · exact lint_alike r env o' hm

/-! ## descriptor-set -/

theorem tools_eq {t t' : Tools} (s : SameTools t t') :
    t'.srt = t.srt ∧ t'.marshal = t.marshal ∧ t'.sum = t.sum ∧ t'.encodeJSON = t.encodeJSON ∧
      t'.encodeProto = t.encodeProto ∧ t'.decode = t.decode ∧ t'.tempDir = t.tempDir ∧
      t'.git = t.git ∧ t'.treeStat = t.treeStat ∧ t'.removeAll = t.removeAll := by
  refine ⟨?_, ?_, ?_, ?_, ?_, ?_, ?_, ?_, ?_, ?_⟩ <;> rw [s.same]

theorem openOutput_eq {t t' : Tools} (s : SameTools t t') (path : Str) :
    openOutput t' path = openOutput t path := by rw [s.same]; rfl

theorem writeTo_eq {t t' : Tools} (s : SameTools t t') (path data : Str) :
    Exec.writeTo t' path data = Exec.writeTo t path data := by rw [s.same]; rfl

theorem closing_eq {t t' : Tools} (s : SameTools t t') (path : Str) (r : Run Unit) :
    closing t' path r = closing t path r := by rw [s.same]; rfl

theorem sameResult_of_toOption {α : Type} {r r' : Except Err α} (h : r.toOption = r'.toOption) :
    SameResult (fun a b => b = a) r r' := by
  cases r <;> cases r' <;> simp_all [Except.toOption, SameResult]

/-- C86: `descriptor-set` writes the same. -/
theorem C86_descriptor_set (h h' : Host) (r : Reordered h h') (t t' : Tools) (s : SameTools t t')
    (hs : SoundSets h t) (args : List Str) (imports info : Bool) (outputPath : Str) (tmp : Bool) :
    SameRun (descriptorSetCmd h t args imports info outputPath tmp)
      (descriptorSetCmd h' t' args imports info outputPath tmp) := by
  obtain ⟨e1, _, e3, e4, e5, _⟩ := tools_eq s
  unfold descriptorSetCmd
  split
  · exact runAlike_fail _
  refine runAlike_bind (r.getMeta args) fun m m' hm => ?_
  refine runAlike_bind (r.doCompile (.inl rfl) hm) ?_
  rintro sets sets' ⟨hp, disk, ps, ⟨fs, _⟩, hc, rfl⟩
  dsimp only at hp
  refine runAlike_bind (R := fun a b => b = a) (runAlike_lift (sameResult_of_toOption ?_)) ?_
  · rw [e1, e3]
    have hin : ∀ (l : List Descriptor.FileSet) f,
        InSets (l.map fun s => some (s.map some)) f ↔ f ∈ l.flatten := by
      intro l f
      simp only [InSets, List.mem_map, List.mem_flatten]
      constructor
      · rintro ⟨_, ⟨a, ha, e⟩, hf⟩
        cases e
        obtain ⟨g, hg, e⟩ := List.mem_map.1 hf
        cases e
        exact ⟨a, ha, hg⟩
      · rintro ⟨a, ha, hf⟩
        exact ⟨_, ⟨a, ha, rfl⟩, List.mem_map.2 ⟨f, hf, rfl⟩⟩
    refine C10_order_independent _ _ _ _ _ ?_ ?_ ?_
    · have := (hs _ _ _ _ hc).2.1
      refine ⟨fun f hf => this.1 f ((hin _ f).1 hf), fun f g x hf hg => this.2 f g x ((hin _ f).1 hf) ((hin _ g).1 hg)⟩
    · simp [NoNil]
    · intro f
      rw [hin, hin]
      simp [hp.mem_iff]
  · intro set set' he
    subst he
    rw [r.json, e4, e5]
    refine runAlike_bind (runAlike_refl _) ?_
    intro data data' he
    subst he
    split
    · rw [r.write]
      exact sameRun_refl _
    · simp only [openOutput_eq s, closing_eq s, writeTo_eq s, r.println]
      exact sameRun_refl _

/-- C86: so does `break descriptor-set`. -/
theorem C86_break_descriptor_set (h h' : Host) (r : Reordered h h') (t t' : Tools) (s : SameTools t t')
    (hs : SoundSets h t) (args : List Str) (outputPath : Str) :
    SameRun (breakDescriptorSetCmd h t args outputPath) (breakDescriptorSetCmd h' t' args outputPath) := by
  unfold breakDescriptorSetCmd
  split
  · exact runAlike_fail _
  · exact C86_descriptor_set h h' r t t' s hs args true false outputPath false

/-! ## inspect and break check -/

/-- Two extractions of the same schema. -/
def FromOne (o o' : Order) (x x' : Extract.XPackageSet) : Prop :=
  ∃ ps, SchemaOK ps ∧ Extract.newPackageSet o ps false = .ok x ∧ Extract.newPackageSet o' ps false = .ok x'

theorem packageSetOf_alike (srt : SortSlice) (o o' : Order)
    {marshal : Descriptor.FileDesc → Except Err Str} {sets sets' : List Descriptor.FileSet} (hp : sets'.Perm sets)
    (hf : FaithfulOn marshal fun f => f ∈ sets.flatten) (hv : DescriptorsOK sets.flatten) :
    ∃ x x', Breaking.packageSetOf srt o marshal sets = .ok x ∧
      Breaking.packageSetOf srt o' marshal sets' = .ok x' ∧ FromOne o o' x x' := by
  obtain ⟨ps, h1, hok⟩ := C12_schemaOK srt o marshal sets hf hv
  have h2 := C12_order_independent srt o o' marshal sets sets' hf (fun f => by simp [hp.mem_iff]) hv.names
  rw [h1] at h2
  cases h3 : Reflect.newPackageSet srt o' marshal sets' with
  | error e => rw [h3] at h2; cases h2
  | ok ps' =>
    rw [h3] at h2
    cases h2
    have hx : ∀ o, ∃ x, Extract.newPackageSet o ps false = .ok x := fun o =>
      Proof.Extract.newPackageSet_isOk o hok.names hok.packages false fun p hp _ d hd _ =>
        hok.dependencies p hp d hd
    obtain ⟨x, ex⟩ := hx o
    obtain ⟨x', ex'⟩ := hx o'
    refine ⟨x, x', ?_, ?_, ps, hok, ex, ex'⟩
    · unfold Breaking.packageSetOf
      rw [h1]
      exact ex
    · unfold Breaking.packageSetOf
      rw [h3]
      exact ex'

theorem getPackageSetAndConfig_alike {h h' : Host} (r : Reordered h h') {t t' : Tools} (s : SameTools t t')
    (hs : SoundSets h t) (site : Str) (args : List Str) :
    RunAlike (fun x x' => FromOne (t.order.sub site) (t'.order.sub site) x.1 x'.1 ∧ x'.2 = x.2)
      (getPackageSetAndConfig h t site args) (getPackageSetAndConfig h' t' site args) := by
  obtain ⟨e1, e2, _⟩ := tools_eq s
  unfold getPackageSetAndConfig
  refine runAlike_bind (r.getMeta args) fun m m' hm => ?_
  refine runAlike_bind (r.compile hm) ?_
  rintro sets sets' ⟨hp, flags, disk, ps, ⟨fs, _⟩, hc, rfl⟩
  obtain ⟨hf, _, hv⟩ := hs _ _ _ _ hc
  obtain ⟨x, x', h1, h2, h3⟩ := packageSetOf_alike t.srt (t.order.sub site) (t'.order.sub site) hp hf hv
  rw [e1, e2, h1, h2]
  refine runAlike_bind (R := FromOne (t.order.sub site) (t'.order.sub site)) (runAlike_lift h3) fun a b hab => ?_
  exact runAlike_pure ⟨hab, hm.1.config⟩

theorem printPackageNames_alike {h h' : Host} (r : Reordered h h') (t t' : Tools) {names names' : List Str}
    (hp : names'.Perm names) : printPackageNames h' t' names' = printPackageNames h t names := by
  unfold printPackageNames extractSortPackageNames
  rw [r.printAll, sortStrs_eq_of_perm ((((t'.order.perm _ names').trans hp).trans (t.order.perm _ names).symm).filter _)]

theorem fromOne_protos {o o' : Order} {x x' : Extract.XPackageSet} (h : FromOne o o' x x') :
    x'.packages.map (·.proto) = x.packages.map (·.proto) := by
  obtain ⟨ps, _, h1, h2⟩ := h
  rw [(Proof.Extract.newPackageSet_links h1).2.1, (Proof.Extract.newPackageSet_links h2).2.1]

/-- C86: `inspect packages` prints the same. -/
theorem C86_inspect_packages (h h' : Host) (r : Reordered h h') (t t' : Tools) (s : SameTools t t')
    (hs : SoundSets h t) (args : List Str) :
    SameRun (inspectPackagesCmd h t args) (inspectPackagesCmd h' t' args) := by
  unfold inspectPackagesCmd
  refine runAlike_bind (getPackageSetAndConfig_alike r s hs _ args) ?_
  rintro ⟨x, c⟩ ⟨x', c'⟩ ⟨hx, _⟩
  have : x'.packages.map (fun p => p.proto.name) = x.packages.map fun p => p.proto.name := by
    have := congrArg (List.map (·.name)) (fromOne_protos hx)
    simpa [List.map_map, Function.comp_def] using this
  rw [printPackageNames_alike r t t' (List.Perm.of_eq this)]
  exact sameRun_refl _

theorem pairwise_ne {α β : Type} {f : α → β} {l : List α} (h : l.Pairwise fun a b => f a ≠ f b) {a b : α}
    (ha : a ∈ l) (hb : b ∈ l) (hne : a ≠ b) : f a ≠ f b := by
  induction h with
  | nil => cases ha
  | cons h1 _ ih =>
    rcases List.mem_cons.1 ha with ea | ha' <;> rcases List.mem_cons.1 hb with eb | hb'
    · exact absurd (ea.trans eb.symm) hne
    · exact ea ▸ h1 _ hb'
    · exact fun e => h1 _ ha' (eb ▸ e.symm)
    · exact ih ha' hb'

theorem getPackage_alike {h h' : Host} (r : Reordered h h') {t t' : Tools} (s : SameTools t t')
    (hs : SoundSets h t) (args : List Str) (name : Str) :
    RunAlike (fun p p' => p'.dependencies.Perm p.dependencies ∧ p'.importers.Perm p.importers)
      (getPackage h t args name) (getPackage h' t' args name) := by
  unfold getPackage
  split
  · exact runAlike_fail _
  refine runAlike_bind (getPackageSetAndConfig_alike r s hs _ args) ?_
  rintro ⟨x, c⟩ ⟨x', c'⟩ ⟨hx, _⟩
  have hpr := fromOne_protos hx
  obtain ⟨ps, _, h1, h2⟩ := hx
  have hnames : x'.packages.map Proof.Extract.xname = x.packages.map Proof.Extract.xname := by
    have := congrArg (List.map (·.name)) hpr
    simpa [List.map_map, Proof.Extract.xname, Function.comp_def] using this
  have hmem : ∀ {x x' : Extract.XPackageSet}, x'.packages.map (·.proto) = x.packages.map (·.proto) →
      ∀ p ∈ x.packages, ∃ p' ∈ x'.packages, p'.proto = p.proto := by
    intro x x' e p hp
    have : p.proto ∈ x'.packages.map (·.proto) := e ▸ List.mem_map_of_mem hp
    exact List.mem_map.1 this
  obtain ⟨hnd, _, hl, _⟩ := Proof.Extract.newPackageSet_links h1
  obtain ⟨hnd', _, hl', _⟩ := Proof.Extract.newPackageSet_links h2
  have uniq : ∀ {x : Extract.XPackageSet}, (x.packages.map Proof.Extract.xname).Nodup → ∀ p ∈ x.packages, ∀ q ∈ x.packages,
      p.proto.name = q.proto.name → p = q := by
    intro x hn p hp q hq e
    rw [List.Nodup, List.pairwise_map] at hn
    exact Classical.byContradiction fun hne => pairwise_ne hn hp hq hne e
  cases hf : x.packages.find? fun p => p.proto.name = name with
  | none =>
    have : (x'.packages.find? fun p => p.proto.name = name) = none := by
      rw [List.find?_eq_none] at hf ⊢
      intro p' hp'
      obtain ⟨p, hp, e⟩ := hmem hpr.symm p' hp'
      have := hf p hp
      rw [e] at this
      exact this
    rw [this]
    exact runAlike_fail _
  | some p =>
    have hpm := List.mem_of_find?_eq_some hf
    have hpn : p.proto.name = name := by simpa using List.find?_some hf
    obtain ⟨q, hq, eq⟩ := hmem hpr p hpm
    have : (x'.packages.find? fun p => p.proto.name = name) = some q := by
      cases hf' : x'.packages.find? fun p => p.proto.name = name with
      | none =>
        rw [List.find?_eq_none] at hf'
        exact absurd (by simp [eq, hpn]) (hf' q hq)
      | some q' =>
        have hn' : q'.proto.name = name := by simpa using List.find?_some hf'
        rw [uniq hnd' q' (List.mem_of_find?_eq_some hf') q hq (by rw [hn', eq, hpn])]
    rw [this]
    refine runAlike_pure ⟨?_, ?_⟩
    · refine (List.perm_ext_iff_of_nodup (newPackageSet_nodup h2 q hq).1 (newPackageSet_nodup h1 p hpm).1).2 ?_
      intro d
      rw [(hl p hpm).1, (hl' q hq).1, eq, hnames]
    · refine (List.perm_ext_iff_of_nodup (newPackageSet_nodup h2 q hq).2 (newPackageSet_nodup h1 p hpm).2).2 ?_
      intro d
      rw [(hl p hpm).2, (hl' q hq).2]
      have en : Proof.Extract.xname q = Proof.Extract.xname p := by
        show q.proto.name = p.proto.name
        rw [eq]
      rw [en]
      constructor
      · rintro ⟨y, hy, e, hd⟩
        obtain ⟨z, hz, ez⟩ := hmem hpr.symm y hy
        refine ⟨z, hz, ?_, ez ▸ hd⟩
        show z.proto.name = d
        rw [ez]
        exact e
      · rintro ⟨y, hy, e, hd⟩
        obtain ⟨z, hz, ez⟩ := hmem hpr y hy
        refine ⟨z, hz, ?_, ez ▸ hd⟩
        show z.proto.name = d
        rw [ez]
        exact e

/-- C86: `inspect package-deps` prints the same. -/
theorem C86_inspect_deps (h h' : Host) (r : Reordered h h') (t t' : Tools) (s : SameTools t t')
    (hs : SoundSets h t) (args : List Str) (name : Str) :
    SameRun (inspectPackageDepsCmd h t args name) (inspectPackageDepsCmd h' t' args name) := by
  unfold inspectPackageDepsCmd
  refine runAlike_bind (getPackage_alike r s hs args name) fun p p' hp => ?_
  rw [printPackageNames_alike r t t' hp.1]
  exact sameRun_refl _

/-- C86: `inspect package-importers` prints the same. -/
theorem C86_inspect_importers (h h' : Host) (r : Reordered h h') (t t' : Tools) (s : SameTools t t')
    (hs : SoundSets h t) (args : List Str) (name : Str) :
    SameRun (inspectPackageImportersCmd h t args name) (inspectPackageImportersCmd h' t' args name) := by
  unfold inspectPackageImportersCmd
  refine runAlike_bind (getPackage_alike r s hs args name) fun p p' hp => ?_
  rw [printPackageNames_alike r t t' hp.2]
  exact sameRun_refl _

theorem breakReport_alike {h h' : Host} (r : Reordered h h') {t t' : Tools} (c : Settings.Config)
    {xf xf' xt xt' : Extract.XPackageSet} (hf : FromOne (t.order.sub s%"from") (t'.order.sub s%"from") xf xf')
    (ht : FromOne (t.order.sub s%"to") (t'.order.sub s%"to") xt xt') :
    SameRun (breakReport h t c xf xt) (breakReport h' t' c xf' xt') := by
  obtain ⟨psf, hfo, f1, f2⟩ := hf
  obtain ⟨pst, hto, t1, t2⟩ := ht
  obtain ⟨fs, fs', e, e', hsort⟩ := C07_order_independent t.order t'.order c.break_ psf pst hfo hto
  unfold Breaking.breakCheck at e e'
  rw [t1] at e
  rw [t2] at e'
  dsimp only at e e'
  rw [f1] at e
  rw [f2] at e'
  dsimp only at e e'
  have hperm : fs'.Perm fs :=
    ((C18_sorted fs').1.symm.trans (List.Perm.of_eq hsort.symm)).trans (C18_sorted fs).1
  unfold breakReport
  rw [e, e']
  refine runAlike_bind (R := fun a b => a = fs ∧ b = fs') (runAlike_lift ⟨rfl, rfl⟩) ?_
  rintro _ _ ⟨rfl, rfl⟩
  rw [hperm.length_eq, r.printFailuresFor none none rfl _ _ hperm]
  exact sameRun_refl _

theorem clone_reordered {h h' : Host} (r : Reordered h h') {t t' : Tools} (s : SameTools t t') (dir : Str) :
    Reordered (cloneForWorkDirPath h t dir) (cloneForWorkDirPath h' t' dir) := by
  refine ⟨?_, s.finds, r.compiles⟩
  unfold cloneForWorkDirPath
  obtain ⟨_, _, _, _, _, _, _, _, e, _⟩ := tools_eq s
  rw [e, r.same]

theorem removing_alike {t t' : Tools} (s : SameTools t t') (dir : Str) {m m' : Run Unit} (h : SameRun m m') :
    SameRun (removing t dir m) (removing t' dir m') := by
  obtain ⟨_, _, _, _, _, _, _, _, _, e⟩ := tools_eq s
  intro w
  obtain ⟨h1, h2⟩ := h w
  unfold removing
  rw [e]
  rcases hm : m w with ⟨w1, a⟩
  rcases hm' : m' w with ⟨w1', a'⟩
  rw [hm, hm'] at h1 h2
  dsimp only at h1 h2 ⊢
  rw [h1]
  exact ⟨rfl, h2⟩

theorem temporaryClone_eq {h h' : Host} (r : Reordered h h') {t t' : Tools} (s : SameTools t t') (b : Str) :
    temporaryClone h' t' b = temporaryClone h t b := by
  obtain ⟨_, _, _, _, _, _, e1, e2, _⟩ := tools_eq s
  unfold temporaryClone
  rw [r.wd, r.workDirPath, r.stat, e1, e2]

theorem checkRelDirPath_eq {h h' : Host} (r : Reordered h h') (d : Str) :
    checkRelDirPath h' d = checkRelDirPath h d := by
  unfold checkRelDirPath
  rw [r.wd, r.workDirPath]

/-- C86: `break check` prints the same, both against a clone and against a descriptor set file with
descriptors as protoc makes them. -/
theorem C86_break_check (h h' : Host) (r : Reordered h h') (t t' : Tools) (s : SameTools t t')
    (hs : SoundSets h t) (args : List Str) (gitBranch path : Str) (w : World)
    (hpath : ∀ data set, path ≠ [] → w.disk path = some data → t.decode data = .ok set →
      FaithfulOn t.marshal (fun f => f ∈ set) ∧ DescriptorsOK set) :
    (breakCheckCmd h' t' args gitBranch path w).1 = (breakCheckCmd h t args gitBranch path w).1 ∧
      EndAlike (fun _ _ => True) (breakCheckCmd h t args gitBranch path w).2
        (breakCheckCmd h' t' args gitBranch path w).2 := by
  obtain ⟨e1, e2, _, _, _, e6, _⟩ := tools_eq s
  unfold breakCheckCmd
  split
  · exact runAlike_fail _ w
  refine alike_bind (getPackageSetAndConfig_alike r s hs _ args w) ?_
  rintro ⟨xt, c⟩ ⟨xt', c'⟩ w1 hw1 ⟨hx, hc⟩
  dsimp only at hx hc
  subst hc
  split
  · rename_i hne
    have hd : w1.disk = w.disk := by
      have := (quiet_getPackageSetAndConfig h t s%"to" args w).1
      rw [hw1] at this
      exact this
    refine alike_bind (R := FromOne (t.order.sub s%"from") (t'.order.sub s%"from")) ?_ fun xf xf' w2 _ hxf =>
      breakReport_alike r _ hxf hx w2
    unfold getPackageSetForDescriptorSetPath
    have hread : readFile h' path = readFile h path := by
      unfold readFile
      rw [r.missing]
    rw [hread]
    refine alike_bind (runAlike_refl _ w1) ?_
    intro data data' w2 hdata he
    subst he
    rw [e6]
    refine alike_bind (runAlike_refl _ w2) ?_
    intro set set' w3 hset he
    subst he
    have hdata' : w.disk path = some data' := by
      rw [← hd]
      unfold readFile at hdata
      split at hdata
      · rename_i x hx
        cases hdata
        exact hx
      · cases hdata
    have hset' : t.decode data' = .ok set' := by
      cases hx : t.decode data' with
      | error e => rw [hx] at hset; cases hset
      | ok y => rw [hx] at hset; cases hset; rfl
    obtain ⟨hf, hv⟩ := hpath data' set' hne hdata' hset'
    obtain ⟨x, x', h1, h2, h3⟩ := packageSetOf_alike (sets := [set']) (sets' := [set']) t.srt (t.order.sub s%"from")
      (t'.order.sub s%"from") (.refl _) (by simpa using hf) (by simpa using hv)
    rw [e1, e2, h1, h2]
    exact runAlike_lift (R := FromOne _ _) (r := .ok x) (r' := .ok x') h3 w3
  · rw [checkRelDirPath_eq r, temporaryClone_eq r s]
    refine runAlike_bind (runAlike_refl _) (fun _ _ _ => ?_) w1
    refine runAlike_bind (runAlike_refl _) fun dir dir' he => ?_
    subst he
    refine removing_alike s _ ?_
    refine runAlike_bind (getPackageSetAndConfig_alike (clone_reordered r s dir') s hs _ _) ?_
    rintro ⟨xf, c⟩ ⟨xf', c'⟩ ⟨hxf, _⟩
    exact breakReport_alike r _ hxf hx

end Verif.Props
