import Verif.Props.InterruptMore
import Verif.Spec.Releases

/-!
# C118: releases that are checked one after the other

The past can be given to `break check` as a branch or as a descriptor set, and it need not be the whole past.
-/

namespace Verif.Props

open Verif Str Descriptor Spec Exec Proof.Reflect Breaking

/-- What a release declares, however and in whatever order it is compiled and looked at. -/
theorem release_packages {t : Tools} {r : Release} (hr : r.OK t) : ∃ ps, SchemaOK ps ∧
    (∀ o, Reflect.newPackageSet t.srt o t.marshal r.sets = .ok ps) ∧
    ∀ o, Reflect.newPackageSet t.srt o t.marshal r.checked = .ok ps := by
  obtain ⟨ps, h1, h2⟩ := C12_schemaOK t.srt Order.id t.marshal r.sets hr.bytes hr.valid
  have h3 : ∀ o, Reflect.newPackageSet t.srt o t.marshal r.checked = .ok ps := by
    intro o
    obtain ⟨ps', k1, k2⟩ := C08_same_packages t.srt Order.id o t.marshal r.sets r.checked hr.bytes hr.bytes'
      hr.valid.reflectable hr.valid'.reflectable hr.valid.names hr.same
    rw [h1] at k1
    cases k1
    exact k2
  refine ⟨ps, h2, fun o => ?_, h3⟩
  obtain ⟨ps', k1, k2⟩ := C08_same_packages t.srt o Order.id t.marshal r.sets r.checked hr.bytes hr.bytes'
    hr.valid.reflectable hr.valid'.reflectable hr.valid.names hr.same
  rw [h3] at k2
  cases k2
  exact k1

/-- What a check of a release against an earlier one prints and how it ends. -/
theorem release_check {t : Tools} {old r : Release} (ho : old.OK t) (hr : r.OK t) {v : World}
    (hv : ChecksAgainst t old r v) {a b : Reflect.PackageSet} (ha : SchemaOK a) (hb : SchemaOK b)
    (hpa : ∀ o, Reflect.newPackageSet t.srt o t.marshal old.sets = .ok a)
    (hpb : ∀ o, Reflect.newPackageSet t.srt o t.marshal r.checked = .ok b) :
    ∃ failures, breakCheck t.order r.m.protoSet.config.break_ a b = .ok failures ∧
      breakCheckCmd r.h t r.args [] old.path v =
        ({ v with out := v.out ++ breakLines r.h failures }, breakOutcome failures) := by
  obtain ⟨failures, hf, _⟩ := C06_reports t.order r.m.protoSet.config.break_ a b ha hb
  obtain ⟨w1, hrun, hkept⟩ := hv.written
  refine ⟨failures, hf, C70_as_direct old.h r.h ho.prints hr.prints ho.json (fun e => by rw [hr.json] at e; cases e) t
    old.args r.args old.path ho.path old.m r.m old.sets r.checked old.w w1 v ho.compiles ho.sums ho.bytes ho.names
    ho.valid.reflectable ho.valid.names ho.decodes hrun hkept hv.compiles hr.valid'.reflectable hr.valid'.names hr.bytes'
    failures ?_⟩
  rw [breakCheckSets_eq t.srt t.order t.marshal _ old.sets r.checked a b (hpa _) (hpb _)]
  exact hf

/-- C118: **if every release passed `break check` against the one before it, every release passes it against every earlier
one**: it prints nothing and changes nothing. -/
theorem C118_history (t : Tools) (r : Nat → Release) (ok : ∀ n, (r n).OK t) (config : BreakConfig)
    (hconfig : ∀ n, (r n).m.protoSet.config.break_ = config) (last : Nat) (v : Nat → World)
    (hv : ∀ n < last, ChecksAgainst t (r n) (r (n + 1)) (v n))
    (passed : ∀ n < last, (breakCheckCmd (r (n + 1)).h t (r (n + 1)).args [] (r n).path (v n)).2 = .ok ())
    (i j : Nat) (hij : i < j) (hj : j ≤ last) (u : World) (hu : ChecksAgainst t (r i) (r j) u) :
    breakCheckCmd (r j).h t (r j).args [] (r i).path u = (u, .ok ()) := by
  have hps := fun n => release_packages (ok n)
  let ps := fun n => Classical.choose (hps n)
  have hp : ∀ n, SchemaOK (ps n) ∧ (∀ o, Reflect.newPackageSet t.srt o t.marshal (r n).sets = .ok (ps n)) ∧
    ∀ o, Reflect.newPackageSet t.srt o t.marshal (r n).checked = .ok (ps n) := fun n => Classical.choose_spec (hps n)
  have hall := C03_history t.order config ps (fun n => (hp n).1) last (fun _ => t.order) (fun n hn => by
    obtain ⟨failures, h1, h2⟩ := release_check (ok n) (ok (n + 1)) (hv n hn) (hp n).1 (hp (n + 1)).1 (hp n).2.1
      (hp (n + 1)).2.2
    have h3 := passed n hn
    rw [h2] at h3
    have h4 := (C66_exit failures).1.1 h3
    rw [hconfig, h4] at h1
    exact h1) i j hij hj
  obtain ⟨failures, h1, h2⟩ := release_check (ok i) (ok j) hu (hp i).1 (hp j).1 (hp i).2.1 (hp j).2.2
  rw [hconfig, hall] at h1
  cases h1
  rw [h2]
  show ({ u with out := u.out ++ [] }, breakOutcome []) = _
  rw [List.append_nil]
  rfl

/-- C118: **a release that passes against an earlier one that passed, passes**: what a check accepts, it accepts in one
step as well as in two. -/
theorem C118_two_steps (t : Tools) (a b c : Release) (ha : a.OK t) (hb : b.OK t) (hc : c.OK t)
    (hconfig : b.m.protoSet.config.break_ = c.m.protoSet.config.break_) (v v' u : World)
    (hv : ChecksAgainst t a b v) (hv' : ChecksAgainst t b c v') (hu : ChecksAgainst t a c u)
    (h1 : (breakCheckCmd b.h t b.args [] a.path v).2 = .ok ())
    (h2 : (breakCheckCmd c.h t c.args [] b.path v').2 = .ok ()) :
    breakCheckCmd c.h t c.args [] a.path u = (u, .ok ()) := by
  obtain ⟨pa, sa, pa1, _⟩ := release_packages ha
  obtain ⟨pb, sb, pb1, pb2⟩ := release_packages hb
  obtain ⟨pc, sc, _, pc2⟩ := release_packages hc
  obtain ⟨f1, k1, k2⟩ := release_check ha hb hv sa sb pa1 pb2
  obtain ⟨f2, j1, j2⟩ := release_check hb hc hv' sb sc pb1 pc2
  obtain ⟨f, i1, i2⟩ := release_check ha hc hu sa sc pa1 pc2
  rw [k2] at h1
  rw [j2] at h2
  rw [(C66_exit f1).1.1 h1, hconfig] at k1
  rw [(C66_exit f2).1.1 h2] at j1
  rw [C03_transitive t.order t.order t.order _ pa pb pc sa sb sc k1 j1] at i1
  cases i1
  rw [i2]
  show ({ u with out := u.out ++ [] }, breakOutcome []) = _
  rw [List.append_nil]
  rfl

/-- C118: **the past can be given as a branch or as a descriptor set that was written from it**: `break check` prints the
same, ends the same and leaves the same files, if protoc makes the same definitions of the clone. -/
theorem C118_two_ways (t : Tools) (old r : Release) (ho : old.OK t) (hr : r.OK t) (v : World)
    (hv : ChecksAgainst t old r v) (ht : TempDirsOK t v.disk) (branch : Str) (hrel : Path.isAbs (fileOrDir r.args) = false)
    (hin : File.absClean r.h.wd r.h.workDirPath <+: File.absClean r.h.wd (fileOrDir r.args))
    (dir : Str) (disk' : Disk) (hclone : Clones r.h t branch v.disk dir disk') (m' : Meta) (cloned : List FileSet)
    (hc' : CompilesTo { r.h with workDirPath := dir, stat := t.treeStat, getForDir := t.treeForDir }
      [cloneDirFor dir (fileOrDir r.args)] { doFileDescriptorSet := true } disk' m' cloned)
    (hb : FaithfulOn t.marshal fun f => f ∈ cloned.flatten) (hvalid : DescriptorsOK cloned.flatten)
    (hsame : Redistributed old.sets.flatten cloned.flatten) :
    breakCheckCmd r.h t r.args branch [] v = breakCheckCmd r.h t r.args [] old.path v := by
  obtain ⟨pa, sa, pa1, _⟩ := release_packages ho
  obtain ⟨pb, sb, _, pb2⟩ := release_packages hr
  obtain ⟨failures, k1, k2⟩ := release_check ho hr hv sa sb pa1 pb2
  rw [k2]
  refine C66_git r.h hr.prints (fun e => by rw [hr.json] at e; cases e) t r.args branch r.m m' r.checked cloned v ht
    hv.compiles hrel hin dir disk' hclone hc' failures ?_
  rw [← C08_same_outcome t.srt t.order t.marshal _ old.sets cloned r.checked r.checked ho.bytes hb hr.bytes' hr.bytes'
    ho.valid.reflectable hvalid.reflectable hr.valid'.reflectable hr.valid'.reflectable ho.valid.names hr.valid'.names
    hsame (redistributed_of_mem fun _ => Iff.rfl),
    breakCheckSets_eq t.srt t.order t.marshal _ old.sets r.checked pa pb (pa1 _) (pb2 _)]
  exact k1

/-! ## These theorems are about something -/

section Example

open Exec.Sample ReflectExample BreakExample

/-- An encoding that knows both sample schemas. -/
def releaseTools : Tools :=
  { tools with
    decode := fun data =>
      if data = s%"base.proto\nuser.proto\n" then .ok [base, user]
      else if data = s%"base.proto\nuser1.proto\nuser2.proto\n" then .ok [base, user1, user2]
      else .error s%"unexpected EOF" }

/-- The release with the schema `old`. -/
def oldRelease : Release := ⟨oldHost, [s%"a"], dir, world, old, old, s%"/tmp/old"⟩

/-- The release with the schema `new`. -/
def newRelease : Release := ⟨repoHost, [s%"a"], dir, world, new, new, s%"/tmp/new"⟩

theorem oldRelease_ok : oldRelease.OK releaseTools where
  prints := fun _ _ => rfl
  json := rfl
  path := by simp [oldRelease]
  compiles := ⟨⟨s%"a", .inl rfl, .inl ⟨rfl, rfl, rfl⟩⟩, ⟨_, rfl⟩, rfl⟩
  same := redistributed_of_mem fun _ => Iff.rfl
  sums := old_faithful
  bytes := old_faithful
  bytes' := old_faithful
  names := by
    intro f hf
    rcases mem_old.1 hf with rfl | rfl <;> decide
  valid := old_valid
  valid' := old_valid
  decodes := by
    intro set data hs he
    rw [merged_old hs] at he ⊢
    cases he
    rfl

theorem newRelease_ok : newRelease.OK releaseTools where
  prints := fun _ _ => rfl
  json := rfl
  path := by simp [newRelease]
  compiles := ⟨⟨s%"a", .inl rfl, .inl ⟨rfl, rfl, rfl⟩⟩, ⟨_, rfl⟩, rfl⟩
  same := redistributed_of_mem fun _ => Iff.rfl
  sums := new_faithful
  bytes := new_faithful
  bytes' := new_faithful
  names := by
    intro f hf
    rcases mem_new.1 hf with rfl | rfl | rfl <;> decide
  valid := new_valid
  valid' := new_valid
  decodes := by
    intro set data hs he
    have hm : IsMerged new [base, user1, user2] := by
      refine ⟨?_, fun f => by rw [mem_new]; simp⟩
      simp only [List.pairwise_cons, List.mem_cons, List.not_mem_nil, or_false, forall_eq_or_imp, forall_eq,
        false_implies, implies_true, and_true, List.Pairwise.nil]
      decide
    rw [IsMerged.unique hs hm] at he ⊢
    cases he
    rfl

/-- What is on the disk when the new release is checked against the old one. -/
def releaseWorld : World := (breakDescriptorSetCmd oldHost releaseTools [s%"a"] s%"/tmp/old" world).1

theorem release_checks : ChecksAgainst releaseTools oldRelease newRelease releaseWorld :=
  ⟨⟨⟨s%"a", .inl rfl, .inl ⟨rfl, rfl, rfl⟩⟩, ⟨_, rfl⟩, rfl⟩, _, Prod.ext rfl (by decide +kernel), rfl⟩

/-- `break check` of the new release against the set of the old one, and against the repository. -/
example : (breakCheckCmd newRelease.h releaseTools newRelease.args [] oldRelease.path releaseWorld).2 = .ok () ∧
    breakCheckCmd newRelease.h releaseTools newRelease.args [] [] releaseWorld =
      breakCheckCmd newRelease.h releaseTools newRelease.args [] oldRelease.path releaseWorld := by
  refine ⟨by decide +kernel, C118_two_ways releaseTools oldRelease newRelease oldRelease_ok newRelease_ok releaseWorld
    release_checks ⟨tools_ok.isAbs, ?_, tools_ok.clone, tools_ok.removed, tools_ok.kept⟩ [] rfl (by decide) s%"/tmp/clone" _
    ⟨by rfl, rfl, by rfl⟩ { protoSet := cloneSet } old (clone_compiles _) old_faithful old_valid
    (redistributed_of_mem fun _ => Iff.rfl)⟩
  intro d hdir p hp
  refine Eq.trans (C67_only oldHost releaseTools [s%"a"] true false s%"/tmp/old" false world p fun ht => ?_)
    (tools_ok.fresh d hdir p hp)
  have e : p = s%"/tmp/old" := by simpa [IsTarget] using ht
  subst e
  cases hdir
  exact absurd (isWithin_iff.2 hp) (by decide)

end Example

end Verif.Props
