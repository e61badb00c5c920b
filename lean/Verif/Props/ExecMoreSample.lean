import Verif.Spec.ExecMore
import Verif.Spec.ExecSample
import Verif.Proof.Path
import Verif.Props.Reflect

/-!
# A small world for descriptor-set, break check and the inspections
-/

namespace Verif.Exec.Sample

open Verif Str Spec Descriptor Props.ReflectExample

theorem isAbsPath_iff {p : Str} : IsAbsPath p ↔ Path.isAbs p = true ∧ Path.clean p = p :=
  ⟨fun h => ⟨Path.isAbs_of_isAbsPath h, Path.clean_of_isAbsPath h⟩,
    fun h => h.2 ▸ Path.clean_isAbsPath h.1⟩

/-- Whether a path is a directory or below it. -/
def isWithin (p d : Str) : Bool :=
  Path.isAbs p && decide (Path.clean p = p) && Path.isAbs d && decide (Path.clean d = d) &&
    (Path.relComps d).isPrefixOf (Path.relComps p)

theorem isWithin_iff {p d : Str} : isWithin p d = true ↔ Within p d := by
  have key : isWithin p d = true ↔
      IsAbsPath p ∧ IsAbsPath d ∧ Path.relComps d <+: Path.relComps p := by
    rw [isAbsPath_iff, isAbsPath_iff, ← List.isPrefixOf_iff_prefix]
    unfold isWithin
    simp only [Bool.and_eq_true, decide_eq_true_eq]
    exact ⟨fun h => ⟨⟨h.1.1.1.1, h.1.1.1.2⟩, ⟨h.1.1.2, h.1.2⟩, h.2⟩,
      fun h => ⟨⟨⟨⟨h.1.1, h.1.2⟩, h.2.1.1⟩, h.2.1.2⟩, h.2.2⟩⟩
  rw [key]
  constructor
  · rintro ⟨⟨cs, hc, rfl⟩, ⟨ds, hd, rfl⟩, hr⟩
    rw [Path.relComps_absPath hc, Path.relComps_absPath hd] at hr
    exact (Path.within_iff hc hd).2 hr
  · intro h
    obtain ⟨⟨cs, hc, rfl⟩, ⟨ds, hd, rfl⟩⟩ := Path.within_isAbsPath h
    refine ⟨⟨cs, hc, rfl⟩, ⟨ds, hd, rfl⟩, ?_⟩
    rw [Path.relComps_absPath hc, Path.relComps_absPath hd]
    exact (Path.within_iff hc hd).1 h

/-- The proto set of the directory in the clone. -/
def cloneSet : File.ProtoSet where
  workDirPath := s%"/tmp/clone"
  dirPath := s%"/tmp/clone/a"
  dirPathToFiles := [(s%"/tmp/clone/a", [⟨s%"/tmp/clone/a/one.proto", s%"/tmp/clone/a/one.proto"⟩])]
  config := Spec.Sample.config

/-- The working directory is a repository. Its files hold the schema `new`; those of the clone
hold `old`. -/
def repoHost : Host :=
  { host with
    stat := fun p => if p = s%"/w/.git" then .ok .dir else host.stat p
    compile := fun _ _ ps => .ok ([], if ps.workDirPath = s%"/tmp/clone" then old else new) }

/-- `git` that works. -/
def tools : Tools where
  srt := SortSlice.stable
  order := Order.id
  marshal := byName
  sum := byName
  encodeJSON set := .ok (set.flatMap fun f => f.name ++ s%"\n")
  encodeProto set := .ok (set.flatMap fun f => f.name ++ s%"\n")
  decode _ := .ok [base, user]
  create _ := .ok ()
  tempFile := .ok s%"/tmp/prototool1"
  writeTo _ _ := .ok ()
  close _ := none
  tempDir := .ok s%"/tmp/clone"
  git args d :=
    (fun p => if p = Path.joinPath [args.getLastD [], s%"a/one.proto"] ∧ isWithin p (args.getLastD [])
        then some s%"x" else d p, none)
  treeStat p := if p = s%"/tmp/clone/a" then .ok .dir else .error s%"no such file"
  treeForDir _ p := if p = s%"/tmp/clone/a" then .ok cloneSet else .error s%"no such directory"
  removeAll dir d p := if isWithin p dir then none else d p
  mkdirAll _ := .ok ()
  config _ _ := .ok s%"protoc:\n"

/-- `git` that fails. -/
def failingGit : Tools := { tools with git := fun _ d => (d, some s%"fatal: Remote branch x not found") }

theorem cloneArgs_last (src branch dir : Str) : (cloneArgs src branch dir).getLastD [] = dir := by
  unfold cloneArgs
  split <;> rfl

theorem tools_ok : TempDirsOK tools world.disk := by
  refine ⟨?_, ?_, ?_, ?_, ?_⟩
  · intro dir h
    cases h
    exact isAbsPath_iff.2 (by decide)
  · intro dir h p hp
    cases h
    have hp := isWithin_iff.2 hp
    have : ∀ q, q = s%"/w/a/one.proto" ∨ q = s%"/w/a/two.proto" ∨ q = s%"/w/ab/next.proto" ∨
        q = s%"/w/c/other.proto" → isWithin q s%"/tmp/clone" ≠ true := by
      rintro q (rfl | rfl | rfl | rfl) <;> decide
    show (if p = s%"/w/a/one.proto" then some s%"syntax = \"proto3\";\n"
      else if p = s%"/w/a/two.proto" ∨ p = s%"/w/ab/next.proto" ∨ p = s%"/w/c/other.proto" then
        some s%"syntax=\"proto3\";"
      else none) = none
    rw [if_neg (fun e => this p (.inl e) hp), if_neg (fun e => this p (.inr e) hp)]
  · intro src branch dir d p hp
    show (if _ then _ else _) = _
    rw [cloneArgs_last, if_neg]
    rintro ⟨_, h⟩
    exact hp (isWithin_iff.1 h)
  · intro dir d p hp
    exact if_pos (isWithin_iff.2 hp)
  · intro dir d p hp
    exact if_neg fun h => hp (isWithin_iff.1 h)

theorem failingGit_ok : TempDirsOK failingGit world.disk :=
  ⟨tools_ok.isAbs, tools_ok.fresh, fun _ _ _ _ _ _ => rfl, tools_ok.removed, tools_ok.kept⟩

end Verif.Exec.Sample
