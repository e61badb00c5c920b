import Verif.Spec.Path
import Verif.Model.WalkTimeout

/-!
# Specification: finding configuration and proto files
-/

namespace Verif.Spec

open Verif

/-- `p` is an existing configuration file in the directory `d`. -/
def ConfigFile (stat : Str → Bool) (d p : Str) : Prop :=
  ∃ cs name, Components cs ∧ (name = s%"prototool.yaml" ∨ name = s%"prototool.json") ∧
    d = absPath cs ∧ p = absPath (cs ++ [name]) ∧ stat p = true

/-- The directory `d` has no configuration file. -/
def NoConfig (stat : Str → Bool) (d : Str) : Prop := ∀ p, ¬ ConfigFile stat d p

/-- `d` is the nearest directory with a configuration file, going up from `dir`. -/
def NearestConfig (stat : Str → Bool) (dir d : Str) : Prop :=
  Within dir d ∧ (∃ p, ConfigFile stat d p) ∧ ∀ d', Within dir d' → Below d' d → NoConfig stat d'

/-- An exclude path excludes `f`: it is `f` or a directory above `f`, and lies below the
configuration directory. -/
def ExcludedBy (f configDir : Str) (excludes : List Str) : Prop :=
  ∃ e ∈ excludes, Within f e ∧ Below e configDir

/-! ## Directory trees -/

open File

/-- What is found below a node under the given components. -/
def nodeAt : Node → List Str → Option Node
  | n, [] => some n
  | .dir entries, c :: cs =>
    match entries.find? fun e => e.1 = c with
    | some e => nodeAt e.2 cs
    | none => none
  | _, _ :: _ => none

/-- Entries of a directory have distinct, proper names. -/
def TreeOK (root : Node) : Prop :=
  ∀ ds entries, nodeAt root ds = some (.dir entries) →
    (entries.map (·.1)).Nodup ∧ ∀ e ∈ entries, Component e.1

/-- Every directory of the tree can be listed and every entry can be examined. -/
def Readable (root : Node) : Prop :=
  ∀ ds node, nodeAt root ds = some node → node = .file ∨ ∃ entries, node = .dir entries

/-- `p` is a file (not a directory) of the tree at `rootPath` and its name ends in
`.proto`. -/
def ProtoFileIn (rootPath : Str) (root : Node) (p : Str) : Prop :=
  ∃ rs ds q, Components rs ∧ rootPath = absPath rs ∧ p = absPath (rs ++ ds) ∧
    nodeAt root ds = some .file ∧ p = q ++ s%".proto"

/-- `e` is an exclude path that applies to the walk: given by the configuration data if
there is such data, otherwise by the configuration of a directory of the tree. -/
def Declared (c : WalkConfig) (dataExcludes : List Str) (e : Str) : Prop :=
  if c.hasConfigData then e ∈ dataExcludes
  else ∃ d es, Within d c.absDirPath ∧ c.excludesForDir d = .ok es ∧ e ∈ es

/-- `p` is excluded: it, or a directory above it that is below the directory of the
walk, is an exclude path. -/
def ExcludedIn (c : WalkConfig) (dataExcludes : List Str) (p : Str) : Prop :=
  ∃ e, Declared c dataExcludes e ∧ Within p e ∧ Below e c.absDirPath

/-- Configurations exclude only paths below their own directory. -/
def ExcludesBelow (excludesForDir : Str → Except Err (List Str)) : Prop :=
  ∀ d es e, IsAbsPath d → excludesForDir d = .ok es → e ∈ es → Below e d

/-! ## Walk and timer -/

/-- The states that can be reached. -/
inductive Reachable (c : WalkConfig) (hasTimeout : Bool) (root : Node) (excludes : List Str) :
    Machine → Prop
  | init : Reachable c hasTimeout root excludes (initial c root excludes)
  | step {m m'} : Reachable c hasTimeout root excludes m → Step c hasTimeout m m' →
      Reachable c hasTimeout root excludes m'

end Verif.Spec
