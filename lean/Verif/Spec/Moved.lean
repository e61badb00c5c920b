import Verif.Spec.ExecOrder
import Verif.Spec.Discovery

/-!
# Specification: a tree that is moved

The same directory tree at two places. Configurations name places by relative paths that do not
leave the tree.
-/

namespace Verif.Spec

open Verif Str Path Settings File

/-- Following the components from a directory `n` levels below the root of the tree, one is never
above the root. -/
def stays : Nat → List Str → Bool
  | _, [] => true
  | n, c :: cs =>
    if c = [] ∨ c = s%"." then stays n cs
    else if c = s%".." then
      match n with
      | 0 => false
      | n + 1 => stays n cs
    else stays (n + 1) cs

/-- A relative path that, used in a directory `n` levels below the root of the tree, does not leave
the tree. -/
def InTree (n : Nat) (p : Str) : Prop := isAbs p = false ∧ stays n (splitChar '/' p) = true

/-- A configuration in a directory `n` levels below the root of the tree that names only places
of the tree, all by relative paths. -/
structure Portable (n : Nat) (e : ExternalConfig) : Prop where
  excludes : ∀ p ∈ e.excludes, InTree n p
  includes : ∀ p ∈ e.includes, InTree n p
  ignores : ∀ x ∈ e.ignores, ∀ p ∈ x.2, InTree n p
  packages : ∀ x ∈ e.createPackages, InTree n x.1
  outputs : ∀ p ∈ e.plugins, InTree n p.output
  header : InTree n e.fileHeaderPath

/-- The same place of the tree, whose root is `absPath r` before and `absPath r'` after it is
moved. -/
def MovedPath (r r' : List Str) (p p' : Str) : Prop :=
  ∃ x, Components x ∧ p = absPath (r ++ x) ∧ p' = absPath (r' ++ x)

/-- What is above the tree does not matter: the root has a configuration file, or no directory
above it has one. -/
def Alone (stat : Str → Bool) (r : List Str) : Prop :=
  (∃ p, ConfigFile stat (absPath r) p) ∨ ∀ d, Below (absPath r) d → NoConfig stat d

/-- The file systems hold the same tree, at `absPath r` and at `absPath r'`, and its configurations
are portable. -/
structure MovedHost (r r' : List Str) (h h' : Settings.Host) : Prop where
  root : Components r
  root' : Components r'
  stat : ∀ p p', MovedPath r r' p p' → h'.stat p' = h.stat p
  read : ∀ p p', MovedPath r r' p p' → SameResult (fun a b => b = a) (h.readFile p) (h'.readFile p')
  yaml : h'.parseYAML = h.parseYAML
  alone : Alone h.stat r
  alone' : Alone h'.stat r'
  portable : ∀ x name e, Components (x ++ [name]) →
    getExternalConfig h (absPath (r ++ x ++ [name])) = .ok e → Portable x.length e

/-- The same plugin, its output at the same place of the tree. -/
structure MovedPlugin (r r' : List Str) (g g' : GenPlugin) : Prop where
  same : g' = { g with outputPath := ⟨g.outputPath.relPath, g'.outputPath.absPath⟩ }
  output : MovedPath r r' g.outputPath.absPath g'.outputPath.absPath

/-- The elements of the lists correspond one to one, in any order. -/
def Corresponding {α β : Type} (R : α → β → Prop) (l : List α) (l' : List β) : Prop :=
  ∃ m, Pointwise R l m ∧ l'.Perm m

/-- The same settings, for the same places of the tree. -/
structure MovedConfig (r r' : List Str) (c c' : Config) : Prop where
  dirPath : MovedPath r r' c.dirPath c'.dirPath
  excludes : Pointwise (MovedPath r r') c.excludePrefixes c'.excludePrefixes
  compile : c'.compile = { c.compile with includePaths := c'.compile.includePaths }
  includes : Pointwise (MovedPath r r') c.compile.includePaths c'.compile.includePaths
  packages : Pointwise (fun a b => MovedPath r r' a.1 b.1 ∧ b.2 = a.2) c.dirPathToBasePackage
    c'.dirPathToBasePackage
  lint : c'.lint = { c.lint with ignoreIDToFilePaths := c'.lint.ignoreIDToFilePaths }
  ignores : Pointwise (fun a b => b.1 = a.1 ∧ Pointwise (MovedPath r r') a.2 b.2)
    c.lint.ignoreIDToFilePaths c'.lint.ignoreIDToFilePaths
  break_ : c'.break_ = c.break_
  gen : c'.gen = { c.gen with plugins := c'.gen.plugins }
  plugins : Corresponding (MovedPlugin r r') c.gen.plugins c'.gen.plugins

/-- The same file of the tree, displayed in the same way. -/
structure MovedFile (r r' : List Str) (f f' : ProtoFile) : Prop where
  path : MovedPath r r' f.path f'.path
  displayPath : f'.displayPath = f.displayPath

/-- The same directory of the tree with the same files. -/
structure MovedDir (r r' : List Str) (d d' : Str × List ProtoFile) : Prop where
  path : MovedPath r r' d.1 d'.1
  files : Pointwise (MovedFile r r') d.2 d'.2

/-- The same files of the tree with the same settings. -/
structure MovedSet (r r' : List Str) (ps ps' : ProtoSet) : Prop where
  workDirPath : MovedPath r r' ps.workDirPath ps'.workDirPath
  dirPath : MovedPath r r' ps.dirPath ps'.dirPath
  config : MovedConfig r r' ps.config ps'.config
  dirs : Corresponding (MovedDir r r') ps.dirPathToFiles ps'.dirPathToFiles

/-- Two providers that see the same tree at two places. -/
structure MovedProvider (r r' : List Str) (c c' : Provider) : Prop where
  host : MovedHost r r' c.host c'.host
  develMode : c'.develMode = c.develMode
  configData : c'.configData = c.configData
  tree : ∀ p p', MovedPath r r' p p' → c'.tree p' = c.tree p
  names : ∀ p p', MovedPath r r' p p' → TreeOK (c.tree p)
  top : ∃ entries, c.tree (absPath r) = .dir entries

end Verif.Spec
