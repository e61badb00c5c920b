import Verif.Spec.Discovery
import Verif.Spec.Settings

/-!
# Specification: a tree in which nothing is wrong
-/

namespace Verif.Spec

open Verif Path Settings File

/-- No directory has two configuration files. -/
def OneConfigEach (stat : Str → Bool) : Prop :=
  ∀ d p q, ConfigFile stat d p → ConfigFile stat d q → p = q

/-- Every configuration file at or below the directory is accepted. -/
def ConfigsValid (c : Provider) (root : Str) : Prop :=
  ∀ d p, Within d root → ConfigFile c.host.stat d p → ∃ k, getConfig c.sort c.host c.develMode p = .ok k

/-- The file is to be found: it is a `.proto` file of the tree at `root` and is not excluded, by `dataExcludes` if the
configuration is given on the command line. -/
def ToBeFound (c : Provider) (workDirPath root : Str) (dataExcludes : List Str) (p : Str) : Prop :=
  ProtoFileIn root (c.tree root) p ∧ ¬ ExcludedIn (walkConfig c workDirPath root) dataExcludes p

/-- A directory in which no name starts with two dots. -/
def PlainNames (t : Node) : Prop := ∃ entries, t = .dir entries ∧ ∀ e ∈ entries, ¬ s%".." <+: e.1

/-- `p` is below `d`, and the way down does not start with a name that starts with two dots. -/
def PlainlyBelow (p d : Str) : Prop :=
  ∃ cs name rest, Components (cs ++ name :: rest) ∧ d = absPath cs ∧ p = absPath (cs ++ name :: rest) ∧ ¬ s%".." <+: name

end Verif.Spec
