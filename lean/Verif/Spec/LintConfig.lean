import Verif.Spec.LintDoc
import Verif.Model.Settings

/-!
# Specification: which rules a configuration asks for
-/

namespace Verif.Spec

open Verif

/-- The group asked for: the one named, and if none is named `uber1`, unless the default
is switched off. -/
inductive AsksGroup (c : Settings.LintConfig) : Str → Prop
  | named : c.group ≠ [] → AsksGroup c c.group
  | default : c.group = [] → c.noDefault = false → AsksGroup c s%"uber1"
  | off : c.group = [] → c.noDefault = true → AsksGroup c s%"empty"

/-- The rules asked for: (group plus added) minus removed. -/
def AsksRule (c : Settings.LintConfig) (id : Str) : Prop :=
  ((∃ g, AsksGroup c g ∧ DocInGroup g id) ∨ id ∈ c.includeIDs) ∧ id ∉ c.excludeIDs

/-- All names in the configuration exist. -/
structure KnownNames (c : Settings.LintConfig) : Prop where
  group : ∀ g, AsksGroup c g → g ∈ docGroups
  add : ∀ id ∈ c.includeIDs, DocRule id
  remove : ∀ id ∈ c.excludeIDs, DocRule id
  ignores : ∀ p ∈ c.ignoreIDToFilePaths, DocRule p.1

end Verif.Spec
