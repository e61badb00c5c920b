import Verif.Spec.Discovery
import Verif.Spec.Settings

/-!
# Specification: one more exclude in a configuration
-/

namespace Verif.Spec

open Verif Path Settings File

/-- `c'` is `c` with the path `x` added to the excludes in the configuration file of the directory `d`. The path is
relative, does not go up and is not the directory itself. The excludes were in order before, and the configuration file
is not its own file header. -/
structure AddsExclude (c c' : Provider) (d x : Str) : Prop where
  data : c.configData = []
  stat : c'.host.stat = c.host.stat
  parseYAML : c'.host.parseYAML = c.host.parseYAML
  sort : c'.sort = c.sort
  develMode : c'.develMode = c.develMode
  configData : c'.configData = c.configData
  wd : c'.wd = c.wd
  tree : c'.tree = c.tree
  file : ∃ p, ConfigFile c.host.stat d p
  others : ∀ p, ¬ ConfigFile c.host.stat d p → c'.host.readFile p = c.host.readFile p
  own : ∀ p, ConfigFile c.host.stat d p → ∃ e, getExternalConfig c.host p = .ok e ∧
    getExternalConfig c'.host p = .ok { e with excludes := e.excludes ++ [x] } ∧
    ¬ ConfigFile c.host.stat d (locate d e.fileHeaderPath)
  valid : ∃ es, getExcludePrefixesForDir c.host d = .ok es
  relative : isAbs x = false
  named : x ≠ []
  noUp : s%".." ∉ Str.splitChar '/' x
  proper : locate d x ≠ d

/-- The file is listed in the set for the directory. -/
def Listed (ps : ProtoSet) (dir : Str) (f : ProtoFile) : Prop :=
  ∃ fs, GoMap.get? ps.dirPathToFiles dir = some fs ∧ f ∈ fs

end Verif.Spec
