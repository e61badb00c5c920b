import Verif.Spec.LintConfig
import Verif.Spec.LintRun

/-! # Specification: lint runs of the same files under different configurations -/

namespace Verif.Spec

open Verif Lint

/-- The same files under another configuration. -/
def under (c : Settings.Config) (ps : File.ProtoSet) : File.ProtoSet := { ps with config := c }

/-- The rules whose failures a comment can suppress. -/
def suppressableRules : List Str :=
  [s%"MESSAGE_FIELDS_NOT_FLOATS", s%"NAMES_NO_COMMON", s%"NAMES_NO_DATA", s%"NAMES_NO_UUID", s%"PACKAGE_NO_KEYWORDS",
   s%"RPC_OPTIONS_NO_GOOGLE_API_HTTP", s%"SERVICE_NAMES_NO_PLURALS"]

/-- Two configurations in the same directory say the same of this rule: which files it ignores, and, if the rule
is about it, what file header or what prefix of Java packages to expect and whether comments suppress failures. -/
structure SameFor (rule : Str) (c c' : Settings.Config) : Prop where
  dir : c'.dirPath = c.dirPath
  ignores : GoMap.get? c'.lint.ignoreIDToFilePaths rule = GoMap.get? c.lint.ignoreIDToFilePaths rule
  header : rule = s%"FILE_HEADER" → c'.lint.fileHeader = c.lint.fileHeader
  javaPrefix : rule = s%"FILE_OPTIONS_EQUAL_JAVA_PACKAGE_PREFIX" →
    c'.lint.javaPackagePrefix = c.lint.javaPackagePrefix
  suppression : rule ∈ suppressableRules → c'.lint.allowSuppression = c.lint.allowSuppression

/-- The configuration with this rule and no other. -/
def onlyRule (rule : Str) (c : Settings.Config) : Settings.Config :=
  { c with lint := { c.lint with noDefault := true, group := [], includeIDs := [rule], excludeIDs := [] } }

end Verif.Spec
