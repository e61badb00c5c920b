import Verif.Spec.SameInDir
import Verif.Spec.Suppression
import Verif.Spec.Discovery
import Verif.Model.LintRun

/-! # Specification: a lint run and the ignores of its configuration -/

namespace Verif.Spec

open Verif Proto Lint

/-- Everything in the file is said to be in this file. -/
def Placed (d : FileDescriptor) : Prop :=
  ∀ n ∈ fileNodes d, (positionOf n.self).filename = d.filename ∧
    ∀ c ∈ inlineCommentOf n.self, c.position.filename = d.filename

/-- What can be taken for granted of a file that was parsed. -/
structure Parsed (d : FileDescriptor) : Prop where
  grammar : Grammatical d
  placed : Placed d
  proto : s%".proto" <:+ d.filename

/-- No option of the file or of a service begins with `(.google.api.http)`. -/
def NoOuterHTTP (d : FileDescriptor) : Prop :=
  ∀ o ∈ outerOptions d, ¬ s%"(.google.api.http)" <+: o.name

instance (d : FileDescriptor) : Decidable (NoOuterHTTP d) := by unfold NoOuterHTTP; infer_instance

/-- The rule that forbids such options on RPCs. -/
def httpRule : Str := s%"RPC_OPTIONS_NO_GOOGLE_API_HTTP"

/-- The rules that compare the files of a directory. -/
def directoryRules : List Str :=
  [s%"PACKAGES_SAME_IN_DIR", s%"FILE_OPTIONS_CSHARP_NAMESPACE_SAME_IN_DIR",
   s%"FILE_OPTIONS_GO_PACKAGE_SAME_IN_DIR", s%"FILE_OPTIONS_JAVA_MULTIPLE_FILES_SAME_IN_DIR",
   s%"FILE_OPTIONS_JAVA_PACKAGE_SAME_IN_DIR", s%"FILE_OPTIONS_OBJC_CLASS_PREFIX_SAME_IN_DIR",
   s%"FILE_OPTIONS_PHP_NAMESPACE_SAME_IN_DIR"]

/-! ## Runs -/

/-- The file with this name in the output lies at this path. -/
def LiesAt (host : Host) (filename path : Str) : Prop :=
  if Path.isAbs filename then path = filename else host.abs filename = .ok path

/-- The name of a file in the output. -/
def nameIn (absolutePaths : Bool) (f : File.ProtoFile) : Str :=
  if absolutePaths then f.path else f.displayPath

/-- What can be taken for granted of a run: the parser yields files that keep to the grammar
and say correctly where everything is, and the files are proto files in the directory of the
configuration. -/
structure Sound (host : Host) (ps : File.ProtoSet) (absolutePaths : Bool) : Prop where
  parse : ∀ path filename elements data, host.parse path filename = .ok (elements, data) →
    ∀ config, Grammatical ⟨filename, elements, config, data⟩ ∧
      Placed ⟨filename, elements, config, data⟩
  files : ∀ p ∈ ps.dirPathToFiles, ∀ f ∈ p.2, s%".proto" <:+ nameIn absolutePaths f ∧
    ∃ path, LiesAt host (nameIn absolutePaths f) path ∧ Below path ps.config.dirPath

/-- The same files under a configuration with other ignores. -/
def ignoring (ignores : GoMap Str (List Str)) (ps : File.ProtoSet) : File.ProtoSet :=
  { ps with config := { ps.config with
      lint := { ps.config.lint with ignoreIDToFilePaths := ignores } } }

/-- The file is ignored for the rule: it, or a directory above it that is below the directory
of the configuration, is listed for the rule. -/
def IgnoredFor (host : Host) (configDir : Str) (ignores : GoMap Str (List Str))
    (rule filename : Str) : Prop :=
  ∃ paths path, GoMap.get? ignores rule = some paths ∧ LiesAt host filename path ∧
    ExcludedBy path configDir paths

/-- The failure is ignored. -/
def Ignored (host : Host) (configDir : Str) (ignores : GoMap Str (List Str)) (f : Text.Failure) :
    Prop :=
  IgnoredFor host configDir ignores f.lintID f.filename

open Classical in
/-- The same run without the files that are ignored for the rule. -/
noncomputable def without (host : Host) (ignores : GoMap Str (List Str)) (rule : Str)
    (absolutePaths : Bool) (ps : File.ProtoSet) : File.ProtoSet :=
  { ps with dirPathToFiles := ps.dirPathToFiles.map fun p => (p.1, p.2.filter fun f =>
      decide (¬ IgnoredFor host ps.config.dirPath ignores rule (nameIn absolutePaths f))) }

/-- The files of the run: those in the directories the run is restricted to. -/
def filesOf (ps : File.ProtoSet) : List File.ProtoFile :=
  (ps.dirPathToFiles.filter fun p => ps.dirPath.isPrefixOf p.1).flatMap (·.2)

end Verif.Spec
