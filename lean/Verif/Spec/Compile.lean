import Verif.Model.CompileRun
import Verif.Spec.Path

/-!
# What the compiler is meant to do

Terms for the theorems about `Compile`: the verdict, the lines of protoc, the import
modifiers.
-/

namespace Verif.Spec

open Verif Str Path File Settings Text Protoc

/-! ## Verdicts -/

/-- Both are errors, or both are the same result. -/
def SameVerdict (r r' : Except Err CompileResult) : Prop :=
  match r, r' with
  | .error _, .error _ => True
  | .ok x, .ok y => x = y
  | _, _ => False

/-- `ioutil.TempFile` makes a file that was not there and has a name. -/
def FreshTemp (env : Env) : Prop :=
  ∀ live p, env.tempFile live = .ok p → p ≠ [] ∧ p ∉ live

/-! ## Lines of protoc -/

/-- A line a plugin caused: it starts with the flag of the plugin, or reports its status. -/
def PluginLine (line : Str) : Prop :=
  (∃ a b, line = s%"--" ++ a ++ s%"_out: " ++ b) ∨
  (∃ a b name status c, line = a ++ s%"--" ++ b ++ s%"_out: protoc-gen-" ++ name ++
    s%": Plugin failed with status code " ++ status ++ [c])

/-- A line about a file without a syntax. -/
def NoSyntaxLine (line : Str) : Prop :=
  ∃ a file b, line = a ++ s%"No syntax specified for the proto file: " ++ file ++
    s%". Please use" ++ b

/-- A decimal number. -/
def Number (s : Str) : Prop := s ≠ [] ∧ ∀ c ∈ s, isDigit c = true

/-- A line about an unused import, in the wording of protoc before 3.11.0 or after. -/
def UnusedImportLine (line : Str) : Prop :=
  (∃ a imp c, line = a ++ s%": warning: Import " ++ imp ++ s%" but not used" ++ [c]) ∨
  (∃ file l col imp c, Number l ∧ Number col ∧
    line = file ++ s%":" ++ l ++ s%":" ++ col ++ s%": warning: Import " ++ imp ++ s%" is unused" ++ [c])

/-- A line about a file that imports itself. -/
def RecursiveLine (line : Str) : Prop :=
  ∃ a b, line = a ++ s%": File recursively imports itself: " ++ b

/-- The line that protoc writes in addition to the one that says which import was not found. -/
def ImportNotFoundLine (line : Str) : Prop :=
  ∃ a imp c, line = a ++ s%": Import " ++ imp ++ s%" was not found or had errors" ++ [c]

/-- The lines that are ignored. -/
def IgnoredLine (allowUnusedImports : Bool) (line : Str) : Prop :=
  ¬ PluginLine line ∧ (splitChar ':' line).length ≠ 4 ∧ ¬ NoSyntaxLine line ∧
  ((UnusedImportLine line ∧ allowUnusedImports = true) ∨
   (ImportNotFoundLine line ∧ ¬ RecursiveLine line))

/-- The file that protoc means by a name: the display path of the file of the command whose
display path ends with the name, if there is just one, and otherwise the name itself. -/
def fileNamed (files : List ProtoFile) (name : Str) : Str :=
  match files.filter (fun f => hasSuffix f.displayPath name) with
  | [f] => f.displayPath
  | _ => name

/-- The lines of an output that are not blank, without the space around them. -/
def linesOf (output : Str) : List Str :=
  ((splitChar '\n' output).map trimSpace).filter (· ≠ [])

/-- The run of protoc reports nothing: the process was run and ended with status 0, and every
line it wrote is ignored. -/
def Silent (allowUnusedImports : Bool) : Ended → Prop
  | .exited status output => status = none ∧ ∀ line ∈ linesOf output, IgnoredLine allowUnusedImports line
  | _ => False

end Verif.Spec
