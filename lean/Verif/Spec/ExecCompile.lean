import Verif.Spec.Compile
import Verif.Spec.CompileArgs
import Verif.Spec.Exec

/-!
# The compiler behind the commands

The commands of internal/exec take the compiler as a parameter. Here that parameter is the model of
internal/protoc, and protoc itself is a function of the files and the command line.
-/

namespace Verif.Spec

open Verif Str File Protoc

/-- What the compiler finds on the system when the files are as given: its environment, the
temporary files there are, and how a run of protoc ends. -/
structure Toolchain where
  env : Exec.Disk → Env
  live : Exec.Disk → List Str
  protoc : Exec.Disk → CmdMeta → Ended

/-- The options the flags of `newCompiler` stand for, internal/exec/runner.go:949-1010. -/
def compilerOptions (flags : Exec.CompileFlags) : Options where
  doGen := flags.doGen
  doFileDescriptorSet := flags.doFileDescriptorSet
  fileDescriptorSetFullControl := flags.fullControl
  fileDescriptorSetIncludeImports := flags.includeImports
  fileDescriptorSetIncludeSourceInfo := flags.includeSourceInfo

/-- `cmds` are the commands for a proto set. -/
def CommandsOf (t : Toolchain) (flags : Exec.CompileFlags) (disk : Exec.Disk) (protoSet : ProtoSet)
    (cmds : List CmdMeta) : Prop :=
  ∃ live, getCmdMetas (t.env disk) (compilerOptions flags) protoSet (t.live disk) = (live, .ok cmds)

/-- The directories for generated files can be made. -/
def DirsOf (t : Toolchain) (flags : Exec.CompileFlags) (disk : Exec.Disk) (protoSet : ProtoSet) : Prop :=
  flags.doGen = true → (makeGenDirs (t.env disk) protoSet).2 = none

/-- Of the result of `Compile` the commands use the failures and the sets. -/
def summary : Except Err CompileResult → Except Err (List Text.Failure × List Descriptor.FileSet)
  | .error e => .error e
  | .ok r => .ok (r.failures, r.fileDescriptorSets.map (·.set))

/-- The commands of `h` compile with the given toolchain, by some schedule. -/
structure Uses (h : Exec.Host) (t : Toolchain) : Prop where
  compile : ∀ flags disk protoSet, ∃ ended live r,
    Protoc.Compiles (t.env disk) (compilerOptions flags) protoSet ended (t.live disk) live r ∧
    (∀ cmds, CommandsOf t flags disk protoSet cmds →
      ∀ i (hi : i < cmds.length), ended i = t.protoc disk cmds[i]) ∧
    h.compile flags disk protoSet = summary r
  protocCommands : ∀ flags disk protoSet, h.protocCommands flags disk protoSet =
    (Protoc.protocCommands (t.env disk) (compilerOptions flags) protoSet (t.live disk)).2

/-- No run of protoc is cut short by a signal to prototool. -/
def Undisturbed (t : Toolchain) (disk : Exec.Disk) : Prop :=
  ∀ cmd, t.protoc disk cmd ≠ .signalled none

/-- protoc has nothing to say about a directory: it is run for the job, with all files of the
directory, ends with status 0 and writes nothing but lines that are ignored. -/
def Accepted (t : Toolchain) (flags : Exec.CompileFlags) (disk : Exec.Disk) (protoSet : ProtoSet)
    (d : Str × List ProtoFile) (j : Job) : Prop :=
  ∃ cmd, CommandFor (t.env disk) (compilerOptions flags) protoSet d j cmd ∧
    Silent protoSet.config.compile.allowUnusedImports (t.protoc disk cmd)

/-- The failures of a run of protoc: those of the lines it wrote. -/
def failuresOf (cmd : CmdMeta) : Ended → List Text.Failure
  | .exited _ output => (linesOf output).filterMap (parseProtocLine cmd)
  | _ => []

/-- The command lines, one to a line. -/
def commandLines (cmds : List CmdMeta) : Str :=
  cmds.flatMap fun cmd => join s%" " (cmd.protocPath :: cmd.args) ++ s%"\n"

/-- protoc was run and, if it did not end with status 0, said something about it. -/
def Tells (allowUnusedImports : Bool) : Ended → Prop
  | .exited status output =>
    status ≠ none → ∃ line ∈ linesOf output, ¬ IgnoredLine allowUnusedImports line
  | _ => False

end Verif.Spec
