import Verif.Spec.ExecCompile
import Verif.Spec.ExecMore
import Verif.Spec.Redistribution
import Verif.Spec.Reflection

/-!
# Two runs of a command on the same system

Two runs of a command differ in the order in which the maps are iterated, the schedule of the
goroutines and the names of temporary files.
-/

namespace Verif.Spec

open Verif Str Exec File

/-- Both are errors, or both are results that are related. -/
def SameResult {α β : Type} (R : α → β → Prop) (r : Except Err α) (r' : Except Err β) : Prop :=
  match r, r' with
  | .error _, .error _ => True
  | .ok a, .ok b => R a b
  | _, _ => False

/-- The same files and settings; the map of directories may be listed in another order. -/
structure SameSet (ps ps' : ProtoSet) : Prop where
  workDirPath : ps'.workDirPath = ps.workDirPath
  dirPath : ps'.dirPath = ps.dirPath
  config : ps'.config = ps.config
  dirs : ps'.dirPathToFiles.Perm ps.dirPathToFiles

/-- Both end well with related results, or both return the same exit error, or both end with
another error or a crash. The text of other errors may differ. -/
def EndAlike {α β : Type} (R : α → β → Prop) (r : Outcome α) (r' : Outcome β) : Prop :=
  match r, r' with
  | .ok a, .ok b => R a b
  | .error (.exit c m), .error (.exit c' m') => c = c' ∧ m = m'
  | .error (.other _), .error (.other _) | .error (.other _), .crash | .crash, .error (.other _)
  | .crash, .crash => True
  | _, _ => False

/-- From any world, both leave the same files, print the same, and end alike. -/
def RunAlike {α β : Type} (R : α → β → Prop) (r : Run α) (r' : Run β) : Prop :=
  ∀ w, (r' w).1 = (r w).1 ∧ EndAlike R (r w).2 (r' w).2

/-- Two runs of a command that differ in nothing a user would see. -/
abbrev SameRun (r r' : Run Unit) : Prop := RunAlike (fun _ _ => True) r r'

/-- The same proto set and the same single file. -/
def SameMeta (m m' : Meta) : Prop := SameSet m.protoSet m'.protoSet ∧ m'.singleFilename = m.singleFilename

/-- Two runs of the program on the same system: discovery may list the directories in another
order and, for the files of the same directories, compiling gives the same failures and the same
descriptor sets in another order. -/
structure Reordered (h h' : Exec.Host) : Prop where
  same : h' = { h with getForDir := h'.getForDir, compile := h'.compile,
                       protocCommands := h'.protocCommands, generate := h'.generate }
  finds : ∀ w d, SameResult SameSet (h.getForDir w d) (h'.getForDir w d)
  compiles : ∀ flags disk ps ps', SameSet ps ps' →
    SameResult (fun r r' => r'.1 = r.1 ∧ r'.2.Perm r.2) (h.compile flags disk ps) (h'.compile flags disk ps')

/-- The plugins make the same of the same files. -/
def GeneratesAlike (h h' : Exec.Host) : Prop :=
  ∀ disk ps ps', SameSet ps ps' → h'.generate disk ps' = h.generate disk ps

/-- What protoc gives are descriptors as protoc makes them, and different files differ as bytes and
in their sums. -/
def SoundSets (h : Exec.Host) (t : Tools) : Prop :=
  ∀ flags disk ps r, h.compile flags disk ps = .ok r →
    FaithfulOn t.marshal (fun f => f ∈ r.2.flatten) ∧ FaithfulOn t.sum (fun f => f ∈ r.2.flatten) ∧
      DescriptorsOK r.2.flatten

/-- The rest of the system in two runs: the orders of maps may differ, also in discovering the
files of the clone. -/
structure SameTools (t t' : Tools) : Prop where
  same : t' = { t with order := t'.order, treeForDir := t'.treeForDir }
  finds : ∀ w d, SameResult SameSet (t.treeForDir w d) (t'.treeForDir w d)

/-- The same argument, or the same flag for a plugin with the modifiers of each group in another
order. The groups are those for the other files, for the well-known types and for the extra
modifiers of the configuration, and stay in that order. -/
def SameFlag (a a' : Str) : Prop :=
  a' = a ∨ ∃ (name : Str) (first : List Str) (groups groups' : List (List Str)) (out : Str),
    Pointwise (fun g g' => g'.Perm g) groups groups' ∧
    a = s%"--" ++ name ++ s%"_out=" ++ join s%"," (first ++ groups.flatten) ++ s%":" ++ out ∧
    a' = s%"--" ++ name ++ s%"_out=" ++ join s%"," (first ++ groups'.flatten) ++ s%":" ++ out

/-- The same command but for the name of the file to write, or but for the order of modifiers. -/
def SameCommand (cmd cmd' : Protoc.CmdMeta) : Prop :=
  cmd'.protocPath = cmd.protocPath ∧
  ((∃ (includes : List Str) (out out' : Str) (rest : List Str),
      cmd.args = (includes.flatMap fun i => [s%"-I", i]) ++ [s%"-o", out] ++ rest ∧
      cmd'.args = (includes.flatMap fun i => [s%"-I", i]) ++ [s%"-o", out'] ++ rest) ∨
    Pointwise SameFlag cmd.args cmd'.args)

/-- Two runs of the compiler on the same system: the orders of maps, the schedules and the
temporary files that are there may differ. What protoc says depends on the command line but not on
the name of the file it is to write nor on the order of modifiers, and the temporary file of a
command has the descriptor set of its directory. -/
structure SameToolchain (t t' : Toolchain) : Prop where
  env : ∀ disk, t'.env disk = { t.env disk with order := (t'.env disk).order,
                                                tempFile := (t'.env disk).tempFile,
                                                readSet := (t'.env disk).readSet,
                                                numCPU := (t'.env disk).numCPU }
  temp : ∀ disk live live', SameResult (fun p p' => p ≠ [] ∧ p' ≠ []) ((t.env disk).tempFile live)
    ((t'.env disk).tempFile live')
  protoc : ∀ flags disk ps ps' cmds cmds', SameSet ps ps' → CommandsOf t flags disk ps cmds →
    CommandsOf t' flags disk ps' cmds' → ∀ cmd ∈ cmds, ∀ cmd' ∈ cmds', SameCommand cmd cmd' →
    t'.protoc disk cmd' = t.protoc disk cmd
  sets : ∀ flags disk ps ps' cmds cmds', SameSet ps ps' → CommandsOf t flags disk ps cmds →
    CommandsOf t' flags disk ps' cmds' → ∀ cmd ∈ cmds, ∀ cmd' ∈ cmds', cmd'.dirPath = cmd.dirPath →
    cmd.descriptorSetTempFilePath ≠ [] → cmd'.descriptorSetTempFilePath ≠ [] →
    SameResult (fun s s' => s' = s) ((t.env disk).readSet cmd.descriptorSetTempFilePath)
      ((t'.env disk).readSet cmd'.descriptorSetTempFilePath)

/-- Both say the same about each of these files, but perhaps about the files in another order. -/
def SameTexts (files : List ProtoFile) (before out out' : Str) : Prop :=
  ∃ (text : ProtoFile → Str) (l l' : List ProtoFile), l.Perm files ∧ l'.Perm files ∧
    out = before ++ l.flatMap text ∧ out' = before ++ l'.flatMap text

/-- The files in the directories whose path starts with that of the directory asked for. -/
def filesUnder (ps : ProtoSet) : List ProtoFile :=
  (ps.dirPathToFiles.filter fun d => Str.hasPrefix d.1 ps.dirPath).flatMap (·.2)

/-- Two runs of a command end alike. If they end well or with an exit error, they leave the same
files, and they print the same or the same about each of the files found. -/
def AlikeButOrder (h : Exec.Host) (args : List Str) (w : World) (x x' : World × Outcome Unit) : Prop :=
  EndAlike (fun _ _ => True) x.2 x'.2 ∧
  (x.2 = .ok () ∨ (∃ code text, x.2 = .error (.exit code text)) →
    x'.1.disk = x.1.disk ∧
    (x'.1.out = x.1.out ∨
      ∃ m, Finds h args m ∧ SameTexts (filesUnder m.protoSet) w.out x.1.out x'.1.out))

end Verif.Spec
