import Verif.Spec.Moved
import Verif.Spec.LintRun

/-!
# Specification: commands in a tree that is moved
-/

namespace Verif.Spec

open Verif Str Path File Exec

/-- The lint runner parses the same file to the same at both places, under the name that is shown. -/
def ParsesMoved (r r' : List Str) (host host' : Lint.Host) : Prop :=
  ∀ p p' name, MovedPath r r' p p' → SameResult (fun a b => b = a) (host.parse p name) (host'.parse p' name)

/-- The files of the tree have the same contents at both places. -/
def MovedDisk (r r' : List Str) (d d' : Disk) : Prop := ∀ p p', MovedPath r r' p p' → d' p' = d p

/-- The same files, the same output and the same writes to files of the tree. -/
structure MovedWorld (r r' : List Str) (w w' : World) : Prop where
  disk : MovedDisk r r' w.disk w'.disk
  out : w'.out = w.out
  writes : Pointwise (fun a b => MovedPath r r' a.1 b.1 ∧ b.2 = a.2) w.writes w'.writes

/-- Started on the same tree at two places, both leave the same files, print the same, and end alike. -/
def MovedRun {α β : Type} (r r' : List Str) (R : α → β → Prop) (m : Run α) (m' : Run β) : Prop :=
  ∀ w w', MovedWorld r r' w w' → MovedWorld r r' (m w).1 (m' w').1 ∧ EndAlike R (m w).2 (m' w').2

/-- The same command in a tree that is moved. -/
abbrev SameMoved (r r' : List Str) (m m' : Run Unit) : Prop := MovedRun r r' (fun _ _ => True) m m'

/-- Both writes work, or both fail and leave the same in the file. -/
def SameWrite (a b : Except (Err × Option Str) Unit) : Prop :=
  match a, b with
  | .ok (), .ok () => True
  | .error (_, left), .error (_, left') => left' = left
  | _, _ => False

/-- A loop over the directories of the tree takes them in the same order at both places. -/
def SameOrder (r r' : List Str) (o o' : Order) (site : Str) (ps ps' : ProtoSet) : Prop :=
  Pointwise (MovedDir r r') (dirsUnder o site ps) (dirsUnder o' site ps')

/-- The same failures, about files that are called by relative paths in the tree, from the directory
`n` levels below its root, and the same descriptors. -/
def SameCompilation (n : Nat) (a b : List Text.Failure × List Descriptor.FileSet) : Prop :=
  b.1 = a.1 ∧ (∀ f ∈ a.1, InTree n f.filename) ∧ b.2.Perm a.2

end Verif.Spec
