import Verif.Go.Str

/-!
# Specification: absolute paths

Absolute cleaned paths, described by their components.
-/

namespace Verif.Spec

open Verif

/-- A component of a cleaned path. -/
def Component (c : Str) : Prop := c ≠ [] ∧ '/' ∉ c ∧ c ≠ s%"." ∧ c ≠ s%".."

/-- All of a list are components. -/
def Components (cs : List Str) : Prop := ∀ c ∈ cs, Component c

/-- The absolute path with the given components, outermost first. -/
def absPath (cs : List Str) : Str :=
  match cs with
  | [] => s%"/"
  | _ => cs.flatMap fun c => '/' :: c

/-- An absolute cleaned path. -/
def IsAbsPath (p : Str) : Prop := ∃ cs, Components cs ∧ p = absPath cs

/-- `p` is `d` or lies somewhere below the directory `d`. -/
def Within (p d : Str) : Prop :=
  ∃ cs ds, Components (cs ++ ds) ∧ d = absPath cs ∧ p = absPath (cs ++ ds)

/-- `p` lies somewhere below the directory `d` and is not `d` itself. -/
def Below (p d : Str) : Prop :=
  ∃ cs ds, Components (cs ++ ds) ∧ ds ≠ [] ∧ d = absPath cs ∧ p = absPath (cs ++ ds)

/-- `p` is an entry of the directory `d`. -/
def EntryOf (p d : Str) : Prop :=
  ∃ cs c, Components (cs ++ [c]) ∧ d = absPath cs ∧ p = absPath (cs ++ [c])

end Verif.Spec
