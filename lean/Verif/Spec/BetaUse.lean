import Verif.Spec.Reflection

/-!
# Which files use the definitions of which

Stated about file descriptors, without reference to the code.
-/

namespace Verif.Spec

open Verif Descriptor

/-- The message is found among the messages under the path of names. -/
inductive DescAt : List MessageDesc → List Str → MessageDesc → Prop
  | here {ds d} : d ∈ ds → DescAt ds [d.name] d
  | inside {ds d path e} : d ∈ ds → DescAt d.nested path e → DescAt ds (d.name :: path) e

/-- The file refers to the definition with the qualified name: a field, at any depth,
has it as its type, or a method takes or returns it. -/
inductive Refers (f : FileDesc) : Str → Prop
  | field {path d x} : DescAt f.messages path d → x ∈ d.fields → NamesType x.type → Refers f x.typeName
  | request {s m} : s ∈ f.services → m ∈ s.methods → Refers f m.inputType
  | response {s m} : s ∈ f.services → m ∈ s.methods → Refers f m.outputType

/-- The file declares a message or an enum with the qualified name. -/
inductive DeclaresName (g : FileDesc) : Str → Prop
  | message {path d} : DescAt g.messages path d → DeclaresName g ('.' :: fullName g.package path)
  | enum {e} : e ∈ g.enums → DeclaresName g ('.' :: fullName g.package [e.name])
  | nested {path d e} : DescAt g.messages path d → e ∈ d.enums →
      DeclaresName g ('.' :: fullName g.package (path ++ [e.name]))

/-- The first file uses a definition of the second. -/
def UsesFile (f g : FileDesc) : Prop := ∃ name, Refers f name ∧ DeclaresName g name

/-- The second file is the first one or is imported by it, directly or by way of other
imports. -/
inductive Reaches (all : List FileDesc) : FileDesc → FileDesc → Prop
  | refl {f} : Reaches all f f
  | step {f g h} : g ∈ all → g.name ∈ f.dependency → Reaches all g h → Reaches all f h

/-- What protoc ensures: a file uses only definitions of itself and of files it imports
(directly, or by way of public imports). -/
def UsesImported (all : List FileDesc) : Prop :=
  ∀ f ∈ all, ∀ g ∈ all, UsesFile f g → Reaches all f g

end Verif.Spec
