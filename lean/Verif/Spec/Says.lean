import Verif.Spec.BetaUse
import Verif.Spec.Facts
import Verif.Spec.Redistribution

/-!
# Specification: what files say

The statements of `Spec.Fact`, read off the descriptors of files directly.
-/

namespace Verif.Spec

open Verif Reflect Descriptor

/-- The enum is declared in the file, in the message with the path, or outside of messages if the path is empty. -/
inductive EnumDescAt (f : FileDesc) : List Str → Enum → Prop
  | top {e} : e ∈ f.enums → EnumDescAt f [] e
  | nested {path d e} : DescAt f.messages path d → e ∈ d.enums → EnumDescAt f path e

/-- The file says this. The names of types are without the leading dot. -/
def Fact.saidBy (f : FileDesc) : Fact → Prop
  | .package _ => True
  | .message _ path => ∃ d, DescAt f.messages path d
  | .field _ path number name label type refersTo inOneof =>
    ∃ d, DescAt f.messages path d ∧ ∃ x ∈ d.fields, x.number = number ∧ x.name = name ∧ x.label = label ∧
      x.type = type ∧ (NamesType type → x.typeName.drop 1 = refersTo) ∧ oneofName d.oneofs x = inOneof
  | .oneof _ path name => ∃ d, DescAt f.messages path d ∧ name ∈ d.oneofs
  | .enum _ scope name => ∃ e, EnumDescAt f scope e ∧ e.name = name
  | .value _ scope inEnum number name =>
    ∃ e, EnumDescAt f scope e ∧ e.name = inEnum ∧ ∃ v ∈ e.values, v.number = number ∧ v.name = name
  | .service _ name => ∃ s ∈ f.services, s.name = name
  | .method _ inService m => ∃ s ∈ f.services, s.name = inService ∧ ∃ x ∈ s.methods,
      ⟨x.name, x.inputType.drop 1, x.outputType.drop 1, x.clientStreaming, x.serverStreaming⟩ = m

/-- One of the files says so about its package. -/
def FilesSay (all : List FileDesc) (fact : Fact) : Prop := ∃ f ∈ all, f.package = fact.about ∧ fact.saidBy f

/-- The statement is about an enum value. -/
def IsValue : Fact → Prop
  | .value .. => True
  | _ => False

/-- No enum has two values with the same number. -/
def NoAliasesIn (all : List FileDesc) : Prop :=
  ∀ f ∈ all, ∀ scope e, EnumDescAt f scope e → (e.values.map (·.number)).Nodup

end Verif.Spec
