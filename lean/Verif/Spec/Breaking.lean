import Verif.Spec.Schema

/-!
# What a compatible change is

The documented rules of `prototool break check` (docs/breaking.md), as a relation
between two schemas.
-/

namespace Verif.Spec

open Verif Reflect

/-- The field is kept: same number, name, label and type. -/
structure FieldKept (f f' : Field) : Prop where
  number : f'.number = f.number
  name : f'.name = f.name
  label : f'.label = f.label
  type : f'.type = f.type
  typeName : NamesType f.type → f'.typeName = f.typeName

/-- All fields are kept, stay in their oneof (or outside any), and all oneofs are kept. -/
structure MessageKept (m m' : Message) : Prop where
  fields : ∀ f ∈ m.fields, ∃ f' ∈ m'.fields, FieldKept f f' ∧ oneofOf m' f.number = oneofOf m f.number
  oneofs : ∀ w ∈ m.oneofs, ∃ w' ∈ m'.oneofs, w'.name = w.name

/-- All numbers are kept and known under the same name. -/
def EnumKept (e e' : Enum) : Prop :=
  ∀ number name, knownAs e number = some name → knownAs e' number = some name

/-- All methods are kept with their request type, response type and streaming flags. -/
def ServiceKept (s s' : Service) : Prop := ∀ m ∈ s.methods, m ∈ s'.methods

/-- Everything in the package is kept. -/
structure PackageKept (p q : Package) : Prop where
  messages : ∀ path m, MessageAt p.messages path m →
    ∃ m', MessageAt q.messages path m' ∧ MessageKept m m'
  enums : ∀ scope e, EnumAt p scope e → ∃ e', EnumAt q scope e' ∧ e'.name = e.name ∧ EnumKept e e'
  services : ∀ s ∈ p.services, ∃ s' ∈ q.services, s'.name = s.name ∧ ServiceKept s s'

/-- Everything in the packages of `old` selected by `scope` is kept in `new`. -/
def Compatible (scope : Str → Prop) (old new : PackageSet) : Prop :=
  ∀ p ∈ old, scope p.name → ∃ q ∈ new, q.name = p.name ∧ PackageKept p q

/-- No stable package depends on a beta package. -/
def NoBetaDependencies (ps : PackageSet) : Prop :=
  ∀ p ∈ ps, ¬ IsBetaPackage p.name → ∀ d ∈ p.dependencyNames, ¬ IsBetaPackage d

/-- The packages that are checked: all of them with `include_beta`, otherwise the
stable ones. -/
def Checked (includeBeta : Bool) (name : Str) : Prop := includeBeta = true ∨ ¬ IsBetaPackage name

end Verif.Spec
