import Verif.Spec.Schema

/-!
# Schemas that only grow

`new` is `old` with definitions added, at any place and any nesting depth.
-/

namespace Verif.Spec

open Verif Reflect

/-- `l'` is `l` with every element replaced by one related to it by `Kept`, and new
elements satisfying `New` inserted anywhere. -/
inductive Grows {α : Type} (Kept : α → α → Prop) (New : α → Prop) : List α → List α → Prop
  | nil : Grows Kept New [] []
  | keep {a a' l l'} : Kept a a' → Grows Kept New l l' → Grows Kept New (a :: l) (a' :: l')
  | add {a l l'} : New a → Grows Kept New l l' → Grows Kept New l (a :: l')

/-- Values with unused numbers are added. -/
structure EnumGrows (e e' : Enum) : Prop where
  name : e'.name = e.name
  values : Grows Eq (fun v => ∀ u ∈ e.values, v.number ≠ u.number) e.values e'.values

/-- The number is used by a field. -/
def UsedBy (fields : List Field) (n : Int) : Prop := ∃ f ∈ fields, f.number = n

/-- Numbers not used by the old fields are added. -/
structure OneofGrows (fields : List Field) (w w' : Oneof) : Prop where
  name : w'.name = w.name
  numbers : Grows Eq (fun n => ¬ UsedBy fields n) w.fieldNumbers w'.fieldNumbers

/-- Methods are added. -/
structure ServiceGrows (s s' : Service) : Prop where
  name : s'.name = s.name
  methods : Grows Eq (fun _ => True) s.methods s'.methods

mutual
/-- Nested messages, enums, fields with unused numbers and oneofs for them are added. -/
inductive MessageGrows : Message → Message → Prop
  | mk {name nested nested' enums enums' fields fields' oneofs oneofs'} :
      MessagesGrow nested nested' →
      Grows EnumGrows (fun _ => True) enums enums' →
      Grows Eq (fun f => ¬ UsedBy fields f.number) fields fields' →
      Grows (OneofGrows fields) (fun w => ∀ n ∈ w.fieldNumbers, ¬ UsedBy fields n) oneofs oneofs' →
      MessageGrows (.mk name nested enums fields oneofs) (.mk name nested' enums' fields' oneofs')

/-- Messages are added or grow. -/
inductive MessagesGrow : List Message → List Message → Prop
  | nil : MessagesGrow [] []
  | keep {m m' l l'} : MessageGrows m m' → MessagesGrow l l' → MessagesGrow (m :: l) (m' :: l')
  | add {m l l'} : MessagesGrow l l' → MessagesGrow l (m :: l')
end

/-- Definitions are added; dependencies may change. -/
structure PackageGrows (p q : Package) : Prop where
  name : q.name = p.name
  enums : Grows EnumGrows (fun _ => True) p.enums q.enums
  messages : MessagesGrow p.messages q.messages
  services : Grows ServiceGrows (fun _ => True) p.services q.services

/-- Packages are added or grow. -/
def SchemaGrows (old new : PackageSet) : Prop := Grows PackageGrows (fun _ => True) old new

end Verif.Spec
