import Verif.Spec.Reflection

/-!
# Moving definitions around

Changes to descriptor sets that keep every definition: reordering inside messages,
enums and services, and redistributing definitions over the files of a package.
-/

namespace Verif.Spec

open Verif Descriptor Reflect

/-- The values are listed in another order; no two values share a number. -/
inductive EnumReordered : Enum → Enum → Prop
  | values {name vs vs'} : (vs.map (·.number)).Nodup → vs.Perm vs' → EnumReordered ⟨name, vs⟩ ⟨name, vs'⟩

/-- The methods are listed in another order. -/
inductive ServiceReordered : ServiceDesc → ServiceDesc → Prop
  | methods {name ms ms'} : (ms.map (·.name)).Nodup → ms.Perm ms' → ServiceReordered ⟨name, ms⟩ ⟨name, ms'⟩

/-- The field with its oneof declared at another place. -/
def reindex (place : Nat → Nat) (f : FieldDesc) : FieldDesc :=
  { f with oneofIndex := f.oneofIndex.map place }

/-- The definitions in the message, at any depth, are listed in another order. -/
inductive MessageReordered : MessageDesc → MessageDesc → Prop
  | refl {d} : MessageReordered d d
  | trans {a b c} : MessageReordered a b → MessageReordered b c → MessageReordered a c
  | nested {name ns ns' es fs os} : (ns.map MessageDesc.name).Nodup → ns.Perm ns' →
      MessageReordered (.mk name ns es fs os) (.mk name ns' es fs os)
  | enums {name ns es es' fs os} : (es.map (·.name)).Nodup → es.Perm es' →
      MessageReordered (.mk name ns es fs os) (.mk name ns es' fs os)
  | fields {name ns es fs fs' os} : (fs.map (·.number)).Nodup → fs.Perm fs' →
      MessageReordered (.mk name ns es fs os) (.mk name ns es fs' os)
  | oneofs {name ns es fs os os'} (place : Nat → Nat) : os.Perm os' →
      (∀ i : Nat, os'[place i]? = os[i]?) →
      MessageReordered (.mk name ns es fs os) (.mk name ns es (fs.map (reindex place)) os')
  | in_nested {name before a b after es fs os} : MessageReordered a b →
      MessageReordered (.mk name (before ++ a :: after) es fs os) (.mk name (before ++ b :: after) es fs os)
  | in_enum {name ns before a b after fs os} : EnumReordered a b →
      MessageReordered (.mk name ns (before ++ a :: after) fs os) (.mk name ns (before ++ b :: after) fs os)

/-- The same definitions up to their order and to reorderings inside each. -/
inductive Rearranged {α : Type} (R : α → α → Prop) : List α → List α → Prop
  | perm {l l'} : l.Perm l' → Rearranged R l l'
  | edit {before a b after} : R a b → Rearranged R (before ++ a :: after) (before ++ b :: after)
  | trans {a b c} : Rearranged R a b → Rearranged R b c → Rearranged R a c

/-- A file of the first package imports a file of the second. -/
def Imports (all : List FileDesc) (k q : Str) : Prop :=
  ∃ f ∈ all, f.package = k ∧ ∃ d ∈ f.dependency, ∃ g ∈ all, g.name = d ∧ g.package = q

/-- Each package has the same definitions and imports the same other packages; files
may be renamed, split and joined. -/
structure Redistributed (all all' : List FileDesc) : Prop where
  packages : ∀ k, (∃ f ∈ all, f.package = k) ↔ ∃ f ∈ all', f.package = k
  imports : ∀ k q, q ≠ k → (Imports all k q ↔ Imports all' k q)
  enums : ∀ k files files', FilesOf all k files → FilesOf all' k files' →
    Rearranged EnumReordered (files.flatMap (·.enums)) (files'.flatMap (·.enums))
  messages : ∀ k files files', FilesOf all k files → FilesOf all' k files' →
    Rearranged MessageReordered (files.flatMap (·.messages)) (files'.flatMap (·.messages))
  services : ∀ k files files', FilesOf all k files → FilesOf all' k files' →
    Rearranged ServiceReordered (files.flatMap (·.services)) (files'.flatMap (·.services))

mutual
/-- What protoc ensures of a message, at every depth. -/
def MessageValid : MessageDesc → Prop
  | .mk _ nested enums fields _ =>
    (nested.map MessageDesc.name).Nodup ∧ (enums.map (·.name)).Nodup ∧ (fields.map (·.number)).Nodup ∧
    (∀ f ∈ fields, (1 ≤ f.label ∧ f.label ≤ 3) ∧ (1 ≤ f.type ∧ f.type ≤ 18) ∧
      (NamesType f.type → f.typeName.drop 1 ≠ [])) ∧
    MessagesValid nested
/-- `MessageValid` for all messages. -/
def MessagesValid : List MessageDesc → Prop
  | [] => True
  | d :: ds => MessageValid d ∧ MessagesValid ds
end

/-- What protoc ensures of the files it compiles (together with all imports). -/
structure DescriptorsOK (all : List FileDesc) : Prop where
  reflectable : Reflectable all
  names : DistinctNames all
  messages : ∀ f ∈ all, MessagesValid f.messages
  methods : ∀ f ∈ all, ∀ s ∈ f.services, (s.methods.map (·.name)).Nodup

end Verif.Spec
