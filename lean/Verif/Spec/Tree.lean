import Verif.Model.Visitor

/-!
# Specification: the nodes of a file

A plain listing of the syntax tree, to say what the linters look at without
mentioning how they walk.
-/

namespace Verif.Spec

open Verif Proto Lint

/-- A node and the nodes around it, the innermost first. -/
structure Node where
  around : List Element
  self : Element

mutual

/-- A node that is inside `around` and all nodes in it. The options of a field are nodes in
the field. -/
def nodes (around : List Element) : Element → List Node
  | .message m es => ⟨around, .message m es⟩ :: nodesAll (.message m es :: around) es
  | .enum e es => ⟨around, .enum e es⟩ :: nodesAll (.enum e es :: around) es
  | .enumField f es => ⟨around, .enumField f es⟩ :: nodesAll (.enumField f es :: around) es
  | .service s es => ⟨around, .service s es⟩ :: nodesAll (.service s es :: around) es
  | .rpc r es => ⟨around, .rpc r es⟩ :: nodesAll (.rpc r es :: around) es
  | .oneof o es => ⟨around, .oneof o es⟩ :: nodesAll (.oneof o es :: around) es
  | .group g es => ⟨around, .group g es⟩ :: nodesAll (.group g es :: around) es
  | .normalField f => ⟨around, .normalField f⟩ ::
      f.field.options.map fun o => ⟨.normalField f :: around, .option o⟩
  | .mapField f => ⟨around, .mapField f⟩ ::
      f.field.options.map fun o => ⟨.mapField f :: around, .option o⟩
  | .oneofField f => ⟨around, .oneofField f⟩ ::
      f.options.map fun o => ⟨.oneofField f :: around, .option o⟩
  | .comment c => [⟨around, .comment c⟩]
  | .syntax s => [⟨around, .syntax s⟩]
  | .package p => [⟨around, .package p⟩]
  | .option o => [⟨around, .option o⟩]
  | .import i => [⟨around, .import i⟩]
  | .reserved r => [⟨around, .reserved r⟩]
  | .extensions e => [⟨around, .extensions e⟩]

/-- The nodes in a list of elements. -/
def nodesAll (around : List Element) : List Element → List Node
  | [] => []
  | e :: es => nodes around e ++ nodesAll around es

end

/-- All nodes of a file. -/
def fileNodes (d : FileDescriptor) : List Node := nodesAll [] d.elements

/-! ## Kinds of nodes -/

def isMessage : Element → Bool
  | .message _ _ => true
  | _ => false

def isEnum : Element → Bool
  | .enum _ _ => true
  | _ => false

def isOneof : Element → Bool
  | .oneof _ _ => true
  | _ => false

def isService : Element → Bool
  | .service _ _ => true
  | _ => false

def isRPC : Element → Bool
  | .rpc _ _ => true
  | _ => false

def isGroup : Element → Bool
  | .group _ _ => true
  | _ => false

/-- The nodes all of whose surrounding nodes are of the given kind. -/
def inside (kind : Element → Bool) (d : FileDescriptor) : List Node :=
  (fileNodes d).filter fun n => n.around.all kind

end Verif.Spec
