import Verif.Spec.Tree

/-! # How visitors walk -/

namespace Verif.Lint

open Verif Proto Spec

variable {S : Type}

/-- The parent a node sees. -/
def parentOf : List Element → Parent
  | .message m _ :: _ => .message m
  | .enum e _ :: _ => .enum e
  | .enumField f _ :: _ => .enumField f
  | .service s _ :: _ => .service s
  | .rpc r _ :: _ => .rpc r
  | .normalField f :: _ => .field f.field
  | .mapField f :: _ => .field f.field
  | .oneof o _ :: _ => .oneof o
  | .oneofField f :: _ => .field f
  | .group g _ :: _ => .group g
  | _ => .file

/-- The method of the visitor for a node, given the visiting of the children. -/
def visit (v : Visitor S) (p : Parent) (k : Act S) : Element → Act S
  | .comment c => v.comment c
  | .syntax s => v.syntax_ s
  | .package k => v.package k
  | .option o => v.option p o
  | .import i => v.import_ i
  | .message m _ => v.message m k
  | .enum e _ => v.enum e k
  | .enumField f _ => v.enumField p f k
  | .service s _ => v.service s k
  | .rpc r _ => v.rpc r k
  | .normalField f => v.normalField f k
  | .mapField f => v.mapField f k
  | .oneof o _ => v.oneof o k
  | .oneofField f => v.oneofField f k
  | .reserved r => v.reserved r
  | .extensions e => v.extensions e
  | .group g _ => v.group g k

/-- The children of a node. -/
def children : Element → List Element
  | .message _ es => es
  | .enum _ es => es
  | .enumField _ es => es
  | .service _ es => es
  | .rpc _ es => es
  | .oneof _ es => es
  | .group _ es => es
  | .normalField f => f.field.options.map .option
  | .mapField f => f.field.options.map .option
  | .oneofField f => f.options.map .option
  | _ => []

theorem acceptOptions_eq (v : Visitor S) (f : Field) (os : List Opt) :
    acceptOptions v f os = acceptAll v (.field f) (os.map .option) := by
  induction os with
  | nil => rw [List.map_nil]; unfold acceptOptions acceptAll; rfl
  | cons o os ih => rw [List.map_cons]; unfold acceptOptions acceptAll; rw [ih]; unfold accept; rfl

theorem accept_eq (v : Visitor S) (p : Parent) (e : Element) (around : List Element) :
    accept v p e = visit v p (acceptAll v (parentOf (e :: around)) (children e)) e := by
  cases e <;> unfold accept visit <;> simp only [acceptOptions_eq] <;> rfl

theorem nodesAll_options (around : List Element) (os : List Opt) :
    nodesAll around (os.map .option) = os.map fun o => ⟨around, .option o⟩ := by
  induction os with
  | nil => simp [nodesAll]
  | cons o os ih => simp [nodesAll, nodes, ih]

theorem nodes_eq (around : List Element) (e : Element) :
    nodes around e = ⟨around, e⟩ :: nodesAll (e :: around) (children e) := by
  cases e <;> simp [nodes, children, nodesAll_options, nodesAll]

theorem nodesAll_append (around : List Element) (l l' : List Element) :
    nodesAll around (l ++ l') = nodesAll around l ++ nodesAll around l' := by
  induction l with
  | nil => simp [nodesAll]
  | cons e es ih => simp [nodesAll, ih]

mutual

theorem element_ind {P : Element → Prop} (h : ∀ e, (∀ c ∈ children e, P c) → P e) : ∀ e, P e
  | .message m es => h _ (elements_ind h es)
  | .enum e es => h _ (elements_ind h es)
  | .enumField f es => h _ (elements_ind h es)
  | .service s es => h _ (elements_ind h es)
  | .rpc r es => h _ (elements_ind h es)
  | .oneof o es => h _ (elements_ind h es)
  | .group g es => h _ (elements_ind h es)
  | .normalField f => h _ (options_ind h f.field.options)
  | .mapField f => h _ (options_ind h f.field.options)
  | .oneofField f => h _ (options_ind h f.options)
  | .comment c => h _ (fun _ hc => nomatch hc)
  | .syntax s => h _ (fun _ hc => nomatch hc)
  | .package p => h _ (fun _ hc => nomatch hc)
  | .option o => h _ (fun _ hc => nomatch hc)
  | .import i => h _ (fun _ hc => nomatch hc)
  | .reserved r => h _ (fun _ hc => nomatch hc)
  | .extensions e => h _ (fun _ hc => nomatch hc)

theorem elements_ind {P : Element → Prop} (h : ∀ e, (∀ c ∈ children e, P c) → P e) :
    ∀ es : List Element, ∀ c ∈ es, P c
  | [], _, hc => nomatch hc
  | e :: es, c, hc => by
    rcases List.mem_cons.1 hc with hc | hc
    · rw [hc]; exact element_ind h e
    · exact elements_ind h es c hc

theorem options_ind {P : Element → Prop} (h : ∀ e, (∀ c ∈ children e, P c) → P e) :
    ∀ os : List Opt, ∀ c ∈ os.map Element.option, P c := by
  intro os c hc
  obtain ⟨o, _, rfl⟩ := List.mem_map.1 hc
  exact h _ (fun _ hc => nomatch hc)

end

end Verif.Lint
