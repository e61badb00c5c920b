import Verif.Proof.ReadTwice
import Verif.Proof.Walks
import Verif.Props.Create
import Verif.Props.LintDir
import Verif.Props.LintComments
import Verif.Props.LintNames
import Verif.Props.LintOther
import Verif.Props.LintPackage
import Verif.Props.LintSuppress
import Verif.Spec.CreatedLint

/-!
# Lemmas about linting created files
-/

namespace Verif.Created

open Verif Str Proto Spec Lint Format

/-! ## Rules that look at nothing a created file has -/

/-- The only declarations are syntaxes, packages and options. -/
def Flat : Element → Prop
  | .comment _ | .syntax _ | .package _ | .option _ => True
  | _ => False

/-- The rule looks at neither comments, syntaxes, packages nor options. -/
structure Aside {S : Type} (v : Visitor S) : Prop where
  comment : ∀ c, v.comment c = Act.skip
  syntax_ : ∀ c, v.syntax_ c = Act.skip
  package : ∀ c, v.package c = Act.skip
  option : ∀ c, v.option .file c = Act.skip
  start : ∀ d s, (v.onStart d s).2 = []
  finish : ∀ d s, (v.finally_ (v.onStart d s).1).2 = ([], none)

theorem aside_all {S : Type} {v : Visitor S} (h : Aside v) {es : List Element} (hf : ∀ e ∈ es, Flat e) (s : S) :
    acceptAll v .file es s = (s, []) := by
  induction es generalizing s with
  | nil => rw [acceptAll]; rfl
  | cons e es ih =>
    have he : accept v .file e = Act.skip := by
      have := hf e (List.mem_cons_self ..)
      cases e <;> first | cases this | skip
      · rw [accept]; exact h.comment _
      · rw [accept]; exact h.syntax_ _
      · rw [accept]; exact h.package _
      · rw [accept]; exact h.option _
    rw [acceptAll, he]
    show ((acceptAll v .file es s).1, [] ++ (acceptAll v .file es s).2) = _
    rw [ih fun e he => hf e (List.mem_cons_of_mem _ he)]
    rfl

theorem aside_run {S : Type} {v : Visitor S} (h : Aside v) (ds : List FileDescriptor)
    (hf : ∀ d ∈ ds, ∀ e ∈ d.elements, Flat e) (s : S) : (runVisitor v ds s).2 = ([], none) := by
  induction ds generalizing s with
  | nil => rfl
  | cons d ds ih =>
    have hr : ((v.onStart d).seq (acceptAll v .file d.elements)) s = ((v.onStart d s).1, []) := by
      unfold Act.seq
      rw [aside_all h (hf d (List.mem_cons_self ..)), h.start]
      rfl
    unfold runVisitor
    dsimp only
    rw [hr]
    dsimp only
    rw [h.finish d s]
    exact ih (fun d hd => hf d (List.mem_cons_of_mem _ hd)) _

theorem aside_check {S : Type} {v : Visitor S} {s : S} {l : Linter} (hl : l.addCheck = visitWith v s)
    (h : Aside v) (dirPath : Str) (ds : List FileDescriptor) (hf : ∀ d ∈ ds, ∀ e ∈ d.elements, Flat e) :
    l.check dirPath ds = some (.ok []) := by
  unfold Linter.check
  rw [hl]
  unfold visitWith
  rw [aside_run h ds hf]
  rfl

/-- The rules that leave out types of requests and responses go through a map at the end. -/
theorem except_aside {v : Visitor (ExceptState Message)} {o : Order} {handle : Message → List Event}
    (hv : v = messagesExceptVisitor o handle) : Aside v := by
  subst hv
  refine ⟨fun _ => rfl, fun _ => rfl, fun _ => rfl, fun _ => rfl, fun _ _ => rfl, fun _ _ => ?_⟩
  show (((o.ord [s%"MESSAGES_EXCEPT"] ([] : GoMap Str Message)).flatMap _ : List Event), none) = _
  rw [List.perm_nil.1 (o.perm _ _)]
  rfl

/-! ## From what a rule reports -/

theorem silent_on {ok : FileDescriptor → Prop} {l : Linter} {places : FileDescriptor → List Position}
    (hr : ReportsOn ok l places) (dirPath : Str) {ds : List FileDescriptor} (hok : ∀ d ∈ ds, ok d) :
    l.check dirPath ds = some (.ok []) ↔ ∀ d ∈ ds, places d = [] := by
  obtain ⟨fs, hc, hp, _⟩ := hr dirPath ds hok
  rw [hc, ← List.flatMap_eq_nil_iff]
  refine ⟨fun h => ?_, fun h => ?_⟩
  · cases h
    exact List.nil_perm.1 hp
  · rw [h] at hp
    rw [List.map_eq_nil_iff.1 (List.perm_nil.1 hp)]

theorem silent {l : Linter} {places : FileDescriptor → List Position}
    (hr : Reports l places) (dirPath : Str) (ds : List FileDescriptor) :
    l.check dirPath ds = some (.ok []) ↔ ∀ d ∈ ds, places d = [] :=
  silent_on hr dirPath fun _ _ => trivial

/-! ## What is in a created file -/

theorem flat_bare {e : Element} (h : Flat (bare e)) : Flat e := by
  cases e <;> first | trivial | (unfold bare at h; exact h)

theorem flat_of_bareAll {es : List Element} (h : ∀ e ∈ bareAll es, Flat e) : ∀ e ∈ es, Flat e := by
  induction es with
  | nil => exact fun e he => nomatch he
  | cons e es ih =>
    intro x hx
    cases hc : isComment e with
    | true =>
      cases e <;> first | cases hc | skip
      rw [bareAll] at h
      rcases List.mem_cons.1 hx with rfl | hx
      · trivial
      · exact ih h x hx
    | false =>
      rw [bareAll_cons hc] at h
      rcases List.mem_cons.1 hx with rfl | hx
      · exact flat_bare (h _ (List.mem_cons_self ..))
      · exact ih (fun y hy => h y (List.mem_cons_of_mem _ hy)) x hx

variable {uber2 : Bool} {path package javaPrefix : Str} {d : FileDescriptor}

theorem flat_created (hd : bareAll d.elements = newFile [] uber2 path package javaPrefix) :
    ∀ e ∈ d.elements, Flat e := by
  refine flat_of_bareAll fun e he => ?_
  rw [hd] at he
  unfold newFile at he
  simp only [List.map_nil, List.nil_append, List.mem_cons, List.mem_map] at he
  rcases he with rfl | rfl | ⟨o, _, rfl⟩ <;> trivial

theorem flat_nodes {es : List Element} (h : ∀ e ∈ es, Flat e) : nodesAll [] es = es.map fun e => ⟨[], e⟩ := by
  induction es with
  | nil => rfl
  | cons e es ih =>
    have he := h e (List.mem_cons_self ..)
    unfold nodesAll
    rw [ih fun e he => h e (List.mem_cons_of_mem _ he), List.map_cons]
    cases e <;> first | (cases he; done) | (unfold nodes; rfl)

theorem created_packages (hd : bareAll d.elements = newFile [] uber2 path package javaPrefix) :
    (packages d).map (·.name) = [package] := by
  have := bare_among (fun | .package p => some p | _ => none) (fun p => { name := p.name })
    (fun _ => rfl) (fun e => by cases e <;> (unfold bare; rfl)) d.elements
  rw [hd] at this
  unfold packages
  rw [inside_nothing, List.filterMap_map]
  have e : (asPackage ∘ fun e => (⟨[], e⟩ : Node)) = fun | .package p => some p | _ => none := by
    funext e; cases e <;> rfl
  rw [e]
  have := congrArg (List.map Package.name) this
  rw [List.map_map] at this
  refine Eq.trans this.symm ?_
  unfold newFile newOptions
  cases uber2 <;> rfl

theorem created_syntaxes (hd : bareAll d.elements = newFile [] uber2 path package javaPrefix) :
    (syntaxes d).map (·.value) = [s%"proto3"] := by
  have := bare_among (fun | .syntax p => some p | _ => none) (fun p => { value := p.value })
    (fun _ => rfl) (fun e => by cases e <;> (unfold bare; rfl)) d.elements
  rw [hd] at this
  unfold syntaxes
  rw [inside_nothing, List.filterMap_map]
  have e : (asSyntax ∘ fun e => (⟨[], e⟩ : Node)) = fun | .syntax p => some p | _ => none := by
    funext e; cases e <;> rfl
  rw [e]
  have := congrArg (List.map Syntax.value) this
  rw [List.map_map] at this
  refine Eq.trans this.symm ?_
  unfold newFile newOptions
  cases uber2 <;> rfl

theorem created_options (hd : bareAll d.elements = newFile [] uber2 path package javaPrefix) :
    (fileOptions d).map bareOption = newOptions uber2 path package javaPrefix := by
  have := bare_among (fun | .option p => some p | _ => none) bareOption
    (fun _ => rfl) (fun e => by cases e <;> (unfold bare; rfl)) d.elements
  rw [hd] at this
  unfold fileOptions
  rw [inside_nothing, List.filterMap_map]
  have e : (asOption ∘ fun e => (⟨[], e⟩ : Node)) = fun | .option p => some p | _ => none := by
    funext e; cases e <;> rfl
  rw [e]
  refine Eq.trans this.symm ?_
  unfold newFile newOptions
  cases uber2 <;> rfl

theorem source_of_bare {l : Literal} {source : Str} {isString : Bool} {quote : Char}
    (h : bareValue l = .mk source isString quote [] []) : l.source = source := by
  obtain ⟨s, b, q, a, m⟩ := l
  unfold bareValue at h
  rcases a with _ | ⟨a, as⟩
  · rcases m with _ | ⟨m, ms⟩
    · cases b <;> (simp only [Literal.plain] at h; first | injection h | skip) <;> first | assumption | skip
      all_goals (simp at h; exact h.1)
    · simp [bareEntries] at h
  · simp [bareList] at h

theorem declares_created (hd : bareAll d.elements = newFile [] uber2 path package javaPrefix)
    {name source : Str} {isString : Bool} {quote : Char}
    (h : (newOptions uber2 path package javaPrefix).filter (fun o => o.name = name) =
      [{ name := name, constant := .mk source isString quote [] [] }]) : Declares d name source := by
  rw [← created_options hd, List.filter_map, List.map_eq_cons_iff] at h
  obtain ⟨o, rest, h1, h2, h3⟩ := h
  rw [List.map_eq_nil_iff.1 h3] at h1
  refine ⟨o, h1, source_of_bare (isString := isString) (quote := quote) ?_⟩
  exact congrArg Opt.constant h2

end Verif.Created
