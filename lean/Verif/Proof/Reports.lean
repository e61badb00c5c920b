import Verif.Proof.Walks
import Verif.Spec.LintReports

/-! # From visitors to reports -/

namespace Verif.Lint

open Verif Proto Spec

/-- The failure of a linter that cannot be suppressed. -/
theorem report_plain {l : Linter} (p : Position) (msg : List Str) :
    (addFailure p msg).filterMap l.report =
      [{ newFailure p msg.flatten with lintID := l.id }] := by
  have h : ∀ c, l.allowSuppression none = c → c = false := by
    intro c hc; rw [← hc]; unfold Linter.allowSuppression; simp
  have h' : l.allowSuppression none = false := h _ rfl
  simp [addFailure, Linter.report, Linter.isSuppressed, h']

/-- If the events of a linter are these, so are its reports. -/
theorem reports_of {l : Linter} {ok : FileDescriptor → Prop} {out : FileDescriptor → List Event}
    {places : FileDescriptor → List Position}
    (h : ∀ dirPath ds, (∀ d ∈ ds, ok d) →
      ∃ evs, l.addCheck dirPath ds = (evs, none) ∧ evs.Perm (ds.flatMap out))
    (hp : ∀ d, ok d → ∀ ev ∈ out d, ev.isPanic = false)
    (hpl : ∀ d, ok d → (((out d).filterMap l.report).map place).Perm (places d)) :
    ReportsOn ok l places := by
  intro dirPath ds hok
  obtain ⟨evs, h1, h2⟩ := h dirPath ds hok
  refine ⟨evs.filterMap l.report, ?_, ?_, ?_⟩
  · unfold Linter.check
    dsimp only
    rw [h1]
    dsimp only
    rw [if_neg]
    rw [Bool.not_eq_true, List.any_eq_false]
    intro ev hev
    rw [h2.mem_iff] at hev
    obtain ⟨d, hmem, hd⟩ := List.mem_flatMap.1 hev
    simp [hp d (hok d hmem) ev hd]
  · refine ((h2.filterMap _).map _).trans ?_
    clear h1 h2
    induction ds with
    | nil => exact .refl _
    | cons d ds ih =>
      rw [List.flatMap_cons, List.flatMap_cons, List.filterMap_append, List.map_append]
      exact (hpl d (hok d List.mem_cons_self)).append
        (ih fun d hd => hok d (List.mem_cons_of_mem _ hd))
  · intro f hf
    obtain ⟨ev, _, hev⟩ := List.mem_filterMap.1 hf
    unfold Linter.report at hev
    cases ev with
    | panic => cases hev
    | add a b c =>
      dsimp only at hev
      split at hev
      · cases hev
      · cases hev; rfl

/-! ## Events that are failures at given places -/

/-- Reported by the linter, the events are failures at these places. -/
structure At (l : Linter) (evs : List Event) (ps : List Position) : Prop where
  places : (evs.filterMap l.report).map place = ps
  noPanic : ∀ ev ∈ evs, ev.isPanic = false

theorem At.nil {l : Linter} : At l [] [] := ⟨rfl, fun _ h => nomatch h⟩

theorem At.fail {l : Linter} (p : Position) (msg : List Str) : At l (addFailure p msg) [p] :=
  ⟨by rw [report_plain]; rfl, fun ev h => by rw [List.mem_singleton.1 h]; rfl⟩

theorem At.append {l : Linter} {e1 e2 : List Event} {p1 p2 : List Position} (h1 : At l e1 p1)
    (h2 : At l e2 p2) : At l (e1 ++ e2) (p1 ++ p2) :=
  ⟨by rw [List.filterMap_append, List.map_append, h1.places, h2.places],
    fun ev h => (List.mem_append.1 h).elim (h1.noPanic ev) (h2.noPanic ev)⟩

theorem At.ite {l : Linter} {c b : Prop} [Decidable c] [Decidable b] {e1 e2 : List Event}
    {p1 p2 : List Position} (h : c ↔ b) (h1 : At l e1 p1) (h2 : At l e2 p2) :
    At l (if c then e1 else e2) (if b then p1 else p2) := by
  by_cases hc : c
  · rw [if_pos hc, if_pos (h.1 hc)]; exact h1
  · rw [if_neg hc, if_neg fun hb => hc (h.2 hb)]; exact h2

theorem At.flatMap {l : Linter} {α : Type} {e : α → List Event} {p : α → List Position}
    (xs : List α) (h : ∀ a ∈ xs, At l (e a) (p a)) : At l (xs.flatMap e) (xs.flatMap p) := by
  induction xs with
  | nil => exact .nil
  | cons a xs ih =>
    rw [List.flatMap_cons, List.flatMap_cons]
    exact (h a List.mem_cons_self).append (ih fun a ha => h a (List.mem_cons_of_mem _ ha))

/-- The common case: a failure under a condition. -/
theorem At.iff {l : Linter} {c b : Prop} [Decidable c] [Decidable b] {p : Position}
    {msg : List Str} (h : c ↔ b) :
    At l (if c then addFailure p msg else []) (if b then [p] else []) :=
  .ite h (.fail p msg) .nil

/-- The same with two conditions. -/
theorem At.and {l : Linter} {c c' b b' : Prop} [Decidable c] [Decidable c'] [Decidable b]
    [Decidable b'] {p : Position} {msg : List Str} (h : c ↔ b) (h' : c' ↔ b') :
    At l (if c then if c' then addFailure p msg else [] else []) (if b ∧ b' then [p] else []) := by
  by_cases hc : c
  · rw [if_pos hc]
    have : (if b ∧ b' then [p] else []) = if b' then [p] else [] := by simp [h.1 hc]
    rw [this]
    exact .iff h'
  · rw [if_neg hc, if_neg fun hb => hc (h.2 hb.1)]
    exact .nil

/-- The same with an exception. -/
theorem At.unless {l : Linter} {x : Bool} {c b : Prop} [Decidable c] [Decidable b] {p : Position}
    {msg : List Str} (h : c ↔ b) :
    At l (if x = true then [] else if c then addFailure p msg else [])
      (if x = false ∧ b then [p] else []) := by
  cases x with
  | true => exact .nil
  | false =>
    have : (if (false = false ∧ b) then [p] else []) = if b then [p] else [] := by simp
    rw [this]
    exact .iff h

/-! ## Runs of readers -/

theorem reports_readerOn {S : Type} {good : Node → Prop} {l : Linter} {v : Visitor S} {s0 : S}
    {ok : FileDescriptor → Prop} (hl : l.addCheck = visitWith v s0)
    {I : S → Prop} {st : FileDescriptor → List Element → S}
    {own : FileDescriptor → Node → List Event} {start fin : FileDescriptor → List Event}
    {descend : Element → Bool} (h : ∀ d, ReaderOn good v (st d) (own d) descend)
    (hgood : ∀ d, ok d → ∀ n ∈ fileNodes d, good n)
    (h0 : I s0) (hstart : ∀ d s, I s → v.onStart d s = (st d [], start d))
    (hfin : ∀ d, ok d → ∃ s', v.finally_ (st d []) = (s', fin d, none) ∧ I s')
    {at_ : FileDescriptor → Node → List Position} {ps pf : FileDescriptor → List Position}
    (has : ∀ d, ok d → At l (start d) (ps d)) (haf : ∀ d, ok d → At l (fin d) (pf d))
    (ha : ∀ d, ok d → ∀ n ∈ inside descend d, At l (own d n) (at_ d n)) :
    ReportsOn ok l fun d => ps d ++ (inside descend d).flatMap (at_ d) ++ pf d := by
  have key : ∀ d, ok d → At l (start d ++ (inside descend d).flatMap (own d) ++ fin d)
      (ps d ++ (inside descend d).flatMap (at_ d) ++ pf d) := fun d hd =>
    ((has d hd).append (.flatMap _ fun n hn => ha d hd n hn)).append
      (haf d hd)
  refine reports_of (fun dirPath ds hok => ?_) (fun d hd => (key d hd).noPanic)
    fun d hd => .of_eq (key d hd).places
  rw [hl]
  exact ReaderOn.run hgood h hstart hfin ds hok s0 h0

theorem reports_reader {S : Type} {l : Linter} {v : Visitor S} {s0 : S}
    {ok : FileDescriptor → Prop} (hl : l.addCheck = visitWith v s0)
    {I : S → Prop} {st : FileDescriptor → List Element → S}
    {own : FileDescriptor → Node → List Event} {start fin : FileDescriptor → List Event}
    {descend : Element → Bool} (h : ∀ d, Reader v (st d) (own d) descend)
    (h0 : I s0) (hstart : ∀ d s, I s → v.onStart d s = (st d [], start d))
    (hfin : ∀ d, ok d → ∃ s', v.finally_ (st d []) = (s', fin d, none) ∧ I s')
    {at_ : FileDescriptor → Node → List Position} {ps pf : FileDescriptor → List Position}
    (has : ∀ d, ok d → At l (start d) (ps d)) (haf : ∀ d, ok d → At l (fin d) (pf d))
    (ha : ∀ d, ok d → ∀ n ∈ fileNodes d, At l (own d n) (at_ d n)) :
    ReportsOn ok l fun d => ps d ++ (inside descend d).flatMap (at_ d) ++ pf d :=
  reports_readerOn hl h (fun _ _ _ _ => trivial) h0 hstart hfin has haf
    fun d hd n hn => ha d hd n (List.mem_filter.1 hn).1

theorem reports_steps {S : Type} {l : Linter} {v : Visitor S} {s0 : S}
    {ok : FileDescriptor → Prop} (hl : l.addCheck = visitWith v s0)
    {step : Node → Act S} {st : FileDescriptor → S} {fin : FileDescriptor → List Event}
    {descend : Element → Bool} (h : Steps v step descend)
    (hstart : ∀ d s, v.onStart d s = (st d, []))
    (hfin : ∀ d, ok d →
      ∃ s', v.finally_ (steps step (inside descend d) (st d)).1 = (s', fin d, none))
    {ps : FileDescriptor → List Position}
    (ha : ∀ d, ok d → At l ((steps step (inside descend d) (st d)).2 ++ fin d) (ps d)) :
    ReportsOn ok l ps := by
  refine reports_of (fun dirPath ds hok => ?_) (fun d hd => (ha d hd).noPanic)
    fun d hd => .of_eq (ha d hd).places
  rw [hl]
  exact Steps.run h hstart hfin ds hok s0

/-! ## Rules without state -/

/-- What a visitor yields at a node itself. -/
def own (v : Visitor Unit) (n : Node) : List Event :=
  (visit v (parentOf n.around) Act.skip n.self ()).2

theorem reports_unitOn {v : Visitor Unit} {id : Str} {descend : Element → Bool}
    {ok : FileDescriptor → Prop} {own : Node → List Event} {at_ : Node → List Position}
    (hs : v.onStart = fun _ => Act.skip) (hf : v.finally_ = fun s => (s, [], none))
    (h : ∀ around e k, visit v (parentOf around) k e =
        (bif descend e then (Act.emit (own ⟨around, e⟩)).seq k else Act.emit (own ⟨around, e⟩)) ∨
      visit v (parentOf around) k e =
        (bif descend e then k.seq (Act.emit (own ⟨around, e⟩)) else Act.emit (own ⟨around, e⟩)))
    (hown : ∀ l d, ok d → ∀ n ∈ fileNodes d, At l (own n) (at_ n)) :
    ReportsOn ok (newLinter id purpose (visitWith v ())) fun d => (inside descend d).flatMap at_ := by
  have := reports_reader (l := newLinter id purpose (visitWith v ())) (v := v) (s0 := ()) rfl
    (I := fun _ => True) (st := fun _ _ => ()) (own := fun _ => own)
    (start := fun _ => []) (fin := fun _ => []) (descend := descend)
    (at_ := fun _ => at_) (ps := fun _ => []) (pf := fun _ => [])
    (fun _ => Reader.unit h) trivial (fun d s _ => by rw [hs]; rfl)
    (fun d _ => ⟨(), by rw [hf], trivial⟩) (fun _ _ => .nil) (fun _ _ => .nil)
    (fun d hd n hn => hown _ d hd n hn) (ok := ok)
  simp only [List.nil_append, List.append_nil] at this
  exact this

theorem reports_unit {v : Visitor Unit} {id : Str} {descend : Element → Bool}
    {own : Node → List Event} {at_ : Node → List Position}
    (hs : v.onStart = fun _ => Act.skip) (hf : v.finally_ = fun s => (s, [], none))
    (h : ∀ around e k, visit v (parentOf around) k e =
        (bif descend e then (Act.emit (own ⟨around, e⟩)).seq k else Act.emit (own ⟨around, e⟩)) ∨
      visit v (parentOf around) k e =
        (bif descend e then k.seq (Act.emit (own ⟨around, e⟩)) else Act.emit (own ⟨around, e⟩)))
    (hown : ∀ l around e, At l (own ⟨around, e⟩) (at_ ⟨around, e⟩)) :
    Reports (newLinter id purpose (visitWith v ())) fun d => (inside descend d).flatMap at_ :=
  reports_unitOn hs hf h fun l _ _ n _ => hown l n.around n.self

/-- The places of the bad ones of the things picked. -/
def atOf {α : Type} (pick : Node → Option α) (bad : α → Prop) [DecidablePred bad]
    (pos : α → Position) (n : Node) : List Position :=
  match pick n with
  | some a => if bad a then [pos a] else []
  | none => []

theorem flatMap_atOf {α : Type} (pick : Node → Option α) (bad : α → Prop) [DecidablePred bad]
    (pos : α → Position) (ns : List Node) :
    ns.flatMap (atOf pick bad pos) = ((ns.filterMap pick).filter fun a => bad a).map pos := by
  induction ns with
  | nil => rfl
  | cons n ns ih =>
    rw [List.flatMap_cons, ih]
    cases hp : pick n with
    | none => rw [List.filterMap_cons_none hp]; simp [atOf, hp]
    | some a =>
      rw [List.filterMap_cons_some hp]
      by_cases hb : bad a
      · simp [atOf, hp, hb]
      · simp [atOf, hp, hb]

/-- Rules without state that report each bad element of a kind once. -/
theorem reports_simple {α : Type} {v : Visitor Unit} {id : Str} {descend : Element → Bool}
    {pick : Node → Option α} {bad : α → Prop} [DecidablePred bad] {pos : α → Position}
    (hs : v.onStart = fun _ => Act.skip) (hf : v.finally_ = fun s => (s, [], none))
    (h : ∀ around e k, visit v (parentOf around) k e =
        (bif descend e then (Act.emit (own v ⟨around, e⟩)).seq k else Act.emit (own v ⟨around, e⟩)) ∨
      visit v (parentOf around) k e =
        (bif descend e then k.seq (Act.emit (own v ⟨around, e⟩)) else Act.emit (own v ⟨around, e⟩)))
    (hown : ∀ l around e, At l (own v ⟨around, e⟩) (atOf pick bad pos ⟨around, e⟩)) :
    Reports (newLinter id purpose (visitWith v ())) fun d =>
      (((inside descend d).filterMap pick).filter fun a => bad a).map pos := by
  have := reports_unit (purpose := purpose) (id := id) hs hf h hown
  simpa only [flatMap_atOf] using this

theorem flatMap_pick {α β : Type} (pick : Node → Option α) (many : α → List β) (ns : List Node) :
    (ns.flatMap fun n => (pick n).elim [] many) = (ns.filterMap pick).flatMap many := by
  induction ns with
  | nil => rfl
  | cons n ns ih =>
    rw [List.flatMap_cons, ih]
    cases hp : pick n with
    | none => rw [List.filterMap_cons_none hp]; rfl
    | some a => rw [List.filterMap_cons_some hp]; rfl

theorem flatMap_one {α β : Type} (f : α → β) (l : List α) : (l.flatMap fun a => [f a]) = l.map f := by
  induction l with
  | nil => rfl
  | cons a as ih => rw [List.flatMap_cons, ih]; rfl

/-- Rules without state that report for each thing of a kind a list of places. -/
theorem reports_many {α : Type} {v : Visitor Unit} {id : Str} {descend : Element → Bool}
    {pick : Node → Option α} {many : α → List Position}
    (hs : v.onStart = fun _ => Act.skip) (hf : v.finally_ = fun s => (s, [], none))
    (h : ∀ around e k, visit v (parentOf around) k e =
        (bif descend e then (Act.emit (own v ⟨around, e⟩)).seq k else Act.emit (own v ⟨around, e⟩)) ∨
      visit v (parentOf around) k e =
        (bif descend e then k.seq (Act.emit (own v ⟨around, e⟩)) else Act.emit (own v ⟨around, e⟩)))
    (hown : ∀ l around e, At l (own v ⟨around, e⟩) ((pick ⟨around, e⟩).elim [] many)) :
    Reports (newLinter id purpose (visitWith v ())) fun d =>
      ((inside descend d).filterMap pick).flatMap many := by
  have := reports_unit (purpose := purpose) (id := id) (at_ := fun n => (pick n).elim [] many) hs hf h hown
  simpa only [flatMap_pick] using this

/-- Rules that only look at the beginning of the file. -/
theorem reports_start {v : Visitor Unit} {id : Str} {start : FileDescriptor → List Event}
    {ok : FileDescriptor → Prop} {ps : FileDescriptor → List Position}
    (hs : v.onStart = fun d => Act.emit (start d)) (hf : v.finally_ = fun s => (s, [], none))
    (h : ∀ around e k, visit v (parentOf around) k e = Act.skip)
    (has : ∀ l d, ok d → At l (start d) (ps d)) :
    ReportsOn ok (newLinter id purpose (visitWith v ())) ps := by
  have := reports_reader (l := newLinter id purpose (visitWith v ())) (v := v) (s0 := ()) rfl
    (I := fun _ => True) (st := fun _ _ => ()) (own := fun _ _ => [])
    (start := start) (fin := fun _ => []) (descend := fun _ => false)
    (at_ := fun _ _ => []) (ps := ps) (pf := fun _ => [])
    (fun _ => Reader.unit fun around e k => .inl (h around e k)) trivial
    (fun d s _ => by rw [hs]; rfl)
    (fun d _ => ⟨(), by rw [hf], trivial⟩) (fun d hd => has _ d hd) (fun _ _ => .nil)
    (fun _ _ n _ => .nil) (ok := ok)
  have e : ∀ ns : List Node, (ns.flatMap fun _ => ([] : List Position)) = [] := by
    intro ns; induction ns <;> simp_all
  simp only [List.append_nil, e] at this
  exact this

/-- Proves the shape of a visitor node by node. -/
macro "visitor_shape" : tactic =>
  `(tactic| (intro around e k; cases e <;> first | exact .inl rfl | exact .inr rfl))

/-- Proves what a visitor yields at a node, given that its condition is the right one. -/
macro "visitor_own" h:term : tactic =>
  `(tactic| (intro l around e; cases e <;> first | exact .nil | exact .iff ($h _) | exact .unless ($h _)))

end Verif.Lint
