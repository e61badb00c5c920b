import Verif.Proof.ReportsTree
import Verif.Proof.ReportsFile
import Verif.Spec.LintSays

/-! # From visitors to the texts of reports

As in Verif/Proof/Reports.lean, with the texts. -/

namespace Verif.Lint

open Verif Proto Spec Str

/-- If the events of a linter are these, so are its reports. -/
theorem says_of {l : Linter} {ok : FileDescriptor → Prop} {out : FileDescriptor → List Event}
    {said : FileDescriptor → List (Position × Str)}
    (h : ∀ dirPath ds, (∀ d ∈ ds, ok d) →
      ∃ evs, l.addCheck dirPath ds = (evs, none) ∧ evs.Perm (ds.flatMap out))
    (hp : ∀ d, ok d → ∀ ev ∈ out d, ev.isPanic = false)
    (hpl : ∀ d, ok d → (((out d).filterMap l.report).map placeAndText).Perm (said d)) :
    SaysOn ok l said := by
  intro dirPath ds hok
  obtain ⟨evs, h1, h2⟩ := h dirPath ds hok
  refine ⟨evs.filterMap l.report, ?_, ?_, ?_⟩
  · unfold Linter.check
    dsimp only
    rw [h1]
    dsimp only
    rw [if_neg]
    rw [Bool.not_eq_true, List.any_eq_false]
    intro ev hev
    rw [h2.mem_iff] at hev
    obtain ⟨d, hmem, hd⟩ := List.mem_flatMap.1 hev
    simp [hp d (hok d hmem) ev hd]
  · refine ((h2.filterMap _).map _).trans ?_
    clear h1 h2
    induction ds with
    | nil => exact .refl _
    | cons d ds ih =>
      rw [List.flatMap_cons, List.flatMap_cons, List.filterMap_append, List.map_append]
      exact (hpl d (hok d List.mem_cons_self)).append
        (ih fun d hd => hok d (List.mem_cons_of_mem _ hd))
  · intro f hf
    obtain ⟨ev, _, hev⟩ := List.mem_filterMap.1 hf
    unfold Linter.report at hev
    cases ev with
    | panic => cases hev
    | add a b c =>
      dsimp only at hev
      split at hev
      · cases hev
      · cases hev; rfl

/-! ## Events that are failures at given places with given texts -/

/-- Reported by the linter, the events are failures at these places with these texts. -/
structure Said (l : Linter) (evs : List Event) (ps : List (Position × Str)) : Prop where
  said : (evs.filterMap l.report).map placeAndText = ps
  noPanic : ∀ ev ∈ evs, ev.isPanic = false

theorem Said.nil {l : Linter} : Said l [] [] := ⟨rfl, fun _ h => nomatch h⟩

theorem Said.fail {l : Linter} (p : Position) (msg : List Str) :
    Said l (addFailure p msg) [(p, text msg)] :=
  ⟨by rw [report_plain]; rfl, fun ev h => by rw [List.mem_singleton.1 h]; rfl⟩

theorem Said.append {l : Linter} {e1 e2 : List Event} {p1 p2 : List (Position × Str)}
    (h1 : Said l e1 p1) (h2 : Said l e2 p2) : Said l (e1 ++ e2) (p1 ++ p2) :=
  ⟨by rw [List.filterMap_append, List.map_append, h1.said, h2.said],
    fun ev h => (List.mem_append.1 h).elim (h1.noPanic ev) (h2.noPanic ev)⟩

theorem Said.ite {l : Linter} {c b : Prop} [Decidable c] [Decidable b] {e1 e2 : List Event}
    {p1 p2 : List (Position × Str)} (h : c ↔ b) (h1 : Said l e1 p1) (h2 : Said l e2 p2) :
    Said l (if c then e1 else e2) (if b then p1 else p2) := by
  by_cases hc : c
  · rw [if_pos hc, if_pos (h.1 hc)]; exact h1
  · rw [if_neg hc, if_neg fun hb => hc (h.2 hb)]; exact h2

theorem Said.flatMap {l : Linter} {α : Type} {e : α → List Event}
    {p : α → List (Position × Str)} (xs : List α) (h : ∀ a ∈ xs, Said l (e a) (p a)) :
    Said l (xs.flatMap e) (xs.flatMap p) := by
  induction xs with
  | nil => exact .nil
  | cons a xs ih =>
    rw [List.flatMap_cons, List.flatMap_cons]
    exact (h a List.mem_cons_self).append (ih fun a ha => h a (List.mem_cons_of_mem _ ha))

/-- The common case: a failure under a condition. -/
theorem Said.iff {l : Linter} {c b : Prop} [Decidable c] [Decidable b] {p : Position}
    {msg : List Str} (h : c ↔ b) :
    Said l (if c then addFailure p msg else []) (if b then [(p, text msg)] else []) :=
  .ite h (.fail p msg) .nil

/-- One of two texts. -/
theorem Said.either {l : Linter} {c b : Prop} [Decidable c] [Decidable b] {p : Position}
    {m1 m2 : List Str} (h : c ↔ b) :
    Said l (if c then addFailure p m1 else addFailure p m2)
      [(p, if b then text m1 else text m2)] := by
  by_cases hc : c
  · rw [if_pos hc, if_pos (h.1 hc)]; exact .fail _ _
  · rw [if_neg hc, if_neg fun hb => hc (h.2 hb)]; exact .fail _ _

/-- The same with two conditions. -/
theorem Said.and {l : Linter} {c c' b b' : Prop} [Decidable c] [Decidable c'] [Decidable b]
    [Decidable b'] {p : Position} {msg : List Str} (h : c ↔ b) (h' : c' ↔ b') :
    Said l (if c then if c' then addFailure p msg else [] else [])
      (if b ∧ b' then [(p, text msg)] else []) := by
  by_cases hc : c
  · rw [if_pos hc]
    have : (if b ∧ b' then [(p, text msg)] else []) = if b' then [(p, text msg)] else [] := by
      simp [h.1 hc]
    rw [this]
    exact .iff h'
  · rw [if_neg hc, if_neg fun hb => hc (h.2 hb.1)]
    exact .nil

/-- The same with an exception. -/
theorem Said.unless {l : Linter} {x : Bool} {c b : Prop} [Decidable c] [Decidable b] {p : Position}
    {msg : List Str} (h : c ↔ b) :
    Said l (if x = true then [] else if c then addFailure p msg else [])
      (if x = false ∧ b then [(p, text msg)] else []) := by
  cases x with
  | true => exact .nil
  | false =>
    have : (if (false = false ∧ b) then [(p, text msg)] else []) =
        if b then [(p, text msg)] else [] := by simp
    rw [this]
    exact .iff h

/-! ## Runs of readers -/

theorem says_reader {S : Type} {l : Linter} {v : Visitor S} {s0 : S}
    {ok : FileDescriptor → Prop} (hl : l.addCheck = visitWith v s0)
    {I : S → Prop} {st : FileDescriptor → List Element → S}
    {own : FileDescriptor → Node → List Event}
    {descend : Element → Bool} (h : ∀ d, Reader v (st d) (own d) descend)
    (h0 : I s0) (hstart : ∀ d s, I s → v.onStart d s = (st d [], []))
    (hfin : ∀ d, ok d → ∃ s', v.finally_ (st d []) = (s', [], none) ∧ I s')
    {at_ : FileDescriptor → Node → List (Position × Str)}
    (ha : ∀ d, ok d → ∀ n ∈ fileNodes d, Said l (own d n) (at_ d n)) :
    SaysOn ok l fun d => (inside descend d).flatMap (at_ d) := by
  have key : ∀ d, ok d → Said l ([] ++ (inside descend d).flatMap (own d) ++ [])
      ((inside descend d).flatMap (at_ d)) := fun d hd => by
    rw [List.nil_append, List.append_nil]
    exact .flatMap _ fun n hn => ha d hd n (List.mem_filter.1 hn).1
  refine says_of (fun dirPath ds hok => ?_) (fun d hd => (key d hd).noPanic)
    fun d hd => .of_eq (key d hd).said
  rw [hl]
  exact ReaderOn.run (fun _ _ _ _ => trivial) h hstart hfin ds hok s0 h0

/-- A rule that looks only at things of one kind, with a fresh state for each file. -/
theorem says_acts {S : Type} {α : Type} {l : Linter} {v : Visitor S} {s0 : S}
    {ok : FileDescriptor → Prop} (hl : l.addCheck = visitWith v s0)
    {pick : Node → Option α} {f : α → Act S} {st : FileDescriptor → S}
    {fin : FileDescriptor → List Event} {descend : Element → Bool}
    (h : Steps v (onPick pick f) descend)
    (hstart : ∀ d s, v.onStart d s = (st d, []))
    (hfin : ∀ d, ok d →
      ∃ s', v.finally_ (acts f ((inside descend d).filterMap pick) (st d)).1 = (s', fin d, none))
    {ps : FileDescriptor → List (Position × Str)}
    (ha : ∀ d, ok d →
      Said l ((acts f ((inside descend d).filterMap pick) (st d)).2 ++ fin d) (ps d)) :
    SaysOn ok l ps := by
  have key : ∀ d, ok d →
      Said l ((steps (onPick pick f) (inside descend d) (st d)).2 ++ fin d) (ps d) := fun d hd => by
    rw [steps_pick]
    exact ha d hd
  refine says_of (fun dirPath ds hok => ?_) (fun d hd => (key d hd).noPanic)
    fun d hd => .of_eq (key d hd).said
  rw [hl]
  refine Steps.run h hstart (fin := fin) ?_ ds hok s0
  intro d hd
  rw [steps_pick]
  exact hfin d hd

/-! ## Rules without state -/

theorem says_unitOn {v : Visitor Unit} {id : Str} {descend : Element → Bool}
    {ok : FileDescriptor → Prop} {own : Node → List Event} {at_ : Node → List (Position × Str)}
    (hs : v.onStart = fun _ => Act.skip) (hf : v.finally_ = fun s => (s, [], none))
    (h : ∀ around e k, visit v (parentOf around) k e =
        (bif descend e then (Act.emit (own ⟨around, e⟩)).seq k else Act.emit (own ⟨around, e⟩)) ∨
      visit v (parentOf around) k e =
        (bif descend e then k.seq (Act.emit (own ⟨around, e⟩)) else Act.emit (own ⟨around, e⟩)))
    (hown : ∀ l d, ok d → ∀ n ∈ fileNodes d, Said l (own n) (at_ n)) :
    SaysOn ok (newLinter id purpose (visitWith v ())) fun d => (inside descend d).flatMap at_ :=
  says_reader (l := newLinter id purpose (visitWith v ())) (v := v) (s0 := ()) rfl
    (I := fun _ => True) (st := fun _ _ => ()) (own := fun _ => own) (descend := descend)
    (at_ := fun _ => at_) (fun _ => Reader.unit h) trivial (fun d s _ => by rw [hs]; rfl)
    (fun d _ => ⟨(), by rw [hf], trivial⟩) (fun d hd n hn => hown _ d hd n hn) (ok := ok)

/-- What is said of the bad ones of the things picked. -/
def saidOf {α : Type} (pick : Node → Option α) (bad : α → Prop) [DecidablePred bad]
    (said : α → Position × Str) (n : Node) : List (Position × Str) :=
  match pick n with
  | some a => if bad a then [said a] else []
  | none => []

theorem flatMap_saidOf {α : Type} (pick : Node → Option α) (bad : α → Prop) [DecidablePred bad]
    (said : α → Position × Str) (ns : List Node) :
    ns.flatMap (saidOf pick bad said) = ((ns.filterMap pick).filter fun a => bad a).map said := by
  induction ns with
  | nil => rfl
  | cons n ns ih =>
    rw [List.flatMap_cons, ih]
    cases hp : pick n with
    | none => rw [List.filterMap_cons_none hp]; simp [saidOf, hp]
    | some a =>
      rw [List.filterMap_cons_some hp]
      by_cases hb : bad a
      · simp [saidOf, hp, hb]
      · simp [saidOf, hp, hb]

/-- Rules without state that report each bad element of a kind once. -/
theorem says_simple {α : Type} {v : Visitor Unit} {id : Str} {descend : Element → Bool}
    {pick : Node → Option α} {bad : α → Prop} [DecidablePred bad] {said : α → Position × Str}
    (hs : v.onStart = fun _ => Act.skip) (hf : v.finally_ = fun s => (s, [], none))
    (h : ∀ around e k, visit v (parentOf around) k e =
        (bif descend e then (Act.emit (own v ⟨around, e⟩)).seq k else Act.emit (own v ⟨around, e⟩)) ∨
      visit v (parentOf around) k e =
        (bif descend e then k.seq (Act.emit (own v ⟨around, e⟩)) else Act.emit (own v ⟨around, e⟩)))
    (hown : ∀ l around e, Said l (own v ⟨around, e⟩) (saidOf pick bad said ⟨around, e⟩)) :
    Says (newLinter id purpose (visitWith v ())) fun d =>
      (((inside descend d).filterMap pick).filter fun a => bad a).map said := by
  have := says_unitOn (purpose := purpose) (id := id) (ok := fun _ => True) (at_ := saidOf pick bad said) hs hf h
    fun l _ _ n _ => hown l n.around n.self
  simp only [flatMap_saidOf] at this
  exact this

/-- Rules without state that report for each thing of a kind a list of places. -/
theorem says_many {α : Type} {v : Visitor Unit} {id : Str} {descend : Element → Bool}
    {pick : Node → Option α} {many : α → List (Position × Str)}
    (hs : v.onStart = fun _ => Act.skip) (hf : v.finally_ = fun s => (s, [], none))
    (h : ∀ around e k, visit v (parentOf around) k e =
        (bif descend e then (Act.emit (own v ⟨around, e⟩)).seq k else Act.emit (own v ⟨around, e⟩)) ∨
      visit v (parentOf around) k e =
        (bif descend e then k.seq (Act.emit (own v ⟨around, e⟩)) else Act.emit (own v ⟨around, e⟩)))
    (hown : ∀ l around e, Said l (own v ⟨around, e⟩) ((pick ⟨around, e⟩).elim [] many)) :
    Says (newLinter id purpose (visitWith v ())) fun d =>
      ((inside descend d).filterMap pick).flatMap many := by
  have := says_unitOn (purpose := purpose) (id := id) (ok := fun _ => True) (at_ := fun n => (pick n).elim [] many) hs hf h
    fun l _ _ n _ => hown l n.around n.self
  simp only [flatMap_pick] at this
  exact this

/-! ## Rules that know what is around a node -/

theorem says_reserved : Says fieldsNotReservedLinter fun d =>
    ((inside (fun e => isMessage e || isEnum e) d).filterMap fun n =>
      (asReserved n).map fun r => (namesAround n.around, r)).map fun (names, r) =>
        (r.position, text [quote (join s%"." names), s%" cannot have reserved ",
          if r.ranges.length > 0 then s%"field numbers" else s%"field names",
          s%", use the deprecated field option instead."]) := by
  have := says_reader (l := fieldsNotReservedLinter) (v := fieldsNotReserved) (s0 := []) rfl
    (I := fun s => s = []) (st := fun _ => namesAround)
    (own := fun _ n => match asReserved n with
      | some r => (fieldsNotReserved.reserved r (namesAround n.around)).2
      | none => [])
    (descend := fun e => isMessage e || isEnum e)
    (at_ := fun _ n => ((asReserved n).map fun r => (namesAround n.around, r)).elim []
      fun p => [(p.2.position, text [quote (join s%"." p.1), s%" cannot have reserved ",
          if p.2.ranges.length > 0 then s%"field numbers" else s%"field names",
          s%", use the deprecated field option instead."])])
    (fun _ => reader_fieldsNotReserved) rfl
    (fun d s hs => by rw [hs]; rfl) (fun d _ => ⟨[], rfl, rfl⟩)
    (fun d _ n _ => by
      cases asReserved n with
      | none => exact .nil
      | some r => exact .fail _ _) (ok := fun _ => True)
  simp only [flatMap_pick (fun n => (asReserved n).map fun r => (namesAround n.around, r)),
    flatMap_one] at this
  exact this

theorem says_enumValues {id : Str} {value : List Str → EnumField → List Event}
    {bad : List Str → EnumField → Prop} [∀ ns f, Decidable (bad ns f)]
    {words : List Str → EnumField → Str}
    (h : ∀ l names f, Said l (value (names.map Strs.toUpperSnakeCase) f)
      (if bad names f then [(f.position, words names f)] else [])) :
    Says (newLinter id purpose (visitWith (enumVisitor value) [])) fun d =>
      ((namedValues d).filter fun p => bad p.1 p.2).map fun p => (p.2.position, words p.1 p.2) := by
  have := says_reader (l := newLinter id purpose (visitWith (enumVisitor value) []))
    (v := enumVisitor value) (s0 := []) rfl
    (I := fun s => s = []) (st := fun _ => upperAround)
    (own := fun _ n => match asEnumValue n with
        | some f => value (upperAround n.around) f
        | none => [])
    (descend := fun e => isMessage e || isEnum e)
    (at_ := fun _ => saidOf asNamedValue (fun p => bad p.1 p.2)
      fun p => (p.2.position, words p.1 p.2))
    (fun _ => reader_enumVisitor value) rfl
    (fun d s hs => by rw [hs]; rfl) (fun d _ => ⟨[], rfl, rfl⟩)
    (fun d _ n _ => by
      unfold saidOf asNamedValue
      cases asEnumValue n with
      | none => exact .nil
      | some f => exact h _ _ f) (ok := fun _ => True)
  simp only [flatMap_saidOf] at this
  exact this

theorem says_enumParents {id : Str} {value : Enum → EnumField → List Event} {v : Visitor Unit}
    {pre : EnumField → Prop} [DecidablePred pre]
    {bad : Enum → EnumField → Prop} [∀ e f, Decidable (bad e f)]
    {words : Enum → EnumField → Str}
    (hv : v = enumParentVisitor pre value)
    (h : ∀ l e f, Said l (if pre f then value e f else [])
      (if bad e f then [(f.position, words e f)] else [])) :
    SaysOn Grammatical (newLinter id purpose (visitWith v ())) fun d =>
      ((valuesOfEnums d).filter fun p => bad p.1 p.2).map fun p => (p.2.position, words p.1 p.2) := by
  have := says_unitOn (v := v) (purpose := purpose) (id := id) (descend := fun e => isMessage e || isEnum e)
    (own := fun n => match n with
      | ⟨around, .enumField f _⟩ =>
        if pre f then withEnumParent (parentOf around) f (value · f) else []
      | _ => [])
    (at_ := saidOf asValueOfEnum (fun p => bad p.1 p.2) fun p => (p.2.position, words p.1 p.2))
    (ok := Grammatical)
    (by rw [hv]; rfl) (by rw [hv]; rfl) (by rw [hv]; visitor_shape) (by
      intro l d hd n hn
      have hg := hd n hn
      obtain ⟨around, e⟩ := n
      cases e with
      | enumField f es =>
        cases around with
        | nil => exact absurd hg Bool.false_ne_true
        | cons a around =>
          cases a with
          | enum e _ => exact h l e f
          | _ => exact absurd hg Bool.false_ne_true
      | _ =>
        have : ∀ around e, (∀ f es, e ≠ .enumField f es) → asValueOfEnum ⟨around, e⟩ = none := by
          intro around e he
          unfold asValueOfEnum
          split
          · rename_i hh; cases hh; exact absurd rfl (he _ _)
          · rfl
        unfold saidOf
        rw [this _ _ (by intro _ _ h; cases h)]
        exact .nil)
  simp only [flatMap_saidOf] at this
  exact this

/-! ## Rules about the declarations of a file -/

theorem says_equal (name id : Str) (expected : FileDescriptor → Package → Str)
    {said : FileDescriptor → List (Position × Str)}
    (h : ∀ {l : Linter}, ∀ d : FileDescriptor, d.filename ≠ [] →
      Said l ((fileOptionsEqual name expected).finally_ ⟨some d, (packages d).getLast?,
        ((fileOptions d).filter fun o => o.name = name).getLast?⟩).2.1 (said d)) :
    SaysOn (fun d => d.filename ≠ [])
      (newLinter id purpose (visitWith (fileOptionsEqual name expected) {})) said := by
  let g : Package ⊕ Opt → EqualState → EqualState := fun x s =>
    match x with
    | .inl p => { s with pkg := some p }
    | .inr o => if o.name = name then { s with option := some o } else s
  have hfold : ∀ (xs : List (Package ⊕ Opt)) (s : EqualState),
      xs.foldl (fun s x => g x s) s =
        ⟨s.descriptor, ((xs.filterMap (Sum.elim some fun _ => none)).getLast?).or s.pkg,
          (((xs.filterMap (Sum.elim (fun _ => none) some)).filter fun o => o.name = name).getLast?).or
            s.option⟩ := by
    intro xs
    induction xs with
    | nil => intro s; rfl
    | cons x xs ih =>
      intro s
      rw [List.foldl_cons, ih]
      cases x with
      | inl p =>
        simp only [g, Sum.elim_inl, List.filterMap_cons, List.getLast?_cons]
        cases (xs.filterMap (Sum.elim some fun _ => none)).getLast? <;> rfl
      | inr o =>
        simp only [g, Sum.elim_inr, List.filterMap_cons, List.filter_cons]
        by_cases h : o.name = name
        · simp only [h, if_true, decide_true, List.getLast?_cons]
          cases ((xs.filterMap (Sum.elim (fun _ => none) some)).filter
            fun o => o.name = name).getLast? <;> rfl
        · simp [h]
  have hst : ∀ d : FileDescriptor, ((inside nothing d).filterMap asPackageOrOption).foldl
      (fun s x => g x s) ⟨some d, none, none⟩ = ⟨some d, (packages d).getLast?,
        ((fileOptions d).filter fun o => o.name = name).getLast?⟩ := by
    intro d
    rw [hfold, filterMap_packages, filterMap_options, Option.or_none, Option.or_none]
    rfl
  refine says_acts (v := fileOptionsEqual name expected) rfl (pick := asPackageOrOption)
    (f := fun x => Act.modify (g x)) (st := fun d => ⟨some d, none, none⟩) (descend := nothing)
    (fin := fun d => ((fileOptionsEqual name expected).finally_ ⟨some d, (packages d).getLast?,
        ((fileOptions d).filter fun o => o.name = name).getLast?⟩).2.1) ?_ ?_ ?_ ?_
  · intro around e k; cases e <;> rfl
  · intro d s; rfl
  · intro d hd
    rw [acts_modify, hst]
    unfold fileOptionsEqual
    dsimp only
    cases (packages d).getLast? with
    | none => exact ⟨_, rfl⟩
    | some p =>
      cases ((fileOptions d).filter fun o => o.name = name).getLast? with
      | none => exact ⟨_, rfl⟩
      | some o => dsimp only; rw [if_neg hd]; exact ⟨_, rfl⟩
  · intro d hd
    rw [acts_modify, List.nil_append]
    exact h d hd

theorem says_services {said : FileDescriptor → List (Position × Str)}
    (h : ∀ (l : Linter) (d : FileDescriptor),
      Said l (serviceNamesMatchFileName.finally_ ⟨d.filename, services d⟩).2.1 (said d)) :
    Says serviceNamesMatchFileNameLinter said := by
  have hfold : ∀ (ss : List Service) (s : ServicesState),
      ss.foldl (fun s x => { s with services := s.services ++ [x] }) s =
        ⟨s.filename, s.services ++ ss⟩ := by
    intro ss
    induction ss with
    | nil => intro s; simp
    | cons x ss ih => intro s; rw [List.foldl_cons, ih]; simp
  refine says_acts (v := serviceNamesMatchFileName) (s0 := {}) rfl (pick := asService)
    (f := fun e => Act.modify fun s => { s with services := s.services ++ [e] })
    (st := fun d => ⟨d.filename, []⟩) (descend := nothing)
    (fin := fun d => (serviceNamesMatchFileName.finally_ ⟨d.filename, services d⟩).2.1) ?_ ?_ ?_ ?_
  · intro around e k; cases e <;> rfl
  · intro d s; rfl
  · intro d _
    rw [acts_modify, hfold, List.nil_append]; exact ⟨_, rfl⟩
  · intro d _
    rw [acts_modify, List.nil_append]
    exact h _ d

/-! ## Silence -/

/-- A rule that reports nothing for the files of a kind is silent about them. -/
theorem silent_of {ok good : FileDescriptor → Prop} {l : Linter}
    {places : FileDescriptor → List Position} (h : ReportsOn ok l places)
    (hok : ∀ d, good d → ok d) (hg : ∀ d, good d → places d = []) : CleanOn l good := by
  intro dirPath ds hds
  obtain ⟨fs, h1, h2, _⟩ := h dirPath ds fun d hd => hok d (hds d hd)
  have : ds.flatMap places = [] := List.flatMap_eq_nil_iff.2 fun d hd => hg d (hds d hd)
  rw [this] at h2
  have h3 := h2.eq_nil
  rw [List.map_eq_nil_iff] at h3
  rw [h1, h3]

theorem filter_map_nil {α β : Type} {p : α → Prop} [DecidablePred p] {f : α → β} {as : List α}
    (h : ∀ a ∈ as, ¬ p a) : (as.filter fun a => p a).map f = [] := by
  rw [List.map_eq_nil_iff, List.filter_eq_nil_iff]
  intro a ha
  simpa using h a ha

end Verif.Lint
