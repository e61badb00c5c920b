import Verif.Proof.Names
import Verif.Proof.Grammar

/-! # Rules about all nodes of a file, and rules that know what is around a node -/

namespace Verif.Lint

open Verif Proto Spec Str

/-! ## All nodes -/

/-- A node that may have other nodes in it. -/
def hasBody : Element → Bool
  | .message _ _ | .enum _ _ | .enumField _ _ | .service _ _ | .rpc _ _ | .oneof _ _ | .group _ _
  | .normalField _ | .mapField _ | .oneofField _ => true
  | _ => false

theorem inside_hasBody (d : FileDescriptor) : inside hasBody d = fileNodes d := by
  unfold inside
  rw [List.filter_eq_self]
  refine fileNodes_ind (fun _ _ => rfl) fun n hn c hc => ?_
  show (hasBody n.self && n.around.all hasBody) = true
  rw [hn, Bool.and_true]
  generalize n.self = e at hc
  cases e <;> first | rfl | cases hc

theorem at_checkComments {l : Linter} (p : Position) (cs : List (Option Comment)) :
    At l (checkComments p cs ()).2
      (((cs.filterMap id).filter fun c => c.cstyle = true).map fun _ => p) := by
  show At l (cs.flatMap _) _
  induction cs with
  | nil => exact .nil
  | cons c cs ih =>
    rw [List.flatMap_cons]
    cases c with
    | none => exact ih
    | some c =>
      have : (((some c :: cs).filterMap id).filter fun c => c.cstyle = true).map (fun _ => p) =
          (if c.cstyle = true then [p] else []) ++
            (((cs.filterMap id).filter fun c => c.cstyle = true).map fun _ => p) := by
        rw [List.filterMap_cons]
        cases h : c.cstyle <;> simp [h]
      rw [this]
      exact .append (.iff .rfl) ih

theorem at_checkInlineComment {l : Linter} (t : Str) (c : Option Comment) :
    At l (checkInlineComment t c ()).2 (c.toList.map (·.position)) := by
  cases c with
  | none => exact .nil
  | some c => exact .fail _ _

theorem reports_noCStyle : Reports commentsNoCStyleLinter fun d =>
    (fileNodes d).flatMap fun n =>
      ([commentOf n.self, inlineCommentOf n.self].filterMap id |>.filter fun c => c.cstyle = true).map
        fun _ => positionOf n.self := by
  have := reports_unit (purpose := commentsNoCStyleLinter.purpose) (id := s%"COMMENTS_NO_C_STYLE") (v := commentsNoCStyle)
    (own := fun n =>
      (checkComments (positionOf n.self) [commentOf n.self, inlineCommentOf n.self] ()).2)
    (descend := hasBody)
    (at_ := fun n => ([commentOf n.self, inlineCommentOf n.self].filterMap id |>.filter
      fun c => c.cstyle = true).map fun _ => positionOf n.self) rfl rfl (by visitor_shape) (by
      intro l around e
      exact at_checkComments _ _)
  simp only [inside_hasBody] at this
  exact this

/-- What the rule calls an element. -/
def inlineKind : Element → Str
  | .syntax _ => s%"syntax"
  | .package _ => s%"packages"
  | .option _ => s%"options"
  | .import _ => s%"imports"
  | .enumField _ _ => s%"enum values"
  | .rpc _ _ => s%"RPCs"
  | .normalField _ => s%"fields"
  | .mapField _ => s%"fields"
  | .oneofField _ => s%"oneofs"
  | .reserved _ => s%"reserved"
  | .extensions _ => s%"extensions"
  | _ => []

theorem reports_noInline : Reports commentsNoInlineLinter fun d =>
    (fileNodes d).flatMap fun n => (inlineCommentOf n.self).toList.map (·.position) := by
  have := reports_unit (purpose := commentsNoInlineLinter.purpose) (id := s%"COMMENTS_NO_INLINE") (v := commentsNoInline)
    (own := fun n => (checkInlineComment (inlineKind n.self) (inlineCommentOf n.self) ()).2)
    (descend := hasBody)
    (at_ := fun n => (inlineCommentOf n.self).toList.map (·.position)) rfl rfl
    (by visitor_shape) (by
      intro l around e
      exact at_checkInlineComment _ _)
  simp only [inside_hasBody] at this
  exact this

/-- A failure for each option with a name. -/
theorem at_options {l : Linter} (p : Position) (msg : List Str) (os : List Opt) {name : Str} :
    At l (os.flatMap fun o => if o.name = name then addFailure p msg else [])
      ((os.filter fun o => o.name = name).map fun _ => p) := by
  induction os with
  | nil => exact .nil
  | cons o os ih =>
    rw [List.flatMap_cons]
    have : ((o :: os).filter fun o => o.name = name).map (fun _ => p) =
        (if o.name = name then [p] else []) ++ ((os.filter fun o => o.name = name).map fun _ => p) := by
      by_cases h : o.name = name <;> simp [h]
    rw [this]
    exact .append (.iff .rfl) ih

theorem at_either {l : Linter} {c : Prop} [Decidable c] {e1 e2 : List Event} {ps : List Position}
    (h1 : At l e1 ps) (h2 : At l e2 ps) : At l (if c then e1 else e2) ps := by
  split
  · exact h1
  · exact h2

/-! ## Well-known types -/

/-- No path of a well-known file ends with another. -/
theorem wkt_suffix : ∀ a ∈ wktFilenames, ∀ b ∈ wktFilenames, a <:+ b → a = b := by decide +kernel

theorem wkt_nodup : wktFilenames.Nodup := by decide +kernel

theorem wkt_wellKnown : wktFilenames = wellKnown := by decide +kernel

theorem at_wkt {l : Linter} (env : Env) (e : Import) :
    At l ((wktDirectlyImported env).import_ e ()).2
      (if ∃ w ∈ wellKnown, w <:+ e.filename ∧ e.filename ≠ w then [e.position] else []) := by
  rw [← wkt_wellKnown]
  let bad : Str → Bool := fun w => hasSuffix e.filename w && decide (e.filename ≠ w)
  have hbad : ∀ w, bad w = true ↔ w <:+ e.filename ∧ e.filename ≠ w := fun w =>
    and_bool hasSuffix_suffix decide_eq_true_iff
  have key : ∀ (msg : List Str) (ws : List Str), ws.Nodup → (∀ a ∈ ws, a ∈ wktFilenames) →
      At l (ws.flatMap fun w => if bad w = true then addFailure e.position msg else [])
        (if ∃ w ∈ ws, w <:+ e.filename ∧ e.filename ≠ w then [e.position] else []) := by
    intro msg ws hnd hsub
    induction ws with
    | nil => rw [if_neg (by rintro ⟨w, hw, _⟩; cases hw)]; exact .nil
    | cons w ws ih =>
      have hnd' := List.nodup_cons.1 hnd
      have hsub' : ∀ a ∈ ws, a ∈ wktFilenames := fun a ha => hsub a (List.mem_cons_of_mem _ ha)
      rw [List.flatMap_cons]
      by_cases hb : bad w = true
      · have hrest : ∀ w' ∈ ws, bad w' = false := by
          intro w' hw'
          refine Bool.of_not_eq_true fun hb' => ?_
          have h1 := ((hbad w).1 hb).1
          have h2 := ((hbad w').1 hb').1
          have hw1 := hsub w List.mem_cons_self
          have hw2 := hsub' w' hw'
          have : w = w' := by
            rcases List.suffix_or_suffix_of_suffix h1 h2 with h | h
            · exact wkt_suffix w hw1 w' hw2 h
            · exact (wkt_suffix w' hw2 w hw1 h).symm
          exact hnd'.1 (this ▸ hw')
        have hz : (ws.flatMap fun w => if bad w = true then addFailure e.position msg else []) = [] := by
          rw [List.flatMap_eq_nil_iff]
          intro w' hw'
          rw [hrest w' hw']; rfl
        rw [if_pos hb, hz, List.append_nil, if_pos ⟨w, List.mem_cons_self, (hbad w).1 hb⟩]
        exact .fail _ _
      · rw [if_neg hb, List.nil_append]
        have : (∃ w' ∈ w :: ws, w' <:+ e.filename ∧ e.filename ≠ w') ↔
            ∃ w' ∈ ws, w' <:+ e.filename ∧ e.filename ≠ w' := by
          constructor
          · rintro ⟨w', hw', h⟩
            rcases List.mem_cons.1 hw' with rfl | hw'
            · exact absurd ((hbad w').2 h) hb
            · exact ⟨w', hw', h⟩
          · rintro ⟨w', hw', h⟩
            exact ⟨w', List.mem_cons_of_mem _ hw', h⟩
        simp only [this]
        exact ih hnd'.2 hsub'
  have hp := env.order.perm [s%"WKT_DIRECTLY_IMPORTED", e.position.filename, itoa e.position.line,
       itoa e.position.column, e.filename] wktFilenames
  have := key [s%"Import ", quote e.filename, s%" is a Well-Known Type import but should be imported using google/protobuf as the base."]
    _ (hp.nodup_iff.2 wkt_nodup) fun a ha => hp.mem_iff.1 ha
  simp only [hp.mem_iff] at this
  exact this

/-! ## Reserved declarations -/

theorem reader_fieldsNotReserved : Reader fieldsNotReserved namesAround
    (fun n => match asReserved n with
      | some r => (fieldsNotReserved.reserved r (namesAround n.around)).2
      | none => []) (fun e => isMessage e || isEnum e) := by
  refine ⟨fun around e _ k kes hk => ?_⟩
  cases e with
  | message m es =>
    obtain ⟨evs, h1, h2⟩ := hk rfl
    have h1' : k (namesAround around ++ [m.name]) = (namesAround around ++ [m.name], evs) := h1
    refine ⟨evs, ?_, h2⟩
    show (namesAround around, (k (namesAround around ++ [m.name])).2) = _
    rw [h1']
  | enum m es =>
    obtain ⟨evs, h1, h2⟩ := hk rfl
    have h1' : k (namesAround around ++ [m.name]) = (namesAround around ++ [m.name], evs) := h1
    refine ⟨evs, ?_, h2⟩
    show (namesAround around, (k (namesAround around ++ [m.name])).2) = _
    rw [h1']
  | reserved r => exact ⟨_, rfl, .of_eq (List.append_nil _).symm⟩
  | _ => exact Runs.skip

theorem reports_reserved : Reports fieldsNotReservedLinter fun d =>
    (reservedDecls d).map (·.position) := by
  have := reports_reader (l := fieldsNotReservedLinter) (v := fieldsNotReserved) (s0 := []) rfl
    (I := fun s => s = []) (st := fun _ => namesAround)
    (own := fun _ n => match asReserved n with
      | some r => (fieldsNotReserved.reserved r (namesAround n.around)).2
      | none => [])
    (start := fun _ => []) (fin := fun _ => []) (descend := fun e => isMessage e || isEnum e)
    (at_ := fun _ n => (asReserved n).elim [] fun r => [r.position])
    (ps := fun _ => []) (pf := fun _ => []) (fun _ => reader_fieldsNotReserved) rfl
    (fun d s hs => by rw [hs]; rfl) (fun d _ => ⟨[], rfl, rfl⟩) (fun _ _ => .nil) (fun _ _ => .nil)
    (fun d _ n _ => by
      cases asReserved n with
      | none => exact .nil
      | some r => exact .fail _ _) (ok := fun _ => True)
  simp only [List.nil_append, List.append_nil, flatMap_pick, flatMap_one] at this
  exact this

/-! ## Names of enum values -/

theorem nested_runs {k : Act (List Str)} {names : List Str} {name : Str} {evs : List Event}
    (h : Runs k (names ++ [Strs.toUpperSnakeCase name]) evs) : Runs (nested name k) names evs := by
  obtain ⟨evs', h1, h2⟩ := h
  refine ⟨evs', ?_, h2⟩
  unfold nested
  rw [h1]
  simp

/-- The names around in upper snake case. -/
def upperAround (around : List Element) : List Str :=
  (namesAround around).map Strs.toUpperSnakeCase

/-- A visitor of enum values that keeps the names around them. -/
def enumVisitor (value : List Str → EnumField → List Event) : Visitor (List Str) where
  message m k := nested m.name k
  enum e k := nested e.name k
  enumField _ f _ := fun nestedNames => (nestedNames, value nestedNames f)

theorem reader_enumVisitor (value : List Str → EnumField → List Event) :
    Reader (enumVisitor value) upperAround
      (fun n => match asEnumValue n with
        | some f => value (upperAround n.around) f
        | none => []) (fun e => isMessage e || isEnum e) := by
  refine ⟨fun around e _ k kes hk => ?_⟩
  cases e with
  | message m es =>
    refine nested_runs (name := m.name) ?_
    have := hk rfl
    unfold upperAround namesAround at this
    rw [List.map_append] at this
    exact this
  | enum m es =>
    refine nested_runs (name := m.name) ?_
    have := hk rfl
    unfold upperAround namesAround at this
    rw [List.map_append] at this
    exact this
  | enumField f es => exact ⟨_, rfl, .of_eq (List.append_nil _).symm⟩
  | _ => exact Runs.skip

theorem reports_enumValues {id : Str} {value : List Str → EnumField → List Event}
    {bad : List Str → EnumField → Prop} [∀ ns f, Decidable (bad ns f)]
    (h : ∀ l names f, At l (value (names.map Strs.toUpperSnakeCase) f)
      (if bad names f then [f.position] else [])) :
    Reports (newLinter id purpose (visitWith (enumVisitor value) [])) fun d =>
      ((namedValues d).filter fun p => bad p.1 p.2).map (·.2.position) := by
  have := reports_reader (l := newLinter id purpose (visitWith (enumVisitor value) []))
    (v := enumVisitor value) (s0 := []) rfl
    (I := fun s => s = []) (st := fun _ => upperAround)
    (own := fun _ n => match asEnumValue n with
        | some f => value (upperAround n.around) f
        | none => [])
    (start := fun _ => []) (fin := fun _ => []) (descend := fun e => isMessage e || isEnum e)
    (at_ := fun _ => atOf asNamedValue (fun p => bad p.1 p.2) (·.2.position))
    (ps := fun _ => []) (pf := fun _ => []) (fun _ => reader_enumVisitor value) rfl
    (fun d s hs => by rw [hs]; rfl) (fun d _ => ⟨[], rfl, rfl⟩) (fun _ _ => .nil) (fun _ _ => .nil)
    (fun d _ n _ => by
      unfold atOf asNamedValue
      cases asEnumValue n with
      | none => exact .nil
      | some f => exact h _ _ f) (ok := fun _ => True)
  simp only [List.nil_append, List.append_nil, flatMap_atOf] at this
  exact this

/-- A visitor of enum values that looks at their enum. -/
def enumParentVisitor (pre : EnumField → Prop) [DecidablePred pre]
    (value : Enum → EnumField → List Event) : Visitor Unit where
  message _ k := k
  enum _ k := k
  enumField p f _ := Act.emit (if pre f then withEnumParent p f (value · f) else [])

theorem reports_enumParents {id : Str} {value : Enum → EnumField → List Event} {v : Visitor Unit}
    {pre : EnumField → Prop} [DecidablePred pre]
    {bad : Enum → EnumField → Prop} [∀ e f, Decidable (bad e f)]
    (hv : v = enumParentVisitor pre value)
    (h : ∀ l e f, At l (if pre f then value e f else []) (if bad e f then [f.position] else [])) :
    ReportsOn Grammatical (newLinter id purpose (visitWith v ())) fun d =>
      ((valuesOfEnums d).filter fun p => bad p.1 p.2).map (·.2.position) := by
  have := reports_unitOn (v := v) (purpose := purpose) (id := id) (descend := fun e => isMessage e || isEnum e)
    (own := fun n => match n with
      | ⟨around, .enumField f _⟩ =>
        if pre f then withEnumParent (parentOf around) f (value · f) else []
      | _ => [])
    (at_ := atOf asValueOfEnum (fun p => bad p.1 p.2) (·.2.position)) (ok := Grammatical)
    (by rw [hv]; rfl) (by rw [hv]; rfl) (by rw [hv]; visitor_shape) (by
      intro l d hd n hn
      have hg := hd n hn
      obtain ⟨around, e⟩ := n
      cases e with
      | enumField f es =>
        cases around with
        | nil => exact absurd hg Bool.false_ne_true
        | cons a around =>
          cases a with
          | enum e _ => exact h l e f
          | _ => exact absurd hg Bool.false_ne_true
      | _ =>
        have : ∀ around e, (∀ f es, e ≠ .enumField f es) → asValueOfEnum ⟨around, e⟩ = none := by
          intro around e he
          unfold asValueOfEnum
          split
          · rename_i hh; cases hh; exact absurd rfl (he _ _)
          · rfl
        unfold atOf
        rw [this _ _ (by intro _ _ h; cases h)]
        exact .nil)
  simp only [flatMap_atOf] at this
  exact this

end Verif.Lint
