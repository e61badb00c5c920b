import Verif.Proof.Names

/-! # Rules about the declarations of a file: packages, syntax, options, services -/

namespace Verif.Lint

open Verif Proto Spec Str

variable {S : Type}

/-- A rule that looks only at things of one kind, with a fresh state for each file. -/
theorem reports_acts {α : Type} {l : Linter} {v : Visitor S} {s0 : S}
    {ok : FileDescriptor → Prop} (hl : l.addCheck = visitWith v s0)
    {pick : Node → Option α} {f : α → Act S} {st : FileDescriptor → S}
    {fin : FileDescriptor → List Event} {descend : Element → Bool}
    (h : Steps v (onPick pick f) descend)
    (hstart : ∀ d s, v.onStart d s = (st d, []))
    (hfin : ∀ d, ok d →
      ∃ s', v.finally_ (acts f ((inside descend d).filterMap pick) (st d)).1 = (s', fin d, none))
    {ps : FileDescriptor → List Position}
    (ha : ∀ d, ok d →
      At l ((acts f ((inside descend d).filterMap pick) (st d)).2 ++ fin d) (ps d)) :
    ReportsOn ok l ps := by
  refine reports_steps hl h hstart (fin := fin) ?_ ?_
  · intro d hd
    rw [steps_pick]
    exact hfin d hd
  · intro d hd
    rw [steps_pick]
    exact ha d hd

/-! ## Packages -/

/-- `VisitPackage` of the package visitors. -/
def seePackage (env : Env) (p : Package) : Act PkgState := fun s =>
  match s.pkg with
  | some first => (s, addFailure p.position
      [s%"multiple package declarations, first was ", env.showPackage first])
  | none => ({ s with pkg := some p }, [])

theorem acts_seePackage_some (env : Env) (f : Str) (first : Package) (ps : List Package) :
    acts (seePackage env) ps ⟨f, some first⟩ = (⟨f, some first⟩, ps.flatMap fun p =>
      addFailure p.position [s%"multiple package declarations, first was ", env.showPackage first]) := by
  induction ps with
  | nil => rfl
  | cons p ps ih =>
    rw [acts, Act.seq]
    show ((acts (seePackage env) ps ⟨f, some first⟩).1, _ ++ (acts (seePackage env) ps ⟨f, some first⟩).2) = _
    rw [ih]
    rfl

theorem acts_seePackage (env : Env) (f : Str) (ps : List Package) :
    (acts (seePackage env) ps ⟨f, none⟩).1 = ⟨f, ps.head?⟩ ∧
    ∀ l, At l (acts (seePackage env) ps ⟨f, none⟩).2 (ps.tail.map (·.position)) := by
  cases ps with
  | nil => exact ⟨rfl, fun _ => .nil⟩
  | cons p ps =>
    have h : acts (seePackage env) (p :: ps) ⟨f, none⟩ = acts (seePackage env) ps ⟨f, some p⟩ := rfl
    rw [h, acts_seePackage_some]
    refine ⟨rfl, fun l => ?_⟩
    rw [List.tail_cons, ← flatMap_one]
    exact .flatMap _ fun p _ => .fail _ _

theorem reports_package {env : Env} {finish : Str → Option Package → List Event} {id : Str}
    {at_ : Str → Option Package → List Position} (h : ∀ l f p, At l (finish f p) (at_ f p)) :
    Reports (newLinter id purpose (visitWith (packageVisitor env finish) {})) fun d =>
      (packages d).tail.map (·.position) ++ at_ d.filename (packages d).head? := by
  refine reports_acts (v := packageVisitor env finish) rfl (pick := asPackage)
    (f := seePackage env) (st := fun d => ⟨d.filename, none⟩) (descend := nothing)
    (fin := fun d => finish d.filename (packages d).head?) ?_ ?_ ?_ ?_
  · intro around e k; cases e <;> rfl
  · intro d s; rfl
  · intro d _
    exact ⟨_, by rw [(acts_seePackage env _ _).1]; rfl⟩
  · intro d _
    exact ((acts_seePackage env _ _).2 _).append (h _ _ _)

theorem first_package (bad : Package → Prop) [DecidablePred bad] (p : Package) :
    (((some p).toList.filter fun p => bad p).map (·.position)) =
      if bad p then [p.position] else [] := by
  by_cases h : bad p <;> simp [h]

/-! ## Syntax -/

/-- `VisitSyntax` of the syntax visitor. -/
def seeSyntax (env : Env) (p : Syntax) : Act SyntaxState := fun s =>
  match s.syntax_ with
  | some first => (s, addFailure p.position
      [s%"multiple syntax declarations, first was ", env.showSyntax first])
  | none => ({ s with syntax_ := some p }, [])

theorem acts_seeSyntax_some (env : Env) (f : Str) (first : Syntax) (ps : List Syntax) :
    acts (seeSyntax env) ps ⟨f, some first⟩ = (⟨f, some first⟩, ps.flatMap fun p =>
      addFailure p.position [s%"multiple syntax declarations, first was ", env.showSyntax first]) := by
  induction ps with
  | nil => rfl
  | cons p ps ih =>
    rw [acts, Act.seq]
    show ((acts (seeSyntax env) ps ⟨f, some first⟩).1, _ ++ (acts (seeSyntax env) ps ⟨f, some first⟩).2) = _
    rw [ih]
    rfl

theorem acts_seeSyntax (env : Env) (f : Str) (ps : List Syntax) :
    (acts (seeSyntax env) ps ⟨f, none⟩).1 = ⟨f, ps.head?⟩ ∧
    ∀ l, At l (acts (seeSyntax env) ps ⟨f, none⟩).2 (ps.tail.map (·.position)) := by
  cases ps with
  | nil => exact ⟨rfl, fun _ => .nil⟩
  | cons p ps =>
    have h : acts (seeSyntax env) (p :: ps) ⟨f, none⟩ = acts (seeSyntax env) ps ⟨f, some p⟩ := rfl
    rw [h, acts_seeSyntax_some]
    refine ⟨rfl, fun l => ?_⟩
    rw [List.tail_cons, ← flatMap_one]
    exact .flatMap _ fun p _ => .fail _ _

theorem reports_syntax {env : Env} :
    Reports (syntaxProto3Linter env) fun d =>
      (syntaxes d).tail.map (·.position) ++
        match (syntaxes d).head? with
        | none => [{ filename := d.filename }]
        | some s => if s.value ≠ s%"proto3" then [s.position] else [] := by
  refine reports_acts (v := syntaxProto3 env) (s0 := {}) rfl (pick := asSyntax)
    (f := seeSyntax env) (st := fun d => ⟨d.filename, none⟩) (descend := nothing)
    (fin := fun d => ((syntaxProto3 env).finally_ ⟨d.filename, (syntaxes d).head?⟩).2.1) ?_ ?_ ?_ ?_
  · intro around e k; cases e <;> rfl
  · intro d s; rfl
  · intro d _
    exact ⟨_, by rw [(acts_seeSyntax env _ _).1]; rfl⟩
  · intro d _
    refine ((acts_seeSyntax env _ _).2 _).append ?_
    unfold syntaxProto3
    dsimp only
    cases (syntaxes d).head? with
    | none => exact .fail _ _
    | some s => exact .iff .rfl

/-! ## Options -/

theorem foldl_last {α : Type} (p : α → Prop) [DecidablePred p] (as : List α) (s : Option α) :
    as.foldl (fun s a => if p a then some a else s) s = ((as.filter fun a => p a).getLast?).or s := by
  induction as generalizing s with
  | nil => rfl
  | cons a as ih =>
    rw [List.foldl_cons, ih, List.filter_cons]
    by_cases h : p a
    · simp only [h, if_true, decide_true]
      rw [List.getLast?_cons]
      cases (as.filter fun a => p a).getLast? <;> rfl
    · simp [h]

theorem reports_notLongForm : Reports fileOptionsGoPackageNotLongFormLinter fun d =>
    match ((fileOptions d).filter fun o => o.name = s%"go_package").getLast? with
    | some o => if s%";" <:+: o.constant.source then [o.position] else []
    | none => [] := by
  refine reports_acts (v := fileOptionsGoPackageNotLongForm) (s0 := none) rfl (pick := asOption)
    (f := fun o => Act.modify fun s => if o.name = s%"go_package" then some o else s)
    (st := fun _ => none) (descend := nothing)
    (fin := fun d => (fileOptionsGoPackageNotLongForm.finally_
      ((fileOptions d).filter fun o => o.name = s%"go_package").getLast?).2.1) ?_ ?_ ?_ ?_
  · intro around e k; cases e <;> rfl
  · intro d s; rfl
  · intro d _
    rw [acts_modify, foldl_last, Option.or_none]; exact ⟨_, rfl⟩
  · intro d _
    rw [acts_modify]
    unfold fileOptionsGoPackageNotLongForm
    dsimp only
    rw [List.nil_append]
    cases ((fileOptions d).filter fun o => o.name = s%"go_package").getLast? with
    | none => exact .nil
    | some o => exact .iff contains_infix

theorem reports_require (name id : Str) :
    Reports (newLinter id purpose (visitWith (fileOptionsRequire name) {})) fun d =>
      if ∀ o ∈ fileOptions d, o.name ≠ name then [{ filename := d.filename }] else [] := by
  have hfold : ∀ (os : List Opt) (s : RequireState),
      os.foldl (fun s o => if o.name = name then { s with seen := true } else s) s =
        ⟨s.filename, s.seen || os.any fun o => o.name = name⟩ := by
    intro os
    induction os with
    | nil => intro s; simp
    | cons o os ih =>
      intro s
      rw [List.foldl_cons, ih]
      by_cases h : o.name = name
      · simp [h]
      · simp [h]
  refine reports_acts (v := fileOptionsRequire name) rfl (pick := asOption)
    (f := fun o => Act.modify fun s => if o.name = name then { s with seen := true } else s)
    (st := fun d => ⟨d.filename, false⟩) (descend := nothing)
    (fin := fun d => ((fileOptionsRequire name).finally_
      ⟨d.filename, (fileOptions d).any fun o => o.name = name⟩).2.1) ?_ ?_ ?_ ?_
  · intro around e k; cases e <;> rfl
  · intro d s; rfl
  · intro d _
    rw [acts_modify, hfold]; exact ⟨_, rfl⟩
  · intro d _
    rw [acts_modify, List.nil_append]
    refine .iff ?_
    simp

theorem reports_unset (name id : Str) :
    Reports (newLinter id purpose (visitWith (fileOptionsUnset name) {})) fun d =>
      match ((fileOptions d).filter fun o => o.name = name).getLast? with
      | some o => [o.position]
      | none => [] := by
  have hfold : ∀ (os : List Opt) (s : UnsetState),
      os.foldl (fun s o => if o.name = name then ⟨true, o.position⟩ else s) s =
        match (os.filter fun o => o.name = name).getLast? with
        | some o => ⟨true, o.position⟩
        | none => s := by
    intro os
    induction os with
    | nil => intro s; rfl
    | cons o os ih =>
      intro s
      rw [List.foldl_cons, ih, List.filter_cons]
      by_cases h : o.name = name
      · simp only [h, if_true, decide_true]
        rw [List.getLast?_cons]
        cases (os.filter fun o => o.name = name).getLast? <;> rfl
      · simp [h]
  refine reports_acts (v := fileOptionsUnset name) rfl (pick := asOption)
    (f := fun o => Act.modify fun s => if o.name = name then ⟨true, o.position⟩ else s)
    (st := fun d => {}) (descend := nothing)
    (fin := fun d => ((fileOptionsUnset name).finally_
      ((fileOptions d).foldl (fun s o => if o.name = name then ⟨true, o.position⟩ else s) {})).2.1)
    ?_ ?_ ?_ ?_
  · intro around e k; cases e <;> rfl
  · intro d s; rfl
  · intro d _
    rw [acts_modify]; exact ⟨_, rfl⟩
  · intro d _
    rw [acts_modify, List.nil_append, hfold]
    cases ((fileOptions d).filter fun o => o.name = name).getLast? with
    | none => exact .nil
    | some o => exact .fail _ _

/-- A package or an option. -/
def asPackageOrOption : Node → Option (Package ⊕ Opt)
  | ⟨_, .package p⟩ => some (.inl p)
  | ⟨_, .option o⟩ => some (.inr o)
  | _ => none

theorem filterMap_packages (ns : List Node) :
    (ns.filterMap asPackageOrOption).filterMap (Sum.elim some fun _ => none) =
      ns.filterMap asPackage := by
  rw [List.filterMap_filterMap]
  congr 1
  funext n
  obtain ⟨around, e⟩ := n
  cases e <;> rfl

theorem filterMap_options (ns : List Node) :
    (ns.filterMap asPackageOrOption).filterMap (Sum.elim (fun _ => none) some) =
      ns.filterMap asOption := by
  rw [List.filterMap_filterMap]
  congr 1
  funext n
  obtain ⟨around, e⟩ := n
  cases e <;> rfl

theorem reports_equal (name id : Str) (expected : FileDescriptor → Package → Str) :
    ReportsOn (fun d => d.filename ≠ [])
      (newLinter id purpose (visitWith (fileOptionsEqual name expected) {})) fun d =>
      match (packages d).getLast?, ((fileOptions d).filter fun o => o.name = name).getLast? with
      | some p, some o => if o.constant.source ≠ expected d p then [o.position] else []
      | _, _ => [] := by
  let g : Package ⊕ Opt → EqualState → EqualState := fun x s =>
    match x with
    | .inl p => { s with pkg := some p }
    | .inr o => if o.name = name then { s with option := some o } else s
  have hfold : ∀ (xs : List (Package ⊕ Opt)) (s : EqualState),
      xs.foldl (fun s x => g x s) s =
        ⟨s.descriptor, ((xs.filterMap (Sum.elim some fun _ => none)).getLast?).or s.pkg,
          (((xs.filterMap (Sum.elim (fun _ => none) some)).filter fun o => o.name = name).getLast?).or
            s.option⟩ := by
    intro xs
    induction xs with
    | nil => intro s; rfl
    | cons x xs ih =>
      intro s
      rw [List.foldl_cons, ih]
      cases x with
      | inl p =>
        simp only [g, Sum.elim_inl, List.filterMap_cons, List.getLast?_cons]
        cases (xs.filterMap (Sum.elim some fun _ => none)).getLast? <;> rfl
      | inr o =>
        simp only [g, Sum.elim_inr, List.filterMap_cons, List.filter_cons]
        by_cases h : o.name = name
        · simp only [h, if_true, decide_true, List.getLast?_cons]
          cases ((xs.filterMap (Sum.elim (fun _ => none) some)).filter
            fun o => o.name = name).getLast? <;> rfl
        · simp [h]
  have hst : ∀ d : FileDescriptor, ((inside nothing d).filterMap asPackageOrOption).foldl
      (fun s x => g x s) ⟨some d, none, none⟩ = ⟨some d, (packages d).getLast?,
        ((fileOptions d).filter fun o => o.name = name).getLast?⟩ := by
    intro d
    rw [hfold, filterMap_packages, filterMap_options, Option.or_none, Option.or_none]
    rfl
  refine reports_acts (v := fileOptionsEqual name expected) rfl (pick := asPackageOrOption)
    (f := fun x => Act.modify (g x)) (st := fun d => ⟨some d, none, none⟩) (descend := nothing)
    (fin := fun d => ((fileOptionsEqual name expected).finally_ ⟨some d, (packages d).getLast?,
        ((fileOptions d).filter fun o => o.name = name).getLast?⟩).2.1) ?_ ?_ ?_ ?_
  · intro around e k; cases e <;> rfl
  · intro d s; rfl
  · intro d hd
    rw [acts_modify, hst]
    unfold fileOptionsEqual
    dsimp only
    cases (packages d).getLast? with
    | none => exact ⟨_, rfl⟩
    | some p =>
      cases ((fileOptions d).filter fun o => o.name = name).getLast? with
      | none => exact ⟨_, rfl⟩
      | some o => dsimp only; rw [if_neg hd]; exact ⟨_, rfl⟩
  · intro d hd
    rw [acts_modify, List.nil_append]
    unfold fileOptionsEqual
    dsimp only
    cases (packages d).getLast? with
    | none => exact .nil
    | some p =>
      cases ((fileOptions d).filter fun o => o.name = name).getLast? with
      | none => exact .nil
      | some o =>
        dsimp only
        rw [if_neg hd]
        exact .iff ⟨Ne.symm, Ne.symm⟩

/-! ## Services -/

theorem reports_services : Reports serviceNamesMatchFileNameLinter fun d =>
    match services d with
    | [] => []
    | [s] => if Path.base d.filename ≠ Strs.toLowerSnakeCase s.name ++ s%".proto" then [s.position]
        else []
    | ss => ss.map (·.position) := by
  have hfold : ∀ (ss : List Service) (s : ServicesState),
      ss.foldl (fun s x => { s with services := s.services ++ [x] }) s =
        ⟨s.filename, s.services ++ ss⟩ := by
    intro ss
    induction ss with
    | nil => intro s; simp
    | cons x ss ih => intro s; rw [List.foldl_cons, ih]; simp
  refine reports_acts (v := serviceNamesMatchFileName) (s0 := {}) rfl (pick := asService)
    (f := fun e => Act.modify fun s => { s with services := s.services ++ [e] })
    (st := fun d => ⟨d.filename, []⟩) (descend := nothing)
    (fin := fun d => (serviceNamesMatchFileName.finally_ ⟨d.filename, services d⟩).2.1) ?_ ?_ ?_ ?_
  · intro around e k; cases e <;> rfl
  · intro d s; rfl
  · intro d _
    rw [acts_modify, hfold, List.nil_append]; exact ⟨_, rfl⟩
  · intro d _
    rw [acts_modify, List.nil_append]
    unfold serviceNamesMatchFileName
    dsimp only
    match services d with
    | [] => exact .nil
    | [s] => exact .iff .rfl
    | a :: b :: ss =>
      dsimp only
      rw [← flatMap_one]
      exact .flatMap _ fun s _ => .fail _ _

end Verif.Lint
