import Verif.Proof.SaysFile

/-! # The texts of rules about request and response types

As in Verif/Proof/ReportsTypes.lean, with the texts. -/

namespace Verif.Lint

open Verif Proto Spec Str

variable {S : Type}


/-- Events of a loop over a permutation. -/
theorem perm_said {l : Linter} {α : Type} {e : α → List Event} {p : α → List (Position × Str)}
    {xs ys : List α} (hp : xs.Perm ys) (h : ∀ a, Said l (e a) (p a)) :
    ((xs.flatMap e).filterMap l.report |>.map placeAndText).Perm (ys.flatMap p) ∧
      ∀ ev ∈ xs.flatMap e, ev.isPanic = false := by
  have hx := Said.flatMap (l := l) (e := e) (p := p) xs fun a _ => h a
  exact ⟨(List.Perm.of_eq hx.said).trans (hp.flatMap_right p), hx.noPanic⟩

/-- The same with places in some order. -/
theorem says_finally {l : Linter} {v : Visitor S} {s0 : S} {ok : FileDescriptor → Prop}
    (hl : l.addCheck = visitWith v s0) {st : FileDescriptor → S}
    (hrun : ∀ d, ok d → ∀ s, ((v.onStart d).seq (acceptAll v .file d.elements)) s = (st d, []))
    {fin : FileDescriptor → List Event}
    (hfin : ∀ d, ok d → ∃ s', v.finally_ (st d) = (s', fin d, none))
    {ps : FileDescriptor → List (Position × Str)}
    (hp : ∀ d, ok d → ((fin d).filterMap l.report |>.map placeAndText).Perm (ps d) ∧
      ∀ ev ∈ fin d, ev.isPanic = false) :
    SaysOn ok l ps := by
  refine says_of (out := fin) (fun dirPath ds hok => ?_) (fun d hd => (hp d hd).2)
    fun d hd => (hp d hd).1
  rw [hl]
  obtain ⟨s', evs, h1, _, h2⟩ := runVisitor_files (v := v) (I := fun _ => True) (ok := ok)
    (out := fin) (by
      intro d hd s _
      obtain ⟨s', h2⟩ := hfin d hd
      refine ⟨s', fin d, ?_, trivial, .refl _⟩
      unfold fileRun
      rw [hrun d hd s]
      dsimp only
      rw [h2]
      rfl) ds hok s0 trivial
  exact ⟨evs, by unfold visitWith; rw [h1], h2⟩

theorem says_after : SaysOn Grammatical requestResponseTypesAfterServiceLinter fun d =>
    (rpcs d).flatMap (afterSaid d) := by
  have hst : ∀ d, Grammatical d → ((inside isService d).filterMap asThing).foldl
      (fun s t => afterStep t s) {} = ⟨GoMap.build ((topMessages d).map byName), rpcs d⟩ := by
    intro d hg
    rw [foldl_after, things_messages, things_rpcs, topMessages_eq hg]
    rfl
  refine says_acts (v := requestResponseTypesAfterService) (s0 := {}) rfl (pick := asThing)
    (f := fun t => Act.modify (afterStep t)) (st := fun _ => {}) (descend := isService)
    (fin := fun d => (requestResponseTypesAfterService.finally_
      ⟨GoMap.build ((topMessages d).map byName), rpcs d⟩).2.1) ?_ ?_ ?_ ?_
  · intro around e k; cases e <;> rfl
  · intro d s; rfl
  · intro d hg
    rw [acts_modify, hst d hg]; exact ⟨_, rfl⟩
  · intro d hg
    rw [acts_modify, List.nil_append]
    refine .flatMap _ fun r _ => ?_
    dsimp only
    unfold afterSaid lastNamed
    simp only [getLast?_byName]
    refine (Said.append ?_ ?_).append ?_
    · cases ((topMessages d).filter fun m => m.name = r.requestType).getLast? with
      | none => exact .nil
      | some m => exact .iff .rfl
    · cases ((topMessages d).filter fun m => m.name = r.returnsType).getLast? with
      | none => exact .nil
      | some m => exact .iff .rfl
    · cases ((topMessages d).filter fun m => m.name = r.requestType).getLast? with
      | none => exact .nil
      | some m =>
        cases ((topMessages d).filter fun m => m.name = r.returnsType).getLast? with
        | none => exact .nil
        | some m => exact .iff .rfl

theorem says_only (env : Env) :
    SaysOn Grammatical (requestResponseTypesOnlyInFileLinter env) fun d =>
      if rpcs d = [] then [] else
        ((lastBy (·.name) (topEnums d)).map fun e => (e.position, text [s%"Enum ", quote e.name,
          s%" is in the same file as a service and should be in a separate file."])) ++
        ((lastBy (·.name) (topMessages d)).filter fun m => m.name ∉ usedTypes d).map fun m => (m.position, text [s%"Message ", quote m.name, s%" is not a request or response of any service in this file and should be in a separate file."]) := by
  have hst : ∀ d, Grammatical d → ((inside isService d).filterMap asThing).foldl
      (fun s t => onlyStep t s) {} = ⟨GoMap.build ((topMessages d).map byName),
        GoMap.build ((topEnums d).map enumByName), rpcs d⟩ := by
    intro d hg
    rw [foldl_only, things_messages, things_enums, things_rpcs, topMessages_eq hg, topEnums_eq hg]
    rfl
  have hsteps : Steps (requestResponseTypesOnlyInFile env)
      (onPick asThing fun t => Act.modify (onlyStep t)) isService := by
    intro around e k; cases e <;> rfl
  refine says_finally (v := requestResponseTypesOnlyInFile env) (s0 := {}) rfl
    (st := fun d => ⟨GoMap.build ((topMessages d).map byName),
        GoMap.build ((topEnums d).map enumByName), rpcs d⟩)
    (fin := fun d => ((requestResponseTypesOnlyInFile env).finally_
      ⟨GoMap.build ((topMessages d).map byName),
        GoMap.build ((topEnums d).map enumByName), rpcs d⟩).2.1) ?_ ?_ ?_
  · intro d hg s
    have h := hsteps.all d.elements [] rfl
    rw [show parentOf [] = Parent.file from rfl, scope_eq_inside, steps_pick] at h
    unfold Act.seq
    rw [h]
    show (_, _) = _
    rw [show ((requestResponseTypesOnlyInFile env).onStart d s) = ({}, []) from rfl]
    dsimp only
    rw [acts_modify, hst d hg]
    rfl
  · intro d _
    unfold requestResponseTypesOnlyInFile
    dsimp only
    split
    · exact ⟨_, rfl⟩
    · exact ⟨_, rfl⟩
  · intro d _
    unfold requestResponseTypesOnlyInFile
    dsimp only
    by_cases h : rpcs d = []
    · rw [if_pos (by rw [h]; rfl), if_pos h]
      exact ⟨.refl _, fun _ h => nomatch h⟩
    · rw [if_neg (by simpa using h), if_neg h, foldl_delete]
      dsimp only
      have h1 := perm_said (l := requestResponseTypesOnlyInFileLinter env)
        (e := fun p : Str × Enum => addFailure p.2.position [s%"Enum ", quote p.2.name,
            s%" is in the same file as a service and should be in a separate file."])
        (p := fun p => [(p.2.position, text [s%"Enum ", quote p.2.name,
          s%" is in the same file as a service and should be in a separate file."])])
        ((env.order.perm [s%"ONLY_IN_FILE", s%"enums"] _).trans
          (GoMap.build_perm ((topEnums d).map enumByName)).2) fun _ => .fail _ _
      have h2 := perm_said (l := requestResponseTypesOnlyInFileLinter env)
        (e := fun p : Str × Message => addFailure p.2.position [s%"Message ", quote p.2.name, s%" is not a request or response of any service in this file and should be in a separate file."])
        (p := fun p => [(p.2.position, text [s%"Message ", quote p.2.name, s%" is not a request or response of any service in this file and should be in a separate file."])])
        ((env.order.perm [s%"ONLY_IN_FILE", s%"messages"] _).trans
          ((GoMap.build_perm ((topMessages d).map byName)).2.filter fun p => p.1 ∉ usedTypes d))
        fun _ => .fail _ _
      refine ⟨?_, fun ev hev => (List.mem_append.1 hev).elim (h1.2 ev) (h2.2 ev)⟩
      rw [List.filterMap_append, List.map_append]
      refine (h1.1.trans (.of_eq ?_)).append (h2.1.trans (.of_eq ?_))
      · unfold enumByName
        rw [lastBy_map, flatMap_one, List.map_map]
        rfl
      · have := flatMap_values (fun m : Message => m.name) (fun m => [(m.position, text [s%"Message ", quote m.name, s%" is not a request or response of any service in this file and should be in a separate file."])]) (topMessages d)
          fun n => decide (n ∉ usedTypes d)
        rw [flatMap_one (fun m : Message => (m.position, text [s%"Message ", quote m.name, s%" is not a request or response of any service in this file and should be in a separate file."]))] at this
        exact this

theorem says_except {o : Order} {handle : Message → List Event} {id : Str}
    {at_ : Message → List (Position × Str)} (h : ∀ l m, Said l (handle m) (at_ m)) :
    SaysOn Grammatical (newLinter id purpose (visitWith (messagesExceptVisitor o handle) {})) fun d =>
      ((lastBy (·.name) (namedMessages d)).filter fun m =>
        m.message.isExtend = false ∧ m.name ∉ usedTypes d).flatMap fun m => at_ m.message := by
  refine says_finally (v := messagesExceptVisitor o handle) (s0 := {}) rfl
    (st := fun d => ⟨GoMap.build ((namedMessages d).map fun m => (m.name, m.message)),
      ((endScope inTypes [] d.elements).filterMap asRPC).foldl (fun b r => addTypes r b) [], []⟩)
    (fin := fun d => ((messagesExceptVisitor o handle).finally_
      ⟨GoMap.build ((namedMessages d).map fun m => (m.name, m.message)),
      ((endScope inTypes [] d.elements).filterMap asRPC).foldl (fun b r => addTypes r b) [], []⟩).2.1)
    ?_ ?_ ?_
  · intro d hg s
    have hc := (collects_except o handle).all d.elements [] (fun _ _ => trivial) rfl 0 ([], [])
    rw [collectAll_keep, named_eq hg (descend := inTypes) (fun _ _ => rfl)
      (fun e he => by unfold inTypes; rw [he]; rfl), foldl_build] at hc
    exact hc
  · intro d _; exact ⟨_, rfl⟩
  · intro d hg
    have h1 := perm_said (l := newLinter id purpose (visitWith (messagesExceptVisitor o handle) {}))
      (e := fun p : Str × Message => if !p.2.isExtend then
        if p.1 ∉ ((endScope inTypes [] d.elements).filterMap asRPC).foldl (fun b r => addTypes r b) []
          then handle p.2 else []
        else [])
      (p := fun p => if p.2.isExtend = false ∧ p.1 ∉ usedTypes d then at_ p.2 else [])
      ((o.perm [s%"MESSAGES_EXCEPT"] _).trans
        (GoMap.build_perm ((namedMessages d).map fun m => (m.name, m.message))).2) fun p => by
        have hm := mem_addTypes_rpcs hg (descend := inTypes) (fun e he => by
          unfold inTypes; rw [he, Bool.or_true]) p.1
        by_cases hx : p.2.isExtend = false
        · rw [if_pos (by rw [hx]; rfl)]
          refine Said.ite ?_ (h _ _) .nil
          rw [hm]
          exact ⟨fun h => ⟨hx, h⟩, fun h => h.2⟩
        · rw [if_neg (by simpa using hx), if_neg fun h => hx h.1]
          exact .nil
    refine ⟨h1.1.trans (.of_eq ?_), h1.2⟩
    rw [lastBy_map, List.flatMap_map]
    generalize lastBy (·.name) (namedMessages d) = l
    induction l with
    | nil => rfl
    | cons m l ih =>
      rw [List.flatMap_cons, ih, List.filter_cons]
      by_cases hb : m.message.isExtend = false ∧ m.name ∉ usedTypes d
      · rw [if_pos hb, if_pos (by simpa using hb), List.flatMap_cons]
      · rw [if_neg hb, if_neg (by simpa using hb)]; rfl

theorem says_notEmpty (env : Env) :
    SaysOn Grammatical (messagesNotEmptyExceptRequestResponseTypesLinter env) fun d =>
      ((lastBy (·.name) (namedMessages d)).filter fun m =>
        m.name ∉ usedTypes d ∧ m.fields = 0).map fun m => (m.message.position, text [s%"Message ", quote m.name, s%" should not be empty. Only request and response types are allowed to be empty."]) := by
  refine says_finally (v := messagesNotEmptyExceptRequestResponseTypes env) (s0 := {}) rfl
    (st := fun d => ⟨GoMap.build ((namedMessages d).map fun m => (m.name, (m.message, m.fields))),
      ((endScope inTypesOneof [] d.elements).filterMap asRPC).foldl (fun b r => addTypes r b) [], [],
      0 + fieldCounts d.elements⟩)
    (fin := fun d => ((messagesNotEmptyExceptRequestResponseTypes env).finally_
      ⟨GoMap.build ((namedMessages d).map fun m => (m.name, (m.message, m.fields))),
      ((endScope inTypesOneof [] d.elements).filterMap asRPC).foldl (fun b r => addTypes r b) [], [],
      0 + fieldCounts d.elements⟩).2.1)
    ?_ ?_ ?_
  · intro d hg s
    have hc := (collects_notEmpty env).all d.elements [] (grammatical_fieldless hg) rfl 0 ([], [])
    rw [collectAll_keep, named_eq hg (descend := inTypesOneof) (fun _ _ => rfl)
      (fun e he => by unfold inTypesOneof; rw [he]; rfl), foldl_build] at hc
    exact hc
  · intro d _; exact ⟨_, rfl⟩
  · intro d hg
    have h1 := perm_said (l := messagesNotEmptyExceptRequestResponseTypesLinter env)
      (e := fun p : Str × (Message × Nat) =>
        if p.1 ∉ ((endScope inTypesOneof [] d.elements).filterMap asRPC).foldl (fun b r => addTypes r b) []
          then
            if p.2.2 = 0 then
              addFailure p.2.1.position [s%"Message ", quote p.1, s%" should not be empty. Only request and response types are allowed to be empty."]
            else []
          else [])
      (p := fun p => if p.1 ∉ usedTypes d ∧ p.2.2 = 0 then [(p.2.1.position, text [s%"Message ", quote p.1, s%" should not be empty. Only request and response types are allowed to be empty."])] else [])
      ((env.order.perm [s%"MESSAGES_NOT_EMPTY"] _).trans
        (GoMap.build_perm ((namedMessages d).map fun m => (m.name, (m.message, m.fields)))).2) fun p =>
        Said.and (not_congr (mem_addTypes_rpcs hg (fun e he => by
          unfold inTypesOneof; rw [he, Bool.or_true]; rfl) _)) .rfl
    refine ⟨h1.1.trans (.of_eq ?_), h1.2⟩
    rw [lastBy_map, List.flatMap_map]
    generalize lastBy (·.name) (namedMessages d) = l
    induction l with
    | nil => rfl
    | cons m l ih =>
      rw [List.flatMap_cons, ih, List.filter_cons]
      by_cases hb : m.name ∉ usedTypes d ∧ m.fields = 0
      · rw [if_pos hb, if_pos (by simpa using hb), List.map_cons]; rfl
      · rw [if_neg hb, if_neg (by simpa using hb)]; rfl

theorem said_type {l : Linter} {names : List Str} {d : FileDescriptor} {t : Str}
    (hn : ∀ t, t ∈ names ↔ t ∈ (namedMessages d).map (·.name)) {p : Position} {m1 m2 : List Str} :
    Said l (if t ∉ names then addFailure p m1 else if '.' ∈ t then addFailure p m2 else [])
      (if t ∉ (namedMessages d).map (·.name) then [(p, text m1)] else
        if '.' ∈ t then [(p, text m2)] else []) :=
  .ite (not_congr (hn t)) (.fail _ _) (.iff .rfl)

theorem says_sameFile : SaysOn Grammatical requestResponseTypesInSameFileLinter fun d =>
    (rpcs d).flatMap fun r =>
      (if r.requestType ∉ (namedMessages d).map (·.name) then
        [(r.position, namedText s%"Request type " r.requestType s%" should be defined in the same file as the corresponding service.")]
      else if '.' ∈ r.requestType then
        [(r.position, namedText s%"Request type " r.requestType s%" is a nested message and only top-level messages should be request types.")]
      else []) ++
      (if r.returnsType ∉ (namedMessages d).map (·.name) then
        [(r.position, namedText s%"Response type " r.returnsType s%" should be defined in the same file as the corresponding service.")]
      else if '.' ∈ r.returnsType then
        [(r.position, namedText s%"Response type " r.returnsType s%" is a nested message and only top-level messages should be response types.")]
      else []) := by
  refine says_finally (v := requestResponseTypesInSameFile) (s0 := {}) rfl
    (st := fun d => ⟨(namedMessages d).foldl (fun a m => setInsert a m.name) [],
      (endScope inTypes [] d.elements).filterMap asRPC, []⟩)
    (fin := fun d => (requestResponseTypesInSameFile.finally_
      ⟨(namedMessages d).foldl (fun a m => setInsert a m.name) [],
      (endScope inTypes [] d.elements).filterMap asRPC, []⟩).2.1)
    ?_ ?_ ?_
  · intro d hg s
    have hc := collects_sameFile.all d.elements [] (fun _ _ => trivial) rfl 0 ([], [])
    rw [collectAll_keep, named_eq hg (descend := inTypes) (fun _ _ => rfl)
      (fun e he => by unfold inTypes; rw [he]; rfl), foldl_snoc, List.nil_append] at hc
    exact hc
  · intro d _; exact ⟨_, rfl⟩
  · intro d hg
    refine perm_said (l := requestResponseTypesInSameFileLinter)
      (rpcs_perm hg fun e he => by unfold inTypes; rw [he, Bool.or_true]) fun r => ?_
    have hn : ∀ t, t ∈ (namedMessages d).foldl (fun a m => setInsert a m.name) [] ↔
        t ∈ (namedMessages d).map (·.name) := fun t => by rw [mem_foldl_names]; simp
    exact (said_type hn).append (said_type hn)

end Verif.Lint
