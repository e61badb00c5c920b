import Verif.Proof.Endings
import Verif.Proof.LastBy
import Verif.Proof.ReportsFile
import Verif.Proof.Keyed
import Verif.Proof.Split

/-! # Rules about request and response types -/

namespace Verif.Lint

open Verif Proto Spec Str

variable {S : Type}

/-! ## Uses -/

theorem repeats_congr {b b' : List Str} (h : ∀ t, t ∈ b ↔ t ∈ b') (us : List (Position × Str)) :
    repeats b us = repeats b' us := by
  induction us generalizing b b' with
  | nil => rfl
  | cons u us ih =>
    rw [repeats, repeats, ih (b := u.2 :: b) (b' := u.2 :: b') fun t => by simp [h t]]
    simp only [h u.2]

theorem at_uses (us : List (Position × Str)) (seen : List Str) (l : Linter) :
    At l (acts (fun u => useType u.1 u.2) us seen).2 (repeats seen us) := by
  induction us generalizing seen with
  | nil => exact .nil
  | cons u us ih =>
    rw [acts, Act.seq, repeats]
    refine (At.iff .rfl).append ?_
    have h := ih (setInsert seen u.2)
    have e : repeats (setInsert seen u.2) us = repeats (u.2 :: seen) us :=
      repeats_congr (fun t => by rw [mem_setInsert, List.mem_cons, or_comm]) us
    rw [e] at h
    exact h

theorem acts_flatMap {α β : Type} (f : β → Act S) (g : α → List β) (as : List α) :
    acts f (as.flatMap g) = acts (fun a => acts f (g a)) as := by
  have happ : ∀ bs cs, acts f (bs ++ cs) = (acts f bs).seq (acts f cs) := by
    intro bs cs
    induction bs with
    | nil => rfl
    | cons b bs ih => rw [List.cons_append, acts, ih, acts, seq_assoc]
  induction as with
  | nil => rfl
  | cons a as ih => rw [List.flatMap_cons, happ, ih, acts]

theorem reports_unique : Reports requestResponseTypesUniqueLinter fun d => repeats [] (uses d) := by
  refine reports_acts (v := requestResponseTypesUnique) (s0 := []) rfl (pick := asRPC)
    (f := fun r => (useType r.position r.requestType).seq (useType r.position r.returnsType))
    (st := fun _ => []) (descend := isService) (fin := fun _ => []) ?_ ?_ ?_ ?_
  · intro around e k; cases e <;> rfl
  · intro d s; rfl
  · intro d _; exact ⟨_, rfl⟩
  · intro d _
    rw [List.append_nil]
    have h := at_uses (uses d) [] requestResponseTypesUniqueLinter
    unfold uses at h
    rw [acts_flatMap] at h
    have e : (fun r : RPC => (useType r.position r.requestType).seq (useType r.position r.returnsType)) =
        fun r : RPC => acts (fun u : Position × Str => useType u.1 u.2)
          [(r.position, r.requestType), (r.position, r.returnsType)] := by
      funext r
      rw [acts, acts, acts, seq_skip]
    rw [e]
    exact h

theorem repeats_nil {b : List Str} {us : List (Position × Str)} :
    repeats b us = [] ↔ (us.map (·.2)).Nodup ∧ ∀ u ∈ us, u.2 ∉ b := by
  induction us generalizing b with
  | nil => simp [repeats]
  | cons u us ih =>
    rw [repeats, List.append_eq_nil_iff, ih, List.map_cons, List.nodup_cons]
    by_cases h : u.2 ∈ b
    · simp [h]
    · simp only [if_neg h, true_and, List.mem_cons, not_or, List.mem_map, not_exists, not_and]
      constructor
      · rintro ⟨h1, h2⟩
        refine ⟨⟨fun x hx e => (h2 x hx).1 e, h1⟩, ?_⟩
        rintro x (rfl | hx)
        · exact h
        · exact (h2 x hx).2
      · rintro ⟨⟨h1, h2⟩, h3⟩
        exact ⟨h2, fun x hx => ⟨h1 x hx, h3 x (.inr hx)⟩⟩

/-! ## Names -/

theorem reports_match : Reports requestResponseNamesMatchRPCLinter fun d =>
    (rpcs d).flatMap fun r =>
      (if r.requestType ≠ r.name ++ s%"Request" then [r.position] else []) ++
      (if r.returnsType ≠ r.name ++ s%"Response" then [r.position] else []) := by
  refine reports_many (v := requestResponseNamesMatchRPC) (pick := asRPC) rfl rfl ?_ ?_
  · visitor_shape
  · intro l around e
    cases e <;> first | exact .nil | exact (At.iff .rfl).append (.iff .rfl)

/-! ## Where things are in grammatical files -/

theorem topMessages_eq {d : FileDescriptor} (hg : Grammatical d) :
    (inside isService d).filterMap asMessage = topMessages d := by
  unfold topMessages
  have h : inside nothing d = (inside isService d).filter fun n => n.around.all nothing := by
    unfold inside
    rw [List.filter_filter]
    congr 1
    funext n
    cases n.around with
    | nil => rfl
    | cons a as => rfl
  rw [h, filterMap_filter_of]
  intro n hn hp
  obtain ⟨hn, ha⟩ := List.mem_filter.1 hn
  obtain ⟨around, e⟩ := n
  have hm := hg _ hn
  cases around with
  | nil => rfl
  | cons a as =>
    have ha1 : isService a = true := (List.all_eq_true.1 ha) a List.mem_cons_self
    cases a <;> try exact absurd ha1 Bool.false_ne_true
    cases e <;> first | exact absurd hm Bool.false_ne_true | exact absurd hp Bool.false_ne_true

theorem topEnums_eq {d : FileDescriptor} (hg : Grammatical d) :
    (inside isService d).filterMap asEnum = topEnums d := by
  unfold topEnums
  have h : inside nothing d = (inside isService d).filter fun n => n.around.all nothing := by
    unfold inside
    rw [List.filter_filter]
    congr 1
    funext n
    cases n.around with
    | nil => rfl
    | cons a as => rfl
  rw [h, filterMap_filter_of]
  intro n hn hp
  obtain ⟨hn, ha⟩ := List.mem_filter.1 hn
  obtain ⟨around, e⟩ := n
  have hm := hg _ hn
  cases around with
  | nil => rfl
  | cons a as =>
    have ha1 : isService a = true := (List.all_eq_true.1 ha) a List.mem_cons_self
    cases a <;> try exact absurd ha1 Bool.false_ne_true
    cases e <;> first | exact absurd hm Bool.false_ne_true | exact absurd hp Bool.false_ne_true

/-- RPCs are in services only. -/
theorem rpc_around {d : FileDescriptor} (hg : Grammatical d) {n : Node} (hn : n ∈ fileNodes d)
    (hr : (asRPC n).isSome = true) : n.around.all isService = true := by
  refine around_kind (d := d) (kind := isService)
    (ok := fun n => (asRPC n).isSome = true ∨ isService n.self = true) ?_ (fun _ _ h => .inr h) n hn
    (.inl hr)
  intro n hn c hc hp
  have hm := hg _ hc
  obtain ⟨around, e⟩ := n
  cases e <;> first | rfl | skip
  all_goals
    cases c <;> first
      | exact absurd hm Bool.false_ne_true
      | exact absurd (hp.elim id id) Bool.false_ne_true

/-- Messages that are not in groups are in messages only. -/
theorem message_around {d : FileDescriptor} (hg : Grammatical d) {descend : Element → Bool}
    (hd : ∀ g es, descend (.group g es) = false) :
    ∀ n ∈ fileNodes d, isMessage n.self = true → n.around.all descend = true →
      n.around.all isMessage = true := by
  refine fileNodes_ind' (fun _ _ _ _ => rfl) ?_
  intro n hn hp c hc hm ha
  rw [List.all_cons, Bool.and_eq_true] at ha
  have hmay := hg _ (fileNodes_child hn hc)
  obtain ⟨around, e⟩ := n
  cases c <;> try exact absurd hm Bool.false_ne_true
  cases e <;> first
    | exact absurd hmay Bool.false_ne_true
    | exact absurd ((hd _ _).symm.trans ha.1) Bool.false_ne_true
    | skip
  have := hp rfl ha.2
  show (true && _) = true
  rw [this]; rfl

/-- What is picked does not depend on how far one looks, as long as one looks far enough. -/
theorem filterMap_scopes {α : Type} {pick : Node → Option α} {ns : List Node}
    {p q : Node → Bool} (hpq : ∀ n ∈ ns, p n = true → q n = true)
    (h : ∀ n ∈ ns, (pick n).isSome = true → q n = true → p n = true) :
    (ns.filter q).filterMap pick = (ns.filter p).filterMap pick := by
  have e : ns.filter p = (ns.filter q).filter p := by
    rw [List.filter_filter]
    refine List.filter_congr fun n hn => ?_
    cases hp : p n with
    | false => rfl
    | true => rw [hpq n hn hp]; rfl
  rw [e]
  refine (filterMap_filter_of fun n hn hs => ?_).symm
  obtain ⟨hn, hq⟩ := List.mem_filter.1 hn
  exact h n hn hs hq

theorem all_imp {p q : Element → Bool} (h : ∀ e, p e = true → q e = true) {l : List Element}
    (hl : l.all p = true) : l.all q = true :=
  List.all_eq_true.2 fun e he => h e (List.all_eq_true.1 hl e he)

theorem named_eq {d : FileDescriptor} (hg : Grammatical d) {descend : Element → Bool}
    (hd : ∀ g es, descend (.group g es) = false) (hm : ∀ e, isMessage e = true → descend e = true) :
    (endScope descend [] d.elements).filterMap asNamedMessage = namedMessages d := by
  refine filterMap_scopes (fun n _ h => all_imp hm h) fun n hn hs ha => ?_
  have hn' := (endingAll_perm d.elements []).mem_iff.1 hn
  refine message_around hg hd n hn' ?_ ha
  obtain ⟨around, e⟩ := n
  cases e <;> first | rfl | exact absurd hs Bool.false_ne_true

theorem rpcs_perm {d : FileDescriptor} (hg : Grammatical d) {descend : Element → Bool}
    (hm : ∀ e, isService e = true → descend e = true) :
    ((endScope descend [] d.elements).filterMap asRPC).Perm (rpcs d) := by
  refine ((endScope_perm descend [] d.elements).filterMap _).trans (.of_eq ?_)
  exact filterMap_scopes (fun n _ h => all_imp hm h) fun n hn hs _ => rpc_around hg hn hs

/-! ## Rules on the messages of the file itself -/

/-- A message, an enum or an RPC. -/
inductive Thing where
  | message (m : Message)
  | enum (e : Enum)
  | rpc (r : RPC)

def asThing : Node → Option Thing
  | ⟨_, .message m _⟩ => some (.message m)
  | ⟨_, .enum e _⟩ => some (.enum e)
  | ⟨_, .rpc r _⟩ => some (.rpc r)
  | _ => none

def Thing.message? : Thing → Option Message
  | .message m => some m
  | _ => none

def Thing.enum? : Thing → Option Enum
  | .enum e => some e
  | _ => none

def Thing.rpc? : Thing → Option RPC
  | .rpc r => some r
  | _ => none

theorem filterMap_things {α : Type} (p : Thing → Option α) (pick : Node → Option α)
    (h : ∀ n, (asThing n).bind p = pick n) (ns : List Node) :
    (ns.filterMap asThing).filterMap p = ns.filterMap pick := by
  rw [List.filterMap_filterMap]
  congr 1
  funext n
  exact h n

theorem things_messages (ns : List Node) :
    (ns.filterMap asThing).filterMap Thing.message? = ns.filterMap asMessage :=
  filterMap_things _ _ (fun n => by obtain ⟨_, e⟩ := n; cases e <;> rfl) ns

theorem things_enums (ns : List Node) :
    (ns.filterMap asThing).filterMap Thing.enum? = ns.filterMap asEnum :=
  filterMap_things _ _ (fun n => by obtain ⟨_, e⟩ := n; cases e <;> rfl) ns

theorem things_rpcs (ns : List Node) :
    (ns.filterMap asThing).filterMap Thing.rpc? = ns.filterMap asRPC :=
  filterMap_things _ _ (fun n => by obtain ⟨_, e⟩ := n; cases e <;> rfl) ns

def byName (m : Message) : Str × Message := (m.name, m)

def enumByName (e : Enum) : Str × Enum := (e.name, e)

theorem foldl_set {κ ν : Type} [DecidableEq κ] {α : Type} (f : α → κ × ν) (as : List α) (m : GoMap κ ν) :
    (as.map f).foldl (fun m p => GoMap.set m p.1 p.2) m =
      as.foldl (fun m a => GoMap.set m (f a).1 (f a).2) m := List.foldl_map

theorem getLast?_byName (ms : List Message) (t : Str) :
    GoMap.get? (GoMap.build (ms.map byName)) t = (ms.filter fun m => m.name = t).getLast? := by
  rw [GoMap.get?_build, List.filter_map, List.getLast?_map, Option.map_map]
  exact Option.map_id'

def afterStep : Thing → AfterState → AfterState
  | .message m, s => { s with messages := GoMap.set s.messages m.name m }
  | .enum _, s => s
  | .rpc r, s => { s with rpcs := s.rpcs ++ [r] }

theorem foldl_after (ts : List Thing) (s : AfterState) :
    ts.foldl (fun s t => afterStep t s) s =
      ⟨((ts.filterMap Thing.message?).map byName).foldl (fun m p => GoMap.set m p.1 p.2) s.messages,
        s.rpcs ++ ts.filterMap Thing.rpc?⟩ := by
  induction ts generalizing s with
  | nil => simp
  | cons t ts ih =>
    rw [List.foldl_cons, ih]
    cases t with
    | message m => rfl
    | enum e => rfl
    | rpc r =>
      show (⟨_, (s.rpcs ++ [r]) ++ _⟩ : AfterState) = ⟨_, s.rpcs ++ (r :: _)⟩
      rw [List.append_assoc]; rfl

theorem reports_after : ReportsOn Grammatical requestResponseTypesAfterServiceLinter fun d =>
    (rpcs d).flatMap (afterPlaces d) := by
  have hst : ∀ d, Grammatical d → ((inside isService d).filterMap asThing).foldl
      (fun s t => afterStep t s) {} = ⟨GoMap.build ((topMessages d).map byName), rpcs d⟩ := by
    intro d hg
    rw [foldl_after, things_messages, things_rpcs, topMessages_eq hg]
    rfl
  refine reports_acts (v := requestResponseTypesAfterService) (s0 := {}) rfl (pick := asThing)
    (f := fun t => Act.modify (afterStep t)) (st := fun _ => {}) (descend := isService)
    (fin := fun d => (requestResponseTypesAfterService.finally_
      ⟨GoMap.build ((topMessages d).map byName), rpcs d⟩).2.1) ?_ ?_ ?_ ?_
  · intro around e k; cases e <;> rfl
  · intro d s; rfl
  · intro d hg
    rw [acts_modify, hst d hg]; exact ⟨_, rfl⟩
  · intro d hg
    rw [acts_modify, List.nil_append]
    refine .flatMap _ fun r _ => ?_
    dsimp only
    unfold afterPlaces lastNamed
    simp only [getLast?_byName]
    refine (At.append ?_ ?_).append ?_
    · cases ((topMessages d).filter fun m => m.name = r.requestType).getLast? with
      | none => exact .nil
      | some m => exact .iff .rfl
    · cases ((topMessages d).filter fun m => m.name = r.returnsType).getLast? with
      | none => exact .nil
      | some m => exact .iff .rfl
    · cases ((topMessages d).filter fun m => m.name = r.requestType).getLast? with
      | none => exact .nil
      | some m =>
        cases ((topMessages d).filter fun m => m.name = r.returnsType).getLast? with
        | none => exact .nil
        | some m => exact .iff .rfl

def onlyStep : Thing → OnlyState → OnlyState
  | .message m, s => { s with messages := GoMap.set s.messages m.name m }
  | .enum e, s => { s with enums := GoMap.set s.enums e.name e }
  | .rpc r, s => { s with rpcs := s.rpcs ++ [r] }

theorem foldl_only (ts : List Thing) (s : OnlyState) :
    ts.foldl (fun s t => onlyStep t s) s =
      ⟨((ts.filterMap Thing.message?).map byName).foldl (fun m p => GoMap.set m p.1 p.2) s.messages,
        ((ts.filterMap Thing.enum?).map enumByName).foldl (fun m p => GoMap.set m p.1 p.2) s.enums,
        s.rpcs ++ ts.filterMap Thing.rpc?⟩ := by
  induction ts generalizing s with
  | nil => simp
  | cons t ts ih =>
    rw [List.foldl_cons, ih]
    cases t with
    | message m => rfl
    | enum e => rfl
    | rpc r =>
      show (⟨_, _, (s.rpcs ++ [r]) ++ _⟩ : OnlyState) = ⟨_, _, s.rpcs ++ (r :: _)⟩
      rw [List.append_assoc]; rfl

theorem foldl_delete (rs : List RPC) (m : GoMap Str Message) :
    rs.foldl (fun ms rpc => GoMap.delete (GoMap.delete ms rpc.requestType) rpc.returnsType) m =
      m.filter fun p => p.1 ∉ rs.flatMap fun r => [r.requestType, r.returnsType] := by
  induction rs generalizing m with
  | nil => exact (List.filter_eq_self.2 fun _ _ => by simp).symm
  | cons r rs ih =>
    rw [List.foldl_cons, ih]
    unfold GoMap.delete
    rw [List.filter_filter, List.filter_filter]
    refine List.filter_congr fun p _ => ?_
    simp only [List.flatMap_cons, List.mem_append, List.mem_cons, List.not_mem_nil, or_false, not_or,
      Bool.decide_and, ne_eq]
    generalize decide (p.1 ∉ rs.flatMap fun r => [r.requestType, r.returnsType]) = x
    generalize decide (¬ p.1 = r.requestType) = y
    generalize decide (¬ p.1 = r.returnsType) = z
    cases x <;> cases y <;> cases z <;> rfl

/-- Events of a loop over a permutation. -/
theorem perm_reports {l : Linter} {α : Type} {e : α → List Event} {p : α → List Position}
    {xs ys : List α} (hp : xs.Perm ys) (h : ∀ a, At l (e a) (p a)) :
    ((xs.flatMap e).filterMap l.report |>.map place).Perm (ys.flatMap p) ∧
      ∀ ev ∈ xs.flatMap e, ev.isPanic = false := by
  have hx := At.flatMap (l := l) (e := e) (p := p) xs fun a _ => h a
  exact ⟨(List.Perm.of_eq hx.places).trans (hp.flatMap_right p), hx.noPanic⟩

/-- The same with places in some order. -/
theorem reports_finally {l : Linter} {v : Visitor S} {s0 : S} {ok : FileDescriptor → Prop}
    (hl : l.addCheck = visitWith v s0) {st : FileDescriptor → S}
    (hrun : ∀ d, ok d → ∀ s, ((v.onStart d).seq (acceptAll v .file d.elements)) s = (st d, []))
    {fin : FileDescriptor → List Event}
    (hfin : ∀ d, ok d → ∃ s', v.finally_ (st d) = (s', fin d, none))
    {ps : FileDescriptor → List Position}
    (hp : ∀ d, ok d → ((fin d).filterMap l.report |>.map place).Perm (ps d) ∧
      ∀ ev ∈ fin d, ev.isPanic = false) :
    ReportsOn ok l ps := by
  refine reports_of (out := fin) (fun dirPath ds hok => ?_) (fun d hd => (hp d hd).2)
    fun d hd => (hp d hd).1
  rw [hl]
  obtain ⟨s', evs, h1, _, h2⟩ := runVisitor_files (v := v) (I := fun _ => True) (ok := ok)
    (out := fin) (by
      intro d hd s _
      obtain ⟨s', h2⟩ := hfin d hd
      refine ⟨s', fin d, ?_, trivial, .refl _⟩
      unfold fileRun
      rw [hrun d hd s]
      dsimp only
      rw [h2]
      rfl) ds hok s0 trivial
  exact ⟨evs, by unfold visitWith; rw [h1], h2⟩

theorem flatMap_values {κ α β : Type} [DecidableEq κ] (key : α → κ) (f : α → List β) (l : List α)
    (q : κ → Bool) :
    (((lastBy (·.1) (l.map fun a => (key a, a))).filter fun p => q p.1).flatMap fun p => f p.2) =
      ((lastBy key l).filter fun a => q (key a)).flatMap f := by
  rw [lastBy_map, List.filter_map, List.flatMap_map]
  rfl

theorem reports_only (env : Env) :
    ReportsOn Grammatical (requestResponseTypesOnlyInFileLinter env) fun d =>
      if rpcs d = [] then [] else
        (lastBy (·.name) (topEnums d)).map (·.position) ++
        ((lastBy (·.name) (topMessages d)).filter fun m => m.name ∉ usedTypes d).map (·.position) := by
  have hst : ∀ d, Grammatical d → ((inside isService d).filterMap asThing).foldl
      (fun s t => onlyStep t s) {} = ⟨GoMap.build ((topMessages d).map byName),
        GoMap.build ((topEnums d).map enumByName), rpcs d⟩ := by
    intro d hg
    rw [foldl_only, things_messages, things_enums, things_rpcs, topMessages_eq hg, topEnums_eq hg]
    rfl
  have hsteps : Steps (requestResponseTypesOnlyInFile env)
      (onPick asThing fun t => Act.modify (onlyStep t)) isService := by
    intro around e k; cases e <;> rfl
  refine reports_finally (v := requestResponseTypesOnlyInFile env) (s0 := {}) rfl
    (st := fun d => ⟨GoMap.build ((topMessages d).map byName),
        GoMap.build ((topEnums d).map enumByName), rpcs d⟩)
    (fin := fun d => ((requestResponseTypesOnlyInFile env).finally_
      ⟨GoMap.build ((topMessages d).map byName),
        GoMap.build ((topEnums d).map enumByName), rpcs d⟩).2.1) ?_ ?_ ?_
  · intro d hg s
    have h := hsteps.all d.elements [] rfl
    rw [show parentOf [] = Parent.file from rfl, scope_eq_inside, steps_pick] at h
    unfold Act.seq
    rw [h]
    show (_, _) = _
    rw [show ((requestResponseTypesOnlyInFile env).onStart d s) = ({}, []) from rfl]
    dsimp only
    rw [acts_modify, hst d hg]
    rfl
  · intro d _
    unfold requestResponseTypesOnlyInFile
    dsimp only
    split
    · exact ⟨_, rfl⟩
    · exact ⟨_, rfl⟩
  · intro d _
    unfold requestResponseTypesOnlyInFile
    dsimp only
    by_cases h : rpcs d = []
    · rw [if_pos (by rw [h]; rfl), if_pos h]
      exact ⟨.refl _, fun _ h => nomatch h⟩
    · rw [if_neg (by simpa using h), if_neg h, foldl_delete]
      dsimp only
      have h1 := perm_reports (l := requestResponseTypesOnlyInFileLinter env)
        (e := fun p : Str × Enum => addFailure p.2.position [s%"Enum ", quote p.2.name,
            s%" is in the same file as a service and should be in a separate file."])
        (p := fun p => [p.2.position])
        ((env.order.perm [s%"ONLY_IN_FILE", s%"enums"] _).trans
          (GoMap.build_perm ((topEnums d).map enumByName)).2) fun _ => .fail _ _
      have h2 := perm_reports (l := requestResponseTypesOnlyInFileLinter env)
        (e := fun p : Str × Message => addFailure p.2.position [s%"Message ", quote p.2.name, s%" is not a request or response of any service in this file and should be in a separate file."])
        (p := fun p => [p.2.position])
        ((env.order.perm [s%"ONLY_IN_FILE", s%"messages"] _).trans
          ((GoMap.build_perm ((topMessages d).map byName)).2.filter fun p => p.1 ∉ usedTypes d))
        fun _ => .fail _ _
      refine ⟨?_, fun ev hev => (List.mem_append.1 hev).elim (h1.2 ev) (h2.2 ev)⟩
      rw [List.filterMap_append, List.map_append]
      refine (h1.1.trans (.of_eq ?_)).append (h2.1.trans (.of_eq ?_))
      · unfold enumByName
        rw [lastBy_map, flatMap_one, List.map_map]
        rfl
      · have := flatMap_values (fun m : Message => m.name) (fun m => [m.position]) (topMessages d)
          fun n => decide (n ∉ usedTypes d)
        rw [flatMap_one (fun m : Message => m.position)] at this
        exact this

/-! ## Rules on messages at any depth -/

theorem nestedName_eq (names : List Str) (name : Str) :
    nestedName names name = join s%"." (names ++ [name]) := by
  unfold nestedName
  cases names with
  | nil => rfl
  | cons n ns => rw [if_pos (by simp), join_append_last _ (List.cons_ne_nil _ _)]

theorem take_names (ns : List Str) (n : Str) : (ns ++ [n]).take ((ns ++ [n]).length - 1) = ns := by
  simp

/-- What is kept at a node: the named message and the RPC. -/
def keep {A B : Type} (f : NamedMessage → A → A) (g : RPC → B → B) (n : Node) (a : A × B) : A × B :=
  (match asNamedMessage n with
    | some m => f m a.1
    | none => a.1,
   match asRPC n with
    | some r => g r a.2
    | none => a.2)

theorem collectAll_keep {A B : Type} (f : NamedMessage → A → A) (g : RPC → B → B) (ns : List Node)
    (a : A × B) : collectAll (keep f g) ns a =
      ((ns.filterMap asNamedMessage).foldl (fun a m => f m a) a.1,
       (ns.filterMap asRPC).foldl (fun b r => g r b) a.2) := by
  unfold collectAll
  induction ns generalizing a with
  | nil => rfl
  | cons n ns ih =>
    rw [List.foldl_cons, ih]
    obtain ⟨around, e⟩ := n
    cases e <;> rfl

/-- The types used by RPCs, as a set. -/
def addTypes (r : RPC) (ts : List Str) : List Str := setInsert (setInsert ts r.requestType) r.returnsType

theorem mem_addTypes {rs : List RPC} {ts : List Str} {t : Str} :
    t ∈ rs.foldl (fun b r => addTypes r b) ts ↔
      t ∈ ts ∨ t ∈ rs.flatMap fun r => [r.requestType, r.returnsType] := by
  induction rs generalizing ts with
  | nil => simp
  | cons r rs ih =>
    rw [List.foldl_cons, ih]
    unfold addTypes
    simp only [mem_setInsert, List.flatMap_cons, List.mem_append, List.mem_cons, List.not_mem_nil,
      or_false]
    constructor
    · rintro ((( h | h) | h) | h)
      · exact .inl h
      · exact .inr (.inl (.inl h))
      · exact .inr (.inl (.inr h))
      · exact .inr (.inr h)
    · rintro (h | (h | h) | h)
      · exact .inl (.inl (.inl h))
      · exact .inl (.inl (.inr h))
      · exact .inl (.inr h)
      · exact .inr h

theorem mem_addTypes_rpcs {d : FileDescriptor} (hg : Grammatical d) {descend : Element → Bool}
    (hm : ∀ e, isService e = true → descend e = true) (t : Str) :
    t ∈ ((endScope descend [] d.elements).filterMap asRPC).foldl (fun b r => addTypes r b) [] ↔
      t ∈ usedTypes d := by
  rw [mem_addTypes]
  unfold usedTypes
  rw [((rpcs_perm hg hm).flatMap_right _).mem_iff]
  simp

/-- Messages and services. -/
def inTypes (e : Element) : Bool := isMessage e || isService e

theorem foldl_build {κ ν α : Type} [DecidableEq κ] (key : α → κ) (val : α → ν) (l : List α) :
    l.foldl (fun m a => GoMap.set m (key a) (val a)) [] = GoMap.build (l.map fun a => (key a, val a)) := by
  unfold GoMap.build
  rw [List.foldl_map]

def exceptState (around : List Element) (_ : Nat) (a : GoMap Str Message × List Str) :
    ExceptState Message := ⟨a.1, a.2, namesAround around⟩

theorem collects_except (o : Order) (handle : Message → List Event) :
    Collects (fun _ => True) (messagesExceptVisitor o handle) exceptState
      (keep (fun m a => GoMap.set a m.name m.message) addTypes) inTypes := by
  refine ⟨fun around e _ k ka hk c a => ?_⟩
  cases e with
  | message m es =>
    have h1 := hk rfl c a
    unfold exceptState namesAround at h1
    unfold visit messagesExceptVisitor exceptState
    dsimp only
    rw [h1]
    dsimp only
    rw [take_names, nestedName_eq]
    rfl
  | service s es => exact hk rfl c a
  | _ => rfl

theorem reports_except {o : Order} {handle : Message → List Event} {id : Str}
    {at_ : Message → List Position} (h : ∀ l m, At l (handle m) (at_ m)) :
    ReportsOn Grammatical (newLinter id purpose (visitWith (messagesExceptVisitor o handle) {})) fun d =>
      ((lastBy (·.name) (namedMessages d)).filter fun m =>
        m.message.isExtend = false ∧ m.name ∉ usedTypes d).flatMap fun m => at_ m.message := by
  refine reports_finally (v := messagesExceptVisitor o handle) (s0 := {}) rfl
    (st := fun d => ⟨GoMap.build ((namedMessages d).map fun m => (m.name, m.message)),
      ((endScope inTypes [] d.elements).filterMap asRPC).foldl (fun b r => addTypes r b) [], []⟩)
    (fin := fun d => ((messagesExceptVisitor o handle).finally_
      ⟨GoMap.build ((namedMessages d).map fun m => (m.name, m.message)),
      ((endScope inTypes [] d.elements).filterMap asRPC).foldl (fun b r => addTypes r b) [], []⟩).2.1)
    ?_ ?_ ?_
  · intro d hg s
    have hc := (collects_except o handle).all d.elements [] (fun _ _ => trivial) rfl 0 ([], [])
    rw [collectAll_keep, named_eq hg (descend := inTypes) (fun _ _ => rfl)
      (fun e he => by unfold inTypes; rw [he]; rfl), foldl_build] at hc
    exact hc
  · intro d _; exact ⟨_, rfl⟩
  · intro d hg
    have h1 := perm_reports (l := newLinter id purpose (visitWith (messagesExceptVisitor o handle) {}))
      (e := fun p : Str × Message => if !p.2.isExtend then
        if p.1 ∉ ((endScope inTypes [] d.elements).filterMap asRPC).foldl (fun b r => addTypes r b) []
          then handle p.2 else []
        else [])
      (p := fun p => if p.2.isExtend = false ∧ p.1 ∉ usedTypes d then at_ p.2 else [])
      ((o.perm [s%"MESSAGES_EXCEPT"] _).trans
        (GoMap.build_perm ((namedMessages d).map fun m => (m.name, m.message))).2) fun p => by
        have hm := mem_addTypes_rpcs hg (descend := inTypes) (fun e he => by
          unfold inTypes; rw [he, Bool.or_true]) p.1
        by_cases hx : p.2.isExtend = false
        · rw [if_pos (by rw [hx]; rfl)]
          refine At.ite ?_ (h _ _) .nil
          rw [hm]
          exact ⟨fun h => ⟨hx, h⟩, fun h => h.2⟩
        · rw [if_neg (by simpa using hx), if_neg fun h => hx h.1]
          exact .nil
    refine ⟨h1.1.trans (.of_eq ?_), h1.2⟩
    rw [lastBy_map, List.flatMap_map]
    generalize lastBy (·.name) (namedMessages d) = l
    induction l with
    | nil => rfl
    | cons m l ih =>
      rw [List.flatMap_cons, ih, List.filter_cons]
      by_cases hb : m.message.isExtend = false ∧ m.name ∉ usedTypes d
      · rw [if_pos hb, if_pos (by simpa using hb), List.flatMap_cons]
      · rw [if_neg hb, if_neg (by simpa using hb)]; rfl

def notEmptyState (around : List Element) (c : Nat) (a : GoMap Str (Message × Nat) × List Str) :
    NotEmptyState := ⟨a.1, a.2, namesAround around, c⟩

/-- Messages, services and oneofs. -/
def inTypesOneof (e : Element) : Bool := isMessage e || isService e || isOneof e

/-- Services have no fields. -/
def fieldless (n : Node) : Prop := isService n.self = true → fieldCounts (children n.self) = 0

theorem collects_notEmpty (env : Env) :
    Collects fieldless (messagesNotEmptyExceptRequestResponseTypes env) notEmptyState
      (keep (fun m a => GoMap.set a m.name (m.message, m.fields)) addTypes) inTypesOneof := by
  refine ⟨fun around e hf k ka hk c a => ?_⟩
  cases e with
  | message m es =>
    have h1 := hk rfl 0 a
    unfold notEmptyState namesAround at h1
    unfold visit messagesNotEmptyExceptRequestResponseTypes notEmptyState
    dsimp only
    rw [h1]
    dsimp only
    rw [take_names, nestedName_eq, Nat.zero_add]
    rfl
  | service s es =>
    refine (hk rfl c a).trans ?_
    rw [hf rfl]
    rfl
  | oneof o es =>
    refine (hk rfl c a).trans ?_
    rw [fieldCount]
    rfl
  | _ => rfl

theorem grammatical_fieldless {d : FileDescriptor} (hg : Grammatical d) :
    ∀ n ∈ fileNodes d, fieldless n := by
  intro n hn hs
  have key : ∀ cs : List Element, (∀ c ∈ cs, c ∈ children n.self) → fieldCounts cs = 0 := by
    intro cs
    induction cs with
    | nil => intro _; rfl
    | cons c cs ih =>
      intro hc
      have hm := hg _ (fileNodes_child hn (hc c List.mem_cons_self))
      rw [fieldCounts, ih fun c h => hc c (List.mem_cons_of_mem _ h)]
      obtain ⟨around, e⟩ := n
      cases e <;> try exact absurd hs Bool.false_ne_true
      cases c <;> first | exact absurd hm Bool.false_ne_true | rw [fieldCount]
      all_goals simp
  exact key _ fun _ h => h

theorem reports_notEmpty (env : Env) :
    ReportsOn Grammatical (messagesNotEmptyExceptRequestResponseTypesLinter env) fun d =>
      ((lastBy (·.name) (namedMessages d)).filter fun m =>
        m.name ∉ usedTypes d ∧ m.fields = 0).map fun m => m.message.position := by
  refine reports_finally (v := messagesNotEmptyExceptRequestResponseTypes env) (s0 := {}) rfl
    (st := fun d => ⟨GoMap.build ((namedMessages d).map fun m => (m.name, (m.message, m.fields))),
      ((endScope inTypesOneof [] d.elements).filterMap asRPC).foldl (fun b r => addTypes r b) [], [],
      0 + fieldCounts d.elements⟩)
    (fin := fun d => ((messagesNotEmptyExceptRequestResponseTypes env).finally_
      ⟨GoMap.build ((namedMessages d).map fun m => (m.name, (m.message, m.fields))),
      ((endScope inTypesOneof [] d.elements).filterMap asRPC).foldl (fun b r => addTypes r b) [], [],
      0 + fieldCounts d.elements⟩).2.1)
    ?_ ?_ ?_
  · intro d hg s
    have hc := (collects_notEmpty env).all d.elements [] (grammatical_fieldless hg) rfl 0 ([], [])
    rw [collectAll_keep, named_eq hg (descend := inTypesOneof) (fun _ _ => rfl)
      (fun e he => by unfold inTypesOneof; rw [he]; rfl), foldl_build] at hc
    exact hc
  · intro d _; exact ⟨_, rfl⟩
  · intro d hg
    have h1 := perm_reports (l := messagesNotEmptyExceptRequestResponseTypesLinter env)
      (e := fun p : Str × (Message × Nat) =>
        if p.1 ∉ ((endScope inTypesOneof [] d.elements).filterMap asRPC).foldl (fun b r => addTypes r b) []
          then
            if p.2.2 = 0 then
              addFailure p.2.1.position [s%"Message ", quote p.1, s%" should not be empty. Only request and response types are allowed to be empty."]
            else []
          else [])
      (p := fun p => if p.1 ∉ usedTypes d ∧ p.2.2 = 0 then [p.2.1.position] else [])
      ((env.order.perm [s%"MESSAGES_NOT_EMPTY"] _).trans
        (GoMap.build_perm ((namedMessages d).map fun m => (m.name, (m.message, m.fields)))).2) fun p =>
        At.and (not_congr (mem_addTypes_rpcs hg (fun e he => by
          unfold inTypesOneof; rw [he, Bool.or_true]; rfl) _)) .rfl
    refine ⟨h1.1.trans (.of_eq ?_), h1.2⟩
    rw [lastBy_map, List.flatMap_map]
    generalize lastBy (·.name) (namedMessages d) = l
    induction l with
    | nil => rfl
    | cons m l ih =>
      rw [List.flatMap_cons, ih, List.filter_cons]
      by_cases hb : m.name ∉ usedTypes d ∧ m.fields = 0
      · rw [if_pos hb, if_pos (by simpa using hb), List.map_cons]; rfl
      · rw [if_neg hb, if_neg (by simpa using hb)]; rfl

/-! ## Types of the same file -/

def sameFileState (around : List Element) (_ : Nat) (a : List Str × List RPC) : SameFileState :=
  ⟨a.1, a.2, namesAround around⟩

theorem collects_sameFile :
    Collects (fun _ => True) requestResponseTypesInSameFile sameFileState
      (keep (fun m a => setInsert a m.name) fun r rs => rs ++ [r]) inTypes := by
  refine ⟨fun around e _ k ka hk c a => ?_⟩
  cases e with
  | message m es =>
    have h1 := hk rfl c a
    unfold sameFileState namesAround at h1
    unfold visit requestResponseTypesInSameFile sameFileState
    dsimp only
    rw [h1]
    dsimp only
    rw [take_names, nestedName_eq]
    rfl
  | service s es => exact hk rfl c a
  | _ => rfl

theorem dot_mem_join {a b : Str} {l : List Str} : '.' ∈ join s%"." (a :: b :: l) := by
  unfold join
  simp

/-- A name without a period is the name of a message of the file itself. -/
theorem named_top {d : FileDescriptor} {t : Str} (ht : '.' ∉ t) :
    t ∈ (namedMessages d).map (·.name) ↔ t ∈ (topMessages d).map (·.name) := by
  have hperm : ∀ n, n ∈ endingAll [] d.elements ↔ n ∈ fileNodes d := fun n =>
    (endingAll_perm d.elements []).mem_iff
  constructor
  · intro h
    obtain ⟨m, hm, rfl⟩ := List.mem_map.1 h
    obtain ⟨n, hn, hs⟩ := List.mem_filterMap.1 hm
    obtain ⟨hn, ha⟩ := List.mem_filter.1 hn
    obtain ⟨around, e⟩ := n
    cases e
    case message msg es _ =>
     cases hs
     cases around with
     | nil =>
       refine List.mem_map.2 ⟨msg, List.mem_filterMap.2 ⟨⟨[], .message msg es⟩, ?_, rfl⟩, rfl⟩
       exact List.mem_filter.2 ⟨(hperm _).1 hn, rfl⟩
     | cons a as =>
       have ha1 : isMessage a = true := (List.all_eq_true.1 ha) a List.mem_cons_self
       cases a <;> try exact absurd ha1 Bool.false_ne_true
       refine absurd ?_ ht
       show '.' ∈ join s%"." (namesAround as ++ [_] ++ [msg.name])
       cases namesAround as with
       | nil => exact dot_mem_join
       | cons x xs => cases xs <;> exact dot_mem_join
    all_goals cases hs
  · intro h
    obtain ⟨m, hm, rfl⟩ := List.mem_map.1 h
    obtain ⟨n, hn, hs⟩ := List.mem_filterMap.1 hm
    obtain ⟨hn, ha⟩ := List.mem_filter.1 hn
    obtain ⟨around, e⟩ := n
    cases around with
    | cons a as => exact absurd ha Bool.false_ne_true
    | nil =>
      cases e <;> cases hs
      rename_i es _
      refine List.mem_map.2 ⟨⟨m.name, m, fieldCounts es⟩, List.mem_filterMap.2
        ⟨⟨[], .message m es⟩, List.mem_filter.2 ⟨(hperm _).2 hn, rfl⟩, rfl⟩, rfl⟩

theorem mem_foldl_names (l : List NamedMessage) (ts : List Str) (t : Str) :
    t ∈ l.foldl (fun a m => setInsert a m.name) ts ↔ t ∈ ts ∨ t ∈ l.map (·.name) := by
  induction l generalizing ts with
  | nil => simp
  | cons m l ih =>
    rw [List.foldl_cons, ih, mem_setInsert, List.map_cons, List.mem_cons, or_assoc]

theorem foldl_snoc {α : Type} (l acc : List α) : l.foldl (fun rs r => rs ++ [r]) acc = acc ++ l := by
  induction l generalizing acc with
  | nil => simp
  | cons a l ih => rw [List.foldl_cons, ih]; simp

theorem at_type {l : Linter} {names : List Str} {d : FileDescriptor} {t : Str}
    (hn : ∀ t, t ∈ names ↔ t ∈ (namedMessages d).map (·.name)) {p : Position} {m1 m2 : List Str} :
    At l (if t ∉ names then addFailure p m1 else if '.' ∈ t then addFailure p m2 else [])
      (if ¬(t ∈ (topMessages d).map (·.name) ∧ '.' ∉ t) then [p] else []) := by
  by_cases hd : '.' ∈ t
  · rw [if_pos (show ¬(t ∈ (topMessages d).map (·.name) ∧ '.' ∉ t) from fun h => h.2 hd), if_pos hd]
    split
    · exact .fail _ _
    · exact .fail _ _
  · rw [if_neg hd]
    refine .iff ?_
    rw [hn, named_top hd]
    simp [hd]

theorem reports_sameFile : ReportsOn Grammatical requestResponseTypesInSameFileLinter fun d =>
    (rpcs d).flatMap fun r =>
      (if ¬(r.requestType ∈ (topMessages d).map (·.name) ∧ '.' ∉ r.requestType) then [r.position]
        else []) ++
      (if ¬(r.returnsType ∈ (topMessages d).map (·.name) ∧ '.' ∉ r.returnsType) then [r.position]
        else []) := by
  refine reports_finally (v := requestResponseTypesInSameFile) (s0 := {}) rfl
    (st := fun d => ⟨(namedMessages d).foldl (fun a m => setInsert a m.name) [],
      (endScope inTypes [] d.elements).filterMap asRPC, []⟩)
    (fin := fun d => (requestResponseTypesInSameFile.finally_
      ⟨(namedMessages d).foldl (fun a m => setInsert a m.name) [],
      (endScope inTypes [] d.elements).filterMap asRPC, []⟩).2.1)
    ?_ ?_ ?_
  · intro d hg s
    have hc := collects_sameFile.all d.elements [] (fun _ _ => trivial) rfl 0 ([], [])
    rw [collectAll_keep, named_eq hg (descend := inTypes) (fun _ _ => rfl)
      (fun e he => by unfold inTypes; rw [he]; rfl), foldl_snoc, List.nil_append] at hc
    exact hc
  · intro d _; exact ⟨_, rfl⟩
  · intro d hg
    refine perm_reports (l := requestResponseTypesInSameFileLinter)
      (rpcs_perm hg fun e he => by unfold inTypes; rw [he, Bool.or_true]) fun r => ?_
    have hn : ∀ t, t ∈ (namedMessages d).foldl (fun a m => setInsert a m.name) [] ↔
        t ∈ (namedMessages d).map (·.name) := fun t => by rw [mem_foldl_names]; simp
    exact (at_type hn).append (at_type hn)

end Verif.Lint
