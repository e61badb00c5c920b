import Verif.Proof.Visit
import Verif.Model.LintConfig

/-! # General facts about visitors: what they visit, keep and yield -/

namespace Verif.Lint

open Verif Proto Spec

variable {S : Type}

/-! ## The nodes that are visited -/

/-- The nodes below `around` that are visited by a visitor that descends into the given
kind of nodes. -/
def scope (descend : Element → Bool) (around : List Element) (es : List Element) : List Node :=
  (nodesAll around es).filter fun n => n.around.all descend

theorem around_mem (e : Element) : ∀ around, ∀ n ∈ nodes around e, ∀ a ∈ around, a ∈ n.around := by
  refine element_ind (P := fun e => ∀ around, ∀ n ∈ nodes around e, ∀ a ∈ around, a ∈ n.around) ?_ e
  intro e ih around n hn a ha
  rw [nodes_eq] at hn
  rcases List.mem_cons.1 hn with rfl | hn
  · exact ha
  · have : ∀ cs : List Element, (∀ c ∈ cs, c ∈ children e) →
        n ∈ nodesAll (e :: around) cs → a ∈ n.around := by
      intro cs
      induction cs with
      | nil => intro _ h; simp [nodesAll] at h
      | cons c cs ihc =>
        intro hcs h
        rw [nodesAll, List.mem_append] at h
        rcases h with h | h
        · exact ih c (hcs c List.mem_cons_self) _ n h a (List.mem_cons_of_mem _ ha)
        · exact ihc (fun c hc => hcs c (List.mem_cons_of_mem _ hc)) h
    exact this _ (fun _ h => h) hn

theorem around_memAll {around es : List Element} {n : Node} (hn : n ∈ nodesAll around es) :
    ∀ a ∈ around, a ∈ n.around := by
  induction es with
  | nil => simp [nodesAll] at hn
  | cons e es ih =>
    rw [nodesAll, List.mem_append] at hn
    rcases hn with h | h
    · exact around_mem e around n h
    · exact ih h

theorem scope_dead {descend : Element → Bool} {around es : List Element}
    (h : around.all descend = false) : scope descend around es = [] := by
  unfold scope
  rw [List.filter_eq_nil_iff]
  intro n hn hall
  have : around.all descend = true :=
    List.all_eq_true.2 fun a ha => List.all_eq_true.1 hall a (around_memAll hn a ha)
  rw [h] at this; cases this

theorem scope_nil {descend : Element → Bool} {around : List Element} :
    scope descend around [] = [] := by simp [scope, nodesAll]

theorem scope_cons {descend : Element → Bool} {around : List Element} {e : Element}
    {es : List Element} (h : around.all descend = true) :
    scope descend around (e :: es) =
      ⟨around, e⟩ :: ((bif descend e then scope descend (e :: around) (children e) else []) ++
        scope descend around es) := by
  unfold scope
  rw [nodesAll, nodes_eq, List.cons_append, List.filter_cons, if_pos h,
    List.filter_append]
  congr 2
  cases hd : descend e with
  | true => rfl
  | false =>
    have := scope_dead (descend := descend) (around := e :: around) (es := children e) (by simp [hd])
    exact this

theorem scope_eq_inside (descend : Element → Bool) (d : FileDescriptor) :
    scope descend [] d.elements = inside descend d := rfl

/-! ## Visitors that only read their state -/

/-- The act keeps the state and yields these events, in some order. -/
def Runs (a : Act S) (s : S) (evs : List Event) : Prop :=
  ∃ evs', a s = (s, evs') ∧ evs'.Perm evs

theorem Runs.seq {a b : Act S} {s : S} {es fs : List Event} (ha : Runs a s es) (hb : Runs b s fs) :
    Runs (a.seq b) s (es ++ fs) := by
  obtain ⟨es', h1, p1⟩ := ha
  obtain ⟨fs', h2, p2⟩ := hb
  refine ⟨es' ++ fs', ?_, p1.append p2⟩
  unfold Act.seq
  rw [h1]
  dsimp only
  rw [h2]

theorem Runs.skip {s : S} : Runs Act.skip s [] := ⟨[], rfl, .refl _⟩

theorem Runs.emit {s : S} {es : List Event} : Runs (Act.emit es) s es := ⟨es, rfl, .refl _⟩

/-- The state at a node is a function of the nodes around it, and the visitor yields `own`
at each node it visits, as far as the nodes are `good`. -/
structure ReaderOn (good : Node → Prop) (v : Visitor S) (st : List Element → S)
    (own : Node → List Event) (descend : Element → Bool) : Prop where
  step : ∀ around e, good ⟨around, e⟩ → ∀ k kes, (descend e = true → Runs k (st (e :: around)) kes) →
    Runs (visit v (parentOf around) k e) (st around)
      (own ⟨around, e⟩ ++ bif descend e then kes else [])

theorem ReaderOn.all {good : Node → Prop} {v : Visitor S} {st : List Element → S}
    {own : Node → List Event} {descend : Element → Bool} (h : ReaderOn good v st own descend)
    (es : List Element) :
    ∀ around, (∀ n ∈ nodesAll around es, good n) → around.all descend = true →
      Runs (acceptAll v (parentOf around) es) (st around)
        ((scope descend around es).flatMap own) := by
  have key : ∀ cs : List Element, (∀ c ∈ cs, ∀ around, (∀ n ∈ nodes around c, good n) →
      around.all descend = true →
      Runs (accept v (parentOf around) c) (st around)
        (own ⟨around, c⟩ ++ bif descend c then
          (scope descend (c :: around) (children c)).flatMap own else [])) →
      ∀ around, (∀ n ∈ nodesAll around cs, good n) → around.all descend = true →
        Runs (acceptAll v (parentOf around) cs) (st around)
          ((scope descend around cs).flatMap own) := by
    intro cs
    induction cs with
    | nil => intro _ around _ _; rw [scope_nil]; unfold acceptAll; exact Runs.skip
    | cons c cs ih =>
      intro hcs around hg ha
      rw [scope_cons ha, List.flatMap_cons, List.flatMap_append, ← List.append_assoc]
      unfold acceptAll
      rw [nodesAll] at hg
      refine Runs.seq ?_ (ih (fun c hc => hcs c (List.mem_cons_of_mem _ hc)) around
        (fun n hn => hg n (List.mem_append_right _ hn)) ha)
      have := hcs c List.mem_cons_self around (fun n hn => hg n (List.mem_append_left _ hn)) ha
      cases hd : descend c with
      | true => rw [hd] at this; exact this
      | false => rw [hd] at this; exact this
  have one : ∀ e, ∀ around, (∀ n ∈ nodes around e, good n) → around.all descend = true →
      Runs (accept v (parentOf around) e) (st around)
        (own ⟨around, e⟩ ++ bif descend e then
          (scope descend (e :: around) (children e)).flatMap own else []) := by
    refine element_ind ?_
    intro e ih around hg ha
    rw [nodes_eq] at hg
    rw [accept_eq v (parentOf around) e around]
    exact h.step around e (hg _ List.mem_cons_self) _ _ fun hd => key _ ih (e :: around)
      (fun n hn => hg n (List.mem_cons_of_mem _ hn)) (by simp [hd, ha])
  exact key es fun c _ => one c

/-- The same without a condition. -/
abbrev Reader (v : Visitor S) (st : List Element → S) (own : Node → List Event)
    (descend : Element → Bool) : Prop := ReaderOn (fun _ => True) v st own descend

/-- The same for visitors without state whose methods have one of the usual shapes: yield
something, before or after the children. -/
theorem Reader.unit {v : Visitor Unit} {own : Node → List Event} {descend : Element → Bool}
    (h : ∀ around e k, visit v (parentOf around) k e =
        (bif descend e then (Act.emit (own ⟨around, e⟩)).seq k else Act.emit (own ⟨around, e⟩)) ∨
      visit v (parentOf around) k e =
        (bif descend e then k.seq (Act.emit (own ⟨around, e⟩)) else Act.emit (own ⟨around, e⟩))) :
    Reader v (fun _ => ()) own descend := by
  refine ⟨fun around e _ k kes hk => ?_⟩
  rcases h around e k with h | h <;> rw [h] <;> cases hd : descend e
  · exact ⟨own ⟨around, e⟩, rfl, .of_eq (List.append_nil _).symm⟩
  · exact Runs.emit.seq (hk hd)
  · exact ⟨own ⟨around, e⟩, rfl, .of_eq (List.append_nil _).symm⟩
  · obtain ⟨evs, h1, p1⟩ := (hk hd).seq (Runs.emit (es := own ⟨around, e⟩))
    exact ⟨evs, h1, p1.trans List.perm_append_comm⟩

/-! ## Visitors that collect -/

/-- One act after the other. -/
def steps (step : Node → Act S) : List Node → Act S
  | [] => Act.skip
  | n :: ns => (step n).seq (steps step ns)

theorem seq_assoc (a b c : Act S) : (a.seq b).seq c = a.seq (b.seq c) := by
  funext s
  simp only [Act.seq, List.append_assoc]

theorem skip_seq (a : Act S) : Act.skip.seq a = a := rfl

theorem seq_skip (a : Act S) : a.seq Act.skip = a := by
  funext s
  simp only [Act.seq, Act.skip, List.append_nil]

theorem steps_append (step : Node → Act S) (ns ms : List Node) :
    steps step (ns ++ ms) = (steps step ns).seq (steps step ms) := by
  induction ns with
  | nil => rfl
  | cons n ns ih => rw [List.cons_append, steps, ih, steps, seq_assoc]

/-- Each method does something first and then visits the children, or not. -/
def Steps (v : Visitor S) (step : Node → Act S) (descend : Element → Bool) : Prop :=
  ∀ around e k, visit v (parentOf around) k e =
    bif descend e then (step ⟨around, e⟩).seq k else step ⟨around, e⟩

theorem Steps.all {v : Visitor S} {step : Node → Act S} {descend : Element → Bool}
    (h : Steps v step descend) (es : List Element) :
    ∀ around, around.all descend = true →
      acceptAll v (parentOf around) es = steps step (scope descend around es) := by
  have key : ∀ cs : List Element, (∀ c ∈ cs, ∀ around, around.all descend = true →
      accept v (parentOf around) c = (step ⟨around, c⟩).seq (bif descend c then
          steps step (scope descend (c :: around) (children c)) else Act.skip)) →
      ∀ around, around.all descend = true →
        acceptAll v (parentOf around) cs = steps step (scope descend around cs) := by
    intro cs
    induction cs with
    | nil => intro _ around _; rw [scope_nil]; unfold acceptAll; rfl
    | cons c cs ih =>
      intro hcs around ha
      rw [scope_cons ha, steps, steps_append]
      unfold acceptAll
      rw [ih (fun c hc => hcs c (List.mem_cons_of_mem _ hc)) around ha,
        hcs c List.mem_cons_self around ha, seq_assoc]
      cases hd : descend c <;> rfl
  have one : ∀ e, ∀ around, around.all descend = true →
      accept v (parentOf around) e = (step ⟨around, e⟩).seq (bif descend e then
          steps step (scope descend (e :: around) (children e)) else Act.skip) := by
    refine element_ind ?_
    intro e ih around ha
    rw [accept_eq v (parentOf around) e around, h]
    cases hd : descend e with
    | true => rw [key _ ih (e :: around) (by simp [hd, ha])]; rfl
    | false => exact (seq_skip _).symm
  exact key es fun c _ => one c

/-! ## What every act keeps -/

/-- The act keeps `Q` and yields only `P`. -/
def Keeps (Q : S → Prop) (P : Event → Prop) (a : Act S) : Prop :=
  ∀ s, Q s → Q (a s).1 ∧ ∀ ev ∈ (a s).2, P ev

theorem Keeps.skip {Q : S → Prop} {P : Event → Prop} : Keeps Q P Act.skip :=
  fun _ h => ⟨h, fun _ h => nomatch h⟩

theorem Keeps.seq {Q : S → Prop} {P : Event → Prop} {a b : Act S} (ha : Keeps Q P a)
    (hb : Keeps Q P b) : Keeps Q P (a.seq b) := by
  intro s hs
  obtain ⟨h1, p1⟩ := ha s hs
  obtain ⟨h2, p2⟩ := hb _ h1
  refine ⟨h2, fun ev hev => ?_⟩
  rcases List.mem_append.1 hev with h | h
  · exact p1 ev h
  · exact p2 ev h

theorem Keeps.emit {Q : S → Prop} {P : Event → Prop} {es : List Event} (h : ∀ ev ∈ es, P ev) :
    Keeps Q P (Act.emit es) := fun _ hs => ⟨hs, h⟩

theorem Keeps.modify {Q : S → Prop} {P : Event → Prop} {f : S → S} (h : ∀ s, Q s → Q (f s)) :
    Keeps Q P (Act.modify f) := fun s hs => ⟨h s hs, fun _ h => nomatch h⟩

theorem keeps_all {v : Visitor S} {ok : Node → Prop} {Q : S → Prop} {P : Event → Prop}
    (h : ∀ around e, ok ⟨around, e⟩ → ∀ k, Keeps Q P k → Keeps Q P (visit v (parentOf around) k e))
    (es : List Element) :
    ∀ around, (∀ n ∈ nodesAll around es, ok n) → Keeps Q P (acceptAll v (parentOf around) es) := by
  have key : ∀ cs : List Element, (∀ c ∈ cs, ∀ around, (∀ n ∈ nodes around c, ok n) →
      Keeps Q P (accept v (parentOf around) c)) →
      ∀ around, (∀ n ∈ nodesAll around cs, ok n) → Keeps Q P (acceptAll v (parentOf around) cs) := by
    intro cs
    induction cs with
    | nil => intro _ around _; unfold acceptAll; exact Keeps.skip
    | cons c cs ih =>
      intro hcs around hn
      unfold acceptAll
      refine (hcs c List.mem_cons_self around fun n h => hn n ?_).seq
        (ih (fun c hc => hcs c (List.mem_cons_of_mem _ hc)) around fun n h => hn n ?_)
      · rw [nodesAll]; exact List.mem_append_left _ h
      · rw [nodesAll]; exact List.mem_append_right _ h
  refine key es fun c _ => ?_
  refine element_ind (P := fun c => ∀ around, (∀ n ∈ nodes around c, ok n) →
      Keeps Q P (accept v (parentOf around) c)) ?_ c
  intro e ih around hn
  rw [nodes_eq] at hn
  rw [accept_eq v (parentOf around) e around]
  exact h around e (hn _ List.mem_cons_self) _
    (key _ ih (e :: around) fun n h => hn n (List.mem_cons_of_mem _ h))

/-! ## Runs over several files -/

/-- One file. -/
def fileRun (v : Visitor S) (d : FileDescriptor) (s : S) : S × List Event × Option Err :=
  let r := ((v.onStart d).seq (acceptAll v .file d.elements)) s
  let f := v.finally_ r.1
  (f.1, r.2 ++ f.2.1, f.2.2)

theorem runVisitor_cons (v : Visitor S) (d : FileDescriptor) (ds : List FileDescriptor) (s : S) :
    runVisitor v (d :: ds) s =
      match (fileRun v d s).2.2 with
      | some err => ((fileRun v d s).1, (fileRun v d s).2.1, some err)
      | none => ((runVisitor v ds (fileRun v d s).1).1,
          (fileRun v d s).2.1 ++ (runVisitor v ds (fileRun v d s).1).2.1,
          (runVisitor v ds (fileRun v d s).1).2.2) := by
  rw [runVisitor]
  unfold fileRun
  dsimp only
  split <;> rename_i h <;> rw [h]

/-- If each file goes well from each state that may come up, so does the run. -/
theorem runVisitor_files {v : Visitor S} {I : S → Prop} {ok : FileDescriptor → Prop}
    {out : FileDescriptor → List Event}
    (h : ∀ d, ok d → ∀ s, I s →
      ∃ s' evs, fileRun v d s = (s', evs, none) ∧ I s' ∧ evs.Perm (out d))
    (ds : List FileDescriptor) (hok : ∀ d ∈ ds, ok d) (s : S) (hs : I s) :
    ∃ s' evs, runVisitor v ds s = (s', evs, none) ∧ I s' ∧ evs.Perm (ds.flatMap out) := by
  induction ds generalizing s with
  | nil => exact ⟨s, [], rfl, hs, .refl _⟩
  | cons d ds ih =>
    obtain ⟨s1, e1, h1, hs1, p1⟩ := h d (hok d List.mem_cons_self) s hs
    obtain ⟨s2, e2, h2, hs2, p2⟩ := ih (fun d hd => hok d (List.mem_cons_of_mem _ hd)) s1 hs1
    refine ⟨s2, e1 ++ e2, ?_, hs2, ?_⟩
    · rw [runVisitor_cons, h1]
      dsimp only
      rw [h2]
    · rw [List.flatMap_cons]
      exact p1.append p2

/-- A run of a reader. -/
theorem ReaderOn.run {good : Node → Prop} {v : Visitor S} {st : FileDescriptor → List Element → S}
    {I : S → Prop} {ok : FileDescriptor → Prop} (hgood : ∀ d, ok d → ∀ n ∈ fileNodes d, good n)
    {own : FileDescriptor → Node → List Event} {start fin : FileDescriptor → List Event}
    {descend : Element → Bool}
    (h : ∀ d, ReaderOn good v (st d) (own d) descend)
    (hstart : ∀ d s, I s → v.onStart d s = (st d [], start d))
    (hfin : ∀ d, ok d → ∃ s', v.finally_ (st d []) = (s', fin d, none) ∧ I s')
    (ds : List FileDescriptor) (hok : ∀ d ∈ ds, ok d) (s : S) (hs : I s) :
    ∃ evs, (runVisitor v ds s).2 = (evs, none) ∧
      evs.Perm (ds.flatMap fun d => start d ++ (inside descend d).flatMap (own d) ++ fin d) := by
  obtain ⟨s', evs, h1, _, h2⟩ := runVisitor_files (v := v) (I := I) (ok := ok)
    (out := fun d => start d ++ (inside descend d).flatMap (own d) ++ fin d) (by
      intro d hd s hs
      obtain ⟨evs, h1, p1⟩ := (h d).all d.elements [] (hgood d hd) rfl
      obtain ⟨s', h2, hI⟩ := hfin d hd
      refine ⟨s', start d ++ evs ++ fin d, ?_, hI, ?_⟩
      · unfold fileRun
        unfold Act.seq
        dsimp only
        have h1' : acceptAll v Parent.file d.elements (st d []) = (st d [], evs) := h1
        rw [hstart d s hs]
        dsimp only
        rw [h1']
        dsimp only
        rw [h2]
      · exact ((List.Perm.refl _).append p1).append (.refl _)) ds hok s hs
  exact ⟨evs, by rw [h1], h2⟩

/-- A run of a collecting visitor that begins anew with each file. -/
theorem Steps.run {v : Visitor S} {step : Node → Act S} {st : FileDescriptor → S}
    {ok : FileDescriptor → Prop} {fin : FileDescriptor → List Event}
    {descend : Element → Bool} (h : Steps v step descend)
    (hstart : ∀ d s, v.onStart d s = (st d, []))
    (hfin : ∀ d, ok d →
      ∃ s', v.finally_ (steps step (inside descend d) (st d)).1 = (s', fin d, none))
    (ds : List FileDescriptor) (hok : ∀ d ∈ ds, ok d) (s : S) :
    ∃ evs, (runVisitor v ds s).2 = (evs, none) ∧
      evs.Perm (ds.flatMap fun d => (steps step (inside descend d) (st d)).2 ++ fin d) := by
  obtain ⟨s', evs, h1, _, h2⟩ := runVisitor_files (v := v) (I := fun _ => True) (ok := ok)
    (out := fun d => (steps step (inside descend d) (st d)).2 ++ fin d) (by
      intro d hd s _
      obtain ⟨s', h2⟩ := hfin d hd
      refine ⟨s', (steps step (inside descend d) (st d)).2 ++ fin d, ?_, trivial, .refl _⟩
      have ha := h.all d.elements [] rfl
      have ha' : acceptAll v Parent.file d.elements = steps step (inside descend d) := ha
      unfold fileRun Act.seq
      rw [ha', hstart]
      dsimp only
      rw [h2]
      rfl) ds hok s trivial
  exact ⟨evs, by rw [h1], h2⟩

/-! ## Acts on the things of a kind -/

/-- One act after the other. -/
def acts {α : Type} (f : α → Act S) : List α → Act S
  | [] => Act.skip
  | a :: as => (f a).seq (acts f as)

/-- A step that only concerns the things picked. -/
def onPick {α : Type} (pick : Node → Option α) (f : α → Act S) (n : Node) : Act S :=
  match pick n with
  | some a => f a
  | none => Act.skip

theorem steps_pick {α : Type} (pick : Node → Option α) (f : α → Act S) (ns : List Node) :
    steps (onPick pick f) ns = acts f (ns.filterMap pick) := by
  induction ns with
  | nil => rfl
  | cons n ns ih =>
    rw [steps, ih]
    cases hp : pick n with
    | none => rw [List.filterMap_cons_none hp, onPick, hp]; exact skip_seq _
    | some a => rw [List.filterMap_cons_some hp, onPick, hp]; rfl

/-- Acts that only change the state. -/
theorem acts_modify {α : Type} (g : α → S → S) (as : List α) (s : S) :
    acts (fun a => Act.modify (g a)) as s = (as.foldl (fun s a => g a s) s, []) := by
  induction as generalizing s with
  | nil => rfl
  | cons a as ih =>
    rw [acts, Act.seq, Act.modify]
    dsimp only
    rw [ih]
    rfl

end Verif.Lint
