import Verif.Spec.Discovery

/-!
# Proofs about the walk with a timeout
-/

namespace Verif.File

open Verif Str Path Settings Spec

/-- The pending visits done one after the other, without a timeout. -/
def runTodo (c : WalkConfig) : List (Str × Node) → WalkState → Except Err (List ProtoFile)
  | [], st => .ok st.protoFiles
  | (p, node) :: rest, st =>
    match walk c node p st with
    | .error e => .error e
    | .ok st => runTodo c rest st

theorem runTodo_pending (c : WalkConfig) (p : Str) (entries : List (Str × Node)) (rest : List (Str × Node))
    (st : WalkState) :
    runTodo c (pending p entries ++ rest) st =
      match walkEntries c entries p st with
      | .error e => .error e
      | .ok st => runTodo c rest st := by
  induction entries generalizing st with
  | nil => simp [pending, walkEntries]
  | cons e entries ih =>
    obtain ⟨name, node⟩ := e
    simp only [pending, List.map_cons, List.cons_append]
    rw [runTodo, walkEntries]
    cases walk c node (joinPath [p, name]) st with
    | error e => rfl
    | ok st => exact ih st

theorem runTodo_callback (c : WalkConfig) (p : Str) (node : Node) (rest : List (Str × Node)) (st : WalkState) :
    runTodo c ((p, node) :: rest) st =
      match callback c false p node rest st with
      | .error e => .error e
      | .ok (todo, st) => runTodo c todo st := by
  rw [runTodo]
  unfold callback
  cases node with
  | unreadable e => rw [walk]
  | broken e => rw [walk]
  | file =>
    rw [walk]
    simp only [Bool.false_eq_true, if_false]
    cases visitFile c p st <;> rfl
  | dir entries =>
    rw [walk]
    simp only [Bool.false_eq_true, if_false]
    cases visitDir c p st with
    | skipDir st => rfl
    | fail e => rfl
    | next st => exact (runTodo_pending c p entries rest st).symm

/-- What the walking goroutine is about to deliver if it is not timed out. -/
def Walker.Delivers (c : WalkConfig) (W : Except Err (List ProtoFile)) : Walker → Prop
  | .walking todo st => runTodo c todo st = W
  | .sending r => r = W
  | .done => True

structure MachineInv (c : WalkConfig) (hasTimeout : Bool) (W : Except Err (List ProtoFile)) (m : Machine) : Prop where
  delivers : m.timedOut = false → m.walker.Delivers c W
  selecting : m.waiter = .selecting → m.timedOut = false
  timer : m.waiter = .timerFired → m.timedOut = false
  noTimer : hasTimeout = false → m.timedOut = false ∧ m.waiter ≠ .timerFired ∧ m.waiter ≠ .receiving
  done : m.walker = .done ↔ ∃ r, m.waiter = .returned r
  returned : ∀ r, m.waiter = .returned r → r = W ∨ (hasTimeout = true ∧ ∃ e, r = .error e)

theorem machineInv {c : WalkConfig} {hasTimeout : Bool} {root : Node} {excludes : List Str} {m : Machine}
    (h : Reachable c hasTimeout root excludes m) : MachineInv c hasTimeout (walkAll c root excludes) m := by
  induction h with
  | init =>
    refine ⟨fun _ => ?_, fun _ => rfl, fun h => rfl, fun _ => ⟨rfl, by simp [initial], by simp [initial]⟩,
      by simp [initial], by simp [initial]⟩
    show runTodo c [(c.absDirPath, root)] ⟨excludes, []⟩ = walkAll c root excludes
    rw [runTodo]
    unfold walkAll
    cases walk c root c.absDirPath ⟨excludes, []⟩ <;> rfl
  | step _ hs ih =>
    cases hs with
    | @visit p node rest todo st st' w t hc =>
      refine ⟨fun ht => ?_, ih.selecting, ih.timer, ih.noTimer, ?_, ih.returned⟩
      · have ht : t = false := ht
        subst ht
        have h1 : runTodo c ((p, node) :: rest) st = walkAll c root excludes := ih.delivers rfl
        rw [runTodo_callback, hc] at h1
        exact h1
      · have := ih.done
        simpa using this
    | @fail p node rest st e w t hc =>
      refine ⟨fun ht => ?_, ih.selecting, ih.timer, ih.noTimer, ?_, ih.returned⟩
      · have ht : t = false := ht
        subst ht
        have h1 : runTodo c ((p, node) :: rest) st = walkAll c root excludes := ih.delivers rfl
        rw [runTodo_callback, hc] at h1
        exact h1
      · have := ih.done
        simpa using this
    | @finish st w t =>
      refine ⟨fun ht => ?_, ih.selecting, ih.timer, ih.noTimer, ?_, ih.returned⟩
      · exact ih.delivers ht
      · have := ih.done
        simpa using this
    | @timer k t ht =>
      refine ⟨ih.delivers, by simp, fun _ => ih.selecting rfl, fun h => (by rw [ht] at h; cases h), ?_, by simp⟩
      have := ih.done
      simpa using this
    | @setTimedOut k t =>
      refine ⟨fun h => (by cases h), by simp, by simp, fun h => absurd rfl (ih.noTimer h).2.1, ?_, by simp⟩
      have := ih.done
      simpa using this
    | @receive r t =>
      refine ⟨fun _ => trivial, by simp, by simp, fun h => ⟨(ih.noTimer h).1, by simp, by simp⟩, by simp, ?_⟩
      intro r' hr
      injection hr with hr
      subst hr
      have : t = false := ih.selecting rfl
      subst this
      exact Or.inl (ih.delivers rfl)
    | @receiveLate r t =>
      refine ⟨fun _ => trivial, by simp, by simp, fun h => absurd rfl (ih.noTimer h).2.2, by simp, ?_⟩
      intro r' hr
      injection hr with hr
      refine Or.inr ⟨?_, ?_⟩
      · cases hT : hasTimeout with
        | true => rfl
        | false => exact absurd rfl (ih.noTimer hT).2.2
      · subst hr
        cases r with
        | error e => exact ⟨e, rfl⟩
        | ok _ => exact ⟨_, rfl⟩

/-- Some goroutine can go on until the result is returned. -/
theorem progress {c : WalkConfig} {hasTimeout : Bool} {root : Node} {excludes : List Str} {m : Machine}
    (h : Reachable c hasTimeout root excludes m) (hr : ∀ r, m.waiter ≠ .returned r) :
    ∃ m', Step c hasTimeout m m' := by
  have hi := machineInv h
  obtain ⟨walker, waiter, t⟩ := m
  cases walker with
  | walking todo st =>
    cases todo with
    | nil => exact ⟨_, .finish⟩
    | cons x rest =>
      obtain ⟨p, node⟩ := x
      cases hc : callback c t p node rest st with
      | error e => exact ⟨_, .fail hc⟩
      | ok r => exact ⟨_, .visit (todo := r.1) (st' := r.2) hc⟩
  | sending r =>
    cases waiter with
    | selecting => exact ⟨_, .receive⟩
    | timerFired => exact ⟨_, .setTimedOut⟩
    | receiving => exact ⟨_, .receiveLate⟩
    | returned r => exact absurd rfl (hr r)
  | done =>
    obtain ⟨r, h⟩ := hi.done.1 rfl
    exact absurd h (hr r)

/-! ## Termination -/

mutual
/-- The number of entries of a tree. -/
def Node.size : Node → Nat
  | .file => 1
  | .dir entries => 1 + entriesSize entries
  | .unreadable _ => 1
  | .broken _ => 1

def entriesSize : List (Str × Node) → Nat
  | [] => 0
  | (_, node) :: rest => node.size + entriesSize rest
end

theorem entriesSize_append (a b : List (Str × Node)) : entriesSize (a ++ b) = entriesSize a + entriesSize b := by
  induction a with
  | nil => simp [entriesSize]
  | cons x a ih =>
    obtain ⟨p, n⟩ := x
    simp only [List.cons_append, entriesSize, ih]
    omega

theorem entriesSize_pending (p : Str) (a : List (Str × Node)) : entriesSize (pending p a) = entriesSize a := by
  induction a with
  | nil => simp [pending, entriesSize]
  | cons x a ih =>
    obtain ⟨q, n⟩ := x
    simp only [pending, List.map_cons, entriesSize] at ih ⊢
    rw [ih]

def Walker.measure : Walker → Nat
  | .walking todo _ => 2 + entriesSize todo
  | .sending _ => 1
  | .done => 0

def Waiter.measure : Waiter → Nat
  | .selecting => 3
  | .timerFired => 2
  | .receiving => 1
  | .returned _ => 0

theorem callback_measure {c : WalkConfig} {t : Bool} {p : Str} {node : Node} {rest todo : List (Str × Node)}
    {st st' : WalkState} (h : callback c t p node rest st = .ok (todo, st')) :
    entriesSize todo < entriesSize ((p, node) :: rest) := by
  rw [entriesSize]
  unfold callback at h
  cases node with
  | unreadable e => cases h
  | broken e => cases h
  | file =>
    dsimp only at h
    split at h
    · cases h
    · split at h
      · injection h with h; injection h with h1 _; subst h1; simp [Node.size]
      · injection h with h; injection h with h1 _; subst h1; simp [Node.size]
      · cases h
  | dir entries =>
    dsimp only at h
    split at h
    · cases h
    · split at h
      · injection h with h; injection h with h1 _; subst h1
        rw [entriesSize_append, entriesSize_pending]
        simp only [Node.size]
        omega
      · injection h with h; injection h with h1 _; subst h1; simp only [Node.size]; omega
      · cases h

theorem step_measure {c : WalkConfig} {hasTimeout : Bool} {m m' : Machine} (h : Step c hasTimeout m m') :
    m'.walker.measure + m'.waiter.measure < m.walker.measure + m.waiter.measure := by
  cases h with
  | visit hc =>
    have := callback_measure hc
    simp only [Walker.measure]
    omega
  | fail hc => simp only [Walker.measure]; omega
  | finish => simp only [Walker.measure]; omega
  | timer _ => simp only [Waiter.measure]; omega
  | setTimedOut => simp only [Waiter.measure]; omega
  | receive => simp only [Walker.measure, Waiter.measure]; omega
  | receiveLate => simp only [Walker.measure, Waiter.measure]; omega

end Verif.File
