import Verif.Model.File

/-!
# Model of the walk with a timeout

internal/file/proto_set_provider.go:230-299: the goroutine that walks, the goroutine
that waits, and the timer, as a step machine. Reads and writes of `timedOut` are
taken to be atomic (the Go code has a data race on this variable).
-/

namespace Verif.File

open Verif Str Path Settings

/-- The error of a walk that was timed out, internal/file/proto_set_provider.go:240-242. -/
def timedOutError : Err := s%"walking the directory structure looking for proto files timed out"

/-- The error of internal/file/proto_set_provider.go:298. -/
def internalError : Err := s%"internal prototool error"

/-- The entries of a directory as pending visits. -/
def pending (p : Str) (entries : List (Str × Node)) : List (Str × Node) :=
  entries.map fun e => (joinPath [p, e.1], e.2)

/-- One callback of the walk: the pending visits and the variables after it, or the
error that ends the walk. internal/file/proto_set_provider.go:234-278. -/
def callback (c : WalkConfig) (timedOut : Bool) (p : Str) (node : Node) (rest : List (Str × Node))
    (st : WalkState) : Except Err (List (Str × Node) × WalkState) :=
  match node with
  | .unreadable e => .error e
  | .broken e => .error e
  | .file =>
    if timedOut then .error timedOutError
    else
      match visitFile c p st with
      | .next st => .ok (rest, st)
      | .skipDir st => .ok (rest, st)
      | .fail e => .error e
  | .dir entries =>
    if timedOut then .error timedOutError
    else
      match visitDir c p st with
      | .next st => .ok (pending p entries ++ rest, st)
      | .skipDir st => .ok (rest, st)
      | .fail e => .error e

/-- Where the walking goroutine is. -/
inductive Walker where
  | walking (todo : List (Str × Node)) (st : WalkState)
  /-- blocked on `walkErrC <-` -/
  | sending (result : Except Err (List ProtoFile))
  | done

/-- Where the waiting goroutine is. -/
inductive Waiter where
  /-- in the `select` of :287, or the receive of :282 if there is no timeout -/
  | selecting
  /-- the timer case was taken, :293 -/
  | timerFired
  /-- in the receive of :295 -/
  | receiving
  | returned (result : Except Err (List ProtoFile))

structure Machine where
  walker : Walker
  waiter : Waiter
  timedOut : Bool

/-- The state after `go func()`. -/
def initial (c : WalkConfig) (root : Node) (excludes : List Str) : Machine :=
  ⟨.walking [(c.absDirPath, root)] ⟨excludes, []⟩, .selecting, false⟩

/-- The steps of the two goroutines and the timer. `hasTimeout` is `c.walkTimeout != 0`. -/
inductive Step (c : WalkConfig) (hasTimeout : Bool) : Machine → Machine → Prop
  /-- a callback that does not end the walk -/
  | visit {p node rest todo st st' w t} :
      callback c t p node rest st = .ok (todo, st') →
      Step c hasTimeout ⟨.walking ((p, node) :: rest) st, w, t⟩ ⟨.walking todo st', w, t⟩
  /-- a callback that ends the walk -/
  | fail {p node rest st e w t} :
      callback c t p node rest st = .error e →
      Step c hasTimeout ⟨.walking ((p, node) :: rest) st, w, t⟩ ⟨.sending (.error e), w, t⟩
  /-- the walk is complete; the result stands for the variable `protoFiles` -/
  | finish {st w t} :
      Step c hasTimeout ⟨.walking [] st, w, t⟩ ⟨.sending (.ok st.protoFiles), w, t⟩
  /-- the timer case of the `select` -/
  | timer {k t} : hasTimeout = true →
      Step c hasTimeout ⟨k, .selecting, t⟩ ⟨k, .timerFired, t⟩
  /-- `timedOut = true` -/
  | setTimedOut {k t} : Step c hasTimeout ⟨k, .timerFired, t⟩ ⟨k, .receiving, true⟩
  /-- the receive of :282 or :288 and what follows -/
  | receive {r t} : Step c hasTimeout ⟨.sending r, .selecting, t⟩ ⟨.done, .returned r, t⟩
  /-- the receive of :295 and what follows -/
  | receiveLate {r t} :
      Step c hasTimeout ⟨.sending r, .receiving, t⟩
        ⟨.done, .returned (match r with | .error e => .error e | .ok _ => .error internalError), t⟩

end Verif.File
