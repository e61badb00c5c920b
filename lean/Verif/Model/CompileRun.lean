import Verif.Model.Compiler

/-!
# Model of the concurrent runs of protoc

`Compile`, internal/protoc/compiler.go:103-187, with the loop that starts a goroutine for
every command and the goroutines as a step machine. The section between `lock.Lock()` and
`lock.Unlock()` is one step. The commands are given by their numbers.
-/

namespace Verif.Protoc

open Verif Str File Text

/-- Where the loop of internal/protoc/compiler.go:131-146 and what follows it is. -/
inductive Main where
  /-- at the start of the body for the command `i`, or at the end of the loop -/
  | loop (i : Nat)
  /-- in `semaphoreC <- struct{}{}`, after `wg.Add(1)` -/
  | acquire (i : Nat)
  /-- in `wg.Wait()` -/
  | waiting
  /-- after `wg.Wait()` -/
  | done
deriving DecidableEq

/-- Where a goroutine is. -/
inductive Phase where
  /-- in `runCmdMeta` -/
  | running
  /-- before the section that holds the lock -/
  | ran
  /-- before `<-semaphoreC` -/
  | recorded
  /-- before `wg.Done()` -/
  | released
deriving DecidableEq

/-- The variables of `Compile`: `sem` is the number of values in the channel, `wg` the
counter of the group. -/
structure State where
  main : Main
  procs : List (Nat × Phase)
  sem : Nat
  wg : Nat
  failures : List Failure
  errs : List Err

/-- Before the loop. -/
def State.init : State := ⟨.loop 0, [], 0, 0, [], []⟩

/-- The steps, for `n` commands, a channel of capacity `cap` and given results of
`runCmdMeta`. -/
inductive Step (n cap : Nat) (result : Nat → List Failure × Option Err) : State → State → Prop
  /-- `wg.Add(1)` -/
  | add {i procs sem wg fs es} : i < n →
      Step n cap result ⟨.loop i, procs, sem, wg, fs, es⟩ ⟨.acquire i, procs, sem, wg + 1, fs, es⟩
  /-- `semaphoreC <- struct{}{}` and `go` -/
  | start {i procs sem wg fs es} : sem < cap →
      Step n cap result ⟨.acquire i, procs, sem, wg, fs, es⟩
        ⟨.loop (i + 1), procs ++ [(i, .running)], sem + 1, wg, fs, es⟩
  /-- the end of the loop -/
  | endLoop {procs sem wg fs es} :
      Step n cap result ⟨.loop n, procs, sem, wg, fs, es⟩ ⟨.waiting, procs, sem, wg, fs, es⟩
  /-- `wg.Wait()` returns -/
  | wait {procs sem fs es} :
      Step n cap result ⟨.waiting, procs, sem, 0, fs, es⟩ ⟨.done, procs, sem, 0, fs, es⟩
  /-- `runCmdMeta` returns -/
  | run {main before i after sem wg fs es} :
      Step n cap result ⟨main, before ++ (i, .running) :: after, sem, wg, fs, es⟩
        ⟨main, before ++ (i, .ran) :: after, sem, wg, fs, es⟩
  /-- the section that holds the lock -/
  | record {main before i after sem wg fs es} :
      Step n cap result ⟨main, before ++ (i, .ran) :: after, sem, wg, fs, es⟩
        ⟨main, before ++ (i, .recorded) :: after, sem, wg, fs ++ (result i).1,
          es ++ (result i).2.toList⟩
  /-- `<-semaphoreC` -/
  | release {main before i after sem wg fs es} :
      Step n cap result ⟨main, before ++ (i, .recorded) :: after, sem + 1, wg, fs, es⟩
        ⟨main, before ++ (i, .released) :: after, sem, wg, fs, es⟩
  /-- `wg.Done()` -/
  | finish {main before i after sem wg fs es} :
      Step n cap result ⟨main, before ++ (i, .released) :: after, sem, wg + 1, fs, es⟩
        ⟨main, before ++ after, sem, wg, fs, es⟩

/-- `k` steps lead from one state to another. -/
inductive Steps (n cap : Nat) (result : Nat → List Failure × Option Err) :
    Nat → State → State → Prop
  | refl (s) : Steps n cap result 0 s s
  | tail {k s t u} : Steps n cap result k s t → Step n cap result t u → Steps n cap result (k + 1) s u

/-- The result of `runCmdMeta` for the command `i`. -/
def resultOf (cmds : List CmdMeta) (ended : Nat → Ended) (i : Nat) : List Failure × Option Err :=
  match cmds[i]? with
  | some m => runCmdMeta m (ended i)
  | none => ([], none)

/-- `Compile`, internal/protoc/compiler.go:103-187: `Compiles env c protoSet ended live live' r`
says that it can return `r` and leave the temporary files `live'` if there were the files `live`
and the runs of protoc end as `ended` says. -/
inductive Compiles (env : Env) (c : Options) (protoSet : ProtoSet) (ended : Nat → Ended)
    (live : List Str) : List Str → Except Err CompileResult → Prop
  /-- `getCmdMetas` fails and returns no commands -/
  | noCommands {live' e} : getCmdMetas env c protoSet live = (live', .error e) →
      Compiles env c protoSet ended live (cleanCmdMetas live' []) (.error e)
  /-- `makeGenDirs` fails -/
  | noDirs {live' cmds e} : getCmdMetas env c protoSet live = (live', .ok cmds) →
      c.doGen = true → (makeGenDirs env protoSet).2 = some e →
      Compiles env c protoSet ended live (cleanCmdMetas live' cmds) (.error e)
  /-- the commands are run -/
  | ran {live' cmds k s} : getCmdMetas env c protoSet live = (live', .ok cmds) →
      (c.doGen = true → (makeGenDirs env protoSet).2 = none) →
      Steps cmds.length env.numCPU (resultOf cmds ended) k State.init s → s.main = .done →
      Compiles env c protoSet ended live (cleanCmdMetas live' cmds)
        (afterWait env cmds s.failures s.errs)

end Verif.Protoc
