import Verif.Model.CompileRun

/-! # The runs of protoc: what holds in every state -/

namespace Verif.Protoc

open Verif Str File Text

/-- How many commands the loop has started. -/
def Main.started (n : Nat) : Main → Nat
  | .loop i => i
  | .acquire i => i
  | .waiting => n
  | .done => n

def Phase.holds : Phase → Bool
  | .released => false
  | _ => true

def Phase.pending : Phase → Bool
  | .running | .ran => true
  | _ => false

/-- The commands whose results are not in the variables yet. -/
def pendingOf (procs : List (Nat × Phase)) : List Nat :=
  (procs.filter (·.2.pending)).map (·.1)

structure Inv (n cap : Nat) (result : Nat → List Failure × Option Err) (s : State) : Prop where
  bound : s.main.started n ≤ n
  acquire : ∀ i, s.main = .acquire i → i < n
  sem : s.sem = (s.procs.filter (·.2.holds)).length
  cap : s.sem ≤ cap
  wg : s.wg = s.procs.length + (match s.main with | .acquire _ => 1 | _ => 0)
  quiet : s.main = .done → s.wg = 0
  recorded : ∃ rec : List Nat, (pendingOf s.procs ++ rec).Perm (List.range (s.main.started n)) ∧
    s.failures = rec.flatMap (fun i => (result i).1) ∧
    s.errs = rec.flatMap (fun i => (result i).2.toList)

theorem inv_init {n cap result} : Inv n cap result State.init where
  bound := Nat.zero_le _
  acquire := by intro i h; cases h
  sem := rfl
  cap := Nat.zero_le _
  wg := rfl
  quiet := by intro h; cases h
  recorded := ⟨[], by simp [State.init, pendingOf, Main.started], rfl, rfl⟩

theorem inv_step {n cap result s t} (h : Step n cap result s t) (hs : Inv n cap result s) :
    Inv n cap result t := by
  obtain ⟨hb, ha, hsem, hcap, hwg, hq, rec, hrec, hf, he⟩ := hs
  cases h with
  | add hi =>
    exact ⟨hb, fun j hj => by cases hj; exact hi, hsem, hcap, by simp_all, (fun h => by cases h),
      rec, hrec, hf, he⟩
  | @start i procs sem wg fs es hlt =>
    have hi := ha i rfl
    refine ⟨hi, (fun _ h => by cases h), ?_, hlt, ?_, (fun h => by cases h), rec, ?_, hf, he⟩
    · simp_all [Phase.holds]
    · simp_all
    · simp only [Main.started, pendingOf, List.filter_append, List.map_append] at hrec ⊢
      rw [List.range_succ]
      simp only [Phase.pending, List.filter_cons, List.filter_nil, if_true, List.map_cons,
        List.map_nil]
      have h1 := hrec.append_right [i]
      refine List.Perm.trans ?_ h1
      rw [List.append_assoc, List.append_assoc]
      exact List.Perm.append_left _ List.perm_append_comm
  | endLoop => exact ⟨Nat.le_refl _, (fun _ h => by cases h), hsem, hcap, hwg, (fun h => by cases h), rec, hrec, hf, he⟩
  | wait => exact ⟨Nat.le_refl _, (fun _ h => by cases h), hsem, hcap, hwg, fun _ => rfl, rec, hrec, hf, he⟩
  | run =>
    refine ⟨hb, ha, ?_, hcap, ?_, hq, rec, ?_, hf, he⟩
    · simpa [Phase.holds] using hsem
    · simpa using hwg
    · simpa [pendingOf, Phase.pending] using hrec
  | @record main before i after sem wg fs es =>
    refine ⟨hb, ha, ?_, hcap, ?_, hq, rec ++ [i], ?_, ?_, ?_⟩
    · simpa [Phase.holds] using hsem
    · simpa using hwg
    · refine List.Perm.trans ?_ hrec
      simp only [pendingOf, Phase.pending, List.filter_append, List.filter_cons, if_true,
        List.map_append, List.map_cons, Bool.false_eq_true, if_false, List.append_assoc,
        List.cons_append]
      refine List.Perm.append_left _ ?_
      rw [← List.append_assoc]
      exact List.perm_append_comm.trans (List.Perm.refl _)
    · simp only at hf ⊢; rw [hf]; simp
    · simp only at he ⊢; rw [he]; simp
  | @release main before i after sem wg fs es =>
    refine ⟨hb, ha, ?_, Nat.le_of_succ_le hcap, ?_, hq, rec, ?_, hf, he⟩
    · simp only [Phase.holds, List.filter_append, List.filter_cons, if_true, List.length_append,
        List.length_cons, Bool.false_eq_true, if_false] at hsem ⊢
      omega
    · simpa using hwg
    · simpa [pendingOf, Phase.pending] using hrec
  | @finish main before i after sem wg fs es =>
    refine ⟨hb, ha, ?_, hcap, ?_, ?_, rec, ?_, hf, he⟩
    · simpa [Phase.holds] using hsem
    · simp only [List.length_append, List.length_cons] at hwg ⊢; omega
    · intro hd; have := hq hd; simp at this
    · simpa [pendingOf, Phase.pending] using hrec

theorem inv_steps {n cap result k s t} (h : Steps n cap result k s t) (hs : Inv n cap result s) :
    Inv n cap result t := by
  induction h with
  | refl => exact hs
  | tail _ h ih => exact inv_step h (ih hs)

/-- An upper bound for the number of steps left. -/
def Phase.left : Phase → Nat
  | .running => 4
  | .ran => 3
  | .recorded => 2
  | .released => 1

def State.left (n : Nat) (s : State) : Nat :=
  (match s.main with
    | .loop i => 6 * (n - i) + 2
    | .acquire i => 6 * (n - i) + 1
    | .waiting => 1
    | .done => 0) + (s.procs.map (·.2.left)).sum

theorem left_step {n cap result s t} (h : Step n cap result s t) (hs : Inv n cap result s) :
    t.left n + 1 ≤ s.left n := by
  cases h with
  | add hi => simp [State.left]; omega
  | @start i =>
    have := hs.acquire i rfl
    simp [State.left, Phase.left]; omega
  | endLoop => simp [State.left]; omega
  | wait => simp [State.left]; omega
  | run => simp [State.left, Phase.left]; omega
  | record => simp [State.left, Phase.left]; omega
  | release => simp [State.left, Phase.left]; omega
  | finish => simp [State.left, Phase.left]; omega

theorem left_steps {n cap result k s t} (h : Steps n cap result k s t) (hs : Inv n cap result s) :
    t.left n + k ≤ s.left n := by
  induction h with
  | refl => exact Nat.le_refl _
  | tail h1 h2 ih =>
    have := left_step h2 (inv_steps h1 hs)
    have := ih hs
    omega

theorem progress {n cap result s} (hcap : 0 < cap) (hs : Inv n cap result s)
    (hd : s.main ≠ .done) : ∃ t, Step n cap result s t := by
  obtain ⟨main, procs, sem, wg, fs, es⟩ := s
  cases procs with
  | cons p ps =>
    obtain ⟨i, ph⟩ := p
    cases ph with
    | running => exact ⟨_, Step.run (before := [])⟩
    | ran => exact ⟨_, Step.record (before := [])⟩
    | recorded =>
      have := hs.sem
      cases sem with
      | zero => simp [Phase.holds] at this
      | succ m => exact ⟨_, Step.release (before := [])⟩
    | released =>
      have := hs.wg
      cases wg with
      | zero => simp at this; omega
      | succ m => exact ⟨_, Step.finish (before := [])⟩
  | nil =>
    have hsem := hs.sem
    simp at hsem
    have hwg := hs.wg
    cases main with
    | loop i =>
      have hb : i ≤ n := hs.bound
      rcases Nat.lt_or_eq_of_le hb with h | h
      · exact ⟨_, Step.add h⟩
      · subst h; exact ⟨_, Step.endLoop⟩
    | acquire i => subst hsem; exact ⟨_, Step.start hcap⟩
    | waiting =>
      simp at hwg
      subst hwg; exact ⟨_, Step.wait⟩
    | done => exact absurd rfl hd

/-- The variables after `wg.Wait()`. -/
theorem done_results {n cap result k s} (h : Steps n cap result k State.init s)
    (hd : s.main = .done) : ∃ rec : List Nat, rec.Perm (List.range n) ∧
      s.failures = rec.flatMap (fun i => (result i).1) ∧
      s.errs = rec.flatMap (fun i => (result i).2.toList) := by
  have hi := inv_steps h inv_init
  have hw := hi.quiet hd
  have hp : s.procs = [] := by
    have := hi.wg
    rw [hw] at this
    exact List.length_eq_zero_iff.1 (by omega)
  obtain ⟨rec, hr, hf, he⟩ := hi.recorded
  rw [hp, hd] at hr
  exact ⟨rec, by simpa [pendingOf, Main.started] using hr, hf, he⟩

end Verif.Protoc
