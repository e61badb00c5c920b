import Verif.Proof.Together
import Verif.Spec.LintSteps

/-! # Lemmas about `lint` as a program of steps -/

namespace Verif.Exec

open Verif Spec

/-! ## Without other processes -/

theorem run_readEach (ps : List Str) (w : World) :
    ∃ reads, (readEach ps).run w = (w, .ok reads) ∧ ∀ r ∈ reads, r.2 = w.disk r.1 := by
  induction ps with
  | nil => exact ⟨[], rfl, by simp⟩
  | cons p ps ih =>
    obtain ⟨reads, h1, h2⟩ := ih
    refine ⟨(p, w.disk p) :: reads, ?_, ?_⟩
    · show ((readEach ps).bind _).run w = _
      rw [run_bind]
      unfold Run.bind
      rw [h1]
      rfl
    · intro r hr
      rcases List.mem_cons.1 hr with rfl | hr
      · rfl
      · exact h2 r hr

theorem lookup_mem {reads : List (Str × Option Str)} {p : Str} {c : Option Str} (h : reads.lookup p = some c) :
    (p, c) ∈ reads := by
  induction reads with
  | nil => cases h
  | cons r rs ih =>
    rw [List.lookup_cons] at h
    split at h
    · rename_i e
      injection h with h
      have e : p = r.1 := by simpa using e
      rw [e, ← h]
      exact List.mem_cons_self
    · exact List.mem_cons_of_mem _ (ih h)

theorem asRead_same {reads : List (Str × Option Str)} {disk : Disk} (h : ∀ r ∈ reads, r.2 = disk r.1) :
    asRead reads disk = disk := by
  funext p
  unfold asRead
  split
  · rename_i c hc
    exact h _ (lookup_mem hc)
  · rfl

theorem onRead_same {α : Type} {r : Run α} (hr : Quiet r) {reads : List (Str × Option Str)} {w : World}
    (h : ∀ r ∈ reads, r.2 = w.disk r.1) : onRead reads r w = r w := by
  unfold onRead
  rw [asRead_same h]
  have := (hr w).1
  rcases hw : r w with ⟨w', o⟩
  rw [hw] at this
  cases w'
  cases this
  rfl

theorem quiet_lintTail (h : Host) (env : Lint.Env) (m : Meta) (b : Bool) :
    Quiet (if b then generateIgnores h env m else lint h env m) := by
  cases b
  · exact quiet_lint h env m
  · exact quiet_generateIgnores h env m

theorem lintCmd_reads (h : Host) (env : Lint.Env) (srt : SortSlice) (args : List Str) (flags : LintFlags)
    (hl : ¬ (moreThanOneSet [flags.listAllLinters, flags.listLinters, flags.listAllLintGroups,
      flags.listLintGroup ≠ [], flags.diffLintGroups ≠ [], flags.generateIgnores] ∨ flags.lists)) :
    lintCmd h env srt args flags = Run.bind (getMeta h args) fun m =>
      Run.bind (compile h false false false m) fun _ =>
        if flags.generateIgnores then generateIgnores h env m else lint h env m := by
  unfold LintFlags.lists at hl
  simp only [Bool.or_eq_true, decide_eq_true_eq, not_or] at hl
  unfold lintCmd
  rw [if_neg hl.1, if_neg hl.2.1.1.1.1, if_neg hl.2.1.1.1.2]
  congr 1
  funext m
  rw [if_neg hl.2.1.1.2, if_neg hl.2.1.2, if_neg hl.2.2]

theorem run_lintCmdSteps (h : Host) (env : Lint.Env) (srt : SortSlice) (args : List Str) (flags : LintFlags) :
    (lintCmdSteps h env srt args flags).run = lintCmd h env srt args flags := by
  unfold lintCmdSteps
  split
  · rfl
  · rename_i hl
    rw [lintCmd_reads h env srt args flags hl, run_bind, run_lift]
    refine congrArg (Run.bind _) (funext fun m => ?_)
    rw [run_bind, run_atomic]
    refine congrArg (Run.bind _) (funext fun _ => ?_)
    rw [run_bind]
    funext w
    obtain ⟨reads, h1, h2⟩ := run_readEach (lintPaths env m) w
    unfold Run.bind
    rw [h1]
    exact onRead_same (quiet_lintTail h env m flags.generateIgnores) h2

/-! ## It only reads -/

theorem reads_readEach (ps : List Str) : Reads (readEach ps) := by
  induction ps with
  | nil => trivial
  | cons p ps ih => exact fun w => ⟨rfl, reads_bind ih fun _ => trivial⟩

theorem reads_lintCmdSteps (h : Host) (env : Lint.Env) (srt : SortSlice) (args : List Str) (flags : LintFlags)
    (hq : Quiet (lintCmd h env srt args flags)) : Reads (lintCmdSteps h env srt args flags) := by
  unfold lintCmdSteps
  split
  · exact fun w => ⟨(hq w).1, trivial⟩
  · refine reads_bind (reads_lift _) fun m => reads_bind (fun w => ⟨(quiet_compile h false false m w).1, trivial⟩) fun _ =>
      reads_bind (reads_readEach _) fun reads => fun w => ⟨rfl, trivial⟩

/-! ## One process among others -/

/-- The program has been run to its end, by itself or among others, and whenever it did a step, `I` held of the disk. -/
inductive Ran (I : Disk → Prop) {α : Type} : Prog α → Str → List (Str × Str) → Outcome α → Str → List (Str × Str) → Prop
  | done (o : Outcome α) (out : Str) (ws : List (Str × Str)) : Ran I (.done o) out ws o out ws
  | step {next : World → World} {k : World → Prog α} {out out' : Str} {ws ws' : List (Str × Str)} {d : Disk}
      {o : Outcome α} : I d → Ran I (k ⟨d, out, ws⟩) (next ⟨d, out, ws⟩).out (next ⟨d, out, ws⟩).writes o out' ws' →
      Ran I (.step next k) out ws o out' ws'

theorem ran_bind {I : Disk → Prop} {α β : Type} {p : Prog α} {f : α → Prog β} {out out' : Str}
    {ws ws' : List (Str × Str)} {o : Outcome β} (h : Ran I (p.bind f) out ws o out' ws') :
    (∃ a out1 ws1, Ran I p out ws (.ok a) out1 ws1 ∧ Ran I (f a) out1 ws1 o out' ws') ∨
      (∃ e, Ran I p out ws (.error e) out' ws' ∧ o = .error e) ∨ (Ran I p out ws .crash out' ws' ∧ o = .crash) := by
  induction p generalizing out ws with
  | done q =>
    rcases q with a | e | _
    · exact .inl ⟨a, _, _, .done _ _ _, h⟩
    · cases h
      exact .inr (.inl ⟨e, .done _ _ _, rfl⟩)
    · cases h
      exact .inr (.inr ⟨.done _ _ _, rfl⟩)
  | step next k ih =>
    cases h with
    | step hd h =>
      rcases ih _ h with ⟨a, o1, w1, h1, h2⟩ | ⟨e, h1, h2⟩ | ⟨h1, h2⟩
      · exact .inl ⟨a, o1, w1, .step hd h1, h2⟩
      · exact .inr (.inl ⟨e, .step hd h1, h2⟩)
      · exact .inr (.inr ⟨.step hd h1, h2⟩)

theorem ran_atomic {I : Disk → Prop} {α : Type} {r : Run α} {out out' : Str} {ws ws' : List (Str × Str)} {o : Outcome α}
    (h : Ran I (.atomic r) out ws o out' ws') :
    ∃ d, I d ∧ o = (r ⟨d, out, ws⟩).2 ∧ out' = (r ⟨d, out, ws⟩).1.out ∧ ws' = (r ⟨d, out, ws⟩).1.writes := by
  cases h with
  | step hd h =>
    cases h
    exact ⟨_, hd, rfl, rfl, rfl⟩

theorem ran_readEach {I : Disk → Prop} {ps : List Str} {out out' : Str} {ws ws' : List (Str × Str)}
    {o : Outcome (List (Str × Option Str))} (h : Ran I (readEach ps) out ws o out' ws') :
    out' = out ∧ ws' = ws ∧ ∃ reads, o = .ok reads ∧ ∀ r ∈ reads, ∃ d, I d ∧ r.2 = d r.1 := by
  induction ps generalizing out ws out' ws' o with
  | nil =>
    cases h
    exact ⟨rfl, rfl, [], rfl, by simp⟩
  | cons p ps ih =>
    cases h with
    | step hd h =>
      rcases ran_bind h with ⟨a, o1, w1, h1, h2⟩ | ⟨e, h1, _⟩ | ⟨h1, _⟩
      · obtain ⟨e1, e2, reads, e3, h3⟩ := ih h1
        cases h2
        injection e3 with e3
        subst e3
        refine ⟨e1, e2, _, rfl, fun r hr => ?_⟩
        rcases List.mem_cons.1 hr with rfl | hr
        · exact ⟨_, hd, rfl⟩
        · exact h3 r hr
      · obtain ⟨_, _, reads, e3, _⟩ := ih h1
        cases e3
      · obtain ⟨_, _, reads, e3, _⟩ := ih h1
        cases e3

/-- What holds of a disk if it holds of every file. -/
def Mixes (I : Disk → Prop) : Prop :=
  ∀ d reads, I d → (∀ r ∈ reads, ∃ d', I d' ∧ r.2 = d' r.1) → I (asRead reads d)

theorem printFailures_disk (h : Host) (filename : Str) (m : Meta) (fs : List Text.Failure) (d d' : Disk) (out : Str)
    (ws : List (Str × Str)) : printFailures h filename m fs ⟨d', out, ws⟩ =
      ({ (printFailures h filename m fs ⟨d, out, ws⟩).1 with disk := d' }, (printFailures h filename m fs ⟨d, out, ws⟩).2) := by
  unfold printFailures
  generalize (some m) = m
  unfold printFailuresFor
  dsimp only
  cases Text.parseColonSeparatedFailureFields h.errorFormat with
  | none => rfl
  | some fields =>
    dsimp only
    generalize failureLines h m fields _ [] = r
    rcases r with ⟨t, e | e⟩
    · unfold write
      dsimp only
      split <;> rfl
    · rfl

theorem failureLines_sees (h : Host) (dc : Disk) (m : Option Meta) (fields : List Text.FailureField)
    (fs : List Text.Failure) (out : Str) :
    failureLines (protocSees h dc) m fields fs out = failureLines h m fields fs out := by
  induction fs generalizing out with
  | nil => rfl
  | cons f fs ih =>
    rw [failureLines, failureLines]
    have e1 : shouldPrint (protocSees h dc) m f = shouldPrint h m f := rfl
    have e2 : failureLine (protocSees h dc) fields f = failureLine h fields f := rfl
    rw [e1, e2]
    split
    · cases failureLine h fields f with
      | error e => rfl
      | ok t => exact ih _
    · exact ih _

theorem printFailures_sees (h : Host) (dc : Disk) (m : Meta) (fs : List Text.Failure) :
    printFailures (protocSees h dc) [] m fs = printFailures h [] m fs := by
  unfold printFailures printFailuresFor
  simp only [failureLines_sees]
  rfl

theorem printAll_sees (h : Host) (dc : Disk) (ls : List Str) : printAll (protocSees h dc) ls = printAll h ls := by
  induction ls with
  | nil => rfl
  | cons l ls ih =>
    rw [printAll, printAll, ih]
    rfl

theorem compile_sees (h : Host) (m : Meta) (dc d : Disk) (out : Str) (ws : List (Str × Str)) :
    compile (protocSees h dc) false false false m ⟨d, out, ws⟩ =
      ({ (compile h false false false m ⟨dc, out, ws⟩).1 with disk := d }, (compile h false false false m ⟨dc, out, ws⟩).2) := by
  unfold compile
  simp only [Bool.false_eq_true, if_false]
  unfold doCompile
  simp only [Bool.false_eq_true, if_false]
  have : ∀ flags x set, (protocSees h dc).compile flags x set = h.compile flags dc set := fun _ _ _ => rfl
  rw [this]
  split
  · rfl
  · rename_i failures sets _
    rw [printFailures_sees]
    unfold Run.bind
    rw [printFailures_disk h [] m failures dc d out ws]
    rcases printFailures h [] m failures ⟨dc, out, ws⟩ with ⟨w, r | r | _⟩
    · dsimp only
      split <;> rfl
    · rfl
    · rfl

theorem lintTail_sees (h : Host) (env : Lint.Env) (m : Meta) (dc : Disk) (b : Bool) :
    (if b then generateIgnores (protocSees h dc) env m else lint (protocSees h dc) env m) =
      (if b then generateIgnores h env m else lint h env m) := by
  cases b
  · show lint (protocSees h dc) env m = lint h env m
    unfold lint
    simp only [printFailures_sees]
    rfl
  · rfl

theorem lintCmd_sees_self (h : Host) (env : Lint.Env) (srt : SortSlice) (args : List Str) (flags : LintFlags) (d : Disk)
    (out : Str) (ws : List (Str × Str)) :
    lintCmd (protocSees h d) env srt args flags ⟨d, out, ws⟩ = lintCmd h env srt args flags ⟨d, out, ws⟩ := by
  have hc : ∀ m, compile (protocSees h d) false false false m ⟨d, out, ws⟩ = compile h false false false m ⟨d, out, ws⟩ := by
    intro m
    rw [compile_sees]
    have := (quiet_compile h false false m ⟨d, out, ws⟩).1
    rcases hx : compile h false false false m ⟨d, out, ws⟩ with ⟨⟨x, _, _⟩, r⟩
    rw [hx] at this
    replace this : x = d := this
    rw [this]
  unfold lintCmd
  split
  · rfl
  split
  · unfold listAllLintGroups
    rw [printAll_sees]
  split
  · unfold diffLintGroups
    simp only [printAll_sees]
  have hg : getMeta (protocSees h d) args = getMeta h args := rfl
  rw [hg]
  unfold getMeta
  cases metaOf h (fileOrDir args) with
  | error e => rfl
  | ok m =>
    show (if flags.listAllLinters then _ else _ : Run Unit) _ = (if flags.listAllLinters then _ else _ : Run Unit) _
    split
    · rfl
    split
    · rfl
    split
    · rfl
    · unfold Run.bind
      rw [hc]
      simp only [lintTail_sees]

/-- What `lint` among others does is what it does by itself, if protoc sees one and lint another of the disks. -/
theorem ran_lint {I : Disk → Prop} (hI : Mixes I) {h : Host} {env : Lint.Env} {srt : SortSlice} {args : List Str}
    {flags : LintFlags} {out out' : Str} {ws ws' : List (Str × Str)} {o : Outcome Unit} (hd : ∃ d, I d)
    (hr : Ran I (lintCmdSteps h env srt args flags) out ws o out' ws') :
    ∃ dc d, I dc ∧ I d ∧ (lintCmd (protocSees h dc) env srt args flags ⟨d, out, ws⟩).2 = o ∧
      (lintCmd (protocSees h dc) env srt args flags ⟨d, out, ws⟩).1.out = out' := by
  unfold lintCmdSteps at hr
  split at hr
  · obtain ⟨d, hd, rfl, rfl, _⟩ := ran_atomic hr
    refine ⟨d, d, hd, hd, ?_, ?_⟩ <;> rw [lintCmd_sees_self]
  · rename_i hl
    have hcmd : ∀ dc, lintCmd (protocSees h dc) env srt args flags = Run.bind (getMeta h args) fun m =>
      Run.bind (compile (protocSees h dc) false false false m) fun _ =>
        if flags.generateIgnores then generateIgnores h env m else lint h env m :=
      fun dc => by
        rw [lintCmd_reads (protocSees h dc) env srt args flags hl]
        simp only [lintTail_sees]
        rfl
    simp only [hcmd]
    unfold getMeta
    cases hm : metaOf h (fileOrDir args) with
    | error e =>
      rw [hm] at hr
      obtain ⟨d, hd⟩ := hd
      cases hr
      exact ⟨d, d, hd, hd, rfl, rfl⟩
    | ok m =>
      rw [hm] at hr
      replace hr : Ran I ((Prog.atomic (compile h false false false m)).bind _) out ws o out' ws' := hr
      have hrun : ∀ dc, (Run.bind (Run.lift (Except.ok m)) fun m =>
          Run.bind (compile (protocSees h dc) false false false m) fun _ =>
            if flags.generateIgnores then generateIgnores h env m else lint h env m) =
          Run.bind (compile (protocSees h dc) false false false m) fun _ =>
            if flags.generateIgnores then generateIgnores h env m else lint h env m := fun _ => rfl
      simp only [hrun]
      unfold Run.bind
      simp only [compile_sees]
      rcases ran_bind hr with ⟨a, o1, w1, h1, h2⟩ | ⟨e, h1, rfl⟩ | ⟨h1, rfl⟩
      · obtain ⟨dc, hdc, e1, e2, e3⟩ := ran_atomic h1
        rcases ran_bind h2 with ⟨reads, o2, w2, h3, h4⟩ | ⟨e, h3, _⟩ | ⟨h3, _⟩
        · obtain ⟨rfl, rfl, reads', e4, h5⟩ := ran_readEach h3
          injection e4 with e4
          subst e4
          obtain ⟨d, hd', e5, e6, _⟩ := ran_atomic h4
          refine ⟨dc, asRead reads d, hdc, hI d reads hd' h5, ?_⟩
          rcases hc : compile h false false false m ⟨dc, out, ws⟩ with ⟨w, r⟩
          rw [hc] at e1 e2 e3
          cases e1
          cases w
          cases e2
          cases e3
          exact ⟨e5.symm, e6.symm⟩
        · obtain ⟨_, _, reads, e4, _⟩ := ran_readEach h3
          cases e4
        · obtain ⟨_, _, reads, e4, _⟩ := ran_readEach h3
          cases e4
      · obtain ⟨dc, hdc, e1, e2, e3⟩ := ran_atomic h1
        refine ⟨dc, dc, hdc, hdc, ?_⟩
        rcases hc : compile h false false false m ⟨dc, out, ws⟩ with ⟨w, r⟩
        rw [hc] at e1 e2
        cases e1
        exact ⟨rfl, e2.symm⟩
      · obtain ⟨dc, hdc, e1, e2, e3⟩ := ran_atomic h1
        refine ⟨dc, dc, hdc, hdc, ?_⟩
        rcases hc : compile h false false false m ⟨dc, out, ws⟩ with ⟨w, r⟩
        rw [hc] at e1 e2
        cases e1
        exact ⟨rfl, e2.symm⟩

/-! ## From the system to the process -/

/-- Steps of the program, done when `I` held of the disk. -/
inductive Came (I : Disk → Prop) (p : Prog Unit) : Prog Unit → Str → List (Str × Str) → Prop
  | start : Came I p p [] []
  | step {next : World → World} {k : World → Prog Unit} {out : Str} {ws : List (Str × Str)} {d : Disk} :
      Came I p (.step next k) out ws → I d →
      Came I p (k ⟨d, out, ws⟩) (next ⟨d, out, ws⟩).out (next ⟨d, out, ws⟩).writes

theorem ran_of_came {I : Disk → Prop} {p q : Prog Unit} {out out' : Str} {ws ws' : List (Str × Str)} {o : Outcome Unit}
    (hc : Came I p q out ws) (hr : Ran I q out ws o out' ws') : Ran I p [] [] o out' ws' := by
  induction hc with
  | start => exact hr
  | step _ hd ih => exact ih (.step hd hr)

theorem came_of_leads {I : Disk → Prop} {disk : Disk} {progs : List (Prog Unit)} {s : System} {i : Nat} {p : Prog Unit}
    (hs : Leads (start disk progs) s) (hI : ∀ t, Leads (start disk progs) t → I t.disk) (hp : progs[i]? = some p) :
    ∃ q, s.procs[i]? = some q ∧ Came I p q.prog q.out q.writes := by
  induction hs with
  | refl =>
    refine ⟨{ prog := p }, ?_, .start⟩
    show (progs.map fun p => ({ prog := p } : Process))[i]? = _
    rw [List.getElem?_map, hp]
    rfl
  | @more t u h1 h2 ih =>
    obtain ⟨q, hq, hc⟩ := ih
    cases h2 with
    | @mk j r next k hj hk =>
      by_cases e : i = j
      · subst e
        rw [hq] at hj
        injection hj with hj
        subst hj
        refine ⟨_, List.getElem?_set_self ((List.getElem?_eq_some_iff.1 hq).1), ?_⟩
        rw [hk] at hc
        exact .step hc (hI t h1)
      · exact ⟨q, by rw [List.getElem?_set_ne (Ne.symm e)]; exact hq, hc⟩

theorem ran_of_ended {I : Disk → Prop} {disk : Disk} {progs : List (Prog Unit)} {s : System} {i : Nat} {p : Prog Unit}
    {o : Outcome Unit} (hs : Leads (start disk progs) s) (hI : ∀ t, Leads (start disk progs) t → I t.disk)
    (hp : progs[i]? = some p) (he : Ended s i o) : ∃ out ws, Printed s i out ∧ Ran I p [] [] o out ws := by
  obtain ⟨q, hq, hc⟩ := came_of_leads hs hI hp
  obtain ⟨q', hq', hd⟩ := he
  rw [hq] at hq'
  injection hq' with hq'
  subst hq'
  rw [hd] at hc
  exact ⟨q.out, q.writes, ⟨q, hq, rfl⟩, ran_of_came hc (.done _ _ _)⟩

end Verif.Exec
