import Verif.Proof.ExecFormat
import Verif.Spec.Together

/-! # Lemmas about processes that run at the same time -/

namespace Verif.Exec

open Verif Spec

/-! ## Without other processes -/

theorem run_bind {α β : Type} (p : Prog α) (f : α → Prog β) :
    (p.bind f).run = Run.bind p.run fun a => (f a).run := by
  induction p with
  | done o =>
    funext w
    rcases o with a | e | _ <;> rfl
  | step n k ih =>
    funext w
    show ((k w).bind f).run (n w) = _
    rw [ih w]
    rfl

theorem run_atomic {α : Type} (r : Run α) : (Prog.atomic r).run = r := rfl

theorem run_lift {α : Type} (r : Except Err α) : (Prog.lift r).run = Run.lift r := by
  cases r <;> rfl

theorem set_set (d : Disk) (path : Str) (a b : Option Str) : Disk.set (Disk.set d path a) path b = Disk.set d path b := by
  funext p
  unfold Disk.set
  split <;> rfl

theorem run_writeFileSteps (h : Host) (whole : Bool) (path data : Str) :
    (writeFileSteps h whole path data).run = writeFile h path data := by
  unfold writeFileSteps
  cases whole with
  | true => rfl
  | false =>
    funext w
    rw [if_neg (by decide)]
    show writeFile h path data { w with disk := Disk.set w.disk path (some []) } = _
    unfold writeFile
    dsimp only
    split <;> rw [set_set]

theorem run_formatFileSteps (h : Host) (whole : Bool) (srt : SortSlice) (flags : FormatFlags) (m : Meta)
    (f : File.ProtoFile) : (formatFileSteps h whole srt flags m f).run = formatFile h srt flags m f := by
  unfold formatFileSteps formatFile
  split
  · rfl
  rw [run_bind, run_atomic]
  congr 1
  funext input
  rw [run_bind, run_lift]
  congr 1
  funext r
  split
  · rw [run_bind, run_atomic]; rfl
  split
  · split
    · rw [run_bind, run_writeFileSteps]; rfl
    split
    · rw [run_bind, run_atomic]; rfl
    split
    · rw [run_bind, run_lift]
      congr 1
      funext d
      rw [run_bind, run_atomic]; rfl
    · rw [run_bind, run_atomic]; rfl
  split
  · rw [run_bind, run_atomic]; rfl
  · rfl

theorem run_formatFilesSteps (h : Host) (whole : Bool) (srt : SortSlice) (flags : FormatFlags) (m : Meta)
    (fs : List File.ProtoFile) (b : Bool) :
    (formatFilesSteps h whole srt flags m fs b).run = formatFiles h srt flags m fs b := by
  induction fs generalizing b with
  | nil => rfl
  | cons f fs ih =>
    rw [formatFilesSteps, formatFiles, run_bind, run_formatFileSteps]
    congr 1
    funext ok
    exact ih _

/-! ## What each process keeps up, whatever the others do

The others change the disk only as `G` allows. -/

variable {G : Disk → Disk → Prop}

/-- The others do not make it false. -/
def Stable (G : Disk → Disk → Prop) (P : Disk → Prop) : Prop := ∀ d d', P d → G d d' → P d'

/-- Begun where `P` holds, the program changes the disk as `G` allows, and if it ends, `Q` holds. -/
def Sat {α : Type} (G : Disk → Disk → Prop) : Prog α → (Disk → Prop) → (Outcome α → Disk → Prop) → Prop
  | .done o, P, Q => ∀ d, P d → Q o d
  | .step next k, P, Q => ∀ w, P w.disk → G w.disk (next w).disk ∧
      ∃ P', Stable G P' ∧ P' (next w).disk ∧ Sat G (k w) P' Q

theorem sat_pre {α : Type} {p : Prog α} {P P' : Disk → Prop} {Q : Outcome α → Disk → Prop} (h : Sat G p P Q)
    (hp : ∀ d, P' d → P d) : Sat G p P' Q := by
  cases p with
  | done o => exact fun d hd => h d (hp d hd)
  | step n k => exact fun w hw => h w (hp _ hw)

theorem sat_post {α : Type} {p : Prog α} {P : Disk → Prop} {Q Q' : Outcome α → Disk → Prop} (h : Sat G p P Q)
    (hq : ∀ o d, Q o d → Q' o d) : Sat G p P Q' := by
  induction p generalizing P with
  | done o => exact fun d hd => hq _ _ (h d hd)
  | step n k ih =>
    intro w hw
    obtain ⟨h1, P', h2, h3, h4⟩ := h w hw
    exact ⟨h1, P', h2, h3, ih w h4⟩

theorem sat_bind {α β : Type} {p : Prog α} {f : α → Prog β} {P : Disk → Prop} {Q : Outcome α → Disk → Prop}
    {R : Outcome β → Disk → Prop} (hp : Sat G p P Q) (hf : ∀ a, Sat G (f a) (Q (.ok a)) R)
    (he : ∀ e d, Q (.error e) d → R (.error e) d) (hc : ∀ d, Q .crash d → R .crash d) : Sat G (p.bind f) P R := by
  induction p generalizing P with
  | done o =>
    rcases o with a | e | _
    · exact sat_pre (hf a) hp
    · exact fun d hd => he e d (hp d hd)
    · exact fun d hd => hc d (hp d hd)
  | step n k ih =>
    intro w hw
    obtain ⟨h1, P', h2, h3, h4⟩ := hp w hw
    exact ⟨h1, P', h2, h3, ih w h4⟩

/-- A step that leaves the disk alone. -/
theorem sat_quiet {α : Type} {r : Run α} (hr : Quiet r) (hG : ∀ d, G d d) {P : Disk → Prop}
    {Q : Outcome α → Disk → Prop} (hs : ∀ o, Stable G (Q o)) (h : ∀ w, P w.disk → Q (r w).2 w.disk) :
    Sat G (Prog.atomic r) P Q := by
  intro w hw
  refine ⟨?_, fun d => Q (r w).2 d, hs _, ?_, fun d hd => hd⟩
  · rw [(hr w).1]; exact hG _
  · dsimp only
    rw [(hr w).1]; exact h w hw

theorem sat_reads {p : Prog Unit} (h : ReadsOnly p) (hG : ∀ d, G d d) : Sat G p (fun _ => True) fun _ _ => True := by
  induction p with
  | done o => exact fun _ _ => trivial
  | step n k ih =>
    intro w _
    refine ⟨?_, fun _ => True, fun _ _ _ _ => trivial, trivial, ih w (h w).2⟩
    rw [(h w).1]; exact hG _

/-- Like `ReadsOnly`, for programs with any result. -/
def Reads {α : Type} : Prog α → Prop
  | .done _ => True
  | .step next k => ∀ w, (next w).disk = w.disk ∧ Reads (k w)

theorem onlyReads_of_reads {p : Prog Unit} (h : Reads p) : ReadsOnly p := by
  induction p with
  | done o => trivial
  | step next k ih => exact fun w => ⟨(h w).1, ih w (h w).2⟩

theorem reads_bind {α β : Type} {p : Prog α} {f : α → Prog β} (hp : Reads p) (hf : ∀ a, Reads (f a)) :
    Reads (p.bind f) := by
  induction p with
  | done o =>
    cases o with
    | ok a => exact hf a
    | error e => trivial
    | crash => trivial
  | step next k ih => exact fun w => ⟨(hp w).1, ih w (hp w).2⟩

theorem reads_quiet {α : Type} {r : Run α} (hr : Quiet r) : Reads (Prog.atomic r) := fun w => ⟨(hr w).1, trivial⟩

theorem reads_lift {α : Type} (r : Except Err α) : Reads (Prog.lift r) := by
  cases r <;> trivial

theorem reads_formatFile (h : Host) (whole : Bool) (srt : SortSlice) (flags : FormatFlags)
    (ho : flags.overwrite = false) (m : Meta) (f : File.ProtoFile) :
    Reads (formatFileSteps h whole srt flags m f) := by
  unfold formatFileSteps
  split
  · trivial
  refine reads_bind (reads_quiet (quiet_readFile _ _)) fun input => reads_bind (reads_lift _) fun r => ?_
  split
  · exact reads_bind (reads_quiet (quiet_printFailures _ _ _ _)) fun _ => trivial
  split
  · rw [ho, if_neg (by decide)]
    split
    · exact reads_bind (reads_quiet (quiet_printFailures _ _ _ _)) fun _ => trivial
    split
    · exact reads_bind (reads_lift _) fun d => reads_bind (reads_quiet (quiet_write _ _)) fun _ => trivial
    · exact reads_bind (reads_quiet (quiet_write _ _)) fun _ => trivial
  · split
    · exact reads_bind (reads_quiet (quiet_write _ _)) fun _ => trivial
    · trivial

theorem reads_formatFiles (h : Host) (whole : Bool) (srt : SortSlice) (flags : FormatFlags)
    (ho : flags.overwrite = false) (m : Meta) (fs : List File.ProtoFile) :
    ∀ success, Reads (formatFilesSteps h whole srt flags m fs success) := by
  induction fs with
  | nil => exact fun _ => trivial
  | cons f fs ih => exact fun _ => reads_bind (reads_formatFile h whole srt flags ho m f) fun _ => ih _

theorem reads_formatCmd (h : Host) (whole : Bool) (o : Order) (srt : SortSlice) (args : List Str)
    (flags : FormatFlags) (ho : flags.overwrite = false) : Reads (formatCmdSteps h whole o srt args flags) := by
  unfold formatCmdSteps
  split
  · trivial
  refine reads_bind (reads_lift _) fun m => reads_bind (reads_quiet (quiet_compile _ _ _ _)) fun _ =>
    reads_bind (reads_formatFiles h whole srt flags ho m _ true) fun ok => ?_
  split <;> trivial

/-- Every process keeps its promise among the others. -/
def AllSat (G : Disk → Disk → Prop) (Q : Nat → Outcome Unit → Disk → Prop) (s : System) : Prop :=
  ∀ i p, s.procs[i]? = some p → ∃ P, Stable G P ∧ P s.disk ∧ Sat G p.prog P (Q i)

theorem allSat_moves {Q : Nat → Outcome Unit → Disk → Prop} {s t : System} (h : AllSat G Q s) (hm : Moves s t) :
    AllSat G Q t ∧ G s.disk t.disk := by
  cases hm with
  | @mk i p next k hi hp =>
    obtain ⟨P, hs, hP, hsat⟩ := h i p hi
    rw [hp] at hsat
    obtain ⟨g, P', hs', hP', hsat'⟩ := hsat ⟨s.disk, p.out, p.writes⟩ hP
    refine ⟨?_, g⟩
    intro i' p' hi'
    dsimp only at hi'
    rw [List.getElem?_set] at hi'
    split at hi'
    · rename_i he
      subst he
      split at hi'
      · cases hi'
        exact ⟨P', hs', hP', hsat'⟩
      · cases hi'
    · obtain ⟨P2, hs2, hP2, hsat2⟩ := h i' p' hi'
      exact ⟨P2, hs2, hs2 _ _ hP2 g, hsat2⟩

theorem allSat_reaches {Q : Nat → Outcome Unit → Disk → Prop} {s t : System} (h : AllSat G Q s) (hr : Leads s t)
    {I : Disk → Prop} (hI : Stable G I) (h0 : I s.disk) : AllSat G Q t ∧ I t.disk := by
  induction hr with
  | refl => exact ⟨h, h0⟩
  | more _ hm ih =>
    obtain ⟨h1, h2⟩ := ih
    obtain ⟨h3, h4⟩ := allSat_moves h1 hm
    exact ⟨h3, hI _ _ h2 h4⟩

/-! ## `format` among others -/

theorem formats_eq {h : Host} {srt : SortSlice} {fix : Bool} {m : Meta} {path c t : Str} :
    Formats h srt fix m path c t ↔ FormatsTo h srt fix m.protoSet.config.lint path c t := Iff.rfl

theorem formatsTo_unique {h : Host} {srt : SortSlice} {fix : Bool} {lint : Settings.LintConfig} {path c t t' : Str}
    (h1 : FormatsTo h srt fix lint path c t) (h2 : FormatsTo h srt fix lint path c t') : t = t' := by
  obtain ⟨es, a1, a2⟩ := h1
  obtain ⟨es', b1, b2⟩ := h2
  rw [a1] at b1
  cases b1
  rw [a2] at b2
  cases b2
  rfl

section Format

variable (h : Host) (srt : SortSlice) (jobs : List FormatJob) (fix : Bool) (lint : Settings.LintConfig) (disk : Disk)

/-- The processes change files only into what is wanted. -/
def Allowed (d d' : Disk) : Prop :=
  ∀ path, d' path = d path ∨ ∃ text, Wanted h srt jobs fix lint disk path text ∧ d' path = some text

theorem allowed_refl (d : Disk) : Allowed h srt jobs fix lint disk d d := fun _ => .inl rfl

theorem wanted_unique {path t t' : Str} (h1 : Wanted h srt jobs fix lint disk path t)
    (h2 : Wanted h srt jobs fix lint disk path t') : t = t' := by
  obtain ⟨_, c, a1, a2⟩ := h1
  obtain ⟨_, c', b1, b2⟩ := h2
  rw [a1] at b1
  cases b1
  exact formatsTo_unique a2 b2

theorem whole_stable : Stable (Allowed h srt jobs fix lint disk) (Whole h srt jobs fix lint disk) := by
  intro d d' hd hg path
  rcases hg path with e | ⟨t, ht, e⟩
  · rcases hd path with e' | ⟨t, ht, e'⟩
    · exact .inl (e.trans e')
    · exact .inr ⟨t, ht, e.trans e'⟩
  · exact .inr ⟨t, ht, e⟩

/-- The file is formatted. -/
def Formatted (path : Str) (d : Disk) : Prop := ∃ t, Wanted h srt jobs fix lint disk path t ∧ d path = some t

theorem formatted_stable (path : Str) :
    Stable (Allowed h srt jobs fix lint disk) (Formatted h srt jobs fix lint disk path) := by
  rintro d d' ⟨t, ht, hd⟩ hg
  rcases hg path with e | ⟨t', ht', e⟩
  · exact ⟨t, ht, e.trans hd⟩
  · exact ⟨t', ht', e⟩

theorem stable_and {P Q : Disk → Prop} (hp : Stable G P) (hq : Stable G Q) : Stable G fun d => P d ∧ Q d :=
  fun d d' hd hg => ⟨hp d d' hd.1 hg, hq d d' hd.2 hg⟩

theorem stable_const (P : Prop) : Stable G fun _ => P := fun _ _ hd _ => hd

theorem stable_imp {A : Prop} {P : Disk → Prop} (hp : Stable G P) : Stable G fun d => A → P d :=
  fun d d' hd hg ha => hp d d' (hd ha) hg

theorem stable_forall {ι : Type} {P : ι → Disk → Prop} (hp : ∀ i, Stable G (P i)) : Stable G fun d => ∀ i, P i d :=
  fun d d' hd hg i => hp i d d' (hd i) hg

variable {h srt jobs fix lint disk}

/-- One file. `Fine` is what it takes for the file to be formatted. -/
theorem sat_formatFile (hw : ∀ path text, h.writeFile path text = .ok ()) (hj : FormatJobs h jobs fix lint) {j : FormatJob} (hmem : j ∈ jobs)
    (again : ∀ path text, Wanted h srt jobs fix lint disk path text → FormatsTo h srt fix lint path text text)
    {A : Disk → Prop} (hA : Stable (Allowed h srt jobs fix lint disk) A)
    (hAw : ∀ d, A d → Whole h srt jobs fix lint disk d) (f : File.ProtoFile)
    (hf : Skips h j.about f ∨ Concerns h j.about f) :
    Sat (Allowed h srt jobs fix lint disk) (formatFileSteps h true srt j.flags j.about f) A
      fun o d => A d ∧ (o = .ok true → ¬ Skips h j.about f → Formatted h srt jobs fix lint disk f.path d) ∧
        ((Skips h j.about f ∨ ∃ t, Wanted h srt jobs fix lint disk f.path t) → o = .ok true) := by
  obtain ⟨ho, _, _⟩ := hj.overwrite j hmem
  unfold formatFileSteps
  by_cases hs : Skips h j.about f
  · rw [if_pos hs]
    exact fun d hd => ⟨hd, fun _ hn => absurd hs hn, fun _ => rfl⟩
  rw [if_neg hs]
  have hcon : Concerns h j.about f := hf.resolve_left hs
  -- reading
  refine sat_bind (Q := fun o d => A d ∧
      (∀ input, o = .ok input → disk f.path = some input ∨
        ∃ t, Wanted h srt jobs fix lint disk f.path t ∧ input = t ∧ d f.path = some t) ∧
      ((∃ t, Wanted h srt jobs fix lint disk f.path t) → ∃ input, o = .ok input)) ?_ ?_ ?_ ?_
  · refine sat_quiet (quiet_readFile _ _) (allowed_refl h srt jobs fix lint disk) ?_ ?_
    · intro o
      refine stable_and hA (stable_and ?_ (stable_const _))
      refine stable_forall fun input => stable_imp ?_
      rintro d d' (hd | ⟨t, ht, e, hd⟩) hg
      · exact .inl hd
      · obtain ⟨t', ht', hd'⟩ := formatted_stable h srt jobs fix lint disk f.path d d' ⟨t, ht, hd⟩ hg
        cases wanted_unique h srt jobs fix lint disk ht ht'
        exact .inr ⟨_, ht, e, hd'⟩
    · intro w hw
      refine ⟨hw, ?_, ?_⟩
      · intro input hi
        unfold readFile at hi
        rcases hAw _ hw f.path with e | ⟨t, ht, e⟩
        · left
          cases hd : w.disk f.path with
          | none => rw [hd] at hi; cases hi
          | some data =>
            rw [hd] at hi
            cases hi
            rw [← e, hd]
        · right
          rw [e] at hi
          cases hi
          exact ⟨_, ht, rfl, e⟩
      · rintro ⟨t, ⟨_, c, hc, _⟩⟩
        unfold readFile
        rcases hAw _ hw f.path with e | ⟨t, ht, e⟩
        · rw [e, hc]; exact ⟨c, rfl⟩
        · rw [e]; exact ⟨t, rfl⟩
  rotate_left
  · rintro e d ⟨h1, _, h3⟩
    refine ⟨h1, fun hh => (by cases hh), ?_⟩
    rintro (hh | hh)
    · exact absurd hh hs
    · obtain ⟨_, hh⟩ := h3 hh
      cases hh
  · rintro d ⟨h1, _, h3⟩
    refine ⟨h1, fun hh => (by cases hh), ?_⟩
    rintro (hh | hh)
    · exact absurd hh hs
    · obtain ⟨_, hh⟩ := h3 hh
      cases hh
  intro input
  -- formatting
  have tr : ∀ {c t}, transform h srt (formatParams j.flags.fix j.about f.path) c = .ok (t, []) ↔
      FormatsTo h srt fix lint f.path c t := by
    intro c t
    rw [transform_eq, formats_eq, hj.fix j hmem, hj.lint j hmem]
  -- what is read is formatted to what is wanted
  have into : ∀ {t}, (disk f.path = some input ∨ ∃ t, Wanted h srt jobs fix lint disk f.path t ∧ input = t) →
      FormatsTo h srt fix lint f.path input t → Wanted h srt jobs fix lint disk f.path t := by
    rintro t (hd | ⟨t', ht', rfl⟩) ht
    · exact ⟨⟨j, hmem, f, hcon, rfl⟩, input, hd, ht⟩
    · obtain rfl := formatsTo_unique (again _ _ ht') ht
      exact ht'
  have onto : ∀ {t}, (disk f.path = some input ∨ ∃ t, Wanted h srt jobs fix lint disk f.path t ∧ input = t) →
      Wanted h srt jobs fix lint disk f.path t → FormatsTo h srt fix lint f.path input t := by
    rintro t (hd | ⟨t', ht', rfl⟩) ht
    · obtain ⟨_, c, hc, hF⟩ := ht
      rw [hd] at hc
      cases hc
      exact hF
    · obtain rfl := wanted_unique h srt jobs fix lint disk ht ht'
      exact again _ _ ht'
  have pre : ∀ d, (A d ∧ (∀ i, (Outcome.ok input : Outcome Str) = .ok i → disk f.path = some i ∨
        ∃ t, Wanted h srt jobs fix lint disk f.path t ∧ i = t ∧ d f.path = some t) ∧
      ((∃ t, Wanted h srt jobs fix lint disk f.path t) → ∃ i, (Outcome.ok input : Outcome Str) = .ok i)) →
      A d ∧ (disk f.path = some input ∨ ∃ t, Wanted h srt jobs fix lint disk f.path t ∧ input = t) ∧
        (∀ t, Wanted h srt jobs fix lint disk f.path t → input = t → Formatted h srt jobs fix lint disk f.path d) := by
    rintro d ⟨h1, h2, _⟩
    rcases h2 input rfl with hd | ⟨t, ht, e, hd⟩
    · refine ⟨h1, .inl hd, fun t ht he => ?_⟩
      rcases hAw _ h1 f.path with e | ⟨t', ht', e⟩
      · exact ⟨t, ht, by rw [e, hd, he]⟩
      · exact ⟨t', ht', e⟩
    · exact ⟨h1, .inr ⟨t, ht, e⟩, fun t' ht' e' => ⟨t, ht, hd⟩⟩
  refine sat_pre ?_ pre
  cases htr : transform h srt (formatParams j.flags.fix j.about f.path) input with
  | error e =>
    rintro d ⟨h1, h2, _⟩
    refine ⟨h1, fun hh => (by cases hh), ?_⟩
    rintro (hh | ⟨t, ht⟩)
    · exact absurd hh hs
    · rw [tr.2 (onto h2 ht)] at htr
      cases htr
  | ok r =>
    obtain ⟨t, failures⟩ := r
    show Sat _ (Prog.bind (.done (.ok (t, failures))) _) _ _
    unfold Prog.bind
    dsimp only
    split
    · -- failures are printed
      rename_i hlen
      have never : (disk f.path = some input ∨ ∃ t, Wanted h srt jobs fix lint disk f.path t ∧ input = t) →
          ¬ (Skips h j.about f ∨ ∃ t, Wanted h srt jobs fix lint disk f.path t) := by
        rintro h2 (hh | ⟨t', ht'⟩)
        · exact hs hh
        · rw [tr.2 (onto h2 ht')] at htr
          cases htr
          exact absurd hlen (by simp)
      refine sat_bind (Q := fun _ d => A d ∧ (disk f.path = some input ∨
          ∃ t, Wanted h srt jobs fix lint disk f.path t ∧ input = t)) ?_ ?_ ?_ ?_
      · refine sat_quiet (quiet_printFailures _ _ _ _) (allowed_refl h srt jobs fix lint disk)
          (fun _ => stable_and hA (stable_const _)) fun w hw => ⟨hw.1, hw.2.1⟩
      · rintro a d ⟨h1, h2⟩
        exact ⟨h1, fun hh => (by cases hh), fun hh => absurd hh (never h2)⟩
      · rintro e d ⟨h1, h2⟩
        exact ⟨h1, fun hh => (by cases hh), fun hh => absurd hh (never h2)⟩
      · rintro d ⟨h1, h2⟩
        exact ⟨h1, fun hh => (by cases hh), fun hh => absurd hh (never h2)⟩
    rename_i hlen
    have hnil : failures = [] := List.eq_nil_of_length_eq_zero (by omega)
    subst hnil
    split
    · -- the text is written
      refine sat_bind (Q := fun o d => A d ∧ Formatted h srt jobs fix lint disk f.path d ∧ o = .ok ()) ?_ ?_ ?_ ?_
      · intro w ⟨h1, h2, _⟩
        have hW := into h2 (tr.1 htr)
        have hset : (writeFile h f.path t w).1.disk = Disk.set w.disk f.path (some t) ∧
            (writeFile h f.path t w).2 = .ok () := by
          unfold writeFile
          dsimp only
          rw [hw]
          exact ⟨rfl, rfl⟩
        have hg : Allowed h srt jobs fix lint disk w.disk (writeFile h f.path t w).1.disk := by
          rw [hset.1]
          intro p
          unfold Disk.set
          split
          · rename_i e
            subst e
            exact .inr ⟨t, hW, rfl⟩
          · exact .inl rfl
        refine ⟨hg, fun d => A d ∧ Formatted h srt jobs fix lint disk f.path d,
          stable_and hA (formatted_stable h srt jobs fix lint disk f.path), ⟨hA _ _ h1 hg, t, hW, ?_⟩, ?_⟩
        · rw [hset.1]; unfold Disk.set; rw [if_pos rfl]
        · rintro d ⟨h1, h2⟩
          exact ⟨h1, h2, hset.2⟩
      · rintro a d ⟨h1, h2, _⟩
        exact ⟨h1, fun _ _ => h2, fun _ => rfl⟩
      · rintro e d ⟨_, _, h3⟩; cases h3
      · rintro d ⟨_, _, h3⟩; cases h3
    · -- it is there already
      rename_i heq
      have heq : input = t := Decidable.not_not.1 heq
      rw [if_neg (by simp [ho])]
      rintro d ⟨h1, h2, h3⟩
      exact ⟨h1, fun _ _ => h3 t (into h2 (tr.1 htr)) heq, fun _ => rfl⟩

/-- The files of a run. -/
theorem sat_formatFiles (hw : ∀ path text, h.writeFile path text = .ok ()) (hj : FormatJobs h jobs fix lint) {j : FormatJob}
    (hmem : j ∈ jobs)
    (again : ∀ path text, Wanted h srt jobs fix lint disk path text → FormatsTo h srt fix lint path text text)
    (fs : List File.ProtoFile) : ∀ {A : Disk → Prop}, Stable (Allowed h srt jobs fix lint disk) A →
    (∀ d, A d → Whole h srt jobs fix lint disk d) → (∀ f ∈ fs, Skips h j.about f ∨ Concerns h j.about f) →
    ∀ b, Sat (Allowed h srt jobs fix lint disk) (formatFilesSteps h true srt j.flags j.about fs b) A
      fun o d => A d ∧ (o = .ok true → b = true ∧
          ∀ f ∈ fs, ¬ Skips h j.about f → Formatted h srt jobs fix lint disk f.path d) ∧
        ((∀ f ∈ fs, Skips h j.about f ∨ ∃ t, Wanted h srt jobs fix lint disk f.path t) → o = .ok b) := by
  induction fs with
  | nil =>
    intro A hA hAw _ b d hd
    refine ⟨hd, fun e => ⟨by cases e; rfl, fun f hf => nomatch hf⟩, fun _ => rfl⟩
  | cons f fs ih =>
    intro A hA hAw hfs b
    rw [formatFilesSteps]
    refine sat_bind (sat_formatFile hw hj hmem again hA hAw f (hfs f List.mem_cons_self)) ?_ ?_ ?_
    · intro ok
      have hA' : Stable (Allowed h srt jobs fix lint disk) fun d => A d ∧
          ((Outcome.ok ok : Outcome Bool) = .ok true → ¬ Skips h j.about f →
            Formatted h srt jobs fix lint disk f.path d) ∧
          ((Skips h j.about f ∨ ∃ t, Wanted h srt jobs fix lint disk f.path t) →
            (Outcome.ok ok : Outcome Bool) = .ok true) :=
        stable_and hA (stable_and (stable_imp (stable_imp (formatted_stable h srt jobs fix lint disk f.path)))
          (stable_const _))
      refine sat_post (ih hA' (fun d hd => hAw d hd.1) (fun g hg => hfs g (List.mem_cons_of_mem _ hg)) (b && ok)) ?_
      rintro o d ⟨⟨h1, h2, h3⟩, h4, h5⟩
      refine ⟨h1, fun e => ?_, fun hfine => ?_⟩
      · obtain ⟨hb, hall⟩ := h4 e
        simp only [Bool.and_eq_true] at hb
        refine ⟨hb.1, fun g hg hns => ?_⟩
        rcases List.mem_cons.1 hg with rfl | hg
        · exact h2 (by rw [hb.2]) hns
        · exact hall g hg hns
      · have e1 := h3 (hfine f List.mem_cons_self)
        rw [h5 fun g hg => hfine g (List.mem_cons_of_mem _ hg)]
        cases e1
        rw [Bool.and_true]
    · rintro e d ⟨h1, _, h3⟩
      refine ⟨h1, fun hh => (by cases hh), fun hfine => ?_⟩
      cases h3 (hfine f List.mem_cons_self)
    · rintro d ⟨h1, _, h3⟩
      refine ⟨h1, fun hh => (by cases hh), fun hfine => ?_⟩
      cases h3 (hfine f List.mem_cons_self)

/-- A run. -/
theorem sat_formatCmd (hw : ∀ path text, h.writeFile path text = .ok ()) (hj : FormatJobs h jobs fix lint) {j : FormatJob}
    (hmem : j ∈ jobs)
    (again : ∀ path text, Wanted h srt jobs fix lint disk path text → FormatsTo h srt fix lint path text text) :
    Sat (Allowed h srt jobs fix lint disk) (formatCmdSteps h true j.order srt j.args j.flags)
      (Whole h srt jobs fix lint disk)
      fun o d => (o = .ok () → ∀ f, Concerns h j.about f → Formatted h srt jobs fix lint disk f.path d) ∧
        (Prints h → ErrorFormatKnown h → (∀ d, Whole h srt jobs fix lint disk d → Compiles h {} j.about d) →
          (∀ f, Concerns h j.about f → ∃ t, Wanted h srt jobs fix lint disk f.path t) → o = .ok ()) := by
  obtain ⟨h1, h2, h3⟩ := hj.overwrite j hmem
  unfold formatCmdSteps
  rw [if_neg (by rw [h1, h2, h3]; decide)]
  have hm : metaOf h (fileOrDir j.args) = .ok j.about := by
    have := getMeta_ok.2 ⟨(rfl : (⟨fun _ => none, [], []⟩ : World) = _), hj.finds j hmem⟩
    unfold getMeta at this
    exact (lift_ok.1 this).2
  rw [hm]
  show Sat _ (Prog.bind (.done (.ok j.about)) _) _ _
  unfold Prog.bind
  dsimp only
  have hW := whole_stable h srt jobs fix lint disk
  refine sat_bind (Q := fun o d => Whole h srt jobs fix lint disk d ∧ (Prints h → ErrorFormatKnown h →
      (∀ d, Whole h srt jobs fix lint disk d → Compiles h {} j.about d) → ∃ sets, o = .ok sets)) ?_ ?_ ?_ ?_
  · refine sat_quiet (quiet_compile _ _ _ _) (allowed_refl h srt jobs fix lint disk)
      (fun _ => stable_and hW (stable_const _)) fun w hw' => ⟨hw', fun hp he hc => ?_⟩
    obtain ⟨sets, hs⟩ := hc w.disk hw'
    exact ⟨sets, by rw [(compile_ok (doGen := false) hp).2 ⟨he, hs, rfl⟩]⟩
  · intro sets
    refine sat_pre (P := fun d => Whole h srt jobs fix lint disk d) ?_ fun d hd => hd.1
    refine sat_bind (sat_formatFiles hw hj hmem again (formatList j.order j.about) hW (fun d hd => hd) ?_ true) ?_ ?_ ?_
    · intro f hf
      rcases Classical.em (Skips h j.about f) with hs | hs
      · exact .inl hs
      · exact .inr (mem_formatList.1 ⟨hf, hs⟩)
    · intro ok
      split
      · rename_i hok
        rintro d ⟨_, _, h3⟩
        refine ⟨fun hh => (by cases hh), fun _ _ _ hfine => ?_⟩
        have := h3 fun f hf => ?_
        · cases this; cases hok
        · rcases Classical.em (Skips h j.about f) with hs | hs
          · exact .inl hs
          · exact .inr (hfine f (mem_formatList.1 ⟨hf, hs⟩))
      · rename_i hok
        have hok : ok = true := by simpa using hok
        subst hok
        rintro d ⟨_, h2, _⟩
        refine ⟨fun _ f hf => ?_, fun _ _ _ _ => rfl⟩
        obtain ⟨hf, hs⟩ := mem_formatList.2 hf
        exact (h2 rfl).2 f hf hs
    · rintro e d ⟨_, _, h3⟩
      refine ⟨fun hh => (by cases hh), fun _ _ _ hfine => ?_⟩
      have := h3 fun f hf => ?_
      · cases this
      · rcases Classical.em (Skips h j.about f) with hs | hs
        · exact .inl hs
        · exact .inr (hfine f (mem_formatList.1 ⟨hf, hs⟩))
    · rintro d ⟨_, _, h3⟩
      refine ⟨fun hh => (by cases hh), fun _ _ _ hfine => ?_⟩
      have := h3 fun f hf => ?_
      · cases this
      · rcases Classical.em (Skips h j.about f) with hs | hs
        · exact .inl hs
        · exact .inr (hfine f (mem_formatList.1 ⟨hf, hs⟩))
  · rintro e d ⟨_, h3⟩
    refine ⟨fun hh => (by cases hh), fun a b c _ => ?_⟩
    obtain ⟨_, hh⟩ := h3 a b c
    cases hh
  · rintro d ⟨_, h3⟩
    refine ⟨fun hh => (by cases hh), fun a b c _ => ?_⟩
    obtain ⟨_, hh⟩ := h3 a b c
    cases hh

end Format

/-! ## Every schedule ends -/

theorem acc_prog (p : Prog Unit) : Acc (fun q p : Prog Unit => ∃ next k w, p = .step next k ∧ q = k w) p := by
  induction p with
  | done o => exact ⟨_, fun q hq => by obtain ⟨_, _, _, h, _⟩ := hq; cases h⟩
  | step n k ih =>
    refine ⟨_, fun q hq => ?_⟩
    obtain ⟨_, _, w, h, rfl⟩ := hq
    cases h
    exact ih w

/-- One of the programs does a step. -/
inductive Less : List (Prog Unit) → List (Prog Unit) → Prop
  | head {q p ps} : (∃ next k w, p = .step next k ∧ q = k w) → Less (q :: ps) (p :: ps)
  | tail {p qs ps} : Less qs ps → Less (p :: qs) (p :: ps)

theorem acc_less (ps : List (Prog Unit)) : Acc Less ps := by
  induction ps with
  | nil => exact ⟨_, fun qs h => nomatch h⟩
  | cons p ps ih =>
    have hp := acc_prog p
    induction hp generalizing ps with
    | intro p _ ihp =>
      induction ih with
      | intro ps hps ihps =>
        refine ⟨_, fun qs h => ?_⟩
        cases h with
        | head hq => exact ihp _ hq ps ⟨_, hps⟩
        | tail hq => exact ihps _ hq

theorem less_set {ps : List Process} {i : Nat} {p : Process} {next : World → World} {k : World → Prog Unit}
    (hi : ps[i]? = some p) (hp : p.prog = .step next k) (w : World) (out : Str) (writes : List (Str × Str)) :
    Less ((ps.set i ⟨k w, out, writes⟩).map (·.prog)) (ps.map (·.prog)) := by
  induction ps generalizing i with
  | nil => cases hi
  | cons a ps ih =>
    cases i with
    | zero =>
      cases hi
      exact .head ⟨next, k, w, hp, rfl⟩
    | succ i => exact .tail (ih hi)

end Verif.Exec
