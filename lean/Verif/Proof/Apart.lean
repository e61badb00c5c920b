import Verif.Proof.Together
import Verif.Spec.Apart

/-!
# `format` among programs that leave its files alone
-/

namespace Verif.Proof.Apart

open Verif Exec Spec

/-- The others change the disk as `R` allows, the program as `G` allows. -/
def Sat {α : Type} (R G : Disk → Disk → Prop) : Prog α → (Disk → Prop) → (Outcome α → Disk → Prop) → Prop
  | .done o, P, Q => ∀ d, P d → Q o d
  | .step next k, P, Q => ∀ w, P w.disk → G w.disk (next w).disk ∧
      ∃ P', Stable R P' ∧ P' (next w).disk ∧ Sat R G (k w) P' Q

variable {R G : Disk → Disk → Prop}

theorem pre {α : Type} {p : Prog α} {P P' : Disk → Prop} {Q : Outcome α → Disk → Prop} (h : Sat R G p P Q)
    (hp : ∀ d, P' d → P d) : Sat R G p P' Q := by
  cases p with
  | done o => exact fun d hd => h d (hp d hd)
  | step n k => exact fun w hw => h w (hp _ hw)

theorem post {α : Type} {p : Prog α} {P : Disk → Prop} {Q Q' : Outcome α → Disk → Prop} (h : Sat R G p P Q)
    (hq : ∀ o d, Q o d → Q' o d) : Sat R G p P Q' := by
  induction p generalizing P with
  | done o => exact fun d hd => hq _ _ (h d hd)
  | step n k ih =>
    intro w hw
    obtain ⟨h1, P', h2, h3, h4⟩ := h w hw
    exact ⟨h1, P', h2, h3, ih w h4⟩

theorem bind {α β : Type} {p : Prog α} {f : α → Prog β} {P : Disk → Prop} {Q : Outcome α → Disk → Prop}
    {Q' : Outcome β → Disk → Prop} (hp : Sat R G p P Q) (hf : ∀ a, Sat R G (f a) (Q (.ok a)) Q')
    (he : ∀ e d, Q (.error e) d → Q' (.error e) d) (hc : ∀ d, Q .crash d → Q' .crash d) :
    Sat R G (p.bind f) P Q' := by
  induction p generalizing P with
  | done o =>
    rcases o with a | e | _
    · exact pre (hf a) hp
    · exact fun d hd => he e d (hp d hd)
    · exact fun d hd => hc d (hp d hd)
  | step n k ih =>
    intro w hw
    obtain ⟨h1, P', h2, h3, h4⟩ := hp w hw
    exact ⟨h1, P', h2, h3, ih w h4⟩

/-- A step that leaves the disk alone. -/
theorem quiet {α : Type} {r : Run α} (hr : Quiet r) (hG : ∀ d, G d d) {P : Disk → Prop}
    {Q : Outcome α → Disk → Prop} (hs : ∀ o, Stable R (Q o)) (h : ∀ w, P w.disk → Q (r w).2 w.disk) :
    Sat R G (Prog.atomic r) P Q := by
  intro w hw
  refine ⟨?_, fun d => Q (r w).2 d, hs _, ?_, fun d hd => hd⟩
  · rw [(hr w).1]; exact hG _
  · dsimp only
    rw [(hr w).1]; exact h w hw

section Format

variable (h : Host) (srt : SortSlice) (fix : Bool) (m : Meta) (disk : Disk)

/-- The file is formatted. -/
def Done (path : Str) (d : Disk) : Prop :=
  ∃ content text, disk path = some content ∧ Formats h srt fix m path content text ∧ d path = some text

/-- The others leave the files alone. -/
def Rely (d d' : Disk) : Prop := ∀ path, Mine h m path → d' path = d path

/-- The run changes only its own files, and into nothing or what they are to be. -/
def Guar (d d' : Disk) : Prop :=
  ∀ path, d' path = d path ∨ Mine h m path ∧ (d' path = some [] ∨ Done h srt fix m disk path d')

theorem guar_refl (d : Disk) : Guar h srt fix m disk d d := fun _ => .inl rfl

/-- It says nothing about these files, and nothing about files of others. -/
def Frame (S : Str → Prop) (A : Disk → Prop) : Prop :=
  ∀ d d', (∀ path, Mine h m path → ¬ S path → d' path = d path) → A d → A d'

variable {h srt fix m disk}

theorem Frame.stable {S : Str → Prop} {A : Disk → Prop} (hA : Frame h m S A) : Stable (Rely h m) A :=
  fun d d' hd hg => hA d d' (fun p hp _ => hg p hp) hd

theorem Frame.mono {S T : Str → Prop} {A : Disk → Prop} (hA : Frame h m S A) (hst : ∀ p, T p → S p) :
    Frame h m T A :=
  fun d d' hd ha => hA d d' (fun p hp hn => hd p hp fun ht => hn (hst p ht)) ha

theorem Frame.and {S : Str → Prop} {A B : Disk → Prop} (hA : Frame h m S A) (hB : Frame h m S B) :
    Frame h m S fun d => A d ∧ B d :=
  fun d d' hd ha => ⟨hA d d' hd ha.1, hB d d' hd ha.2⟩

/-- What is about one other file. -/
theorem Frame.at {S : Str → Prop} {path : Str} (hm : Mine h m path) (hn : ¬ S path) (B : Option Str → Prop) :
    Frame h m S fun d => B (d path) := by
  intro d d' hd hb
  rw [hd path hm hn]
  exact hb

/-- One file. -/
theorem formatFile (hw : ∀ path text, h.writeFile path text = .ok ()) (whole : Bool) {flags : FormatFlags}
    (ho : flags.overwrite = true) (f : File.ProtoFile) (hf : ¬ Skips h m f) (hmine : Mine h m f.path)
    {A : Disk → Prop} (hA : Frame h m (fun p => p = f.path) A) :
    Sat (Rely h m) (Guar h srt flags.fix m disk) (formatFileSteps h whole srt flags m f)
      (fun d => A d ∧ d f.path = disk f.path)
      fun o d => A d ∧ (d f.path = disk f.path ∨ Done h srt flags.fix m disk f.path d) ∧
        (o = .ok true → Done h srt flags.fix m disk f.path d) := by
  have hno : ∀ B : Option Str → Prop, Stable (Rely h m) fun d => B (d f.path) :=
    fun B => (Frame.at (S := fun _ => False) hmine (fun h => h) B).stable
  have hdone : Stable (Rely h m) (Done h srt flags.fix m disk f.path) := by
    rintro d d' ⟨c, t, h1, h2, h3⟩ hg
    exact ⟨c, t, h1, h2, (hg _ hmine).trans h3⟩
  unfold formatFileSteps
  rw [if_neg hf]
  refine bind (Q := fun o d => A d ∧ d f.path = disk f.path ∧ ∀ input, o = .ok input → disk f.path = some input)
    ?_ ?_ ?_ ?_
  · refine quiet (quiet_readFile _ _) (guar_refl h srt flags.fix m disk)
      (fun o => stable_and hA.stable (stable_and (hno (· = disk f.path)) (stable_const _))) ?_
    rintro w ⟨h1, h2⟩
    refine ⟨h1, h2, fun input hi => ?_⟩
    unfold readFile at hi
    rw [← h2]
    cases hd : w.disk f.path with
    | none => rw [hd] at hi; cases hi
    | some data => rw [hd] at hi; cases hi; rfl
  rotate_left
  · rintro e d ⟨h1, h2, _⟩; exact ⟨h1, .inl h2, fun hh => (by cases hh)⟩
  · rintro d ⟨h1, h2, _⟩; exact ⟨h1, .inl h2, fun hh => (by cases hh)⟩
  intro input
  refine pre (P := fun d => A d ∧ d f.path = disk f.path ∧ disk f.path = some input) ?_
    fun d hd => ⟨hd.1, hd.2.1, hd.2.2 input rfl⟩
  cases htr : transform h srt (formatParams flags.fix m f.path) input with
  | error e => rintro d ⟨h1, h2, _⟩; exact ⟨h1, .inl h2, fun hh => (by cases hh)⟩
  | ok r =>
    obtain ⟨t, failures⟩ := r
    show Sat _ _ (Prog.bind (.done (.ok (t, failures))) _) _ _
    unfold Prog.bind
    dsimp only
    split
    · refine bind (Q := fun _ d => A d ∧ d f.path = disk f.path) ?_ ?_ ?_ ?_
      · exact quiet (quiet_printFailures _ _ _ _) (guar_refl h srt flags.fix m disk)
          (fun _ => stable_and hA.stable (hno (· = disk f.path))) fun w hw => ⟨hw.1, hw.2.1⟩
      · rintro _ d ⟨h1, h2⟩; exact ⟨h1, .inl h2, fun hh => (by cases hh)⟩
      · rintro _ d ⟨h1, h2⟩; exact ⟨h1, .inl h2, fun hh => (by cases hh)⟩
      · rintro d ⟨h1, h2⟩; exact ⟨h1, .inl h2, fun hh => (by cases hh)⟩
    rename_i hlen
    have hnil : failures = [] := List.eq_nil_of_length_eq_zero (by omega)
    subst hnil
    have hF : Formats h srt flags.fix m f.path input t := transform_eq.1 htr
    split
    · refine bind (Q := fun o d => A d ∧ Done h srt flags.fix m disk f.path d) ?_ ?_ ?_ ?_
      · have last : ∀ P : Disk → Prop, (∀ d, P d → A d ∧ disk f.path = some input) →
            Sat (Rely h m) (Guar h srt flags.fix m disk) (Prog.atomic (writeFile h f.path t)) P
              fun o d => A d ∧ Done h srt flags.fix m disk f.path d := by
          intro P hP w hPw
          obtain ⟨h1, h2⟩ := hP _ hPw
          have hset : (writeFile h f.path t w).1.disk = Disk.set w.disk f.path (some t) := by
            unfold writeFile
            dsimp only
            rw [hw]
          have hD : Done h srt flags.fix m disk f.path (Disk.set w.disk f.path (some t)) :=
            ⟨input, t, h2, hF, by unfold Disk.set; rw [if_pos rfl]⟩
          refine ⟨?_, fun d => A d ∧ Done h srt flags.fix m disk f.path d, stable_and hA.stable hdone, ?_,
            fun d hd => hd⟩
          · rw [hset]
            intro p
            by_cases hp : p = f.path
            · subst hp; exact .inr ⟨hmine, .inr hD⟩
            · left; unfold Disk.set; rw [if_neg hp]
          · rw [hset]
            refine ⟨hA w.disk _ (fun p _ hp => ?_) h1, hD⟩
            unfold Disk.set; rw [if_neg hp]
        unfold writeFileSteps
        split
        · exact last _ fun d hd => ⟨hd.1, hd.2.2⟩
        · rintro w ⟨h1, _, h3⟩
          refine ⟨?_, fun d => A d ∧ disk f.path = some input, stable_and hA.stable (stable_const _), ⟨?_, h3⟩,
            last _ fun d hd => hd⟩
          · intro p
            by_cases hp : p = f.path
            · subst hp
              exact .inr ⟨hmine, .inl (by dsimp only [Disk.set]; rw [if_pos rfl])⟩
            · left; dsimp only [Disk.set]; rw [if_neg hp]
          · refine hA w.disk _ (fun p _ hp => ?_) h1
            dsimp only [Disk.set]; rw [if_neg hp]
      · rintro _ d ⟨h1, h2⟩; exact ⟨h1, .inr h2, fun _ => h2⟩
      · rintro _ d ⟨h1, h2⟩; exact ⟨h1, .inr h2, fun _ => h2⟩
      · rintro d ⟨h1, h2⟩; exact ⟨h1, .inr h2, fun _ => h2⟩
    · rename_i heq
      have heq : input = t := Decidable.not_not.1 heq
      rw [if_neg (by simp [ho])]
      rintro d ⟨h1, h2, h3⟩
      exact ⟨h1, .inl h2, fun _ => ⟨input, t, h3, hF, by rw [h2, h3, heq]⟩⟩

/-- The files of the run. -/
theorem formatFiles (hw : ∀ path text, h.writeFile path text = .ok ()) (whole : Bool) {flags : FormatFlags}
    (ho : flags.overwrite = true) (fs : List File.ProtoFile) :
    ∀ {A : Disk → Prop}, Frame h m (fun p => ∃ f ∈ fs, f.path = p) A → (fs.map (·.path)).Nodup →
      (∀ f ∈ fs, ¬ Skips h m f → Mine h m f.path) → ∀ b,
    Sat (Rely h m) (Guar h srt flags.fix m disk) (formatFilesSteps h whole srt flags m fs b)
      (fun d => A d ∧ ∀ f ∈ fs, ¬ Skips h m f → d f.path = disk f.path)
      fun o d => A d ∧
        (∀ f ∈ fs, ¬ Skips h m f → d f.path = disk f.path ∨ Done h srt flags.fix m disk f.path d) ∧
        (o = .ok true → b = true ∧ ∀ f ∈ fs, ¬ Skips h m f → Done h srt flags.fix m disk f.path d) := by
  induction fs with
  | nil =>
    intro A _ _ _ b d hd
    exact ⟨hd.1, fun f hf => (nomatch hf), fun e => ⟨by cases e; rfl, fun f hf => (nomatch hf)⟩⟩
  | cons f fs ih =>
    intro A hA hnd hmine b
    have hnd' := List.nodup_cons.1 hnd
    have hne : ∀ g ∈ fs, g.path ≠ f.path := fun g hg e => hnd'.1 (List.mem_map.2 ⟨g, hg, e⟩)
    rw [formatFilesSteps]
    by_cases hs : Skips h m f
    · have e : formatFileSteps h whole srt flags m f = .done (.ok true) := by
        unfold formatFileSteps; rw [if_pos hs]
      rw [e]
      show Sat _ _ (formatFilesSteps h whole srt flags m fs (b && true)) _ _
      rw [Bool.and_true]
      refine post (pre (ih (A := A) (hA.mono ?_) hnd'.2 (fun g hg => hmine g (List.mem_cons_of_mem _ hg)) b) ?_) ?_
      · rintro p ⟨g, hg, rfl⟩; exact ⟨g, List.mem_cons_of_mem _ hg, rfl⟩
      · rintro d ⟨h1, h2⟩; exact ⟨h1, fun g hg => h2 g (List.mem_cons_of_mem _ hg)⟩
      · rintro o d ⟨h1, h2, h3⟩
        refine ⟨h1, fun g hg hns => ?_, fun e => ⟨(h3 e).1, fun g hg hns => ?_⟩⟩
        · rcases List.mem_cons.1 hg with rfl | hg
          · exact absurd hs hns
          · exact h2 g hg hns
        · rcases List.mem_cons.1 hg with rfl | hg
          · exact absurd hs hns
          · exact (h3 e).2 g hg hns
    · have hm := hmine f List.mem_cons_self hs
      -- what holds besides the file
      have hA1 : Frame h m (fun p => p = f.path) fun d => A d ∧ ∀ g ∈ fs, ¬ Skips h m g → d g.path = disk g.path := by
        intro d d' hd ⟨h1, h2⟩
        refine ⟨hA d d' (fun p hp hn => hd p hp fun e => hn ⟨f, List.mem_cons_self, e.symm⟩) h1, fun g hg hns => ?_⟩
        rw [hd _ (hmine g (List.mem_cons_of_mem _ hg) hns) (hne g hg)]
        exact h2 g hg hns
      have hnot : ¬ ∃ g ∈ fs, g.path = f.path := fun ⟨g, hg, e⟩ => hne g hg e
      refine bind (pre (formatFile (disk := disk) (srt := srt) hw whole ho f hs hm hA1) ?_) ?_ ?_ ?_
      · rintro d ⟨h1, h2⟩
        exact ⟨⟨h1, fun g hg => h2 g (List.mem_cons_of_mem _ hg)⟩, h2 f List.mem_cons_self hs⟩
      · intro ok
        have hB : Frame h m (fun p => ∃ g ∈ fs, g.path = p) fun d => A d ∧
            (d f.path = disk f.path ∨ Done h srt flags.fix m disk f.path d) ∧
            (ok = true → Done h srt flags.fix m disk f.path d) := by
          refine (hA.mono ?_).and (Frame.at hm hnot fun c => (c = disk f.path ∨ ∃ content text,
            disk f.path = some content ∧ Formats h srt flags.fix m f.path content text ∧ c = some text) ∧
            (ok = true → ∃ content text,
            disk f.path = some content ∧ Formats h srt flags.fix m f.path content text ∧ c = some text))
          rintro p ⟨g, hg, rfl⟩; exact ⟨g, List.mem_cons_of_mem _ hg, rfl⟩
        refine post (pre (ih hB hnd'.2 (fun g hg => hmine g (List.mem_cons_of_mem _ hg)) (b && ok)) ?_) ?_
        · rintro d ⟨⟨h1, h2⟩, h3, h4⟩
          exact ⟨⟨h1, h3, fun e => h4 (by rw [e])⟩, h2⟩
        · rintro o d ⟨⟨h1, h2, h3⟩, h4, h5⟩
          refine ⟨h1, fun g hg hns => ?_, fun e => ?_⟩
          · rcases List.mem_cons.1 hg with rfl | hg
            · exact h2
            · exact h4 g hg hns
          · obtain ⟨hb, hall⟩ := h5 e
            simp only [Bool.and_eq_true] at hb
            refine ⟨hb.1, fun g hg hns => ?_⟩
            rcases List.mem_cons.1 hg with rfl | hg
            · exact h3 hb.2
            · exact hall g hg hns
      · rintro e d ⟨⟨h1, h2⟩, h3, _⟩
        refine ⟨h1, fun g hg hns => ?_, fun hh => (by cases hh)⟩
        rcases List.mem_cons.1 hg with rfl | hg
        · exact h3
        · exact .inl (h2 g hg hns)
      · rintro d ⟨⟨h1, h2⟩, h3, _⟩
        refine ⟨h1, fun g hg hns => ?_, fun hh => (by cases hh)⟩
        rcases List.mem_cons.1 hg with rfl | hg
        · exact h3
        · exact .inl (h2 g hg hns)

/-- The run. -/
theorem formatCmd (hw : ∀ path text, h.writeFile path text = .ok ()) (whole : Bool) (o : Order) (args : List Str)
    (hfind : Finds h args m) (hd : Distinct m) {flags : FormatFlags} (ho : flags.overwrite = true) :
    Sat (Rely h m) (Guar h srt flags.fix m disk) (formatCmdSteps h whole o srt args flags)
      (fun d => ∀ f, Concerns h m f → d f.path = disk f.path)
      fun o d => (∀ f, Concerns h m f → d f.path = disk f.path ∨ Done h srt flags.fix m disk f.path d) ∧
        (o = .ok () → ∀ f, Concerns h m f → Done h srt flags.fix m disk f.path d) := by
  unfold formatCmdSteps
  split
  · exact fun d hd => ⟨fun f hf => .inl (hd f hf), fun hh => (by cases hh)⟩
  have hm : metaOf h (fileOrDir args) = .ok m := by
    have := getMeta_ok.2 ⟨(rfl : (⟨fun _ => none, [], []⟩ : World) = _), hfind⟩
    unfold getMeta at this
    exact (lift_ok.1 this).2
  rw [hm]
  show Sat _ _ (Prog.bind (.done (.ok m)) _) _ _
  unfold Prog.bind
  dsimp only
  have hst : Stable (Rely h m) fun d => ∀ f, Concerns h m f → d f.path = disk f.path :=
    fun d d' hd hg f hf => (hg _ ⟨f, hf, rfl⟩).trans (hd f hf)
  refine bind (Q := fun _ d => ∀ f, Concerns h m f → d f.path = disk f.path) ?_ ?_ ?_ ?_
  · exact quiet (quiet_compile _ _ _ _) (guar_refl h srt flags.fix m disk) (fun _ => hst) fun w hw => hw
  · intro _
    have hF : Frame h m (fun p => ∃ f ∈ formatList o m, f.path = p) fun _ => True := fun _ _ _ _ => trivial
    refine bind (pre (formatFiles (srt := srt) (disk := disk) hw whole ho (formatList o m) hF (nodup_formatList hd)
      (fun f hf hs => ⟨f, mem_formatList.1 ⟨hf, hs⟩, rfl⟩) true) ?_) ?_ ?_ ?_
    · exact fun d hd => ⟨trivial, fun f hf hs => hd f (mem_formatList.1 ⟨hf, hs⟩)⟩
    · intro ok
      split
      · rintro d ⟨_, h2, _⟩
        refine ⟨fun f hf => ?_, fun hh => (by cases hh)⟩
        obtain ⟨hf, hs⟩ := mem_formatList.2 hf
        exact h2 f hf hs
      · rename_i hok
        have hok : ok = true := by simpa using hok
        subst hok
        rintro d ⟨_, h2, h3⟩
        refine ⟨fun f hf => ?_, fun _ f hf => ?_⟩
        · obtain ⟨hf, hs⟩ := mem_formatList.2 hf
          exact h2 f hf hs
        · obtain ⟨hf, hs⟩ := mem_formatList.2 hf
          exact (h3 rfl).2 f hf hs
    · rintro e d ⟨_, h2, _⟩
      refine ⟨fun f hf => ?_, fun hh => (by cases hh)⟩
      obtain ⟨hf, hs⟩ := mem_formatList.2 hf
      exact h2 f hf hs
    · rintro d ⟨_, h2, _⟩
      refine ⟨fun f hf => ?_, fun hh => (by cases hh)⟩
      obtain ⟨hf, hs⟩ := mem_formatList.2 hf
      exact h2 f hf hs
  · exact fun e d hd => ⟨fun f hf => .inl (hd f hf), fun hh => (by cases hh)⟩
  · exact fun d hd => ⟨fun f hf => .inl (hd f hf), fun hh => (by cases hh)⟩

end Format

/-! ## The system -/

/-- `Leaves`, for programs with any result. -/
def LeavesAny {α : Type} (mine : Str → Prop) : Prog α → Prop
  | .done _ => True
  | .step next k => ∀ w, (∀ path, mine path → (next w).disk path = w.disk path) ∧ LeavesAny mine (k w)

variable {mine : Str → Prop}

theorem leaves_of {p : Prog Unit} (h : LeavesAny mine p) : Leaves mine p := by
  induction p with
  | done o => trivial
  | step next k ih => exact fun w => ⟨(h w).1, ih w (h w).2⟩

theorem leaves_bind {α β : Type} {p : Prog α} {f : α → Prog β} (hp : LeavesAny mine p)
    (hf : ∀ a, LeavesAny mine (f a)) : LeavesAny mine (p.bind f) := by
  induction p with
  | done o =>
    cases o with
    | ok a => exact hf a
    | error e => trivial
    | crash => trivial
  | step next k ih => exact fun w => ⟨(hp w).1, ih w (hp w).2⟩

theorem leaves_quiet {α : Type} {r : Run α} (hr : Quiet r) : LeavesAny mine (Prog.atomic r) :=
  fun w => ⟨fun _ _ => by rw [(hr w).1], trivial⟩

theorem leaves_lift {α : Type} (r : Except Err α) : LeavesAny mine (Prog.lift r) := by
  cases r <;> trivial

theorem leaves_write (h : Host) (whole : Bool) (path data : Str) (hp : ¬ mine path) :
    LeavesAny mine (writeFileSteps h whole path data) := by
  have key : LeavesAny mine (Prog.atomic (writeFile h path data)) := by
    refine fun w => ⟨fun p hm => ?_, trivial⟩
    have hne : p ≠ path := fun e => hp (e ▸ hm)
    unfold writeFile
    dsimp only
    split <;> (dsimp only [Disk.set]; rw [if_neg hne])
  unfold writeFileSteps
  split
  · exact key
  · refine fun w => ⟨fun p hm => ?_, key⟩
    have hne : p ≠ path := fun e => hp (e ▸ hm)
    dsimp only [Disk.set]
    rw [if_neg hne]

theorem leaves_formatFile (h : Host) (whole : Bool) (srt : SortSlice) (flags : FormatFlags) (m : Meta)
    (f : File.ProtoFile) (hf : ¬ Skips h m f → ¬ mine f.path) :
    LeavesAny mine (formatFileSteps h whole srt flags m f) := by
  unfold formatFileSteps
  split
  · trivial
  rename_i hs
  refine leaves_bind (leaves_quiet (quiet_readFile _ _)) fun input => leaves_bind (leaves_lift _) fun r => ?_
  split
  · exact leaves_bind (leaves_quiet (quiet_printFailures _ _ _ _)) fun _ => trivial
  split
  · split
    · exact leaves_bind (leaves_write h whole _ _ (hf hs)) fun _ => trivial
    split
    · exact leaves_bind (leaves_quiet (quiet_printFailures _ _ _ _)) fun _ => trivial
    split
    · exact leaves_bind (leaves_lift _) fun d => leaves_bind (leaves_quiet (quiet_write _ _)) fun _ => trivial
    · exact leaves_bind (leaves_quiet (quiet_write _ _)) fun _ => trivial
  · split
    · exact leaves_bind (leaves_quiet (quiet_write _ _)) fun _ => trivial
    · trivial

theorem leaves_formatFiles (h : Host) (whole : Bool) (srt : SortSlice) (flags : FormatFlags) (m : Meta)
    (fs : List File.ProtoFile) : (∀ f ∈ fs, ¬ Skips h m f → ¬ mine f.path) →
    ∀ b, LeavesAny mine (formatFilesSteps h whole srt flags m fs b) := by
  induction fs with
  | nil => exact fun _ _ => trivial
  | cons f fs ih =>
    intro hf b
    exact leaves_bind (leaves_formatFile h whole srt flags m f (hf f List.mem_cons_self))
      fun _ => ih (fun g hg => hf g (List.mem_cons_of_mem _ hg)) _

theorem leaves_formatCmd (h : Host) (whole : Bool) (o : Order) (srt : SortSlice) (args : List Str)
    (flags : FormatFlags) (hm : ∀ m, Finds h args m → ∀ f, Concerns h m f → ¬ mine f.path) :
    LeavesAny mine (formatCmdSteps h whole o srt args flags) := by
  unfold formatCmdSteps
  split
  · trivial
  cases hmeta : metaOf h (fileOrDir args) with
  | error e => trivial
  | ok m =>
    have hfind : Finds h args m := by
      have : getMeta h args ⟨fun _ => none, [], []⟩ = (⟨fun _ => none, [], []⟩, .ok m) := by
        unfold getMeta
        rw [hmeta]
        rfl
      exact (getMeta_ok.1 this).2
    show LeavesAny mine (Prog.bind (.done (.ok m)) _)
    unfold Prog.bind
    dsimp only
    refine leaves_bind (leaves_quiet (quiet_compile _ _ _ _)) fun _ =>
      leaves_bind (leaves_formatFiles h whole srt flags m (formatList o m) (fun f hf hs =>
        hm m hfind f (mem_formatList.1 ⟨hf, hs⟩)) true) fun ok => ?_
    split <;> trivial

/-- One process with a promise among others that leave its files alone. -/
theorem system {n : Nat} {R G : Disk → Disk → Prop} {I : Disk → Prop} {Q : Outcome Unit → Disk → Prop}
    (hR : ∀ d d', (∀ path, mine path → d' path = d path) → R d d') (hI : Stable R I) (hI' : Stable G I)
    {s t : System} (hr : Leads s t)
    (h0 : ∀ i p, s.procs[i]? = some p → i ≠ n → Leaves mine p.prog)
    (h1 : ∀ p, s.procs[n]? = some p → ∃ P, Stable R P ∧ P s.disk ∧ Sat R G p.prog P Q) (h2 : I s.disk) :
    (∀ i p, t.procs[i]? = some p → i ≠ n → Leaves mine p.prog) ∧
      (∀ p, t.procs[n]? = some p → ∃ P, Stable R P ∧ P t.disk ∧ Sat R G p.prog P Q) ∧ I t.disk := by
  induction hr with
  | refl => exact ⟨h0, h1, h2⟩
  | more _ hm ih =>
    rename_i t u _
    obtain ⟨i0, i1, i2⟩ := ih
    cases hm with
    | @mk j p next k hi hp =>
      by_cases hj : j = n
      · subst hj
        obtain ⟨P, _, hP, hsat⟩ := i1 p hi
        rw [hp] at hsat
        obtain ⟨g, P', hs', hP', hsat'⟩ := hsat ⟨t.disk, p.out, p.writes⟩ hP
        refine ⟨?_, ?_, hI' _ _ i2 g⟩
        · intro i q hq hne
          dsimp only at hq
          rw [List.getElem?_set, if_neg (fun e => hne e.symm)] at hq
          exact i0 i q hq hne
        · intro q hq
          dsimp only at hq
          rw [List.getElem?_set, if_pos rfl] at hq
          split at hq
          · cases hq; exact ⟨P', hs', hP', hsat'⟩
          · cases hq
      · have hl := i0 j p hi hj
        rw [hp] at hl
        obtain ⟨l1, l2⟩ := hl ⟨t.disk, p.out, p.writes⟩
        have hR' := hR _ _ l1
        refine ⟨?_, ?_, hI _ _ i2 hR'⟩
        · intro i q hq hne
          dsimp only at hq
          rw [List.getElem?_set] at hq
          split at hq
          · split at hq
            · cases hq; exact l2
            · cases hq
          · exact i0 i q hq hne
        · intro q hq
          dsimp only at hq
          rw [List.getElem?_set, if_neg hj] at hq
          obtain ⟨P, hs, hP, hsat⟩ := i1 q hq
          exact ⟨P, hs, hs _ _ hP hR', hsat⟩

end Verif.Proof.Apart
