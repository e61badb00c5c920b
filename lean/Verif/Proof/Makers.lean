import Verif.Proof.Apart
import Verif.Proof.Create
import Verif.Proof.CreateText
import Verif.Spec.Makers

/-! # `create` and `config init` among other programs -/

namespace Verif.Proof.Makers

open Verif Exec Spec Proof.Apart

/-! ## Without other processes -/

theorem run_forEach {f : Str → Prog Unit} {g : Str → Run Unit} (hf : ∀ p, (f p).run = g p) (ps : List Str) :
    (forEachSteps f ps).run = Create.forEach g ps := by
  induction ps with
  | nil => rfl
  | cons p ps ih =>
    rw [forEachSteps, Create.forEach, run_bind, hf]
    congr 1
    funext _
    exact ih

theorem run_liftOption {α : Type} (r : Option (Except Err α)) : (Prog.liftOption r).run = Run.liftOption r := by
  cases r with
  | none => rfl
  | some r => exact run_lift r

theorem run_create (h : Create.Handler) (host : Host) (whole : Bool) (p : Str) :
    (createSteps h host whole p).run = Create.create h host p := by
  unfold createSteps Create.create
  rw [run_bind, run_liftOption]
  congr 1
  funext c
  rw [run_bind, run_lift]
  congr 1
  funext pkg
  exact run_writeFileSteps _ _ _ _

theorem run_createCmd (h : Create.Handler) (host : Host) (whole : Bool) (ps : List Str) :
    (createCmdSteps h host whole ps).run = Create.createCmd h host ps := by
  unfold createCmdSteps Create.createCmd
  rw [run_bind, run_forEach (fun p => run_atomic _)]
  congr 1
  funext _
  exact run_forEach (run_create h host whole) ps

/-- The end of `config init`. -/
def initEnd (h : Host) (t : Tools) (whole : Bool) (q : Str) (uncomment document : Bool) : Prog Unit :=
  (Prog.atomic (checkInit q)).bind fun _ =>
  (Prog.lift (t.config uncomment document)).bind fun data => writeFileSteps h whole q data

theorem init_cases (h : Host) (t : Tools) (whole : Bool) (args : List Str) (uncomment document : Bool) :
    (∃ e, initCmdSteps h t whole args uncomment document = .done (.error e)) ∨
      initCmdSteps h t whole args uncomment document =
        initEnd h t whole (Path.joinPath [args.headD h.workDirPath, s%"prototool.yaml"]) uncomment document := by
  unfold initCmdSteps
  split
  · exact .inl ⟨_, rfl⟩
  rename_i hlen
  rcases args with _ | ⟨a, _ | ⟨b, l⟩⟩
  · exact .inr rfl
  · dsimp only
    cases t.mkdirAll a with
    | error e => exact .inl ⟨_, rfl⟩
    | ok u => exact .inr rfl
  · simp at hlen

theorem run_initEnd (h : Host) (t : Tools) (whole : Bool) (q : Str) (uncomment document : Bool) :
    (initEnd h t whole q uncomment document).run = fun w =>
      if (w.disk q).isSome then (w, .error (.other (q ++ s%" already exists")))
      else (Run.bind (Run.lift (t.config uncomment document)) fun data => writeFile h q data) w := by
  unfold initEnd
  rw [run_bind, run_atomic]
  funext w
  unfold Run.bind checkInit
  split
  · rename_i hw he
    split at he
    · cases he
    · rename_i hn
      cases he
      rw [if_neg hn, run_bind, run_lift]
      simp only [run_writeFileSteps]
      rfl
  · rename_i hw he
    split at he
    · rename_i hn
      cases he
      rw [if_pos hn]
    · cases he
  · rename_i hw he
    split at he <;> cases he

theorem run_init (h : Host) (t : Tools) (whole : Bool) (args : List Str) (uncomment document : Bool) :
    (initCmdSteps h t whole args uncomment document).run = initCmd h t args uncomment document := by
  unfold initCmdSteps initCmd
  split
  · rfl
  rename_i hlen
  rcases args with _ | ⟨a, _ | ⟨b, l⟩⟩
  · exact run_initEnd h t whole _ uncomment document
  · dsimp only
    rw [run_bind, run_lift]
    congr 1
    funext _
    exact run_initEnd h t whole _ uncomment document
  · simp at hlen

/-! ## Programs that change nothing -/

/-- Where `A` holds of the disk, the program changes no file, and what it returns satisfies `S`. -/
def Quietly (A : Disk → Prop) (S : Prop) : Prog Unit → Prop
  | .done o => o = .ok () → S
  | .step next k => ∀ w, A w.disk → (next w).disk = w.disk ∧ Quietly A S (k w)

theorem quietly_bind {A : Disk → Prop} {S T : Prop} {p : Prog Unit} {f : Unit → Prog Unit} (hp : Quietly A S p)
    (hf : S → Quietly A T (f ())) : Quietly A T (p.bind f) := by
  induction p with
  | done o =>
    rcases o with ⟨⟩ | e | _
    · exact hf (hp rfl)
    · exact fun h => (by cases h)
    · exact fun h => (by cases h)
  | step next k ih => exact fun w hw => ⟨(hp w hw).1, ih w (hp w hw).2⟩

theorem quietly_mono {A : Disk → Prop} {S T : Prop} {p : Prog Unit} (hp : Quietly A S p) (h : S → T) :
    Quietly A T p := by
  induction p with
  | done o => exact fun e => h (hp e)
  | step next k ih => exact fun w hw => ⟨(hp w hw).1, ih w (hp w hw).2⟩

/-- The checks of `create`. -/
theorem quietly_checks (host : Host) (A : Disk → Prop) (S : Str → Prop)
    (hS : ∀ d p, A d → ¬ Unfit host d p → S p) (ps : List Str) :
    Quietly A (∀ p ∈ ps, S p) (forEachSteps (fun p => .atomic (Create.checkFilePath host p)) ps) := by
  induction ps with
  | nil => exact fun _ p hp => (nomatch hp)
  | cons p ps ih =>
    rw [forEachSteps]
    refine quietly_bind (S := S p) ?_ fun hp => quietly_mono ih fun hps q hq => ?_
    · intro w hw
      dsimp only
      rcases Create.check_cases host w p with ⟨e, he⟩ | ⟨he, hu⟩
      · rw [he]; exact ⟨rfl, fun h => (by cases h)⟩
      · rw [he]; exact ⟨rfl, fun _ => hS _ _ hw hu⟩
    · rcases List.mem_cons.1 hq with rfl | hq
      · exact hp
      · exact hps q hq

/-- The check of `config init`. -/
theorem quietly_checkInit (q : Str) (A : Disk → Prop) (S : Prop) (hS : ∀ d, A d → d q = none → S) :
    Quietly A S (Prog.atomic (checkInit q)) := by
  intro w hw
  dsimp only
  cases hd : w.disk q with
  | none =>
    have e : checkInit q w = (w, .ok ()) := by unfold checkInit; rw [hd]; rfl
    rw [e]; exact ⟨rfl, fun _ => hS _ hw hd⟩
  | some x =>
    have e : checkInit q w = (w, .error (.other (q ++ s%" already exists"))) := by unfold checkInit; rw [hd]; rfl
    rw [e]; exact ⟨rfl, fun h => (by cases h)⟩

/-! ## Files of others -/

variable {mine : Str → Prop}

theorem leaves_create (h : Create.Handler) (host : Host) (whole : Bool) (p : Str) (hp : ¬ mine (located host p)) :
    LeavesAny mine (createSteps h host whole p) := by
  unfold createSteps
  refine leaves_bind ?_ fun c => leaves_bind (leaves_lift _) fun pkg => leaves_write _ _ _ _ hp
  cases Create.getConfig h host p with
  | none => trivial
  | some r => exact leaves_lift r

theorem leaves_creates (h : Create.Handler) (host : Host) (whole : Bool) (ps : List Str)
    (hp : ∀ p ∈ ps, ¬ mine (located host p)) : LeavesAny mine (forEachSteps (createSteps h host whole) ps) := by
  induction ps with
  | nil => trivial
  | cons p ps ih =>
    rw [forEachSteps]
    exact leaves_bind (leaves_create h host whole p (hp p List.mem_cons_self)) fun _ =>
      ih fun q hq => hp q (List.mem_cons_of_mem _ hq)

theorem leaves_quietly {S : Prop} {p : Prog Unit} (h : Quietly (fun _ => True) S p) : LeavesAny mine p := by
  induction p with
  | done o => trivial
  | step next k ih => exact fun w => ⟨fun _ _ => by rw [(h w trivial).1], ih w (h w trivial).2⟩

theorem leaves_maker (host : Host) (whole : Bool) (m : Maker) (hm : ∀ q, mine q → ¬ m.Names host q) :
    LeavesAny mine (m.steps host whole) := by
  cases m with
  | create h ps =>
    refine leaves_bind (leaves_quietly (quietly_checks host _ (fun _ => True) (fun _ _ _ _ => trivial) ps)) fun _ =>
      leaves_creates h host whole ps fun p hp hq => hm _ hq ⟨p, hp, rfl⟩
  | init t args u d =>
    show LeavesAny mine (initCmdSteps host t whole args u d)
    rcases init_cases host t whole args u d with ⟨e, he⟩ | he
    · rw [he]; trivial
    · rw [he]
      exact leaves_bind (leaves_quietly (quietly_checkInit _ _ True fun _ _ _ => trivial)) fun _ =>
        leaves_bind (leaves_lift _) fun data => leaves_write _ _ _ _ fun hq => hm _ hq rfl

/-! ## Files with content -/

/-- As long as the file has this content, the program leaves it there. -/
def Keeps (q data : Str) : Prog Unit → Prop
  | .done _ => True
  | .step next k => ∀ w, w.disk q = some data → (next w).disk q = some data ∧ Keeps q data (k w)

theorem keeps_leaves {q data : Str} {p : Prog Unit} (h : LeavesAny (· = q) p) : Keeps q data p := by
  induction p with
  | done o => trivial
  | step next k ih => exact fun w hw => ⟨((h w).1 q rfl).trans hw, ih w (h w).2⟩

theorem keeps_of_leaves {q data : Str} {p : Prog Unit} (h : Leaves (· = q) p) : Keeps q data p := by
  induction p with
  | done o => trivial
  | step next k ih => exact fun w hw => ⟨((h w).1 q rfl).trans hw, ih w (h w).2⟩

theorem keeps_quietly {q data : Str} {S : Prop} {p : Prog Unit} {f : Unit → Prog Unit}
    (hp : Quietly (fun d => d q = some data) S p) (hf : S → Keeps q data (f ())) : Keeps q data (p.bind f) := by
  induction p with
  | done o =>
    rcases o with ⟨⟩ | e | _
    · exact hf (hp rfl)
    · trivial
    · trivial
  | step next k ih => exact fun w hw => ⟨by rw [(hp w hw).1]; exact hw, ih w (hp w hw).2⟩

theorem keeps_maker (host : Host) (whole : Bool) (m : Maker) (q data : Str) (hd : data ≠ []) :
    Keeps q data (m.steps host whole) := by
  cases m with
  | create h ps =>
    refine keeps_quietly (quietly_checks host _ (fun p => located host p ≠ q) ?_ ps) fun hps =>
      keeps_leaves (leaves_creates h host whole ps hps)
    rintro d p hq hu rfl
    exact hu (.inr (.inr ⟨data, hq, hd⟩))
  | init t args u d =>
    show Keeps q data (initCmdSteps host t whole args u d)
    rcases init_cases host t whole args u d with ⟨e, he⟩ | he
    · rw [he]; trivial
    · rw [he]
      by_cases hq : Path.joinPath [args.headD host.workDirPath, s%"prototool.yaml"] = q
      · rw [hq]
        exact keeps_quietly (quietly_checkInit q _ False fun d h1 h2 => by rw [h1] at h2; cases h2) fun h => h.elim
      · exact keeps_leaves (leaves_bind (leaves_quietly (quietly_checkInit _ _ True fun _ _ _ => trivial)) fun _ =>
          leaves_bind (leaves_lift _) fun data => leaves_write _ _ _ _ hq)

theorem kept {q data : Str} {s t : System} (hr : Leads s t) (h0 : ∀ p ∈ s.procs, Keeps q data p.prog)
    (h1 : s.disk q = some data) : (∀ p ∈ t.procs, Keeps q data p.prog) ∧ t.disk q = some data := by
  induction hr with
  | refl => exact ⟨h0, h1⟩
  | more _ hm ih =>
    obtain ⟨i0, i1⟩ := ih
    cases hm with
    | @mk j p next k hi hp =>
      have hk := i0 p (List.mem_of_getElem? hi)
      rw [hp] at hk
      obtain ⟨k1, k2⟩ := hk ⟨_, p.out, p.writes⟩ i1
      refine ⟨fun r hr => ?_, k1⟩
      rcases List.mem_or_eq_of_mem_set hr with hr | rfl
      · exact i0 r hr
      · exact k2

/-! ## Files that are made -/

/-- Has the program still to write the file, has it emptied it, or has it written it? -/
inductive Phase where
  | before
  | owes
  | after

/-- The program writes a file with a text for it, in two steps or in one; it ends well only when it has written it, and
does not end between the two steps. -/
def Phased (q : Str) (T : Str → Prop) : Prog Unit → Phase → Prop
  | .done o, ph => (ph = .before → o ≠ .ok ()) ∧ ph ≠ .owes
  | .step next k, ph => ∀ w,
      (next w).disk q = w.disk q ∧ Phased q T (k w) ph ∨
      ph ≠ .owes ∧ (next w).disk q = some [] ∧ Phased q T (k w) .owes ∨
      ∃ text, T text ∧ (next w).disk q = some text ∧ Phased q T (k w) .after

variable {q : Str} {T : Str → Prop}

theorem phased_leaves_bind {p : Prog Unit} {f : Unit → Prog Unit} {ph : Phase} (ho : ph ≠ .owes)
    (hp : LeavesAny (· = q) p) (hf : Phased q T (f ()) ph) : Phased q T (p.bind f) ph := by
  induction p with
  | done o =>
    rcases o with ⟨⟩ | e | _
    · exact hf
    · exact ⟨fun _ h => (by cases h), ho⟩
    · exact ⟨fun _ h => (by cases h), ho⟩
  | step next k ih => exact fun w => .inl ⟨(hp w).1 q rfl, ih w (hp w).2⟩

theorem phased_quietly_bind {S : Prop} {p : Prog Unit} {f : Unit → Prog Unit} {ph : Phase} (ho : ph ≠ .owes)
    (hp : Quietly (fun _ => True) S p) (hf : S → Phased q T (f ()) ph) : Phased q T (p.bind f) ph := by
  induction p with
  | done o =>
    rcases o with ⟨⟩ | e | _
    · exact hf (hp rfl)
    · exact ⟨fun _ h => (by cases h), ho⟩
    · exact ⟨fun _ h => (by cases h), ho⟩
  | step next k ih => exact fun w => .inl ⟨by rw [(hp w trivial).1], ih w (hp w trivial).2⟩

theorem phased_write (host : Host) (hw : ∀ path text, host.writeFile path text = .ok ()) (whole : Bool) {text : Str}
    (ht : T text) {f : Unit → Prog Unit} {ph : Phase} (ho : ph ≠ .owes) (hf : Phased q T (f ()) .after) :
    Phased q T ((writeFileSteps host whole q text).bind f) ph := by
  have key : ∀ ph, Phased q T ((Prog.atomic (writeFile host q text)).bind f) ph := by
    intro ph w
    refine .inr (.inr ⟨text, ht, ?_, ?_⟩)
    · unfold writeFile
      dsimp only
      rw [hw]
      dsimp only [Disk.set]
      rw [if_pos rfl]
    · unfold writeFile
      dsimp only
      rw [hw]
      exact hf
  unfold writeFileSteps
  split
  · exact key ph
  · intro w
    refine .inr (.inl ⟨ho, ?_, key .owes⟩)
    dsimp only [Disk.set]
    rw [if_pos rfl]

theorem phased_create (h : Create.Handler) (host : Host) (hw : ∀ path text, host.writeFile path text = .ok ())
    (whole : Bool) (p : Str) (hp : located host p = q) (hT : ∀ text, Create.Fresh h host p text → T text)
    {f : Unit → Prog Unit} {ph : Phase} (ho : ph ≠ .owes) (hf : Phased q T (f ()) .after) :
    Phased q T ((createSteps h host whole p).bind f) ph := by
  have hend : ∀ o : Outcome Unit, o ≠ .ok () → Phased q T (.done o) ph := fun o h => ⟨fun _ => h, ho⟩
  unfold createSteps
  cases hc : Create.getConfig h host p with
  | none => exact hend _ fun h => (by cases h)
  | some r =>
    cases r with
    | error e => exact hend _ fun h => (by cases h)
    | ok c =>
      show Phased q T (((Prog.lift _).bind _).bind f) ph
      cases hg : Create.getPkg h host c p
          (if Create.isV2 c then Create.defaultPackageV2 else Create.defaultPackage) with
      | error e => exact hend _ fun h => (by cases h)
      | ok pkg =>
        show Phased q T ((writeFileSteps host whole (located host p) _).bind f) ph
        rw [hp]
        exact phased_write host hw whole (hT _ ⟨c, pkg, hc, hg, rfl⟩) ho hf

theorem phased_creates (h : Create.Handler) (host : Host) (hw : ∀ path text, host.writeFile path text = .ok ())
    (whole : Bool) (ps : List Str)
    (hT : ∀ p ∈ ps, located host p = q → ∀ text, Create.Fresh h host p text → T text) :
    Phased q T (forEachSteps (createSteps h host whole) ps) .after ∧
      ((∃ p ∈ ps, located host p = q) → Phased q T (forEachSteps (createSteps h host whole) ps) .before) := by
  induction ps with
  | nil => exact ⟨⟨fun h => (by cases h), fun h => (by cases h)⟩, fun ⟨p, hp, _⟩ => (nomatch hp)⟩
  | cons p ps ih =>
    obtain ⟨ih1, ih2⟩ := ih fun p hp => hT p (List.mem_cons_of_mem _ hp)
    rw [forEachSteps]
    by_cases hq : located host p = q
    · have hTp := hT p List.mem_cons_self hq
      exact ⟨phased_create h host hw whole p hq hTp (fun h => (by cases h)) ih1,
        fun _ => phased_create h host hw whole p hq hTp (fun h => (by cases h)) ih1⟩
    · have hl : LeavesAny (· = q) (createSteps h host whole p) := leaves_create h host whole p hq
      refine ⟨phased_leaves_bind (fun h => (by cases h)) hl ih1, fun ⟨r, hr, e⟩ => ?_⟩
      refine phased_leaves_bind (fun h => (by cases h)) hl (ih2 ⟨r, ?_, e⟩)
      rcases List.mem_cons.1 hr with rfl | hr
      · exact absurd e hq
      · exact hr

open Create Path in
/-- The text that `create` writes. -/
theorem newText_of_fresh {h : Create.Handler} {host : Host} (hwd : IsAbsPath host.wd) {p text : Str} (hne : p ≠ [])
    (hf : Create.Fresh h host p text) : ∃ c package, getConfig h host p = some (.ok c) ∧
      getPkg h host c p (if c.lint.group = s%"uber2" then s%"uber.prototool.generated.v1"
        else s%"uber.prototool.generated") = .ok package ∧
      text = newText c.lint.fileHeader (c.lint.group = s%"uber2") p package c.lint.javaPackagePrefix := by
  obtain ⟨c, package, hc, hg, rfl⟩ := hf
  have hpl := getConfig_placed (absDir_isAbsPath hwd hne) hc
  have hroot : c.dirPath ≠ [] := by
    obtain ⟨cs, ds, _, e, _⟩ := hpl.above
    rw [e, absPath_eq]; simp
  have hlow : Str.toLower c.lint.group = c.lint.group := hpl.lower
  rw [content_eq hroot, hlow]
  refine ⟨c, package, hc, ?_, rfl⟩
  have hv : isV2 c = decide (c.lint.group = s%"uber2") := by
    unfold isV2; rw [if_neg hroot, hlow]
  rw [hv] at hg
  by_cases hg2 : c.lint.group = s%"uber2"
  · rw [if_pos hg2]
    rw [decide_eq_true hg2, if_pos rfl] at hg
    exact hg
  · rw [if_neg hg2]
    rw [decide_eq_false hg2, if_neg Bool.false_ne_true] at hg
    exact hg

theorem phased_maker (host : Host) (hw : ∀ path text, host.writeFile path text = .ok ()) (hwd : IsAbsPath host.wd)
    (whole : Bool) (m : Maker) (hm : m.Names host q) (hT : ∀ text, m.Makes host q text → T text) :
    Phased q T (m.steps host whole) .before := by
  cases m with
  | create h ps =>
    refine phased_quietly_bind (fun h => (by cases h))
      (quietly_checks host _ (fun p => p ≠ []) (fun _ p _ hu e => hu (.inl e)) ps) fun hne =>
      (phased_creates h host hw whole ps ?_).2 hm
    intro p hp e text hf
    exact hT text ⟨p, hp, e, newText_of_fresh hwd (hne p hp) hf⟩
  | init t args u d =>
    have hend : ∀ e : RunErr, Phased q T (.done (.error e)) .before :=
      fun e => ⟨fun _ h => (by cases h), fun h => (by cases h)⟩
    show Phased q T (initCmdSteps host t whole args u d) _
    have hm : q = Path.joinPath [args.headD host.workDirPath, s%"prototool.yaml"] := hm
    rcases init_cases host t whole args u d with ⟨e, he⟩ | he
    · rw [he]; exact hend e
    · rw [he, ← hm]
      refine phased_quietly_bind (fun h => (by cases h)) (quietly_checkInit q _ True fun _ _ _ => trivial) fun _ => ?_
      cases hc : t.config u d with
      | error e => exact hend _
      | ok data =>
        show Phased q T (writeFileSteps host whole q data) .before
        have := phased_write (q := q) (f := fun _ => .done (.ok ())) (ph := .before) host hw whole
          (hT data ⟨hm, hc⟩) (fun h => (by cases h)) ⟨fun h => (by cases h), fun h => (by cases h)⟩
        have e : (writeFileSteps host whole q data).bind (fun _ => .done (.ok ())) = writeFileSteps host whole q data := by
          unfold writeFileSteps
          split
          · unfold Prog.atomic Prog.bind
            congr 1
            funext w
            unfold Prog.bind
            split <;> simp_all
          · unfold Prog.atomic Prog.bind
            congr 1
            funext w
            unfold Prog.bind
            congr 1
            funext w
            unfold Prog.bind
            split <;> simp_all
        rw [e] at this
        exact this

/-- Programs that write the file, and programs that leave it alone. -/
structure Inv (writer : Nat → Prop) (q : Str) (T : Str → Prop) (disk : Disk) (s : System) : Prop where
  others : ∀ i p, s.procs[i]? = some p → ¬ writer i → Leaves (· = q) p.prog
  writers : ∀ i p, s.procs[i]? = some p → writer i → ∃ ph, Phased q T p.prog ph
  file : s.disk q = disk q ∧ (∀ i p, s.procs[i]? = some p → writer i → Phased q T p.prog .before) ∨
    (∃ text, T text ∧ s.disk q = some text) ∨
    (s.disk q = disk q ∨ s.disk q = some [] ∨ ∃ text, T text ∧ s.disk q = some text) ∧
      ∃ i p, s.procs[i]? = some p ∧ writer i ∧ Phased q T p.prog .owes

theorem inv_moves {writer : Nat → Prop} {disk : Disk} {s t : System} (hs : Inv writer q T disk s) (hm : Moves s t) :
    Inv writer q T disk t := by
  cases hm with
  | @mk j p next k hi hp =>
    have hget : ∀ (x : Process) i r, (s.procs.set j x)[i]? = some r → i = j ∧ r = x ∨ i ≠ j ∧ s.procs[i]? = some r := by
      intro x i r hr
      rw [List.getElem?_set] at hr
      split at hr
      · rename_i e
        split at hr
        · cases hr; exact .inl ⟨e.symm, rfl⟩
        · cases hr
      · rename_i e; exact .inr ⟨fun h => e h.symm, hr⟩
    have hset : ∀ (x : Process), (s.procs.set j x)[j]? = some x := by
      intro x
      rw [List.getElem?_set, if_pos rfl, if_pos]
      exact (List.getElem?_eq_some_iff.1 hi).1
    have hset' : ∀ (x : Process) i, i ≠ j → (s.procs.set j x)[i]? = s.procs[i]? := by
      intro x i h
      rw [List.getElem?_set, if_neg fun e => h e.symm]
    by_cases hwr : writer j
    · -- what the others are stays
      have common : (∃ ph, Phased q T (k ⟨s.disk, p.out, p.writes⟩) ph) →
          ∀ x : Process, x.prog = k ⟨s.disk, p.out, p.writes⟩ →
          (∀ i r, (s.procs.set j x)[i]? = some r → ¬ writer i → Leaves (· = q) r.prog) ∧
          (∀ i r, (s.procs.set j x)[i]? = some r → writer i → ∃ ph, Phased q T r.prog ph) := by
        intro hk x hx
        constructor
        · intro i r hr hn
          rcases hget x i r hr with ⟨rfl, rfl⟩ | ⟨_, hr⟩
          · exact absurd hwr hn
          · exact hs.others i r hr hn
        · intro i r hr hn
          rcases hget x i r hr with ⟨rfl, rfl⟩ | ⟨_, hr⟩
          · rw [hx]; exact hk
          · exact hs.writers i r hr hn
      -- a step of a program in a phase
      have go : ∀ ph, Phased q T p.prog ph →
          (s.disk q = disk q ∧ ph = .before ∧ (∀ i r, s.procs[i]? = some r → writer i → Phased q T r.prog .before) ∨
            (∃ text, T text ∧ s.disk q = some text) ∨
            (s.disk q = disk q ∨ s.disk q = some [] ∨ ∃ text, T text ∧ s.disk q = some text) ∧
              (ph = .owes ∨ ∃ i r, i ≠ j ∧ s.procs[i]? = some r ∧ writer i ∧ Phased q T r.prog .owes)) →
          Inv writer q T disk ⟨(next ⟨s.disk, p.out, p.writes⟩).disk, s.procs.set j
            ⟨k ⟨s.disk, p.out, p.writes⟩, (next ⟨s.disk, p.out, p.writes⟩).out,
              (next ⟨s.disk, p.out, p.writes⟩).writes⟩⟩ := by
        intro ph hph hcase
        rw [hp] at hph
        rcases hph ⟨s.disk, p.out, p.writes⟩ with ⟨h1, h2⟩ | ⟨_, h1, h2⟩ | ⟨text, ht, h1, h2⟩
        · obtain ⟨c1, c2⟩ := common ⟨ph, h2⟩ ⟨k ⟨s.disk, p.out, p.writes⟩, (next ⟨s.disk, p.out, p.writes⟩).out,
              (next ⟨s.disk, p.out, p.writes⟩).writes⟩ rfl
          refine ⟨c1, c2, ?_⟩
          dsimp only
          rw [h1]
          dsimp only
          rcases hcase with ⟨d1, d2, d3⟩ | d | ⟨d1, d2⟩
          · refine .inl ⟨d1, fun i r hr hn => ?_⟩
            rcases hget _ i r hr with ⟨rfl, rfl⟩ | ⟨_, hr⟩
            · rw [d2] at h2; exact h2
            · exact d3 i r hr hn
          · exact .inr (.inl d)
          · refine .inr (.inr ⟨d1, ?_⟩)
            rcases d2 with d2 | ⟨i, r, hij, hr, hn, ho⟩
            · rw [d2] at h2; exact ⟨j, _, hset _, hwr, h2⟩
            · exact ⟨i, r, by rw [hset' _ i hij]; exact hr, hn, ho⟩
        · obtain ⟨c1, c2⟩ := common ⟨_, h2⟩ ⟨k ⟨s.disk, p.out, p.writes⟩, (next ⟨s.disk, p.out, p.writes⟩).out,
              (next ⟨s.disk, p.out, p.writes⟩).writes⟩ rfl
          exact ⟨c1, c2, .inr (.inr ⟨.inr (.inl h1), j, _, hset _, hwr, h2⟩)⟩
        · obtain ⟨c1, c2⟩ := common ⟨_, h2⟩ ⟨k ⟨s.disk, p.out, p.writes⟩, (next ⟨s.disk, p.out, p.writes⟩).out,
              (next ⟨s.disk, p.out, p.writes⟩).writes⟩ rfl
          exact ⟨c1, c2, .inr (.inl ⟨text, ht, h1⟩)⟩
      rcases hs.file with ⟨f1, f2⟩ | f | ⟨f1, i, r, hr, hn, ho⟩
      · exact go .before (f2 j p hi hwr) (.inl ⟨f1, rfl, f2⟩)
      · obtain ⟨ph, hph⟩ := hs.writers j p hi hwr
        exact go ph hph (.inr (.inl f))
      · by_cases hij : i = j
        · subst hij
          rw [hi] at hr
          cases hr
          exact go .owes ho (.inr (.inr ⟨f1, .inl rfl⟩))
        · obtain ⟨ph, hph⟩ := hs.writers j p hi hwr
          exact go ph hph (.inr (.inr ⟨f1, .inr ⟨i, r, hij, hr, hn, ho⟩⟩))
    · have hl := hs.others j p hi hwr
      rw [hp] at hl
      obtain ⟨l1, l2⟩ := hl ⟨s.disk, p.out, p.writes⟩
      have l1 := l1 q rfl
      dsimp only at l1
      refine ⟨?_, ?_, ?_⟩
      · intro i r hr hn
        rcases hget _ i r hr with ⟨rfl, rfl⟩ | ⟨_, hr⟩
        · exact l2
        · exact hs.others i r hr hn
      · intro i r hr hn
        rcases hget _ i r hr with ⟨rfl, rfl⟩ | ⟨_, hr⟩
        · exact absurd hn hwr
        · exact hs.writers i r hr hn
      · dsimp only
        rw [l1]
        rcases hs.file with ⟨f1, f2⟩ | f | ⟨f1, i, r, hr, hn, ho⟩
        · refine .inl ⟨f1, fun i r hr hn => ?_⟩
          rcases hget _ i r hr with ⟨rfl, rfl⟩ | ⟨_, hr⟩
          · exact absurd hn hwr
          · exact f2 i r hr hn
        · exact .inr (.inl f)
        · refine .inr (.inr ⟨f1, i, r, ?_, hn, ho⟩)
          rw [hset' _ i fun e => hwr (e ▸ hn)]
          exact hr

theorem inv_leads {writer : Nat → Prop} {disk : Disk} {s t : System} (hs : Inv writer q T disk s) (hm : Leads s t) :
    Inv writer q T disk t := by
  induction hm with
  | refl => exact hs
  | more _ hm ih => exact inv_moves ih hm

end Verif.Proof.Makers
