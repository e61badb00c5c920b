import Verif.Proof.Cmd
import Verif.Props.Exec
import Verif.Props.Inspect
import Verif.Props.Grpc
import Verif.Props.DownloadPath
import Verif.Props.ExecMoreSample
import Verif.Props.Create

/-!
# The command line: exit codes, settings, flags and files
-/

namespace Verif.Props

open Verif Str Exec Cmd Spec Proof.Cmd

/-! ## C52 -/

theorem failWith_other (e : Err) (w : World) :
    failWith (.other e) w = ({ w with out := w.out ++ textLine e }, .code 1) := by
  unfold failWith printAndGetErrorExitCode textLine
  by_cases h : e = [] <;> simp [h]

theorem failWith_exit (c : Int) (m : Str) (w : World) :
    failWith (.exit c m) w = ({ w with out := w.out ++ textLine m }, .code c) := by
  unfold failWith printAndGetErrorExitCode textLine
  by_cases h : m = [] <;> simp [h]

theorem run_line {s : System} (hos : Supported s.environ.goos) (usage : Usage) (devel : Bool)
    {c : Command} {args : List Str} {values : List (Str × Value)} {f : Cmd.Flags}
    (hf : c.parse values initial = some f) (ha : c.takes args.length = true) (w : World) :
    run s usage devel (.line c args values) w = checkCmd s devel c args f w := by
  unfold run
  rw [if_neg (by rcases hos with h | h <;> simp [h])]
  dsimp only
  rw [hf]
  dsimp only
  rw [if_pos ha]

/-- C52: how a command ends decides the exit code: 0 without an error, 255 for an exit error, 1 for
any other error. The text of the error is printed once after what the command printed, unless it is
empty. -/
theorem C52_command {s : System} (hos : Supported s.environ.goos) (usage : Usage) (devel : Bool)
    {c : Command} {args : List Str} {values : List (Str × Value)} {f : Cmd.Flags} {r : Runner}
    (hf : c.parse values initial = some f) (ha : c.takes args.length = true)
    (hr : getRunner s.environ devel f = .ok r) (w : World) :
    ∃ w' o, c.run s r args f w = (w', o) ∧
      ((o = .ok () ∧ run s usage devel (.line c args values) w = (w', .code 0)) ∨
       (∃ text, o = .error (.exit 255 text) ∧
          run s usage devel (.line c args values) w =
            ({ w' with out := w'.out ++ textLine text }, .code 255)) ∨
       (∃ text, o = .error (.other text) ∧
          run s usage devel (.line c args values) w =
            ({ w' with out := w'.out ++ textLine text }, .code 1)) ∨
       (o = .crash ∧ run s usage devel (.line c args values) w = (w', .crash))) := by
  rw [run_line hos usage devel hf ha]
  unfold checkCmd
  rw [hr]
  dsimp only
  have hc := codes_run s r args f c w
  rcases hw : c.run s r args f w with ⟨w', _ | e | _⟩
  · exact ⟨w', _, rfl, Or.inl ⟨rfl, rfl⟩⟩
  · cases e with
    | exit code text =>
      have := hc code text (by rw [hw])
      subst this
      exact ⟨w', _, rfl, Or.inr (Or.inl ⟨text, rfl, failWith_exit _ _ _⟩)⟩
    | other text => exact ⟨w', _, rfl, Or.inr (Or.inr (Or.inl ⟨text, rfl, failWith_other _ _⟩))⟩
  · exact ⟨w', _, rfl, Or.inr (Or.inr (Or.inr ⟨rfl, rfl⟩))⟩

/-- C52: if the runner cannot be made, the text of the error is printed, the exit code is 1 and
nothing is run. -/
theorem C52_no_runner {s : System} (hos : Supported s.environ.goos) (usage : Usage) (devel : Bool)
    {c : Command} {args : List Str} {values : List (Str × Value)} {f : Cmd.Flags} {e : Err}
    (hf : c.parse values initial = some f) (ha : c.takes args.length = true)
    (hr : getRunner s.environ devel f = .error e) (w : World) :
    run s usage devel (.line c args values) w = ({ w with out := w.out ++ textLine e }, .code 1) := by
  rw [run_line hos usage devel hf ha]
  unfold checkCmd
  rw [hr]
  exact failWith_other _ _

/-- C52: on another system nothing but an error is printed. -/
theorem C52_other_system {s : System} (hos : ¬ Supported s.environ.goos) (usage : Usage) (devel : Bool)
    (p : Parsed) (w : World) :
    run s usage devel p w =
      ({ w with out := w.out ++ textLine (s.environ.goos ++ s%" is not a supported operating system") },
        .code 1) := by
  unfold run
  rw [if_pos (by unfold Supported at hos; rw [not_or] at hos; exact hos)]
  exact failWith_other _ _

/-- C52: every exit code is 0, 1 or 255, whatever the arguments are. -/
theorem C52_codes (s : System) (usage : Usage) (devel : Bool) (p : Parsed) (w : World) (n : Int)
    (h : (run s usage devel p w).2 = .code n) : n = 0 ∨ n = 1 ∨ n = 255 := by
  by_cases hos : Supported s.environ.goos
  · cases p with
    | help text =>
      unfold run at h
      rw [if_neg (by rcases hos with h | h <;> simp [h])] at h
      injection h with h
      exact Or.inl h.symm
    | invalid text e =>
      unfold run at h
      rw [if_neg (by rcases hos with h | h <;> simp [h])] at h
      dsimp only at h
      rw [failWith_other] at h
      injection h with h
      exact Or.inr (Or.inl h.symm)
    | line c args values =>
      cases hf : c.parse values initial with
      | none =>
        unfold run at h
        rw [if_neg (by rcases hos with h | h <;> simp [h])] at h
        dsimp only at h
        rw [hf] at h
        dsimp only at h
        rw [failWith_other] at h
        injection h with h
        exact Or.inr (Or.inl h.symm)
      | some f =>
        cases ha : c.takes args.length with
        | false =>
          unfold run at h
          rw [if_neg (by rcases hos with h | h <;> simp [h])] at h
          dsimp only at h
          rw [hf] at h
          dsimp only at h
          rw [ha, if_neg (by decide), failWith_other] at h
          injection h with h
          exact Or.inr (Or.inl h.symm)
        | true =>
          cases hr : getRunner s.environ devel f with
          | error e =>
            rw [C52_no_runner hos usage devel hf ha hr] at h
            injection h with h
            exact Or.inr (Or.inl h.symm)
          | ok r =>
            obtain ⟨w', o, _, h1 | ⟨t, _, h1⟩ | ⟨t, _, h1⟩ | h1⟩ :=
              C52_command hos usage devel hf ha hr w
            · rw [h1.2] at h; injection h with h; exact Or.inl h.symm
            · rw [h1] at h; injection h with h; exact Or.inr (Or.inr h.symm)
            · rw [h1] at h; injection h with h; exact Or.inr (Or.inl h.symm)
            · rw [h1.2] at h; cases h
  · rw [C52_other_system hos] at h
    injection h with h
    exact Or.inr (Or.inl h.symm)

/-- C52: the exit code of a command is 0 exactly if it ends without an error. -/
theorem C52_zero {s : System} (hos : Supported s.environ.goos) (usage : Usage) (devel : Bool)
    {c : Command} {args : List Str} {values : List (Str × Value)} (w : World) :
    (run s usage devel (.line c args values) w).2 = .code 0 ↔
      ∃ f r, c.parse values initial = some f ∧ c.takes args.length = true ∧
        getRunner s.environ devel f = .ok r ∧ (c.run s r args f w).2 = .ok () := by
  constructor
  · intro h
    cases hf : c.parse values initial with
    | none =>
      unfold run at h
      rw [if_neg (by rcases hos with h | h <;> simp [h])] at h
      dsimp only at h
      rw [hf] at h
      dsimp only at h
      rw [failWith_other] at h
      injection h with h
      cases h
    | some f =>
      cases ha : c.takes args.length with
      | false =>
        unfold run at h
        rw [if_neg (by rcases hos with h | h <;> simp [h])] at h
        dsimp only at h
        rw [hf] at h
        dsimp only at h
        rw [ha, if_neg (by decide), failWith_other] at h
        injection h with h
        cases h
      | true =>
        cases hr : getRunner s.environ devel f with
        | error e =>
          rw [C52_no_runner hos usage devel hf ha hr] at h
          injection h with h
          cases h
        | ok r =>
          refine ⟨f, r, rfl, rfl, hr, ?_⟩
          obtain ⟨w', o, ho, h1 | ⟨t, _, h1⟩ | ⟨t, _, h1⟩ | h1⟩ :=
            C52_command hos usage devel hf ha hr w
          · rw [ho]; exact h1.1
          · rw [h1] at h; injection h with h; cases h
          · rw [h1] at h; injection h with h; cases h
          · rw [h1.2] at h; cases h
  · rintro ⟨f, r, hf, ha, hr, ho⟩
    obtain ⟨w', o, ho', h1 | ⟨t, h2, h1⟩ | ⟨t, h2, h1⟩ | h1⟩ :=
      C52_command hos usage devel hf ha hr w
    · rw [h1.2]
    · rw [ho', h2] at ho; cases ho
    · rw [ho', h2] at ho; cases ho
    · rw [ho', h1.1] at ho; cases ho

/-! ## C78 -/

/-- C78: the paths of the cache, of protoc and of the well-known types are those of the flags, or
else of the environment variables; everything else comes from the flags alone. -/
theorem C78_settings {e : Environ} {devel : Bool} {f : Cmd.Flags} {r : Runner}
    (h : getRunner e devel f = .ok r) :
    FlagOrVariable f.cachePath (e.getenv s%"PROTOTOOL_CACHE_PATH") r.cachePath ∧
    FlagOrVariable f.protocBinPath (e.getenv s%"PROTOTOOL_PROTOC_BIN_PATH") r.protocBinPath ∧
    FlagOrVariable f.protocWKTPath (e.getenv s%"PROTOTOOL_PROTOC_WKT_PATH") r.protocWKTPath ∧
    r.protocURL = f.protocURL ∧ r.configData = f.configData ∧ r.errorFormat = f.errorFormat ∧
    r.json = f.json ∧ r.develMode = devel ∧ e.getwd = .ok r.workDirPath ∧
    Duration e.parseDuration f.walkTimeout r.walkTimeout := by
  have hor : ∀ flag var, FlagOrVariable flag (e.getenv var) (orEnv e flag var) := by
    intro flag var
    unfold FlagOrVariable orEnv
    by_cases hf : flag = [] <;> simp [hf]
  unfold getRunner at h
  split at h
  · cases h
  · rename_i t ht
    split at h
    · cases h
    · rename_i wd hwd
      injection h with h
      subst h
      refine ⟨hor _ _, hor _ _, hor _ _, rfl, rfl, rfl, rfl, rfl, hwd, ?_⟩
      unfold Duration
      by_cases hf : f.walkTimeout = []
      · simp [hf] at ht
        exact Or.inl ⟨hf, ht.symm⟩
      · rw [if_pos hf] at ht
        exact Or.inr ⟨hf, ht⟩

/-- C78: the runner cannot be made exactly if the walk timeout is not a duration or there is no
working directory. -/
theorem C78_fails (e : Environ) (devel : Bool) (f : Cmd.Flags) :
    (∃ err, getRunner e devel f = .error err) ↔
      (f.walkTimeout ≠ [] ∧ ∃ err, e.parseDuration f.walkTimeout = .error err) ∨
      ∃ err, e.getwd = .error err := by
  unfold getRunner
  by_cases hf : f.walkTimeout = []
  · simp only [hf, ne_eq, not_true_eq_false, if_false, false_and, false_or]
    cases e.getwd <;> simp
  · simp only [hf, ne_eq, not_false_eq_true, if_true, true_and]
    cases e.parseDuration f.walkTimeout <;> cases e.getwd <;> simp

/-! ## C80 -/

/-- C80: commands that only look at the files leave them as they are, whatever the arguments and
however they end. -/
theorem C80_only_reads {s : System} (usage : Usage) (devel : Bool) {c : Command} {args : List Str}
    {values : List (Str × Value)} (hc : ∀ f, c.parse values initial = some f → OnlyReads c f)
    (w : World) :
    (run s usage devel (.line c args values) w).1.disk = w.disk ∧
    (run s usage devel (.line c args values) w).1.writes = w.writes := by
  have hquiet : ∀ f r, OnlyReads c f → Quiet (c.run s r args f) := by
    intro f r h
    rcases h with h | ⟨rfl, h⟩ | ⟨rfl, h⟩ | ⟨rfl, h1, h2⟩
    · simp only [List.mem_cons, List.not_mem_nil, or_false] at h
      rcases h with rfl | rfl | rfl | rfl | rfl | rfl | rfl | rfl
      · exact quiet_bind (quiet_getMeta _ _) fun _ => quiet_bind (quiet_compile _ _ _ _) fun _ =>
          quiet_pure _
      · exact quiet_bind (quiet_getMeta _ _) fun _ => quiet_printAll _ _
      · exact fun w => C77_files _ _ _ _ w
      · exact fun w => C68_read_only (s.hostOf r) (s.tools r) args [] w _ (by rw [List.mem_cons]; exact Or.inl rfl)
      · exact fun w => C68_read_only (s.hostOf r) (s.tools r) args f.name w _ (by rw [List.mem_cons, List.mem_cons]; exact Or.inr (Or.inl rfl))
      · exact fun w => C68_read_only (s.hostOf r) (s.tools r) args f.name w _ (by rw [List.mem_cons, List.mem_cons, List.mem_singleton]; exact Or.inr (Or.inr rfl))
      · exact quiet_lintCmd _ _ _ _ _
      · unfold Command.run versionCmd
        dsimp only
        split <;> exact quiet_write _ _
    · exact fun w => C38_read_only _ _ _ _ _ h w
    · unfold Command.run genCmd
      rw [h]
      exact quiet_bind (quiet_getMeta _ _) fun _ => quiet_bind (quiet_bind
        (quiet_doProtocCommands _ _ _) fun _ => quiet_pure _) fun _ => quiet_pure _
    · unfold Command.run descriptorSetCmd
      rw [h1, h2, if_neg (by simp)]
      refine quiet_bind (quiet_getMeta _ _) fun _ => quiet_bind (quiet_doCompile _ _ rfl _) fun _ =>
        quiet_bind (quiet_lift _) fun _ => quiet_bind (quiet_lift _) fun _ => ?_
      rw [if_pos (by simp)]
      exact quiet_write _ _
  have hfail : ∀ e (w : World), (failWith e w).1.disk = w.disk ∧ (failWith e w).1.writes = w.writes :=
    fun _ _ => ⟨rfl, rfl⟩
  unfold run
  split
  · exact hfail _ _
  · dsimp only
    split
    · rename_i f hf
      split
      · unfold checkCmd
        split
        · exact hfail _ _
        · rename_i r _
          have hq := hquiet f r (hc f hf) w
          rcases hw : c.run s r args f w with ⟨w', _ | e | _⟩ <;> rw [hw] at hq
          · exact hq
          · exact ⟨(hfail e w').1.trans hq.1, (hfail e w').2.trans hq.2⟩
          · exact hq
      · exact hfail _ _
    · exact hfail _ _

/-! ## C81 -/

/-- C81: a command line is refused exactly if it has a flag that the command does not have or a
wrong number of arguments; then nothing is run. -/
theorem C81_refused {s : System} (hos : Supported s.environ.goos) (usage : Usage) (devel : Bool)
    {c : Command} {args : List Str} {values : List (Str × Value)} (w : World)
    (h : (∃ p ∈ values, p.1 ∉ flagNames c) ∨ c.takes args.length = false) :
    run s usage devel (.line c args values) w =
      ({ w with out := w.out ++ (usage c args values).1 ++ textLine (usage c args values).2 }, .code 1) := by
  unfold run
  rw [if_neg (by rcases hos with h | h <;> simp [h])]
  dsimp only
  cases hf : c.parse values initial with
  | none => dsimp only; rw [failWith_other]
  | some f =>
    have ha : c.takes args.length = false := by
      rcases h with h | h
      · rw [(parse_none c values initial).2 h] at hf; cases hf
      · exact h
    dsimp only
    rw [ha, if_neg (by decide), failWith_other]

/-- C81: otherwise the flags have values. -/
theorem C81_accepted (c : Command) (values : List (Str × Value))
    (h : ∀ p ∈ values, p.1 ∈ flagNames c) : ∃ f, c.parse values initial = some f := by
  cases hf : c.parse values initial with
  | some f => exact ⟨f, rfl⟩
  | none =>
    obtain ⟨p, hp, hn⟩ := (parse_none c values initial).1 hf
    exact absurd (h p hp) hn

/-- C81: the number of arguments: create takes at least one file, delete and version none, and all
others at most one. -/
theorem C81_arguments (c : Command) (n : Nat) :
    c.takes n = true ↔ (if c = .create then 1 ≤ n else if c = .cacheDelete ∨ c = .version then n = 0
      else n ≤ 1) := by
  cases c <;> simp [Command.takes]

/-- The flags before any is given. -/
theorem initial_eq : initial = defaultFlags := by decide +kernel

theorem default_eq (b : Bind) : valueOf defaultFlags b = b.default := by cases b <;> rfl

/-- C81: a flag that is not given has its default, also if the command does not have it. -/
theorem C81_default {c : Command} {values : List (Str × Value)} {f : Cmd.Flags}
    (h : c.parse values initial = some f) (b : Bind) (hb : ∀ p ∈ values, p.1 ≠ b.name) :
    valueOf f b = valueOf defaultFlags b := by
  rw [parse_keeps h b hb, initial_eq]

/-- C81: the last value of a flag counts. -/
theorem C81_last {c : Command} {before after : List (Str × Value)} {f : Cmd.Flags} {b : Bind} {v : Value}
    (h : c.parse (before ++ (b.name, v) :: after) initial = some f)
    (ha : ∀ p ∈ after, p.1 ≠ b.name) (ht : Typed c (before ++ (b.name, v) :: after))
    (hl : b ≠ .headers) : valueOf f b = v := parse_last h ha ht hl

/-- Every flag is under its name. -/
theorem valueOf_mem (f : Cmd.Flags) (b : Bind) : (b.name, valueOf f b) ∈ namedSettings f := by
  cases b <;> simp [namedSettings, namedSettings₁, namedSettings₂, Bind.name, valueOf]

/-- The names are distinct. -/
theorem namedSettings_nodup (f : Cmd.Flags) : ((namedSettings f).map Prod.fst).Nodup := by
  have h : (namedSettings f).map Prod.fst = (namedSettings {}).map Prod.fst := rfl
  rw [h]
  decide +kernel

theorem inj_fst {l : List (Str × Value)} (h : (l.map Prod.fst).Nodup) {a : Str} {v w : Value}
    (hv : (a, v) ∈ l) (hw : (a, w) ∈ l) : v = w := by
  induction l with
  | nil => cases hv
  | cons p l ih =>
    obtain ⟨hn, h⟩ := List.nodup_cons.1 h
    rcases List.mem_cons.1 hv with hv | hv <;> rcases List.mem_cons.1 hw with hw | hw
    · exact (Prod.mk.inj (hv.trans hw.symm)).2
    · exact absurd (List.mem_map.2 ⟨_, hw, by rw [← hv]⟩) hn
    · exact absurd (List.mem_map.2 ⟨_, hv, by rw [← hw]⟩) hn
    · exact ih h hv hw

/-- C81: a value given under a name is the value of the setting with this name: `--diff` sets the
diff mode and not another one. -/
theorem C81_named {c : Command} {before after : List (Str × Value)} {f : Cmd.Flags} {name : Str}
    {v : Value} (h : c.parse (before ++ (name, v) :: after) initial = some f)
    (ha : ∀ p ∈ after, p.1 ≠ name) (ht : Typed c (before ++ (name, v) :: after))
    (hl : name ≠ s%"header") : (name, v) ∈ namedSettings f ∧ ∀ w, (name, w) ∈ namedSettings f → w = v := by
  have hb : ∃ b : Bind, b.name = name := by
    cases Classical.em (name ∈ flagNames c) with
    | inl hm =>
      obtain ⟨b, _, hb⟩ := List.mem_map.1 hm
      exact ⟨b, hb⟩
    | inr hm =>
      rw [(parse_none c _ initial).2 ⟨(name, v), by simp, hm⟩] at h
      cases h
  obtain ⟨b, rfl⟩ := hb
  have hv := C81_last h ha ht (fun e => hl (by rw [e]; rfl))
  have hm : (b.name, v) ∈ namedSettings f := hv ▸ valueOf_mem f b
  refine ⟨hm, fun w hw => ?_⟩
  have := inj_fst (namedSettings_nodup f) hw hm
  exact this

example : (s%"diff", Value.bool true) ∈ namedSettings { defaultFlags with diffMode := true } :=
  (C81_named (c := .format) (before := [(s%"fix", .bool true), (s%"fix", .bool false)]) (after := [])
    (name := s%"diff") (v := .bool true) (f := { defaultFlags with diffMode := true })
    (by decide +kernel) (by simp) (by
      intro p hp b hb
      simp only [List.cons_append, List.nil_append, List.mem_cons, List.not_mem_nil, or_false] at hp
      rcases hp with rfl | rfl | rfl <;> revert b <;> simp [Command.flags, Command.binds, Bind.name, Fits, Bind.default])
    (by decide)).1

/-- C81: the headers of all header flags count. -/
theorem C81_headers {c : Command} {values : List (Str × Value)} {f : Cmd.Flags}
    (h : c.parse values initial = some f) (ht : Typed c values) :
    f.headers = allValues s%"header" values := by
  rw [parse_headers h ht, initial_eq]
  rfl

/-- C81: no command has two flags with the same name or letter, or one that collides with the help
flag of the library; pflag would panic while the commands are built. -/
theorem C81_distinct (c : Command) :
    (flagNames c).Nodup ∧ s%"help" ∉ flagNames c ∧ (c.flags.filterMap Bind.shorthand).Nodup ∧
      'h' ∉ c.flags.filterMap Bind.shorthand := by
  cases c <;> decide +kernel

/-- C81: the commands have the flags that the documentation uses with them, and the letters stand for
what it says. Every command has the global flag for debugging. -/
theorem C81_documented (c : Command) :
    (∀ n ∈ documentedFlags c, n ∈ flagNames c) ∧ s%"debug" ∈ flagNames c ∧
    ∀ p ∈ documentedLetters, p.1 = c → ∃ b ∈ c.flags, b.name = p.2.2 ∧ b.shorthand = some p.2.1 := by
  cases c <;> decide +kernel

example : s%"git-branch" ∈ documentedFlags .breakCheck ∧ (.format, 'w', s%"overwrite") ∈ documentedLetters := by
  decide

/-- C81: the words of the commands are distinct, none is the beginning of another, and every command
is built. -/
theorem C81_words : (∀ c d : Command, c.words <+: d.words → c = d) ∧ ∀ c, c ∈ commands := by
  constructor
  · intro c d h
    cases c <;> cases d <;> first | rfl | (exfalso; revert h; decide)
  · intro c; cases c <;> decide

/-! ## C79 -/

/-- What the downloader asks the system when the working directory is `wd`. -/
def downloadHostAt (s : System) (wd : Str) : Download.Host where
  getenv := s.environ.getenv
  wd := wd
  goos := s.environ.goos
  goarch := s.environ.goarch
  sum := s.sum

theorem newDownloader_cachePath {stat : Str → Download.Stat} {d d' : Download.Options}
    (h : Download.newDownloader stat d = .ok d') : d'.cachePath = d.cachePath := by
  unfold Download.newDownloader at h
  dsimp only at h
  repeat' split at h
  all_goals first | (cases h; rfl) | cases h

theorem cacheDelete_run {s : System} {usage : Usage} {devel : Bool} {args : List Str}
    {values : List (Str × Value)} {w : World} {wd : Str} (hos : Supported s.environ.goos)
    (hwd : s.environ.getwd = .ok wd) :
    ((run s usage devel (.line .cacheDelete args values) w).1.disk = w.disk ∧
      (run s usage devel (.line .cacheDelete args values) w).2 ≠ .code 0) ∨
    ∃ d : Download.Options, d.cachePath = s.environ.getenv s%"PROTOTOOL_CACHE_PATH" ∧
      (run s usage devel (.line .cacheDelete args values) w).1.disk =
        (Download.delete (downloadHostAt s wd) d w.disk).1 ∧
      ((run s usage devel (.line .cacheDelete args values) w).2 = .code 0 ↔
        (Download.delete (downloadHostAt s wd) d w.disk).2 = none) := by
  cases hf : Command.parse .cacheDelete values initial with
  | none =>
    left
    rw [C81_refused hos usage devel w (Or.inl ((parse_none _ values initial).1 hf))]
    exact ⟨rfl, by simp⟩
  | some f =>
    have hcp : f.cachePath = [] := by
      have h : valueOf f .cachePath = valueOf defaultFlags .cachePath := by
        refine C81_default hf .cachePath fun p hp e => ?_
        have : Command.parse .cacheDelete values initial = none :=
          (parse_none _ values initial).2 ⟨p, hp, by rw [e]; decide⟩
        rw [hf] at this
        cases this
      injection h
    cases ha : Command.takes .cacheDelete args.length with
    | false => left; rw [C81_refused hos usage devel w (Or.inr ha)]; exact ⟨rfl, by simp⟩
    | true =>
      cases hr : getRunner s.environ devel f with
      | error e => left; rw [C52_no_runner hos usage devel hf ha hr]; exact ⟨rfl, by simp⟩
      | ok r =>
        obtain ⟨w', o, ho, h1⟩ := C52_command hos usage devel hf ha hr w
        obtain ⟨hc, _, _, _, _, _, _, _, hw, _⟩ := C78_settings hr
        have hwd' : r.workDirPath = wd := by rw [hwd] at hw; injection hw with hw; exact hw.symm
        have hcache : r.cachePath = s.environ.getenv s%"PROTOTOOL_CACHE_PATH" := by
          rcases hc with ⟨h, _⟩ | ⟨_, h⟩
          · exact absurd hcp h
          · exact h
        have hdisk : (run s usage devel (.line .cacheDelete args values) w).1.disk = w'.disk := by
          rcases h1 with h1 | ⟨t, _, h1⟩ | ⟨t, _, h1⟩ | h1
          · rw [h1.2]
          · rw [h1]
          · rw [h1]
          · rw [h1.2]
        have hzero : (run s usage devel (.line .cacheDelete args values) w).2 = .code 0 ↔ o = .ok () := by
          rcases h1 with h1 | ⟨t, h2, h1⟩ | ⟨t, h2, h1⟩ | h1
          · rw [h1.2, h1.1]; simp
          · rw [h1, h2]; simp
          · rw [h1, h2]; simp
          · rw [h1.2, h1.1]; simp
        rw [hdisk, hzero]
        unfold Command.run cacheDeleteCmd at ho
        dsimp only at ho
        have hq := quiet_getMeta (s.hostOf r) [] w
        unfold Run.bind at ho
        rcases hm : getMeta (s.hostOf r) [] w with ⟨w1, m | e | _⟩ <;> rw [hm] at ho hq <;> dsimp only at ho hq
        · unfold newDownloader at ho
          cases hn : Download.newDownloader s.stat (downloaderOptions r m.protoSet.config) with
          | ok d =>
            rw [hn] at ho
            dsimp only at ho
            right
            have hd : d.cachePath = r.cachePath := by
              exact newDownloader_cachePath hn
            refine ⟨d, hd.trans hcache, ?_⟩
            unfold onDisk at ho
            have hh : s.downloadHost r = downloadHostAt s wd := by
              unfold System.downloadHost downloadHostAt; rw [hwd']
            rw [hh, hq.1] at ho
            rcases hdel : Download.delete (downloadHostAt s wd) d w.disk with ⟨disk, _ | e⟩ <;>
              rw [hdel] at ho <;> cases ho <;> simp
          | error e => rw [hn] at ho; cases ho; exact Or.inl ⟨hq.1, by rw [Ne, hzero]; simp⟩
          | panic => rw [hn] at ho; cases ho; exact Or.inl ⟨hq.1, by rw [Ne, hzero]; simp⟩
        · cases ho; exact Or.inl ⟨hq.1, by rw [Ne, hzero]; simp⟩
        · cases ho; exact Or.inl ⟨hq.1, by rw [Ne, hzero]; simp⟩

/-- C79: a `cache delete` that ends with exit code 0 has removed the default cache of the system and
nothing else, unless the environment variable `PROTOTOOL_CACHE_PATH` is set. The whole claim is that
custom caches are never removed. -/
theorem C79_default_partial {s : System} {usage : Usage} {devel : Bool} {args : List Str}
    {values : List (Str × Value)} {w w' : World} {wd : Str} (hos : Supported s.environ.goos)
    (hwd : s.environ.getwd = .ok wd) (habs : IsAbsPath wd)
    (hvar : s.environ.getenv s%"PROTOTOOL_CACHE_PATH" = [])
    (h : run s usage devel (.line .cacheDelete args values) w = (w', .code 0)) :
    ∃ cs, CacheRoot (downloadHostAt s wd) { version := [] } cs ∧ ∀ path, Components path →
      (Within (absPath path) (absPath cs) → w'.disk (absPath path) = none) ∧
      (¬ Within (absPath path) (absPath cs) → w'.disk (absPath path) = w.disk (absPath path)) := by
  rcases cacheDelete_run (usage := usage) (devel := devel) (args := args) (values := values) (w := w)
    hos hwd with ⟨_, h1⟩ | ⟨d, hd, h1, h2⟩
  · rw [h] at h1; exact absurd rfl h1
  · rw [h] at h1 h2
    dsimp only at h1
    rw [hvar] at hd
    by_cases hr : ∃ cs, CacheRoot (downloadHostAt s wd) d cs
    · obtain ⟨cs, hr⟩ := hr
      refine ⟨cs, ?_, fun path hp => ?_⟩
      · unfold CacheRoot at hr ⊢
        rw [hd] at hr
        exact hr
      · obtain ⟨_, h3, h4⟩ := C76_exactly w.disk (h := downloadHostAt s wd) habs hr hp
        rw [h1]
        exact ⟨h3, h4⟩
    · exact absurd (h2.1 rfl) (C76_no_root w.disk (h := downloadHostAt s wd) habs hr).2

/-- C79: a `cache delete` that ends with another exit code has removed nothing. -/
theorem C79_failed {s : System} {usage : Usage} {devel : Bool} {args : List Str}
    {values : List (Str × Value)} {w : World} {wd : Str} (hos : Supported s.environ.goos)
    (hwd : s.environ.getwd = .ok wd)
    (h : (run s usage devel (.line .cacheDelete args values) w).2 ≠ .code 0) :
    (run s usage devel (.line .cacheDelete args values) w).1.disk = w.disk := by
  rcases cacheDelete_run (usage := usage) (devel := devel) (args := args) (values := values) (w := w)
    hos hwd with ⟨h1, _⟩ | ⟨d, _, h1, h2⟩
  · exact h1
  · rw [h1]
    have := mt h2.2 h
    unfold Download.delete at this ⊢
    split
    · rfl
    · rename_i hb; rw [hb] at this; exact absurd rfl this

/-! ## The theorems are about something -/

namespace CmdExample

open Exec.Sample

/-- The sample directory is the working directory too. -/
def cmdHost : Exec.Host :=
  { host with
    stat := fun p => if p = s%"." then .ok .dir else host.stat p
    getForDir := fun c p => if p = s%"." then .ok protoSet else host.getForDir c p }

/-- A user on Linux, whose variable for the cache has the given value. -/
def environ (cache : Str) : Environ where
  getenv name := if name = s%"HOME" then s%"/home/u"
    else if name = s%"PROTOTOOL_CACHE_PATH" then cache else []
  getwd := .ok s%"/w"
  parseDuration t := if t = s%"3s" then .ok 3000000000 else .error s%"no duration"
  goos := s%"linux"
  goarch := s%"amd64"
  goVersion := s%"go1.14"

/-- A system with the sample files. -/
def system (cache : Str) : System where
  environ := environ cache
  host _ := cmdHost
  tools _ := tools
  lint := { order := .id, singularize := fun s => s, showPackage := fun _ => [], showSyntax := fun _ => [],
            showOption := fun _ => [] }
  srt := .stable
  grpc := GrpcExample.env
  settings := createSettings
  stat _ := .dir
  sum _ := s%"sum"
  download _ d := (d, none)

/-- A usage text. -/
def usage : Usage := fun _ _ _ => (s%"Error: wrong\nUsage:\n", s%"wrong")

/-- Files in the default cache, in another cache and elsewhere. -/
def cached : World where
  disk p := if p ∈ [s%"/home/u/.cache/prototool/Linux/x86_64/protobuf/3.8.0/bin/protoc",
    s%"/c/protobuf/3.8.0/bin/protoc", s%"/c/mail"] then some s%"x" else none

/-- Non-vacuity for C52: exit codes 0, 1 and 255. -/
example : (run (system []) usage false (.line .compile [s%"a"] []) world).2 = .code 0 ∧
    (run (system []) usage false (.line .compile [s%"b"] []) world).2 = .code 1 ∧
    (run (system []) usage false (.line .format [s%"a"] [(s%"lint", .bool true)]) world).2 = .code 255 := by
  decide +kernel

/-- Non-vacuity for C52: the message of an error is printed. -/
example : (run (system []) usage false (.line .compile [s%"b"] []) world).1.out = s%"no such file\n" := by
  decide +kernel
example : Supported (system []).environ.goos := Or.inr rfl

/-- Non-vacuity for C78. -/
example : ∃ r, getRunner (environ s%"/c") false { defaultFlags with protocURL := s%"u" } = .ok r ∧
    r.cachePath = s%"/c" ∧ r.protocURL = s%"u" := ⟨_, rfl, rfl, rfl⟩
example : ∃ r, getRunner (environ s%"/c") false { defaultFlags with cachePath := s%"/d" } = .ok r ∧
    r.cachePath = s%"/d" := ⟨_, rfl, rfl⟩

/-- Non-vacuity for `C79_default_partial`: the default cache is removed and nothing else. -/
example : ∃ w', run (system []) usage false (.line .cacheDelete [] []) cached = (w', .code 0) ∧
    w'.disk s%"/home/u/.cache/prototool/Linux/x86_64/protobuf/3.8.0/bin/protoc" = none ∧
    w'.disk s%"/c/mail" ≠ none := by
  refine ⟨_, Prod.ext rfl ?_, ?_⟩ <;> decide +kernel
example : IsAbsPath s%"/w" := sampleHost_wd

/-- Non-vacuity for C80: lint prints failures. -/
example : OnlyReads .lint defaultFlags := Or.inl (by simp)
example : OnlyReads .generate { defaultFlags with dryRun := true } := Or.inr (Or.inr (Or.inl ⟨rfl, rfl⟩))

/-- Non-vacuity for C81. -/
example : ∃ f, Command.parse .grpc [(s%"address", .str s%"a:1"), (s%"header", .list [s%"k:v", s%"l:w"]),
      (s%"address", .str s%"b:2"), (s%"header", .list [s%"k:x"])] initial = some f ∧
    valueOf f .address = .str s%"b:2" ∧ f.headers = [s%"k:v", s%"l:w", s%"k:x"] ∧
    valueOf f .callTimeout = .str s%"60s" := ⟨_, rfl, rfl, rfl, rfl⟩
example : Typed .grpc [(s%"address", .str s%"a:1"), (s%"header", .list [s%"k:v"])] := by
  intro p hp b hb h
  simp only [List.mem_cons, List.not_mem_nil, or_false] at hp
  rcases hp with rfl | rfl
  · cases b <;> first | trivial | exact absurd h (by decide)
  · cases b <;> first | trivial | exact absurd h (by decide)
example : s%"address" ∉ flagNames .lint := by decide

end CmdExample

open CmdExample in
/-- C52 does not hold as stated: what is wrong with the command line is printed twice, once with the
usage by the library and once more at the end. -/
theorem C52_not_once : ∃ (s : System) (usage : Usage) (w : World), Supported s.environ.goos ∧
    (run s usage false (.line .lint [] [(s%"address", .str [])]) w).1.out =
      w.out ++ s%"Error: wrong\nUsage:\nwrong\n" :=
  ⟨system [], usage, Exec.Sample.world, Or.inr rfl, rfl⟩

open CmdExample in
/-- C79 does not hold as stated: with the environment variable, a custom cache is removed, with
everything else in its directory, and the default cache is kept. -/
theorem C79_not : ∃ (s : System) (usage : Usage) (w w' : World), Supported s.environ.goos ∧
    run s usage false (.line .cacheDelete [] []) w = (w', .code 0) ∧
    w.disk s%"/c/protobuf/3.8.0/bin/protoc" ≠ none ∧ w'.disk s%"/c/protobuf/3.8.0/bin/protoc" = none ∧
    w.disk s%"/c/mail" ≠ none ∧ w'.disk s%"/c/mail" = none ∧
    w'.disk s%"/home/u/.cache/prototool/Linux/x86_64/protobuf/3.8.0/bin/protoc" ≠ none := by
  refine ⟨system s%"/c", usage, cached, _, Or.inr rfl, Prod.ext rfl ?_, ?_⟩ <;> decide +kernel

end Verif.Props
