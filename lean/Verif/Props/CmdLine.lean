import Verif.Spec.CmdLine
import Verif.Props.Cmd
import Verif.Props.ExecAll
import Verif.Props.ExecCompile
import Verif.Props.ExecDiff
import Verif.Props.ExecFiles
import Verif.Props.BreakCmd
import Verif.Props.DescriptorSet
import Verif.Props.Init

/-!
# The program does what its command line says (C95)
-/

namespace Verif.Props

open Verif Str Exec Cmd Spec Proof.Cmd

/-! ## From the command line to the command -/

/-- The flags as they are read from the command line. -/
def flagsOf (values : List (Str × Value)) : Cmd.Flags where
  address := givenText values s%"address"
  cachePath := givenText values s%"cache-path"
  callTimeout := givenText values s%"call-timeout"
  configData := givenText values s%"config-data"
  connectTimeout := givenText values s%"connect-timeout"
  data := givenText values s%"data"
  debug := isOn values s%"debug"
  descriptorSetPath := givenText values s%"descriptor-set-path"
  details := isOn values s%"details"
  diffLintGroups := givenText values s%"diff-lint-groups"
  diffMode := isOn values s%"diff"
  disableFormat := isOn values s%"disable-format"
  disableLint := isOn values s%"disable-lint"
  dryRun := isOn values s%"dry-run"
  document := isOn values s%"document"
  errorFormat := givenText values s%"error-format"
  fix := isOn values s%"fix"
  gitBranch := givenText values s%"git-branch"
  headers := allValues s%"header" values
  includeImports := isOn values s%"include-imports"
  includeSourceInfo := isOn values s%"include-source-info"
  json := isOn values s%"json"
  keepaliveTime := givenText values s%"keepalive-time"
  lintMode := isOn values s%"lint"
  listAllLinters := isOn values s%"list-all-linters"
  listLinters := isOn values s%"list-linters"
  listAllLintGroups := isOn values s%"list-all-lint-groups"
  listLintGroup := givenText values s%"list-lint-group"
  method := givenText values s%"method"
  name := givenText values s%"name"
  outputPath := givenText values s%"output-path"
  overwrite := isOn values s%"overwrite"
  pkg := givenText values s%"package"
  protocURL := givenText values s%"protoc-url"
  protocBinPath := givenText values s%"protoc-bin-path"
  protocWKTPath := givenText values s%"protoc-wkt-path"
  stdin := isOn values s%"stdin"
  uncomment := isOn values s%"uncomment"
  generateIgnores := isOn values s%"generate-ignores"
  tmp := isOn values s%"tmp"
  tls := isOn values s%"tls"
  insecure := isOn values s%"insecure"
  cacert := givenText values s%"cacert"
  cert := givenText values s%"cert"
  key := givenText values s%"key"
  serverName := givenText values s%"server-name"
  walkTimeout := givenText values s%"walk-timeout"

theorem lastGiven_none {values : List (Str × Value)} {name : Str} (h : lastGiven values name = none) :
    ∀ p ∈ values, p.1 ≠ name := by
  intro p hp e
  unfold lastGiven at h
  rw [Option.map_eq_none_iff, List.getLast?_eq_none_iff, List.filter_eq_nil_iff] at h
  exact h p hp (by simp [e])

theorem lastGiven_some {values : List (Str × Value)} {name : Str} {v : Value}
    (h : lastGiven values name = some v) :
    ∃ before after, values = before ++ (name, v) :: after ∧ ∀ p ∈ after, p.1 ≠ name := by
  induction values with
  | nil => cases h
  | cons x xs ih =>
    cases hl : lastGiven xs name with
    | none =>
      have hn := lastGiven_none hl
      have he : xs.filter (fun p => p.1 = name) = [] :=
        List.filter_eq_nil_iff.2 fun p hp => by simp [hn p hp]
      unfold lastGiven at h
      by_cases hx : x.1 = name
      · rw [List.filter_cons_of_pos (by simp [hx]), he] at h
        injection h with h
        obtain ⟨n, u⟩ := x
        dsimp only at hx
        subst hx
        exact ⟨[], xs, by rw [List.nil_append, ← h]; rfl, hn⟩
      · rw [List.filter_cons_of_neg (by simp [hx]), he] at h
        cases h
    | some u =>
      have hu : u = v := by
        unfold lastGiven at h hl
        by_cases hx : x.1 = name
        · rw [List.filter_cons_of_pos (by simp [hx])] at h
          cases hf : xs.filter (fun p => p.1 = name) with
          | nil => rw [hf] at hl; cases hl
          | cons y ys =>
            rw [hf] at h hl
            rw [List.getLast?_cons_cons] at h
            rw [hl] at h
            injection h
        · rw [List.filter_cons_of_neg (by simp [hx]), hl] at h
          injection h
      obtain ⟨before, after, he, ha⟩ := ih (by rw [hl, hu])
      exact ⟨x :: before, after, by rw [he, List.cons_append], ha⟩

/-- The value of a flag is the last one given, or else the default. -/
theorem value_given {c : Command} {values : List (Str × Value)} {f : Cmd.Flags}
    (h : c.parse values initial = some f) (ht : Typed c values) (b : Bind) (hb : b ≠ .headers) :
    valueOf f b = (lastGiven values b.name).getD (valueOf defaultFlags b) := by
  cases hl : lastGiven values b.name with
  | none => exact C81_default h b (lastGiven_none hl)
  | some v =>
    obtain ⟨before, after, rfl, ha⟩ := lastGiven_some hl
    exact C81_last h ha ht hb

theorem text_given {c : Command} {values : List (Str × Value)} {f : Cmd.Flags}
    (h : c.parse values initial = some f) (ht : Typed c values) (b : Bind) (hb : b ≠ .headers) (t d : Str)
    (hv : valueOf f b = .str t) (hd : valueOf defaultFlags b = .str d) (hn : d = defaultText b.name) :
    t = givenText values b.name := by
  have := value_given h ht b hb
  unfold givenText
  rw [hv] at this
  cases hl : lastGiven values b.name with
  | none =>
    rw [hl, hd] at this
    injection this with this
    rw [this, hn]
  | some v => rw [hl] at this; rw [← (show Value.str t = v from this)]

theorem switch_given {c : Command} {values : List (Str × Value)} {f : Cmd.Flags}
    (h : c.parse values initial = some f) (ht : Typed c values) (b : Bind) (hb : b ≠ .headers) (t : Bool)
    (hv : valueOf f b = .bool t) (hd : valueOf defaultFlags b = .bool false) :
    t = isOn values b.name := by
  have := value_given h ht b hb
  unfold isOn
  rw [hv] at this
  cases hl : lastGiven values b.name with
  | none =>
    rw [hl, hd] at this
    injection this
  | some v => rw [hl] at this; rw [← (show Value.bool t = v from this)]

/-- Reading the command line gives these flags. -/
theorem parse_flagsOf {c : Command} {values : List (Str × Value)} {f : Cmd.Flags}
    (h : c.parse values initial = some f) (ht : Typed c values) : f = flagsOf values := by
  have T := fun (b : Bind) (hb : b ≠ .headers) t d hv hd hn => text_given h ht b hb t d hv hd hn
  have S := fun (b : Bind) (hb : b ≠ .headers) t hv hd => switch_given h ht b hb t hv hd
  have hh := C81_headers h ht
  cases f
  unfold flagsOf
  congr 1
  · exact T .address (by decide) _ _ rfl rfl (by decide)
  · exact T .cachePath (by decide) _ _ rfl rfl (by decide)
  · exact T .callTimeout (by decide) _ _ rfl rfl (by decide)
  · exact T .configData (by decide) _ _ rfl rfl (by decide)
  · exact T .connectTimeout (by decide) _ _ rfl rfl (by decide)
  · exact T .data (by decide) _ _ rfl rfl (by decide)
  · exact S .debug (by decide) _ rfl rfl
  · exact T .descriptorSetPath (by decide) _ _ rfl rfl (by decide)
  · exact S .details (by decide) _ rfl rfl
  · exact T .diffLintGroups (by decide) _ _ rfl rfl (by decide)
  · exact S .diffMode (by decide) _ rfl rfl
  · exact S .disableFormat (by decide) _ rfl rfl
  · exact S .disableLint (by decide) _ rfl rfl
  · exact S .dryRun (by decide) _ rfl rfl
  · exact S .document (by decide) _ rfl rfl
  · exact T .errorFormat (by decide) _ _ rfl rfl (by decide)
  · exact S .fix (by decide) _ rfl rfl
  · exact T .gitBranch (by decide) _ _ rfl rfl (by decide)
  · exact S .includeImports (by decide) _ rfl rfl
  · exact S .includeSourceInfo (by decide) _ rfl rfl
  · exact S .json (by decide) _ rfl rfl
  · exact T .keepaliveTime (by decide) _ _ rfl rfl (by decide)
  · exact S .lintMode (by decide) _ rfl rfl
  · exact S .listAllLinters (by decide) _ rfl rfl
  · exact S .listLinters (by decide) _ rfl rfl
  · exact S .listAllLintGroups (by decide) _ rfl rfl
  · exact T .listLintGroup (by decide) _ _ rfl rfl (by decide)
  · exact T .method (by decide) _ _ rfl rfl (by decide)
  · exact T .name_ (by decide) _ _ rfl rfl (by decide)
  · exact T .outputPath (by decide) _ _ rfl rfl (by decide)
  · exact S .overwrite (by decide) _ rfl rfl
  · exact T .package_ (by decide) _ _ rfl rfl (by decide)
  · exact T .protocURL (by decide) _ _ rfl rfl (by decide)
  · exact T .protocBinPath (by decide) _ _ rfl rfl (by decide)
  · exact T .protocWKTPath (by decide) _ _ rfl rfl (by decide)
  · exact S .stdin (by decide) _ rfl rfl
  · exact S .uncomment (by decide) _ rfl rfl
  · exact S .generateIgnores (by decide) _ rfl rfl
  · exact S .tmp (by decide) _ rfl rfl
  · exact S .tls (by decide) _ rfl rfl
  · exact S .insecure (by decide) _ rfl rfl
  · exact T .cacert (by decide) _ _ rfl rfl (by decide)
  · exact T .cert (by decide) _ _ rfl rfl (by decide)
  · exact T .key (by decide) _ _ rfl rfl (by decide)
  · exact T .serverName (by decide) _ _ rfl rfl (by decide)
  · exact T .walkTimeout (by decide) _ _ rfl rfl (by decide)

theorem takes_fitting {c : Command} {args : List Str} {values : List (Str × Value)}
    (h : Fitting c args values) : c.takes args.length = true := by
  rw [C81_arguments]
  have := h.arguments
  split at this
  · rename_i hc; rw [if_pos hc]; exact this
  · rename_i hc
    rw [if_neg hc]
    split at this
    · rename_i hd; rw [if_pos hd, this]; rfl
    · rename_i hd; rw [if_neg hd]; exact this

/-- The settings are those of the runner. -/
theorem getRunner_settings {e : Environ} {devel : Bool} {values : List (Str × Value)} {r : Runner}
    (h : SettingsFor e devel values r) : getRunner e devel (flagsOf values) = .ok r := by
  have hor : ∀ {flag var value : Str}, FlagOrVariable flag (e.getenv var) value → orEnv e flag var = value := by
    intro flag var value h
    unfold orEnv
    rcases h with ⟨h1, h2⟩ | ⟨h1, h2⟩
    · rw [if_pos h1, h2]
    · rw [if_neg (not_not_intro h1), h2]
  have ht : (if (flagsOf values).walkTimeout ≠ [] then e.parseDuration (flagsOf values).walkTimeout
      else .ok 0) = .ok r.walkTimeout := by
    rcases h.walkTimeout with ⟨h1, h2⟩ | ⟨h1, h2⟩
    · rw [show (flagsOf values).walkTimeout = [] from h1, h2]; rfl
    · exact (if_pos h1).trans h2
  unfold getRunner
  rw [ht, h.workDirPath]
  have h1 := hor h.cachePath
  have h2 := hor h.protocBinPath
  have h3 := hor h.protocWKTPath
  have h4 := h.protocURL
  have h5 := h.configData
  have h6 := h.errorFormat
  have h7 := h.json
  have h8 := h.develMode
  cases r
  dsimp only at h1 h2 h3 h4 h5 h6 h7 h8 ⊢
  subst h4 h5 h6 h7 h8
  rw [show orEnv e (flagsOf values).cachePath _ = _ from h1,
    show orEnv e (flagsOf values).protocBinPath _ = _ from h2,
    show orEnv e (flagsOf values).protocWKTPath _ = _ from h3]
  rfl

section Invoked

variable {s : System} {devel : Bool} {c : Command} {args : List Str} {values : List (Str × Value)}
  {r : Runner} {h : Exec.Host}

theorem invoked_host (i : Invoked s devel c args values r h) : s.hostOf r = h := by
  rw [i.host]
  unfold System.hostOf
  rw [i.settings.errorFormat, i.settings.json]

theorem invoked_parse (i : Invoked s devel c args values r h) :
    c.parse values initial = some (flagsOf values) := by
  obtain ⟨f, hf⟩ := C81_accepted c values i.fitting.known
  rw [hf, parse_flagsOf hf i.fitting.typed]

/-- The program runs the command and ends as it does. -/
theorem invoked_run (i : Invoked s devel c args values r h) (usage : Usage) {w w' : World}
    {o : Outcome Unit} (ho : c.run s r args (flagsOf values) w = (w', o)) :
    run s usage devel (.line c args values) w =
      ({ w' with out := w'.out ++ lastWords o }, exitOf o) := by
  obtain ⟨w1, o1, h1, h2⟩ := C52_command i.system usage devel (invoked_parse i)
    (takes_fitting i.fitting) (getRunner_settings i.settings) w
  rw [ho] at h1
  injection h1 with h1 h3
  subst h1 h3
  rcases h2 with ⟨h, h2⟩ | ⟨t, h, h2⟩ | ⟨t, h, h2⟩ | ⟨h, h2⟩ <;> subst h <;>
    simp [h2, lastWords, exitOf]

/-- It ends with exit code 0 exactly if the command ends well. -/
theorem invoked_zero (i : Invoked s devel c args values r h) (usage : Usage) {w w' : World} :
    run s usage devel (.line c args values) w = (w', .code 0) ↔
      c.run s r args (flagsOf values) w = (w', .ok ()) := by
  obtain ⟨w1, o1, h1, h2⟩ := C52_command i.system usage devel (invoked_parse i)
    (takes_fitting i.fitting) (getRunner_settings i.settings) w
  rw [h1]
  rcases h2 with ⟨h, h2⟩ | ⟨t, h, h2⟩ | ⟨t, h, h2⟩ | ⟨h, h2⟩ <;> subst h <;> rw [h2] <;> simp

end Invoked


/-! ## What the commands do -/

section Commands

variable {s : System} {devel : Bool} {args : List Str} {values : List (Str × Value)} {r : Runner}
  {h : Exec.Host}

/-- C95: `compile` ends with exit code 0 exactly if protoc accepts the files, and then prints nothing. -/
theorem C95_compile (usage : Usage) (i : Invoked s devel .compile args values r h)
    (hd : isOn values s%"dry-run" = false) (hp : Prints h) (he : ErrorFormatKnown h) (t : Toolchain)
    (u : Uses h t) (w w' : World) (hs : Undisturbed t w.disk) :
    run s usage devel (.line .compile args values) w = (w', .code 0) ↔
      w' = w ∧ ∃ m cmds, Finds h args m ∧ CommandsOf t {} w.disk m.protoSet cmds ∧
        ∀ cmd ∈ cmds, Silent m.protoSet.config.compile.allowUnusedImports (t.protoc w.disk cmd) := by
  rw [invoked_zero i, ← C85_compile h hp he t u args w w' hs]
  show compileCmd (s.hostOf r) args (isOn values s%"dry-run") w = _ ↔ _
  rw [invoked_host i, hd]

/-- C95: if protoc says what is wrong, `compile` prints that in the format asked for and ends with exit
code 255. -/
theorem C95_failures (usage : Usage) (i : Invoked s devel .compile args values r h)
    (hd : isOn values s%"dry-run" = false) (hp : Prints h) (hc : CanPrint h) (t : Toolchain) (u : Uses h t)
    (m : Meta) (hm : Finds h args m) (w : World) (cmds : List Protoc.CmdMeta)
    (hcmds : CommandsOf t {} w.disk m.protoSet cmds)
    (ht : ∀ cmd ∈ cmds, Tells m.protoSet.config.compile.allowUnusedImports (t.protoc w.disk cmd))
    (hn : ∃ cmd ∈ cmds, ¬ Silent m.protoSet.config.compile.allowUnusedImports (t.protoc w.disk cmd)) :
    run s usage devel (.line .compile args values) w =
      ({ w with out := w.out ++ printed h m (cmds.flatMap fun cmd => failuresOf cmd (t.protoc w.disk cmd)) },
        .code 255) := by
  have := C85_failures h hp hc t u args m hm w cmds hcmds ht hn
  rw [← invoked_host i] at this
  rw [invoked_run i usage (o := .error (.exit 255 [])) (w := w) (by
    show compileCmd (s.hostOf r) args (isOn values s%"dry-run") w = _
    rw [hd, this])]
  rw [invoked_host i]
  simp [lastWords, textLine, exitOf]

/-- C95: with `--dry-run`, `compile` and `generate` print the commands and run none. -/
theorem C95_dry_run (usage : Usage) (doGen : Bool)
    (i : Invoked s devel (if doGen then .generate else .compile) args values r h)
    (hd : isOn values s%"dry-run" = true) (hp : Prints h) (t : Toolchain) (u : Uses h t)
    (m : Meta) (hm : Finds h args m) (w : World) (cmds : List Protoc.CmdMeta)
    (hcmds : CommandsOf t { doGen := doGen } w.disk m.protoSet cmds) :
    run s usage devel (.line (if doGen then .generate else .compile) args values) w =
      ({ w with out := w.out ++ commandLines cmds }, .code 0) := by
  rw [invoked_zero i, ← C85_dry_run h hp t u args m hm w doGen cmds hcmds, ← invoked_host i]
  cases doGen
  · show compileCmd (s.hostOf r) args (isOn values s%"dry-run") w = _
    rw [hd]; rfl
  · show genCmd (s.hostOf r) args (isOn values s%"dry-run") w = _
    rw [hd]; rfl

/-- C95: a `generate` that ends with exit code 0 had every plugin run for every directory. -/
theorem C95_generate (usage : Usage) (i : Invoked s devel .generate args values r h)
    (hd : isOn values s%"dry-run" = false) (hp : Prints h) (t : Toolchain) (u : Uses h t)
    (w w' : World) (hs : Undisturbed t w.disk)
    (hok : run s usage devel (.line .generate args values) w = (w', .code 0)) :
    ∃ m, Finds h args m ∧ ∀ d ∈ m.protoSet.dirPathToFiles, m.protoSet.dirPath <+: d.1 →
      (∀ p ∈ m.protoSet.config.gen.plugins,
        Accepted t { doGen := true } w.disk m.protoSet d (.plugin p)) ∧
      (m.protoSet.config.gen.plugins = [] →
        Accepted t { doGen := true } w.disk m.protoSet d .check) := by
  refine C85_generate h hp t u args w w' hs ?_
  rw [invoked_zero i] at hok
  rw [← hok, ← invoked_host i, ← hd]
  rfl

/-- C95: `files` prints the files. -/
theorem C95_files (usage : Usage) (i : Invoked s devel .files args values r h) (hp : Prints h) (m : Meta)
    (hm : Finds h args m) (hn : ∀ f, Found m f → f.displayPath ≠ []) (w : World) :
    ∃ lines, run s usage devel (.line .files args values) w =
        ({ w with out := w.out ++ lines.flatMap (· ++ s%"\n") }, .code 0) ∧
      Sorted Str.le lines ∧
      (∀ s, s ∈ lines ↔ ∃ f, Concerns h { m with singleFilename := [] } f ∧ f.displayPath = s) := by
  obtain ⟨lines, h1, h2, h3, _⟩ := C63_files h hp s.lint.order args m hm hn w
  refine ⟨lines, ?_, h2, h3⟩
  rw [invoked_zero i, ← h1, ← invoked_host i]
  rfl

/-- C95: `format --diff` prints the differences of the files whose formatted text is another one. -/
theorem C95_format_diff (usage : Usage) (i : Invoked s devel .format args values r h) (hp : Prints h)
    (he : ErrorFormatKnown h) (hd : isOn values s%"diff" = true) (ho : isOn values s%"overwrite" = false)
    (hl : isOn values s%"lint" = false) (m : Meta)
    (hm : Finds h args m) (w : World) (hcomp : Compiles h {} m w.disk) (text difference : File.ProtoFile → Str)
    (ht : ∀ f, Concerns h m f → ∃ content, w.disk f.path = some content ∧
      Formats h s.srt (isOn values s%"fix") m f.path content (text f) ∧
      (content ≠ text f → h.diff content (text f) f.displayPath = .ok (difference f))) :
    ∃ files : List File.ProtoFile,
      (∀ f, f ∈ files ↔ Concerns h m f ∧ w.disk f.path ≠ some (text f)) ∧
      run s usage devel (.line .format args values) w = ({ w with out := w.out ++ files.flatMap difference },
        if files = [] then .code 0 else .code 255) := by
  obtain ⟨files, h1, _, h2⟩ := C83_diff h hp he s.lint.order s.srt args (formatOf values)
    ⟨hd, by unfold FormatFlags.AtMostOne formatOf; simp [ho, hl]⟩ m hm w hcomp text difference ht
  refine ⟨files, h1, ?_⟩
  rw [← invoked_host i] at h2
  rw [invoked_run i usage h2]
  by_cases hf : files = [] <;> simp [hf, lastWords, exitOf, textLine]

/-- C95: `format --lint` reports them. -/
theorem C95_format_lint (usage : Usage) (i : Invoked s devel .format args values r h) (hp : Prints h)
    (hc : CanPrint h) (hd : isOn values s%"diff" = false) (ho : isOn values s%"overwrite" = false)
    (hl : isOn values s%"lint" = true) (m : Meta)
    (hm : Finds h args m) (hdisp : ∀ f, Concerns h m f → File.absClean h.wd f.displayPath = f.path)
    (w : World) (hcomp : Compiles h {} m w.disk) (text : File.ProtoFile → Str)
    (ht : ∀ f, Concerns h m f → ∃ content, w.disk f.path = some content ∧
      Formats h s.srt (isOn values s%"fix") m f.path content (text f)) :
    ∃ files : List File.ProtoFile,
      (∀ f, f ∈ files ↔ Concerns h m f ∧ w.disk f.path ≠ some (text f)) ∧
      run s usage devel (.line .format args values) w =
        ({ w with out := w.out ++ files.flatMap fun f => lineOf h (formatDiff f) },
        if files = [] then .code 0 else .code 255) := by
  obtain ⟨files, h1, _, h2⟩ := C83_lint h hp hc s.lint.order s.srt args (formatOf values)
    ⟨hl, by unfold FormatFlags.AtMostOne formatOf; simp [ho, hd]⟩ m hm hdisp w hcomp text ht
  refine ⟨files, h1, ?_⟩
  have h3 : Command.run s r args (flagsOf values) .format w = _ :=
    (show _ = formatCmd h s.lint.order s.srt args (formatOf values) w by rw [← invoked_host i]; rfl).trans h2
  rw [invoked_run i usage h3]
  by_cases hf : files = [] <;> simp [hf, lastWords, exitOf, textLine]

/-- C95: `format --overwrite` that ends with exit code 0 leaves every file with its formatted text, and
changes no other file. -/
theorem C95_format_overwrite (usage : Usage) (i : Invoked s devel .format args values r h) (hp : Prints h)
    (ho : isOn values s%"overwrite" = true) (m : Meta) (hm : Finds h args m) (hd : Distinct m) (w w' : World)
    (hok : run s usage devel (.line .format args values) w = (w', .code 0)) :
    (∀ f, Concerns h m f → ∃ content text, w.disk f.path = some content ∧
      Formats h s.srt (isOn values s%"fix") m f.path content text ∧ w'.disk f.path = some text) ∧
    ∀ path, (∀ f, Concerns h m f → f.path ≠ path) → w'.disk path = w.disk path := by
  rw [invoked_zero i] at hok
  have hr : formatCmd h s.lint.order s.srt args (formatOf values) w = (w', .ok ()) := by
    rw [← hok, ← invoked_host i]; rfl
  refine ⟨fun f hf => ?_, fun path hpath => ?_⟩
  · obtain ⟨content, text, h1, h2, h3⟩ := C38_overwritten h hp s.lint.order s.srt args (formatOf values) ho
      m hm hd w (by rw [hr]) f hf
    rw [hr] at h3
    exact ⟨content, text, h1, h2, h3⟩
  · refine Decidable.byContradiction fun hne => ?_
    obtain ⟨_, f, _, _, h1, h2, _⟩ := C38_changed h s.lint.order s.srt args (formatOf values) m hm hd w path
      (by rw [hr]; exact hne)
    exact hpath f h1 h2

/-- C95: without these, `format` prints the formatted texts. -/
theorem C95_format_prints (usage : Usage) (i : Invoked s devel .format args values r h) (hp : Prints h)
    (he : ErrorFormatKnown h) (hd : isOn values s%"diff" = false) (ho : isOn values s%"overwrite" = false)
    (hl : isOn values s%"lint" = false) (m : Meta) (hm : Finds h args m)
    (w w' : World) (code : Int) (hcomp : Compiles h {} m w.disk) (text : Str → Str)
    (ht : ∀ f, Concerns h m f → ∃ content, w.disk f.path = some content ∧
      Formats h s.srt (isOn values s%"fix") m f.path content (text f.path))
    (hr : run s usage devel (.line .format args values) w = (w', .code code)) :
    ∃ (files : List File.ProtoFile) (message : Str), (∀ f, f ∈ files ↔ Concerns h m f) ∧
      w'.out = w.out ++ (files.flatMap fun f => text f.path) ++ message ∧ (code = 0 → message = []) := by
  obtain ⟨files, h1, h2⟩ := C38_prints h hp he s.lint.order s.srt args (formatOf values) ⟨ho, hd, hl⟩ m hm w
    hcomp text ht
  rcases hf : formatCmd h s.lint.order s.srt args (formatOf values) w with ⟨w1, o⟩
  rw [hf] at h2
  have h3 : Command.run s r args (flagsOf values) .format w = (w1, o) := by
    rw [← hf, ← invoked_host i]; rfl
  have h4 := invoked_run i usage h3
  rw [hr] at h4
  injection h4 with h4 h5
  refine ⟨files, lastWords o, h1, by rw [h4, ← h2], fun hc => ?_⟩
  subst hc
  have := (invoked_zero i usage).1 hr
  rw [h3] at this
  injection this with _ this
  rw [this]; rfl

/-- C95: `lint` prints what the lint run finds in the format asked for. -/
theorem C95_lint (usage : Usage) (i : Invoked s devel .lint args values r h) (hp : Prints h)
    (hc : CanPrint h) (hf : lintOf values = {}) (m : Meta) (hm : Finds h args m) (w : World)
    (hcomp : Compiles h {} m w.disk) (failures : List Text.Failure)
    (hl : Lint.run s.lint (lintHost h w.disk) m.protoSet false = some (.ok failures)) :
    run s usage devel (.line .lint args values) w = ({ w with out := w.out ++ printed h m failures },
      if failures = [] then .code 0 else .code 255) := by
  have h2 := C62_lint h hp hc s.lint s.srt args m hm w hcomp failures hl
  have h3 : Command.run s r args (flagsOf values) .lint w = _ :=
    (show _ = lintCmd h s.lint s.srt args {} w by rw [← invoked_host i, ← hf]; rfl).trans h2
  rw [invoked_run i usage h3]
  by_cases hf : failures = [] <;> simp [hf, lastWords, exitOf, textLine]

/-- C95: the flags of `lint` that list something list what they say. -/
theorem C95_lint_lists (usage : Usage) (i : Invoked s devel .lint args values r h) (hp : Prints h)
    (m : Meta) (hm : Finds h args m) (w : World) :
    (lintOf values = { listLinters := true } → KnownNames m.protoSet.config.lint →
      ∃ ids, run s usage devel (.line .lint args values) w =
        ({ w with out := w.out ++ TabWriter.table (ids.map fun id => (id, described m.protoSet.config.lint id)) },
          .code 0) ∧ StrictSorted ids ∧ ∀ id, id ∈ ids ↔ AsksRule m.protoSet.config.lint id) ∧
    (lintOf values = { listAllLinters := true } →
      ∃ ids, run s usage devel (.line .lint args values) w =
        ({ w with out := w.out ++ TabWriter.table (ids.map fun id => (id, described m.protoSet.config.lint id)) },
          .code 0) ∧ StrictSorted ids ∧ ∀ id, id ∈ ids ↔ DocRule id) ∧
    (∀ g ∈ docGroups, lintOf values = { listLintGroup := g } →
      ∃ ids, run s usage devel (.line .lint args values) w =
        ({ w with out := w.out ++ TabWriter.table (ids.map fun id => (id, described m.protoSet.config.lint id)) },
          .code 0) ∧ StrictSorted ids ∧ ∀ id, id ∈ ids ↔ DocInGroup g id) ∧
    (lintOf values = { listAllLintGroups := true } → run s usage devel (.line .lint args values) w =
      ({ w with out := w.out ++ s%"empty\ngoogle\nuber1\nuber2\n" }, .code 0)) ∧
    (∀ g₁ ∈ docGroups, ∀ g₂ ∈ docGroups, lintOf values = { diffLintGroups := g₁ ++ s%"," ++ g₂ } →
      ∃ lines, run s usage devel (.line .lint args values) w =
        ({ w with out := w.out ++ lines.flatMap (· ++ s%"\n") }, .code 0) ∧
      StrictSorted lines ∧ ∀ s, s ∈ lines ↔
        (∃ id, s = s%"< " ++ id ∧ DocInGroup g₁ id ∧ ¬DocInGroup g₂ id) ∨
        (∃ id, s = s%"> " ++ id ∧ DocInGroup g₂ id ∧ ¬DocInGroup g₁ id)) := by
  have key : ∀ {flags : LintFlags} {w' : World}, lintOf values = flags →
      lintCmd h s.lint s.srt args flags w = (w', .ok ()) →
      run s usage devel (.line .lint args values) w = (w', .code 0) := by
    intro flags w' hf hr
    rw [invoked_zero i, ← hr, ← invoked_host i, ← hf]
    rfl
  have lower : ∀ g ∈ docGroups, toLower g = g ∧ g ≠ [] ∧ ',' ∉ g := by decide
  refine ⟨fun hf hk => ?_, fun hf => ?_, fun g hg hf => ?_, fun hf => ?_, fun g₁ h₁ g₂ h₂ hf => ?_⟩
  · obtain ⟨ids, h1, h2⟩ := C64_list_linters h hp s.lint s.srt args m hm hk w
    exact ⟨ids, key hf h1, h2⟩
  · obtain ⟨ids, h1, h2⟩ := C64_list_all_linters h hp s.lint s.srt args m hm w
    exact ⟨ids, key hf h1, h2⟩
  · obtain ⟨hl, hn, _⟩ := lower g hg
    obtain ⟨ids, h1, h2⟩ := (C64_list_lint_group h hp s.lint s.srt args m hm g hn w).1 (by rw [hl]; exact hg)
    rw [hl] at h2
    exact ⟨ids, key hf h1, h2⟩
  · exact key hf (C64_list_all_lint_groups h hp s.lint s.srt args w)
  · obtain ⟨hl₁, _, hc₁⟩ := lower g₁ h₁
    obtain ⟨hl₂, _, hc₂⟩ := lower g₂ h₂
    obtain ⟨lines, h1, h2⟩ := C53_diff h hp s.lint s.srt args g₁ g₂ hc₁ hc₂ (by rw [hl₁]; exact h₁)
      (by rw [hl₂]; exact h₂) w
    rw [hl₁, hl₂] at h2
    exact ⟨lines, key hf h1, h2⟩

/-- C95: `lint --generate-ignores` prints the configuration that ignores the failures. -/
theorem C95_generate_ignores (usage : Usage) (i : Invoked s devel .lint args values r h) (hp : Prints h)
    (hc : ErrorFormatKnown h) (hf : lintOf values = { generateIgnores := true }) (m : Meta)
    (hm : Finds h args m) (w : World) (hcomp : Compiles h {} m w.disk) (c : Settings.ExternalConfig)
    (hg : Lint.generateIgnores s.lint (lintHost h w.disk) m.protoSet = some (.ok (some c))) (data : Str)
    (hy : h.toYAML c = .ok data) (hn : trimSpace data ≠ []) :
    run s usage devel (.line .lint args values) w =
      ({ w with out := w.out ++ trimSpace data ++ s%"\n" }, .code 0) := by
  rw [invoked_zero i,
    ← (C26_printed h hp hc s.lint s.srt args m hm w hcomp (some c) hg).2 c data rfl hy hn,
    ← invoked_host i, ← hf]
  rfl

/-- C95: `break check --descriptor-set-path` compares with the set in the file. -/
theorem C95_break_descriptor_set_path (usage : Usage) (i : Invoked s devel .breakCheck args values r h)
    (hp : Prints h) (hj : h.json = true → ∀ f, ∃ t, h.toJSON f = .ok t)
    (hb : givenText values s%"git-branch" = []) (hpath : givenText values s%"descriptor-set-path" ≠ [])
    (m : Meta) (sets : List Descriptor.FileSet) (w : World)
    (hc : CompilesTo h args { doFileDescriptorSet := true } w.disk m sets) (data : Str)
    (hd : w.disk (givenText values s%"descriptor-set-path") = some data) (set : Descriptor.FileSet)
    (hdec : (s.tools r).decode data = .ok set) (failures : List Text.Failure)
    (hr : Breaking.breakCheckSets (s.tools r).srt (s.tools r).order (s.tools r).marshal
      m.protoSet.config.break_ [set] sets = .ok failures) :
    run s usage devel (.line .breakCheck args values) w =
      ({ w with out := w.out ++ breakLines h failures }, if failures = [] then .code 0 else .code 255) := by
  have h2 := C66_descriptor_set h hp hj (s.tools r) args _ hpath m sets w hc data hd set hdec failures hr
  have h3 : Command.run s r args (flagsOf values) .breakCheck w = _ :=
    (show _ = breakCheckCmd h (s.tools r) args [] (givenText values s%"descriptor-set-path") w by
      have e : Command.run s r args (flagsOf values) .breakCheck w = breakCheckCmd (s.hostOf r) (s.tools r) args
        (givenText values s%"git-branch") (givenText values s%"descriptor-set-path") w := rfl
      rw [e, hb, invoked_host i]).trans h2
  rw [invoked_run i usage h3]
  unfold breakOutcome
  by_cases hf : failures = [] <;> simp [hf, lastWords, exitOf, textLine]

/-- C95: `break check --git-branch` compares with the branch of the repository. -/
theorem C95_break_git_branch (usage : Usage) (i : Invoked s devel .breakCheck args values r h)
    (hp : Prints h) (hj : h.json = true → ∀ f, ∃ t, h.toJSON f = .ok t)
    (hpath : givenText values s%"descriptor-set-path" = []) (m m' : Meta)
    (sets sets' : List Descriptor.FileSet) (w : World) (ht : TempDirsOK (s.tools r) w.disk)
    (hc : CompilesTo h args { doFileDescriptorSet := true } w.disk m sets)
    (hrel : Path.isAbs (fileOrDir args) = false)
    (hin : File.absClean h.wd h.workDirPath <+: File.absClean h.wd (fileOrDir args))
    (dir : Str) (disk' : Disk)
    (hclone : Clones h (s.tools r) (givenText values s%"git-branch") w.disk dir disk')
    (hc' : CompilesTo { h with workDirPath := dir, stat := (s.tools r).treeStat, getForDir := (s.tools r).treeForDir } [cloneDirFor dir (fileOrDir args)]
      { doFileDescriptorSet := true } disk' m' sets')
    (failures : List Text.Failure)
    (hr : Breaking.breakCheckSets (s.tools r).srt (s.tools r).order (s.tools r).marshal
      m.protoSet.config.break_ sets' sets = .ok failures) :
    run s usage devel (.line .breakCheck args values) w =
      ({ w with out := w.out ++ breakLines h failures }, if failures = [] then .code 0 else .code 255) := by
  have h2 := C66_git h hp hj (s.tools r) args _ m m' sets sets' w ht hc hrel hin dir disk' hclone hc'
    failures hr
  have h3 : Command.run s r args (flagsOf values) .breakCheck w = _ :=
    (show _ = breakCheckCmd h (s.tools r) args (givenText values s%"git-branch") [] w by
      have e : Command.run s r args (flagsOf values) .breakCheck w = breakCheckCmd (s.hostOf r) (s.tools r) args
        (givenText values s%"git-branch") (givenText values s%"descriptor-set-path") w := rfl
      rw [e, hpath, invoked_host i]).trans h2
  rw [invoked_run i usage h3]
  unfold breakOutcome
  by_cases hf : failures = [] <;> simp [hf, lastWords, exitOf, textLine]

/-- C95: `all` is `format --overwrite`, `generate` and `lint`, one after the other, unless the flags
leave out a step. Without the first step the files are only compiled. -/
theorem C95_all (usage : Usage) {vc vf vg vl : List (Str × Value)} (i : Invoked s devel .all args values r h)
    (ic : Invoked s devel .compile args vc r h) (iF : Invoked s devel .format args vf r h)
    (ig : Invoked s devel .generate args vg r h) (il : Invoked s devel .lint args vl r h)
    (hc : isOn vc s%"dry-run" = false) (hf : formatOf vf = { overwrite := true, fix := isOn values s%"fix" })
    (hg : isOn vg s%"dry-run" = false) (hl : lintOf vl = {}) (hp : Prints h) (m : Meta) (hm : Finds h args m)
    (hre : ∀ disk, Compiles h { doGen := true } m disk → Compiles h {} m (h.generate disk m.protoSet))
    (w w' : World) :
    run s usage devel (.line .all args values) w = (w', .code 0) ↔
      ∃ w1 w2,
        (if isOn values s%"disable-format" then run s usage devel (.line .compile args vc) w = (w1, .code 0)
          else run s usage devel (.line .format args vf) w = (w1, .code 0)) ∧
        run s usage devel (.line .generate args vg) w1 = (w2, .code 0) ∧
        (if isOn values s%"disable-lint" then w' = w2
          else run s usage devel (.line .lint args vl) w2 = (w', .code 0)) := by
  have ea : Command.run s r args (flagsOf values) .all = allCmd h s.lint s.srt args
      (isOn values s%"disable-format") (isOn values s%"disable-lint") (isOn values s%"fix") := by
    rw [← invoked_host i]; rfl
  have ec : Command.run s r args (flagsOf vc) .compile = compileCmd h args false := by
    rw [← invoked_host i, ← hc]; rfl
  have ef : Command.run s r args (flagsOf vf) .format =
      formatCmd h s.lint.order s.srt args { overwrite := true, fix := isOn values s%"fix" } := by
    rw [← invoked_host i, ← hf]; rfl
  have eg : Command.run s r args (flagsOf vg) .generate = genCmd h args false := by
    rw [← invoked_host i, ← hg]; rfl
  have el : Command.run s r args (flagsOf vl) .lint = lintCmd h s.lint s.srt args {} := by
    rw [← invoked_host i, ← hl]; rfl
  simp only [invoked_zero i, invoked_zero ic, invoked_zero iF, invoked_zero ig, invoked_zero il, ea, ec, ef,
    eg, el]
  exact C65_disabled h hp s.lint s.srt args m hm _ _ _ w w' hre

/-- C95: `descriptor-set` writes the set, with what the flags include and in the format they ask for, to
where they say. -/
theorem C95_descriptor_set (usage : Usage) (i : Invoked s devel .descriptorSet args values r h)
    (hp : Prints h) (m : Meta) (sets : List Descriptor.FileSet) (w : World)
    (hc : CompilesTo h args
      { fullControl := true, includeImports := isOn values s%"include-imports",
        includeSourceInfo := isOn values s%"include-source-info" } w.disk m sets)
    (hs : FaithfulOn (s.tools r).sum fun f => f ∈ sets.flatten) (hnames : ∀ f ∈ sets.flatten, f.name ≠ [])
    (hone : ∀ f ∈ sets.flatten, ∀ g ∈ sets.flatten, f.name = g.name → f = g) :
    ∃ set, IsMerged sets set ∧
      ∀ data, (if isOn values s%"json" then (s.tools r).encodeJSON set else (s.tools r).encodeProto set) =
          .ok data →
        (givenText values s%"output-path" = [] → isOn values s%"tmp" = false →
          run s usage devel (.line .descriptorSet args values) w = ({ w with out := w.out ++ data }, .code 0)) ∧
        (∀ path, path ≠ [] → givenText values s%"output-path" = path → isOn values s%"tmp" = false →
          (s.tools r).create path = .ok () → (s.tools r).writeTo path data = .ok () →
          (s.tools r).close path = none →
          run s usage devel (.line .descriptorSet args values) w =
            ({ w with disk := Disk.set w.disk path (some data), writes := w.writes ++ [(path, data)] },
              .code 0)) ∧
        (∀ path, path ≠ [] → givenText values s%"output-path" = [] → isOn values s%"tmp" = true →
          (s.tools r).tempFile = .ok path → (s.tools r).writeTo path data = .ok () →
          (s.tools r).close path = none →
          run s usage devel (.line .descriptorSet args values) w =
            ({ disk := Disk.set w.disk path (some data), out := w.out ++ path ++ s%"\n",
               writes := w.writes ++ [(path, data)] }, .code 0)) := by
  obtain ⟨set, h1, h2⟩ := C67_written h hp (s.tools r) args _ _ m sets w hc hs hnames hone
  have e : Command.run s r args (flagsOf values) .descriptorSet = descriptorSetCmd h (s.tools r) args
      (isOn values s%"include-imports") (isOn values s%"include-source-info")
      (givenText values s%"output-path") (isOn values s%"tmp") := by
    rw [← invoked_host i]; rfl
  refine ⟨set, h1, fun data hd => ?_⟩
  obtain ⟨h3, h4, h5⟩ := h2 data (by rw [i.host]; exact hd)
  refine ⟨fun ho ht => ?_, fun path hn ho ht => ?_, fun path hn ho ht => ?_⟩ <;>
    rw [invoked_zero i, e, ho, ht]
  · exact h3
  · exact h4 path hn
  · exact h5 path hn

/-- C95: `break descriptor-set` does so with the imports, to the given path. -/
theorem C95_break_descriptor_set (usage : Usage) (i : Invoked s devel .breakDescriptorSet args values r h)
    {vd : List (Str × Value)} (id : Invoked s devel .descriptorSet args vd r h)
    (h1 : isOn vd s%"include-imports" = true) (h2 : isOn vd s%"include-source-info" = false)
    (h3 : givenText vd s%"output-path" = givenText values s%"output-path") (h4 : isOn vd s%"tmp" = false)
    (w : World) :
    (givenText values s%"output-path" = [] → run s usage devel (.line .breakDescriptorSet args values) w =
      ({ w with out := w.out ++ s%"must set output-path\n" }, .code 255)) ∧
    (givenText values s%"output-path" ≠ [] → run s usage devel (.line .breakDescriptorSet args values) w =
      run s usage devel (.line .descriptorSet args vd) w) := by
  have e : Command.run s r args (flagsOf values) .breakDescriptorSet = breakDescriptorSetCmd h (s.tools r) args
      (givenText values s%"output-path") := by
    rw [← invoked_host i]; rfl
  have ed : Command.run s r args (flagsOf vd) .descriptorSet = descriptorSetCmd h (s.tools r) args
      true false (givenText values s%"output-path") false := by
    have e : Command.run s r args (flagsOf vd) .descriptorSet = descriptorSetCmd (s.hostOf r) (s.tools r) args
      (isOn vd s%"include-imports") (isOn vd s%"include-source-info") (givenText vd s%"output-path")
      (isOn vd s%"tmp") := rfl
    rw [e, h1, h2, h3, h4, invoked_host i]
  obtain ⟨hn, hd⟩ := C67_break_descriptor_set h (s.tools r) args w
  refine ⟨fun ho => ?_, fun ho => ?_⟩
  · rw [ho] at e
    rw [← e] at hn
    rw [invoked_run i usage hn]
    rfl
  · rcases hr : Command.run s r args (flagsOf values) .breakDescriptorSet w with ⟨w1, o⟩
    rw [invoked_run i usage hr, invoked_run id usage (w' := w1) (o := o) (by rw [← hr, e, ed, hd _ ho])]

/-- C95: the inspections are about the package of the given name. -/
theorem C95_inspect (usage : Usage) (hp : Prints h) (m : Meta) (sets : List Descriptor.FileSet) (w : World)
    (hc : CompilesTo h args { doFileDescriptorSet := true } w.disk m sets)
    (hf : FaithfulOn (s.tools r).marshal fun f => f ∈ sets.flatten) (hv : DescriptorsOK sets.flatten) :
    (Invoked s devel .inspectPackages args values r h →
      ∃ names, run s usage devel (.line .inspectPackages args values) w =
          ({ w with out := w.out ++ nameLines names }, .code 0) ∧
        Listing names fun n => ∃ f ∈ sets.flatten, f.package = n) ∧
    (∀ name, (∃ f ∈ sets.flatten, f.package = name) → givenText values s%"name" = name →
      (Invoked s devel .inspectPackageDeps args values r h →
        ∃ names, run s usage devel (.line .inspectPackageDeps args values) w =
            ({ w with out := w.out ++ nameLines names }, .code 0) ∧
          Listing names fun q => q ≠ name ∧ Imports sets.flatten name q) ∧
      (Invoked s devel .inspectPackageImporters args values r h →
        ∃ names, run s usage devel (.line .inspectPackageImporters args values) w =
            ({ w with out := w.out ++ nameLines names }, .code 0) ∧
          Listing names fun k => k ≠ name ∧ Imports sets.flatten k name)) := by
  refine ⟨fun i => ?_, fun name hn hname => ⟨fun i => ?_, fun i => ?_⟩⟩
  · obtain ⟨names, h1, h2⟩ := C68_packages h hp (s.tools r) args m sets w hc hf hv
    refine ⟨names, ?_, h2⟩
    rw [invoked_zero i, ← h1, ← invoked_host i]; rfl
  · obtain ⟨names, h1, h2⟩ := C68_deps h hp (s.tools r) args m sets w hc hf hv name hn
    refine ⟨names, ?_, h2⟩
    rw [invoked_zero i, ← h1, ← invoked_host i, ← hname]; rfl
  · obtain ⟨names, h1, h2⟩ := C68_importers h hp (s.tools r) args m sets w hc hf hv name hn
    refine ⟨names, ?_, h2⟩
    rw [invoked_zero i, ← h1, ← invoked_host i, ← hname]; rfl

/-- C95: `config init` that ends with exit code 0 has made the configuration file, commented or
documented as asked for. -/
theorem C95_init (usage : Usage) (i : Invoked s devel .configInit args values r h) (w w' : World)
    (hok : run s usage devel (.line .configInit args values) w = (w', .code 0)) :
    w.disk (configPath h args) = none ∧
      ∃ data, (s.tools r).config (isOn values s%"uncomment") (isOn values s%"document") = .ok data ∧
        w'.disk (configPath h args) = some data ∧ w'.out = w.out := by
  rw [invoked_zero i] at hok
  obtain ⟨h1, data, h2, h3, _, h4⟩ := C71_written h (s.tools r) args (isOn values s%"uncomment")
    (isOn values s%"document") w w' (by rw [← hok, ← invoked_host i]; rfl)
  exact ⟨h1, data, h2, h3, h4⟩

/-- C95: `create` that ends with exit code 0 has made the files, with the given package if there is one
and the given configuration if there is one. -/
theorem C95_create (usage : Usage) (i : Invoked s devel .create args values r h) (hwd : IsAbsPath h.wd)
    (w w' : World) (hok : run s usage devel (.line .create args values) w = (w', .code 0)) (p : Str)
    (hp : p ∈ args) :
    ∃ p' ∈ args, located h p' = located h p ∧ ∃ c package,
      (if givenText values s%"config-data" ≠ [] then
        some (Settings.getForData s.srt s.settings devel (Create.absDir h p') (givenText values s%"config-data"))
        else Settings.getForDir s.srt s.settings devel (Create.absDir h p')) = some (.ok c) ∧
      (givenText values s%"package" ≠ [] → package = givenText values s%"package") ∧
      w'.disk (located h p) = some (newText c.lint.fileHeader (c.lint.group = s%"uber2") p' package
        c.lint.javaPackagePrefix) := by
  rw [invoked_zero i] at hok
  have e : Command.run s r args (flagsOf values) .create = Create.createCmd
      { srt := s.srt, order := s.lint.order, settings := s.settings, develMode := devel,
        pkg := givenText values s%"package", configData := givenText values s%"config-data" } h args := by
    rw [← invoked_host i, ← i.settings.develMode, ← i.settings.configData]; rfl
  rw [e] at hok
  obtain ⟨p', h1, h2, c, package, h3, h4, h5⟩ := C39_written _ h hwd w w' args hok p hp
  refine ⟨p', h1, h2, c, package, h3, fun hn => ?_, h5⟩
  unfold Create.getPkg at h4
  rw [if_pos hn] at h4
  injection h4 with h4
  exact h4.symm

/-- C95: `grpc` that ends with exit code 0 has made the call that the flags describe and printed what
was received. -/
theorem C95_grpc (usage : Usage) (i : Invoked s devel .grpc args values r h) (hp : Prints h) (w w' : World)
    (hok : run s usage devel (.line .grpc args values) w = (w', .code 0)) :
    FlagsAccepted (grpcOf values) ∧ ∃ m sets call events, metaOf h (fileOrDir args) = .ok m ∧
      h.compile { doFileDescriptorSet := true } w.disk m.protoSet = .ok ([], sets) ∧
      CallFor s.grpc.parseDuration (grpcOf values) sets call ∧ s.grpc.rpc call = (events, none) ∧
      (∀ err s md, Grpc.Event.trailers (some err) s md ∉ events) ∧
      w' = { w with out := w.out ++ events.flatMap (eventText (isOn values s%"details")) } := by
  rw [invoked_zero i] at hok
  have e : Command.run s r args (flagsOf values) .grpc = Grpc.grpcCmd h s.grpc args (grpcOf values) := by
    rw [← invoked_host i]; rfl
  rw [e] at hok
  exact C77_success hp hok

/-- C95: `cache update` downloads the configured version, or else the default one, from the given URL to
the given cache. -/
theorem C95_cache_update (usage : Usage) (i : Invoked s devel .cacheUpdate args values r h) (m : Meta)
    (hm : Finds h args m) (h1 : r.protocBinPath = []) (h2 : r.protocWKTPath = []) (w : World) :
    ∃ d : Download.Options,
      d.version = (if m.protoSet.config.compile.protobufVersion = [] then s%"3.11.0"
        else m.protoSet.config.compile.protobufVersion) ∧
      d.cachePath = r.cachePath ∧ d.protocURL = r.protocURL ∧ d.protocBinPath = [] ∧ d.protocWKTPath = [] ∧
      run s usage devel (.line .cacheUpdate args values) w =
        ({ w with
            disk := (s.download d w.disk).1
            out := w.out ++ ((s.download d w.disk).2.map textLine).getD [] },
          .code (if (s.download d w.disk).2 = none then 0 else 1)) := by
  refine ⟨{
      version := if m.protoSet.config.compile.protobufVersion = [] then s%"3.11.0"
        else m.protoSet.config.compile.protobufVersion
      cachePath := r.cachePath
      protocURL := r.protocURL }, rfl, rfl, rfl, rfl, rfl, ?_⟩
  have e : Command.run s r args (flagsOf values) .cacheUpdate w =
      onDisk (s.download {
        version := if m.protoSet.config.compile.protobufVersion = [] then s%"3.11.0"
          else m.protoSet.config.compile.protobufVersion
        cachePath := r.cachePath
        protocURL := r.protocURL }) w := by
    show Run.bind (getMeta (s.hostOf r) args) _ w = _
    rw [invoked_host i, bind_of_ok (getMeta_ok.2 ⟨rfl, hm⟩)]
    refine bind_of_ok ?_
    unfold newDownloader Download.newDownloader downloaderOptions
    rw [h1, h2]
    by_cases hv : m.protoSet.config.compile.protobufVersion = [] <;>
      simp [hv, Download.defaultProtocVersion]
  rcases hd : s.download {
      version := if m.protoSet.config.compile.protobufVersion = [] then s%"3.11.0"
        else m.protoSet.config.compile.protobufVersion
      cachePath := r.cachePath
      protocURL := r.protocURL } w.disk with ⟨disk, _ | err⟩ <;> unfold onDisk at e <;> rw [hd] at e
  · rw [invoked_run i usage e]
    simp [lastWords, exitOf]
  · rw [invoked_run i usage e]
    simp [lastWords, exitOf]

/-- C95: with an own protoc in the settings, both paths are needed, and they are what is used. -/
theorem C95_own_protoc (usage : Usage) (i : Invoked s devel .cacheUpdate args values r h) (m : Meta)
    (hm : Finds h args m) (ho : r.protocBinPath ≠ [] ∨ r.protocWKTPath ≠ []) (w w' : World)
    (hok : run s usage devel (.line .cacheUpdate args values) w = (w', .code 0)) :
    r.protocURL = [] ∧ r.protocBinPath ≠ [] ∧ r.protocWKTPath ≠ [] ∧
    (∀ e, s.stat (Path.clean r.protocBinPath) ≠ .notExist e) ∧
    s.stat (Path.joinPath [Path.clean r.protocWKTPath, s%"google", s%"protobuf"]) = .dir ∧
    ∃ d : Download.Options, d.protocBinPath = Path.clean r.protocBinPath ∧
      d.protocWKTPath = Path.clean r.protocWKTPath ∧ s.download d w.disk = (w'.disk, none) := by
  rw [invoked_zero i] at hok
  have e : Command.run s r args (flagsOf values) .cacheUpdate w = Run.bind (getMeta (s.hostOf r) args)
      (fun m => Run.bind (newDownloader s r m.protoSet.config) fun d => onDisk (s.download d)) w := rfl
  rw [e, invoked_host i, bind_of_ok (getMeta_ok.2 ⟨rfl, hm⟩)] at hok
  obtain ⟨w1, d, h1, h2⟩ := bind_ok.1 hok
  unfold newDownloader at h1
  cases hn : Download.newDownloader s.stat (downloaderOptions r m.protoSet.config) with
  | error e => rw [hn] at h1; cases h1
  | panic => rw [hn] at h1; cases h1
  | ok d' =>
    rw [hn] at h1
    injection h1 with h1 h3
    injection h3 with h3
    subst h1 h3
    obtain ⟨g1, g2, g3, g4, _, g5, g6⟩ := (C75_own (d := downloaderOptions r m.protoSet.config) ho).1 hn
    refine ⟨g1, g2, g3, g4, g5, d', by rw [g6]; rfl, by rw [g6]; rfl, ?_⟩
    unfold onDisk at h2
    rcases hd : s.download d' w.disk with ⟨disk, _ | err⟩ <;> rw [hd] at h2 <;> cases h2
    rfl

/-- C95: `version` prints the version of the program and of protoc, and the platform, with `--json` as
a JSON object. -/
theorem C95_version (usage : Usage) (i : Invoked s devel .version args values r h) (hp : Prints h) (w : World) :
    (isOn values s%"json" = false → run s usage devel (.line .version args values) w =
      ({ w with out := w.out ++ TabWriter.table [(s%"Version:", s%"1.11.0-dev"),
          (s%"Default protoc version:", s%"3.11.0"), (s%"Go version:", s.environ.goVersion),
          (s%"OS/Arch:", s.environ.goos ++ s%"/" ++ s.environ.goarch)] }, .code 0)) ∧
    (isOn values s%"json" = true → run s usage devel (.line .version args values) w =
      ({ w with out := w.out ++ Json.encodeIndented (Json.stringMember s%"version" s%"1.11.0-dev" ++
          Json.stringMember s%"default_protoc_version" s%"3.11.0" ++
          Json.stringMember s%"go_version" s.environ.goVersion ++ Json.stringMember s%"goos" s.environ.goos ++
          Json.stringMember s%"goarch" s.environ.goarch) }, .code 0)) := by
  have hw : ∀ t, write (s.hostOf r) t w = ({ w with out := w.out ++ t }, .ok ()) := by
    intro t
    rw [invoked_host i]
    unfold write
    rw [hp]
  have e : Command.run s r args (flagsOf values) .version w = versionCmd s r w := rfl
  refine ⟨fun hj => ?_, fun hj => ?_⟩ <;> rw [invoked_zero i, e] <;> unfold versionCmd
  · rw [if_neg (by rw [i.settings.json, hj]; simp)]
    exact hw _
  · rw [if_pos (by rw [i.settings.json, hj])]
    exact hw _

end Commands

/-! ## The theorems are about something -/

namespace CmdLineExample

open CmdExample Exec.Sample

/-- The settings of the example. -/
def runner (cache : Str) : Runner where
  workDirPath := s%"/w"
  develMode := false
  cachePath := cache
  configData := []
  protocBinPath := []
  protocWKTPath := []
  protocURL := []
  errorFormat := s%"filename:line:column:message"
  json := false
  walkTimeout := 3000000000

/-- The host of the example. -/
def lineHost : Exec.Host :=
  { cmdHost with workDirPath := s%"/w", errorFormat := s%"filename:line:column:message", json := false }

/-- `format a --fix --diff` and `cache update --cache-path /d --cache-path /c` are run. -/
example : Invoked (system []) false .format [s%"a"] [(s%"fix", .bool true), (s%"diff", .bool true)]
    (runner []) lineHost where
  system := Or.inr rfl
  fitting := ⟨by decide, by
    intro p hp b hb h
    simp only [List.mem_cons, List.not_mem_nil, or_false] at hp
    rcases hp with rfl | rfl <;> cases b <;> first | trivial | exact absurd h (by decide), by decide⟩
  settings := ⟨rfl, rfl, Or.inr ⟨rfl, rfl⟩, Or.inr ⟨rfl, rfl⟩, Or.inr ⟨rfl, rfl⟩, rfl, rfl, rfl, rfl,
    Or.inr ⟨by decide, rfl⟩⟩
  host := rfl

example : Invoked (system []) false .cacheUpdate [] [(s%"cache-path", .str s%"/d"), (s%"cache-path", .str s%"/c")]
    (runner s%"/c") lineHost where
  system := Or.inr rfl
  fitting := ⟨by decide, by
    intro p hp b hb h
    simp only [List.mem_cons, List.not_mem_nil, or_false] at hp
    rcases hp with rfl | rfl <;> cases b <;> first | trivial | exact absurd h (by decide), by decide⟩
  settings := ⟨rfl, rfl, Or.inl ⟨by decide, rfl⟩, Or.inr ⟨rfl, rfl⟩, Or.inr ⟨rfl, rfl⟩, rfl, rfl, rfl, rfl,
    Or.inr ⟨by decide, rfl⟩⟩
  host := rfl

/-- What it says. -/
example : formatOf [(s%"fix", .bool true), (s%"diff", .bool true)] = { diffMode := true, fix := true } ∧
    lintOf [(s%"list-lint-group", .str s%"uber2")] = { listLintGroup := s%"uber2" } ∧
    givenText [(s%"cache-path", .str s%"/d"), (s%"cache-path", .str s%"/c")] s%"cache-path" = s%"/c" ∧
    givenText [] s%"call-timeout" = s%"60s" := ⟨rfl, rfl, rfl, rfl⟩

/-- A command line whose effect is seen. -/
example : (run (system []) usage false (.line .lint [] [(s%"list-all-lint-groups", .bool true)]) world).1.out =
    s%"empty\ngoogle\nuber1\nuber2\n" ∧
    (run (system []) usage false (.line .version [] [(s%"json", .bool true)]) world).1.out =
      s%"{\n  \"version\": \"1.11.0-dev\",\n  \"default_protoc_version\": \"3.11.0\",\n  \"go_version\": \"go1.14\",\n  \"goos\": \"linux\",\n  \"goarch\": \"amd64\"\n}\n" ∧
    (run (system []) usage false (.line .breakDescriptorSet [] []) world).2 = .code 255 := by
  decide +kernel
example : (run (system []) usage false (.line .format [s%"a"] [(s%"overwrite", .bool true)]) world).2 = .code 0 ∧
    (run (system []) usage false (.line .create [s%"a/new.proto"] [(s%"package", .str s%"x.y")]) world).2 = .code 0 ∧
    (run (system []) usage false (.line .configInit [s%"a"] []) world).2 = .code 0 ∧
    (run (system []) usage false (.line .generate [s%"a"] []) world).2 = .code 0 ∧
    (run (system []) usage false (.line .descriptorSet [s%"a"] []) world).2 = .code 0 := by
  decide +kernel

end CmdLineExample

end Verif.Props
