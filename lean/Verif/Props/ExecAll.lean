import Verif.Props.Exec
import Verif.Props.ExecLint

/-!
# What `all` does (C65)
-/

namespace Verif.Props

open Verif Str Exec

/-- C65: unless the files compile to begin with, no file is written or changed. -/
theorem C65_compiles_first (h : Exec.Host) (hp : Prints h) (env : Lint.Env) (srt : SortSlice)
    (args : List Str) (disableFormat disableLint fix : Bool) (w : World)
    (hno : ∀ m, Finds h args m → ¬(ErrorFormatKnown h ∧ Compiles h {} m w.disk)) :
    (allCmd h env srt args disableFormat disableLint fix w).1.disk = w.disk ∧
      (allCmd h env srt args disableFormat disableLint fix w).1.writes = w.writes ∧
      (allCmd h env srt args disableFormat disableLint fix w).2 ≠ .ok () := by
  unfold allCmd
  have hq := quiet_getMeta h args w
  rcases hm : getMeta h args w with ⟨w1, m | e | _⟩
  · obtain ⟨rfl, hf⟩ := getMeta_ok.1 hm
    rw [bind_of_ok hm]
    have hq := quiet_compile h false false m w1
    rcases hc : compile h false false false m w1 with ⟨w2, sets | e | _⟩
    · obtain ⟨h1, h2, _⟩ := (compile_ok hp).1 hc
      exact absurd ⟨h1, sets, h2⟩ (hno m hf)
    · rw [hc] at hq
      unfold Run.bind
      rw [hc]
      exact ⟨hq.1, hq.2, by simp⟩
    · rw [hc] at hq
      unfold Run.bind
      rw [hc]
      exact ⟨hq.1, hq.2, by simp⟩
  · rw [hm] at hq
    unfold Run.bind
    rw [hm]
    exact ⟨hq.1, hq.2, by simp⟩
  · rw [hm] at hq
    unfold Run.bind
    rw [hm]
    exact ⟨hq.1, hq.2, by simp⟩

/-- The steps of a run that ends well. -/
theorem allCmd_ok {h : Exec.Host} (hp : Prints h) {env : Lint.Env} {srt : SortSlice} {args : List Str}
    {m : Meta} (hm : Finds h args m) {fix : Bool} {w w' : World} :
    allCmd h env srt args false false fix w = (w', .ok ()) ↔
      ErrorFormatKnown h ∧ Compiles h {} m w.disk ∧
      ∃ w1, format h env.order srt { overwrite := true, fix := fix } m w = (w1, .ok ()) ∧
        Compiles h { doGen := true } m w1.disk ∧
        lint h env m { w1 with disk := h.generate w1.disk m.protoSet } = (w', .ok ()) := by
  unfold allCmd
  rw [bind_of_ok (getMeta_ok.2 ⟨rfl, hm⟩)]
  constructor
  · intro e
    obtain ⟨w1, s1, h1, h2⟩ := bind_ok.1 e
    obtain ⟨hk, hc, rfl⟩ := (compile_ok hp).1 h1
    obtain ⟨w2, _, h3, h4⟩ := bind_ok.1 h2
    obtain ⟨w3, s3, h5, h6⟩ := bind_ok.1 h4
    obtain ⟨_, hc', rfl⟩ := (compile_ok hp).1 h5
    exact ⟨hk, ⟨_, hc⟩, w2, h3, ⟨_, hc'⟩, h6⟩
  · rintro ⟨hk, ⟨s1, hc⟩, w1, hf, ⟨s2, hg⟩, hl⟩
    rw [bind_of_ok ((compile_ok hp (w' := w)).2 ⟨hk, hc, rfl⟩)]
    show Run.bind (format h env.order srt { overwrite := true, fix := fix } m) _ w = _
    rw [bind_of_ok hf, bind_of_ok ((compile_ok hp).2 ⟨hk, hg, rfl⟩)]
    exact hl

/-- C65: `all` ends well exactly if `format --overwrite`, then `generate`, then linting do, each
on what the one before left, and then leaves what the last one leaves. -/
theorem C65_sequence (h : Exec.Host) (hp : Prints h) (env : Lint.Env) (srt : SortSlice) (args : List Str)
    (m : Meta) (hm : Finds h args m) (fix : Bool) (w w' : World)
    (hre : ∀ disk, Compiles h { doGen := true } m disk → Compiles h {} m (h.generate disk m.protoSet)) :
    allCmd h env srt args false false fix w = (w', .ok ()) ↔
      ∃ w1 w2, formatCmd h env.order srt args { overwrite := true, fix := fix } w = (w1, .ok ()) ∧
        genCmd h args false w1 = (w2, .ok ()) ∧ lintCmd h env srt args {} w2 = (w', .ok ()) := by
  have hlint : ∀ w2, ErrorFormatKnown h → Compiles h {} m w2.disk →
      lintCmd h env srt args {} w2 = lint h env m w2 := by
    intro w2 hk hc
    obtain ⟨s, hc⟩ := hc
    show Run.bind (getMeta h args) _ w2 = _
    rw [bind_of_ok (getMeta_ok.2 ⟨rfl, hm⟩)]
    show Run.bind (compile h false false false m) (fun _ => lint h env m) w2 = _
    rw [bind_of_ok ((compile_ok (w' := w2) hp).2 ⟨hk, hc, rfl⟩)]
  have hformat : ∀ w1, formatCmd h env.order srt args { overwrite := true, fix := fix } w = (w1, .ok ()) ↔
      ErrorFormatKnown h ∧ Compiles h {} m w.disk ∧
        format h env.order srt { overwrite := true, fix := fix } m w = (w1, .ok ()) := by
    intro w1
    rw [formatCmd_eq ⟨by simp, by simp, by simp⟩, bind_of_ok (getMeta_ok.2 ⟨rfl, hm⟩), bind_ok]
    constructor
    · rintro ⟨w2, s, h1, h2⟩
      obtain ⟨hk, hc, rfl⟩ := (compile_ok hp).1 h1
      exact ⟨hk, ⟨s, hc⟩, h2⟩
    · rintro ⟨hk, ⟨s, hc⟩, h2⟩
      exact ⟨w, s, (compile_ok hp).2 ⟨hk, hc, rfl⟩, h2⟩
  have hgen : ∀ w1 w2, genCmd h args false w1 = (w2, .ok ()) ↔
      ErrorFormatKnown h ∧ Compiles h { doGen := true } m w1.disk ∧
        w2 = { w1 with disk := h.generate w1.disk m.protoSet } := by
    intro w1 w2
    unfold genCmd
    rw [bind_of_ok (getMeta_ok.2 ⟨rfl, hm⟩), bind_ok]
    constructor
    · rintro ⟨w3, s, h1, h2⟩
      obtain ⟨hk, hc, rfl⟩ := (compile_ok hp).1 h1
      cases h2
      exact ⟨hk, ⟨s, hc⟩, rfl⟩
    · rintro ⟨hk, ⟨s, hc⟩, rfl⟩
      exact ⟨_, s, (compile_ok hp).2 ⟨hk, hc, rfl⟩, rfl⟩
  rw [allCmd_ok hp hm]
  constructor
  · rintro ⟨hk, hc, w1, hf, hg, hl⟩
    exact ⟨w1, _, (hformat w1).2 ⟨hk, hc, hf⟩, (hgen w1 _).2 ⟨hk, hg, rfl⟩,
      (hlint { w1 with disk := h.generate w1.disk m.protoSet } hk (hre _ hg)).trans hl⟩
  · rintro ⟨w1, w2, h1, h2, h3⟩
    obtain ⟨hk, hc, hf⟩ := (hformat w1).1 h1
    obtain ⟨_, hg, rfl⟩ := (hgen w1 w2).1 h2
    exact ⟨hk, hc, w1, hf, hg,
      (hlint { w1 with disk := h.generate w1.disk m.protoSet } hk (hre _ hg)).symm.trans h3⟩

/-- C65: with `--disable-format` the files are only compiled instead of formatted, and with
`--disable-lint` they are not linted. -/
theorem C65_disabled (h : Exec.Host) (hp : Prints h) (env : Lint.Env) (srt : SortSlice) (args : List Str)
    (m : Meta) (hm : Finds h args m) (disableFormat disableLint fix : Bool) (w w' : World)
    (hre : ∀ disk, Compiles h { doGen := true } m disk → Compiles h {} m (h.generate disk m.protoSet)) :
    allCmd h env srt args disableFormat disableLint fix w = (w', .ok ()) ↔
      ∃ w1 w2, (if disableFormat then compileCmd h args false w = (w1, .ok ())
          else formatCmd h env.order srt args { overwrite := true, fix := fix } w = (w1, .ok ())) ∧
        genCmd h args false w1 = (w2, .ok ()) ∧
        (if disableLint then w' = w2 else lintCmd h env srt args {} w2 = (w', .ok ())) := by
  have hlint : ∀ w2, ErrorFormatKnown h → Compiles h {} m w2.disk →
      lintCmd h env srt args {} w2 = lint h env m w2 := by
    intro w2 hk hc
    obtain ⟨s, hc⟩ := hc
    show Run.bind (getMeta h args) _ w2 = _
    rw [bind_of_ok (getMeta_ok.2 ⟨rfl, hm⟩)]
    show Run.bind (compile h false false false m) (fun _ => lint h env m) w2 = _
    rw [bind_of_ok ((compile_ok (w' := w2) hp).2 ⟨hk, hc, rfl⟩)]
  have hformat : ∀ w1, formatCmd h env.order srt args { overwrite := true, fix := fix } w = (w1, .ok ()) ↔
      ErrorFormatKnown h ∧ Compiles h {} m w.disk ∧
        format h env.order srt { overwrite := true, fix := fix } m w = (w1, .ok ()) := by
    intro w1
    rw [formatCmd_eq ⟨by simp, by simp, by simp⟩, bind_of_ok (getMeta_ok.2 ⟨rfl, hm⟩), bind_ok]
    constructor
    · rintro ⟨w2, s, h1, h2⟩
      obtain ⟨hk, hc, rfl⟩ := (compile_ok hp).1 h1
      exact ⟨hk, ⟨s, hc⟩, h2⟩
    · rintro ⟨hk, ⟨s, hc⟩, h2⟩
      exact ⟨w, s, (compile_ok hp).2 ⟨hk, hc, rfl⟩, h2⟩
  have hcompile : ∀ w1, compileCmd h args false w = (w1, .ok ()) ↔
      ErrorFormatKnown h ∧ Compiles h {} m w.disk ∧ w1 = w := by
    intro w1
    unfold compileCmd
    rw [bind_of_ok (getMeta_ok.2 ⟨rfl, hm⟩), bind_ok]
    constructor
    · rintro ⟨w2, s, h1, h2⟩
      obtain ⟨hk, hc, rfl⟩ := (compile_ok hp).1 h1
      cases h2
      exact ⟨hk, ⟨s, hc⟩, rfl⟩
    · rintro ⟨hk, ⟨s, hc⟩, rfl⟩
      exact ⟨w1, s, (compile_ok hp).2 ⟨hk, hc, rfl⟩, rfl⟩
  have hgen : ∀ w1 w2, genCmd h args false w1 = (w2, .ok ()) ↔
      ErrorFormatKnown h ∧ Compiles h { doGen := true } m w1.disk ∧
        w2 = { w1 with disk := h.generate w1.disk m.protoSet } := by
    intro w1 w2
    unfold genCmd
    rw [bind_of_ok (getMeta_ok.2 ⟨rfl, hm⟩), bind_ok]
    constructor
    · rintro ⟨w3, s, h1, h2⟩
      obtain ⟨hk, hc, rfl⟩ := (compile_ok hp).1 h1
      cases h2
      exact ⟨hk, ⟨s, hc⟩, rfl⟩
    · rintro ⟨hk, ⟨s, hc⟩, rfl⟩
      exact ⟨_, s, (compile_ok hp).2 ⟨hk, hc, rfl⟩, rfl⟩
  have hall : allCmd h env srt args disableFormat disableLint fix w = (w', .ok ()) ↔
      ErrorFormatKnown h ∧ Compiles h {} m w.disk ∧
      ∃ w1, (if !disableFormat then format h env.order srt { overwrite := true, fix := fix } m
          else Run.pure ()) w = (w1, .ok ()) ∧
        Compiles h { doGen := true } m w1.disk ∧
        (if !disableLint then lint h env m else Run.pure ())
          { w1 with disk := h.generate w1.disk m.protoSet } = (w', .ok ()) := by
    unfold allCmd
    rw [bind_of_ok (getMeta_ok.2 ⟨rfl, hm⟩)]
    constructor
    · intro e
      obtain ⟨w1, s1, h1, h2⟩ := bind_ok.1 e
      obtain ⟨hk, hc, rfl⟩ := (compile_ok hp).1 h1
      obtain ⟨w2, _, h3, h4⟩ := bind_ok.1 h2
      obtain ⟨w3, s3, h5, h6⟩ := bind_ok.1 h4
      obtain ⟨_, hc', rfl⟩ := (compile_ok hp).1 h5
      exact ⟨hk, ⟨_, hc⟩, w2, h3, ⟨_, hc'⟩, h6⟩
    · rintro ⟨hk, ⟨s1, hc⟩, w1, hf, ⟨s2, hg⟩, hl⟩
      rw [bind_of_ok ((compile_ok hp (w' := w)).2 ⟨hk, hc, rfl⟩), bind_of_ok hf,
        bind_of_ok ((compile_ok hp).2 ⟨hk, hg, rfl⟩)]
      exact hl
  rw [hall]
  constructor
  · rintro ⟨hk, hc, w1, hf, hg, hl⟩
    refine ⟨w1, _, ?_, (hgen w1 _).2 ⟨hk, hg, rfl⟩, ?_⟩
    · cases disableFormat
      · exact (hformat w1).2 ⟨hk, hc, hf⟩
      · injection hf with hf
        exact (hcompile w1).2 ⟨hk, hc, hf.symm⟩
    · cases disableLint
      · exact (hlint { w1 with disk := h.generate w1.disk m.protoSet } hk (hre _ hg)).trans hl
      · injection hl with hl
        exact hl.symm
  · rintro ⟨w1, w2, h1, h2, h3⟩
    obtain ⟨hk, hg, rfl⟩ := (hgen w1 w2).1 h2
    have hf : Compiles h {} m w.disk ∧ (if !disableFormat then
        format h env.order srt { overwrite := true, fix := fix } m else Run.pure ()) w = (w1, .ok ()) := by
      cases disableFormat
      · exact ⟨((hformat w1).1 h1).2.1, ((hformat w1).1 h1).2.2⟩
      · obtain ⟨_, h4, h5⟩ := (hcompile w1).1 h1
        exact ⟨h4, by rw [h5]; rfl⟩
    refine ⟨hk, hf.1, w1, hf.2, hg, ?_⟩
    cases disableLint
    · exact (hlint { w1 with disk := h.generate w1.disk m.protoSet } hk (hre _ hg)).symm.trans h3
    · rw [show w' = _ from h3]; rfl

/-- C65: after an `all` that ends well, every file concerned has its formatted text, provided the
plugins do not write to it. -/
theorem C65_formatted (h : Exec.Host) (hp : Prints h) (env : Lint.Env) (srt : SortSlice) (args : List Str)
    (m : Meta) (hm : Finds h args m) (hd : Distinct m) (fix : Bool) (w : World)
    (hok : (allCmd h env srt args false false fix w).2 = .ok ())
    (hkeep : ∀ f, Concerns h m f → ∀ disk, h.generate disk m.protoSet f.path = disk f.path)
    (f : File.ProtoFile) (hf : Concerns h m f) :
    ∃ content text, w.disk f.path = some content ∧ Formats h srt fix m f.path content text ∧
      (allCmd h env srt args false false fix w).1.disk f.path = some text := by
  rcases e : allCmd h env srt args false false fix w with ⟨w', x⟩
  rw [e] at hok
  cases hok
  obtain ⟨hk, hc, w1, h1, _, h3⟩ := (allCmd_ok hp hm).1 e
  have hcmd : formatCmd h env.order srt args { overwrite := true, fix := fix } w = (w1, .ok ()) := by
    obtain ⟨s, hc⟩ := hc
    rw [formatCmd_eq ⟨by simp, by simp, by simp⟩, bind_of_ok (getMeta_ok.2 ⟨rfl, hm⟩),
      bind_of_ok ((compile_ok hp (w' := w)).2 ⟨hk, hc, rfl⟩)]
    exact h1
  obtain ⟨content, text, a, b, c⟩ := C38_overwritten h hp env.order srt args
    { overwrite := true, fix := fix } rfl m hm hd w (by rw [hcmd]) f hf
  refine ⟨content, text, a, b, ?_⟩
  rw [hcmd] at c
  have hl := (quiet_lint h env m { w1 with disk := h.generate w1.disk m.protoSet }).1
  rw [h3] at hl
  show w'.disk f.path = _
  rw [show w'.disk = _ from hl]
  exact (hkeep f hf w1.disk).trans c

/-- C65: after an `all` that ends well, the lint run on the files as they are now found nothing. -/
theorem C65_linted (h : Exec.Host) (hp : Prints h) (env : Lint.Env) (srt : SortSlice) (args : List Str)
    (m : Meta) (hm : Finds h args m) (fix : Bool) (w : World)
    (hok : (allCmd h env srt args false false fix w).2 = .ok ()) :
    Lint.run env (lintHost h (allCmd h env srt args false false fix w).1.disk) m.protoSet false =
      some (.ok []) := by
  rcases e : allCmd h env srt args false false fix w with ⟨w', x⟩
  rw [e] at hok
  cases hok
  obtain ⟨hk, hc, w1, h1, _, h3⟩ := (allCmd_ok hp hm).1 e
  have hl := (quiet_lint h env m { w1 with disk := h.generate w1.disk m.protoSet }).1
  rw [h3] at hl
  show Lint.run env (lintHost h w'.disk) m.protoSet false = _
  rw [show w'.disk = _ from hl]
  unfold lint at h3
  revert h3
  dsimp only
  cases Lint.run env (lintHost h (h.generate w1.disk m.protoSet)) m.protoSet false with
  | none => intro h3; cases h3
  | some r =>
    cases r with
    | error e => intro h3; cases h3
    | ok fs =>
      intro h3
      obtain ⟨w2, fs', h4, h5⟩ := bind_ok.1 h3
      cases h4
      obtain ⟨w3, _, _, h6⟩ := bind_ok.1 h5
      cases fs with
      | nil => rfl
      | cons f fs =>
        rw [if_pos (by simp)] at h6
        cases h6

/-- C65: a file that cannot be formatted, or a failed write, keeps the plugins from running: the
files are as the format step left them. -/
theorem C65_format_first (h : Exec.Host) (hp : Prints h) (env : Lint.Env) (srt : SortSlice) (args : List Str)
    (m : Meta) (hm : Finds h args m) (fix disableLint : Bool) (w : World)
    (hfail : (formatCmd h env.order srt args { overwrite := true, fix := fix } w).2 ≠ .ok ()) :
    allCmd h env srt args false disableLint fix w =
      formatCmd h env.order srt args { overwrite := true, fix := fix } w := by
  have hcmd := formatCmd_eq (h := h) (o := env.order) (srt := srt) (args := args)
    (flags := { overwrite := true, fix := fix }) ⟨by simp, by simp, by simp⟩
  rw [hcmd] at hfail ⊢
  unfold allCmd
  rw [bind_of_ok (getMeta_ok.2 ⟨rfl, hm⟩)] at hfail ⊢
  rw [bind_of_ok (getMeta_ok.2 ⟨rfl, hm⟩)]
  unfold Run.bind at hfail ⊢
  revert hfail
  rcases compile h false false false m w with ⟨w1, a | e | _⟩
  · dsimp only
    simp only [Bool.not_false, if_true]
    rcases format h env.order srt { overwrite := true, fix := fix } m w1 with ⟨w2, a | e | _⟩
    · exact fun hf => absurd rfl hf
    · exact fun _ => rfl
    · exact fun _ => rfl
  · exact fun _ => rfl
  · exact fun _ => rfl

section Example

open Exec.Sample

/-- The sample host, checking only that the files declare `proto3`. -/
def allHost : Exec.Host :=
  { host with
    getForDir := fun _ _ => .ok { protoSet with config := singleSet.config } }

/-- The run formats the second file of the directory and ends well. -/
example :
    (allCmd allHost sampleEnv .stable [s%"a"] false false false world).2 = .ok () ∧
      world.disk s%"/w/a/two.proto" = some s%"syntax=\"proto3\";" ∧
      (allCmd allHost sampleEnv .stable [s%"a"] false false false world).1.disk s%"/w/a/two.proto" =
        some s%"syntax = \"proto3\";\n" ∧
      (allCmd allHost sampleEnv .stable [s%"a"] false false false world).1.disk s%"/w/c/other.proto" =
        some s%"syntax=\"proto3\";" := by
  decide +kernel

/-- The hypotheses are met by this host. -/
example : Prints allHost ∧ Finds allHost [s%"a"] { protoSet := { protoSet with config := singleSet.config } } ∧
    Distinct { protoSet := { protoSet with config := singleSet.config } } := by
  refine ⟨fun _ _ => rfl, ?_, ?_⟩
  · exact (getMeta_ok (w := world) (w' := world)).1 rfl |>.2
  · unfold Distinct; decide +kernel

/-- A file that does not compile stops the run before the files are formatted. -/
example :
    (allCmd { allHost with compile := fun _ _ _ => .error s%"protoc failed" } sampleEnv .stable [s%"a"]
      false false false world).2 = .error (.other s%"protoc failed") := by
  decide +kernel

/-- A file that cannot be formatted stops the run. -/
example :
    (formatCmd { allHost with writeFile := fun _ _ => .error (s%"read-only", none) } sampleEnv.order .stable [s%"a"]
      { overwrite := true } world).2 = .error (.other s%"read-only") := by
  decide +kernel

end Example

end Verif.Props
