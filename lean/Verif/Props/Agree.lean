import Verif.Props.ExecAll
import Verif.Props.ExecDiff
import Verif.Props.LintRun

/-!
# C116: a check passes exactly if there is nothing to repair
-/

namespace Verif.Props

open Verif Str Exec

/-- C116: **`format --lint`, `format --diff` and plain `format` end well exactly if `format --overwrite` with the same
`--fix` ends well and changes no file.** The directories may be gone through in another order. -/
theorem C116_check (h : Host) (hp : Prints h) (o o' : Order) (srt : SortSlice) (args : List Str)
    (check repair : FormatFlags) (hk : check.AtMostOne) (hko : check.overwrite = false) (hr : repair.AtMostOne)
    (hro : repair.overwrite = true) (hfix : check.fix = repair.fix) (m : Meta) (hm : Finds h args m) (hd : Distinct m)
    (w : World) :
    (formatCmd h o srt args check w).2 = .ok () ↔
      (formatCmd h o' srt args repair w).2 = .ok () ∧ (formatCmd h o' srt args repair w).1.disk = w.disk := by
  rw [C38_exit_zero h hp o srt args check m hm hd w]
  constructor
  · rintro ⟨_, h2, h3, h4⟩
    refine ⟨(C38_exit_zero h hp o' srt args repair m hm hd w).2 ⟨hr, h2, h3, fun f hf => ?_⟩, ?_⟩
    · obtain ⟨c, t, k1, k2, k3⟩ := h4 f hf
      rw [hfix] at k2
      rcases k3 with k3 | ⟨k3, _⟩
      · exact ⟨c, t, k1, k2, .inl k3⟩
      · rw [hko] at k3
        cases k3
    · funext path
      refine Decidable.by_contra fun hne => ?_
      obtain ⟨_, f, c, t, k1, k2, k3, k4, k5, _⟩ := C38_changed h o' srt args repair m hm hd w path hne
      subst k2
      obtain ⟨c', t', j1, j2, j3⟩ := h4 f k1
      rw [k3] at j1
      cases j1
      rw [hfix] at j2
      obtain ⟨es, e1, e2⟩ := k4
      obtain ⟨es', e1', e2'⟩ := j2
      rw [e1] at e1'
      cases e1'
      rw [e2] at e2'
      cases e2'
      rcases j3 with j3 | ⟨j3, _⟩
      · exact k5 j3
      · rw [hko] at j3
        cases j3
  · rintro ⟨h1, h2⟩
    obtain ⟨_, k2, k3, _⟩ := (C38_exit_zero h hp o' srt args repair m hm hd w).1 h1
    refine ⟨hk, k2, k3, fun f hf => ?_⟩
    obtain ⟨c, t, j1, j2, j3⟩ := C38_overwritten h hp o' srt args repair hro m hm hd w h1 f hf
    rw [h2, j1] at j3
    cases j3
    exact ⟨c, c, j1, hfix ▸ j2, .inl rfl⟩

/-- C116: the three checks agree. -/
theorem C116_modes (h : Host) (hp : Prints h) (o o' : Order) (srt : SortSlice) (args : List Str)
    (check check' : FormatFlags) (hk : check.AtMostOne) (hko : check.overwrite = false) (hk' : check'.AtMostOne)
    (hko' : check'.overwrite = false) (hfix : check.fix = check'.fix) (m : Meta) (hm : Finds h args m)
    (hd : Distinct m) (w : World) :
    (formatCmd h o srt args check w).2 = .ok () ↔ (formatCmd h o' srt args check' w).2 = .ok () := by
  have hr : ({ overwrite := true, fix := check.fix } : FormatFlags).AtMostOne := ⟨by simp, by simp, by simp⟩
  rw [C116_check h hp o o srt args check { overwrite := true, fix := check.fix } hk hko hr rfl rfl m hm hd w,
    C116_check h hp o' o srt args check' { overwrite := true, fix := check.fix } hk' hko' hr rfl hfix.symm m hm hd w]

/-- Formatted files are passed over in silence. -/
theorem formatCmd_nothing {h : Host} (hp : Prints h) (he : ErrorFormatKnown h) {o : Order} {srt : SortSlice}
    {args : List Str} {flags : FormatFlags} (ha : flags.AtMostOne) (hq : ¬ flags.plain) {m : Meta} (hm : Finds h args m)
    {w : World} (hcomp : Compiles h {} m w.disk)
    (hf : ∀ f, Concerns h m f → ∃ t, w.disk f.path = some t ∧ Formats h srt flags.fix m f.path t t) :
    formatCmd h o srt args flags w = (w, .ok ()) := by
  obtain ⟨files, _, _, e⟩ := formatCmd_adds hp he (o := o) (srt := srt) ha hm hcomp (added := fun _ => [])
    (good := fun _ => true) (by
      intro f hc hk w' hw'
      obtain ⟨t, h1, h2⟩ := hf f hc
      unfold formatFile
      rw [if_neg hk]
      have hr : readFile h f.path w' = (w', .ok t) := by unfold readFile; rw [hw', h1]
      rw [bind_of_ok hr, transform_eq.2 h2,
        bind_of_ok (show Run.lift (.ok (t, [])) w' = (w', .ok (t, [])) from rfl)]
      dsimp only
      rw [if_neg (by simp), if_neg (by simp), if_neg, List.append_nil]
      · rfl
      · intro hx
        simp only [Bool.and_eq_true, Bool.not_eq_true'] at hx
        exact hq ⟨hx.1.1, hx.2, hx.1.2⟩)
  rw [e]
  have h1 : files.flatMap (fun _ => ([] : Str)) = [] := by simp
  have h2 : files.all (fun _ => true) = true := by simp
  rw [h1, h2, List.append_nil]
  rfl

/-- Without failures `lint` prints nothing. -/
theorem lint_nothing {h : Host} (hp : Prints h) (he : ErrorFormatKnown h) {env : Lint.Env} {m : Meta} {w : World}
    (hl : Lint.run env (lintHost h w.disk) m.protoSet false = some (.ok [])) : lint h env m w = (w, .ok ()) := by
  unfold lint
  rw [hl]
  show Run.bind (printFailures h [] m []) _ w = _
  rw [bind_of_ok (printFailures_nil hp he [] m w)]
  rfl

/-- C116: **after a repair that ended well, every check passes**, if formatting the formatted text of a file gives it
again and the formatted files compile. `--lint`, `--diff` and a second `--overwrite` print nothing and leave everything
as it is. -/
theorem C116_repaired (h : Host) (hp : Prints h) (o o' : Order) (srt : SortSlice) (args : List Str)
    (check repair : FormatFlags) (hk : check.AtMostOne) (hro : repair.overwrite = true)
    (hfix : check.fix = repair.fix) (m : Meta) (hm : Finds h args m) (hd : Distinct m) (w w' : World)
    (hok : (formatCmd h o srt args repair w).2 = .ok ())
    (stable : ∀ f content text, Concerns h m f → w.disk f.path = some content →
      Formats h srt repair.fix m f.path content text → Formats h srt repair.fix m f.path text text)
    (hw : w'.disk = (formatCmd h o srt args repair w).1.disk) (hc : Compiles h {} m w'.disk) :
    (formatCmd h o' srt args check w').2 = .ok () ∧
      (¬ check.plain → formatCmd h o' srt args check w' = (w', .ok ())) := by
  obtain ⟨_, k2, _, _⟩ := (C38_exit_zero h hp o srt args repair m hm hd w).1 hok
  have key : ∀ f, Concerns h m f → ∃ t, w'.disk f.path = some t ∧ Formats h srt check.fix m f.path t t := by
    intro f hf
    obtain ⟨c, t, j1, j2, j3⟩ := C38_overwritten h hp o srt args repair hro m hm hd w hok f hf
    exact ⟨t, by rw [hw]; exact j3, hfix ▸ stable f c t hf j1 j2⟩
  refine ⟨(C38_exit_zero h hp o' srt args check m hm hd w').2 ⟨hk, k2, hc, fun f hf => ?_⟩, fun hq => ?_⟩
  · obtain ⟨t, h1, h2⟩ := key f hf
    exact ⟨t, t, h1, h2, .inl rfl⟩
  · exact formatCmd_nothing hp k2 hk hq hm hc key

/-- C116: **after an `all` that ended well, every check passes**: compiling, the checks of `format` with the same `--fix`,
and `lint`, which prints nothing. The plugins are taken not to write to the files, and what they leave to compile. -/
theorem C116_all (h : Host) (hp : Prints h) (env : Lint.Env) (o : Order) (srt : SortSlice) (args : List Str)
    (check : FormatFlags) (hk : check.AtMostOne) (m : Meta) (hm : Finds h args m) (hd : Distinct m) (w w' : World)
    (hok : (allCmd h env srt args false false check.fix w).2 = .ok ())
    (hkeep : ∀ f, Concerns h m f → ∀ disk, h.generate disk m.protoSet f.path = disk f.path)
    (stable : ∀ f content text, Concerns h m f → w.disk f.path = some content →
      Formats h srt check.fix m f.path content text → Formats h srt check.fix m f.path text text)
    (hw : w'.disk = (allCmd h env srt args false false check.fix w).1.disk) (hc : Compiles h {} m w'.disk) :
    compileCmd h args false w' = (w', .ok ()) ∧ (formatCmd h o srt args check w').2 = .ok () ∧
      lintCmd h env srt args {} w' = (w', .ok ()) := by
  have hk2 : ErrorFormatKnown h := by
    rcases e : allCmd h env srt args false false check.fix w with ⟨w1, x⟩
    rw [e] at hok
    cases hok
    exact ((allCmd_ok hp hm).1 e).1
  obtain ⟨sets, hc'⟩ := hc
  refine ⟨?_, ?_, ?_⟩
  · unfold compileCmd
    rw [bind_of_ok (getMeta_ok.2 ⟨rfl, hm⟩), bind_of_ok ((compile_ok (w' := w') hp).2 ⟨hk2, hc', rfl⟩)]
    rfl
  · refine (C38_exit_zero h hp o srt args check m hm hd w').2 ⟨hk, hk2, ⟨sets, hc'⟩, fun f hf => ?_⟩
    obtain ⟨c, t, j1, j2, j3⟩ := C65_formatted h hp env srt args m hm hd check.fix w hok hkeep f hf
    exact ⟨t, t, by rw [hw]; exact j3, stable f c t hf j1 j2, .inl rfl⟩
  · have hl := C65_linted h hp env srt args m hm check.fix w hok
    rw [← hw] at hl
    show Run.bind (getMeta h args) _ w' = _
    rw [bind_of_ok (getMeta_ok.2 ⟨rfl, hm⟩)]
    show Run.bind (compile h false false false m) (fun _ => lint h env m) w' = _
    rw [bind_of_ok ((compile_ok (w' := w') hp).2 ⟨hk2, hc', rfl⟩)]
    exact lint_nothing hp hk2 hl

/-- C116: **a second `all` does nothing and ends well**, in whatever order maps are iterated, if besides the plugins
make what they made before. -/
theorem C116_all_again (h : Host) (hp : Prints h) (env : Lint.Env) (o : Order) (srt : SortSlice) (args : List Str)
    (fix : Bool) (m : Meta) (hm : Finds h args m) (hd : Distinct m) (w w' : World)
    (hok : (allCmd h env srt args false false fix w).2 = .ok ())
    (hkeep : ∀ f, Concerns h m f → ∀ disk, h.generate disk m.protoSet f.path = disk f.path)
    (stable : ∀ f content text, Concerns h m f → w.disk f.path = some content →
      Formats h srt fix m f.path content text → Formats h srt fix m f.path text text)
    (hw : w'.disk = (allCmd h env srt args false false fix w).1.disk) (hc : Compiles h {} m w'.disk)
    (hg : Compiles h { doGen := true } m w'.disk) (hsame : h.generate w'.disk m.protoSet = w'.disk) :
    allCmd h { env with order := o } srt args false false fix w' = (w', .ok ()) := by
  have hk : ErrorFormatKnown h := by
    rcases e : allCmd h env srt args false false fix w with ⟨w1, x⟩
    rw [e] at hok
    cases hok
    exact ((allCmd_ok hp hm).1 e).1
  have hf : formatCmd h o srt args { overwrite := true, fix := fix } w' = (w', .ok ()) := by
    refine formatCmd_nothing hp hk ⟨by simp, by simp, by simp⟩ (fun hx => absurd hx.1 (by simp)) hm hc fun f hf => ?_
    obtain ⟨c, t, j1, j2, j3⟩ := C65_formatted h hp env srt args m hm hd fix w hok hkeep f hf
    exact ⟨t, by rw [hw]; exact j3, stable f c t hf j1 j2⟩
  refine (allCmd_ok hp hm).2 ⟨hk, hc, w', ?_, hg, ?_⟩
  · obtain ⟨s, hc⟩ := hc
    rw [formatCmd_eq ⟨by simp, by simp, by simp⟩, bind_of_ok (getMeta_ok.2 ⟨rfl, hm⟩),
      bind_of_ok ((compile_ok hp (w' := w')).2 ⟨hk, hc, rfl⟩)] at hf
    exact hf
  · rw [hsame]
    refine lint_nothing hp hk ?_
    have := C65_linted h hp env srt args m hm fix w hok
    rw [← hw] at this
    exact (C27_iteration_order env o _ _ false []).2 this

/-! ## These theorems are about something -/

section Example

open Exec.Sample

/-- What `all a` is about. -/
def agreeMeta : Meta := { protoSet := { protoSet with config := singleSet.config } }

/-- The files after `format --overwrite a`. -/
def agreeWorld : World := (formatCmd allHost .id .stable [s%"a"] { overwrite := true } world).1

theorem agree_stable (f : File.ProtoFile) (content text : Str) (hf : Concerns allHost agreeMeta f)
    (ht : Formats allHost .stable false agreeMeta f.path content text) :
    Formats allHost .stable false agreeMeta f.path text text := by
  obtain ⟨⟨d, files, h1, _, h2⟩, _⟩ := hf
  obtain ⟨es, h3, h4⟩ := ht
  have hes : es = [.syntax { value := s%"proto3" }] := by
    simp only [allHost, host] at h3
    split at h3
    · exact (Except.ok.inj h3).symm
    · cases h3
  subst hes
  have key : ∀ path, (Format.transform .stable (formatsAs false singleSet.config.lint path)
      [.syntax { value := s%"proto3" }] = .ok (s%"syntax = \"proto3\";\n", [])) →
      Format.transform .stable (formatsAs false singleSet.config.lint path)
        [.syntax { value := s%"proto3" }] = .ok (text, []) →
      Formats allHost .stable false agreeMeta path text text := by
    intro path e1 e2
    rw [e1] at e2
    cases e2
    exact ⟨_, rfl, e1⟩
  simp only [agreeMeta, protoSet, List.mem_cons, Prod.mk.injEq, List.not_mem_nil, or_false] at h1
  rcases h1 with ⟨rfl, rfl⟩ | ⟨rfl, rfl⟩ | ⟨rfl, rfl⟩
  · simp only [List.mem_cons, List.not_mem_nil, or_false] at h2
    rcases h2 with rfl | rfl <;> exact key _ rfl h4
  · simp only [List.mem_cons, List.not_mem_nil, or_false] at h2
    rcases h2 with rfl
    exact key _ rfl h4
  · simp only [List.mem_cons, List.not_mem_nil, or_false] at h2
    rcases h2 with rfl
    exact key _ rfl h4

/-- The check fails before the repair; the other hypotheses hold, so it passes afterwards. -/
example : (formatCmd allHost .id .stable [s%"a"] { lintMode := true } world).2 = .error (.exit 255 []) ∧
    agreeWorld.disk ≠ world.disk ∧ Finds allHost [s%"a"] agreeMeta ∧ Distinct agreeMeta ∧ Prints allHost ∧
    (formatCmd allHost .id .stable [s%"a"] { overwrite := true } world).2 = .ok () ∧
    Compiles allHost {} agreeMeta agreeWorld.disk ∧
    formatCmd allHost .rev .stable [s%"a"] { lintMode := true } agreeWorld = (agreeWorld, .ok ()) := by
  have hm : Finds allHost [s%"a"] agreeMeta := (getMeta_ok (w := world) (w' := world)).1 rfl |>.2
  have hd : Distinct agreeMeta := by unfold Distinct; decide +kernel
  have hok : (formatCmd allHost .id .stable [s%"a"] { overwrite := true } world).2 = .ok () := by decide +kernel
  refine ⟨by decide +kernel, fun e => ?_, hm, hd, fun _ _ => rfl, hok, ⟨_, rfl⟩, ?_⟩
  · have := congrFun e s%"/w/a/two.proto"
    revert this
    decide +kernel
  · exact (C116_repaired allHost (fun _ _ => rfl) .id .rev .stable [s%"a"] { lintMode := true } { overwrite := true }
      ⟨by simp, by simp, by simp⟩ rfl rfl agreeMeta hm hd world agreeWorld hok
      (fun f c t hf _ ht => agree_stable f c t hf ht) rfl ⟨_, rfl⟩).2 fun hx => absurd hx.2.2 (by simp)

/-- After `all a` a second one does nothing. -/
example : (allCmd allHost sampleEnv .stable [s%"a"] false false false world).2 = .ok () ∧
    let w' := (allCmd allHost sampleEnv .stable [s%"a"] false false false world).1
    allCmd allHost { sampleEnv with order := .rev } .stable [s%"a"] false false false w' = (w', .ok ()) := by
  have hm : Finds allHost [s%"a"] agreeMeta := (getMeta_ok (w := world) (w' := world)).1 rfl |>.2
  have hd : Distinct agreeMeta := by unfold Distinct; decide +kernel
  have hok : (allCmd allHost sampleEnv .stable [s%"a"] false false false world).2 = .ok () := by decide +kernel
  exact ⟨hok, C116_all_again allHost (fun _ _ => rfl) sampleEnv .rev .stable [s%"a"] false agreeMeta hm hd world _ hok
    (fun _ _ _ => rfl) (fun f c t hf _ ht => agree_stable f c t hf ht) rfl ⟨_, rfl⟩ ⟨_, rfl⟩ rfl⟩

end Example

end Verif.Props
