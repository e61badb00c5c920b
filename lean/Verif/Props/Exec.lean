import Verif.Proof.ExecGoes
import Verif.Spec.ExecSample

/-!
# C38: what the format command does to files, and how it ends
-/

namespace Verif.Props

open Verif Str Exec

/-- C38: without `--overwrite` no file is written and every file keeps its content, however the
command ends. -/
theorem C38_read_only (h : Host) (o : Order) (srt : SortSlice) (args : List Str) (flags : FormatFlags)
    (hf : flags.overwrite = false) (w : World) :
    (formatCmd h o srt args flags w).1.disk = w.disk ∧
      (formatCmd h o srt args flags w).1.writes = w.writes := by
  have hfile : ∀ m f, Quiet (formatFile h srt flags m f) := by
    intro m f w
    rcases formatFile_effect h srt flags m f w with h1 | ⟨h1, _⟩
    · exact h1
    · rw [hf] at h1
      cases h1
  have hfiles : ∀ m fs s, Quiet (formatFiles h srt flags m fs s) := by
    intro m fs
    induction fs with
    | nil => exact fun s => quiet_pure s
    | cons f fs ih => exact fun s => quiet_bind (hfile m f) fun b => ih _
  have hcmd : Quiet (formatCmd h o srt args flags) := by
    unfold formatCmd
    split
    · exact quiet_exit _
    · refine quiet_bind (quiet_getMeta _ _) fun m => quiet_bind (quiet_compile _ _ _ _) fun _ => ?_
      refine quiet_bind (hfiles m _ _) fun b => ?_
      cases b
      · exact quiet_exit _
      · exact quiet_pure _
  exact hcmd w

theorem moreThanOneSet_three (a b c : Bool) :
    moreThanOneSet [a, b, c] = true ↔
      ¬(¬(a = true ∧ b = true) ∧ ¬(a = true ∧ c = true) ∧ ¬(b = true ∧ c = true)) := by
  revert a b c
  decide

/-- C38: two of the modes at once are an error, with nothing touched. -/
theorem C38_flags (h : Host) (o : Order) (srt : SortSlice) (args : List Str) (flags : FormatFlags)
    (hf : ¬flags.AtMostOne) (w : World) :
    formatCmd h o srt args flags w =
      (w, .error (.exit 255 s%"can only set one of overwrite, diff, lint")) := by
  unfold formatCmd
  rw [if_pos ((moreThanOneSet_three ..).2 hf)]
  rfl

/-- The command once the flags are known to be fine. -/
theorem formatCmd_eq {h : Host} {o : Order} {srt : SortSlice} {args : List Str} {flags : FormatFlags}
    (hf : flags.AtMostOne) : formatCmd h o srt args flags =
      Run.bind (getMeta h args) fun m =>
      Run.bind (compile h false false false m) fun _ => format h o srt flags m := by
  unfold formatCmd
  rw [if_neg fun x => (moreThanOneSet_three ..).1 x hf]

/-- C38: the command ends well exactly when the modes are compatible, the files compile, and every
file it is about can be read, is formatted without failure, and either is formatted already or
was overwritten. -/
theorem C38_exit_zero (h : Host) (hp : Prints h) (o : Order) (srt : SortSlice) (args : List Str)
    (flags : FormatFlags) (m : Meta) (hm : Finds h args m) (hd : Distinct m) (w : World) :
    (formatCmd h o srt args flags w).2 = .ok () ↔
      flags.AtMostOne ∧ ErrorFormatKnown h ∧ Compiles h {} m w.disk ∧
        ∀ f, Concerns h m f → ∃ content text, w.disk f.path = some content ∧
          Formats h srt flags.fix m f.path content text ∧
          (content = text ∨ flags.overwrite = true ∧ h.writeFile f.path text = .ok ()) := by
  rcases Classical.em (¬flags.AtMostOne) with hf | hf
  · rw [C38_flags h o srt args flags hf w]
    exact ⟨fun x => (by cases x), fun x => absurd x.1 hf⟩
  replace hf := Classical.not_not.1 hf
  have hgood : (∀ f ∈ formatList o m, Good h srt flags m w.disk f) ↔
      ∀ f, Concerns h m f → ∃ content text, w.disk f.path = some content ∧
          Formats h srt flags.fix m f.path content text ∧
          (content = text ∨ flags.overwrite = true ∧ h.writeFile f.path text = .ok ()) := by
    constructor
    · intro g f hc
      have := mem_formatList (o := o).2 hc
      exact (g f this.1).resolve_left this.2
    · intro g f hl
      by_cases hs : Skips h m f
      · exact .inl hs
      · exact .inr (g f (mem_formatList.1 ⟨hl, hs⟩))
  rw [formatCmd_eq hf, bind_of_ok (getMeta_ok.2 ⟨rfl, hm⟩), ← hgood]
  constructor
  · intro e
    obtain ⟨w1, r, e1, e2⟩ := bind_ok.1 (Prod.ext rfl e)
    obtain ⟨hk, hcomp, rfl⟩ := (compile_ok hp).1 e1
    exact ⟨hf, hk, ⟨r, hcomp⟩, (formatFiles_true srt flags m _ (nodup_formatList hd) true _ _
      (format_ok.1 e2)).2.1⟩
  · rintro ⟨_, hk, ⟨r, hcomp⟩, g⟩
    rw [bind_of_ok ((compile_ok (w' := w) hp).2 ⟨hk, hcomp, rfl⟩)]
    obtain ⟨w', e⟩ := formatFiles_good hp srt flags m _ (nodup_formatList hd) w g
    rw [format_ok.2 e]

/-- The only part of the command that touches files is `format`, on the world as it was. -/
theorem formatCmd_effect (h : Host) (o : Order) (srt : SortSlice) (args : List Str) (flags : FormatFlags)
    (w : World) :
    ((formatCmd h o srt args flags w).1.disk = w.disk ∧
        (formatCmd h o srt args flags w).1.writes = w.writes) ∨
      ∃ m w1, Finds h args m ∧ w1.disk = w.disk ∧ w1.writes = w.writes ∧
        formatCmd h o srt args flags w = format h o srt flags m w1 := by
  rcases Classical.em (¬flags.AtMostOne) with hf | hf
  · rw [C38_flags h o srt args flags hf w]
    exact .inl ⟨rfl, rfl⟩
  replace hf := Classical.not_not.1 hf
  rw [formatCmd_eq hf]
  rcases hg : getMeta h args w with ⟨w0, m | e | _⟩
  · obtain ⟨rfl, hm⟩ := getMeta_ok.1 hg
    rw [bind_of_ok hg]
    have hq := quiet_compile h false false m w0
    rcases hcp : compile h false false false m w0 with ⟨w1, r | e | _⟩
    · rw [hcp] at hq
      rw [bind_of_ok hcp]
      exact .inr ⟨m, w1, hm, hq.1, hq.2, rfl⟩
    · rw [hcp] at hq
      left
      unfold Run.bind
      rw [hcp]
      exact hq
    · rw [hcp] at hq
      left
      unfold Run.bind
      rw [hcp]
      exact hq
  · have hq := quiet_getMeta h args w
    rw [hg] at hq
    left
    unfold Run.bind
    rw [hg]
    exact hq
  · have hq := quiet_getMeta h args w
    rw [hg] at hq
    left
    unfold Run.bind
    rw [hg]
    exact hq

/-- C38: whatever is written is written in overwrite mode, once per file, to a file the command is
about whose content differed from its formatted text, and it is that text. This holds however the
command ends. -/
theorem C38_written (h : Host) (o : Order) (srt : SortSlice) (args : List Str)
    (flags : FormatFlags) (m : Meta) (hm : Finds h args m) (hd : Distinct m) (w : World) :
    ∃ new, (formatCmd h o srt args flags w).1.writes = w.writes ++ new ∧
      (new.map fun x => x.1).Nodup ∧
      ∀ path text, (path, text) ∈ new → flags.overwrite = true ∧
        ∃ f content, Concerns h m f ∧ f.path = path ∧ w.disk path = some content ∧
          Formats h srt flags.fix m path content text ∧ content ≠ text := by
  rcases formatCmd_effect h o srt args flags w with ⟨_, h2⟩ | ⟨m', w1, hm', hd1, hw1, e⟩
  · exact ⟨[], by rw [h2, List.append_nil], List.nodup_nil, fun _ _ x => absurd x List.not_mem_nil⟩
  · obtain rfl : m' = m := hm'.unique hm
    obtain ⟨new, e1, e2, e3, _⟩ :=
      formatFiles_effect h srt flags m' _ (nodup_formatList (o := o) hd) true w1
    refine ⟨new, by rw [e, format_world, e1, hw1], e2.nodup (nodup_formatList hd), ?_⟩
    intro p t hmem
    obtain ⟨ho, f, hf, hs, hfp, c, hc, hF, hne⟩ := e3 p t hmem
    exact ⟨ho, f, c, mem_formatList.1 ⟨hf, hs⟩, hfp, by rw [← hd1]; exact hc, hF, hne⟩

/-- C38: a file that changes was written in overwrite mode, and then holds its formatted text
unless the operating system failed to write it. -/
theorem C38_changed (h : Host) (o : Order) (srt : SortSlice) (args : List Str)
    (flags : FormatFlags) (m : Meta) (hm : Finds h args m) (hd : Distinct m) (w : World) (path : Str)
    (hc : (formatCmd h o srt args flags w).1.disk path ≠ w.disk path) :
    flags.overwrite = true ∧ ∃ f content text, Concerns h m f ∧ f.path = path ∧
      w.disk path = some content ∧ Formats h srt flags.fix m path content text ∧ content ≠ text ∧
      ((formatCmd h o srt args flags w).1.disk path = some text ∨
        ∃ e left, h.writeFile path text = .error (e, left) ∧
          (formatCmd h o srt args flags w).1.disk path = left) := by
  rcases formatCmd_effect h o srt args flags w with ⟨h1, _⟩ | ⟨m', w1, hm', hd1, hw1, e⟩
  · exact absurd (congrFun h1 path) hc
  · obtain rfl : m' = m := hm'.unique hm
    obtain ⟨new, _, _, e3, e4⟩ :=
      formatFiles_effect h srt flags m' _ (nodup_formatList (o := o) hd) true w1
    rw [e, format_world] at hc ⊢
    rcases e4 path with h4 | ⟨t, hmem, h4⟩
    · exact absurd (h4.trans (congrFun hd1 path)) hc
    · obtain ⟨ho, f, hf, hs, hfp, c, hcd, hF, hne⟩ := e3 path t hmem
      exact ⟨ho, f, c, t, mem_formatList.1 ⟨hf, hs⟩, hfp, by rw [← hd1]; exact hcd, hF, hne, h4⟩

/-- C38: after an overwriting run that ended well, every file the command is about holds its
formatted text. -/
theorem C38_overwritten (h : Host) (hp : Prints h) (o : Order) (srt : SortSlice) (args : List Str)
    (flags : FormatFlags) (hf : flags.overwrite = true) (m : Meta) (hm : Finds h args m)
    (hd : Distinct m) (w : World) (hok : (formatCmd h o srt args flags w).2 = .ok ())
    (f : File.ProtoFile) (hc : Concerns h m f) :
    ∃ content text, w.disk f.path = some content ∧ Formats h srt flags.fix m f.path content text ∧
      (formatCmd h o srt args flags w).1.disk f.path = some text := by
  have ha := ((C38_exit_zero h hp o srt args flags m hm hd w).1 hok).1
  rw [formatCmd_eq ha, bind_of_ok (getMeta_ok.2 ⟨rfl, hm⟩)] at hok ⊢
  obtain ⟨w1, r, e1, e2⟩ := bind_ok.1 (Prod.ext rfl hok)
  obtain ⟨_, _, rfl⟩ := (compile_ok hp).1 e1
  have hl := mem_formatList (o := o).2 hc
  obtain ⟨c, t, h1, h2, h3⟩ :=
    (formatFiles_true srt flags m _ (nodup_formatList hd) true _ _ (format_ok.1 e2)).2.2 f hl.1 hl.2
  rw [if_pos hf] at h3
  exact ⟨c, t, h1, h2, h3⟩

/-- C38: after an overwriting run that ended well, a second one writes nothing, if formatting the
formatted text of every file gives that text again. -/
theorem C38_again (h : Host) (hp : Prints h) (o o' : Order) (srt : SortSlice) (args : List Str)
    (flags : FormatFlags) (hf : flags.overwrite = true) (m : Meta) (hm : Finds h args m)
    (hd : Distinct m) (w : World) (hok : (formatCmd h o srt args flags w).2 = .ok ())
    (stable : ∀ f content text, Concerns h m f → w.disk f.path = some content →
      Formats h srt flags.fix m f.path content text → Formats h srt flags.fix m f.path text text)
    (w' : World) (hw : w'.disk = (formatCmd h o srt args flags w).1.disk) :
    (formatCmd h o' srt args flags w').1.writes = w'.writes ∧
      (formatCmd h o' srt args flags w').1.disk = w'.disk ∧
      (Compiles h {} m w'.disk → (formatCmd h o' srt args flags w').2 = .ok ()) := by
  have key : ∀ f, Concerns h m f → ∃ t, w'.disk f.path = some t ∧ Formats h srt flags.fix m f.path t t := by
    intro f hc
    obtain ⟨c, t, h1, h2, h3⟩ := C38_overwritten h hp o srt args flags hf m hm hd w hok f hc
    exact ⟨t, by rw [hw]; exact h3, stable f c t hc h1 h2⟩
  refine ⟨?_, ?_, ?_⟩
  · obtain ⟨new, h1, _, h2⟩ := C38_written h o' srt args flags m hm hd w'
    rcases new with _ | ⟨⟨p, t⟩, new⟩
    · rw [h1, List.append_nil]
    · obtain ⟨_, f, c, hc, rfl, hcd, hF, hne⟩ := h2 p t (List.mem_cons_self ..)
      obtain ⟨t', h3, h4⟩ := key f hc
      rw [hcd] at h3
      cases h3
      exact absurd (h4.unique hF) hne
  · funext p
    rcases Classical.em ((formatCmd h o' srt args flags w').1.disk p = w'.disk p) with h1 | h1
    · exact h1
    · obtain ⟨_, f, c, t, hc, rfl, hcd, hF, hne, _⟩ := C38_changed h o' srt args flags m hm hd w' p h1
      obtain ⟨t', h3, h4⟩ := key f hc
      rw [hcd] at h3
      cases h3
      exact absurd (h4.unique hF) hne
  · intro hcomp
    have h0 := (C38_exit_zero h hp o srt args flags m hm hd w).1 hok
    refine (C38_exit_zero h hp o' srt args flags m hm hd w').2 ⟨h0.1, h0.2.1, hcomp, ?_⟩
    intro f hc
    obtain ⟨t, h3, h4⟩ := key f hc
    exact ⟨t, t, h3, h4, .inl rfl⟩

/-- C38: if the files compile and can be read, parsed, compared and written, the command ends
well or with exit code 255 and no further message: there was a failure or a difference. -/
theorem C38_exit_255 (h : Host) (hp : Prints h) (hc : CanPrint h) (o : Order) (srt : SortSlice)
    (args : List Str) (flags : FormatFlags) (hf : flags.AtMostOne) (m : Meta) (hm : Finds h args m)
    (hd : Distinct m) (w : World) (hcomp : Compiles h {} m w.disk)
    (smooth : ∀ f, Concerns h m f → ∃ content elements text failures,
      w.disk f.path = some content ∧ h.parse f.path content = .ok elements ∧
      Format.transform srt (formatsAs flags.fix m.protoSet.config.lint f.path) elements =
        .ok (text, failures) ∧
      (flags.overwrite = true → h.writeFile f.path text = .ok ()) ∧
      (flags.diffMode = true → ∃ s, h.diff content text f.displayPath = .ok s)) :
    (formatCmd h o srt args flags w).2 = .ok () ∨
      (formatCmd h o srt args flags w).2 = .error (.exit 255 []) := by
  obtain ⟨r, hcomp⟩ := hcomp
  rw [formatCmd_eq hf, bind_of_ok (getMeta_ok.2 ⟨rfl, hm⟩),
    bind_of_ok ((compile_ok (w' := w) hp).2 ⟨hc.1, hcomp, rfl⟩)]
  obtain ⟨w', b, e⟩ := formatFiles_goes hp hc srt flags m _ (nodup_formatList (o := o) hd) true w (by
    intro f hl
    by_cases hs : Skips h m f
    · exact .inl hs
    · obtain ⟨c, es, t, fs, h1, h2, h3, h4⟩ := smooth f (mem_formatList.1 ⟨hl, hs⟩)
      refine .inr ⟨c, t, fs, h1, ?_, h4⟩
      unfold transform
      have hn : (formatParams flags.fix m f.path).filename = f.path := rfl
      rw [hn, h2]
      exact formatsAs_eq flags.fix m f.path ▸ h3)
  show (Run.bind (formatFiles h srt flags m (formatList o m) true) _ w).2 = _ ∨
    (Run.bind (formatFiles h srt flags m (formatList o m) true) _ w).2 = _
  rw [bind_of_ok e]
  cases b
  · exact .inr rfl
  · exact .inl rfl

/-- C38: in the plain mode the command prints the formatted text of every file it is about, and
nothing else. -/
theorem C38_prints (h : Host) (hp : Prints h) (he : ErrorFormatKnown h) (o : Order) (srt : SortSlice)
    (args : List Str) (flags : FormatFlags) (hf : flags.plain) (m : Meta) (hm : Finds h args m)
    (w : World) (hcomp : Compiles h {} m w.disk) (text : Str → Str)
    (ht : ∀ f, Concerns h m f → ∃ content, w.disk f.path = some content ∧
      Formats h srt flags.fix m f.path content (text f.path)) :
    ∃ files : List File.ProtoFile, (∀ f, f ∈ files ↔ Concerns h m f) ∧
      (formatCmd h o srt args flags w).1.out = w.out ++ files.flatMap fun f => text f.path := by
  have ha : flags.AtMostOne := by
    obtain ⟨h1, h2, h3⟩ := hf
    simp [FormatFlags.AtMostOne, h1, h2]
  obtain ⟨r, hcomp⟩ := hcomp
  refine ⟨(formatList o m).filter fun f => decide (¬Skips h m f), fun f => ?_, ?_⟩
  · rw [List.mem_filter, ← mem_formatList (o := o)]
    exact and_congr_right fun _ => decide_eq_true_iff
  · rw [formatCmd_eq ha, bind_of_ok (getMeta_ok.2 ⟨rfl, hm⟩),
      bind_of_ok ((compile_ok (w' := w) hp).2 ⟨he, hcomp, rfl⟩), format_world]
    obtain ⟨b, e⟩ := formatFiles_plain hp srt flags hf m w.disk text (formatList o m)
      (fun f hl hs => ht f (mem_formatList.1 ⟨hl, hs⟩)) true w rfl
    rw [e]

/-! ## An example that meets the hypotheses -/

section Example

open Exec.Sample

example : Prints host := fun _ _ => rfl
example : CanPrint host := ⟨⟨_, rfl⟩, fun x => by cases x⟩
example : Finds host [s%"a"] dir := ⟨s%"a", .inl rfl, .inl ⟨rfl, rfl, rfl⟩⟩
example : Distinct dir := by unfold Distinct; decide +kernel
example : Compiles host {} dir world.disk := ⟨[], rfl⟩
example : Concerns host dir ⟨s%"/w/a/two.proto", s%"a/two.proto"⟩ :=
  ⟨⟨s%"/w/a", _, List.mem_cons_self .., by decide +kernel, List.mem_cons_of_mem _ (List.mem_cons_self ..)⟩, .inl rfl⟩

/-- Overwriting writes the files that are not formatted yet, and ends well. -/
example : (formatCmd host .id .stable [s%"a"] { overwrite := true } world).1.writes =
      [(s%"/w/a/two.proto", s%"syntax = \"proto3\";\n"), (s%"/w/ab/next.proto", s%"syntax = \"proto3\";\n")] ∧
    (formatCmd host .id .stable [s%"a"] { overwrite := true } world).2 = .ok () := by decide +kernel

/-- For a single file only that file is written. -/
example : (formatCmd host .id .stable [s%"a/two.proto"] { overwrite := true } world).1.writes =
      [(s%"/w/a/two.proto", s%"syntax = \"proto3\";\n")] ∧
    (formatCmd host .id .stable [s%"a/two.proto"] { overwrite := true } world).2 = .ok () := by
  decide +kernel

/-- The other modes end with exit code 255. -/
example : (formatCmd host .id .stable [s%"a"] { lintMode := true } world).1.out =
      s%"a/two.proto:1:1:Format returned a diff.\nab/next.proto:1:1:Format returned a diff.\n" ∧
    (formatCmd host .id .stable [s%"a"] { lintMode := true } world).2 = .error (.exit 255 []) := by
  decide +kernel
example : (formatCmd host .id .stable [s%"a"] { diffMode := true } world).1.out =
      s%"--- a/two.proto\n--- ab/next.proto\n" ∧
    (formatCmd host .id .stable [s%"a"] { diffMode := true } world).2 = .error (.exit 255 []) := by
  decide +kernel
example : (formatCmd host .id .stable [s%"a"] {} world).1.out =
      s%"syntax = \"proto3\";\nsyntax = \"proto3\";\nsyntax = \"proto3\";\n" := by
  decide +kernel

end Example

end Verif.Props
