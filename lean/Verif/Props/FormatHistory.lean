import Verif.Props.Canonical
import Verif.Props.Exec

/-!
# C38: format, and then format again
-/

namespace Verif.Props

open Verif Str Exec Spec

/-- The parser reads a formatted text as `readWithComments` does, with positions. -/
def ParsesBack (h : Host) (path text : Str) : Prop :=
  ∀ read, readWithComments text = some read → ∃ es, h.parse path text = .ok es ∧ placelessAll es = read

/-- A file whose content is its formatted text: the command goes on and changes nothing. -/
theorem formatFile_settled {h : Host} {srt : SortSlice} {flags : FormatFlags} (hf : ¬flags.plain) {m : Meta}
    {f : File.ProtoFile} {w : World}
    (g : Skips h m f ∨ ∃ t, w.disk f.path = some t ∧ Formats h srt flags.fix m f.path t t) :
    formatFile h srt flags m f w = (w, .ok true) := by
  unfold formatFile
  by_cases hs : Skips h m f
  · rw [if_pos hs]
    rfl
  rw [if_neg hs]
  obtain ⟨t, hd, hF⟩ := g.resolve_left hs
  have hr : Exec.readFile h f.path w = (w, .ok t) := by unfold Exec.readFile; rw [hd]
  rw [bind_of_ok hr, Exec.transform_eq.2 hF,
    bind_of_ok (show Run.lift (.ok (t, [])) w = (w, .ok (t, [])) from rfl)]
  dsimp only
  rw [if_neg (by simp), if_neg (Decidable.not_not.2 rfl), if_neg ?_]
  · rfl
  · intro hp
    apply hf
    unfold FormatFlags.plain
    revert hp
    cases flags.overwrite <;> cases flags.lintMode <;> cases flags.diffMode <;> simp

theorem formatFiles_settled {h : Host} {srt : SortSlice} {flags : FormatFlags} (hf : ¬flags.plain) {m : Meta}
    {fs : List File.ProtoFile} {w : World}
    (g : ∀ f ∈ fs, Skips h m f ∨ ∃ t, w.disk f.path = some t ∧ Formats h srt flags.fix m f.path t t) :
    formatFiles h srt flags m fs true w = (w, .ok true) := by
  induction fs with
  | nil => rfl
  | cons f fs ih =>
    unfold formatFiles
    rw [bind_of_ok (formatFile_settled hf (g f (List.mem_cons_self ..)))]
    exact ih fun k hk => g k (List.mem_cons_of_mem _ hk)

/-- C38: if the files are formatted, `format` with `--overwrite`, `--lint` or `--diff` ends well, prints
nothing and writes nothing. -/
theorem C38_clean (h : Host) (hp : Prints h) (hk : ErrorFormatKnown h) (o : Order) (srt : SortSlice) (args : List Str)
    (flags : FormatFlags) (hone : flags.AtMostOne) (hf : ¬flags.plain) (m : Meta) (hm : Finds h args m) (w : World)
    (hc : Compiles h {} m w.disk)
    (hs : ∀ f, Concerns h m f → ∃ t, w.disk f.path = some t ∧ Formats h srt flags.fix m f.path t t) :
    formatCmd h o srt args flags w = (w, .ok ()) := by
  obtain ⟨r, hc⟩ := hc
  rw [formatCmd_eq hone, bind_of_ok (getMeta_ok.2 ⟨rfl, hm⟩), bind_of_ok ((compile_ok (w' := w) hp).2 ⟨hk, hc, rfl⟩)]
  refine format_ok.2 (formatFiles_settled hf fun f hl => ?_)
  by_cases hskip : Skips h m f
  · exact .inl hskip
  · exact .inr (hs f (mem_formatList.1 ⟨hl, hskip⟩))

theorem formatsAs_known (fix : Bool) (config : Settings.LintConfig) (path : Str) :
    (formatsAs fix config path).fix = Format.fixNone ∨ (formatsAs fix config path).fix = Format.fixV1 ∨
      (formatsAs fix config path).fix = Format.fixV2 := by
  unfold formatsAs
  cases fix
  · exact .inl rfl
  · rw [if_pos rfl]
    dsimp only
    split
    · exact .inr (.inr rfl)
    · exact .inr (.inl rfl)

/-- The formatted text of a regular file is formatted to itself. -/
theorem formats_again {h : Host} {srt : SortSlice} {fix : Bool} {m : Meta} {path content text : Str}
    {es : List Proto.Element} (he : h.parse path content = .ok es)
    (hr : Regular (formatsAs fix m.protoSet.config.lint path) es)
    (ht : Formats h srt fix m path content text) (hb : ParsesBack h path text) :
    Formats h srt fix m path text text := by
  obtain ⟨es', h1, h2⟩ := ht
  rw [he] at h1
  cases h1
  obtain ⟨X, hX, -, -⟩ := regular_read (formatsAs_known ..) hr h2
  obtain ⟨parsed, h3, h4⟩ := hb _ hX
  exact ⟨parsed, h3, C98_again_partial srt _ (formatsAs_known ..) es hr text h2 parsed (by rw [h4]; exact hX)⟩

/-- C38: **after an overwriting run that ended well, `format` in any other mode ends well, prints nothing
and writes nothing**, for files whose comments the formatter keeps where they are and whose names are
distinct, if they still compile. -/
theorem C38_settled (h : Host) (hp : Prints h) (o o' : Order) (srt : SortSlice) (args : List Str)
    (flags : FormatFlags) (hf : flags.overwrite = true) (m : Meta) (hm : Finds h args m)
    (hd : Distinct m) (w : World) (hok : (formatCmd h o srt args flags w).2 = .ok ())
    (regular : ∀ f content, Concerns h m f → w.disk f.path = some content →
      ∃ es, h.parse f.path content = .ok es ∧ Regular (formatsAs flags.fix m.protoSet.config.lint f.path) es)
    (back : ∀ f content text, Concerns h m f → w.disk f.path = some content →
      Formats h srt flags.fix m f.path content text → ParsesBack h f.path text)
    (flags' : FormatFlags) (hone : flags'.AtMostOne) (hnp : ¬flags'.plain) (hfix : flags'.fix = flags.fix)
    (w' : World) (hw : w'.disk = (formatCmd h o srt args flags w).1.disk) (hc : Compiles h {} m w'.disk) :
    formatCmd h o' srt args flags' w' = (w', .ok ()) := by
  have h0 := (C38_exit_zero h hp o srt args flags m hm hd w).1 hok
  refine C38_clean h hp h0.2.1 o' srt args flags' hone hnp m hm w' hc fun f hcon => ?_
  obtain ⟨c, t, h1, h2, h3⟩ := C38_overwritten h hp o srt args flags hf m hm hd w hok f hcon
  obtain ⟨es, he, hr⟩ := regular f c hcon h1
  exact ⟨t, by rw [hw]; exact h3, hfix ▸ formats_again he hr h2 (back f c t hcon h1 h2)⟩

/-! ## An example that meets the hypotheses -/

section Example

open Exec.Sample

theorem bare_regular (path : Str) :
    Regular (formatsAs false dir.protoSet.config.lint path) [.syntax { value := s%"proto3" }] where
  fits := by
    intro b hb
    simp only [ElementsFit, ElementFits, CommentFits, Proto.Comment]
    decide +kernel
  oneLine := by unfold OneLine; decide +kernel
  outside := by simp [AllOutside, CommentsOutside]
  short := by simp [ShortAll, ShortIn, ShortComment, commentStrings]
  spoken := by simp [AllSpoken, Spoken]
  imports := by decide +kernel
  options := List.nodup_nil
  inside := by decide +kernel
  package := fun h => absurd rfl h
  quotable := fun h => absurd rfl h
  header := fun h => absurd rfl h

theorem bare_placed : lexPlaced 1 .between s%"syntax = \"proto3\";\n" = some
    [(1, .word s%"syntax"), (1, .sym '='), (1, .str '"' s%"proto3"), (1, .sym ';')] := by decide +kernel

example : ParsesBack host s%"/w/a/one.proto" s%"syntax = \"proto3\";\n" := by
  intro read hr
  refine ⟨_, rfl, ?_⟩
  have : readWithComments s%"syntax = \"proto3\";\n" = some (placelessAll [.syntax { value := s%"proto3" }]) := by
    unfold readWithComments
    rw [bare_placed]
    rfl
  exact Option.some.inj (this.symm.trans hr)

/-- `format --overwrite` and then `format --lint`. -/
example : formatCmd host .id .stable [s%"a"] { lintMode := true }
      { world with disk := (formatCmd host .id .stable [s%"a"] { overwrite := true } world).1.disk } =
    ({ world with disk := (formatCmd host .id .stable [s%"a"] { overwrite := true } world).1.disk }, .ok ()) := by
  rfl

end Example

end Verif.Props
