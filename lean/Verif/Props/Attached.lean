import Verif.Proof.AttachedAgain
import Verif.Props.Comments
import Verif.Props.FormatFix

/-!
# C97: formatting leaves each comment on its declaration

`readWithComments` reads a text and gives each comment to the declaration below it or in front of
it, or to none. It knows nothing of the formatter.

The theorem is about files where the comments behind statements are one line each (`ShortAll`): of a
longer one the formatter prints the other lines below the statement, where they belong to it no
more (`C97_not`). The comment above the syntax statement is set off by an empty line, so that it is
a comment by itself (`setOff`).
-/

namespace Verif.Props

open Verif Str Proto Spec Format Create

/-- **The text of a formatted file reads as the declarations of the file with their comments**, each
on the declaration it was on, in the order of the formatter. -/
theorem C97_attached_partial (srt : SortSlice) (q : Params) (hq : q.fix = fixNone) (es : List Element)
    (hf : FileFits es) (hone : OneLine es) (ho : AllOutside es) (hs : ShortAll es)
    (text : Str) (h : transform srt q es = .ok (text, [])) :
    ∃ (sort : List Opt → List Opt) (imports : List Import),
      (∀ l, (sort l).Perm l ∧ OptionsInOrder (sort l)) ∧
      imports.Perm (importsAmong es) ∧ ImportsInOrder imports ∧
      readWithComments text = some (shownAll (setOff (tidyFile sort (fun _ => imports) es))) := by
  refine ⟨sortOpts srt, sortImps srt (importsAmong es),
    fun l => ⟨srt.perm _ l, srt.sorted _ l (SWO.str.on Opt.name)⟩, srt.perm _ _,
    srt.sorted _ _ (SWO.str.on Import.filename), ?_⟩
  exact shows_transform hq hf hone ho hs h

/-- With `--fix` and no header it reads as the file with the managed options replaced
(`fixedFile`). -/
theorem C97_fix_partial (srt : SortSlice) (q : Params) (hq : q.fix = fixV1 ∨ q.fix = fixV2)
    (hh : q.fileHeader = []) (hn : Quotable q.filename) (hj : Quotable q.javaPackagePrefix)
    (es : List Element) (hp : packagesAmong es ≠ []) (hf : FileFits es) (hone : OneLine es)
    (ho : AllOutside es) (hs : ShortAll es) (text : Str) (h : transform srt q es = .ok (text, [])) :
    ∃ (sort : List Opt → List Opt) (imports : List Import),
      (∀ l, (sort l).Perm l ∧ OptionsInOrder (sort l)) ∧
      imports.Perm (importsAmong es) ∧ ImportsInOrder imports ∧
      readWithComments text =
        some (shownAll (setOff (tidyFile sort (fun _ => imports) (fixedFile q es)))) := by
  rw [C37_rewritten srt q hq hh es hp] at h
  have := C97_attached_partial srt _ rfl (fixedFile q es) (fits_fixed (fun _ => ⟨hn, hj⟩) hf)
    (oneLine_fixed (fun h => (hj _ h).2.2 rfl) hone) (outside_fixed ho) (short_fixed hs) text h
  rw [fixed_imports] at this
  exact this

/-- **Formatting what has been formatted changes nothing**, comments included: reading the text with
its comments and formatting that gives the text again. -/
theorem C97_again_partial (srt : SortSlice) (q : Params) (hq : q.fix = fixNone) (es : List Element)
    (hf : FileFits es) (hone : OneLine es) (hout : AllOutside es) (hs : ShortAll es) (hsp : AllSpoken es)
    (ho : ∀ l ∈ sortedLists es, (l.map (·.name)).Nodup)
    (hi : ((importsAmong es).map (·.filename)).Nodup)
    (text : Str) (h : transform srt q es = .ok (text, [])) :
    ∃ read, readWithComments text = some read ∧ transform srt q read = .ok (text, []) := by
  refine ⟨_, shows_transform hq hf hone hout hs h, ?_⟩
  have hX : transform srt q (tidyFile (sortOpts srt) (sortImps srt) es) = .ok (text, []) := by
    rw [C36_distinct srt q hq es ho hi, h]
  refine again_tidied (.inl hq) (.inl hq) (syntaxes_transform (.inl hq) h) hsp ?_
    (fun l hl => ho l (List.mem_cons_of_mem _ hl)) hi hX
  have : optionsOf q (tidyFile (sortOpts srt) (sortImps srt) es) =
      optionsAmong (tidyFile (sortOpts srt) (sortImps srt) es) := by
    unfold optionsOf
    rw [if_pos hq]
  rw [this, tidyFile_options]
  exact ((srt.perm _ _).map _).nodup_iff.2 (ho _ (List.mem_cons_self ..))

/-! ## Comments behind statements that are longer -/

/-- A field with a comment of two lines behind it. -/
def longBehind : List Element :=
  [.syntax { value := s%"proto3" },
   .message { name := s%"M" }
     [.normalField { field := { name := s%"id", type := s%"string", sequence := 1
                                inlineComment := some (says [s%" unique", s%" and more"]) } },
      .normalField { field := { name := s%"x", type := s%"string", sequence := 2 } }]]

theorem longBehind_fits : FileFits longBehind := by
  intro b hb
  obtain rfl : false = b := Option.some.inj hb
  unfold longBehind says
  simp only [ElementsFit, ElementFits, fieldFits_iff, optionsFit_nil]
  simp only [CommentFits, IsWord, LabelFits, if_true]
  repeat' apply And.intro
  all_goals first | trivial | decide +kernel | (simp [holdsMessages]; done) | simp

/-- Its formatted text. -/
def longBehindText : Str :=
  s%"syntax = \"proto3\";\n\nmessage M {\n  string id = 1; // unique\n  // and more\n  string x = 2;\n}\n"

/-- The tokens of the text. -/
theorem longBehind_placed : lexPlaced 1 .between longBehindText = some
    [(1, .word s%"syntax"), (1, .sym '='), (1, .str '"' s%"proto3"), (1, .sym ';'),
     (3, .word s%"message"), (3, .word s%"M"), (3, .sym '{'),
     (4, .word s%"string"), (4, .word s%"id"), (4, .sym '='), (4, .word s%"1"), (4, .sym ';'),
     (4, .comment s%" unique"), (5, .comment s%" and more"),
     (6, .word s%"string"), (6, .word s%"x"), (6, .sym '='), (6, .word s%"2"), (6, .sym ';'),
     (7, .sym '}')] := by
  decide +kernel

set_option maxRecDepth 100000 in
/-- The second line of a comment behind a field goes to the field below. -/
theorem C97_not : ∃ es text, FileFits es ∧ AllOutside es ∧
    transform .stable plainly es = .ok (text, []) ∧
    readWithComments text = some
      [.syntax { value := s%"proto3" },
       .message { name := s%"M" }
         [.normalField { field := { name := s%"id", type := s%"string", sequence := 1
                                    inlineComment := some (remark [s%" unique"]) } },
          .normalField { field := { name := s%"x", type := s%"string", sequence := 2
                                    comment := some (remark [s%" and more"]) } }]] :=
  ⟨longBehind, longBehindText, longBehind_fits, by simp [longBehind, AllOutside, CommentsOutside], by rfl,
    by unfold readWithComments; rw [longBehind_placed]; rfl⟩

/-! ## The theorems are about something -/

/-- A file with comments in many places, also above the syntax statement. -/
def remarked : List Element :=
  [.comment (says [s%" A licence.", s%"", s%" Two lines."]),
   .syntax { value := s%"proto2", comment := some (says [s%"/ Odd."]), inlineComment := some (says [s%" old"]) },
   .import { filename := s%"b.proto", comment := some (says [s%" for B"]) },
   .import { filename := s%"a.proto", comment := some (says [s%"/ for A  "]) },
   .comment (says [s%" Between."]),
   .message { name := s%"M", comment := some (says [s%" A message.", s%" Two lines."]) }
     [.comment (says [s%" Fields."]),
      .normalField { required := true, field := { annotatedField with inlineComment := some (says [s%" unique "]) } },
      .comment (says [s%" No more."])],
   .service { name := s%"S" } [.rpc annotatedRPC [.option annotatedOption]]]

theorem remarked_fits : FileFits remarked := by
  intro b hb
  obtain rfl : true = b := Option.some.inj hb
  unfold remarked annotatedField annotatedRPC annotatedOption says
  simp only [ElementsFit, ElementFits, fieldFits_iff, onlyOption_cons, onlyOption_nil, optionsFit_cons,
    optionsFit_nil, OnlyOption]
  simp only [optionFits_iff, CommentFits, IsWord, IsName, LabelFits, Literal.plain, if_true]
  repeat' apply And.intro
  all_goals first | trivial | decide +kernel | (simp [holdsMessages]; done) | (simp [ValueFits, IsWord]; decide +kernel)

theorem remarked_outside : AllOutside remarked := by
  simp [remarked, annotatedField, AllOutside, CommentsOutside, NoComments]

theorem remarked_short : ShortAll remarked := by
  simp [remarked, annotatedField, annotatedRPC, annotatedOption, ShortAll, ShortIn, ShortComment, commentStrings, says]

theorem remarked_oneLine : OneLine remarked := by
  unfold OneLine
  decide +kernel

theorem remarked_formatted : ∃ text, transform .stable plainly remarked = .ok (text, []) := by
  have h : (transform .stable plainly remarked).toOption.map (·.2) = some [] := by decide +kernel
  revert h
  cases transform .stable plainly remarked with
  | error _ => exact fun h => nomatch h
  | ok r => exact fun h => ⟨r.1, congrArg Except.ok (Prod.ext rfl (Option.some.inj h))⟩

set_option maxRecDepth 100000 in
/-- The comment above the syntax statement is by itself, and each other one where it was. -/
example : ∃ text, transform .stable plainly remarked = .ok (text, []) ∧ readWithComments text = some
    [.comment (remark [s%" A licence.", s%"", s%" Two lines."]),
     .comment (remark [s%" Odd."]),
     .syntax { value := s%"proto2", inlineComment := some (remark [s%" old"]) },
     .import { filename := s%"a.proto", comment := some (remark [s%" for A"]) },
     .import { filename := s%"b.proto", comment := some (remark [s%" for B"]) },
     .comment (remark [s%" Between."]),
     .message { name := s%"M", comment := some (remark [s%" A message.", s%" Two lines."]) }
       [.comment (remark [s%" Fields."]),
        .normalField { required := true
                       field := { name := s%"id", type := s%"string", sequence := 1
                                  comment := some (remark [s%" The id."])
                                  inlineComment := some (remark [s%" unique"])
                                  options := [{ name := s%"deprecated", constant := .plain s%"true" }] } },
        .comment (remark [s%" No more."])],
     .service { name := s%"S" }
       [.rpc { name := s%"Get", requestType := s%"M", returnsType := s%"M"
               comment := some (remark [s%" Gets it."]) }
         [.option { name := s%"deprecated", constant := .plain s%"true"
                    comment := some (remark [s%" Use Put."]) }]]] := by
  obtain ⟨text, h⟩ := remarked_formatted
  exact ⟨text, h, shows_transform rfl remarked_fits remarked_oneLine remarked_outside remarked_short h⟩

/-- A file `--fix` is asked to change. -/
example : (transform .stable ⟨s%"m.proto", fixV2, [], []⟩
    (remarked ++ [.package { name := s%"m", comment := some (says [s%" Packed."]) }])).toOption.map (·.2) = some [] := by
  decide +kernel

end Verif.Props
