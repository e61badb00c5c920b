import Verif.Proof.ReformatRead
import Verif.Proof.CreatedLint
import Verif.Props.Attached
import Verif.Props.LintComments
import Verif.Props.Reformat

/-!
# C90: lint after formatting, with comments

`C90_no_more_partial` assumes which comment is above each declaration after formatting. Here the
formatted text is read, with its comments, by `readWithComments`.
-/

namespace Verif.Props

open Verif Str Proto Spec Format Lint Reform

/-- **Lint finds no more in the formatted text**: every rule except the two about how comments are
written reports at most as many failures in what is read from the formatted texts of the files of a
directory as in the files. -/
theorem C90_read_partial (srt : SortSlice) (q : Params) (hq : q.fix = fixNone) (env : Env)
    (l : Linter) (hl : l ∈ allLinters env) (hstyle : l.id ∉ styleRules)
    (dirPath : Str) (ds ds' : List FileDescriptor) (h : Pointwise (ReadBack srt q) ds ds')
    (hends : l.id ∈ openingRules → ∀ d ∈ ds, CleanEnds d)
    (hlines : l.id = s%"REQUEST_RESPONSE_TYPES_AFTER_SERVICE" → ∀ d ∈ ds ++ ds', Lined d) :
    ∃ fs gs, l.check dirPath ds = some (.ok fs) ∧ l.check dirPath ds' = some (.ok gs) ∧
      gs.length ≤ fs.length :=
  C90_no_more_partial env l hl hstyle dirPath ds ds' (pointwise_files (fun _ _ h => reprinted_back hq h) h)
    hends hlines

theorem back_right {R : FileDescriptor → FileDescriptor → Prop} {ds ds' : List FileDescriptor}
    (h : Pointwise R ds ds') : ∀ d' ∈ ds', ∃ d, R d d' := by
  induction h with
  | nil => exact fun d' hd => nomatch hd
  | cons hr _ ih =>
    intro d' hd
    rcases List.mem_cons.1 hd with rfl | hd
    · exact ⟨_, hr⟩
    · exact ih d' hd

/-- **Formatting leaves no `/* */` comment**: the rule about them is silent on what is read from the
formatted texts. -/
theorem C90_no_c_style (srt : SortSlice) (q : Params) (hq : q.fix = fixNone) (dirPath : Str)
    (ds ds' : List FileDescriptor) (h : Pointwise (ReadBack srt q) ds ds') :
    commentsNoCStyleLinter.check dirPath ds' = some (.ok []) := by
  refine (Created.silent C55_comments_no_c_style dirPath ds').2 fun d' hd => ?_
  obtain ⟨d, hr⟩ := back_right h d' hd
  refine List.flatMap_eq_nil_iff.2 fun n hn => ?_
  obtain ⟨h1, h2⟩ := slashed_back hq hr n hn
  rw [List.map_eq_nil_iff, List.filter_eq_nil_iff]
  intro c hc
  obtain ⟨o, ho, rfl⟩ := List.mem_filterMap.1 hc
  have : c.cstyle = false := by
    rcases List.mem_cons.1 ho with ho | ho
    · exact h1 c ho.symm
    · exact h2 c (List.mem_singleton.1 ho).symm
  simp [this]

/-! ## The theorems are about something -/

/-- What is read from the text of `remarked`, where the message begins on line 12. -/
def remarkedAgain : List Element :=
  [.comment (remark [s%" A licence.", s%"", s%" Two lines."]),
   .comment (remark [s%" Odd."]),
   .syntax { value := s%"proto2", inlineComment := some (remark [s%" old"]) },
   .import { filename := s%"a.proto", comment := some (remark [s%" for A"]) },
   .import { filename := s%"b.proto", comment := some (remark [s%" for B"]) },
   .comment (remark [s%" Between."]),
   .message { name := s%"M", position := Sample.at_ 12 1
              comment := some (remark [s%" A message.", s%" Two lines."]) }
     [.comment (remark [s%" Fields."]),
      .normalField { required := true
                     field := { name := s%"id", type := s%"string", sequence := 1
                                comment := some (remark [s%" The id."])
                                inlineComment := some (remark [s%" unique"])
                                options := [{ name := s%"deprecated", constant := .plain s%"true" }] } },
      .comment (remark [s%" No more."])],
   .service { name := s%"S" }
     [.rpc { name := s%"Get", requestType := s%"M", returnsType := s%"M"
             comment := some (remark [s%" Gets it."]) }
       [.option { name := s%"deprecated", constant := .plain s%"true"
                  comment := some (remark [s%" Use Put."]) }]]]

set_option maxRecDepth 100000 in
example : ReadBack .stable plainly (Sample.file s%"m.proto" remarked) (Sample.file s%"m.proto" remarkedAgain) where
  filename := rfl
  config := rfl
  fits := remarked_fits
  oneLine := remarked_oneLine
  outside := remarked_outside
  short := remarked_short
  wellBefore := ⟨⟨s%"m", rfl⟩, by decide +kernel, plainSources_of (by decide +kernel), by decide +kernel, by decide +kernel⟩
  wellAfter := ⟨⟨s%"m", rfl⟩, by decide +kernel, plainSources_of (by decide +kernel), by decide +kernel, by decide +kernel⟩
  text := by
    obtain ⟨text, h⟩ := remarked_formatted
    exact ⟨text, h, shows_transform rfl remarked_fits remarked_oneLine remarked_outside remarked_short h⟩

/-- ```
/* A message. */
message M {}
``` -/
def styled : List Element :=
  [.syntax { value := s%"proto3" },
   .message { name := s%"M", comment := some { position := {}, lines := [s%" A message. "], cstyle := true } } []]

def styledAgain : List Element :=
  [.syntax { value := s%"proto3" }, .message { name := s%"M", comment := some (remark [s%" A message."]) } []]

def styledText : Str := s%"syntax = \"proto3\";\n\n// A message.\nmessage M {}\n"

theorem styled_placed : lexPlaced 1 .between styledText = some
    [(1, .word s%"syntax"), (1, .sym '='), (1, .str '"' s%"proto3"), (1, .sym ';'),
     (3, .comment s%" A message."), (4, .word s%"message"), (4, .word s%"M"), (4, .sym '{'), (4, .sym '}')] := by
  decide +kernel

set_option maxRecDepth 100000 in
theorem styled_back : ReadBack .stable plainly (Sample.file s%"m.proto" styled) (Sample.file s%"m.proto" styledAgain) where
  filename := rfl
  config := rfl
  fits := by
    intro b hb
    obtain rfl : false = b := Option.some.inj hb
    simp only [Sample.file, styled, ElementsFit, ElementFits, CommentFits, IsWord, IsName]
    repeat' apply And.intro
    all_goals first | trivial | decide +kernel
  oneLine := by unfold OneLine; decide +kernel
  outside := by simp [Sample.file, styled, AllOutside, CommentsOutside, NoComments]
  short := by simp [Sample.file, styled, ShortAll, ShortIn, ShortComment, commentStrings]
  wellBefore := ⟨⟨s%"m", rfl⟩, by decide +kernel, plainSources_of (by decide +kernel), by decide +kernel, by decide +kernel⟩
  wellAfter := ⟨⟨s%"m", rfl⟩, by decide +kernel, plainSources_of (by decide +kernel), by decide +kernel, by decide +kernel⟩
  text := ⟨styledText, by rfl, by unfold readWithComments; rw [styled_placed]; rfl⟩

/-- The rule about C-style comments finds one before. -/
example : (commentsNoCStyleLinter.check [] [Sample.file s%"m.proto" styled]).map
    (fun r => r.toOption.map List.length) = some (some 1) := by decide +kernel

/-- A rule about comments finds something in it. -/
example : (commentsNoInlineLinter.check [] [Sample.file s%"m.proto" remarked]).map
    (fun r => r.toOption.map List.length) = some (some 2) := by decide +kernel

end Verif.Props
