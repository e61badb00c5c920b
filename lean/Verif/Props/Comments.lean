import Verif.Proof.CommentsFile
import Verif.Props.Readable

/-!
# C89: formatting keeps the comments

`commentsOf` finds the comments in a text. It knows nothing of the formatter. `commentsAmong` lists
the comments of declarations: the one above, those inside, and the one behind each. A comment is
compared line by line, without slashes in front and white space at the end.

Comments by themselves in the body of an RPC are lost (`C89_not`), so the theorems are about files
without those (`AllOutside`).
-/

namespace Verif.Props

open Verif Str Proto Spec Format Create

/-- **The comments of the formatted text are those of the file, each once**, in the order of the
declarations in the text. -/
theorem C89_comments_partial (srt : SortSlice) (q : Params) (hq : q.fix = fixNone) (es : List Element)
    (hf : FileFits es) (ho : AllOutside es) (text : Str) (h : transform srt q es = .ok (text, [])) :
    ∃ (sort : List Opt → List Opt) (imports : List Import),
      (∀ l, (sort l).Perm l ∧ OptionsInOrder (sort l)) ∧
      imports.Perm (importsAmong es) ∧ ImportsInOrder imports ∧
      commentsOf text = some (commentsAmong (tidyFile sort (fun _ => imports) es)) ∧
      (commentsAmong (tidyFile sort (fun _ => imports) es)).Perm (commentsAmong es) := by
  obtain ⟨b, items, hb, rfl, hopt, hl⟩ := lines_transform (.inl hq) h hf (quietAll_outside es ho)
    fun h => absurd hq h
  refine ⟨sortOpts srt, sortImps srt (importsAmong es),
    fun l => ⟨srt.perm _ l, srt.sorted _ l (SWO.str.on Opt.name)⟩, srt.perm _ _,
    srt.sorted _ _ (SWO.str.on Import.filename), ?_, comments_tidyFile (fun l => srt.perm _ l) (srt.perm _ _) ho⟩
  unfold commentsOf
  rw [lex_finish hl, plain_toks hq]
  exact congrArg some (comms_elements b _ (outside_tidyFile (fun l => srt.perm _ l) _ ho))

/-- **A comment stays with its declaration**: wherever the formatted file is cut between two
declarations, there is a place in the text where the declarations before it and their comments have
been read, and the declarations behind it and their comments follow. -/
theorem C89_between_partial (srt : SortSlice) (q : Params) (hq : q.fix = fixNone) (es : List Element)
    (hf : FileFits es) (ho : AllOutside es) (text : Str) (h : transform srt q es = .ok (text, [])) :
    ∃ (sort : List Opt → List Opt) (imports : List Import),
      (∀ l, (sort l).Perm l ∧ OptionsInOrder (sort l)) ∧
      imports.Perm (importsAmong es) ∧ ImportsInOrder imports ∧
      ∀ before after, tidyFile sort (fun _ => imports) es = before ++ after →
        ∃ t u, lex true text = some (t ++ u) ∧
          readTokens t = some (bareAll before) ∧ commentsAt t = commentsAmong before ∧
          readTokens u = some (bareAll after) ∧ commentsAt u = commentsAmong after := by
  obtain ⟨b, items, hb, rfl, hopt, hl⟩ := lines_transform (.inl hq) h hf (quietAll_outside es ho)
    fun h => absurd hq h
  have hsort : ∀ l, (sortOpts srt l).Perm l := fun l => srt.perm _ l
  refine ⟨sortOpts srt, sortImps srt (importsAmong es),
    fun l => ⟨srt.perm _ l, srt.sorted _ l (SWO.str.on Opt.name)⟩, srt.perm _ _,
    srt.sorted _ _ (SWO.str.on Import.filename), fun before after e => ?_⟩
  have hout := allOutside_iff.1 (outside_tidyFile hsort (fun _ => sortImps srt (importsAmong es)) ho)
  have hfit : ∀ d ∈ tidyFile (sortOpts srt) (fun _ => sortImps srt (importsAmong es)) es,
      ElementFits b .none d := by
    intro d hd
    have hes := elementsFit_iff.1 (hf b hb)
    rw [tidyFile_sections] at hd
    rcases List.mem_append.1 hd with hd | hd
    · exact hes d ((List.takeWhile_sublist _).subset hd)
    · exact elementsFit_iff.1 (fits_sections hsort (srt.perm _ _) (fun o hm => by
        have := hes _ (mem_options ((hsort _).mem_iff.1 hm)); unfold ElementFits at this; exact this)
        (hf b hb)) d hd
  rw [e] at hout hfit
  refine ⟨elementsToks true b before, elementsToks true b after, ?_,
    readTokens_elements (elementsFit_iff.2 fun d hd => hfit d (List.mem_append_left _ hd)),
    comms_elements b _ (allOutside_iff.2 fun d hd => hout d (List.mem_append_left _ hd)),
    readTokens_elements (elementsFit_iff.2 fun d hd => hfit d (List.mem_append_right _ hd)),
    comms_elements b _ (allOutside_iff.2 fun d hd => hout d (List.mem_append_right _ hd))⟩
  rw [lex_finish hl, plain_toks hq, ← elementsToks_append, ← e]

/-- With `--fix` the comments at the top are replaced by those of the header, if there is one. All
other comments of declarations that are no options stay, and so do those of the options that stay. -/
theorem C89_fix_partial (srt : SortSlice) (q : Params) (hq : q.fix = fixV1 ∨ q.fix = fixV2)
    (header : List Str) (hh : commentsOf q.fileHeader = some header) (hn : Quotable q.filename)
    (hj : Quotable q.javaPackagePrefix) (es : List Element) (hf : FileFits es) (ho : AllOutside es)
    (text : Str) (h : transform srt q es = .ok (text, [])) :
    ∃ rest, commentsOf text =
        some ((if q.fileHeader = [] then commentsAmong (es.takeWhile isComment) else header) ++ rest) ∧
      rest.Perm ((optionsOf q es).flatMap optionComments ++
        commentsAmong ((es.dropWhile isComment).filter notOption)) := by
  have hk : KnownFix q := .inr hq
  have hne : q.fix ≠ fixNone := by rcases hq with hq | hq <;> rw [hq] <;> decide
  obtain ⟨b, items, hb, rfl, hopt, hl⟩ := lines_transform hk h hf (quietAll_outside es ho)
    fun _ => ⟨by unfold commentsOf at hh; cases e : lex true q.fileHeader with
      | none => rw [e] at hh; cases hh
      | some _ => rfl, hn, hj⟩
  have hsort : ∀ l, (sortOpts srt l).Perm l := fun l => srt.perm _ l
  refine ⟨commentsAmong (sections (sortOpts srt) (sortOpts srt (optionsOf q es)) (sortImps srt (importsAmong es)) es),
    ?_, (comments_sections hsort _ (srt.perm _ _) ho).trans (.append_right _ ((hsort _).flatMap_right _))⟩
  unfold commentsOf
  rw [lex_finish hl]
  refine congrArg some ?_
  rw [comms_append, comms_elements b _ (outside_sections hsort _ _ ho)]
  congr 1
  unfold topToks
  by_cases he : q.fileHeader = []
  · rw [if_pos he, if_neg fun h => h.2 he]
    exact comms_elements b _ (allOutside_iff.2 fun d hd => allOutside_iff.1 ho d ((List.takeWhile_sublist _).subset hd))
  · rw [if_neg he, if_pos ⟨hne, he⟩]
    unfold commentsOf at hh
    cases e : lex true q.fileHeader with
    | none => rw [e] at hh; cases hh
    | some ts => rw [e] at hh; exact Option.some.inj hh

/-! ## Comments that are lost -/

/-- An RPC with a comment in its body. -/
def commentedRPC : List Element :=
  [.syntax { value := s%"proto3" },
   .service { name := s%"S" }
     [.rpc { name := s%"Get", requestType := s%"A", returnsType := s%"B" }
       [.comment { position := Sample.at_ 5 5, lines := [s%" Needs a token."] },
        .option { name := s%"deprecated", constant := .plain s%"true" }]]]

theorem commentedRPC_fits : FileFits commentedRPC := by
  intro b hb
  obtain rfl : false = b := Option.some.inj hb
  unfold commentedRPC
  simp only [ElementsFit, ElementFits, onlyOption_cons, onlyOption_nil, OnlyOption]
  simp only [optionFits_iff, CommentFits, IsWord, IsName, Literal.plain]
  repeat' apply And.intro
  all_goals first | trivial | decide +kernel | (simp [ValueFits, IsWord]; decide +kernel)

/-- A comment in the body of an RPC is not in the formatted text. -/
theorem C89_not : ∃ es text, FileFits es ∧ transform .stable plainly es = .ok (text, []) ∧
    s%" Needs a token." ∈ commentsAmong es ∧ commentsOf text = some [] :=
  ⟨commentedRPC,
    s%"syntax = \"proto3\";\n\nservice S {\n  rpc Get(A) returns (B) {\n    option deprecated = true;\n  }\n}\n",
    commentedRPC_fits, by rfl, by decide +kernel, by decide +kernel⟩

/-! ## The theorems are about something -/

/-- A comment. -/
def says (lines : List Str) : Comment := { position := Sample.at_ 1 1, lines := lines }

/-- A field with comments. -/
def annotatedField : Field where
  name := s%"id"
  type := s%"string"
  sequence := 1
  comment := some (says [s%" The id."])
  inlineComment := some (says [s%" unique", s%" and more"])
  options := [{ name := s%"deprecated", constant := .plain s%"true" }]

/-- An RPC with a comment. -/
def annotatedRPC : RPC where
  name := s%"Get"
  requestType := s%"M"
  returnsType := s%"M"
  comment := some (says [s%" Gets it."])

/-- An option with a comment. -/
def annotatedOption : Opt where
  name := s%"deprecated"
  constant := .plain s%"true"
  comment := some (says [s%" Use Put."])

/-- A file with comments in many places. -/
def annotated : List Element :=
  [.comment (says [s%" A licence.", s%"", s%" Two lines."]),
   .syntax { value := s%"proto2", inlineComment := some (says [s%" old"]) },
   .import { filename := s%"b.proto", comment := some (says [s%" for B"]) },
   .import { filename := s%"a.proto", comment := some (says [s%"/ for A  "]) },
   .comment (says [s%" Between."]),
   .message { name := s%"M", comment := some (says [s%" A message."]) }
     [.comment (says [s%" Fields."]),
      .normalField { required := true, field := annotatedField }],
   .service { name := s%"S" } [.rpc annotatedRPC [.option annotatedOption]]]

theorem annotated_fits : FileFits annotated := by
  intro b hb
  obtain rfl : true = b := Option.some.inj hb
  unfold annotated annotatedField annotatedRPC annotatedOption says
  simp only [ElementsFit, ElementFits, fieldFits_iff, onlyOption_cons, onlyOption_nil, optionsFit_cons,
    optionsFit_nil, OnlyOption]
  simp only [optionFits_iff, CommentFits, IsWord, IsName, LabelFits, Literal.plain, if_true]
  repeat' apply And.intro
  all_goals first | trivial | decide +kernel | (simp [holdsMessages]; done) | (simp [ValueFits, IsWord]; decide +kernel)

example : AllOutside annotated := by
  simp [annotated, annotatedField, AllOutside, CommentsOutside, NoComments]

example : (transform .stable plainly annotated).toOption.map (·.2) = some [] := by decide +kernel

example : (transform .stable plainly annotated).toOption.bind (fun r => commentsOf r.1) =
    some [s%" A licence.", s%"", s%" Two lines.", s%" old", s%" for A", s%" for B", s%" Between.",
      s%" A message.", s%" Fields.", s%" The id.", s%" unique", s%" and more", s%" Gets it.", s%" Use Put."] := by
  decide +kernel

/-- With `--fix` and a header: its comment is in place of the licence. -/
example : (transform .stable ⟨s%"m.proto", fixV2, s%"// Ours.", []⟩
    (annotated ++ [.package { name := s%"m", comment := some (says [s%" Packed."]) }])).toOption.bind
      (fun r => commentsOf r.1) =
    some [s%" Ours.", s%" old", s%" Packed.", s%" for A", s%" for B", s%" Between.",
      s%" A message.", s%" Fields.", s%" The id.", s%" unique", s%" and more", s%" Gets it.", s%" Use Put."] := by
  decide +kernel

example : commentsOf s%"// One\n//\n/* t * wo */" = some [s%" One", [], s%"t*wo"] := by decide +kernel

end Verif.Props
