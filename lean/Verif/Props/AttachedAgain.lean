import Verif.Proof.AttachedHeader
import Verif.Props.Attached
import Verif.Props.FormatTwice

/-!
# C97: formatting again, and headers

A second run of the formatter over the text it has printed prints the same text, comments included.
With `--fix` and a header this is so if there is no comment above the syntax statement
(`C97_header_lost`).
-/

namespace Verif.Props

open Verif Str Proto Spec Format Create

theorem spoken_fixed {q : Params} {es : List Element} (h : AllSpoken es) : AllSpoken (fixedFile q es) :=
  allSpoken_iff.2 fun e he => by
    rcases mem_fixed he with he | ⟨o, _, rfl⟩
    · exact allSpoken_iff.1 h e he
    · unfold Spoken; trivial

/-- What is read from a file formatted with `--fix` is formatted to the same text. -/
theorem again_fixed {srt : SortSlice} {q : Params} (hq : q.fix = fixV1 ∨ q.fix = fixV2)
    (hh : q.fileHeader = []) {es : List Element} (hp : packagesAmong es ≠ []) (hsp : AllSpoken es)
    (hn : (((optionsAmong es).filter fun o => o.name ∉ managedNames).map (·.name)).Nodup)
    (ho : ∀ l ∈ optionListsAll es, (l.map (·.name)).Nodup)
    (hi : ((importsAmong es).map (·.filename)).Nodup) {text : Str} (h : transform srt q es = .ok (text, [])) :
    transform srt q (shownAll (setOff (tidyFile (sortOpts srt) (sortImps srt) (fixedFile q es)))) =
      .ok (text, []) := by
  rw [← C36_fix_distinct srt q hq es hp hn ho hi] at h
  have hlen := syntaxes_transform (.inr hq) h
  rw [tidyFile_syntaxes] at hlen
  refine again_tidied (.inr hq) (.inr hh) hlen (spoken_fixed hsp) ?_ (fun l hl => ho l (fixed_lists hl)) ?_ h
  · refine optionsOf_nodup (fix_some hq) ?_
    rw [tidyFile_options, fixed_options]
    have : ((sortOpts srt (optionsOf q es)).map (·.name)).Nodup :=
      ((srt.perm _ _).map _).nodup_iff.2 (optionsOf_nodup (fix_some hq) hn)
    exact this.sublist ((List.filter_sublist).map _)
  · rw [fixed_imports]
    exact hi

/-- **With `--fix` and no header the second run changes nothing.** -/
theorem C97_again_fix_partial (srt : SortSlice) (q : Params) (hq : q.fix = fixV1 ∨ q.fix = fixV2)
    (hh : q.fileHeader = []) (hn : Quotable q.filename) (hj : Quotable q.javaPackagePrefix)
    (es : List Element) (hp : packagesAmong es ≠ []) (hf : FileFits es) (hone : OneLine es)
    (hout : AllOutside es) (hs : ShortAll es) (hsp : AllSpoken es)
    (hk : (((optionsAmong es).filter fun o => o.name ∉ managedNames).map (·.name)).Nodup)
    (ho : ∀ l ∈ optionListsAll es, (l.map (·.name)).Nodup)
    (hi : ((importsAmong es).map (·.filename)).Nodup)
    (text : Str) (h : transform srt q es = .ok (text, [])) :
    ∃ read, readWithComments text = some read ∧ transform srt q read = .ok (text, []) := by
  refine ⟨_, ?_, again_fixed hq hh hp hsp hk ho hi h⟩
  rw [C37_rewritten srt q hq hh es hp] at h
  exact shows_transform rfl (fits_fixed (fun _ => ⟨hn, hj⟩) hf)
    (oneLine_fixed (fun h => (hj _ h).2.2 rfl) hone) (outside_fixed hout) (short_fixed hs) h

/-! ## Headers -/

/-- A header from the configuration that is not marked as commented is a comment. -/
theorem C97_header (h : Settings.Host) (e : Settings.ExternalConfig) (dirPath header : Str)
    (hc : e.fileHeaderIsCommented = false) (hne : header ≠ [])
    (hh : Settings.fileHeaderOf h e dirPath = .ok header) : ∃ lines, IsHeader header lines := by
  unfold Settings.fileHeaderOf at hh
  split at hh
  · split at hh
    · cases hh
    · split at hh
      · cases hh
      · rename_i content _
        dsimp only at hh
        rw [hc, show ∀ a b : List Str, (if (!false) = true then a else b) = a from fun _ _ => rfl] at hh
        split at hh
        · cases hh
        · cases hh
          refine ⟨(Settings.getFileHeaderLines content).map fun l => if l = [] then [] else ' ' :: l, ?_, ?_, ?_⟩
          · unfold Settings.getFileHeaderLines
            simp only [ne_eq, List.map_eq_nil_iff]
            exact splitChar_ne_nil _ _
          · rw [List.map_map]
            congr 2
            funext l
            unfold Settings.commentLine
            dsimp only [Function.comp]
            split <;> rfl
          · intro l hl
            obtain ⟨w, hw, rfl⟩ := List.mem_map.1 hl
            unfold Settings.getFileHeaderLines at hw
            obtain ⟨v, hv, rfl⟩ := List.mem_map.1 hw
            have hn : '\n' ∉ trimSpace v := fun hm =>
              splitChar_no_sep hv ((quotable_outer.trimSpace_sublist v).subset hm)
            split
            · exact ⟨rfl, List.not_mem_nil⟩
            · refine ⟨?_, by simpa using hn⟩
              rename_i hne
              have hd : (' ' :: trimSpace v).dropWhile (· == '/') = ' ' :: trimSpace v :=
                List.dropWhile_cons_of_neg (by decide)
              unfold commentText
              rw [hd]
              refine trimRightBy_eq_self fun c hc => ?_
              obtain ⟨a, r, hr⟩ := List.exists_cons_of_ne_nil hne
              rw [hr, List.getLast?_cons_cons, ← hr] at hc
              exact getLast?_trimRightBy hc
  · cases hh; exact absurd rfl hne

theorem proto2_headed {lines : List Str} {es : List Element} : proto2Of (headed lines es) = proto2Of es := by
  have : syntaxesAmong (headed lines es) = syntaxesAmong es := by
    conv => rhs; rw [← List.takeWhile_append_dropWhile (l := es) (p := isComment)]
    unfold syntaxesAmong
    rw [among_comments (fun _ => rfl) fun e he => mem_takeWhile he]
    rfl
  unfold proto2Of
  rw [this]

theorem among_headed {α : Type} {f : Element → Option α} (hf : ∀ c, f (.comment c) = none) (lines : List Str)
    (es : List Element) : (headed lines es).filterMap f = es.filterMap f := by
  conv => rhs; rw [← List.takeWhile_append_dropWhile (l := es) (p := isComment)]
  rw [among_comments hf fun e he => mem_takeWhile he]
  unfold headed
  rw [List.filterMap_cons, hf]

theorem mem_headed {lines : List Str} {es : List Element} {e : Element} (h : e ∈ headed lines es) :
    e = .comment (remark lines) ∨ e ∈ es := by
  rcases List.mem_cons.1 h with h | h
  · exact .inl h
  · exact .inr ((List.dropWhile_sublist _).subset h)

theorem fits_headed {header : Str} {lines : List Str} (hl : IsHeader header lines) {es : List Element} (h : FileFits es) :
    FileFits (headed lines es) := by
  intro b hb
  rw [proto2_headed] at hb
  refine elementsFit_iff.2 fun e he => ?_
  rcases mem_headed he with rfl | he
  · unfold ElementFits
    exact fun l hm => (hl.2.2 l hm).2
  · exact elementsFit_iff.1 (h b hb) e he

theorem oneLine_headed {header : Str} {lines : List Str} (hl : IsHeader header lines) {es : List Element} (h : OneLine es) :
    OneLine (headed lines es) :=
  oneLine_iff.2 fun e he => by
    rcases mem_headed he with rfl | he
    · intro n hn s hs
      cases List.mem_singleton.1 hn
      exact (hl.2.2 s hs).2
    · exact oneLine_iff.1 h e he

theorem outside_headed {lines : List Str} {es : List Element} (h : AllOutside es) : AllOutside (headed lines es) :=
  allOutside_iff.2 fun e he => by
    rcases mem_headed he with rfl | he
    · unfold CommentsOutside; trivial
    · exact allOutside_iff.1 h e he

theorem short_headed {lines : List Str} {es : List Element} (h : ShortAll es) : ShortAll (headed lines es) :=
  shortAll_iff.2 fun e he => by
    rcases mem_headed he with rfl | he
    · unfold ShortIn; trivial
    · exact shortAll_iff.1 h e he

theorem spoken_headed {header : Str} {lines : List Str} (hl : IsHeader header lines) {es : List Element}
    (h : AllSpoken es) : AllSpoken (headed lines es) :=
  allSpoken_iff.2 fun e he => by
    rcases mem_headed he with rfl | he
    · unfold Spoken; exact hl.1
    · exact allSpoken_iff.1 h e he

/-- **With `--fix` and a header it reads as the file with the header in place of the comments at the
top and the managed options replaced.** -/
theorem C97_headed_partial (srt : SortSlice) (q : Params) (hq : q.fix = fixV1 ∨ q.fix = fixV2)
    (lines : List Str) (hh : IsHeader q.fileHeader lines)
    (hn : Quotable q.filename) (hj : Quotable q.javaPackagePrefix)
    (es : List Element) (hp : packagesAmong es ≠ []) (hf : FileFits es) (hone : OneLine es)
    (ho : AllOutside es) (hs : ShortAll es) (text : Str) (h : transform srt q es = .ok (text, [])) :
    ∃ (sort : List Opt → List Opt) (imports : List Import),
      (∀ l, (sort l).Perm l ∧ OptionsInOrder (sort l)) ∧
      imports.Perm (importsAmong es) ∧ ImportsInOrder imports ∧
      readWithComments text =
        some (shownAll (setOff (tidyFile sort (fun _ => imports) (fixedFile q (headed lines es))))) := by
  rw [transform_headed srt (.inr hq) (fix_some hq) hh] at h
  have := C97_fix_partial srt { q with fileHeader := [] } hq rfl hn hj (headed lines es)
    (by rw [show packagesAmong (headed lines es) = packagesAmong es from among_headed (fun _ => rfl) ..]; exact hp)
    (fits_headed hh hf) (oneLine_headed hh hone) (outside_headed ho) (short_headed hs) text h
  rw [show importsAmong (headed lines es) = importsAmong es from among_headed (fun _ => rfl) ..] at this
  exact this

/-- What is read begins with the header alone. -/
theorem headed_read {sort : List Opt → List Opt} {sortImports : List Import → List Import} {q : Params}
    (hq : q.fix ≠ fixNone)
    {header : Str} {lines : List Str} (hl : IsHeader header lines) {es : List Element} (hp : packagesAmong es ≠ [])
    (hs : ∀ s ∈ syntaxesAmong es, s.comment = none) :
    headed lines (shownAll (setOff (tidyFile sort sortImports (fixedFile q (headed lines es))))) =
      shownAll (setOff (tidyFile sort sortImports (fixedFile q (headed lines es)))) := by
  have hp' : packagesAmong (headed lines es) = packagesAmong es := among_headed (fun _ => rfl) ..
  have hs' : syntaxesAmong (headed lines es) = syntaxesAmong es := among_headed (fun _ => rfl) ..
  have hne : optionsOf q (headed lines es) ≠ [] := optionsOf_ne_nil hq (by rw [hp']; exact hp)
  have htop : (fixedFile q (headed lines es)).takeWhile isComment = [.comment (remark lines)] := by
    rw [(fixed_split hne).1]
    unfold headed
    rw [List.takeWhile_cons_of_pos rfl]
    cases h : es.dropWhile isComment with
    | nil => rfl
    | cons e r => rw [List.takeWhile_cons_of_neg (by simpa using head_dropWhile (by rw [h]; rfl))]
  have hsh : shown (.comment (remark lines)) = .comment (remark lines) := by
    have : lines.map commentText = lines := by
      conv => rhs; rw [← List.map_id lines]
      exact List.map_congr_left fun l hm => (hl.2.2 l hm).1
    unfold shown
    show Element.comment (remark (lines.map commentText)) = _
    rw [this]
  have hhead : ∃ e r, sections sort (sort (optionsAmong (fixedFile q (headed lines es))))
      (sortImports (importsAmong (fixedFile q (headed lines es)))) (fixedFile q (headed lines es)) = e :: r ∧
      ((∃ s, e = .syntax s ∧ s.comment = none) ∨ ∃ p, e = .package p) := by
    unfold sections
    rw [fixed_syntaxes, fixed_packages, hs', hp']
    cases hsy : syntaxesAmong es with
    | cons s ss => exact ⟨_, _, rfl, .inl ⟨s, rfl, hs s (by rw [hsy]; exact List.mem_cons_self)⟩⟩
    | nil =>
      obtain ⟨p, ps, hps⟩ := List.exists_cons_of_ne_nil hp
      rw [hps]
      exact ⟨_, _, rfl, .inr ⟨p, rfl⟩⟩
  obtain ⟨e, r, hr, he⟩ := hhead
  have hsilent : (decide ((remark lines).lines = [])) = false := decide_eq_false hl.1
  rw [tidyFile_sections, htop, hr]
  rcases he with ⟨s, rfl, hc⟩ | ⟨p, rfl⟩
  · have : setOff ([.comment (remark lines)] ++ .syntax s :: r) =
        .comment (remark lines) :: .syntax { s with comment := none } :: setOff r := by
      show Element.comment (remark lines) :: (s.comment.toList.map Element.comment ++ _) = _
      rw [hc]; rfl
    rw [this]
    unfold shownAll shownAll
    simp only [shownAll.silent, hsilent, hsh]
    rfl
  · have : setOff ([.comment (remark lines)] ++ .package p :: r) =
        .comment (remark lines) :: .package p :: setOff r := rfl
    rw [this]
    unfold shownAll shownAll
    simp only [shownAll.silent, hsilent, hsh]
    rfl

/-- **With `--fix` and a header the second run changes nothing**, if the syntax statement has no
comment above it. -/
theorem C97_again_headed_partial (srt : SortSlice) (q : Params) (hq : q.fix = fixV1 ∨ q.fix = fixV2)
    (lines : List Str) (hh : IsHeader q.fileHeader lines)
    (hn : Quotable q.filename) (hj : Quotable q.javaPackagePrefix)
    (es : List Element) (hp : packagesAmong es ≠ []) (hf : FileFits es) (hone : OneLine es)
    (hout : AllOutside es) (hs : ShortAll es) (hsp : AllSpoken es)
    (hc : ∀ s ∈ syntaxesAmong es, s.comment = none)
    (hk : (((optionsAmong es).filter fun o => o.name ∉ managedNames).map (·.name)).Nodup)
    (ho : ∀ l ∈ optionListsAll es, (l.map (·.name)).Nodup)
    (hi : ((importsAmong es).map (·.filename)).Nodup)
    (text : Str) (h : transform srt q es = .ok (text, [])) :
    ∃ read, readWithComments text = some read ∧ transform srt q read = .ok (text, []) := by
  rw [transform_headed srt (.inr hq) (fix_some hq) hh] at h
  have hp' : packagesAmong (headed lines es) ≠ [] := by
    rw [show packagesAmong (headed lines es) = packagesAmong es from among_headed (fun _ => rfl) ..]; exact hp
  have h1 := again_fixed (q := { q with fileHeader := [] }) hq rfl hp' (spoken_headed hh hsp)
    (by rw [show optionsAmong (headed lines es) = optionsAmong es from among_headed (fun _ => rfl) ..]; exact hk)
    (fun l hl => ?_)
    (by rw [show importsAmong (headed lines es) = importsAmong es from among_headed (fun _ => rfl) ..]; exact hi) h
  · refine ⟨shownAll (setOff (tidyFile (sortOpts srt) (sortImps srt) (fixedFile q (headed lines es)))), ?_, ?_⟩
    · have h := h
      rw [show Element.comment (remark lines) :: es.dropWhile isComment = headed lines es from rfl,
        C37_rewritten srt { q with fileHeader := [] } hq rfl (headed lines es) hp'] at h
      exact shows_transform rfl (fits_fixed (fun _ => ⟨hn, hj⟩) (fits_headed hh hf))
        (oneLine_fixed (fun h => (hj _ h).2.2 rfl) (oneLine_headed hh hone)) (outside_fixed (outside_headed hout))
        (short_fixed (short_headed hs)) h
    · rw [transform_headed srt (.inr hq) (fix_some hq) hh]
      have := headed_read (sort := sortOpts srt) (sortImports := sortImps srt) (q := q) (fix_some hq) hh hp hc
      unfold headed at this h1 ⊢
      rw [this]
      exact h1
  · have hl : l ∈ optionListsAll (es.dropWhile isComment) := by
      unfold headed optionListsAll at hl
      exact hl
    exact ho l (optionLists_sub (fun e he => (List.dropWhile_sublist _).subset he) hl)

/-! ## Where the second run makes a difference -/

/-- `format --fix` with a header. -/
def headedParams : Params := ⟨s%"m.proto", fixV2, s%"// H.", []⟩

/-- A file with a comment above the syntax statement. -/
def keepMe : List Element :=
  [.syntax { value := s%"proto3", comment := some (says [s%" Keep me."]) }, .package { name := s%"m" }]

/-- The managed options as printed. -/
def keptOptions : Str :=
  s%"option csharp_namespace = \"M\";\noption go_package = \"mpb\";\noption java_multiple_files = true;\noption java_outer_classname = \"MProto\";\noption java_package = \"com.m\";\noption objc_class_prefix = \"MXX\";\noption php_namespace = \"M\";\n"

/-- What is printed. -/
def keepMeText : Str := s%"// H.\n\n// Keep me.\n\nsyntax = \"proto3\";\n\npackage m;\n\n" ++ keptOptions

theorem keepMe_placed : lexPlaced 1 .between keepMeText = some
    [(1, .comment s%" H."), (3, .comment s%" Keep me."),
     (5, .word s%"syntax"), (5, .sym '='), (5, .str '"' s%"proto3"), (5, .sym ';'),
     (7, .word s%"package"), (7, .word s%"m"), (7, .sym ';'),
     (9, .word s%"option"), (9, .word s%"csharp_namespace"), (9, .sym '='), (9, .str '"' s%"M"), (9, .sym ';'),
     (10, .word s%"option"), (10, .word s%"go_package"), (10, .sym '='), (10, .str '"' s%"mpb"), (10, .sym ';'),
     (11, .word s%"option"), (11, .word s%"java_multiple_files"), (11, .sym '='), (11, .word s%"true"), (11, .sym ';'),
     (12, .word s%"option"), (12, .word s%"java_outer_classname"), (12, .sym '='), (12, .str '"' s%"MProto"), (12, .sym ';'),
     (13, .word s%"option"), (13, .word s%"java_package"), (13, .sym '='), (13, .str '"' s%"com.m"), (13, .sym ';'),
     (14, .word s%"option"), (14, .word s%"objc_class_prefix"), (14, .sym '='), (14, .str '"' s%"MXX"), (14, .sym ';'),
     (15, .word s%"option"), (15, .word s%"php_namespace"), (15, .sym '='), (15, .str '"' s%"M"), (15, .sym ';')] := by
  decide +kernel

set_option maxRecDepth 100000 in
/-- **The second run with a header loses the comment above the syntax statement.** The first run
sets it off by an empty line, and the second takes it for a comment at the top. -/
theorem C97_header_lost : ∃ es text read,
    transform .stable headedParams es = .ok (text, []) ∧ s%"// Keep me." <:+: text ∧
    readWithComments text = some read ∧
    transform .stable headedParams read =
      .ok (s%"// H.\n\nsyntax = \"proto3\";\n\npackage m;\n\n" ++ keptOptions, []) :=
  ⟨keepMe, keepMeText, _, by rfl, ⟨s%"// H.\n\n", _, rfl⟩,
    by unfold readWithComments; rw [keepMe_placed]; rfl, by rfl⟩

/-- A comment of two lines behind the last field. -/
def longLast : List Element :=
  [.syntax { value := s%"proto3" },
   .message { name := s%"M" }
     [.normalField { field := { name := s%"id", type := s%"string", sequence := 1
                                inlineComment := some (says [s%" unique", s%" and more"]) } }]]

/-- What is printed. -/
def longLastText : Str := s%"syntax = \"proto3\";\n\nmessage M {\n  string id = 1; // unique\n  // and more\n}\n"

theorem longLast_placed : lexPlaced 1 .between longLastText = some
    [(1, .word s%"syntax"), (1, .sym '='), (1, .str '"' s%"proto3"), (1, .sym ';'),
     (3, .word s%"message"), (3, .word s%"M"), (3, .sym '{'),
     (4, .word s%"string"), (4, .word s%"id"), (4, .sym '='), (4, .word s%"1"), (4, .sym ';'),
     (4, .comment s%" unique"), (5, .comment s%" and more"), (6, .sym '}')] := by
  decide +kernel

set_option maxRecDepth 100000 in
/-- **A second run puts an empty line below a comment of two lines behind the last field.** -/
theorem C97_not_again : ∃ es text read,
    transform .stable plainly es = .ok (text, []) ∧ readWithComments text = some read ∧
    text = s%"syntax = \"proto3\";\n\nmessage M {\n  string id = 1; // unique\n  // and more\n}\n" ∧
    transform .stable plainly read =
      .ok (s%"syntax = \"proto3\";\n\nmessage M {\n  string id = 1; // unique\n  // and more\n\n}\n", []) :=
  ⟨longLast, longLastText, _, by rfl,
    by unfold readWithComments; rw [longLast_placed]; rfl, rfl, by rfl⟩

/-! ## The theorems are about something -/

theorem remarked_spoken : AllSpoken remarked := by
  simp [remarked, annotatedField, AllSpoken, Spoken, says]

example : ∀ l ∈ sortedLists remarked, (l.map (·.name)).Nodup := by decide +kernel

example : ((importsAmong remarked).map (·.filename)).Nodup := by decide +kernel

/-- The header of a configuration. -/
example : IsHeader s%"// A.\n//\n// B." [s%" A.", [], s%" B."] := by
  refine ⟨by simp, rfl, ?_⟩
  decide +kernel

/-- A file with a header that is formatted. -/
example : (transform .stable { headedParams with fileHeader := s%"// A.\n//\n// B." }
    (.package { name := s%"m" } :: remarked)).toOption.map (·.2) = some [] := by
  decide +kernel

/-- A file without a comment above the syntax statement. -/
def titled : List Element :=
  [.comment (says [s%" Old header."]), .syntax { value := s%"proto3", inlineComment := some (says [s%" new"]) },
   .package { name := s%"m", comment := some (says [s%" Packed."]) },
   .message { name := s%"M", comment := some (says [s%" A message."]) }
     [.comment (says [s%" Fields."]), .normalField { field := { annotatedField with inlineComment := some (says [s%" unique"]) } }]]

/-- Everything asked of it. -/
theorem titled_fine : packagesAmong titled ≠ [] ∧ FileFits titled ∧ OneLine titled ∧ AllOutside titled ∧ ShortAll titled ∧
    AllSpoken titled ∧ (∀ s ∈ syntaxesAmong titled, s.comment = none) ∧
    (((optionsAmong titled).filter fun o => o.name ∉ managedNames).map (·.name)).Nodup ∧
    (∀ l ∈ optionListsAll titled, (l.map (·.name)).Nodup) ∧ ((importsAmong titled).map (·.filename)).Nodup ∧
    (transform .stable headedParams titled).toOption.map (·.2) = some [] := by
  refine ⟨by simp [titled, packagesAmong], ?_, by unfold OneLine; decide +kernel,
    by simp [titled, annotatedField, AllOutside, CommentsOutside, NoComments],
    by simp [titled, annotatedField, ShortAll, ShortIn, ShortComment, commentStrings, says],
    by simp [titled, AllSpoken, Spoken, says], ?_, by decide +kernel, by decide +kernel, by decide +kernel, by decide +kernel⟩
  · intro b hb
    obtain rfl : false = b := Option.some.inj hb
    unfold titled annotatedField says
    simp only [ElementsFit, ElementFits, fieldFits_iff, optionsFit_cons, optionsFit_nil]
    simp only [optionFits_iff, CommentFits, IsWord, IsName, LabelFits, Literal.plain, if_true]
    repeat' apply And.intro
    all_goals first | trivial | decide +kernel | (simp [holdsMessages]; done) | (simp [ValueFits, IsWord]; decide +kernel)
  · simp [titled, syntaxesAmong]

end Verif.Props
