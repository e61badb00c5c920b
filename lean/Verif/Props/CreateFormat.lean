import Verif.Props.Canonical
import Verif.Props.Create
import Verif.Props.ExecDiff
import Verif.Spec.CreateFormat

/-!
# C111: a new file and `format`
-/

namespace Verif.Props

open Verif Str Exec Path Spec Create
open Verif.Proto (Element Comment)

/-! ## Lemmas -/

theorem newText_last (header : Str) (uber2 : Bool) (path package javaPrefix : Str) :
    ∃ t, newText header uber2 path package javaPrefix = t ++ s%";" := by
  obtain ⟨t, ht⟩ := body_last uber2 path package javaPrefix
  rw [newText_eq, ht, ← List.append_assoc]
  exact ⟨_, rfl⟩

theorem newText_not_canonical (header : Str) (uber2 : Bool) (path package javaPrefix : Str) :
    ¬CanonicalEnds (newText header uber2 path package javaPrefix) := by
  obtain ⟨t, ht⟩ := newText_last header uber2 path package javaPrefix
  rw [ht]
  rintro (h | ⟨c, s, d, h, _⟩)
  · simp at h
  · have := congrArg List.getLast? h
    simp at this

theorem IsHeader.trimmed {header : Str} {lines : List Str} (h : IsHeader header lines) :
    header ≠ [] ∧ Trimmed header := by
  obtain ⟨hne, rfl, hl⟩ := h
  obtain ⟨a, ls, rfl⟩ := List.exists_cons_of_ne_nil hne
  have hhead : ∃ t, join s%"\n" ((a :: ls).map (s%"//" ++ ·)) = '/' :: t := by
    cases ls with
    | nil => exact ⟨'/' :: a, rfl⟩
    | cons b ls => rw [List.map_cons, List.map_cons, join_cons_cons]; exact ⟨_, rfl⟩
  obtain ⟨t, ht⟩ := hhead
  refine ⟨by rw [ht]; simp, ?_, ?_⟩
  · intro c hc
    rw [ht] at hc
    cases hc; decide
  · intro c hc
    have hlast : ∃ x ∈ a :: ls, (a :: ls).getLast? = some x := by
      cases hx : (a :: ls).getLast? with
      | none => cases List.getLast?_eq_none_iff.1 hx
      | some x => exact ⟨x, List.mem_of_getLast? hx, rfl⟩
    obtain ⟨x, hx, hlast⟩ := hlast
    have hj := Format.getLast?_join (f := fun l => s%"//" ++ l) hlast (by simp)
    rw [hj] at hc
    have := (Format.commentText_fixed (hl x hx).1).2
    cases hxl : x.getLast? with
    | none =>
      cases List.getLast?_eq_none_iff.1 hxl
      have : '/' = c := by simpa using hc
      rw [← this]; decide
    | some d =>
      rw [List.getLast?_append, hxl] at hc
      cases hc
      exact this c hxl

theorem flush_text {header : Str} (h : Trimmed header) : textOf [flush header] = header ++ s%"\n" := by
  show lineText 0 header ++ [] = _
  have : lineText 0 header = header ++ s%"\n" := by
    unfold lineText
    rw [show List.replicate (2 * 0) ' ' ++ header = header from rfl, trimRightBy_eq_self h.2]
  rw [this, List.append_nil]

/-- The text of a new file as the formatter writes it. -/
theorem newFile_formatted (srt : SortSlice) (q : Format.Params) {header : Str} {lines : List Str}
    (hl : HeaderIs header lines) (uber2 : Bool) (path package javaPrefix : Str)
    (hq : q = ⟨path, if uber2 then Format.fixV2 else Format.fixV1, header, javaPrefix⟩ ∨ q.fix = Format.fixNone) :
    Format.transform srt q (newFile (if lines = [] then [] else [remark lines]) uber2 path package javaPrefix) =
      .ok (newText header uber2 path package javaPrefix ++ s%"\n", []) := by
  rw [newText_eq]
  have hp : q.fix = Format.fixNone ∨ q.fileHeader = header := by
    rcases hq with rfl | hq
    · exact .inr rfl
    · exact .inl hq
  rcases hl with ⟨rfl, rfl⟩ | hl
  · rw [if_pos rfl, if_pos rfl]
    have htop : topItems q (newFile [] uber2 path package javaPrefix) = [] := by
      rw [Format.topItems_comments hp, newFile_takeWhile]
      rfl
    exact newFile_transform [] uber2 path package javaPrefix srt q [] [] hq (by rw [htop]; rfl) (by rw [htop]; rfl)
      fun c hc => by cases hc
  · have hne := IsHeader.trimmed hl
    rw [if_neg hl.1, if_neg hne.1]
    have hpn : problemsOf (note (some (remark lines))) = [] := by
      unfold note problemsOf
      refine List.filterMap_eq_nil_iff.2 fun i hi => ?_
      obtain ⟨l, _, rfl⟩ := List.mem_map.1 hi
      rfl
    have htop : topItems q (newFile [remark lines] uber2 path package javaPrefix) = [flush header, blank] ∨
        topItems q (newFile [remark lines] uber2 path package javaPrefix) = note (some (remark lines)) ++ [blank] := by
      rcases Classical.em (q.fix = Format.fixNone) with hn | hn
      · right
        rw [Format.topItems_comments (.inl hn), newFile_takeWhile]
        rw [List.map_cons, List.map_nil, List.flatMap_cons, List.flatMap_nil, List.append_nil, elementItems]
      · left
        have := hp.resolve_left hn
        unfold topItems
        rw [if_pos ⟨hn, by rw [this]; exact hne.1⟩, this]
    have hb : textOf [blank] = s%"\n" := rfl
    refine newFile_transform [remark lines] uber2 path package javaPrefix srt q header _ hq ?_ ?_ ?_
    · have e : textOf (topItems q (newFile [remark lines] uber2 path package javaPrefix)) =
          textOf [flush header] ++ textOf [blank] := by
        rcases htop with htop | htop
        · rw [htop]; exact Format.textOf_append [flush header] [blank]
        · rw [htop, Format.textOf_append, ← Format.textOf_header hl]
      rw [e, flush_text hne.2, hb, List.append_assoc]
      rfl
    · rcases htop with htop | htop
      · rw [htop]; rfl
      · rw [htop, problemsOf_append, hpn]; rfl
    · intro c hc
      obtain ⟨x, t, rfl⟩ := List.exists_cons_of_ne_nil hne.1
      exact hne.2.1 c hc

/-- What is found in a new file, formatted. -/
theorem found_formatted (srt : SortSlice) (q : Format.Params) {header : Str} {lines : List Str}
    (hl : HeaderIs header lines) (uber2 : Bool) (path package javaPrefix : Str)
    (hq : q = ⟨path, if uber2 then Format.fixV2 else Format.fixV1, header, javaPrefix⟩ ∨ q.fix = Format.fixNone)
    {es : List Element} (hf : FoundNew lines uber2 path package javaPrefix es) :
    Format.transform srt q es = .ok (newText header uber2 path package javaPrefix ++ s%"\n", []) := by
  have hnew : AllSpoken (newFile (if lines = [] then [] else [remark lines]) uber2 path package javaPrefix) := by
    refine Format.allSpoken_iff.2 fun e he => ?_
    unfold newFile at he
    rcases List.mem_append.1 he with he | he
    · obtain ⟨c, hc, rfl⟩ := List.mem_map.1 he
      unfold Spoken
      split at hc
      · cases hc
      · rename_i hne
        cases List.mem_singleton.1 hc
        exact hne
    rcases List.mem_cons.1 he with rfl | he
    · unfold Spoken; intro c hc; cases hc
    rcases List.mem_cons.1 he with rfl | he
    · unfold Spoken; trivial
    · obtain ⟨c, hc, rfl⟩ := List.mem_map.1 he
      unfold Spoken; trivial
  have hdist : Distinguished (newFile (if lines = [] then [] else [remark lines]) uber2 path package javaPrefix) := by
    refine ⟨?_, ?_, ?_⟩
    · rw [newFile_options]
      refine (newOptions_sorted uber2 path package javaPrefix).imp fun h e => ?_
      rw [e, lt_irrefl] at h
      cases h
    · intro l hl
      have : ∀ e ∈ newFile (if lines = [] then [] else [remark lines]) uber2 path package javaPrefix,
          optionLists e = [] := by
        intro e he
        unfold newFile at he
        rcases List.mem_append.1 he with he | he
        · obtain ⟨c, hc, rfl⟩ := List.mem_map.1 he
          unfold optionLists; rfl
        rcases List.mem_cons.1 he with rfl | he
        · unfold optionLists; rfl
        rcases List.mem_cons.1 he with rfl | he
        · unfold optionLists; rfl
        · obtain ⟨c, hc, rfl⟩ := List.mem_map.1 he
          unfold optionLists; rfl
      have hnil : ∀ es : List Element, (∀ e ∈ es, optionLists e = []) → optionListsAll es = [] := by
        intro es
        induction es with
        | nil => intro _; rfl
        | cons e es ih =>
          intro h
          show optionLists e ++ optionListsAll es = []
          rw [h e (List.mem_cons_self ..), ih fun x hx => h x (List.mem_cons_of_mem _ hx)]
          rfl
      rw [hnil _ this] at hl
      cases hl
    · rw [newFile_imports]; exact List.Pairwise.nil
  have hk : Format.KnownFix q := by
    rcases hq with rfl | hq
    · cases uber2
      · exact .inr (.inl rfl)
      · exact .inr (.inr rfl)
    · exact .inl hq
  have hhead : q.fix = Format.fixNone ∨ q.fileHeader = [] ∨ ∃ lines, IsHeader q.fileHeader lines := by
    rcases hq with rfl | hq
    · rcases hl with ⟨rfl, _⟩ | hl
      · exact .inr (.inl rfl)
      · exact .inr (.inr ⟨_, hl⟩)
    · exact .inl hq
  refine (C98_layout srt q hk hhead es _ hf.1 hnew ?_ hf.2 _).2
    (newFile_formatted srt q hl uber2 path package javaPrefix hq)
  rw [← Format.distinguished_shown, hf.2, Format.distinguished_shown]
  exact hdist

theorem newOptions_base (uber2 : Bool) {path path' : Str} (h : SameName path path') (package javaPrefix : Str) :
    newOptions uber2 path package javaPrefix = newOptions uber2 path' package javaPrefix := by
  have : Protostrs.javaOuterClassname path = Protostrs.javaOuterClassname path' := by
    unfold Protostrs.javaOuterClassname
    rw [h.2.2, if_neg h.1, if_neg h.2.1]
  unfold newOptions
  rw [this]

theorem newText_base (header : Str) (uber2 : Bool) {path path' : Str} (h : SameName path path')
    (package javaPrefix : Str) :
    newText header uber2 path package javaPrefix = newText header uber2 path' package javaPrefix := by
  unfold newText
  rw [newOptions_base uber2 h]

theorem found_base {lines : List Str} {uber2 : Bool} {path path' : Str} (h : SameName path path')
    {package javaPrefix : Str} {es : List Element} (hf : FoundNew lines uber2 path package javaPrefix es) :
    FoundNew lines uber2 path' package javaPrefix es := by
  unfold FoundNew newFile at hf ⊢
  rw [← newOptions_base uber2 h]
  exact hf

/-- The formatter makes of a new file its text and a newline, whether it is asked for `--fix` or not. -/
theorem formats_new {h : Host} {srt : SortSlice} {fix : Bool} {m : Meta} {path content text p package : Str}
    {lines : List Str} (hl : HeaderIs m.protoSet.config.lint.fileHeader lines) (hn : SameName p path)
    (hread : ∀ es, h.parse path content = .ok es →
      FoundNew lines (m.protoSet.config.lint.group = s%"uber2") p package m.protoSet.config.lint.javaPackagePrefix es)
    (hF : Formats h srt fix m path content text) :
    text = newText m.protoSet.config.lint.fileHeader (m.protoSet.config.lint.group = s%"uber2") p package
      m.protoSet.config.lint.javaPackagePrefix ++ s%"\n" := by
  obtain ⟨es, hp, ht⟩ := hF
  have hq : formatsAs fix m.protoSet.config.lint path =
      ⟨path, if decide (m.protoSet.config.lint.group = s%"uber2") = true then Format.fixV2 else Format.fixV1,
        m.protoSet.config.lint.fileHeader, m.protoSet.config.lint.javaPackagePrefix⟩ ∨
      (formatsAs fix m.protoSet.config.lint path).fix = Format.fixNone := by
    unfold formatsAs
    cases fix
    · exact .inr rfl
    · left
      simp only [if_true, decide_eq_true_eq]
  have := found_formatted srt _ hl _ path package _ hq (found_base hn (hread es hp))
  rw [ht, newText_base _ _ hn.symm] at this
  injection this with this
  exact congrArg Prod.fst this

/-! ## The property -/

/-- **A new file is never formatted**: `format --lint` after a successful `create` reports every file
that was made, with `--fix` and without, and ends with exit code 255. -/
theorem C111_reported (ch : Create.Handler) (h : Host) (hwd : IsAbsPath h.wd) (paths : List Str) (w w' : World)
    (hcr : createCmd ch h paths w = (w', .ok ())) (hp : Prints h) (hc : CanPrint h) (o : Order) (srt : SortSlice)
    (args : List Str) (flags : FormatFlags) (hf : flags.lintMode = true ∧ flags.AtMostOne) (m : Meta)
    (hm : Finds h args m) (hdisp : ∀ f, Concerns h m f → File.absClean h.wd f.displayPath = f.path)
    (hcomp : Compiles h {} m w'.disk)
    (ht : ∀ f, Concerns h m f → ∃ content text, w'.disk f.path = some content ∧
      Formats h srt flags.fix m f.path content text)
    (f : File.ProtoFile) (hf' : Concerns h m f) (p : Str) (hpp : p ∈ paths) (hfp : f.path = located h p) :
    (formatCmd h o srt args flags w').2 = .error (.exit 255 []) ∧
      ∃ before after, (formatCmd h o srt args flags w').1.out = w'.out ++ before ++ lineOf h (formatDiff f) ++ after := by
  have ht' : ∀ f, ∃ text, Concerns h m f → ∃ content, w'.disk f.path = some content ∧
      Formats h srt flags.fix m f.path content text := by
    intro f
    rcases Classical.em (Concerns h m f) with hf | hf
    · obtain ⟨c, t, h1, h2⟩ := ht f hf
      exact ⟨t, fun _ => ⟨c, h1, h2⟩⟩
    · exact ⟨[], fun h => absurd h hf⟩
  obtain ⟨text, htext⟩ := Classical.axiomOfChoice ht'
  obtain ⟨files, hmem, _, hrun⟩ := C83_lint h hp hc o srt args flags hf m hm hdisp w' hcomp text htext
  have hin : f ∈ files := by
    refine (hmem f).2 ⟨hf', fun he => ?_⟩
    obtain ⟨p', _, _, c, package, _, _, hd⟩ := C39_written ch h hwd w w' paths hcr p hpp
    rw [hfp, hd] at he
    injection he with he
    obtain ⟨content, _, es, _, htr⟩ := htext f hf'
    rw [← he] at htr
    exact newText_not_canonical _ _ _ _ _ (C34_ends srt _ es _ _ htr)
  rw [hrun]
  constructor
  · show (if files = [] then _ else _) = _
    rw [if_neg (List.ne_nil_of_mem hin)]
  · obtain ⟨a, b, rfl⟩ := List.append_of_mem hin
    refine ⟨a.flatMap fun f => lineOf h (formatDiff f), b.flatMap fun f => lineOf h (formatDiff f), ?_⟩
    simp

/-- **All that `format` does to a new file is to add the newline at its end**: after an overwriting
run that ended well, with `--fix` or without, every file that `create` made holds its text and a
newline. Part of the property: `C111_reported` is the rest. The parser is to read the new text as
what it declares. -/
theorem C111_newline_partial (ch : Create.Handler) (h : Host) (hwd : IsAbsPath h.wd) (paths : List Str) (w w' : World)
    (hcr : createCmd ch h paths w = (w', .ok ())) (hp : Prints h) (o : Order) (srt : SortSlice)
    (args : List Str) (flags : FormatFlags) (hf : flags.overwrite = true) (m : Meta)
    (hm : Finds h args m) (hd : Distinct m) (hok : (formatCmd h o srt args flags w').2 = .ok ())
    (f : File.ProtoFile) (hf' : Concerns h m f) (p : Str) (hpp : p ∈ paths) (hfp : f.path = located h p)
    (lines : List Str) (hl : HeaderIs m.protoSet.config.lint.fileHeader lines)
    (hconfig : ∀ p' ∈ paths, located h p' = located h p →
      getConfig ch h p' = some (.ok m.protoSet.config) ∧ SameName p' f.path)
    (hread : ∀ p' ∈ paths, ∀ package es,
      getPkg ch h m.protoSet.config p' (if m.protoSet.config.lint.group = s%"uber2" then s%"uber.prototool.generated.v1"
        else s%"uber.prototool.generated") = .ok package →
      h.parse f.path (newText m.protoSet.config.lint.fileHeader (m.protoSet.config.lint.group = s%"uber2") p' package
        m.protoSet.config.lint.javaPackagePrefix) = .ok es →
      FoundNew lines (m.protoSet.config.lint.group = s%"uber2") p' package m.protoSet.config.lint.javaPackagePrefix es) :
    ∃ text, w'.disk f.path = some text ∧
      (formatCmd h o srt args flags w').1.disk f.path = some (text ++ s%"\n") := by
  obtain ⟨p', hp', hloc, c, package, hgc, hpk, hdisk⟩ := C39_written ch h hwd w w' paths hcr p hpp
  obtain ⟨hgc', hname⟩ := hconfig p' hp' hloc
  rw [hgc] at hgc'
  have hc : c = m.protoSet.config := by
    injection hgc' with e; injection e
  subst hc
  rw [← hfp] at hdisk
  obtain ⟨content, text, h1, h2, h3⟩ := C38_overwritten h hp o srt args flags hf m hm hd w' hok f hf'
  rw [hdisk] at h1
  injection h1 with h1
  subst h1
  refine ⟨_, hdisk, ?_⟩
  rw [h3, formats_new hl hname (fun es hes => hread p' hp' package es hpk hes) h2]

/-- With the newline it is formatted: `format` makes of it what it is. -/
theorem C111_formatted (h : Host) (srt : SortSlice) (fix : Bool) (m : Meta) (path p package text : Str)
    (lines : List Str) (hl : HeaderIs m.protoSet.config.lint.fileHeader lines) (hn : SameName p path)
    (ht : text = newText m.protoSet.config.lint.fileHeader (m.protoSet.config.lint.group = s%"uber2") p package
      m.protoSet.config.lint.javaPackagePrefix ++ s%"\n") (es : List Element)
    (hparse : h.parse path text = .ok es)
    (hread : FoundNew lines (m.protoSet.config.lint.group = s%"uber2") p package
      m.protoSet.config.lint.javaPackagePrefix es) (text' : Str) :
    Formats h srt fix m path text text' ↔ text' = text := by
  have hq : formatsAs fix m.protoSet.config.lint path =
      ⟨path, if decide (m.protoSet.config.lint.group = s%"uber2") = true then Format.fixV2 else Format.fixV1,
        m.protoSet.config.lint.fileHeader, m.protoSet.config.lint.javaPackagePrefix⟩ ∨
      (formatsAs fix m.protoSet.config.lint path).fix = Format.fixNone := by
    unfold formatsAs
    cases fix
    · exact .inr rfl
    · left
      simp only [if_true, decide_eq_true_eq]
  constructor
  · intro hF
    rw [ht]
    refine formats_new (p := p) (package := package) hl hn (fun es' hes' => ?_) hF
    rw [hparse] at hes'
    injection hes' with hes'
    subst hes'
    exact hread
  · rintro rfl
    refine ⟨es, hparse, ?_⟩
    have := found_formatted srt _ hl _ path package _ hq (found_base hn hread)
    rw [this, ← newText_base _ _ hn, ← ht]

/-! ## The theorems are about something -/

namespace NewFileExample

/-- The file that is created. -/
def name : Str := s%"other/y/c.proto"

/-- Its text. -/
def text : Str := newText s%"// Header" true name s%"other.y" s%"org"

/-- What the parser finds in it, with the place of the header. -/
def found : List Element :=
  newFile [{ position := { line := 1, column := 1 }, lines := [s%" Header"] }] true name s%"other.y" s%"org"

/-- The configuration the file is created with. -/
def config : Settings.Config :=
  match getConfig createHandler createHost name with
  | some (.ok c) => c
  | _ => Spec.Sample.config

/-- The directory of the file. -/
def dirOf : Meta where
  protoSet :=
    { workDirPath := s%"/w", dirPath := s%"/w/other/y"
      dirPathToFiles := [(s%"/w/other/y", [⟨s%"/w/other/y/c.proto", name⟩])]
      config := config }

/-- A host on which the directory is found and the file is read. -/
def host : Host :=
  { createHost with
    getForDir := fun _ p => if p = s%"other/y" then .ok dirOf.protoSet else .error s%"no such directory"
    parse := fun _ c => if c = text ∨ c = text ++ s%"\n" then .ok found else .error s%"cannot be parsed" }

/-- Nothing is there. -/
def empty : World := ⟨fun _ => none, [], []⟩

theorem header : config.lint.fileHeader = s%"// Header" ∧ config.lint.group = s%"uber2" ∧
    config.lint.javaPackagePrefix = s%"org" := by decide +kernel

theorem isHeader : HeaderIs config.lint.fileHeader [s%" Header"] := by
  rw [header.1]
  exact .inr ⟨by decide, rfl, by decide⟩

theorem isFound : FoundNew [s%" Header"] true name s%"other.y" s%"org" found := by
  refine ⟨?_, rfl⟩
  simp [found, newFile, newOptions, AllSpoken, Spoken]

theorem created : (createCmd createHandler host [name] empty).2 = .ok () := by decide +kernel

set_option maxRecDepth 100000 in
theorem disk : (createCmd createHandler host [name] empty).1.disk s%"/w/other/y/c.proto" = some text := by decide +kernel

theorem abs : IsAbsPath host.wd :=
  ⟨[s%"w"], by intro c hc; simp at hc; subst hc; refine ⟨?_, ?_, ?_, ?_⟩ <;> decide, rfl⟩

theorem finds : Finds host [s%"other/y"] dirOf := ⟨s%"other/y", .inl rfl, .inl ⟨rfl, rfl, rfl⟩⟩

theorem concerns {f : File.ProtoFile} : Concerns host dirOf f ↔ f = ⟨s%"/w/other/y/c.proto", name⟩ := by
  constructor
  · rintro ⟨⟨d, fs, hm, _, hf⟩, _⟩
    simp only [dirOf, List.mem_singleton, Prod.mk.injEq] at hm
    obtain ⟨rfl, rfl⟩ := hm
    simpa using hf
  · rintro rfl
    exact ⟨⟨_, _, List.mem_singleton.2 rfl, List.prefix_refl _, List.mem_singleton.2 rfl⟩, .inl rfl⟩

theorem sameName : SameName name s%"/w/other/y/c.proto" := ⟨by decide, by decide, by decide +kernel⟩

theorem text_eq : text = newText config.lint.fileHeader (config.lint.group = s%"uber2") name s%"other.y"
    config.lint.javaPackagePrefix := by
  rw [header.1, header.2.1, header.2.2]; rfl

theorem parsed (path c : Str) (hc : c = text ∨ c = text ++ s%"\n") : host.parse path c = .ok found := by
  have : host.parse path c = if c = text ∨ c = text ++ s%"\n" then .ok found else .error s%"cannot be parsed" := rfl
  rw [this, if_pos hc]

theorem formats (fix : Bool) : Formats host .stable fix dirOf s%"/w/other/y/c.proto" text (text ++ s%"\n") := by
  refine ⟨found, parsed _ _ (.inl rfl), ?_⟩
  have hq : formatsAs fix config.lint s%"/w/other/y/c.proto" =
      ⟨s%"/w/other/y/c.proto", if true = true then Format.fixV2 else Format.fixV1, s%"// Header", s%"org"⟩ ∨
      (formatsAs fix config.lint s%"/w/other/y/c.proto").fix = Format.fixNone := by
    unfold formatsAs
    cases fix
    · exact .inr rfl
    · left
      rw [header.1, header.2.1, header.2.2]
      rfl
  have := found_formatted .stable _ (header.1 ▸ isHeader) true s%"/w/other/y/c.proto" s%"other.y" s%"org" hq
    (found_base sameName isFound)
  rw [newText_base _ _ sameName.symm] at this
  exact this

/-- The examples below are about such a world. -/
example : ∃ w', createCmd createHandler host [name] empty = (w', .ok ()) ∧
    w'.disk s%"/w/other/y/c.proto" = some text := ⟨_, Prod.ext rfl created, disk⟩

/-- `format --lint` reports the file that has just been created. -/
example (w' : World) (hcr : createCmd createHandler host [name] empty = (w', .ok ()))
    (hw : w'.disk s%"/w/other/y/c.proto" = some text) (fix : Bool) :
    (formatCmd host .id .stable [s%"other/y"] { lintMode := true, fix := fix } w').2 = .error (.exit 255 []) :=
  (C111_reported createHandler host abs [name] empty w' hcr (fun _ _ => rfl) ⟨⟨_, rfl⟩, fun h => by cases h⟩ .id
    .stable [s%"other/y"] { lintMode := true, fix := fix } ⟨rfl, by simp [FormatFlags.AtMostOne]⟩ dirOf finds
    (fun f hf => by rw [concerns.1 hf]; decide +kernel) ⟨[], rfl⟩
    (fun f hf => by rw [concerns.1 hf]; exact ⟨_, _, hw, formats fix⟩) _ (concerns.2 rfl) name (List.mem_singleton.2 rfl)
    (by decide +kernel)).1

theorem configured : getConfig createHandler host name = some (.ok config) := by rfl

theorem packaged : getPkg createHandler host config name s%"uber.prototool.generated.v1" = .ok s%"other.y" := by rfl

/-- `format --overwrite` adds a newline to it. -/
example (w' : World) (hcr : createCmd createHandler host [name] empty = (w', .ok ()))
    (hw : w'.disk s%"/w/other/y/c.proto" = some text) (fix : Bool) :
    (formatCmd host .id .stable [s%"other/y"] { overwrite := true, fix := fix } w').1.disk s%"/w/other/y/c.proto" =
      some (text ++ s%"\n") := by
  have hd : Distinct dirOf := by unfold Distinct; decide
  have hok : (formatCmd host .id .stable [s%"other/y"] { overwrite := true, fix := fix } w').2 = .ok () := by
    refine (C38_exit_zero host (fun _ _ => rfl) .id .stable [s%"other/y"] { overwrite := true, fix := fix } dirOf finds hd
      w').2 ⟨by simp [FormatFlags.AtMostOne], ⟨_, rfl⟩, ⟨[], rfl⟩, fun f hf => ?_⟩
    rw [concerns.1 hf]
    exact ⟨_, _, hw, formats fix, .inr ⟨rfl, rfl⟩⟩
  obtain ⟨t, h1, h2⟩ := C111_newline_partial createHandler host abs [name] empty w' hcr (fun _ _ => rfl) .id .stable
    [s%"other/y"] { overwrite := true, fix := fix } rfl dirOf finds hd hok _ (concerns.2 rfl) name (List.mem_singleton.2 rfl)
    (by decide +kernel) [s%" Header"] isHeader
    (fun p' hp' _ => by cases List.mem_singleton.1 hp'; exact ⟨configured, sameName⟩)
    (fun p' hp' package es hpk hes => by
      cases List.mem_singleton.1 hp'
      have e : dirOf.protoSet.config = config := rfl
      rw [e, header.2.1, if_pos rfl, packaged] at hpk
      injection hpk with hpk
      subst hpk
      rw [e, ← text_eq, parsed _ _ (.inl rfl)] at hes
      injection hes with hes
      subst hes
      rw [e, header.2.1, header.2.2]
      exact isFound)
  have hw' : w'.disk s%"/w/other/y/c.proto" = some t := h1
  rw [hw] at hw'
  injection hw' with hw'
  subst hw'
  exact h2

/-- Then it is formatted. -/
example (fix : Bool) (text' : Str) :
    Formats host .stable fix dirOf s%"/w/other/y/c.proto" (text ++ s%"\n") text' ↔ text' = text ++ s%"\n" :=
  C111_formatted host .stable fix dirOf s%"/w/other/y/c.proto" name s%"other.y" (text ++ s%"\n") [s%" Header"] isHeader
    sameName (by rw [text_eq]; rfl) found (parsed _ _ (.inr rfl)) (by
      have e : dirOf.protoSet.config = config := rfl
      rw [e, header.2.1, header.2.2]
      exact isFound) text'

end NewFileExample

end Verif.Props
