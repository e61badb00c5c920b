import Verif.Proof.ReadTwice
import Verif.Props.Create
import Verif.Props.Format

/-!
# C87: the formatted text declares what the file declares

`readFile` reads the text of a file back: it cuts the text into tokens (`tokensOf`) and reads
declarations by the grammar of protobuf. It knows nothing of the formatter. It drops comments, so
what is read is compared with the declarations without comments (`bareAll`). `FileFits` says that
the names, values and labels are some that can be in a file.
-/

namespace Verif.Props

open Verif Str Proto Spec Format Create

/-- **The text of a formatted file reads as the declarations of the file**, in the order of the
formatter: the syntax, the package, the options and the imports by name, and all other declarations
as they come, with the options of fields, enum values and RPCs by name. -/
theorem C87_read (srt : SortSlice) (q : Params) (hq : q.fix = fixNone) (es : List Element) (hf : FileFits es)
    (text : Str) (h : transform srt q es = .ok (text, [])) :
    ∃ (sort : List Opt → List Opt) (imports : List Import),
      (∀ l, (sort l).Perm l ∧ OptionsInOrder (sort l)) ∧
      imports.Perm (importsAmong es) ∧ ImportsInOrder imports ∧
      readFile text = some (bareAll (tidyFile sort (fun _ => imports) es)) := by
  refine ⟨sortOpts srt, sortImps srt (importsAmong es),
    fun l => ⟨srt.perm _ l, srt.sorted _ l (SWO.str.on Opt.name)⟩, srt.perm _ _,
    srt.sorted _ _ (SWO.str.on Import.filename), ?_⟩
  rw [read_transform (.inl hq) h hf fun h => absurd hq h, bare_sections, bare_sections_plain]
  have : optionsOf q es = optionsAmong es := by unfold optionsOf; rw [if_pos hq]
  rw [this]

/-- With `--fix` it reads as the file with the managed options replaced (`fixedFile`), if the header
is made of comments and neither the name of the file nor the Java prefix has quotes, backslashes or
newlines in it. -/
theorem C87_read_fix (srt : SortSlice) (q : Params) (hq : q.fix = fixV1 ∨ q.fix = fixV2)
    (hh : tokensOf q.fileHeader = some []) (hn : Quotable q.filename) (hj : Quotable q.javaPackagePrefix)
    (es : List Element) (hf : FileFits es) (text : Str) (h : transform srt q es = .ok (text, [])) :
    ∃ (sort : List Opt → List Opt) (imports : List Import),
      (∀ l, (sort l).Perm l ∧ OptionsInOrder (sort l)) ∧
      imports.Perm (importsAmong es) ∧ ImportsInOrder imports ∧
      readFile text = some (bareAll (tidyFile sort (fun _ => imports) (fixedFile q es))) := by
  refine ⟨sortOpts srt, sortImps srt (importsAmong es),
    fun l => ⟨srt.perm _ l, srt.sorted _ l (SWO.str.on Opt.name)⟩, srt.perm _ _,
    srt.sorted _ _ (SWO.str.on Import.filename), ?_⟩
  rw [read_transform (.inr hq) h hf fun _ => ⟨hh, hn, hj⟩, bare_sections, bare_sections]

/-- A header from the configuration that is not marked as commented is made of comments. -/
theorem C87_header (h : Settings.Host) (e : Settings.ExternalConfig) (dirPath header : Str)
    (hc : e.fileHeaderIsCommented = false) (hh : Settings.fileHeaderOf h e dirPath = .ok header) :
    tokensOf header = some [] := by
  unfold Settings.fileHeaderOf at hh
  split at hh
  · split at hh
    · cases hh
    · split at hh
      · cases hh
      · rename_i content _
        dsimp only at hh
        rw [hc, show ∀ a b : List Str, (if (!false) = true then a else b) = a from fun _ _ => rfl] at hh
        split at hh
        · cases hh
        · cases hh
          refine comments _ fun l hl => ?_
          obtain ⟨w, hw, rfl⟩ := List.mem_map.1 hl
          unfold Settings.getFileHeaderLines at hw
          obtain ⟨v, hv, rfl⟩ := List.mem_map.1 hw
          have hn : '\n' ∉ trimSpace v := fun hm =>
            splitChar_no_sep hv ((quotable_outer.trimSpace_sublist v).subset hm)
          unfold Settings.commentLine
          split
          · exact ⟨[], List.not_mem_nil, rfl⟩
          · exact ⟨' ' :: trimSpace v, by simpa using hn, rfl⟩
  · cases hh; rfl
where
  inside (p l : Str) (hl : '\n' ∉ l) : lexFrom false ⟨[], .line p⟩ l = some ⟨[], .line (p ++ l)⟩ := by
    induction l generalizing p with
    | nil => rw [List.append_nil]; rfl
    | cons c l ih =>
      have hc : c ≠ '\n' := fun e => hl (e ▸ List.mem_cons_self ..)
      have : lexStep false ⟨[], .line p⟩ c = some ⟨[], .line (p ++ [c])⟩ := by
        unfold lexStep; dsimp only; rw [if_neg hc]
      unfold lexFrom
      rw [this]
      have := ih (p ++ [c]) fun hm => hl (List.mem_cons_of_mem _ hm)
      rw [List.append_assoc, List.singleton_append] at this
      exact this
  comments : ∀ ls : List Str, (∀ l ∈ ls, ∃ t, '\n' ∉ t ∧ l = s%"//" ++ t) →
      tokensOf (join s%"\n" ls) = some []
    | [], _ => rfl
    | [l], hl => by
      obtain ⟨t, ht, rfl⟩ := hl l (List.mem_cons_self ..)
      show (lexFrom false ⟨[], .line []⟩ t).bind (lexEnd false) = some []
      rw [inside [] t ht]
      rfl
    | l :: m :: ls, hl => by
      have ih := comments (m :: ls) fun x hx => hl x (List.mem_cons_of_mem _ hx)
      obtain ⟨t, ht, rfl⟩ := hl l (List.mem_cons_self ..)
      show (lexFrom false ⟨[], .between⟩ ((s%"//" ++ t ++ s%"\n") ++ join s%"\n" (m :: ls))).bind (lexEnd false) = some []
      have := closed_comment (keep := false) ht [] (join s%"\n" (m :: ls))
      rw [this]
      exact ih

/-- Putting a file in order changes no declaration: it has the same syntax and package, the same
options and imports in another order, and the other declarations in the same order. -/
theorem C87_same (sort : List Opt → List Opt) (hsort : ∀ l, (sort l).Perm l) (imports : List Import)
    (es : List Element) (himp : imports.Perm (importsAmong es)) :
    let read := bareAll (tidyFile sort (fun _ => imports) es)
    (syntaxesAmong read).map (·.value) = (syntaxesAmong es).map (·.value) ∧
    (packagesAmong read).map (·.name) = (packagesAmong es).map (·.name) ∧
    (optionsAmong read).Perm ((optionsAmong es).map bareOption) ∧
    ((importsAmong read).map fun i => (i.filename, i.kind)).Perm
      ((importsAmong es).map fun i => (i.filename, i.kind)) ∧
    read.filter staysPut = bareAll (tidyAll sort (es.filter staysPut)) := by
  have h1 : ∀ l, syntaxesAmong (bareAll l) = (syntaxesAmong l).map fun s => { value := s.value } :=
    bare_among _ _ (fun _ => rfl) fun e => by cases e <;> (unfold bare; rfl)
  have h2 : ∀ l, packagesAmong (bareAll l) = (packagesAmong l).map fun s => { name := s.name } :=
    bare_among _ _ (fun _ => rfl) fun e => by cases e <;> (unfold bare; rfl)
  have h3 : ∀ l, optionsAmong (bareAll l) = (optionsAmong l).map bareOption :=
    bare_among _ _ (fun _ => rfl) fun e => by cases e <;> (unfold bare; rfl)
  have h4 : ∀ l, importsAmong (bareAll l) =
      (importsAmong l).map fun s => { filename := s.filename, kind := s.kind } :=
    bare_among _ _ (fun _ => rfl) fun e => by cases e <;> (unfold bare; rfl)
  dsimp only
  rw [h1, h2, h3, h4, tidyFile_syntaxes, tidyFile_packages, tidyFile_options, tidyFile_imports]
  simp only [List.map_map, Function.comp_def]
  refine ⟨trivial, trivial, (hsort _).map _, himp.map _, ?_⟩
  rw [bare_filter_kept]
  have hk : ∀ l : List Element, (∀ e ∈ l, staysPut e = false) → l.filter staysPut = [] := fun l hl =>
    List.filter_eq_nil_iff.2 fun e he => by simp [hl e he]
  have hr : (tidyAll sort ((es.dropWhile isComment).filter staysPut)).filter staysPut =
      tidyAll sort ((es.dropWhile isComment).filter staysPut) := by
    refine List.filter_eq_self.2 fun e he => ?_
    rw [tidyAll_eq] at he
    obtain ⟨d, hd, rfl⟩ := List.mem_map.1 he
    rw [tidy_stays]
    exact (List.mem_filter.1 hd).2
  unfold tidyFile
  simp only [List.filter_append]
  rw [hk ((syntaxesAmong es).map .syntax) fun e he => by obtain ⟨_, _, rfl⟩ := List.mem_map.1 he; rfl,
    hk ((packagesAmong es).map .package) fun e he => by obtain ⟨_, _, rfl⟩ := List.mem_map.1 he; rfl,
    hk ((sort (optionsAmong es)).map .option) fun e he => by obtain ⟨_, _, rfl⟩ := List.mem_map.1 he; rfl,
    hk (imports.map .import) fun e he => by obtain ⟨_, _, rfl⟩ := List.mem_map.1 he; rfl, hr]
  simp only [List.append_nil]
  rw [bareAll_append, bareAll_comments fun e he => mem_takeWhile (List.mem_filter.1 he).1, List.nil_append,
    bareAll_rest, bareAll_rest, filter_kept_drop]

/-- Formatting what was read from a formatted text without comments gives that text again. -/
theorem C87_fixed_point (srt : SortSlice) (q : Params) (hq : q.fix = fixNone) (es : List Element)
    (hf : FileFits es) (hb : bareAll es = es)
    (ho : ∀ l ∈ sortedLists es, (l.map (·.name)).Nodup)
    (hi : ((importsAmong es).map (·.filename)).Nodup)
    (text : Str) (h : transform srt q es = .ok (text, [])) :
    ∃ read, readFile text = some read ∧ transform srt q read = .ok (text, []) := by
  refine ⟨tidyFile (sortOpts srt) (sortImps srt) es, ?_, ?_⟩
  · rw [read_transform (.inl hq) h hf fun h => absurd hq h, bare_sections]
    have : optionsOf q es = optionsAmong es := by unfold optionsOf; rw [if_pos hq]
    rw [this, ← bare_sections_plain, bare_tidyFile (sort := sortOpts srt) (fun l => srt.perm _ l)
      (sortImports := sortImps srt) (fun l => srt.perm _ l) hb]
  · rw [C36_distinct srt q hq es ho hi, h]

theorem fits_new {q : Params} {uber2 : Bool} {path package javaPrefix : Str} (hn : Quotable path)
    (hj : Quotable javaPrefix) (hp : IsWord package) :
    ∀ o ∈ newOptions uber2 path package javaPrefix, OptionFits o := by
  intro o ho
  refine fits_managed (q := ⟨path, if uber2 then fixV2 else fixV1, [], javaPrefix⟩) hn hj hp (os := [])
    (fun _ h => (List.not_mem_nil h).elim) o ?_
  cases uber2
  · exact ho
  · simp only [newOptions, if_true, List.mem_cons, List.not_mem_nil, or_false] at ho
    show o ∈ managedOptions _ _ _
    unfold managedOptions
    simp only [if_true, List.mem_append, List.mem_cons, List.not_mem_nil, or_false]
    rcases ho with rfl | rfl | rfl | rfl | rfl | rfl | rfl
    · exact .inr (.inl rfl)
    · exact .inl (.inl rfl)
    · exact .inl (.inr (.inl rfl))
    · exact .inl (.inr (.inr (.inl rfl)))
    · exact .inl (.inr (.inr (.inr rfl)))
    · exact .inr (.inr (.inl rfl))
    · exact .inr (.inr (.inr rfl))

theorem tokensOf_newline (s : Str) : tokensOf (s ++ s%"\n") = tokensOf s := by
  unfold tokensOf lex
  rw [lexFrom_append]
  cases lexFrom false ⟨[], .between⟩ s with
  | none => rfl
  | some l =>
    obtain ⟨ts, m⟩ := l
    cases m <;> first | rfl | exact congrArg some (by simp [said])

/-- **The text of a created file reads as the syntax, the package and the options.** -/
theorem C87_create (header : Str) (uber2 : Bool) (path package javaPrefix : Str)
    (hheader : CleanLines header ∧ Trimmed header) (hh : tokensOf header = some [])
    (hn : Quotable path) (hj : Quotable javaPrefix) (hp : IsWord package) :
    readFile (newText header uber2 path package javaPrefix) =
      some (newFile [] uber2 path package javaPrefix) := by
  have hfit : ∀ isProto2, ElementsFit isProto2 .none (newFile [] uber2 path package javaPrefix) := by
    intro isProto2
    refine elementsFit_iff.2 fun e he => ?_
    unfold newFile at he
    rcases List.mem_cons.1 he with rfl | he
    · unfold ElementFits
      exact ⟨rfl, fun l h => (List.not_mem_nil h).elim, fun l h => (List.not_mem_nil h).elim, rfl⟩
    rcases List.mem_cons.1 he with rfl | he
    · unfold ElementFits
      exact ⟨rfl, fun l h => (List.not_mem_nil h).elim, fun l h => (List.not_mem_nil h).elim, hp⟩
    · obtain ⟨o, ho, rfl⟩ := List.mem_map.1 he
      unfold ElementFits
      exact fits_new (q := plainly) hn hj hp o ho
  have h := C41_format_fix .stable [] header uber2 path package javaPrefix hheader fun _ => rfl
  have hk : KnownFix ⟨path, if uber2 then Format.fixV2 else Format.fixV1, header, javaPrefix⟩ := by
    cases uber2
    · exact .inr (.inl rfl)
    · exact .inr (.inr rfl)
  have hr := read_transform hk h (fun b _ => hfit b) fun _ => ⟨hh, hn, hj⟩
  have e1 : ∀ s : Str, readFile (s ++ s%"\n") = readFile s := fun s => by
    unfold readFile; rw [tokensOf_newline]
  rw [e1, bare_sections] at hr
  rw [hr]
  have hso : sortOpts .stable (optionsOf ⟨path, if uber2 then Format.fixV2 else Format.fixV1, header, javaPrefix⟩
      (newFile [] uber2 path package javaPrefix)) = newOptions uber2 path package javaPrefix := by
    unfold sortOpts
    exact run_sorted .stable (·.name) (newOptions_optionsOf [] uber2 path package javaPrefix header _ (.inl rfl))
      (newOptions_sorted uber2 path package javaPrefix)
  rw [hso]
  unfold sections
  rw [newFile_syntaxes, newFile_packages, newFile_imports]
  have hrest : ((newFile [] uber2 path package javaPrefix).dropWhile isComment).filter staysPut = [] := by
    refine List.filter_eq_nil_iff.2 fun e he => ?_
    have he : e ∈ newFile [] uber2 path package javaPrefix := (List.dropWhile_sublist _).subset he
    unfold newFile at he
    rcases List.mem_cons.1 he with rfl | he
    · decide
    rcases List.mem_cons.1 he with rfl | he
    · simp [staysPut]
    · obtain ⟨o, ho, rfl⟩ := List.mem_map.1 he
      simp [staysPut]
  rw [hrest, show sortImps .stable [] = [] from rfl, tidyAll_nil, List.map_nil, List.append_nil, List.append_nil]
  refine congrArg some (bareAll_eq_iff.2 fun e he => ?_)
  rcases List.mem_cons.1 he with rfl | he
  · exact ⟨rfl, by unfold bare; rfl⟩
  rcases List.mem_cons.1 he with rfl | he
  · exact ⟨rfl, by unfold bare; rfl⟩
  · obtain ⟨o, ho, rfl⟩ := List.mem_map.1 he
    refine ⟨rfl, ?_⟩
    unfold bare
    congr 1
    cases uber2
    all_goals
      simp only [newOptions, if_true, Bool.false_eq_true, if_false, List.mem_cons, List.not_mem_nil, or_false] at ho
    · rcases ho with rfl | rfl | rfl | rfl <;>
        (simp only [bareOption, quoted, Literal.str, Literal.plain, bareValue]; rfl)
    · rcases ho with rfl | rfl | rfl | rfl | rfl | rfl | rfl <;>
        (simp only [bareOption, quoted, Literal.str, Literal.plain, bareValue]; rfl)

/-! ## What a file may have that the text does not show -/

/-- `message M { optional string a = 1; }` in proto3. -/
def labelled (optional : Bool) : List Element :=
  [.syntax { value := s%"proto3" },
   .message { name := s%"M" }
     [.normalField { optional := optional, field := { name := s%"a", type := s%"string", sequence := 1 } }]]

/-- In proto3 the label `optional` of a field is not printed: the text reads as a field without it. -/
theorem C87_not : ∃ text, transform .stable plainly (labelled true) = .ok (text, []) ∧
    readFile text = some (labelled false) :=
  ⟨s%"syntax = \"proto3\";\n\nmessage M {\n  string a = 1;\n}\n", by rfl, by rfl⟩

/-! ## The theorems are about something -/

/-- A file with a declaration of each kind. -/
def manifold : List Element :=
  [.comment { position := Sample.at_ 1 1, lines := [s%" A file."] },
   .syntax { value := s%"proto2" },
   .import { filename := s%"b.proto", kind := s%"public" },
   .import { filename := s%"a.proto" },
   .package { name := s%"foo.v1" },
   .option { name := s%"(foo.bar).baz", constant := .mk [] false '"' [] [(s%"x", .plain s%"1"), (s%"y", .str s%"a\\\"b")] },
   .option { name := s%"go_package", constant := .str s%"foov1" },
   .message { name := s%"M" }
     [.normalField { required := true, field := { name := s%"id", type := s%"string", sequence := 1, options :=
         [{ name := s%"json_name", constant := .str s%"x" },
          { name := s%"deprecated", constant := .plain s%"true" }] } },
      .mapField { keyType := s%"string", field := { name := s%"names", type := s%"M", sequence := 2 } },
      .oneof { name := s%"either" }
        [.oneofField { name := s%"left", type := s%"int32", sequence := 3 },
         .oneofField { name := s%"right", type := s%"int32", sequence := 4 }],
      .reserved { ranges := [⟨5, 6, false⟩, ⟨8, 8, false⟩] },
      .reserved { fieldNames := [s%"old", s%"older"] },
      .extensions { ranges := [⟨100, 100, true⟩] },
      .group { name := s%"G", optional := true, sequence := 9 } [],
      .enum { name := s%"E" } [.enumField { name := s%"ZERO", integer := 0 } [],
        .enumField { name := s%"MINUS", integer := -1 } [.option { name := s%"deprecated", constant := .plain s%"true" }]]],
   .message { name := s%"M", isExtend := true } [],
   .service { name := s%"S" }
     [.rpc { name := s%"Get", requestType := s%"M", returnsType := s%"M", streamsReturns := true } [],
      .rpc { name := s%"Put", requestType := s%"M", returnsType := s%"M" }
        [.option { name := s%"deprecated", constant := .plain s%"false" }]]]

example : (transform .stable plainly manifold).toOption.map (·.2) = some [] := by decide +kernel

theorem optionFits_iff {o : Opt} : OptionFits o ↔
    CommentFits o.comment ∧ CommentFits o.inlineComment ∧ IsName o.name ∧ ValueFits o.constant :=
  ⟨fun h => ⟨h.1, h.2, h.3, h.4⟩, fun h => ⟨h.1, h.2.1, h.2.2.1, h.2.2.2⟩⟩

theorem fieldFits_iff {f : Field} : FieldFits f ↔
    CommentFits f.comment ∧ CommentFits f.inlineComment ∧ IsWord f.name ∧ IsWord f.type ∧
      ∀ o ∈ f.options, OptionFits o :=
  ⟨fun h => ⟨h.1, h.2, h.3, h.4, h.5⟩, fun h => ⟨h.1, h.2.1, h.2.2.1, h.2.2.2.1, h.2.2.2.2⟩⟩

theorem onlyOption_cons {e : Element} {es : List Element} :
    (∀ x ∈ e :: es, OnlyOption x) ↔ OnlyOption e ∧ ∀ x ∈ es, OnlyOption x := List.forall_mem_cons

theorem optionsFit_cons {e : Opt} {es : List Opt} :
    (∀ x ∈ e :: es, OptionFits x) ↔ OptionFits e ∧ ∀ x ∈ es, OptionFits x := List.forall_mem_cons

theorem onlyOption_nil : (∀ x ∈ ([] : List Element), OnlyOption x) ↔ True := by simp

theorem optionsFit_nil : (∀ x ∈ ([] : List Opt), OptionFits x) ↔ True := by simp

theorem manifold_fits : FileFits manifold := by
  intro b hb
  obtain rfl : true = b := Option.some.inj hb
  unfold manifold
  simp only [ElementsFit, ElementFits, fieldFits_iff, onlyOption_cons, onlyOption_nil, optionsFit_cons,
    optionsFit_nil, OnlyOption]
  simp only [optionFits_iff, ValueFits, ListFits, EntriesFit, EntryFits,
    CommentFits, IsWord, IsName, LabelFits, Literal.plain, Literal.str, if_true, if_false, Bool.false_eq_true]
  repeat' apply And.intro
  all_goals first | trivial | decide +kernel | (simp [holdsMessages]; done) |
    (simp [ValueFits, IsWord]; decide +kernel)

/-- What is read from its text has no comments. -/
example : bareAll (bareAll manifold) = bareAll manifold := by rfl
example : ∀ l ∈ sortedLists (bareAll manifold), (l.map (·.name)).Nodup := by decide +kernel
example : (bareAll manifold).length = 9 ∧ (importsAmong (bareAll manifold)).length = 2 := by decide +kernel

/-- The conditions on a created file. -/
example : tokensOf s%"// One\n//\n// two" = some [] ∧ tokensOf s%"/* One */" = some [] := by decide +kernel
example : Quotable s%"foo/bar.proto" := by unfold Quotable; decide
example : ¬ Quotable s%"foo/\"bar.proto" := by unfold Quotable; decide
example : IsWord s%"foo.v1" := by unfold IsWord; decide

/-- Without the condition on the name of the file `--fix` writes a string that ends too early. -/
example : ((transform .stable ⟨s%"a\"b.proto", fixV1, [], []⟩
    [.syntax { value := s%"proto3" }, .package { name := s%"foo" }]).toOption.map fun r =>
      ((readFile r.1).isSome, r.2.length)) = some (false, 0) := by decide +kernel

end Verif.Props
