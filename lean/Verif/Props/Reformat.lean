import Verif.Proof.ReformatRules
import Verif.Props.Comments

/-!
# C90: lint finds no more after formatting

`Reformatted` says of two files that the second is read from the formatted text of the first. The
lexer of `readFile` leaves out comments, so for rules about comments the theorem is about files that
are `Reprinted`: the second has the declarations of the first in the order of the formatter, each
with the comment that the formatter prints for it. Props/ReformatRead derives this from what is read
with comments.

Two rules are left out: COMMENTS_NO_C_STYLE and FILE_HEADER look at how comments are written. Seven
rules look for the name of the declaration and a space at the beginning of its comment, which
formatting can cut off at the end of a line (`C90_not_trailing`). The rule about the order of
services and their messages compares lines, and before formatting both can be on the same line
(`C90_not_line`).
-/

namespace Verif.Props

open Verif Str Proto Spec Format Lint Reform

theorem reprinted_of {srt : SortSlice} {q : Params} (hq : q.fix = fixNone) {d d' : FileDescriptor}
    (h : Reformatted srt q d d') : Reprinted (fun _ => none) (fun _ => none) d d' := by
  obtain ⟨text, ht, hr⟩ := h.text
  obtain ⟨sort, imports, h1, h2, -, h3⟩ := C87_read srt q hq d.elements h.fits text ht
  refine ⟨h.filename, h.config, h.wellBefore, h.wellAfter, sort, imports, fun l => (h1 l).1, h2, ?_⟩
  rw [keptAll_nothing, keptAll_nothing]
  exact Option.some.inj (hr.symm.trans h3)

theorem pointwise_files {R S : FileDescriptor → FileDescriptor → Prop} (h : ∀ d d', R d d' → S d d')
    {ds ds' : List FileDescriptor} (hp : Pointwise R ds ds') : Pointwise S ds ds' := by
  induction hp with
  | nil => exact .nil
  | cons hd _ ih => exact .cons (h _ _ hd) ih

theorem pointwise_where {R : FileDescriptor → FileDescriptor → Prop} {P Q : FileDescriptor → Prop}
    {ds ds' : List FileDescriptor} (hp : Pointwise R ds ds') (h : ∀ d ∈ ds, P d) (h' : ∀ d ∈ ds', Q d) :
    Pointwise (fun d d' => R d d' ∧ P d ∧ Q d') ds ds' := by
  induction hp with
  | nil => exact .nil
  | cons hd _ ih =>
    exact .cons ⟨hd, h _ List.mem_cons_self, h' _ List.mem_cons_self⟩
      (ih (fun d m => h d (List.mem_cons_of_mem _ m)) fun d m => h' d (List.mem_cons_of_mem _ m))

/-- **Lint finds as much in formatted files**: every rule that does not look at comments reports as
many failures in what is read from the formatted texts of the files of a directory as in the files. -/
theorem C90_same_partial (srt : SortSlice) (q : Params) (hq : q.fix = fixNone) (env : Env)
    (l : Linter) (hl : l ∈ allLinters env)
    (hstyle : l.id ∉ styleRules) (hcomment : l.id ∉ commentRules) (hopening : l.id ∉ openingRules)
    (dirPath : Str) (ds ds' : List FileDescriptor) (h : Pointwise (Reformatted srt q) ds ds')
    (hlines : l.id = s%"REQUEST_RESPONSE_TYPES_AFTER_SERVICE" → ∀ d ∈ ds ++ ds', Lined d) :
    ∃ fs gs, l.check dirPath ds = some (.ok fs) ∧ l.check dirPath ds' = some (.ok gs) ∧
      gs.length = fs.length := by
  have hT : Pointwise (Twin (fun _ => none) (fun _ => none)) ds ds' :=
    pointwise_files (fun d d' h => twin_of keeps_nothing (reprinted_of hq h)) h
  rcases sorted3_all env l hl with h | ⟨h, ho⟩ | ⟨h, -⟩ | ⟨h, -⟩ | hs
  · exact absurd h hstyle
  · exact ho _ _ dirPath ds ds' (pointwise_where hT (fun d hd => hlines h d (List.mem_append_left _ hd))
      fun d hd => hlines h d (List.mem_append_right _ hd))
  · exact absurd h hopening
  · exact absurd h hcomment
  · exact hs _ _ dirPath ds ds' hT

/-- **Lint finds no more after formatting**: every rule except the two about how comments are written
reports at most as many failures in files with the same declarations in the order of the formatter,
each with the comment the formatter prints for it. -/
theorem C90_no_more_partial (env : Env) (l : Linter) (hl : l ∈ allLinters env) (hstyle : l.id ∉ styleRules)
    (dirPath : Str) (ds ds' : List FileDescriptor) (h : Pointwise (Reprinted plainComment unplaced) ds ds')
    (hends : l.id ∈ openingRules → ∀ d ∈ ds, CleanEnds d)
    (hlines : l.id = s%"REQUEST_RESPONSE_TYPES_AFTER_SERVICE" → ∀ d ∈ ds ++ ds', Lined d) :
    ∃ fs gs, l.check dirPath ds = some (.ok fs) ∧ l.check dirPath ds' = some (.ok gs) ∧
      gs.length ≤ fs.length := by
  have hT : Pointwise (Twin plainComment unplaced) ds ds' := pointwise_files (fun d d' h => twin_of keeps_plain h) h
  rcases sorted3_all env l hl with h | ⟨h, ho⟩ | ⟨h, ho⟩ | ⟨h, hd⟩ | hs
  · exact absurd h hstyle
  · obtain ⟨fs, gs, h1, h2, h3⟩ := ho _ _ dirPath ds ds' (pointwise_where hT
      (fun d hd => hlines h d (List.mem_append_left _ hd)) fun d hd => hlines h d (List.mem_append_right _ hd))
    exact ⟨fs, gs, h1, h2, Nat.le_of_eq h3⟩
  · exact ho dirPath ds ds' (pointwise_files (fun d d' h => ⟨h.1, h.2.1⟩)
      (pointwise_where (Q := fun _ => True) hT (hends h) fun _ _ => trivial))
  · exact hd dirPath ds ds' hT
  · obtain ⟨fs, gs, h1, h2, h3⟩ := hs _ _ dirPath ds ds' hT
    exact ⟨fs, gs, h1, h2, Nat.le_of_eq h3⟩

/-- The three sorts of rules are rules. -/
example (env : Env) : ∀ id ∈ styleRules ++ commentRules ++ openingRules, id ∈ (allLinters env).map (·.id) := by
  rw [allLinters_ids]
  decide +kernel

/-! ## Where formatting makes lint find more -/

/-- `// Color ` above `enum Color`. -/
def trailing (first : Str) : FileDescriptor where
  filename := s%"a.proto"
  config := Sample.config
  elements := [.syntax { value := s%"proto3" },
    .enum { name := s%"Color", comment := some { position := {}, lines := [first] } }
      [.enumField { name := s%"COLOR_NONE", integer := 0 } []]]

theorem trailing_fine (first : Str) : Lintable (trailing first) where
  filename := ⟨s%"a", rfl⟩
  grammatical := by
    intro n hn
    simp only [fileNodes, trailing, nodesAll, nodes] at hn
    simp at hn
    rcases hn with rfl | rfl | rfl <;> rfl
  sources := by intro o h; cases h
  once := List.nodup_nil
  http := by intro o h; cases h

/-- A space at the end of a line is cut off by the formatter, and the rule asks for it. -/
theorem C90_not_trailing :
    Reprinted plainComment unplaced (trailing s%" Color ") (trailing s%" Color") ∧
    (transform .stable plainly (trailing s%" Color ").elements).toOption =
      some (s%"syntax = \"proto3\";\n\n// Color\nenum Color {\n  COLOR_NONE = 0;\n}\n", []) ∧
    enumsHaveCommentsLinter.check [] [trailing s%" Color "] = some (.ok []) ∧
    ∃ f, enumsHaveCommentsLinter.check [] [trailing s%" Color"] = some (.ok [f]) := by
  refine ⟨⟨rfl, rfl, trailing_fine _, trailing_fine _, id, [], fun _ => .refl _, .refl _, rfl⟩,
    by decide +kernel, rfl, _, rfl⟩

/-- `message A {} service S { rpc Get(A) returns (B); }`, with the message and the RPC on these lines. -/
def together (message rpc : Int) : FileDescriptor :=
  Sample.file s%"a.proto" [.syntax { value := s%"proto3" },
    .message { position := Sample.at_ message 1, name := s%"A" } [],
    .service { name := s%"S" }
      [.rpc { position := Sample.at_ rpc 1, name := s%"Get", requestType := s%"A", returnsType := s%"B" } []]]

theorem together_fine (message rpc : Int) : Lintable (together message rpc) where
  filename := ⟨s%"a", rfl⟩
  grammatical := by
    intro n hn
    simp only [fileNodes, together, Sample.file, nodesAll, nodes] at hn
    simp at hn
    rcases hn with rfl | rfl | rfl | rfl <;> rfl
  sources := by intro o h; cases h
  once := List.nodup_nil
  http := by intro o h; cases h

/-- A message on the line of the RPC that it should follow is not found; formatting puts the RPC on
a line of its own. -/
theorem C90_not_line :
    Reprinted plainComment unplaced (together 2 2) (together 3 6) ∧
    (transform .stable plainly (together 2 2).elements).toOption =
      some (s%"syntax = \"proto3\";\n\nmessage A {}\n\nservice S {\n  rpc Get(A) returns (B);\n}\n", []) ∧
    requestResponseTypesAfterServiceLinter.check [] [together 2 2] = some (.ok []) ∧
    ∃ f, requestResponseTypesAfterServiceLinter.check [] [together 3 6] = some (.ok [f]) := by
  refine ⟨⟨rfl, rfl, together_fine _ _, together_fine _ _, id, [], fun _ => .refl _, .refl _, rfl⟩,
    by decide +kernel, rfl, _, rfl⟩

/-! ## The theorems are about something -/

/-- What is read from the text of `manifold`. -/
def manifoldAgain : List Element :=
  [.syntax { value := s%"proto2" },
   .package { name := s%"foo.v1" },
   .option { name := s%"(foo.bar).baz", constant := .mk [] false '"' [] [(s%"x", .plain s%"1"), (s%"y", .str s%"a\\\"b")] },
   .option { name := s%"go_package", constant := .str s%"foov1" },
   .import { filename := s%"a.proto" },
   .import { filename := s%"b.proto", kind := s%"public" },
   .message { name := s%"M" }
     [.normalField { required := true, field := { name := s%"id", type := s%"string", sequence := 1, options :=
         [{ name := s%"deprecated", constant := .plain s%"true" },
          { name := s%"json_name", constant := .str s%"x" }] } },
      .mapField { keyType := s%"string", field := { name := s%"names", type := s%"M", sequence := 2 } },
      .oneof { name := s%"either" }
        [.oneofField { name := s%"left", type := s%"int32", sequence := 3 },
         .oneofField { name := s%"right", type := s%"int32", sequence := 4 }],
      .reserved { ranges := [⟨5, 6, false⟩, ⟨8, 8, false⟩] },
      .reserved { fieldNames := [s%"old", s%"older"] },
      .extensions { ranges := [⟨100, 100, true⟩] },
      .group { name := s%"G", optional := true, sequence := 9 } [],
      .enum { name := s%"E" } [.enumField { name := s%"ZERO", integer := 0 } [],
        .enumField { name := s%"MINUS", integer := -1 } [.option { name := s%"deprecated", constant := .plain s%"true" }]]],
   .message { name := s%"M", isExtend := true } [],
   .service { name := s%"S" }
     [.rpc { name := s%"Get", requestType := s%"M", returnsType := s%"M", streamsReturns := true } [],
      .rpc { name := s%"Put", requestType := s%"M", returnsType := s%"M" }
        [.option { name := s%"deprecated", constant := .plain s%"false" }]]]

theorem plainSources_of {d : FileDescriptor} (h : (fileOptions d).all (fun o =>
    o.constant.source.isEmpty || (o.constant.array.isEmpty && o.constant.orderedMap.isEmpty)) = true) :
    ∀ o ∈ fileOptions d, PlainSource o.constant := by
  intro o ho hl
  have := List.all_eq_true.1 h o ho
  rcases Bool.or_eq_true_iff.1 this with h | h
  · exact List.isEmpty_iff.1 h
  · obtain ⟨h1, h2⟩ := Bool.and_eq_true_iff.1 h
    rcases hl with hl | hl
    · exact absurd (List.isEmpty_iff.1 h1) hl
    · exact absurd (List.isEmpty_iff.1 h2) hl

/-- Its text. -/
def manifoldText : Str :=
  s%"// A file.\n\nsyntax = \"proto2\";\n\n" ++
  s%"package foo.v1;\n\noption (foo.bar).baz = {\n  x: 1\n" ++
  s%"  y: \"a\\\"b\"\n};\noption go_package = \"foov1\";\n\n" ++
  s%"import \"a.proto\";\nimport public \"b.proto\";\n\nmessage M {\n" ++
  s%"  required string id = 1 [\n    deprecated = true,\n    json_name = \"x\"\n  ];\n" ++
  s%"  map<string, M> names = 2;\n  oneof either {\n    int32 left = 3;\n    int32 right = 4;\n" ++
  s%"  }\n  reserved 5 to 6, 8;\n  reserved \"old\", \"older\";\n  extensions 100 to max;\n" ++
  s%"  optional group G = 9 {}\n  enum E {\n    ZERO = 0;\n    MINUS = -1 [deprecated = true];\n" ++
  s%"  }\n}\n\nextend M {}\n" ++
  s%"\nservice S {\n  rpc Get(M) returns (stream M);\n  rpc Put(M) returns (M) {\n" ++
  s%"    option deprecated = false;\n  }\n}\n"

set_option maxRecDepth 20000 in
/-- A file with a declaration of each kind. -/
example : Reformatted .stable plainly (Sample.file s%"m.proto" manifold) (Sample.file s%"m.proto" manifoldAgain) where
  filename := rfl
  config := rfl
  fits := manifold_fits
  wellBefore := ⟨⟨s%"m", rfl⟩, by decide +kernel, plainSources_of (by decide +kernel), by decide +kernel, by decide +kernel⟩
  wellAfter := ⟨⟨s%"m", rfl⟩, by decide +kernel, plainSources_of (by decide +kernel), by decide +kernel, by decide +kernel⟩
  text := ⟨manifoldText, by rfl, by rfl⟩

/-- The rule finds the option `json_name` before and after. -/
example : (Lint.messageFieldsNoJSONNameLinter.check [] [Sample.file s%"m.proto" manifold]).map
    (fun r => r.toOption.map List.length) = some (some 1) := by decide +kernel

/-- Messages and RPCs on lines of their own, and a comment with nothing behind its lines. -/
example : Lined (together 3 6) := by unfold Lined; decide +kernel
example : CleanEnds (trailing s%" Color is a color.") := by
  intro n hn c hc l hl
  simp only [fileNodes, trailing, nodesAll, nodes] at hn
  simp at hn
  rcases hn with rfl | rfl | rfl
  · cases hc
  · cases hc
    rcases List.mem_singleton.1 hl with rfl
    decide +kernel
  · cases hc

end Verif.Props
