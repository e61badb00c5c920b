import Verif.Props.LintSays
import Verif.Props.LintNames
import Verif.Props.LintSuppress
import Verif.Props.LintDir
import Verif.Props.LintOptions
import Verif.Proof.SaysDir

/-!
# C105: a lint message names the declaration it is about

For each rule without a theorem in C88, which has those that propose something: where it reports and
with which text.
-/

namespace Verif.Props

open Verif Proto Spec Lint Str

/-- Proves what a visitor says at a node, given that its condition is the right one. -/
local macro "visitor_said" h:term : tactic =>
  `(tactic| (intro l around e; cases e <;> first | exact .nil | exact .iff ($h _) | exact .unless ($h _)))

/-! ## Names -/

theorem C105_enum_names_camel_case : Says enumNamesCamelCaseLinter fun d =>
    ((enums d).filter fun e => ¬ CamelCase e.name).map fun e =>
      (e.position, namedText s%"Enum name " e.name s%" must be CamelCase.") :=
  says_simple rfl rfl (by visitor_shape)
    (by visitor_said fun e : Enum => not_iff (isCamelCase_iff e.name))

theorem C105_enum_names_capitalized : Says enumNamesCapitalizedLinter fun d =>
    ((enums d).filter fun e => ¬ Capitalized e.name).map fun e =>
      (e.position, namedText s%"Enum name " e.name s%" must be capitalized.") :=
  says_simple rfl rfl (by visitor_shape)
    (by visitor_said fun e : Enum => not_iff (isCapitalized_iff e.name))

theorem C105_enum_field_names_upper_snake_case : Says enumFieldNamesUpperSnakeCaseLinter fun d =>
    ((enumValues d).filter fun e => ¬ UpperSnakeCase e.name).map fun e =>
      (e.position, namedText s%"Field name " e.name s%" must be UPPER_SNAKE_CASE.") :=
  says_simple rfl rfl (by visitor_shape)
    (by visitor_said fun e : EnumField => not_iff (isUpperSnakeCase_iff e.name))

theorem C105_enum_field_names_uppercase : Says enumFieldNamesUppercaseLinter fun d =>
    ((enumValues d).filter fun e => ¬ Uppercase e.name).map fun e =>
      (e.position, namedText s%"Field name " e.name s%" must be uppercase.") :=
  says_simple rfl rfl (by visitor_shape)
    (by visitor_said fun e : EnumField => not_iff (isUppercase_iff e.name))

theorem C105_message_field_names_lower_snake_case : Says messageFieldNamesLowerSnakeCaseLinter fun d =>
    ((fields d).filter fun e => ¬ LowerSnakeCase e.name).map fun e =>
      (e.position, namedText s%"Field name " e.name s%" must be lower_snake_case.") :=
  says_simple rfl rfl (by visitor_shape)
    (by visitor_said fun e : Field => not_iff (isLowerSnakeCase_iff e.name))

theorem C105_message_field_names_lowercase : Says messageFieldNamesLowercaseLinter fun d =>
    ((fields d).filter fun e => ¬ Lowercase e.name).map fun e =>
      (e.position, namedText s%"Field name " e.name s%" must be lowercase.") :=
  says_simple rfl rfl (by visitor_shape)
    (by visitor_said fun e : Field => not_iff (isLowercase_iff e.name))

theorem C105_oneof_names_lower_snake_case : Says oneofNamesLowerSnakeCaseLinter fun d =>
    ((oneofs d).filter fun e => ¬ LowerSnakeCase e.name).map fun e =>
      (e.position, namedText s%"Oneof name " e.name s%" must be lower_snake_case.") :=
  says_simple rfl rfl (by visitor_shape)
    (by visitor_said fun e : Oneof => not_iff (isLowerSnakeCase_iff e.name))

theorem C105_rpc_names_camel_case : Says rpcNamesCamelCaseLinter fun d =>
    ((rpcs d).filter fun e => ¬ CamelCase e.name).map fun e =>
      (e.position, namedText s%"RPC name " e.name s%" must be CamelCase.") :=
  says_simple rfl rfl (by visitor_shape)
    (by visitor_said fun e : RPC => not_iff (isCamelCase_iff e.name))

theorem C105_rpc_names_capitalized : Says rpcNamesCapitalizedLinter fun d =>
    ((rpcs d).filter fun e => ¬ Capitalized e.name).map fun e =>
      (e.position, namedText s%"RPC name " e.name s%" must be capitalized.") :=
  says_simple rfl rfl (by visitor_shape)
    (by visitor_said fun e : RPC => not_iff (isCapitalized_iff e.name))

theorem C105_service_names_camel_case : Says serviceNamesCamelCaseLinter fun d =>
    ((services d).filter fun e => ¬ CamelCase e.name).map fun e =>
      (e.position, namedText s%"Service name " e.name s%" must be CamelCase.") :=
  says_simple rfl rfl (by visitor_shape)
    (by visitor_said fun e : Service => not_iff (isCamelCase_iff e.name))

theorem C105_service_names_capitalized : Says serviceNamesCapitalizedLinter fun d =>
    ((services d).filter fun e => ¬ Capitalized e.name).map fun e =>
      (e.position, namedText s%"Service name " e.name s%" must be capitalized.") :=
  says_simple rfl rfl (by visitor_shape)
    (by visitor_said fun e : Service => not_iff (isCapitalized_iff e.name))

theorem C105_message_names_camel_case : Says messageNamesCamelCaseLinter fun d =>
    ((messages d).filter fun e => e.isExtend = false ∧ ¬ CamelCase e.name).map fun e =>
      (e.position, namedText s%"Message name " e.name s%" must be CamelCase.") :=
  says_simple rfl rfl (by visitor_shape)
    (by visitor_said fun e : Message => not_iff (isCamelCase_iff e.name))

theorem C105_message_names_capitalized : Says messageNamesCapitalizedLinter fun d =>
    ((messages d).filter fun e => e.isExtend = false ∧ ¬ Capitalized e.name).map fun e =>
      (e.position, namedText s%"Message name " e.name s%" must be capitalized.") :=
  says_simple rfl rfl (by visitor_shape)
    (by visitor_said fun e : Message => not_iff (isCapitalized_iff e.name))

/-! ## Comments -/

theorem C105_enums_have_sentence_comments : Says enumsHaveSentenceCommentsLinter fun d =>
    ((enums d).filter fun e => ¬ CommentSentence e.comment).map fun e =>
      (e.position, namedText s%"Enum " e.name needsSentence) :=
  says_simple rfl rfl (by visitor_shape)
    (by visitor_said fun e : Enum => not_iff (hasCompleteSentenceComment_iff e.comment))

theorem C105_enum_fields_have_sentence_comments : Says enumFieldsHaveSentenceCommentsLinter fun d =>
    ((enumValues d).filter fun e => ¬ CommentSentence e.comment).map fun e =>
      (e.position, namedText s%"Enum field " e.name needsSentence) :=
  says_simple rfl rfl (by visitor_shape)
    (by visitor_said fun e : EnumField => not_iff (hasCompleteSentenceComment_iff e.comment))

theorem C105_message_fields_have_sentence_comments : Says messageFieldsHaveSentenceCommentsLinter fun d =>
    ((fields d).filter fun e => ¬ CommentSentence e.comment).map fun e =>
      (e.position, namedText s%"Message field " e.name needsSentence) :=
  says_simple rfl rfl (by visitor_shape)
    (by visitor_said fun e : Field => not_iff (hasCompleteSentenceComment_iff e.comment))

theorem C105_services_have_sentence_comments : Says servicesHaveSentenceCommentsLinter fun d =>
    ((services d).filter fun e => ¬ CommentSentence e.comment).map fun e =>
      (e.position, namedText s%"Service " e.name needsSentence) :=
  says_simple rfl rfl (by visitor_shape)
    (by visitor_said fun e : Service => not_iff (hasCompleteSentenceComment_iff e.comment))

theorem C105_rpcs_have_sentence_comments : Says rpcsHaveSentenceCommentsLinter fun d =>
    ((rpcs d).filter fun e => ¬ CommentSentence e.comment).map fun e =>
      (e.position, namedText s%"RPC " e.name needsSentence) :=
  says_simple rfl rfl (by visitor_shape)
    (by visitor_said fun e : RPC => not_iff (hasCompleteSentenceComment_iff e.comment))

theorem C105_comments_no_inline : Says commentsNoInlineLinter fun d =>
    (fileNodes d).flatMap fun n => (inlineCommentOf n.self).toList.map fun c =>
      (c.position, text [s%"Inline comments are not allowed on ", inlineWord n.self,
        s%", only comment above the type."]) := by
  have := says_unitOn (ok := fun _ => True) (purpose := commentsNoInlineLinter.purpose) (id := s%"COMMENTS_NO_INLINE") (v := commentsNoInline)
    (own := fun n => (checkInlineComment (inlineKind n.self) (inlineCommentOf n.self) ()).2)
    (descend := hasBody)
    (at_ := fun n => (inlineCommentOf n.self).toList.map fun c =>
      (c.position, text [s%"Inline comments are not allowed on ", inlineWord n.self,
        s%", only comment above the type."])) rfl rfl
    (by visitor_shape) (by
      intro l d _ n _
      obtain ⟨around, e⟩ := n
      have hk : inlineCommentOf e = none ∨ inlineKind e = inlineWord e := by cases e <;> first | exact .inl rfl | exact .inr rfl
      dsimp only
      rcases hk with hk | hk
      · rw [hk]; exact .nil
      · rw [hk]
        cases inlineCommentOf e with
        | none => exact .nil
        | some c => exact .fail _ _)
  simp only [inside_hasBody] at this
  exact this

theorem C105_comments_no_c_style : Says commentsNoCStyleLinter fun d =>
    (fileNodes d).flatMap fun n =>
      ([commentOf n.self, inlineCommentOf n.self].filterMap id |>.filter fun c => c.cstyle = true).map
        fun _ => (positionOf n.self, s%"C-Style comments are not allowed.") := by
  have := says_unitOn (ok := fun _ => True) (purpose := commentsNoCStyleLinter.purpose) (id := s%"COMMENTS_NO_C_STYLE") (v := commentsNoCStyle)
    (own := fun n =>
      (checkComments (positionOf n.self) [commentOf n.self, inlineCommentOf n.self] ()).2)
    (descend := hasBody)
    (at_ := fun n => ([commentOf n.self, inlineCommentOf n.self].filterMap id |>.filter
      fun c => c.cstyle = true).map fun _ => (positionOf n.self, s%"C-Style comments are not allowed.")) rfl rfl
    (by visitor_shape) (by
      intro l d _ n _
      show Said l ([commentOf n.self, inlineCommentOf n.self].flatMap fun comment =>
        match comment with
        | none => []
        | some c => if c.cstyle then addFailure (positionOf n.self) [s%"C-Style comments are not allowed."] else []) _
      generalize [commentOf n.self, inlineCommentOf n.self] = cs
      induction cs with
      | nil => exact .nil
      | cons c cs ih =>
        rw [List.flatMap_cons]
        cases c with
        | none => exact ih
        | some c =>
          by_cases hc : c.cstyle = true
          · simp only [hc, if_true, List.filterMap_cons, id, List.filter_cons, decide_true, List.map_cons]
            exact .append (.fail _ _) ih
          · simp only [hc, List.filterMap_cons, id, List.filter_cons, decide_false, List.nil_append,
              Bool.false_eq_true, if_false]
            exact ih)
  simp only [inside_hasBody] at this
  exact this

/-! ## Fields -/

theorem C105_message_field_names_no_descriptor : Says messageFieldNamesNoDescriptorLinter fun d =>
    ((fields d).filter fun e => Descriptorish e.name).map fun e =>
      (e.position, namedText s%"Field name " e.name s%" causes a collision in Java-generated code.") :=
  says_simple rfl rfl (by visitor_shape)
    (by visitor_said fun e : Field => descriptor_iff e.name)

theorem C105_message_fields_duration : Says messageFieldsDurationLinter fun d =>
    ((nonMapFields d).filter fun e => s%"duration" <:+: e.name ∧ e.type ≠ s%"google.protobuf.Duration").map fun e =>
      (e.position, namedText s%"Field " e.name s%" must be a google.protobuf.Duration.") :=
  says_simple rfl rfl (by visitor_shape)
    (by visitor_said fun e : Field => and_bool contains_infix (decide_eq_true_iff (p := e.type ≠ _)))

theorem C105_message_fields_time : Says messageFieldsTimeLinter fun d =>
    ((nonMapFields d).filter fun e => s%"time" <:+: e.name ∧ e.type ≠ s%"google.protobuf.Timestamp").map fun e =>
      (e.position, namedText s%"Field " e.name s%" must be a google.protobuf.Timestamp.") :=
  says_simple rfl rfl (by visitor_shape)
    (by visitor_said fun e : Field => and_bool contains_infix (decide_eq_true_iff (p := e.type ≠ _)))

theorem C105_wkt_duration_suffix : Says wktDurationSuffixLinter fun d =>
    ((nonMapFields d).filter fun e => e.type = s%"google.protobuf.Duration" ∧
      ¬ (e.name = s%"duration" ∨ s%"_duration" <:+ e.name)).map fun e =>
      (e.position, namedText s%"Field " e.name s%" of type \"google.protobuf.Duration\" must be \"duration\" or end in \"_duration\".") :=
  says_simple rfl rfl (by visitor_shape)
    (by visitor_said fun e : Field => and_bool (decide_eq_true_iff (p := e.type = _)) (not_iff (or_bool (decide_eq_true_iff (p := e.name = _)) hasSuffix_suffix)))

theorem C105_wkt_timestamp_suffix : Says wktTimestampSuffixLinter fun d =>
    ((nonMapFields d).filter fun e => e.type = s%"google.protobuf.Timestamp" ∧
      ¬ (e.name = s%"time" ∨ s%"_time" <:+ e.name)).map fun e =>
      (e.position, namedText s%"Field " e.name s%" of type \"google.protobuf.Timestamp\" must be \"time\" or end in \"_time\".") :=
  says_simple rfl rfl (by visitor_shape)
    (by visitor_said fun e : Field => and_bool (decide_eq_true_iff (p := e.type = _)) (not_iff (or_bool (decide_eq_true_iff (p := e.name = _)) hasSuffix_suffix)))

theorem C105_message_fields_no_json_name : Says messageFieldsNoJSONNameLinter fun d =>
    (fields d).flatMap fun f => (f.options.filter fun o => o.name = s%"json_name").map fun _ =>
      (f.position, namedText s%"Field " f.name s%" cannot have the \"json_name\" option set.") :=
  says_many rfl rfl (by visitor_shape) (by
    have key : ∀ {l : Linter} (p : Position) (msg : List Str) (os : List Opt),
        Said l (os.flatMap fun o => if o.name = s%"json_name" then addFailure p msg else [])
          ((os.filter fun o => o.name = s%"json_name").map fun _ => (p, text msg)) := by
      intro l p msg os
      induction os with
      | nil => exact .nil
      | cons o os ih =>
        rw [List.flatMap_cons]
        by_cases h : o.name = s%"json_name"
        · simp only [h, if_true, List.filter_cons, decide_true, List.map_cons]
          exact .append (.fail _ _) ih
        · simp only [h, if_false, List.filter_cons, decide_false, List.nil_append, Bool.false_eq_true]
          exact ih
    intro l around e
    cases e <;> first | exact .nil | exact key _ _ _)

/-! ## Imports, RPCs, options of enums, files -/

theorem C105_gogo_not_imported : Says gogoNotImportedLinter fun d =>
    ((imports d).filter fun i => s%"gogo.proto" <:+ i.filename).map fun i =>
      (i.position, s%"Importing \"gogo.proto\" is not allowed.") :=
  says_simple rfl rfl (by visitor_shape) (by visitor_said fun i : Import => hasSuffix_suffix)

theorem C105_imports_not_public : Says importsNotPublicLinter fun d =>
    ((imports d).filter fun i => i.kind = s%"public").map fun i =>
      (i.position, s%"Public imports are not allowed.") :=
  says_simple rfl rfl (by visitor_shape) (by
    intro l around e
    cases e <;> first | exact .nil | exact .iff Iff.rfl)

theorem C105_imports_not_weak : Says importsNotWeakLinter fun d =>
    ((imports d).filter fun i => i.kind = s%"weak").map fun i =>
      (i.position, s%"Weak imports are not allowed.") :=
  says_simple rfl rfl (by visitor_shape) (by
    intro l around e
    cases e <;> first | exact .nil | exact .iff Iff.rfl)

theorem C105_rpcs_no_streaming : Says rpcsNoStreamingLinter fun d =>
    ((rpcs d).filter fun e => e.streamsRequest = true ∨ e.streamsReturns = true).map fun e =>
      (e.position, namedText s%"RPC " e.name s%" is streaming and only unary RPCs are allowed.") :=
  says_simple rfl rfl (by visitor_shape)
    (by visitor_said fun e : RPC => or_bool .rfl .rfl)

theorem C105_enums_no_allow_alias : Says enumsNoAllowAliasLinter fun d =>
    ((enumOptions d).filter fun o => o.name = s%"allow_alias").map fun o =>
      (o.position, s%"Enum aliases are not allowed.") :=
  says_simple rfl rfl (by visitor_shape) (by
    intro l around e
    cases e with
    | option o =>
      cases around with
      | nil => exact .nil
      | cons a around => cases a <;> first | exact .nil | exact .iff .rfl
    | _ => cases around with
      | nil => exact .nil
      | cons a around => cases a <;> exact .nil)

theorem C105_wkt_directly_imported (env : Env) : Says (wktDirectlyImportedLinter env) fun d =>
    ((imports d).filter fun i => ∃ w ∈ wellKnown, w <:+ i.filename ∧ i.filename ≠ w).map fun i =>
      (i.position, namedText s%"Import " i.filename s%" is a Well-Known Type import but should be imported using google/protobuf as the base.") :=
  says_simple rfl rfl (by visitor_shape) (by
    intro l around e
    cases e <;> first | exact .nil | exact said_wkt env _)

theorem C105_file_header : Says fileHeaderLinter fun d =>
    if ¬ d.config.lint.fileHeader <+: d.fileData then [({ filename := d.filename },
      s%"File is expected to begin with the file header specified from the configuration file.")] else [] :=
  says_start rfl rfl (by intro around e k; cases e <;> rfl) fun l d _ => by
    by_cases h : d.config.lint.fileHeader = []
    · rw [if_neg (fun hn => hn h), if_neg (fun hn => hn (h ▸ List.nil_prefix))]
      exact .nil
    · rw [if_pos h]
      exact .iff (not_iff hasPrefix_prefix)

theorem C105_file_names_lower_snake_case :
    SaysOn (fun d => s%".proto" <:+ d.filename) fileNamesLowerSnakeCaseLinter fun d =>
      if ¬ LowerSnakeCase (fileStem d.filename) then
        [({ filename := d.filename }, s%"File name should be lower_snake_case.proto.")] else [] :=
  says_start rfl rfl (by intro around e k; cases e <;> rfl) fun l d hd => by
    dsimp only
    rw [fileStem_eq hd]
    exact .iff (not_iff (isLowerSnakeCase_iff _))

/-! ## Packages and syntax

`env.showPackage` and `env.showSyntax` are how Go prints a declaration. -/

/-- What is said of further package declarations. -/
def furtherPackages (env : Env) (d : FileDescriptor) : List (Position × Str) :=
  (packages d).tail.map fun p => (p.position,
    text [s%"multiple package declarations, first was ",
      (packages d).head?.elim [] fun first => env.showPackage first])

theorem C105_package_lower_case (env : Env) : Says (packageLowerCaseLinter env) fun d =>
    furtherPackages env d ++
      ((packages d).head?.toList.filter fun p => ¬ PackageLowerCase p.name).map fun p =>
        (p.position, namedText s%"Packages should only contain characters in the range a-z0-9 and periods but was " p.name s%".") :=
  says_package (at_ := fun _ p =>
      (p.toList.filter fun p : Package => ¬ PackageLowerCase p.name).map fun p : Package =>
        (p.position, namedText s%"Packages should only contain characters in the range a-z0-9 and periods but was " p.name s%"."))
    fun l f p => by
      cases p with
      | none => exact .nil
      | some p => rw [first_said]; exact .iff (not_iff (isPackageLowerCase_iff p.name))

theorem C105_package_lower_snake_case (env : Env) : Says (packageLowerSnakeCaseLinter env) fun d =>
    furtherPackages env d ++
      ((packages d).head?.toList.filter fun p =>
        ¬ LowerSnakeCase (p.name.filter (· ≠ '.'))).map fun p => (p.position, namedText s%"Package should be lower_snake.case but was " p.name s%".") :=
  says_package (at_ := fun _ p => (p.toList.filter fun p : Package =>
      ¬ LowerSnakeCase (p.name.filter (· ≠ '.'))).map fun p : Package => (p.position, namedText s%"Package should be lower_snake.case but was " p.name s%"."))
    fun l f p => by
      cases p with
      | none => exact .nil
      | some p =>
        rw [first_said]
        dsimp only
        rw [replaceAll_period]
        exact .iff (not_iff (isLowerSnakeCase_iff _))

theorem C105_package_is_declared (env : Env) : Says (packageIsDeclaredLinter env) fun d =>
    furtherPackages env d ++
      if (packages d).head? = none then
        [({ filename := d.filename }, s%"No package declaration found.")] else [] :=
  says_package (env := env) (id := s%"PACKAGE_IS_DECLARED")
    (finish := fun filename pkg => match pkg with
      | none => noPackage filename
      | some _ => [])
    (at_ := fun f p => if p = none then [({ filename := f }, s%"No package declaration found.")] else [])
    (by
      intro l f p
      cases p with
      | none => exact .fail _ _
      | some p => exact .nil)

theorem C105_package_versioned (env : Env) : Says (packageMajorBetaVersionedLinter env) fun d =>
    furtherPackages env d ++
      match (packages d).head? with
      | none => [({ filename := d.filename }, s%"No package declaration found.")]
      | some p => if ¬ ∃ major beta, VersionedAs p.name major beta then [(p.position,
          namedText s%"Package should be of the form \"package.vMAJORVERSION\" or \"packagevMAJORVERSIONbetaBETAVERSION\" with versions >=1 but was " p.name s%".")] else [] :=
  says_package (env := env) (id := s%"PACKAGE_MAJOR_BETA_VERSIONED")
    (finish := fun filename pkg => match pkg with
      | none => noPackage filename
      | some p => if (Protostrs.majorBetaVersion p.name).isNone then
          addFailure p.position [s%"Package should be of the form \"package.vMAJORVERSION\" or \"packagevMAJORVERSIONbetaBETAVERSION\" with versions >=1 but was ", quote p.name, s%"."]
        else [])
    (at_ := fun f p => match p with
      | none => [({ filename := f }, s%"No package declaration found.")]
      | some p => if ¬ ∃ major beta, VersionedAs p.name major beta then [(p.position,
          namedText s%"Package should be of the form \"package.vMAJORVERSION\" or \"packagevMAJORVERSIONbetaBETAVERSION\" with versions >=1 but was " p.name s%".")] else [])
    (by
      intro l f p
      cases p with
      | none => exact .fail _ _
      | some p => exact .iff (versioned_iff _))

theorem C105_syntax_proto3 (env : Env) : Says (syntaxProto3Linter env) fun d =>
    ((syntaxes d).tail.map fun p => (p.position,
      text [s%"multiple syntax declarations, first was ",
        (syntaxes d).head?.elim [] fun first => env.showSyntax first])) ++
      match (syntaxes d).head? with
      | none => [({ filename := d.filename }, s%"No syntax declaration found.")]
      | some s => if s.value ≠ s%"proto3" then
          [(s.position, text [s%"Syntax should be proto3 but was ", quote s.value, s%"."])] else [] :=
  says_syntax

/-! ## Options -/

/-- The rules that require an option name it. -/
theorem C105_required : ∀ rule ∈ requiring, Says rule.1 fun d =>
    if ∀ o ∈ fileOptions d, o.name ≠ rule.2 then [({ filename := d.filename },
      namedText s%"File option " rule.2 s%" is required.")] else [] := by
  intro rule hr
  simp only [requiring, List.mem_cons, List.not_mem_nil, or_false] at hr
  rcases hr with rfl | rfl | rfl | rfl | rfl | rfl | rfl | rfl <;> exact says_require _ _

/-- The rules that forbid an option name it. -/
theorem C105_unset : ∀ rule ∈ forbidding, Says rule.1 fun d =>
    match ((fileOptions d).filter fun o => o.name = rule.2).getLast? with
    | some o => [(o.position, namedText s%"File option " rule.2 s%" should not be set.")]
    | none => [] := by
  intro rule hr
  simp only [forbidding, List.mem_cons, List.not_mem_nil, or_false] at hr
  rcases hr with rfl | rfl <;> exact says_unset _ _

theorem C105_go_package_not_long_form : Says fileOptionsGoPackageNotLongFormLinter fun d =>
    match ((fileOptions d).filter fun o => o.name = s%"go_package").getLast? with
    | some o => if s%";" <:+: o.constant.source then [(o.position, namedText s%"Option \"go_package\" cannot be of the long-form \"go/import/path;package\" and must only be of the short-form \"package\", but was " o.constant.source s%".")] else []
    | none => [] :=
  says_notLongForm

/-! ## Rules that can be suppressed

If the configuration allows it, their texts say how: `withHint`. -/

theorem C105_message_fields_not_floats : Says messageFieldsNotFloatsLinter fun d =>
    ((fields d).filter fun f => f.type = s%"float" ∧ ¬ Suppressed s%"floats" d.config f.comment).map
      fun f => (f.position, withHint s%"floats" d.config [s%"Field ", quote f.name, s%" is a float and floats should generally not be used, consider using a double, or an int64 while representing your value in micros or nanos."]) :=
  says_floats

/-- The outlawed names with their rules and the advice given. -/
def outlawed : List (Linter × Str × Str) :=
  [(namesNoCommonLinter, s%"common",
    s%"Common has no semantic meaning, consider using a name that reflects the type instead."),
   (namesNoDataLinter, s%"data",
    s%"Data is a decorator and all types on Protobuf are data, consider merging this information into a higher-level type, or if you must have such a type, Use \"Info\" instead."),
   (namesNoUUIDLinter, s%"uuid", s%"UUIDs in Protobuf are named ID instead of UUID.")]

theorem C105_names : ∀ rule ∈ outlawed, Says rule.1 fun d =>
    (fileNodes d).flatMap fun n =>
      ((namesOf n.self).filter fun name => rule.2.1 <:+: toLower name ∧
        ¬ Suppressed s%"naming" d.config (commentOf n.self)).map fun name => (positionOf n.self,
          withHint s%"naming" d.config [s%"The name ", quote name, s%" contains the outlawed name ",
            quote rule.2.1, s%". ", rule.2.2, s%"."]) := by
  intro rule hr
  simp only [outlawed, List.mem_cons, List.not_mem_nil, or_false] at hr
  rcases hr with rfl | rfl | rfl <;> exact says_names _ _ _

theorem C105_package_no_keywords : Says packageNoKeywordsLinter fun d =>
    (packages d).flatMap fun p =>
      ((splitChar '.' p.name).filter fun part =>
        toLower part ∈ [s%"internal", s%"public", s%"private", s%"protected", s%"std"] ∧
          ¬ Suppressed s%"keywords" d.config p.comment).map fun part =>
        (p.position, withHint s%"keywords" d.config [s%"Package ", quote p.name,
          s%" contains the keyword ", quote (toLower part), s%", this could cause problems in generated code."]) :=
  says_keywords

theorem C105_rpc_options_no_google_api_http :
    SaysOn (fun d => Grammatical d ∧ ∀ o ∈ outerOptions d, ¬ s%"(.google.api.http)" <+: o.name)
      rpcOptionsNoGoogleAPIHTTPLinter fun d =>
        ((rpcOptions d).filter fun p => HTTPName p.2.name ∧
          ¬ Suppressed s%"google-api-http" d.config p.1.comment).map fun p => (p.2.position,
            withHint s%"google-api-http" d.config [s%"Option \"google.api.http\" is not allowed. This option signifies HTTP/REST usage, use the RPC framework instead."]) :=
  says_http

theorem C105_service_names_no_plurals (env : Env) :
    Says (serviceNamesNoPluralsLinter env) fun d =>
      (services d).flatMap fun s =>
        ((Strs.splitCamelCaseWord s.name).filter fun word =>
          (env.singularize (toLower word) ≠ toLower word ∧ toUpper word ≠ word ∧
            toLower word ≠ s%"data") ∧ ¬ Suppressed s%"plurals" d.config s.comment).map fun word =>
          (s.position, withHint s%"plurals" d.config [s%"Service name ", quote s.name,
            s%" contains plural component ", quote (title word), s%", consider using ",
            quote (title (env.singularize (toLower word))), s%" instead."]) :=
  says_plurals env

/-- Doing what the hint says, adding the annotation to the comment, suppresses the failure, if
there is a hint. -/
theorem C105_hint_followed (annotation : Str) (config : Settings.Config) (c : Comment)
    (pieces : List Str) (h : withHint annotation config pieces ≠ text pieces) :
    Suppressed annotation config
      (some { c with lines := c.lines ++ [s%" @suppresswarnings " ++ annotation] }) := by
  have : config.lint.allowSuppression = true := by
    cases hc : config.lint.allowSuppression with
    | true => rfl
    | false =>
      refine absurd ?_ h
      unfold withHint
      rw [hc, if_neg Bool.false_ne_true, List.append_nil]
  refine ⟨this, _, rfl, s%" @suppresswarnings " ++ annotation, by simp, ?_⟩
  exact ⟨s%" ", [], by simp⟩

/-- And there is a hint exactly if the configuration allows suppression. -/
theorem C105_hint (annotation : Str) (config : Settings.Config) (pieces : List Str) :
    withHint annotation config pieces ≠ text pieces ↔ config.lint.allowSuppression = true := by
  unfold withHint
  cases config.lint.allowSuppression with
  | true =>
    rw [if_pos rfl]
    refine ⟨fun _ => rfl, fun _ h => ?_⟩
    have := congrArg List.length h
    simp [text] at this
  | false => simp

/-! ## Request and response types -/

theorem C105_types_unique : Says requestResponseTypesUniqueLinter fun d =>
    (repeated [] (uses d)).map fun u => (u.1, namedText s%"Message " u.2 s%" is already used as a request or response type in an RPC and all request and response types must be unique.") :=
  says_unique

/-- A type that is not in the file and one that is a nested message get different texts. -/
theorem C105_types_in_same_file : SaysOn Grammatical requestResponseTypesInSameFileLinter fun d =>
    (rpcs d).flatMap fun r =>
      (if r.requestType ∉ (namedMessages d).map (·.name) then
        [(r.position, namedText s%"Request type " r.requestType s%" should be defined in the same file as the corresponding service.")]
      else if '.' ∈ r.requestType then
        [(r.position, namedText s%"Request type " r.requestType s%" is a nested message and only top-level messages should be request types.")]
      else []) ++
      (if r.returnsType ∉ (namedMessages d).map (·.name) then
        [(r.position, namedText s%"Response type " r.returnsType s%" should be defined in the same file as the corresponding service.")]
      else if '.' ∈ r.returnsType then
        [(r.position, namedText s%"Response type " r.returnsType s%" is a nested message and only top-level messages should be response types.")]
      else []) :=
  says_sameFile

theorem C105_types_after_service : SaysOn Grammatical requestResponseTypesAfterServiceLinter fun d =>
    (rpcs d).flatMap (afterSaid d) :=
  says_after

theorem C105_types_only_in_file (env : Env) :
    SaysOn Grammatical (requestResponseTypesOnlyInFileLinter env) fun d =>
      if rpcs d = [] then [] else
        ((lastBy (·.name) (topEnums d)).map fun e => (e.position, namedText s%"Enum " e.name
          s%" is in the same file as a service and should be in a separate file.")) ++
        ((lastBy (·.name) (topMessages d)).filter fun m => m.name ∉ usedTypes d).map fun m =>
          (m.position, namedText s%"Message " m.name s%" is not a request or response of any service in this file and should be in a separate file.") :=
  says_only env

theorem C105_comments_except (env : Env) :
    SaysOn Grammatical (messagesHaveCommentsExceptRequestResponseTypesLinter env) fun d =>
      ((lastBy (·.name) (namedMessages d)).filter fun m =>
        m.message.isExtend = false ∧ m.name ∉ usedTypes d).flatMap fun m =>
          if ¬ CommentNames m.message.comment m.message.name then [(m.message.position,
            text [s%"Message ", quote m.message.name, s%" needs a comment of the form \"// ", m.message.name, s%" ...\""])] else [] :=
  says_except fun _ m => .iff (not_iff (hasGolangStyleComment_iff m.comment m.name))

theorem C105_sentence_comments_except (env : Env) :
    SaysOn Grammatical (messagesHaveSentenceCommentsExceptRequestResponseTypesLinter env) fun d =>
      ((lastBy (·.name) (namedMessages d)).filter fun m =>
        m.message.isExtend = false ∧ m.name ∉ usedTypes d).flatMap fun m =>
          if ¬ CommentSentence m.message.comment then [(m.message.position,
            namedText s%"Message " m.message.name needsSentence)] else [] :=
  says_except fun _ m => .iff (not_iff (hasCompleteSentenceComment_iff m.comment))

/-- Here a nested message is named with the messages around it. -/
theorem C105_not_empty_except (env : Env) :
    SaysOn Grammatical (messagesNotEmptyExceptRequestResponseTypesLinter env) fun d =>
      ((lastBy (·.name) (namedMessages d)).filter fun m =>
        m.name ∉ usedTypes d ∧ m.fields = 0).map fun m => (m.message.position,
          namedText s%"Message " m.name s%" should not be empty. Only request and response types are allowed to be empty.") :=
  says_notEmpty env

/-! ## Directories

The texts list the values of the files: `vs` are these, each once, in ascending order. -/

theorem C105_packages_same_in_dir (env : Env) :
    SaysDir (packagesSameInDirLinter env) packageNameOf fun ds vs =>
      ds.flatMap (furtherPackages env) ++
        if ¬ Agree packageNameOf ds then ds.map fun d => ({ filename := d.filename },
          text [s%"Multiple packages in directory: ", join s%", " vs, s%"."]) else [] :=
  says_packagesSameInDir env

/-- A value in some files only is told apart from different values. -/
theorem C105_options_same_in_dir (env : Env) : ∀ rule ∈ sameInDir env,
    SaysDir rule.1 (optionValueOf rule.2) fun ds vs =>
      (ds.flatMap fun d => (optionsNamed rule.2 d).tail.map fun o => (o.position,
        text [s%"multiple option declarations for ", rule.2, s%", first was ",
          (optionsNamed rule.2 d).head?.elim [] fun first => env.showOption first])) ++
        if ¬ Agree (optionValueOf rule.2) ds then ds.map fun d => ({ filename := d.filename },
          if [] ∈ vs then
            namedText s%"File option " rule.2 s%" set in some files in directory but not in others."
          else text [s%"Multiple values for file option ", quote rule.2, s%" in directory: ",
            join s%", " vs, s%"."]) else [] := by
  intro rule hr
  simp only [sameInDir, List.mem_cons, List.not_mem_nil, or_false] at hr
  rcases hr with rfl | rfl | rfl | rfl | rfl | rfl <;> exact says_optionSameInDir env _ _

/-! ## The theorems are about something -/

/-- Where a rule reports and what it says. -/
def saidBy (l : Linter) (ds : List FileDescriptor) : Option (Option (List (Position × Str))) :=
  (l.check [] ds).map fun r => r.toOption.map (·.map placeAndText)

/-- ```
enum snake_case { ... }
``` -/
def snakes : FileDescriptor := Sample.file s%"a.proto"
  [.package { name := s%"foo", position := Sample.at_ 1 1 },
   .enum { name := s%"snake_case", position := Sample.at_ 2 1 } []]

example : saidBy enumNamesCamelCaseLinter [snakes] =
    some (some [(Sample.at_ 2 1, s%"Enum name \"snake_case\" must be CamelCase.")]) := by decide +kernel

example : saidBy namesNoDataLinter [suppressible true []] = some (some
    [(Sample.at_ 4 3, s%"The name \"data\" contains the outlawed name \"data\". Data is a decorator and all types on Protobuf are data, consider merging this information into a higher-level type, or if you must have such a type, Use \"Info\" instead.. This can be suppressed by adding \"@suppresswarnings naming\" to the comment."),
     (Sample.at_ 4 3, s%"The name \"uuid_data\" contains the outlawed name \"data\". Data is a decorator and all types on Protobuf are data, consider merging this information into a higher-level type, or if you must have such a type, Use \"Info\" instead.. This can be suppressed by adding \"@suppresswarnings naming\" to the comment.")]) := by
  decide +kernel

example : saidBy messageFieldsNotFloatsLinter [suppressible false []] = some (some
    [(Sample.at_ 3 3, s%"Field \"f\" is a float and floats should generally not be used, consider using a double, or an int64 while representing your value in micros or nanos.")]) := by
  decide +kernel

/-- Two files of a directory with different packages. -/
example (env : Env) : ∃ fs, (packagesSameInDirLinter env).check [] [snakes, suppressible true []] =
      some (.ok fs) ∧
    (fs.map placeAndText).Perm
      [({ filename := s%"a.proto" }, s%"Multiple packages in directory: a.Std.public, foo."),
       ({ filename := s%"a.proto" }, s%"Multiple packages in directory: a.Std.public, foo.")] := by
  obtain ⟨fs, vs, hv, h1, h2, _⟩ := C105_packages_same_in_dir env [] [snakes, suppressible true []]
  refine ⟨fs, h1, ?_⟩
  have : vs = [s%"a.Std.public", s%"foo"] := strictSorted_ext hv.1 (by decide) fun x => by
    rw [hv.2]
    have a : packageNameOf snakes = some s%"foo" := by decide
    have b : packageNameOf (suppressible true []) = some s%"a.Std.public" := by decide
    simp only [List.mem_cons, List.not_mem_nil, or_false, exists_eq_or_imp, exists_eq_left, a, b,
      Option.some.injEq]
    constructor
    · rintro (h | h)
      · exact .inr h.symm
      · exact .inl h.symm
    · rintro (h | h)
      · exact .inr h.symm
      · exact .inl h.symm
  rw [this] at h2
  exact h2.trans (.of_eq rfl)

end Verif.Props
