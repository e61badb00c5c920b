import Verif.Proof.ReportsSuppress
import Verif.Proof.LintIDs
import Verif.Spec.Sample

/-!
# C28: suppression annotations silence only the annotated element

Each of the seven rules that can be suppressed is described exactly: what it reports, and
that it leaves out exactly what is suppressed by the comment of the offending element.
-/

namespace Verif.Props

open Verif Proto Spec Lint Str

/-- The rules that can be suppressed, with their annotations. -/
theorem C28_rules (env : Env) :
    ((allLinters env).filter fun l => l.suppressableAnnotation ≠ []).map
      (fun l => (l.id, l.suppressableAnnotation)) =
    [(s%"MESSAGE_FIELDS_NOT_FLOATS", s%"floats"),
     (s%"NAMES_NO_COMMON", s%"naming"),
     (s%"NAMES_NO_DATA", s%"naming"),
     (s%"NAMES_NO_UUID", s%"naming"),
     (s%"PACKAGE_NO_KEYWORDS", s%"keywords"),
     (s%"RPC_OPTIONS_NO_GOOGLE_API_HTTP", s%"google-api-http"),
     (s%"SERVICE_NAMES_NO_PLURALS", s%"plurals")] := by
  have : (allLinters env).filter (fun l => l.suppressableAnnotation ≠ []) =
      [messageFieldsNotFloatsLinter, namesNoCommonLinter, namesNoDataLinter, namesNoUUIDLinter,
       packageNoKeywordsLinter, rpcOptionsNoGoogleAPIHTTPLinter, serviceNamesNoPluralsLinter env] := rfl
  rw [this]
  simp only [List.map_cons, List.map_nil, messageFieldsNotFloatsLinter_id, namesNoCommonLinter_id,
    namesNoDataLinter_id, namesNoUUIDLinter_id, packageNoKeywordsLinter_id,
    rpcOptionsNoGoogleAPIHTTPLinter_id, serviceNamesNoPluralsLinter_id]
  rfl

/-- What any rule does with a failure it has found: it is dropped exactly if the rule can be
suppressed, the rule gave the configuration with it, and the comment it gave with it has the
annotation of the rule. -/
theorem C28_dropped (l : Linter) (config : Option Settings.Config) (comment : Option Comment)
    (failure : Text.Failure) :
    l.report (.add config comment failure) = none ↔
      l.suppressableAnnotation ≠ [] ∧ ∃ c, config = some c ∧
        Suppressed l.suppressableAnnotation c comment := by
  unfold Linter.report
  dsimp only
  by_cases h : l.suppressableAnnotation = []
  · have : l.isSuppressed config comment = false := by
      unfold Linter.isSuppressed Linter.allowSuppression
      simp [h]
    simp [this, h]
  · cases config with
    | none =>
      have : l.isSuppressed none comment = false := by
        unfold Linter.isSuppressed Linter.allowSuppression
        simp
      simp [this]
    | some c =>
      have := isSuppressed_iff h c comment
      by_cases hs : l.isSuppressed (some c) comment = true
      · simp [hs, h, this.1 hs]
      · simp only [Bool.not_eq_true] at hs
        rw [hs] at this
        simp only [Bool.false_eq_true, false_iff] at this
        simp [hs, this]

/-- MESSAGE_FIELDS_NOT_FLOATS. -/
theorem C28_message_fields_not_floats : Reports messageFieldsNotFloatsLinter fun d =>
    ((fields d).filter fun f =>
      f.type = s%"float" ∧ ¬ Suppressed s%"floats" d.config f.comment).map (·.position) :=
  reports_floats

/-- NAMES_NO_COMMON: every name in the file, at any depth, counts. -/
theorem C28_names_no_common : Reports namesNoCommonLinter fun d =>
    (fileNodes d).flatMap fun n =>
      ((namesOf n.self).filter fun name => s%"common" <:+: toLower name ∧
        ¬ Suppressed s%"naming" d.config (commentOf n.self)).map fun _ => positionOf n.self :=
  reports_names _ _ _

/-- NAMES_NO_DATA. -/
theorem C28_names_no_data : Reports namesNoDataLinter fun d =>
    (fileNodes d).flatMap fun n =>
      ((namesOf n.self).filter fun name => s%"data" <:+: toLower name ∧
        ¬ Suppressed s%"naming" d.config (commentOf n.self)).map fun _ => positionOf n.self :=
  reports_names _ _ _

/-- NAMES_NO_UUID. -/
theorem C28_names_no_uuid : Reports namesNoUUIDLinter fun d =>
    (fileNodes d).flatMap fun n =>
      ((namesOf n.self).filter fun name => s%"uuid" <:+: toLower name ∧
        ¬ Suppressed s%"naming" d.config (commentOf n.self)).map fun _ => positionOf n.self :=
  reports_names _ _ _

/-- PACKAGE_NO_KEYWORDS: one failure for each part of the package name that is a keyword in
some generated language. -/
theorem C28_package_no_keywords : Reports packageNoKeywordsLinter fun d =>
    (packages d).flatMap fun p =>
      ((splitChar '.' p.name).filter fun part =>
        toLower part ∈ [s%"internal", s%"public", s%"private", s%"protected", s%"std"] ∧
          ¬ Suppressed s%"keywords" d.config p.comment).map fun _ => p.position :=
  reports_keywords

/-- RPC_OPTIONS_NO_GOOGLE_API_HTTP: it is the comment of the RPC that counts. On files with
such an option, fully qualified, outside of RPCs the rule crashes (see C33). -/
theorem C28_rpc_options_no_google_api_http :
    ReportsOn (fun d => Grammatical d ∧ ∀ o ∈ outerOptions d, ¬ s%"(.google.api.http)" <+: o.name)
      rpcOptionsNoGoogleAPIHTTPLinter fun d =>
        ((rpcOptions d).filter fun p => HTTPName p.2.name ∧
          ¬ Suppressed s%"google-api-http" d.config p.1.comment).map (·.2.position) :=
  reports_http

/-- SERVICE_NAMES_NO_PLURALS: one failure for each word of the name that has a singular
(`env.singularize` is the library that knows), except words in capitals and `data`. -/
theorem C28_service_names_no_plurals (env : Env) :
    Reports (serviceNamesNoPluralsLinter env) fun d =>
      (services d).flatMap fun s =>
        ((Strs.splitCamelCaseWord s.name).filter fun word =>
          (env.singularize (toLower word) ≠ toLower word ∧ toUpper word ≠ word ∧
            toLower word ≠ s%"data") ∧ ¬ Suppressed s%"plurals" d.config s.comment).map
          fun _ => s.position :=
  reports_plurals env

/-! ## These theorems are about something -/

/-- `message Common { float f = 1; reserved "data", "uuid_data"; }`, the message with a comment. -/
def suppressible (allow : Bool) (line : Str) : FileDescriptor :=
  { Sample.file s%"a.proto"
      [.package { name := s%"a.Std.public", position := Sample.at_ 1 1 },
       .message
          { name := s%"Common", position := Sample.at_ 2 1
            comment := some { position := Sample.at_ 1 20, lines := [s%"A message.", line] } }
        [.normalField { field :=
           { name := s%"f", type := s%"float", sequence := 1, position := Sample.at_ 3 3 } },
         .reserved { fieldNames := [s%"data", s%"uuid_data"], position := Sample.at_ 4 3 }]] with
    config := { Sample.config with lint := { Sample.config.lint with allowSuppression := allow } } }

/-- Where the rule reports something. -/
def placesOf (l : Linter) (d : FileDescriptor) : Option (Option (List Position)) :=
  (l.check [] [d]).map fun r => r.toOption.map (·.map place)

example :
    placesOf namesNoCommonLinter (suppressible false s%" @suppresswarnings naming") =
      some (some [Sample.at_ 2 1]) ∧
    placesOf namesNoCommonLinter (suppressible true s%" @suppresswarnings naming") =
      some (some []) ∧
    placesOf namesNoCommonLinter (suppressible true s%" @suppresswarnings floats") =
      some (some [Sample.at_ 2 1]) := by decide +kernel

example : placesOf namesNoDataLinter (suppressible true []) = some (some [Sample.at_ 4 3, Sample.at_ 4 3]) := by decide +kernel

example : placesOf packageNoKeywordsLinter (suppressible true []) = some (some [Sample.at_ 1 1, Sample.at_ 1 1]) := by decide +kernel

example : placesOf messageFieldsNotFloatsLinter (suppressible true s%" @suppresswarnings floats") = some (some [Sample.at_ 3 3]) := by decide +kernel

/-- `service S { rpc R(A) returns (B) { option (google.api.http).get = "/"; } }` -/
def httpFile : FileDescriptor := Sample.file s%"a.proto"
  [.option { name := s%"java_package", constant := .mk s%"x" true '"' [] [] },
   .service { name := s%"S" }
    [.rpc { name := s%"R", requestType := s%"A", returnsType := s%"B" }
      [.option { name := s%"(google.api.http).get", constant := .mk s%"x" true '"' [] [], position := Sample.at_ 3 3 }]]]

example : Grammatical httpFile ∧ ∀ o ∈ outerOptions httpFile, ¬ s%"(.google.api.http)" <+: o.name := by
  decide +kernel

example : placesOf rpcOptionsNoGoogleAPIHTTPLinter httpFile = some (some [Sample.at_ 3 3]) := by decide +kernel

end Verif.Props
