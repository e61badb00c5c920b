import Verif.Proof.ReportsTypes
import Verif.Spec.Sample

/-!
# C32: the rules about request and response types

And the rules that except request and response types. The files are grammatical: RPCs are
in services, services and messages are where the grammar allows them.
-/

namespace Verif.Props

open Verif Proto Spec Lint Str

/-- REQUEST_RESPONSE_TYPES_UNIQUE reports each use of a type, as request or response, that
has been used before in the file. -/
theorem C32_unique : Reports requestResponseTypesUniqueLinter fun d => repeats [] (uses d) :=
  reports_unique

/-- It is silent exactly if no type is used twice. -/
theorem C32_unique_silent (d : FileDescriptor) :
    repeats [] (uses d) = [] ↔ (usedTypes d).Nodup := by
  rw [repeats_nil]
  have : (uses d).map (·.2) = usedTypes d := by
    unfold uses usedTypes
    rw [List.map_flatMap]
    rfl
  rw [this]
  simp

/-- REQUEST_RESPONSE_NAMES_MATCH_RPC. -/
theorem C32_names_match : Reports requestResponseNamesMatchRPCLinter fun d =>
    (rpcs d).flatMap fun r =>
      (if r.requestType ≠ r.name ++ s%"Request" then [r.position] else []) ++
      (if r.returnsType ≠ r.name ++ s%"Response" then [r.position] else []) :=
  reports_match

/-- REQUEST_RESPONSE_TYPES_IN_SAME_FILE reports each request and each response whose type is
not the name of a message of the file itself. (Blocks of extensions count as messages here.) -/
theorem C32_in_same_file : ReportsOn Grammatical requestResponseTypesInSameFileLinter fun d =>
    (rpcs d).flatMap fun r =>
      (if ¬(r.requestType ∈ (topMessages d).map (·.name) ∧ '.' ∉ r.requestType) then [r.position]
        else []) ++
      (if ¬(r.returnsType ∈ (topMessages d).map (·.name) ∧ '.' ∉ r.returnsType) then [r.position]
        else []) :=
  reports_sameFile

/-- REQUEST_RESPONSE_TYPES_AFTER_SERVICE reports for each RPC a request or response type that
begins on a line above that of the RPC, and a response type that begins above its request
type. If messages of the file have the same name, the last one counts. -/
theorem C32_after_service : ReportsOn Grammatical requestResponseTypesAfterServiceLinter fun d =>
    (rpcs d).flatMap (afterPlaces d) :=
  reports_after

/-- REQUEST_RESPONSE_TYPES_ONLY_IN_FILE reports, in files with RPCs, the enums of the file
itself and its messages that are not used. Of those with the same name it reports the last. -/
theorem C32_only_in_file (env : Env) :
    ReportsOn Grammatical (requestResponseTypesOnlyInFileLinter env) fun d =>
      if rpcs d = [] then [] else
        (lastBy (·.name) (topEnums d)).map (·.position) ++
        ((lastBy (·.name) (topMessages d)).filter fun m => m.name ∉ usedTypes d).map (·.position) :=
  reports_only env

/-- MESSAGES_HAVE_COMMENTS_EXCEPT_REQUEST_RESPONSE_TYPES, for messages at any depth of messages.
Of messages with the same name it reports the one that ends last. -/
theorem C32_comments_except (env : Env) :
    ReportsOn Grammatical (messagesHaveCommentsExceptRequestResponseTypesLinter env) fun d =>
      ((lastBy (·.name) (namedMessages d)).filter fun m =>
        m.message.isExtend = false ∧ m.name ∉ usedTypes d).flatMap fun m =>
          if ¬ CommentNames m.message.comment m.message.name then [m.message.position] else [] :=
  reports_except fun _ m => .iff (not_iff (hasGolangStyleComment_iff m.comment m.name))

/-- MESSAGES_HAVE_SENTENCE_COMMENTS_EXCEPT_REQUEST_RESPONSE_TYPES. -/
theorem C32_sentence_comments_except (env : Env) :
    ReportsOn Grammatical (messagesHaveSentenceCommentsExceptRequestResponseTypesLinter env) fun d =>
      ((lastBy (·.name) (namedMessages d)).filter fun m =>
        m.message.isExtend = false ∧ m.name ∉ usedTypes d).flatMap fun m =>
          if ¬ CommentSentence m.message.comment then [m.message.position] else [] :=
  reports_except fun _ m => .iff (not_iff (hasCompleteSentenceComment_iff m.comment))

/-- MESSAGES_NOT_EMPTY_EXCEPT_REQUEST_RESPONSE_TYPES. Blocks of extensions count as messages. -/
theorem C32_not_empty_except (env : Env) :
    ReportsOn Grammatical (messagesNotEmptyExceptRequestResponseTypesLinter env) fun d =>
      ((lastBy (·.name) (namedMessages d)).filter fun m =>
        m.name ∉ usedTypes d ∧ m.fields = 0).map fun m => m.message.position :=
  reports_notEmpty env

/-- In files whose messages have distinct names, the last ones are all. -/
theorem C32_last_all {α : Type} (name : α → Str) (l : List α) (h : (l.map name).Nodup) :
    lastBy name l = l := lastBy_nodup h

/-- The messages listed by their ends are the messages. -/
theorem C32_named_all (d : FileDescriptor) :
    ((namedMessages d).map (·.message)).Perm (messages d) := by
  unfold namedMessages messages inside fileNodes
  have h := (((endingAll_perm d.elements []).filter fun n => n.around.all isMessage).filterMap
    asNamedMessage).map (·.message)
  refine h.trans (.of_eq ?_)
  rw [List.map_filterMap]
  congr 1
  funext n
  obtain ⟨around, e⟩ := n
  cases e <;> rfl

/-! ## These theorems are about something -/

/-- ```
message Old {}
service S {
  rpc Get(GetRequest) returns (GetResponse);
  rpc Put(Out.In) returns (GetResponse);
}
message GetResponse {}
message GetRequest { oneof o { int32 a = 1; } }
message Out { message In {} }
extend Old { int32 x = 1; }
``` -/
def typesFile : FileDescriptor := Sample.file s%"a.proto"
  [.message { name := s%"Old", position := Sample.at_ 1 1 } [],
   .service { name := s%"S", position := Sample.at_ 2 1 }
     [.rpc { name := s%"Get", requestType := s%"GetRequest", returnsType := s%"GetResponse",
             position := Sample.at_ 3 3 } [],
      .rpc { name := s%"Put", requestType := s%"Out.In", returnsType := s%"GetResponse",
             position := Sample.at_ 4 3 } []],
   .message { name := s%"GetResponse", position := Sample.at_ 6 1 } [],
   .message { name := s%"GetRequest", position := Sample.at_ 7 1 }
     [.oneof { name := s%"o", position := Sample.at_ 7 22 }
       [.oneofField { name := s%"a", type := s%"int32", sequence := 1, position := Sample.at_ 7 32 }]],
   .message { name := s%"Out", position := Sample.at_ 8 1 }
     [.message { name := s%"In", position := Sample.at_ 8 15 } []],
   .message { name := s%"Old", position := Sample.at_ 9 1, isExtend := true }
     [.normalField { field :=
        { name := s%"x", type := s%"int32", sequence := 1, position := Sample.at_ 9 14 } }]]

example : Grammatical typesFile := by decide +kernel

example : repeats [] (uses typesFile) = [Sample.at_ 4 3] ∧
    (rpcs typesFile).flatMap (afterPlaces typesFile) = [Sample.at_ 6 1] ∧
    (topMessages typesFile).map (·.name) =
      [s%"Old", s%"GetResponse", s%"GetRequest", s%"Out", s%"Old"] ∧
    (lastBy (·.name) (namedMessages typesFile)).map (fun m => (m.name, m.fields)) =
      [(s%"GetResponse", 0), (s%"GetRequest", 1), (s%"Out.In", 0), (s%"Out", 0), (s%"Old", 1)] := by
  decide +kernel

/-- The message `Old` of this file is neither used nor empty by its last block, so the rule
against empty messages reports `Out` only, although the first `Old` is empty. -/
example : ((lastBy (·.name) (namedMessages typesFile)).filter fun m =>
    m.name ∉ usedTypes typesFile ∧ m.fields = 0).map (fun m => m.message.position) =
      [Sample.at_ 8 1] := by
  decide +kernel

end Verif.Props
