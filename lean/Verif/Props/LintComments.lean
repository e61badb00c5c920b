import Verif.Proof.ReportsTree
import Verif.Spec.Sample

/-! # C55: the rules about comments -/

namespace Verif.Props

open Verif Proto Spec Lint Str

/-- ENUMS_HAVE_COMMENTS. -/
theorem C55_enums_have_comments : Reports enumsHaveCommentsLinter fun d =>
    ((enums d).filter fun e => ¬ CommentNames e.comment e.name).map (·.position) :=
  reports_simple rfl rfl (by visitor_shape)
    (by visitor_own fun e : Enum => not_iff (hasGolangStyleComment_iff e.comment e.name))

/-- ENUM_FIELDS_HAVE_COMMENTS. -/
theorem C55_enum_fields_have_comments : Reports enumFieldsHaveCommentsLinter fun d =>
    ((enumValues d).filter fun e => ¬ CommentNames e.comment e.name).map (·.position) :=
  reports_simple rfl rfl (by visitor_shape)
    (by visitor_own fun e : EnumField => not_iff (hasGolangStyleComment_iff e.comment e.name))

/-- MESSAGES_HAVE_COMMENTS. -/
theorem C55_messages_have_comments : Reports messagesHaveCommentsLinter fun d =>
    ((messages d).filter fun e => e.isExtend = false ∧ ¬ CommentNames e.comment e.name).map
      (·.position) :=
  reports_simple rfl rfl (by visitor_shape)
    (by visitor_own fun e : Message => not_iff (hasGolangStyleComment_iff e.comment e.name))

/-- MESSAGE_FIELDS_HAVE_COMMENTS. -/
theorem C55_message_fields_have_comments : Reports messageFieldsHaveCommentsLinter fun d =>
    ((fields d).filter fun e => ¬ CommentNames e.comment e.name).map (·.position) :=
  reports_simple rfl rfl (by visitor_shape)
    (by visitor_own fun e : Field => not_iff (hasGolangStyleComment_iff e.comment e.name))

/-- SERVICES_HAVE_COMMENTS. -/
theorem C55_services_have_comments : Reports servicesHaveCommentsLinter fun d =>
    ((services d).filter fun e => ¬ CommentNames e.comment e.name).map (·.position) :=
  reports_simple rfl rfl (by visitor_shape)
    (by visitor_own fun e : Service => not_iff (hasGolangStyleComment_iff e.comment e.name))

/-- RPCS_HAVE_COMMENTS. -/
theorem C55_rpcs_have_comments : Reports rpcsHaveCommentsLinter fun d =>
    ((rpcs d).filter fun e => ¬ CommentNames e.comment e.name).map (·.position) :=
  reports_simple rfl rfl (by visitor_shape)
    (by visitor_own fun e : RPC => not_iff (hasGolangStyleComment_iff e.comment e.name))

/-- ENUMS_HAVE_SENTENCE_COMMENTS. -/
theorem C55_enums_have_sentence_comments : Reports enumsHaveSentenceCommentsLinter fun d =>
    ((enums d).filter fun e => ¬ CommentSentence e.comment).map (·.position) :=
  reports_simple rfl rfl (by visitor_shape)
    (by visitor_own fun e : Enum => not_iff (hasCompleteSentenceComment_iff e.comment))

/-- ENUM_FIELDS_HAVE_SENTENCE_COMMENTS. -/
theorem C55_enum_fields_have_sentence_comments :
    Reports enumFieldsHaveSentenceCommentsLinter fun d =>
      ((enumValues d).filter fun e => ¬ CommentSentence e.comment).map (·.position) :=
  reports_simple rfl rfl (by visitor_shape)
    (by visitor_own fun e : EnumField => not_iff (hasCompleteSentenceComment_iff e.comment))

/-- MESSAGE_FIELDS_HAVE_SENTENCE_COMMENTS. -/
theorem C55_message_fields_have_sentence_comments :
    Reports messageFieldsHaveSentenceCommentsLinter fun d =>
      ((fields d).filter fun e => ¬ CommentSentence e.comment).map (·.position) :=
  reports_simple rfl rfl (by visitor_shape)
    (by visitor_own fun e : Field => not_iff (hasCompleteSentenceComment_iff e.comment))

/-- SERVICES_HAVE_SENTENCE_COMMENTS. -/
theorem C55_services_have_sentence_comments : Reports servicesHaveSentenceCommentsLinter fun d =>
    ((services d).filter fun e => ¬ CommentSentence e.comment).map (·.position) :=
  reports_simple rfl rfl (by visitor_shape)
    (by visitor_own fun e : Service => not_iff (hasCompleteSentenceComment_iff e.comment))

/-- RPCS_HAVE_SENTENCE_COMMENTS. -/
theorem C55_rpcs_have_sentence_comments : Reports rpcsHaveSentenceCommentsLinter fun d =>
    ((rpcs d).filter fun e => ¬ CommentSentence e.comment).map (·.position) :=
  reports_simple rfl rfl (by visitor_shape)
    (by visitor_own fun e : RPC => not_iff (hasCompleteSentenceComment_iff e.comment))

/-- COMMENTS_NO_C_STYLE: every `/* */` comment of every node is reported at the node. -/
theorem C55_comments_no_c_style : Reports commentsNoCStyleLinter fun d =>
    (fileNodes d).flatMap fun n =>
      ([commentOf n.self, inlineCommentOf n.self].filterMap id |>.filter fun c => c.cstyle = true).map
        fun _ => positionOf n.self :=
  reports_noCStyle

/-- COMMENTS_NO_INLINE: every comment behind a node is reported where it is. -/
theorem C55_comments_no_inline : Reports commentsNoInlineLinter fun d =>
    (fileNodes d).flatMap fun n => (inlineCommentOf n.self).toList.map (·.position) :=
  reports_noInline

/-! ## The theorems are about something -/

example : CommentNames (some ⟨{}, [s%" Foo is a thing"], false⟩) s%"Foo" := by decide
example : ¬ CommentNames (some ⟨{}, [s%" Foo"], false⟩) s%"Foo" := by decide
example : CommentSentence (some ⟨{}, [s%" Some text", s%" and more."], false⟩) := by decide
example : ¬ CommentSentence (some ⟨{}, [s%" some text."], false⟩) := by decide
/-- Lower case, but its encoding begins with the byte 0xC3. -/
example : CommentSentence (some ⟨{}, [s%" écrire."], false⟩) := by decide

/-- ```
/* c */ message M { int32 f = 1; // x
}
``` -/
def commented : FileDescriptor := Sample.file s%"a.proto"
  [.message ⟨Sample.at_ 1 9, some ⟨{}, [s%" c "], true⟩, s%"M", false⟩
    [.normalField { field := ⟨Sample.at_ 1 21, none, s%"f", s%"int32", 1, [],
      some ⟨Sample.at_ 1 34, [s%" x"], false⟩⟩ }]]

example : ((messages commented).filter fun e =>
    e.isExtend = false ∧ ¬ CommentNames e.comment e.name).map (·.position) = [Sample.at_ 1 9] := by
  decide
example : ((fileNodes commented).flatMap fun n =>
      ([commentOf n.self, inlineCommentOf n.self].filterMap id |>.filter fun c => c.cstyle = true).map
        fun _ => positionOf n.self) = [Sample.at_ 1 9] := by decide
example : ((fileNodes commented).flatMap fun n =>
    (inlineCommentOf n.self).toList.map (·.position)) = [Sample.at_ 1 34] := by decide

end Verif.Props
