import Verif.Spec.LintSays
import Verif.Spec.Suppression
import Verif.Spec.RequestTypes
import Verif.Spec.SameInDir
import Verif.Spec.Strs

/-! # Specification: the texts of lint messages -/

namespace Verif.Spec

open Verif Proto Lint Str

/-- The kind of a declaration, its name in quotes, and what is wrong with it. -/
def namedText (kind name rest : Str) : Str := text [kind, quote name, rest]

/-- The text of the rules that ask for sentences. -/
def needsSentence : Str :=
  s%" needs a comment with a complete sentence that starts on the first line of the comment."

/-- What COMMENTS_NO_INLINE calls the kinds of declarations. -/
def inlineWord : Element → Str
  | .syntax _ => s%"syntax"
  | .package _ => s%"packages"
  | .option _ => s%"options"
  | .import _ => s%"imports"
  | .enumField _ _ => s%"enum values"
  | .rpc _ _ => s%"RPCs"
  | .normalField _ => s%"fields"
  | .mapField _ => s%"fields"
  | .oneofField _ => s%"oneofs"
  | .reserved _ => s%"reserved"
  | .extensions _ => s%"extensions"
  | _ => []

/-- The text of a failure that can be suppressed: if the configuration allows it, the text tells how. -/
def withHint (annotation : Str) (config : Settings.Config) (pieces : List Str) : Str :=
  text pieces ++ if config.lint.allowSuppression = true then
    text [s%" This can be suppressed by adding \"@suppresswarnings ", annotation, s%"\" to the comment."]
  else []

/-- The uses of types that are in the list or have been used before. -/
def repeated (before : List Str) : List (Position × Str) → List (Position × Str)
  | [] => []
  | (p, t) :: us => (if t ∈ before then [(p, t)] else []) ++ repeated (t :: before) us

/-- What REQUEST_RESPONSE_TYPES_AFTER_SERVICE says of an RPC. -/
def afterSaid (d : FileDescriptor) (r : RPC) : List (Position × Str) :=
  (match lastNamed d r.requestType with
    | some m => if m.position.line < r.position.line then [(m.position,
        text [s%"Message ", quote m.name, s%" is a request for RPC ", quote r.name,
          s%" and should be defined in the file after the RPC."])] else []
    | none => []) ++
  (match lastNamed d r.returnsType with
    | some m => if m.position.line < r.position.line then [(m.position,
        text [s%"Message ", quote m.name, s%" is a response for RPC ", quote r.name,
          s%" and should be defined in the file after the RPC."])] else []
    | none => []) ++
  (match lastNamed d r.requestType, lastNamed d r.returnsType with
    | some req, some resp =>
      if resp.position.line < req.position.line then [(resp.position,
        text [s%"Message ", quote resp.name, s%" is a response for RPC ", quote r.name,
          s%" and should be defined in the file after the request ", quote req.name, s%"."])] else []
    | _, _ => [])

/-- The values of the files, each once, in ascending order. -/
def Listing (value : FileDescriptor → Option Str) (ds : List FileDescriptor) (vs : List Str) : Prop :=
  StrictlyIncreasing vs ∧ ∀ x, x ∈ vs ↔ ∃ d ∈ ds, value d = some x

/-- The rule for directories reports failures under its name exactly at these places of the files
and with these texts, which may name the values of the files, in some order; it does not crash and
gives no error. -/
def SaysDir (l : Linter) (value : FileDescriptor → Option Str)
    (said : List FileDescriptor → List Str → List (Position × Str)) : Prop :=
  ∀ dirPath ds, ∃ fs vs, Listing value ds vs ∧ l.check dirPath ds = some (.ok fs) ∧
    (fs.map placeAndText).Perm (said ds vs) ∧ ∀ f ∈ fs, f.lintID = l.id

end Verif.Spec
