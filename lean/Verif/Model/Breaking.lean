import Verif.Model.Extract
import Verif.Model.Text
import Verif.Go.Strconv

/-!
# Model of internal/breaking

A check runs loops over maps; each loop body appends failures or returns an error.
The model computes the result of every body (a body depends only on the two
package sets) and then visits the results in the order of the oracle.
-/

namespace Verif.Breaking

open Verif Reflect Extract Text

/-- What a check does: the failures added, or the error returned. -/
abbrev Res := Except Err (List Failure)

/-- Runs loop bodies one after the other, stopping at the first error. -/
def seqRes : List Res → Res
  | [] => .ok []
  | .error e :: _ => .error e
  | .ok fs :: rest =>
    match seqRes rest with
    | .error e => .error e
    | .ok gs => .ok (fs ++ gs)

/-- Two parts of a check, one after the other. -/
def andThen (a b : Res) : Res := seqRes [a, b]

/-- A `range` loop over a map with the given body results. -/
def loop (o : Order) (site : Site) (bodies : List Res) : Res := seqRes (o.ord site bodies)

/-- `newTextFailuref`, internal/breaking/helpers.go:290-294. -/
def newTextFailure (message : Str) : Failure := ⟨[], 0, 0, [], message⟩

/-- Adds one failure. -/
def addFailure (message : Str) : Res := .ok [newTextFailure message]

/-- `x, ok := m[k]` followed by a branch on `ok`. -/
def lookupElse {β : Type} (x : Option β) (missing : Res) (found : β → Res) : Res :=
  match x with
  | none => missing
  | some b => found b

/-! ## helpers.go -/

/-- `forEachPackagePair`, internal/breaking/helpers.go:30-50. -/
def forEachPackagePair (o : Order) (site : Site) (frm to : XPackageSet)
    (f : Site → XPackage → XPackage → Res) : Res :=
  loop o site (frm.packages.map fun p =>
    lookupElse (kget (fun q => q.proto.name) to.packages p.proto.name)
      (.ok []) fun q => f (s%"package" :: p.proto.name :: site) p q)

mutual
/-- The loop body of `forEachMessagePairRec` for a pair of messages,
internal/breaking/helpers.go:84-89. -/
def messagePairRec (o : Order) (f : Site → XMessage → XMessage → Res) (site : Site) :
    XMessage → XMessage → Res
  | .mk name fqn enums nested a b oneofs, to =>
    andThen (f (s%"message" :: name :: site) (.mk name fqn enums nested a b oneofs) to)
      (loop o (s%"message" :: name :: site) (messagePairBodies o f (s%"message" :: name :: site) nested to.nestedMessages))

/-- The loop bodies of `forEachMessagePairRec`, internal/breaking/helpers.go:82-91. -/
def messagePairBodies (o : Order) (f : Site → XMessage → XMessage → Res) (site : Site) :
    List XMessage → List XMessage → List Res
  | [], _ => []
  | m :: ms, to =>
    lookupElse (kget XMessage.name to m.name)
      (.ok []) (fun m' => messagePairRec o f site m m') :: messagePairBodies o f site ms to
end

/-- `forEachMessagePairRec`, internal/breaking/helpers.go:72-93. -/
def forEachMessagePairRec (o : Order) (site : Site) (frm to : List XMessage)
    (f : Site → XMessage → XMessage → Res) : Res :=
  loop o site (messagePairBodies o f site frm to)

/-- `forEachMessagePair`, internal/breaking/helpers.go:52-70. -/
def forEachMessagePair (o : Order) (site : Site) (frm to : XPackageSet)
    (f : Site → XMessage → XMessage → Res) : Res :=
  forEachPackagePair o site frm to fun site p q =>
    forEachMessagePairRec o site p.messages q.messages f

/-- `forEachMessageFieldPair`, internal/breaking/helpers.go:95-122. -/
def forEachMessageFieldPair (o : Order) (site : Site) (frm to : XPackageSet)
    (f : XField → XField → Res) : Res :=
  forEachMessagePair o site frm to fun site m m' =>
    loop o (s%"field" :: site) (m.fieldNumberToField.map fun x =>
      lookupElse (kget (fun y => y.proto.number) m'.fieldNumberToField x.proto.number)
        (.ok []) fun y => f x y)

/-- `forEachMessageOneofPair`, internal/breaking/helpers.go:124-151. -/
def forEachMessageOneofPair (o : Order) (site : Site) (frm to : XPackageSet)
    (f : Site → XOneof → XOneof → Res) : Res :=
  forEachMessagePair o site frm to fun site m m' =>
    loop o (s%"oneof" :: site) (m.oneofs.map fun x =>
      lookupElse (kget (fun y => y.proto.name) m'.oneofs x.proto.name)
        (.ok []) fun y => f (x.proto.name :: s%"oneof" :: site) x y)

/-- `forEachEnumPairInternal`, internal/breaking/helpers.go:183-201. -/
def forEachEnumPairInternal (o : Order) (site : Site) (frm to : List XEnum)
    (f : Site → XEnum → XEnum → Res) : Res :=
  loop o (s%"enum" :: site) (frm.map fun x =>
    lookupElse (kget (fun y => y.proto.name) to x.proto.name)
      (.ok []) fun y => f (x.proto.name :: s%"enum" :: site) x y)

/-- `forEachEnumPair`, internal/breaking/helpers.go:153-181. -/
def forEachEnumPair (o : Order) (site : Site) (frm to : XPackageSet)
    (f : Site → XEnum → XEnum → Res) : Res :=
  andThen
    (forEachPackagePair o (s%"1" :: site) frm to fun site p q =>
      forEachEnumPairInternal o site p.enums q.enums f)
    (forEachMessagePair o (s%"2" :: site) frm to fun site m m' =>
      forEachEnumPairInternal o site m.nestedEnums m'.nestedEnums f)

/-- `forEachEnumValuePair`, internal/breaking/helpers.go:203-230. -/
def forEachEnumValuePair (o : Order) (site : Site) (frm to : XPackageSet)
    (f : XEnumValue → XEnumValue → Res) : Res :=
  forEachEnumPair o site frm to fun site e e' =>
    loop o (s%"value" :: site) (e.valueNumberToValue.map fun x =>
      lookupElse (kget (fun y => y.proto.number) e'.valueNumberToValue x.proto.number)
        (.ok []) fun y => f x y)

/-- `forEachServicePair`, internal/breaking/helpers.go:232-259. -/
def forEachServicePair (o : Order) (site : Site) (frm to : XPackageSet)
    (f : Site → XService → XService → Res) : Res :=
  forEachPackagePair o site frm to fun site p q =>
    loop o (s%"service" :: site) (p.services.map fun x =>
      lookupElse (kget (fun y => y.proto.name) q.services x.proto.name)
        (.ok []) fun y => f (x.proto.name :: s%"service" :: site) x y)

/-- `forEachServiceMethodPair`, internal/breaking/helpers.go:261-288. -/
def forEachServiceMethodPair (o : Order) (site : Site) (frm to : XPackageSet)
    (f : XMethod → XMethod → Res) : Res :=
  forEachServicePair o site frm to fun site s s' =>
    loop o (s%"method" :: site) (s.methods.map fun x =>
      lookupElse (kget (fun y => y.proto.name) s'.methods x.proto.name) (.ok []) fun y => f x y)

/-! ## strings.go -/

/-- `getMessageFieldLabelString`, internal/breaking/strings.go:30-34 and :57-63. -/
def labelString (label : Int) : Except Err Str :=
  if label = 1 then .ok (s%"optional")
  else if label = 2 then .ok (s%"required")
  else if label = 3 then .ok (s%"repeated")
  else .error (s%"unknown MessageField.Label: " ++ itoa label)

/-- `messageFieldTypeToString`, internal/breaking/strings.go:35-54. -/
def typeStrings : List (Int × Str) :=
  [(1, s%"double"), (2, s%"float"), (3, s%"int64"), (4, s%"uint64"), (5, s%"int32"),
   (6, s%"fixed64"), (7, s%"fixed32"), (8, s%"bool"), (9, s%"string"), (10, s%"group"),
   (11, s%"message"), (12, s%"bytes"), (13, s%"uint32"), (14, s%"enum"), (15, s%"sfixed32"),
   (16, s%"sfixed64"), (17, s%"sint32"), (18, s%"sint64")]

/-- `getMessageFieldTypeString`, internal/breaking/strings.go:65-71. -/
def typeString (type : Int) : Except Err Str :=
  match typeStrings.lookup type with
  | some s => .ok s
  | none => .error (s%"unknown MessageField.Type: " ++ itoa type)

/-! ## Failure texts -/

/-- internal/breaking/check_enum_values_not_deleted.go:43-45 -/
def enumValuesNotDeletedText (enumName : Str) (valueNumber : Int) : Str :=
  s%"Enum value \"" ++ itoa valueNumber ++ s%"\" on enum " ++ quote enumName ++ s%" was deleted."

/-- internal/breaking/check_enum_values_same_name.go:42-44 -/
def enumValuesSameNameText (enumName : Str) (valueNumber : Int) (fromName toName : Str) : Str :=
  s%"Enum value \"" ++ itoa valueNumber ++ s%"\" on enum " ++ quote enumName ++
    s%" changed from " ++ quote fromName ++ s%" to " ++ quote toName ++ s%"."

/-- internal/breaking/check_enums_not_deleted.go:54-56 -/
def enumsNotDeletedText (enumName : Str) : Str := s%"Enum " ++ quote enumName ++ s%" was deleted."

/-- internal/breaking/check_message_fields_not_deleted.go:43-45 -/
def messageFieldsNotDeletedText (messageName : Str) (fieldNumber : Int) : Str :=
  s%"Message field \"" ++ itoa fieldNumber ++ s%"\" on message " ++ quote messageName ++
    s%" was deleted."

/-- internal/breaking/check_message_fields_same_label.go:50-52 -/
def messageFieldsSameLabelText (messageName : Str) (fieldNumber : Int) (fromLabel toLabel : Str) : Str :=
  s%"Message field \"" ++ itoa fieldNumber ++ s%"\" on message " ++ quote messageName ++
    s%" changed from " ++ quote fromLabel ++ s%" to " ++ quote toLabel ++ s%"."

/-- internal/breaking/check_message_fields_same_name.go:42-44 -/
def messageFieldsSameNameText (messageName : Str) (fieldNumber : Int) (fromName toName : Str) : Str :=
  s%"Message field \"" ++ itoa fieldNumber ++ s%"\" on message " ++ quote messageName ++
    s%" changed from " ++ quote fromName ++ s%" to " ++ quote toName ++ s%"."

/-- internal/breaking/check_message_fields_same_oneof.go:42-44 -/
def messageFieldsSameOneofText (messageName : Str) (fieldNumber : Int) (oneofName : Str) : Str :=
  s%"Message field \"" ++ itoa fieldNumber ++ s%"\" on message " ++ quote messageName ++
    s%" moved from outside any oneof to inside the oneof " ++ quote oneofName ++ s%"."

/-- internal/breaking/check_message_fields_same_type.go:69-71 -/
def messageFieldsSameTypeText (messageName : Str) (fieldNumber : Int) (fromType toType : Str) : Str :=
  s%"Message field \"" ++ itoa fieldNumber ++ s%"\" on message " ++ quote messageName ++
    s%" changed type from " ++ quote fromType ++ s%" to " ++ quote toType ++ s%"."

/-- internal/breaking/check_message_oneofs_fields_not_removed.go:43-45 -/
def messageOneofsFieldsNotRemovedText (messageName oneofName : Str) (fieldNumber : Int) : Str :=
  s%"Message oneof " ++ quote oneofName ++ s%" on message " ++ quote messageName ++
    s%" had field \"" ++ itoa fieldNumber ++ s%"\" removed."

/-- internal/breaking/check_message_oneofs_not_deleted.go:43-45 -/
def messageOneofsNotDeletedText (messageName oneofName : Str) : Str :=
  s%"Message oneof " ++ quote oneofName ++ s%" on message " ++ quote messageName ++ s%" was deleted."

/-- internal/breaking/check_messages_not_deleted.go:48-50 -/
def messagesNotDeletedText (messageName : Str) : Str :=
  s%"Message " ++ quote messageName ++ s%" was deleted."

/-- internal/breaking/check_packages_no_beta_deps.go:42-44 -/
def packagesNoBetaDepsText (packageName depPackageName : Str) : Str :=
  s%"Package " ++ quote packageName ++ s%" depends on beta package " ++ quote depPackageName ++
    s%" which is not allowed."

/-- internal/breaking/check_packages_not_deleted.go:39-41 -/
def packagesNotDeletedText (packageName : Str) : Str :=
  s%"Package " ++ quote packageName ++ s%" was deleted."

/-- internal/breaking/check_service_methods_not_deleted.go:43-45 -/
def serviceMethodsNotDeletedText (serviceName methodName : Str) : Str :=
  s%"Service method " ++ quote methodName ++ s%" on service " ++ quote serviceName ++ s%" was deleted."

/-- internal/breaking/check_service_methods_same_client_streaming.go:42-49 -/
def serviceMethodsSameClientStreamingText (serviceName methodName : Str) (fromStreaming : Bool) : Str :=
  s%"Service method " ++ quote methodName ++ s%" on service " ++ quote serviceName ++
    (if fromStreaming then s%" changed from client streaming to not client streaming."
     else s%" changed from not client streaming to client streaming.")

/-- internal/breaking/check_service_methods_same_request_type.go:42-44 -/
def serviceMethodsSameRequestTypeText (serviceName methodName fromType toType : Str) : Str :=
  s%"Service method " ++ quote methodName ++ s%" on service " ++ quote serviceName ++
    s%" changed request type from " ++ quote fromType ++ s%" to " ++ quote toType ++ s%"."

/-- internal/breaking/check_service_methods_same_response_type.go:42-44 -/
def serviceMethodsSameResponseTypeText (serviceName methodName fromType toType : Str) : Str :=
  s%"Service method " ++ quote methodName ++ s%" on service " ++ quote serviceName ++
    s%" changed response type from " ++ quote fromType ++ s%" to " ++ quote toType ++ s%"."

/-- internal/breaking/check_service_methods_same_server_streaming.go:42-49 -/
def serviceMethodsSameServerStreamingText (serviceName methodName : Str) (fromStreaming : Bool) : Str :=
  s%"Service method " ++ quote methodName ++ s%" on service " ++ quote serviceName ++
    (if fromStreaming then s%" changed from server streaming to not server streaming."
     else s%" changed from not server streaming to server streaming.")

/-- internal/breaking/check_services_not_deleted.go:45-47 -/
def servicesNotDeletedText (serviceName : Str) : Str :=
  s%"Service " ++ quote serviceName ++ s%" was deleted."

/-! ## The checks -/

/-- `checkEnumsNotDeletedMap`, internal/breaking/check_enums_not_deleted.go:45-52. -/
def checkEnumsNotDeletedMap (o : Order) (site : Site) (frm to : List XEnum) : Res :=
  loop o (s%"enum" :: site) (frm.map fun e =>
    lookupElse (kget (fun y => y.proto.name) to e.proto.name)
      (addFailure (enumsNotDeletedText e.fqn)) fun _ => .ok [])

/-- `checkEnumsNotDeleted`, internal/breaking/check_enums_not_deleted.go:28-43. -/
def checkEnumsNotDeleted (o : Order) (site : Site) (frm to : XPackageSet) : Res :=
  andThen
    (forEachPackagePair o (s%"1" :: site) frm to fun site p q =>
      checkEnumsNotDeletedMap o site p.enums q.enums)
    (forEachMessagePair o (s%"2" :: site) frm to fun site m m' =>
      checkEnumsNotDeletedMap o site m.nestedEnums m'.nestedEnums)

/-- `checkEnumValuesNotDeleted`, internal/breaking/check_enum_values_not_deleted.go:28-41. -/
def checkEnumValuesNotDeleted (o : Order) (site : Site) (frm to : XPackageSet) : Res :=
  forEachEnumPair o site frm to fun site e e' =>
    loop o (s%"value" :: site) (e.valueNumberToValue.map fun v =>
      lookupElse (kget (fun y => y.proto.number) e'.valueNumberToValue v.proto.number)
        (addFailure (enumValuesNotDeletedText e.fqn v.proto.number)) fun _ => .ok [])

/-- `checkEnumValuesSameName`, internal/breaking/check_enum_values_same_name.go:28-40. -/
def checkEnumValuesSameName (o : Order) (site : Site) (frm to : XPackageSet) : Res :=
  forEachEnumValuePair o site frm to fun v v' =>
    if v.proto.name ≠ v'.proto.name then
      addFailure (enumValuesSameNameText v.enumFqn v.proto.number v.proto.name v'.proto.name)
    else .ok []

mutual
/-- One message of `checkMessagesNotDeletedMap` that is still present,
internal/breaking/check_messages_not_deleted.go:41. -/
def messagesNotDeletedRec (o : Order) (site : Site) : XMessage → XMessage → Res
  | .mk name _ _ nested _ _ _, to =>
    loop o (s%"message" :: name :: site) (messagesNotDeletedBodies o (s%"message" :: name :: site) nested to.nestedMessages)

/-- The loop bodies of `checkMessagesNotDeletedMap`,
internal/breaking/check_messages_not_deleted.go:37-44. -/
def messagesNotDeletedBodies (o : Order) (site : Site) : List XMessage → List XMessage → List Res
  | [], _ => []
  | m :: ms, to =>
    lookupElse (kget XMessage.name to m.name)
      (addFailure (messagesNotDeletedText m.fqn))
      (fun m' => messagesNotDeletedRec o site m m') :: messagesNotDeletedBodies o site ms to
end

/-- `checkMessagesNotDeleted`, internal/breaking/check_messages_not_deleted.go:28-46. -/
def checkMessagesNotDeleted (o : Order) (site : Site) (frm to : XPackageSet) : Res :=
  forEachPackagePair o site frm to fun site p q =>
    loop o site (messagesNotDeletedBodies o site p.messages q.messages)

/-- `checkMessageFieldsNotDeleted`, internal/breaking/check_message_fields_not_deleted.go:28-41. -/
def checkMessageFieldsNotDeleted (o : Order) (site : Site) (frm to : XPackageSet) : Res :=
  forEachMessagePair o site frm to fun site m m' =>
    loop o (s%"field" :: site) (m.fieldNumberToField.map fun f =>
      lookupElse (kget (fun y => y.proto.number) m'.fieldNumberToField f.proto.number)
        (addFailure (messageFieldsNotDeletedText m.fqn f.proto.number)) fun _ => .ok [])

/-- `checkMessageFieldsSameLabelMessageField`,
internal/breaking/check_message_fields_same_label.go:32-48. -/
def sameLabelField (f f' : XField) : Res :=
  if f.proto.label ≠ f'.proto.label then
    match labelString f.proto.label with
    | .error e => .error e
    | .ok a =>
      match labelString f'.proto.label with
      | .error e => .error e
      | .ok b => addFailure (messageFieldsSameLabelText f.messageFqn f.proto.number a b)
  else .ok []

/-- `checkMessageFieldsSameLabel`, internal/breaking/check_message_fields_same_label.go:28-30. -/
def checkMessageFieldsSameLabel (o : Order) (site : Site) (frm to : XPackageSet) : Res :=
  forEachMessageFieldPair o site frm to sameLabelField

/-- `checkMessageFieldsSameName`, internal/breaking/check_message_fields_same_name.go:28-40. -/
def checkMessageFieldsSameName (o : Order) (site : Site) (frm to : XPackageSet) : Res :=
  forEachMessageFieldPair o site frm to fun f f' =>
    if f.proto.name ≠ f'.proto.name then
      addFailure (messageFieldsSameNameText f.messageFqn f.proto.number f.proto.name f'.proto.name)
    else .ok []

/-- `checkMessageFieldsSameOneof`, internal/breaking/check_message_fields_same_oneof.go:28-40. -/
def checkMessageFieldsSameOneof (o : Order) (site : Site) (frm to : XPackageSet) : Res :=
  forEachMessageFieldPair o site frm to fun f f' =>
    match f.oneof, f'.oneof with
    | none, some w => addFailure (messageFieldsSameOneofText f.messageFqn f.proto.number w.name)
    | _, _ => .ok []

/-- The types with a type name: TYPE_GROUP, TYPE_MESSAGE and TYPE_ENUM of
internal/breaking/check_message_fields_same_type.go:53. -/
def hasTypeName (type : Int) : Bool := type = 14 || type = 10 || type = 11

/-- `checkMessageFieldsSameTypeMessageField`,
internal/breaking/check_message_fields_same_type.go:36-67. -/
def sameTypeField (f f' : XField) : Res :=
  if f.proto.type ≠ f'.proto.type then
    match typeString f.proto.type with
    | .error e => .error e
    | .ok a =>
      match typeString f'.proto.type with
      | .error e => .error e
      | .ok b => addFailure (messageFieldsSameTypeText f.messageFqn f.proto.number a b)
  else if hasTypeName f.proto.type then
    if f.proto.typeName = [] then .error (s%"fromTypeName empty")
    else if f'.proto.typeName = [] then .error (s%"toTypeName empty")
    else if f.proto.typeName ≠ f'.proto.typeName then
      addFailure (messageFieldsSameTypeText f.messageFqn f.proto.number f.proto.typeName f'.proto.typeName)
    else .ok []
  else .ok []

/-- `checkMessageFieldsSameType`, internal/breaking/check_message_fields_same_type.go:32-34. -/
def checkMessageFieldsSameType (o : Order) (site : Site) (frm to : XPackageSet) : Res :=
  forEachMessageFieldPair o site frm to sameTypeField

/-- `checkMessageOneofsNotDeleted`, internal/breaking/check_message_oneofs_not_deleted.go:28-41. -/
def checkMessageOneofsNotDeleted (o : Order) (site : Site) (frm to : XPackageSet) : Res :=
  forEachMessagePair o site frm to fun site m m' =>
    loop o (s%"oneof" :: site) (m.oneofs.map fun w =>
      lookupElse (kget (fun y => y.proto.name) m'.oneofs w.proto.name)
        (addFailure (messageOneofsNotDeletedText m.fqn w.proto.name)) fun _ => .ok [])

/-- `checkMessageOneofsFieldsNotRemoved`,
internal/breaking/check_message_oneofs_fields_not_removed.go:28-53. -/
def checkMessageOneofsFieldsNotRemoved (o : Order) (site : Site) (frm to : XPackageSet) : Res :=
  forEachMessageOneofPair o site frm to fun site w w' =>
    loop o (s%"number" :: site) ((w.proto.fieldNumbers.foldl setInsert []).map fun n =>
      if n ∈ w'.proto.fieldNumbers.foldl setInsert [] then .ok []
      else addFailure (messageOneofsFieldsNotRemovedText w.messageFqn w.proto.name n))

/-- `checkPackagesNotDeleted`, internal/breaking/check_packages_not_deleted.go:28-37. -/
def checkPackagesNotDeleted (o : Order) (site : Site) (frm to : XPackageSet) : Res :=
  loop o site (frm.packages.map fun p =>
    lookupElse (kget (fun q => q.proto.name) to.packages p.proto.name)
      (addFailure (packagesNotDeletedText p.proto.name)) fun _ => .ok [])

/-- `checkServicesNotDeleted`, internal/breaking/check_services_not_deleted.go:28-43. -/
def checkServicesNotDeleted (o : Order) (site : Site) (frm to : XPackageSet) : Res :=
  forEachPackagePair o site frm to fun site p q =>
    loop o (s%"service" :: site) (p.services.map fun s =>
      lookupElse (kget (fun y => y.proto.name) q.services s.proto.name)
        (addFailure (servicesNotDeletedText s.fqn)) fun _ => .ok [])

/-- `checkServiceMethodsNotDeleted`, internal/breaking/check_service_methods_not_deleted.go:28-41. -/
def checkServiceMethodsNotDeleted (o : Order) (site : Site) (frm to : XPackageSet) : Res :=
  forEachServicePair o site frm to fun site s s' =>
    loop o (s%"method" :: site) (s.methods.map fun m =>
      lookupElse (kget (fun y => y.proto.name) s'.methods m.proto.name)
        (addFailure (serviceMethodsNotDeletedText s.fqn m.proto.name)) fun _ => .ok [])

/-- `checkServiceMethodsSameClientStreaming`,
internal/breaking/check_service_methods_same_client_streaming.go:28-40. -/
def checkServiceMethodsSameClientStreaming (o : Order) (site : Site) (frm to : XPackageSet) : Res :=
  forEachServiceMethodPair o site frm to fun m m' =>
    if m.proto.clientStreaming ≠ m'.proto.clientStreaming then
      addFailure (serviceMethodsSameClientStreamingText m.serviceFqn m.proto.name m.proto.clientStreaming)
    else .ok []

/-- `checkServiceMethodsSameRequestType`,
internal/breaking/check_service_methods_same_request_type.go:28-40. -/
def checkServiceMethodsSameRequestType (o : Order) (site : Site) (frm to : XPackageSet) : Res :=
  forEachServiceMethodPair o site frm to fun m m' =>
    if m.proto.requestTypeName ≠ m'.proto.requestTypeName then
      addFailure (serviceMethodsSameRequestTypeText m.serviceFqn m.proto.name
        m.proto.requestTypeName m'.proto.requestTypeName)
    else .ok []

/-- `checkServiceMethodsSameResponseType`,
internal/breaking/check_service_methods_same_response_type.go:28-40. -/
def checkServiceMethodsSameResponseType (o : Order) (site : Site) (frm to : XPackageSet) : Res :=
  forEachServiceMethodPair o site frm to fun m m' =>
    if m.proto.responseTypeName ≠ m'.proto.responseTypeName then
      addFailure (serviceMethodsSameResponseTypeText m.serviceFqn m.proto.name
        m.proto.responseTypeName m'.proto.responseTypeName)
    else .ok []

/-- `checkServiceMethodsSameServerStreaming`,
internal/breaking/check_service_methods_same_server_streaming.go:28-40. -/
def checkServiceMethodsSameServerStreaming (o : Order) (site : Site) (frm to : XPackageSet) : Res :=
  forEachServiceMethodPair o site frm to fun m m' =>
    if m.proto.serverStreaming ≠ m'.proto.serverStreaming then
      addFailure (serviceMethodsSameServerStreamingText m.serviceFqn m.proto.name m.proto.serverStreaming)
    else .ok []

/-- `checkPackagesNoBetaDeps`, internal/breaking/check_packages_no_beta_deps.go:29-40. -/
def checkPackagesNoBetaDeps (o : Order) (site : Site) (_frm to : XPackageSet) : Res :=
  loop o site (to.packages.map fun p =>
    .ok ((p.proto.dependencyNames.filter (ignorePackage true)).map fun d =>
      newTextFailure (packagesNoBetaDepsText p.proto.name d)))

/-! ## breaking.go and runner.go -/

/-- `Checker`, internal/breaking/breaking.go:138-147. -/
structure Checker where
  id : Str
  check : Order → Site → XPackageSet → XPackageSet → Res

/-- `AllCheckers`, internal/breaking/breaking.go:35-126. -/
def allCheckers : List Checker :=
  [⟨s%"ENUMS_NOT_DELETED", checkEnumsNotDeleted⟩,
   ⟨s%"ENUM_VALUES_NOT_DELETED", checkEnumValuesNotDeleted⟩,
   ⟨s%"ENUM_VALUES_SAME_NAME", checkEnumValuesSameName⟩,
   ⟨s%"MESSAGES_NOT_DELETED", checkMessagesNotDeleted⟩,
   ⟨s%"MESSAGE_FIELDS_NOT_DELETED", checkMessageFieldsNotDeleted⟩,
   ⟨s%"MESSAGE_FIELDS_SAME_LABEL", checkMessageFieldsSameLabel⟩,
   ⟨s%"MESSAGE_FIELDS_SAME_NAME", checkMessageFieldsSameName⟩,
   ⟨s%"MESSAGE_FIELDS_SAME_ONEOF", checkMessageFieldsSameOneof⟩,
   ⟨s%"MESSAGE_FIELDS_SAME_TYPE", checkMessageFieldsSameType⟩,
   ⟨s%"MESSAGE_ONEOFS_NOT_DELETED", checkMessageOneofsNotDeleted⟩,
   ⟨s%"MESSAGE_ONEOFS_FIELDS_NOT_REMOVED", checkMessageOneofsFieldsNotRemoved⟩,
   ⟨s%"PACKAGES_NOT_DELETED", checkPackagesNotDeleted⟩,
   ⟨s%"SERVICES_NOT_DELETED", checkServicesNotDeleted⟩,
   ⟨s%"SERVICE_METHODS_NOT_DELETED", checkServiceMethodsNotDeleted⟩,
   ⟨s%"SERVICE_METHODS_SAME_CLIENT_STREAMING", checkServiceMethodsSameClientStreaming⟩,
   ⟨s%"SERVICE_METHODS_SAME_REQUEST_TYPE", checkServiceMethodsSameRequestType⟩,
   ⟨s%"SERVICE_METHODS_SAME_RESPONSE_TYPE", checkServiceMethodsSameResponseType⟩,
   ⟨s%"SERVICE_METHODS_SAME_SERVER_STREAMING", checkServiceMethodsSameServerStreaming⟩]

/-- `PackagesNoBetaDepsChecker`, internal/breaking/breaking.go:130-134. -/
def packagesNoBetaDepsChecker : Checker := ⟨s%"PACKAGES_NO_BETA_DEPS", checkPackagesNoBetaDeps⟩

/-- `BreakConfig`, internal/settings/settings.go. -/
structure BreakConfig where
  includeBeta : Bool
  allowBetaDeps : Bool

/-- One checker with its failures labelled, internal/breaking/runner.go:66-75. -/
def runChecker (o : Order) (c : Checker) (frm to : XPackageSet) : Res :=
  match c.check o [c.id] frm to with
  | .error e => .error e
  | .ok fs => .ok (fs.map fun f => { f with lintID := c.id })

/-- The checkers that run, internal/breaking/runner.go:58-63. -/
def activeCheckers (config : BreakConfig) : List Checker :=
  if !config.includeBeta && !config.allowBetaDeps then allCheckers ++ [packagesNoBetaDepsChecker]
  else allCheckers

/-- The checker loop, internal/breaking/runner.go:64-77. -/
def runCheckers (o : Order) (config : BreakConfig) (frm to : XPackageSet) : Res :=
  seqRes ((activeCheckers config).map fun c => runChecker o c frm to)

/-- `runner.Run`, internal/breaking/runner.go:46-78. -/
def run (o : Order) (config : BreakConfig) (frm to : XPackageSet) : Res :=
  if !config.includeBeta then
    match withoutBeta (o.sub (s%"from without beta")) frm with
    | .error e => .error e
    | .ok frm =>
      match withoutBeta (o.sub (s%"to without beta")) to with
      | .error e => .error e
      | .ok to => runCheckers o config frm to
  else runCheckers o config frm to

/-- The part of `runner.BreakCheck` that follows the reflection of both schemas: the
wrappers are built (`extract.NewPackageSet`, internal/exec/runner.go:866-872, for
the current schema at :768 and the older one at :774-815) and the checks run (:819). -/
def breakCheck (o : Order) (config : BreakConfig) (frm to : PackageSet) : Res :=
  match newPackageSet (o.sub (s%"to")) to false with
  | .error e => .error e
  | .ok to =>
    match newPackageSet (o.sub (s%"from")) frm false with
    | .error e => .error e
    | .ok frm => run o config frm to

end Verif.Breaking
