import Verif.Model.Exec
import Verif.Model.Desc
import Verif.Go.Map

/-!
# Model of the grpc command

`GRPC` in internal/exec/runner.go and internal/grpc. The library that makes the call, the TLS
files, the encoding of messages and the parsing of durations are parameters.
-/

namespace Verif.Grpc

open Verif Str Descriptor Exec

/-- The flags, internal/exec/runner.go:595. -/
structure Flags where
  headers : List Str := []
  address : Str := []
  method : Str := []
  data : Str := []
  callTimeout : Str := []
  connectTimeout : Str := []
  keepaliveTime : Str := []
  stdin : Bool := false
  details : Bool := false
  tls : Bool := false
  insecure : Bool := false
  cacert : Str := []
  cert : Str := []
  key : Str := []
  serverName : Str := []

/-- The first checks of `GRPC`, internal/exec/runner.go:596-616: the message of the error. -/
def checkFlags (f : Flags) : Option Str :=
  if f.address = [] then some s%"must set address"
  else if f.method = [] then some s%"must set method"
  else if f.data = [] ∧ !f.stdin then some s%"must set one of data or stdin"
  else if f.data ≠ [] ∧ f.stdin then some s%"must set only one of data or stdin"
  else if f.tls then
    if f.insecure ∧ (f.cacert ≠ [] ∨ f.cert ≠ [] ∨ f.key ≠ [] ∨ f.serverName ≠ []) then
      some s%"if insecure then cacert, cert, key, and server-name must not be specified"
    else if decide (f.cert ≠ []) ≠ decide (f.key ≠ []) then
      some s%"if cert is specified, key must be specified"
    else none
  else if f.insecure ∨ f.cacert ≠ [] ∨ f.cert ≠ [] ∨ f.key ≠ [] ∨ f.serverName ≠ [] then
    some s%"tls must be specified if insecure, cacert, cert, key or server-name are specified"
  else none

/-- The loop over the headers, internal/exec/runner.go:619-626. -/
def parseHeaders : List Str → GoMap Str Str → Except Err (GoMap Str Str)
  | [], parsed => .ok parsed
  | header :: rest, parsed =>
    match cut s%":" header with
    | some (k, v) => parseHeaders rest (parsed.set k v)
    | none => .error (s%"headers must be key:value but got " ++ header)

/-- `getNetworkAddress`, internal/grpc/handler.go:121-132. -/
def getNetworkAddress (address : Str) : Except Err (Str × Str) :=
  match cut s%"://" address with
  | some (network, rest) =>
    if network = s%"tcp" ∨ network = s%"unix" then .ok (network, rest)
    else .error (s%"invalid network, only tcp or unix allowed: " ++ network)
  | none => .ok (s%"tcp", address)

/-- `getServiceForMethod`, internal/grpc/handler.go:203-209. -/
def getServiceForMethod (method : Str) : Except Err Str :=
  match splitChar '/' method with
  | [service, _] => .ok service
  | _ => .error (s%"invalid gRPC method: " ++ method)

/-- The loop of `findServiceDescriptorProto`, internal/grpc/handler.go:278-285. -/
def findService (path package : Str) : List ServiceDesc → Option ServiceDesc → Except Err (Option ServiceDesc)
  | [], found => .ok found
  | s :: rest, found =>
    if package ++ s%"." ++ s.name = path then
      match found with
      | some _ => .error (s%"duplicate services for path " ++ path)
      | none => findService path package rest (some s)
    else findService path package rest found

/-- `findServiceDescriptorProto`, internal/grpc/handler.go:270-287. -/
def findServiceDescriptorProto (path : Str) (file : FileDesc) : Except Err (Option ServiceDesc) :=
  if file.package = [] then .error s%"no package on FileDescriptorProto"
  else if !hasPrefix path file.package then .ok none
  else findService path file.package file.services none

/-- The inner loop of `getServiceInfo`, internal/grpc/handler.go:239-251. -/
def findInFiles (path : Str) : List FileDesc → Option (ServiceDesc × FileDesc) →
    Except Err (Option (ServiceDesc × FileDesc))
  | [], found => .ok found
  | file :: rest, found =>
    match findServiceDescriptorProto path file with
    | .error e => .error e
    | .ok none => findInFiles path rest found
    | .ok (some s) =>
      match found with
      | some _ => .error (s%"duplicate services for path " ++ path)
      | none => findInFiles path rest (some (s, file))

/-- `serviceInfo`, internal/grpc/handler.go:222-226. -/
structure ServiceInfo where
  service : ServiceDesc
  file : FileDesc
  set : FileSet

/-- The outer loop of `getServiceInfo`, internal/grpc/handler.go:238-262. -/
def findInSets (path : Str) : List FileSet → Except Err ServiceInfo
  | [] => .error (s%"no service for path " ++ path)
  | set :: rest =>
    match findInFiles path set none with
    | .error e => .error e
    | .ok (some (s, file)) => .ok ⟨s, file, set⟩
    | .ok none => findInSets path rest

/-- `getServiceInfo`, internal/grpc/handler.go:228-268. -/
def getServiceInfo (sets : List FileSet) (path : Str) : Except Err ServiceInfo :=
  match path with
  | [] => .error s%"empty path"
  | c :: cs => findInSets (if c = '.' then cs else c :: cs) sets

/-- What is given to the library: where to connect to and what to call. -/
structure Call where
  network : Str
  address : Str
  /-- insecure, cacert, cert, key and server name, if TLS is used -/
  tls : Option (Bool × Str × Str × Str × Str)
  headers : List Str
  callTimeout : Int
  connectTimeout : Int
  keepaliveTime : Option Int
  source : FileSet
  method : Str
  /-- `none`: the standard input -/
  input : Option Str

/-- A set of headers: whether it has any, and its encoding. -/
structure Metadata where
  empty : Bool
  json : Except Err Str

/-- A message that was received: nil, or its encoding. -/
abbrev Message := Option (Except Err Str)

/-- What the library reports, internal/grpc/invocation_event_handler.go:58-86. -/
inductive Event where
  | headers (md : Metadata)
  | response (m : Message)
  /-- the error of the status if it is not OK, the status itself and the trailers -/
  | trailers (err : Option Err) (status : Message) (md : Metadata)

/-- The code outside this module: `time.ParseDuration` in nanoseconds, the checks of
`CreateFileDescriptorFromSet` and `DescriptorSourceFromFileDescriptorSet`, reading the TLS files,
and the call: its events and the error of `BlockingDial` or `InvokeRPC`. -/
structure Env where
  order : Order
  parseDuration : Str → Except Err Int
  createFile : FileSet → Except Err Unit
  source : FileSet → Except Err Unit
  credentials : Bool × Str × Str × Str × Str → Except Err Unit
  rpc : Call → List Event × Option Err

/-- `time.Second`. -/
def second : Int := 1000000000

/-- A timeout, internal/exec/runner.go:627-648. -/
def parseTimeout (e : Env) (t : Str) : Except Err Int :=
  if t = [] then .ok 0 else e.parseDuration t

/-- `getDescriptorSourceForMethod`, internal/grpc/handler.go:187-201: the set for the source. -/
def sourceForMethod (e : Env) (sets : List FileSet) (method : Str) : Except Err FileSet :=
  match getServiceForMethod method with
  | .error err => .error err
  | .ok path =>
    match getServiceInfo sets path with
    | .error err => .error err
    | .ok info =>
      match Desc.sortFileDescriptorSet info.set info.file with
      | .error err => .error err
      | .ok set =>
        match e.source set with
        | .error err => .error err
        | .ok () => .ok set

/-- One file in `getAnyResolver`, internal/grpc/handler.go:170-178. -/
def resolveFile (e : Env) (set : FileSet) (file : FileDesc) : Except Err Unit :=
  match Desc.sortFileDescriptorSet set file with
  | .error err => .error err
  | .ok sorted => e.createFile sorted

/-- The loops of `getAnyResolver`, internal/grpc/handler.go:166-185. -/
def checkResolver (e : Env) : List (FileSet × FileDesc) → Except Err Unit
  | [] => .ok ()
  | (set, file) :: rest =>
    match resolveFile e set file with
    | .error err => .error err
    | .ok () => checkResolver e rest

/-- The files `getAnyResolver` loops over. -/
def resolverFiles (sets : List FileSet) : List (FileSet × FileDesc) :=
  sets.flatMap fun set => set.map fun file => (set, file)

/-- `newGRPCHandler` and `newHandler`, internal/exec/runner.go:1049-1084 and
internal/grpc/handler.go:60-74, and `Invoke` up to the connection, internal/grpc/handler.go:76-119:
what the library is given. -/
def plan (e : Env) (f : Flags) (headers : GoMap Str Str) (callTimeout connectTimeout keepaliveTime : Int)
    (sets : List FileSet) : Except Err Call :=
  match sourceForMethod e sets f.method with
  | .error err => .error err
  | .ok source =>
    match checkResolver e (resolverFiles sets) with
    | .error err => .error err
    | .ok () =>
      match getNetworkAddress f.address with
      | .error err => .error (s%"grpc dial: " ++ err)
      | .ok (network, address) =>
        let tls := if f.tls then some (f.insecure, f.cacert, f.cert, f.key, f.serverName) else none
        match (match tls with | none => Except.ok () | some t => e.credentials t) with
        | .error err => .error (s%"grpc credentials: " ++ err)
        | .ok () => .ok {
            network := network
            address := address
            tls := tls
            headers := (e.order.ord [s%"newGRPCHandler"] headers).map fun kv => kv.1 ++ s%":" ++ kv.2
            callTimeout := if callTimeout = 0 then 60 * second else callTimeout
            connectTimeout := if connectTimeout = 0 then 10 * second else connectTimeout
            keepaliveTime := if keepaliveTime = 0 then none else some keepaliveTime
            source := source
            method := f.method
            input := if f.stdin then none else some f.data }

/-- `marshalSanitize`, internal/grpc/invocation_event_handler.go:117-125. -/
def marshalSanitize (details : Bool) (s detailsKey : Str) : Str :=
  let s := if s = s%"{}" then [] else s
  if details ∧ detailsKey ≠ [] ∧ s ≠ [] then s%"{\"" ++ detailsKey ++ s%"\":" ++ s ++ s%"}" else s

/-- `println`, internal/grpc/invocation_event_handler.go:127-134, if the write succeeds. -/
def line (s : Str) : Str := if s = [] then [] else s ++ s%"\n"

/-- `printProtoMessage`, internal/grpc/invocation_event_handler.go:92-103. -/
def printProtoMessage (details : Bool) (m : Message) (detailsKey : Str) : Str :=
  match m with
  | none => []
  | some (.error _) => []
  | some (.ok s) => line (marshalSanitize details s detailsKey)

/-- `printMetadata`, internal/grpc/invocation_event_handler.go:105-115. -/
def printMetadata (details : Bool) (md : Metadata) (detailsKey : Str) : Str :=
  if md.empty then []
  else
    match md.json with
    | .error _ => []
    | .ok s => line (marshalSanitize details s detailsKey)

/-- What an event prints, internal/grpc/invocation_event_handler.go:62-86. -/
def printEvent (details : Bool) : Event → Str
  | .headers md => if details then printMetadata details md s%"headers" else []
  | .response m => printProtoMessage details m (if details then s%"response" else [])
  | .trailers _ status md =>
    if details then
      printProtoMessage details status s%"status" ++ printMetadata details md s%"trailers"
    else []

/-- The error after the events: that of the last status that is not OK,
internal/grpc/invocation_event_handler.go:76-79. -/
def eventsErr : List Event → Option Err → Option Err
  | [], err => err
  | .trailers (some e) _ _ :: rest, _ => eventsErr rest (some e)
  | _ :: rest, err => eventsErr rest err

/-- The call, internal/grpc/handler.go:89-105. -/
def invoke (e : Env) (f : Flags) (c : Call) : Run Unit := fun w =>
  let (events, err) := e.rpc c
  let w := { w with out := w.out ++ events.flatMap (printEvent f.details) }
  match err with
  | some err => (w, .error (.other err))
  | none =>
    match eventsErr events none with
    | some err => (w, .error (.other err))
    | none => (w, .ok ())

/-- `GRPC`, internal/exec/runner.go:595-675. -/
def grpcCmd (h : Exec.Host) (e : Env) (args : List Str) (f : Flags) : Run Unit :=
  match checkFlags f with
  | some message => exit255 message
  | none =>
    Run.bind (Run.lift (parseHeaders f.headers [])) fun headers =>
    Run.bind (Run.lift (parseTimeout e f.callTimeout)) fun callTimeout =>
    Run.bind (Run.lift (parseTimeout e f.connectTimeout)) fun connectTimeout =>
    Run.bind (Run.lift (parseTimeout e f.keepaliveTime)) fun keepaliveTime =>
    Run.bind (getMeta h args) fun m =>
    Run.bind (compile h false true false m) fun sets =>
    if sets.length = 0 then Run.fail (.other s%"no FileDescriptorSets returned")
    else
      Run.bind (Run.lift (plan e f headers callTimeout connectTimeout keepaliveTime sets)) fun call =>
      invoke e f call

end Verif.Grpc
