import Verif.Model.Grpc

/-!
# Specification: the grpc command
-/

namespace Verif.Spec

open Verif Str Descriptor Grpc

/-- The flags make sense together. -/
structure FlagsAccepted (f : Grpc.Flags) : Prop where
  address : f.address ≠ []
  method : f.method ≠ []
  /-- exactly one of data and stdin -/
  input : (f.data ≠ [] ∧ f.stdin = false) ∨ (f.data = [] ∧ f.stdin = true)
  /-- without TLS none of its flags -/
  noTLS : f.tls = false →
    f.insecure = false ∧ f.cacert = [] ∧ f.cert = [] ∧ f.key = [] ∧ f.serverName = []
  /-- nothing to verify with if nothing is verified -/
  insecure : f.insecure = true → f.cacert = [] ∧ f.cert = [] ∧ f.key = [] ∧ f.serverName = []
  /-- a certificate and its key -/
  pair : f.cert = [] ↔ f.key = []

/-- `a` and `b` are what is before and after the first `sep`. -/
def FirstCut (sep s a b : Str) : Prop :=
  s = a ++ sep ++ b ∧ ∀ a' b', s = a' ++ sep ++ b' → a.length ≤ a'.length

/-- The separator does not occur. -/
def NotIn (sep s : Str) : Prop := ∀ a b, s ≠ a ++ sep ++ b

/-- The network and address a text stands for: `tcp` unless another is given. -/
def AddressOf (text network address : Str) : Prop :=
  (NotIn s%"://" text ∧ network = s%"tcp" ∧ address = text) ∨
  (FirstCut s%"://" text network address ∧ (network = s%"tcp" ∨ network = s%"unix"))

/-- The services with a full name, with their files. -/
def servicesOf (set : FileSet) (name : Str) : List (ServiceDesc × FileDesc) :=
  (set.flatMap fun file => file.services.map fun s => (s, file)).filter
    fun p => p.2.package ++ s%"." ++ p.1.name = name

/-- The service a name stands for: the only one with that full name in the first set that has one.
All files up to the end of that set have packages. -/
def ServiceFor (sets : List FileSet) (name : Str) (info : ServiceInfo) : Prop :=
  ∃ before after, sets = before ++ info.set :: after ∧
    (∀ set ∈ before ++ [info.set], ∀ file ∈ set, file.package ≠ []) ∧
    (∀ set ∈ before, servicesOf set name = []) ∧
    servicesOf info.set name = [(info.service, info.file)]

/-- The value of the last header with a key. -/
def LastHeader (headers : List Str) (key value : Str) : Prop :=
  ∃ before header after, headers = before ++ header :: after ∧ FirstCut s%":" header key value ∧
    ∀ h ∈ after, ∀ v, ¬ FirstCut s%":" h key v

/-- The line for a message or headers: nothing for the empty object. -/
def objectLine (key : Option Str) (json : Str) : Str :=
  if json = [] ∨ json = s%"{}" then []
  else
    match key with
    | none => json ++ s%"\n"
    | some key => s%"{\"" ++ key ++ s%"\":" ++ json ++ s%"}\n"

/-- What is printed for an event. Without details only responses are printed. -/
def eventText (details : Bool) : Event → Str
  | .headers md =>
    match md with
    | ⟨false, .ok json⟩ => if details then objectLine (some s%"headers") json else []
    | _ => []
  | .response (some (.ok json)) => objectLine (if details then some s%"response" else none) json
  | .response _ => []
  | .trailers _ status md =>
    if details then
      (match status with
        | some (.ok json) => objectLine (some s%"status") json
        | _ => []) ++
      (match md with
        | ⟨false, .ok json⟩ => objectLine (some s%"trailers") json
        | _ => [])
    else []

/-- The duration a flag gives, in nanoseconds: zero without the flag. -/
def Duration (parse : Str → Except Err Int) (text : Str) (d : Int) : Prop :=
  (text = [] ∧ d = 0) ∨ (text ≠ [] ∧ parse text = .ok d)

/-- The call the flags describe. Zero durations stand for one minute for the call, ten seconds for
the connection, and no keepalive. -/
structure CallFor (parse : Str → Except Err Int) (f : Grpc.Flags) (sets : List FileSet) (c : Call) :
    Prop where
  address : AddressOf f.address c.network c.address
  tls : c.tls = if f.tls then some (f.insecure, f.cacert, f.cert, f.key, f.serverName) else none
  headers : c.headers.Nodup ∧
    ∀ x, x ∈ c.headers ↔ ∃ k v, LastHeader f.headers k v ∧ x = k ++ s%":" ++ v
  method : c.method = f.method
  input : c.input = if f.stdin then none else some f.data
  callTimeout : ∃ d, Duration parse f.callTimeout d ∧
    c.callTimeout = if d = 0 then 60000000000 else d
  connectTimeout : ∃ d, Duration parse f.connectTimeout d ∧
    c.connectTimeout = if d = 0 then 10000000000 else d
  keepaliveTime : ∃ d, Duration parse f.keepaliveTime d ∧
    c.keepaliveTime = if d = 0 then none else some d
  /-- the service is in one of the sets, and the library gets all files of that set with the one
  of the service last -/
  source : ∃ path name info rpc, f.method = path ++ s%"/" ++ rpc ∧ '/' ∉ path ∧ '/' ∉ rpc ∧
    (path = name ∧ name.head? ≠ some '.' ∨ path = s%"." ++ name) ∧ ServiceFor sets name info ∧
    c.source.Perm info.set ∧ c.source.getLast? = some info.file

end Verif.Spec
