import Verif.Spec.GrpcOrder

/-!
# When `grpc` has what it needs for a call
-/

namespace Verif.Spec

open Verif Str Descriptor Grpc

/-- Nothing is wrong with the flags, the compiled files or the credentials. -/
structure CanCall (e : Env) (f : Grpc.Flags) (sets : List FileSet) : Prop where
  headers : ∀ h ∈ f.headers, ∃ k v, h = k ++ s%":" ++ v
  callTimeout : ∃ d, Duration e.parseDuration f.callTimeout d
  connectTimeout : ∃ d, Duration e.parseDuration f.connectTimeout d
  keepaliveTime : ∃ d, Duration e.parseDuration f.keepaliveTime d
  address : ∃ network address, AddressOf f.address network address
  credentials : f.tls = true → e.credentials (f.insecure, f.cacert, f.cert, f.key, f.serverName) = .ok ()
  /-- the library accepts every file, given last in an order of its set -/
  accepted : ∀ set ∈ sets, CallableSet e set ∧ ∀ file ∈ set, ∀ given : FileSet, given.Perm set →
    given.getLast? = some file → e.createFile given = .ok ()
  /-- one of the sets has the service of the method -/
  service : ∃ path name rpc, f.method = path ++ s%"/" ++ rpc ∧ '/' ∉ path ∧ '/' ∉ rpc ∧ name ≠ [] ∧
    (path = name ∧ name.head? ≠ some '.' ∨ path = s%"." ++ name) ∧ ∃ set ∈ sets, servicesOf set name ≠ []

end Verif.Spec
