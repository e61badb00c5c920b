import Verif.Spec.Grpc

/-!
# Two calls by `grpc`
-/

namespace Verif.Spec

open Verif Str Descriptor Grpc

/-- The name of the service in a method, with or without a leading dot. -/
def NamesService (method name : Str) : Prop :=
  ∃ rpc, method = name ++ s%"/" ++ rpc ∨ method = s%"." ++ name ++ s%"/" ++ rpc

/-- Two calls of the same method at the same address, with the same headers in another order. The
descriptor set may be another one that has the service of the method. -/
structure Interchangeable (c c' : Call) : Prop where
  same : c' = { c with headers := c'.headers, source := c'.source }
  headers : c'.headers.Perm c.headers
  source : ∃ name, NamesService c.method name ∧ servicesOf c.source name ≠ [] ∧ servicesOf c'.source name ≠ []

/-- A set as protoc makes them, all of whose files have packages: the files have different names, the
services have different full names, and the library accepts the set. -/
structure CallableSet (e : Env) (set : FileSet) : Prop where
  names : ∀ file ∈ set, file.name ≠ []
  distinct : (set.map (·.name)).Nodup
  packages : ∀ file ∈ set, file.package ≠ []
  services : ∀ name, (servicesOf set name).length ≤ 1
  accepted : ∀ file ∈ set, ∀ set' : FileSet, set'.Perm set → set'.getLast? = some file → e.source set' = .ok ()

end Verif.Spec
