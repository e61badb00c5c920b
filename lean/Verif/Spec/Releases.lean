import Verif.Spec.ExecMore
import Verif.Spec.Redistribution
import Verif.Spec.Descriptors

/-! # Specification: a history of releases -/

namespace Verif.Spec

open Verif Exec Descriptor

/-- A release: the files, where and how they are compiled, what protoc makes of them for `break descriptor-set` and for
`break check`, and where the descriptor set of the release is kept. -/
structure Release where
  h : Host
  args : List Str
  m : Meta
  w : World
  sets : List FileSet
  checked : List FileSet
  path : Str

/-- The release was compiled by a protoc that makes descriptors as protoc does: the same definitions in both modes,
descriptors that hang together, and encodings that can be told apart and read again. -/
structure Release.OK (t : Tools) (r : Release) : Prop where
  prints : Prints r.h
  json : r.h.json = false
  path : r.path ≠ []
  compiles : CompilesTo r.h r.args { fullControl := true, includeImports := true } r.w.disk r.m r.sets
  same : Redistributed r.sets.flatten r.checked.flatten
  sums : FaithfulOn t.sum fun f => f ∈ r.sets.flatten
  bytes : FaithfulOn t.marshal fun f => f ∈ r.sets.flatten
  bytes' : FaithfulOn t.marshal fun f => f ∈ r.checked.flatten
  names : ∀ f ∈ r.sets.flatten, f.name ≠ []
  valid : DescriptorsOK r.sets.flatten
  valid' : DescriptorsOK r.checked.flatten
  decodes : ∀ set data, IsMerged r.sets set → t.encodeProto set = .ok data → t.decode data = .ok set

/-- What is on the disk when release `r` is checked: its files, and the descriptor set that `break descriptor-set` wrote
for the release `old`. -/
structure ChecksAgainst (t : Tools) (old r : Release) (v : World) : Prop where
  compiles : CompilesTo r.h r.args { doFileDescriptorSet := true } v.disk r.m r.checked
  written : ∃ w1, breakDescriptorSetCmd old.h t old.args old.path old.w = (w1, .ok ()) ∧
    v.disk old.path = w1.disk old.path

end Verif.Spec
