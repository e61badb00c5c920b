import Verif.Spec.Members

/-! # Specification: what the methods of the sources stream -/

namespace Verif.Spec

open Verif Str Proto Exec

/-- One of the files declares the method, with requests and responses that are streams or not. -/
def ProjectDeclaresMethod (h : Exec.Host) (files : List (Str × Str)) (disk : Disk) (package service name : Str)
    (streamsRequest streamsReturns : Bool) : Prop :=
  ∃ x ∈ files, ∃ content es, disk x.2 = some content ∧ h.parse x.2 content = .ok es ∧ packageOf es = package ∧
    ∃ s sub, .service s sub ∈ es ∧ s.name = service ∧ ∃ r rs, .rpc r rs ∈ sub ∧ r.name = name ∧
      r.streamsRequest = streamsRequest ∧ r.streamsReturns = streamsReturns

end Verif.Spec
