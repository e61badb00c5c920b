import Verif.Model.Breaking
import Verif.Model.Reflect

/-!
# Model of the break check pipeline on descriptor sets

internal/exec/runner.go:766-872 from the compiled descriptor sets to the failures.
-/

namespace Verif.Breaking

open Verif Descriptor Extract

/-- `getPackageSetForFileDescriptorSets`, internal/exec/runner.go:866-872. -/
def packageSetOf (s : SortSlice) (o : Order) (marshal : FileDesc → Except Err Str) (sets : List FileSet) :
    Except Err XPackageSet :=
  match Reflect.newPackageSet s o marshal sets with
  | .error e => .error e
  | .ok ps => newPackageSet o ps false

/-- `runner.BreakCheck`, internal/exec/runner.go:766-831, on the descriptor sets of the
current schema (`to`) and of the older one (`frm`), up to the printing. -/
def breakCheckSets (s : SortSlice) (o : Order) (marshal : FileDesc → Except Err Str) (config : BreakConfig)
    (frm to : List FileSet) : Res :=
  match packageSetOf s (o.sub (s%"to")) marshal to with
  | .error e => .error e
  | .ok to =>
    match packageSetOf s (o.sub (s%"from")) marshal frm with
    | .error e => .error e
    | .ok frm => run o config frm to

end Verif.Breaking
