import Verif.Spec.Interrupt

/-! # Specification: `all` that is stopped in the middle -/

namespace Verif.Spec

open Verif Exec

/-- `made` are the paths the plugins write to: none of the files the command is about; and neither protoc nor the plugins
look at what is there. -/
structure PluginsMake (h : Host) (m : Meta) (made : Str → Prop) : Prop where
  apart : ∀ f, Concerns h m f → ¬ made f.path
  only : ∀ d p, ¬ made p → h.generate d m.protoSet p = d p
  same : ∀ d d' : Disk, (∀ p, ¬ made p → d p = d' p) → h.generate d m.protoSet = h.generate d' m.protoSet
  unread : ∀ flags (d d' : Disk), (∀ p, ¬ made p → d p = d' p) → h.compile flags d m.protoSet = h.compile flags d' m.protoSet

/-- The disk when `all` is stopped: between two writes of its formatting, or later, when every file it is about is
formatted and anything can be in the places the plugins write to. -/
def AllStopped (disk formatted : Disk) (writes : List (Str × Str)) (made : Str → Prop) (left : Disk) : Prop :=
  StoppedBetween disk writes left ∨ ∀ p, ¬ made p → left p = formatted p

end Verif.Spec
