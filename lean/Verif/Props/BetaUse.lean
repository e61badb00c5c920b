import Verif.Props.Wire
import Verif.Proof.BetaUse

/-!
# Stable packages rest on stable packages: C94
-/

namespace Verif.Props

open Verif Descriptor Reflect Spec Spec.Encoded Breaking Text Proof.Reflect Proof.Breaking Proof.BetaUse
open Proof.Encoded ReflectExample

/-- The schema of a set of files that passes the default break check has no stable
package with a beta dependency. -/
theorem clean_noBeta (s : SortSlice) (o : Order) (marshal : FileDesc → Except Err Str)
    (frm to : List FileSet) (hff : FaithfulOn marshal fun f => f ∈ frm.flatten)
    (hft : FaithfulOn marshal fun f => f ∈ to.flatten) (hf : DescriptorsOK frm.flatten)
    (ht : DescriptorsOK to.flatten) (h : breakCheckSets s o marshal ⟨false, false⟩ frm to = .ok []) :
    ∃ old new, Reflect.newPackageSet s (o.sub (s%"from")) marshal frm = .ok old ∧ Built s frm.flatten old ∧
      Reflect.newPackageSet s (o.sub (s%"to")) marshal to = .ok new ∧ Built s to.flatten new ∧
      Compatible (Checked false) old new ∧ NoBetaDependencies new := by
  obtain ⟨old, ho, hos⟩ := C12_schemaOK s (o.sub (s%"from")) marshal frm hff hf
  obtain ⟨new, hn, hns⟩ := C12_schemaOK s (o.sub (s%"to")) marshal to hft ht
  rw [breakCheckSets_eq s o marshal _ frm to old new ho hn] at h
  obtain ⟨h1, h2⟩ := (C01_clean_iff_compatible o _ old new hos hns).1 h
  exact ⟨old, new, ho, (newPackageSet_ok hff ho).2, hn, (newPackageSet_ok hft hn).2, h1, h2 rfl rfl⟩

/-- C94: after a default break check that reports nothing, files of stable packages
import no files of beta packages, neither directly nor by way of other imports. -/
theorem C94_imports (s : SortSlice) (o : Order) (marshal : FileDesc → Except Err Str)
    (frm to : List FileSet) (hff : FaithfulOn marshal fun f => f ∈ frm.flatten)
    (hft : FaithfulOn marshal fun f => f ∈ to.flatten) (hf : DescriptorsOK frm.flatten)
    (ht : DescriptorsOK to.flatten) (h : breakCheckSets s o marshal ⟨false, false⟩ frm to = .ok [])
    {f g : FileDesc} (hfm : f ∈ to.flatten) (hs : ¬ IsBetaPackage f.package)
    (hr : Reaches to.flatten f g) : ¬ IsBetaPackage g.package := by
  obtain ⟨_, _, _, _, _, hb, _, hn⟩ := clean_noBeta s o marshal frm to hff hft hf ht h
  exact (reaches_stable hb hn hr hfm hs).2

/-- C94: and so no message, enum or method of a stable package uses a definition of a
beta package, also not one that a public import makes visible. -/
theorem C94_uses (s : SortSlice) (o : Order) (marshal : FileDesc → Except Err Str)
    (frm to : List FileSet) (hff : FaithfulOn marshal fun f => f ∈ frm.flatten)
    (hft : FaithfulOn marshal fun f => f ∈ to.flatten) (hf : DescriptorsOK frm.flatten)
    (ht : DescriptorsOK to.flatten) (hu : UsesImported to.flatten)
    (h : breakCheckSets s o marshal ⟨false, false⟩ frm to = .ok [])
    {f g : FileDesc} (hfm : f ∈ to.flatten) (hs : ¬ IsBetaPackage f.package) (hgm : g ∈ to.flatten)
    (hg : IsBetaPackage g.package) : ¬ UsesFile f g :=
  fun huse => C94_imports s o marshal frm to hff hft hf ht h hfm hs (hu f hfm g hgm huse) hg

/-- C94: conversely, a stable file that imports a beta file, directly or not, makes the
default break check report something. -/
theorem C94_reported (s : SortSlice) (o : Order) (marshal : FileDesc → Except Err Str)
    (frm to : List FileSet) (hff : FaithfulOn marshal fun f => f ∈ frm.flatten)
    (hft : FaithfulOn marshal fun f => f ∈ to.flatten) (hf : DescriptorsOK frm.flatten)
    (ht : DescriptorsOK to.flatten) {f g : FileDesc} (hfm : f ∈ to.flatten) (hs : ¬ IsBetaPackage f.package)
    (hr : Reaches to.flatten f g) (hg : IsBetaPackage g.package) :
    ∃ x xs, breakCheckSets s o marshal ⟨false, false⟩ frm to = .ok (x :: xs) := by
  obtain ⟨old, ho, hos⟩ := C12_schemaOK s (o.sub (s%"from")) marshal frm hff hf
  obtain ⟨new, hn, hns⟩ := C12_schemaOK s (o.sub (s%"to")) marshal to hft ht
  have he := breakCheckSets_eq s o marshal ⟨false, false⟩ frm to old new ho hn
  obtain ⟨fs, hfs, _⟩ := C06_reports o ⟨false, false⟩ old new hos hns
  cases fs with
  | nil => exact absurd hg (C94_imports s o marshal frm to hff hft hf ht (he.trans hfs) hfm hs hr)
  | cons x xs => exact ⟨x, xs, he.trans hfs⟩

/-- C94: data written under a version that passed the default break check is read the
same under the next version that passes it. Nothing is asked of the versions beyond
what protoc ensures. -/
theorem C94_history (s : SortSlice) (o o' : Order) (marshal : FileDesc → Except Err Str)
    (v1 v2 v3 : List FileSet) (h1 : FaithfulOn marshal fun f => f ∈ v1.flatten)
    (h2 : FaithfulOn marshal fun f => f ∈ v2.flatten) (h3 : FaithfulOn marshal fun f => f ∈ v3.flatten)
    (hd1 : DescriptorsOK v1.flatten) (hd2 : DescriptorsOK v2.flatten) (hd3 : DescriptorsOK v3.flatten)
    (hu : UsesImported v2.flatten)
    (h12 : breakCheckSets s o marshal ⟨false, false⟩ v1 v2 = .ok [])
    (h23 : breakCheckSets s o' marshal ⟨false, false⟩ v2 v3 = .ok []) :
    ∃ old new, DescribesSet v2.flatten old ∧ DescribesSet v3.flatten new ∧
      ∀ package name m, DeclaresMessage old package name m → ¬ IsBetaPackage package →
        ∃ m', DeclaresMessage new package name m' ∧
          ∀ bytes es, ReadsBytes old m bytes es → Known es → ReadsBytes new m' bytes es := by
  obtain ⟨_, mid, _, _, hmid, hbm, _, hnb⟩ := clean_noBeta s o marshal v1 v2 h1 h2 hd1 hd2 h12
  obtain ⟨old, new, hold, hbo, _, hbn, hc, _⟩ := clean_noBeta s o' marshal v2 v3 h2 h3 hd2 hd3 h23
  have hoi := C12_order_independent s (o.sub (s%"to")) (o'.sub (s%"from")) marshal v2 v2 h2
    (fun _ => Iff.rfl) hd2.names
  rw [hmid, hold] at hoi
  have he : mid = old := Option.some.inj hoi
  subst he
  have hcl := closed_of_noBeta hbm (field_qualified hd2) hnb hu
  refine ⟨mid, new, built_describes hbm, built_describes hbn, fun package name m hm hs => ?_⟩
  obtain ⟨m', hm', hmk⟩ := message_kept hc hm (.inr hs)
  refine ⟨m', hm', fun bytes es h hk => ?_⟩
  obtain ⟨rs, hrs, h⟩ := h
  exact ⟨rs, hrs, reads_kept hc hcl (binary_same mid new) h hk hm (.inr hs) hmk⟩

/-! ## Concrete cases -/

namespace BetaExample

theorem old_uses : UsesImported old.flatten := by
  intro f hf g hg hu
  rcases mem_old.1 hf with rfl | rfl <;> rcases mem_old.1 hg with rfl | rfl
  · exact .refl
  · obtain ⟨name, hr, _⟩ := hu
    cases hr with
    | field hd hx ht =>
      cases hd with
      | here hd =>
        cases List.mem_singleton.1 hd
        cases List.mem_singleton.1 hx
        unfold NamesType at ht
        simp at ht
      | inside hd h =>
        cases List.mem_singleton.1 hd
        cases h with
        | here hd => cases hd
        | inside hd _ => cases hd
    | request hs _ => cases hs
    | response hs _ => cases hs
  · exact .step (mem_old.2 (.inl rfl)) (by decide) .refl
  · exact .refl

theorem old_clean : breakCheckSets SortSlice.stable Order.id byName ⟨false, false⟩ old old = .ok [] := by
  rw [breakCheckSets_eq _ _ _ _ _ _ reflected reflected (by rfl) (by rfl)]
  rfl

theorem new_clean : breakCheckSets SortSlice.stable Order.id byName ⟨false, false⟩ old new = .ok [] := by
  rw [breakCheckSets_eq _ _ _ _ _ _ reflected reflected (by rfl) (by rfl)]
  rfl

/-- A stable file that imports a file of a beta package, which imports another one. -/
def beta : FileDesc := ⟨s%"beta.proto", s%"x.v1beta1", [], [], [], [], []⟩
def middle : FileDesc := ⟨s%"middle.proto", s%"y.v1beta1", [s%"beta.proto"], [], [], [], []⟩
def stable : FileDesc := ⟨s%"stable.proto", s%"z.v1", [s%"middle.proto"], [], [], [], []⟩

theorem stable_reaches : Reaches [beta, middle, stable] stable beta :=
  .step (g := middle) (by simp) (by decide) (.step (g := beta) (by simp) (by decide) .refl)

theorem beta_isBeta : IsBetaPackage beta.package :=
  ⟨1, 1, ⟨s%"x", s%"v1beta1", by decide, .inr ⟨s%"1", s%"1", by decide, by unfold PositiveDecimal; decide,
    by unfold PositiveDecimal; decide⟩⟩, by decide⟩

end BetaExample

open BetaExample

example : UsesFile user base :=
  ⟨s%".base.v1.Id", .field (.here List.mem_cons_self) (x := ⟨s%"id", 2, 1, 11, s%".base.v1.Id", some 0⟩)
    List.mem_cons_self (.inr (.inl rfl)), .message (path := [s%"Id"]) (.here List.mem_cons_self)⟩

example : ∃ a b, DescribesSet old.flatten a ∧ DescribesSet new.flatten b ∧
    ∀ package name m, DeclaresMessage a package name m → ¬ IsBetaPackage package →
      ∃ m', DeclaresMessage b package name m' ∧
        ∀ bytes es, ReadsBytes a m bytes es → Known es → ReadsBytes b m' bytes es :=
  C94_history SortSlice.stable Order.id Order.id byName old old new old_faithful old_faithful new_faithful
    old_valid old_valid new_valid old_uses old_clean new_clean

example : Reaches [BetaExample.beta, middle, stable] stable BetaExample.beta ∧ IsBetaPackage BetaExample.beta.package :=
  ⟨stable_reaches, BetaExample.beta_isBeta⟩

end Verif.Props
