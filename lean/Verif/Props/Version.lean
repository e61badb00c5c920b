import Verif.Proof.Protostrs

/-! # C13: package versions -/

namespace Verif.Props

open Verif Str Spec Protostrs

/-- C13: a package is classified as versioned, with the returned numbers, exactly
when its last component has the form `vMAJOR` or `vMAJORbetaBETA`. -/
theorem C13_majorBetaVersion (pkg : Str) (major beta : Nat) :
    majorBetaVersion pkg = some (major, beta) ↔ VersionedAs pkg major beta := by
  rw [majorBetaVersion_eq_some]
  constructor
  · rintro ⟨parent, vs, rfl, _, h⟩
    refine ⟨parent, s%"v" ++ vs, rfl, ?_⟩
    rcases versionOf_eq_some.mp h with ⟨h, e⟩ | ⟨m, b, rfl, hm, hb⟩
    · exact Or.inl ⟨vs, rfl, h, e⟩
    · exact Or.inr ⟨m, b, by simp, hm, hb⟩
  · rintro ⟨parent, component, rfl, ⟨m, rfl, hm, e⟩ | ⟨m, b, rfl, hm, hb⟩⟩
    · exact ⟨parent, m, rfl, hm.1, versionOf_eq_some.mpr (Or.inl ⟨hm, e⟩)⟩
    · exact ⟨parent, m ++ s%"beta" ++ b, by simp, by simp,
        versionOf_eq_some.mpr (Or.inr ⟨m, b, rfl, hm, hb⟩)⟩

/-- C13: a package is not classified as versioned exactly when it does not have that
form for any numbers. -/
theorem C13_not_versioned (pkg : Str) :
    majorBetaVersion pkg = none ↔ ¬ ∃ major beta, VersionedAs pkg major beta := by
  constructor
  · rintro h ⟨a, b, hab⟩
    rw [(C13_majorBetaVersion pkg a b).mpr hab] at h
    cases h
  · intro h
    cases hv : majorBetaVersion pkg with
    | none => rfl
    | some p => exact absurd ⟨p.1, p.2, (C13_majorBetaVersion pkg p.1 p.2).mp hv⟩ h

/-- C13: the numbers are determined by the package. -/
theorem C13_unique (pkg : Str) (a b a' b' : Nat) (h : VersionedAs pkg a b)
    (h' : VersionedAs pkg a' b') : a = a' ∧ b = b' := by
  have h1 := (C13_majorBetaVersion ..).mpr h
  rw [(C13_majorBetaVersion ..).mpr h'] at h1
  injection h1 with h1
  injection h1 with h1 h2
  exact ⟨h1.symm, h2.symm⟩

/-- C13: printing two positive 64-bit numbers in the documented form yields a package
that is read back as these numbers, under any parent. -/
theorem C13_roundtrip (parent : Str) (major beta : Nat) (h1 : 0 < major) (h2 : major < 2 ^ 64)
    (h3 : 0 < beta) (h4 : beta < 2 ^ 64) :
    majorBetaVersion (parent ++ s%".v" ++ natStr major) = some (major, 0) ∧
    majorBetaVersion (parent ++ s%".v" ++ natStr major ++ s%"beta" ++ natStr beta)
      = some (major, beta) := by
  have p1 : PositiveDecimal (natStr major) major :=
    ⟨natStr_ne_nil _, natStr_digits _, decValue_natStr _, h1, h2⟩
  have p2 : PositiveDecimal (natStr beta) beta :=
    ⟨natStr_ne_nil _, natStr_digits _, decValue_natStr _, h3, h4⟩
  constructor
  · exact (C13_majorBetaVersion ..).mpr
      ⟨parent, s%"v" ++ natStr major, by simp, Or.inl ⟨_, rfl, p1, rfl⟩⟩
  · exact (C13_majorBetaVersion ..).mpr
      ⟨parent, s%"v" ++ natStr major ++ s%"beta" ++ natStr beta, by simp,
        Or.inr ⟨_, _, rfl, p1, p2⟩⟩

example : majorBetaVersion (s%"uber.trip.v12") = some (12, 0) ∧
    majorBetaVersion (s%"uber.trip.v1beta2") = some (1, 2) ∧
    majorBetaVersion (s%"v1") = none ∧ majorBetaVersion (s%"a.v0") = none ∧
    majorBetaVersion (s%"a.v1beta") = none ∧ majorBetaVersion (s%"a.v1beta1beta1") = none ∧
    majorBetaVersion (s%"a.v18446744073709551616") = none := by decide

end Verif.Props
