import Verif.Proof.Derived

/-!
# C60: the option values that follow from the package and the file name

`packageName cs` is the package with the components `cs`, `VersionedAs` is C13's notion of a
version.
-/

namespace Verif.Props

open Verif Str Spec Protostrs

/-- The Go package without a version: the last component and `pb`. -/
theorem C60_go_package (cs : List Str) (c : Str) (h : PackageParts (cs ++ [c])) :
    goPackage (packageName (cs ++ [c])) = c ++ s%"pb" := by
  unfold goPackage
  rw [if_neg (packageName_ne_nil h), split_components h]
  simp

/-- The Go package of the second version of the rules: the last two components if the package
is versioned, else as above. -/
theorem C60_go_package_versioned (cs : List Str) (c v : Str) (h : PackageParts (cs ++ [c, v]))
    (hv : ∃ major beta, VersionedAs (packageName (cs ++ [c, v])) major beta) :
    goPackageV2 (packageName (cs ++ [c, v])) = c ++ v := by
  obtain ⟨major, beta, hv⟩ := hv
  unfold goPackageV2
  rw [if_neg (packageName_ne_nil h), (C13_majorBetaVersion _ _ _).2 hv]
  dsimp only
  rw [split_components h]
  have h1 : cs ++ [c, v] = (cs ++ [c]) ++ [v] := by simp
  rw [h1, List.dropLast_concat]
  simp

theorem C60_go_package_unversioned (cs : List Str) (c : Str) (h : PackageParts (cs ++ [c]))
    (hv : ¬ ∃ major beta, VersionedAs (packageName (cs ++ [c])) major beta) :
    goPackageV2 (packageName (cs ++ [c])) = c ++ s%"pb" := by
  rw [← C60_go_package cs c h]
  unfold goPackageV2
  rw [if_neg (packageName_ne_nil h), (C13_not_versioned _).2 hv]

/-- The Java package. -/
theorem C60_java_package (cs : List Str) (prefix_ : Str) (h : PackageParts cs) :
    javaPackage (packageName cs) = s%"com." ++ packageName cs ∧
    javaPackagePrefixOverride (packageName cs) [] = s%"com." ++ packageName cs ∧
    (prefix_ ≠ [] → javaPackagePrefixOverride (packageName cs) prefix_ =
      prefix_ ++ s%"." ++ packageName cs) := by
  unfold javaPackage javaPackagePrefixOverride
  rw [if_neg (packageName_ne_nil h), if_neg (packageName_ne_nil h), if_neg (packageName_ne_nil h)]
  exact ⟨rfl, rfl, fun hp => if_pos hp⟩

/-- The C# namespace of a package that is not a beta version: capitalized components. -/
theorem C60_csharp_namespace (cs : List Str) (h : PackageParts cs)
    (hb : ¬ IsBetaPackage (packageName cs)) :
    csharpNamespace (packageName cs) = packageName (cs.map capitalize) := by
  unfold csharpNamespace
  rw [if_neg (packageName_ne_nil h)]
  split
  · rename_i major beta hv
    exact absurd ⟨major, beta + 1, (C13_majorBetaVersion _ _ _).1 hv, Nat.succ_pos _⟩ hb
  · exact title_words h

/-- The C# namespace of a beta version `vMAJORbetaBETA`: the last component is
`VMAJORBetaBETA`, with the numbers in decimal notation without leading zeros. The numbers must
fit in a signed integer. -/
theorem C60_csharp_namespace_beta (cs : List Str) (v : Str) (h : PackageParts (cs ++ [v]))
    (major beta : Nat) (hv : VersionedAs (packageName (cs ++ [v])) major beta) (hb : 0 < beta)
    (h1 : major < 2 ^ 63) (h2 : beta < 2 ^ 63) :
    csharpNamespace (packageName (cs ++ [v])) =
      packageName (cs.map capitalize ++ [s%"V" ++ natStr major ++ s%"Beta" ++ natStr beta]) := by
  obtain ⟨ds, v', he, hne, hds⟩ := versioned_components h hv
  obtain ⟨rfl, hv'⟩ := List.append_inj' he rfl
  match beta, hb with
  | b + 1, _ =>
    unfold csharpNamespace
    rw [if_neg (packageName_ne_nil h), (C13_majorBetaVersion _ _ _).2 hv]
    dsimp only
    rw [split_components h, List.dropLast_concat]
    have ht := title_words hds
    have hj := join_append_last s%"." (l := cs.map capitalize) (by simpa using hne)
      (s%"V" ++ natStr major ++ s%"Beta" ++ natStr (b + 1))
    unfold packageName at ht ⊢
    rw [ht, hj]
    have hw : ∀ n : Nat, n < 2 ^ 63 → itoa (wrapInt64 n) = natStr n := by
      intro n hn
      unfold wrapInt64 itoa
      rw [if_pos hn, if_neg (by omega)]
      rfl
    rw [hw major h1, hw (b + 1) h2]
    simp

/-- Larger numbers, which are accepted as versions, turn negative. -/
theorem C60_csharp_namespace_wraps :
    csharpNamespace s%"a.v9223372036854775808beta1" = s%"A.V-9223372036854775808Beta1" ∧
    VersionedAs s%"a.v9223372036854775808beta1" 9223372036854775808 1 :=
  ⟨by decide +kernel, (C13_majorBetaVersion _ _ _).1 (by decide +kernel)⟩

/-- The PHP namespace: the C# namespace with two backslashes between the components. -/
theorem C60_php_namespace (cs : List Str) (h : PackageParts cs)
    (hb : ¬ IsBetaPackage (packageName cs)) :
    phpNamespace (packageName cs) = join s%"\\\\" (cs.map capitalize) := by
  unfold phpNamespace
  rw [C60_csharp_namespace cs h hb]
  refine replaceChar_join ?_ _
  intro c hc
  obtain ⟨d, hd, rfl⟩ := List.mem_map.1 hc
  exact capitalize_no_period (h.identifiers d hd)

theorem C60_php_namespace_beta (cs : List Str) (v : Str) (h : PackageParts (cs ++ [v]))
    (major beta : Nat) (hv : VersionedAs (packageName (cs ++ [v])) major beta) (hb : 0 < beta)
    (h1 : major < 2 ^ 63) (h2 : beta < 2 ^ 63) :
    phpNamespace (packageName (cs ++ [v])) = join s%"\\\\"
      (cs.map capitalize ++ [s%"V" ++ natStr major ++ s%"Beta" ++ natStr beta]) := by
  unfold phpNamespace
  rw [C60_csharp_namespace_beta cs v h major beta hv hb h1 h2]
  refine replaceChar_join ?_ _
  intro c hc
  rcases List.mem_append.1 hc with hc | hc
  · obtain ⟨d, hd, rfl⟩ := List.mem_map.1 hc
    exact capitalize_no_period (h.identifiers d (List.mem_append_left _ hd))
  · rw [List.mem_singleton.1 hc]
    have hd : ∀ n, '.' ∉ natStr n := fun n hm => absurd (natStr_digits n _ hm) (by decide)
    simp only [List.mem_append, not_or]
    exact ⟨⟨⟨by decide, hd _⟩, by decide⟩, hd _⟩

/-- The Objective-C class prefix: the initials of the components, without the version, filled up
to three letters. -/
theorem C60_objc_class_prefix (cs : List Str) (h : PackageParts cs)
    (hv : ¬ ∃ major beta, VersionedAs (packageName cs) major beta) :
    objcClassPrefix (packageName cs) = abbreviation (initials cs) := by
  unfold objcClassPrefix
  rw [if_neg (packageName_ne_nil h), (C13_not_versioned _).2 hv, split_components h]
  dsimp only
  rw [if_neg (by decide)]
  refine Eq.trans ?_ (congrArg abbreviation (initials_eq cs))
  exact pad_eq fun hn => initials_ne_nil h ((initials_eq cs).symm.trans hn)

theorem C60_objc_class_prefix_versioned (cs : List Str) (v : Str) (h : PackageParts (cs ++ [v]))
    (hv : ∃ major beta, VersionedAs (packageName (cs ++ [v])) major beta) :
    objcClassPrefix (packageName (cs ++ [v])) = abbreviation (initials cs) := by
  obtain ⟨major, beta, hv⟩ := hv
  obtain ⟨ds, v', he, hne, hds⟩ := versioned_components h hv
  obtain ⟨rfl, hv'⟩ := List.append_inj' he rfl
  unfold objcClassPrefix
  rw [if_neg (packageName_ne_nil h), (C13_majorBetaVersion _ _ _).2 hv, split_components h]
  dsimp only
  rw [if_pos (by simp), List.dropLast_concat]
  refine Eq.trans ?_ (congrArg abbreviation (initials_eq cs))
  exact pad_eq fun hn => initials_ne_nil hds ((initials_eq cs).symm.trans hn)

/-- It has at least three letters and is never Google's own. -/
theorem C60_objc_class_prefix_ok (cs : List Str) (h : PackageParts cs) :
    3 ≤ (objcClassPrefix (packageName cs)).length ∧ objcClassPrefix (packageName cs) ≠ s%"GPB" := by
  have key : ∀ s : Str, 3 ≤ (abbreviation s).length ∧ abbreviation s ≠ s%"GPB" := by
    intro s
    unfold abbreviation
    split
    · decide
    · rename_i hs
      refine ⟨by simp only [List.length_append, List.length_replicate]; omega, ?_⟩
      intro he
      have hl : (s ++ List.replicate (3 - s.length) 'X').length = 3 := by rw [he]; rfl
      by_cases h0 : 3 - s.length = 0
      · rw [h0, List.replicate_zero, List.append_nil] at he
        exact hs he
      · have hm : 'X' ∈ s ++ List.replicate (3 - s.length) 'X' :=
          List.mem_append_right _ (List.mem_replicate.2 ⟨h0, rfl⟩)
        rw [he] at hm
        exact absurd hm (by decide)
  by_cases hv : ∃ major beta, VersionedAs (packageName cs) major beta
  · have hv' := hv
    obtain ⟨major, beta, hv''⟩ := hv'
    obtain ⟨ds, v, rfl, _, _⟩ := versioned_components h hv''
    rw [C60_objc_class_prefix_versioned ds v h hv]
    exact key _
  · rw [C60_objc_class_prefix cs h hv]
    exact key _

/-- The Java class name of a proto file: its name without `.proto` in CamelCase, followed by
`Proto`. -/
theorem C60_java_outer_classname (path : Str) (h : s%".proto" <:+ path) :
    javaOuterClassname path = Strs.toUpperCamelCase (fileStem path) ++ s%"Proto" := by
  have hne : path ≠ [] := by
    rintro rfl
    exact absurd (List.eq_nil_of_suffix_nil h) (by decide)
  have hs := Lint.fileStem_eq h
  unfold javaOuterClassname
  rw [if_neg hne, ← hs]
  unfold Lint.trimSuffix
  have : hasSuffix (Path.base path) (Path.ext (Path.base path)) = true := by
    obtain ⟨q, rfl⟩ := h
    have he : Path.ext (Path.base (q ++ s%".proto")) = s%".proto" := by
      rw [File.ext_proto_iff, Lint.base_proto, Lint.lastComponent_proto]
      exact ⟨_, rfl⟩
    rw [he, Lint.base_proto, Lint.lastComponent_proto, hasSuffix_iff]
    exact ⟨_, rfl⟩
  rw [if_pos this]

/-! ## Examples -/

/-- A short way to see that a list of names are components. -/
theorem packageParts_of {cs : List Str} (h : (decide (cs ≠ []) && cs.all fun c =>
    match c with
    | [] => false
    | x :: t => (isLetter x || decide (x = '_')) && t.all fun y => isLetter y || isDigit y || decide (y = '_'))
      = true) : PackageParts cs := by
  simp only [Bool.and_eq_true, decide_eq_true_eq, List.all_eq_true] at h
  refine ⟨h.1, fun c hc => ?_⟩
  have := h.2 c hc
  match c with
  | [] => exact absurd this Bool.false_ne_true
  | x :: t =>
    simp only [Bool.and_eq_true, Bool.or_eq_true, decide_eq_true_eq, List.all_eq_true] at this
    exact ⟨x, t, rfl, this.1, fun y hy => by simpa [or_assoc] using this.2 y hy⟩

example : PackageParts [s%"uber", s%"trip", s%"v1beta2"] := packageParts_of (by decide)
example : VersionedAs (packageName [s%"uber", s%"trip", s%"v1beta2"]) 1 2 :=
  (C13_majorBetaVersion _ _ _).1 (by decide +kernel)
example : csharpNamespace s%"uber.trip.v1beta2" = s%"Uber.Trip.V1Beta2" := by decide +kernel
example : phpNamespace s%"uber.trip.v1" = s%"Uber\\\\Trip\\\\V1" := by decide +kernel
example : objcClassPrefix s%"uber.trip.v1" = s%"UTX" := by decide +kernel
example : objcClassPrefix s%"google.proto.base.v1" = s%"GPX" := by decide +kernel
example : goPackageV2 s%"uber.trip.v1" = s%"tripv1" ∧ goPackage s%"uber.trip.v1" = s%"v1pb" := by
  decide +kernel
example : javaOuterClassname s%"a/b/foo_bar.proto" = s%"FooBarProto" := by decide +kernel

end Verif.Props
