import Verif.Props.Breaking
import Verif.Spec.BreakingLocal
import Verif.Proof.Wire

/-!
# C102: break check judges every package by itself
-/

namespace Verif.Props

open Verif Reflect Breaking Spec Text Proof.Breaking Proof.Extract BreakExample

theorem alike_symm {name : Str} {a b : PackageSet} (h : AlikeAt name a b) : AlikeAt name b a :=
  fun p hp => (h p hp).symm

theorem alike_checked {includeBeta : Bool} {name : Str} {a b : PackageSet} (h : AlikeAt name a b) :
    AlikeAt name (checkedPackages includeBeta a) (checkedPackages includeBeta b) := by
  intro p hp
  unfold checkedPackages
  rw [List.mem_filter, List.mem_filter, h p hp]

theorem packagePair_alike {P Q P' Q' : PackageSet} {p q : Package} (h : PackagePair P Q p q)
    (hP : AlikeAt p.name P P') (hQ : AlikeAt p.name Q Q') : PackagePair P' Q' p q :=
  ⟨(hP p rfl).1 h.1, (hQ q h.2.2).1 h.2.1, h.2.2⟩

/-- What is reported is reported because of one package. -/
theorem reported_local {P Q : PackageSet} {id text : Str} (h : Reported P Q id text) :
    ∃ p ∈ P, ∀ P' Q', AlikeAt p.name P P' → AlikeAt p.name Q Q' → Reported P' Q' id text := by
  have mp : ∀ {name m m'}, MessagePair P Q name m m' → ∃ p ∈ P, ∀ P' Q', AlikeAt p.name P P' → AlikeAt p.name Q Q' →
      MessagePair P' Q' name m m' := by
    rintro name m m' ⟨p, q, path, hpq, h1, h2, h3⟩
    exact ⟨p, hpq.1, fun P' Q' a b => ⟨p, q, path, packagePair_alike hpq a b, h1, h2, h3⟩⟩
  have ep : ∀ {name m m'}, EnumPair P Q name m m' → ∃ p ∈ P, ∀ P' Q', AlikeAt p.name P P' → AlikeAt p.name Q Q' →
      EnumPair P' Q' name m m' := by
    rintro name m m' ⟨p, q, path, hpq, h1, h2, h3⟩
    exact ⟨p, hpq.1, fun P' Q' a b => ⟨p, q, path, packagePair_alike hpq a b, h1, h2, h3⟩⟩
  have sp : ∀ {name m m'}, ServicePair P Q name m m' → ∃ p ∈ P, ∀ P' Q', AlikeAt p.name P P' → AlikeAt p.name Q Q' →
      ServicePair P' Q' name m m' := by
    rintro name m m' ⟨p, q, hpq, h1, h2, h3⟩
    exact ⟨p, hpq.1, fun P' Q' a b => ⟨p, q, packagePair_alike hpq a b, h1, h2, h3⟩⟩
  have fp : ∀ {name m m'}, FieldPair P Q name m m' → ∃ p ∈ P, ∀ P' Q', AlikeAt p.name P P' → AlikeAt p.name Q Q' →
      FieldPair P' Q' name m m' := by
    rintro name m m' ⟨x, y, hxy, h1, h2⟩
    obtain ⟨p, hp, h⟩ := mp hxy
    exact ⟨p, hp, fun P' Q' a b => ⟨x, y, h P' Q' a b, h1, h2⟩⟩
  have thp : ∀ {name m m'}, MethodPair P Q name m m' → ∃ p ∈ P, ∀ P' Q', AlikeAt p.name P P' → AlikeAt p.name Q Q' →
      MethodPair P' Q' name m m' := by
    rintro name m m' ⟨x, y, hxy, h1, h2⟩
    obtain ⟨p, hp, h⟩ := sp hxy
    exact ⟨p, hp, fun P' Q' a b => ⟨x, y, h P' Q' a b, h1, h2⟩⟩
  cases h with
  | packageDeleted h1 h2 =>
    exact ⟨_, h1, fun P' Q' a b => .packageDeleted ((a _ rfl).1 h1) fun q hq e => h2 q ((b q e).2 hq) e⟩
  | messageDeleted h1 h2 h3 h4 =>
    exact ⟨_, h1.1, fun P' Q' a b => .messageDeleted (packagePair_alike h1 a b) h2 h3 h4⟩
  | fieldDeleted h1 h2 h3 => obtain ⟨p, hp, h⟩ := mp h1; exact ⟨p, hp, fun P' Q' a b => .fieldDeleted (h P' Q' a b) h2 h3⟩
  | fieldRenamed h1 h2 => obtain ⟨p, hp, h⟩ := fp h1; exact ⟨p, hp, fun P' Q' a b => .fieldRenamed (h P' Q' a b) h2⟩
  | fieldLabelChanged h1 h2 =>
    obtain ⟨p, hp, h⟩ := fp h1; exact ⟨p, hp, fun P' Q' a b => .fieldLabelChanged (h P' Q' a b) h2⟩
  | fieldTypeChanged h1 h2 =>
    obtain ⟨p, hp, h⟩ := fp h1; exact ⟨p, hp, fun P' Q' a b => .fieldTypeChanged (h P' Q' a b) h2⟩
  | fieldTypeNameChanged h1 h2 h3 h4 =>
    obtain ⟨p, hp, h⟩ := fp h1; exact ⟨p, hp, fun P' Q' a b => .fieldTypeNameChanged (h P' Q' a b) h2 h3 h4⟩
  | fieldMovedIntoOneof h1 h2 h3 h4 h5 h6 =>
    obtain ⟨p, hp, h⟩ := mp h1; exact ⟨p, hp, fun P' Q' a b => .fieldMovedIntoOneof (h P' Q' a b) h2 h3 h4 h5 h6⟩
  | oneofDeleted h1 h2 h3 => obtain ⟨p, hp, h⟩ := mp h1; exact ⟨p, hp, fun P' Q' a b => .oneofDeleted (h P' Q' a b) h2 h3⟩
  | fieldRemovedFromOneof h1 h2 h3 h4 h5 h6 =>
    obtain ⟨p, hp, h⟩ := mp h1; exact ⟨p, hp, fun P' Q' a b => .fieldRemovedFromOneof (h P' Q' a b) h2 h3 h4 h5 h6⟩
  | enumDeleted h1 h2 h3 h4 =>
    exact ⟨_, h1.1, fun P' Q' a b => .enumDeleted (packagePair_alike h1 a b) h2 h3 h4⟩
  | enumValueDeleted h1 h2 h3 =>
    obtain ⟨p, hp, h⟩ := ep h1; exact ⟨p, hp, fun P' Q' a b => .enumValueDeleted (h P' Q' a b) h2 h3⟩
  | enumValueRenamed h1 h2 h3 h4 =>
    obtain ⟨p, hp, h⟩ := ep h1; exact ⟨p, hp, fun P' Q' a b => .enumValueRenamed (h P' Q' a b) h2 h3 h4⟩
  | serviceDeleted h1 h2 h3 =>
    exact ⟨_, h1.1, fun P' Q' a b => .serviceDeleted (packagePair_alike h1 a b) h2 h3⟩
  | methodDeleted h1 h2 h3 => obtain ⟨p, hp, h⟩ := sp h1; exact ⟨p, hp, fun P' Q' a b => .methodDeleted (h P' Q' a b) h2 h3⟩
  | requestChanged h1 h2 => obtain ⟨p, hp, h⟩ := thp h1; exact ⟨p, hp, fun P' Q' a b => .requestChanged (h P' Q' a b) h2⟩
  | responseChanged h1 h2 => obtain ⟨p, hp, h⟩ := thp h1; exact ⟨p, hp, fun P' Q' a b => .responseChanged (h P' Q' a b) h2⟩
  | clientStreamingStarted h1 h2 h3 =>
    obtain ⟨p, hp, h⟩ := thp h1; exact ⟨p, hp, fun P' Q' a b => .clientStreamingStarted (h P' Q' a b) h2 h3⟩
  | clientStreamingStopped h1 h2 h3 =>
    obtain ⟨p, hp, h⟩ := thp h1; exact ⟨p, hp, fun P' Q' a b => .clientStreamingStopped (h P' Q' a b) h2 h3⟩
  | serverStreamingStarted h1 h2 h3 =>
    obtain ⟨p, hp, h⟩ := thp h1; exact ⟨p, hp, fun P' Q' a b => .serverStreamingStarted (h P' Q' a b) h2 h3⟩
  | serverStreamingStopped h1 h2 h3 =>
    obtain ⟨p, hp, h⟩ := thp h1; exact ⟨p, hp, fun P' Q' a b => .serverStreamingStopped (h P' Q' a b) h2 h3⟩

theorem mustReport_local {includeBeta allowBetaDeps : Bool} {old new : PackageSet} {id text : Str}
    (h : MustReport includeBeta allowBetaDeps old new id text) :
    ∃ p, (p ∈ old ∨ p ∈ new) ∧ ∀ old' new', AlikeAt p.name old old' → AlikeAt p.name new new' →
      MustReport includeBeta allowBetaDeps old' new' id text := by
  rcases h with h | ⟨h1, h2, h⟩
  · obtain ⟨p, hp, h⟩ := reported_local h
    exact ⟨p, .inl (List.mem_filter.1 hp).1, fun old' new' a b => .inl (h _ _ (alike_checked a) (alike_checked b))⟩
  · cases h with
    | @mk q d hq hd hb =>
      refine ⟨q, .inr (List.mem_filter.1 hq).1, fun old' new' a b => .inr ⟨h1, h2, ?_⟩⟩
      exact .mk ((alike_checked b q rfl).1 hq) hd hb

/-- C102: **every failure is due to one package: it is reported in every comparison in which this package is the same
before and the same after, whatever else the schemas contain.** -/
theorem C102_local (o : Order) (config : BreakConfig) (old new : PackageSet) (ho : SchemaOK old) (hn : SchemaOK new)
    (fs : List Failure) (hfs : breakCheck o config old new = .ok fs) (f : Failure) (hf : f ∈ fs) :
    ∃ p, (p ∈ old ∨ p ∈ new) ∧ ∀ (o' : Order) (old' new' : PackageSet), SchemaOK old' → SchemaOK new' →
      AlikeAt p.name old old' → AlikeAt p.name new new' →
      ∃ fs', breakCheck o' config old' new' = .ok fs' ∧ f ∈ fs' := by
  obtain ⟨fs0, h0, hmem⟩ := C06_reports o config old new ho hn
  rw [hfs] at h0
  cases h0
  obtain ⟨id, text, hm, rfl⟩ := (hmem f).1 hf
  obtain ⟨p, hp, h⟩ := mustReport_local hm
  refine ⟨p, hp, fun o' old' new' ho' hn' a b => ?_⟩
  obtain ⟨fs', h1, h2⟩ := C06_reports o' config old' new' ho' hn'
  exact ⟨fs', h1, (h2 _).2 ⟨id, text, h old' new' a b, rfl⟩⟩

theorem mustReport_self {includeBeta allowBetaDeps : Bool} {ps : PackageSet} (h : SchemaOK ps) {id text : Str}
    (hm : MustReport includeBeta allowBetaDeps ps ps id text) : id = s%"PACKAGES_NO_BETA_DEPS" := by
  rcases hm with hm | ⟨_, _, hm⟩
  · -- with beta dependencies allowed, the check of a schema against itself is clean
    have hc := C01_clean_iff_compatible .id ⟨includeBeta, true⟩ ps ps h h
    obtain ⟨fs, h1, h2⟩ := C06_reports .id ⟨includeBeta, true⟩ ps ps h h
    rw [hc.2 ⟨compatible_refl _ _, fun _ h => nomatch h⟩] at h1
    cases h1
    exact nomatch (h2 _).2 ⟨id, text, .inl hm, rfl⟩
  · cases hm; rfl

/-- C102: **a package that did not change is never the reason of a failure**, except for the check that stable packages
do not depend on beta packages, which is about the new schema alone. -/
theorem C102_unchanged (o : Order) (config : BreakConfig) (old new : PackageSet) (ho : SchemaOK old) (hn : SchemaOK new)
    (fs : List Failure) (hfs : breakCheck o config old new = .ok fs) (f : Failure) (hf : f ∈ fs)
    (hid : f.lintID ≠ s%"PACKAGES_NO_BETA_DEPS") :
    ∃ p ∈ old, p ∉ new ∧ ∀ (o' : Order) (old' new' : PackageSet), SchemaOK old' → SchemaOK new' →
      AlikeAt p.name old old' → AlikeAt p.name new new' →
      ∃ fs', breakCheck o' config old' new' = .ok fs' ∧ f ∈ fs' := by
  obtain ⟨fs0, h0, hmem⟩ := C06_reports o config old new ho hn
  rw [hfs] at h0
  cases h0
  obtain ⟨id, text, hm, rfl⟩ := (hmem f).1 hf
  rcases hm with hm | ⟨_, _, hm⟩
  · obtain ⟨p, hp, h⟩ := reported_local hm
    have hp := (List.mem_filter.1 hp).1
    refine ⟨p, hp, fun hpn => ?_, fun o' old' new' ho' hn' a b => ?_⟩
    · -- the package is the same in both
      have hal : AlikeAt p.name new old := by
        intro q hq
        constructor
        · intro h
          rw [Proof.Encoded.inj_of_nodup hn.names h hpn hq]; exact hp
        · intro h
          rw [Proof.Encoded.inj_of_nodup ho.names h hp hq]; exact hpn
      exact hid (mustReport_self (includeBeta := config.includeBeta) (allowBetaDeps := false) ho
        (.inl (h _ _ (fun _ _ => Iff.rfl) (alike_checked hal))))
    · obtain ⟨fs', h1, h2⟩ := C06_reports o' config old' new' ho' hn'
      exact ⟨fs', h1, (h2 _).2 ⟨id, text, .inl (h _ _ (alike_checked a) (alike_checked b)), rfl⟩⟩
  · cases hm
    exact absurd rfl hid

/-- C102: **a change that is made in two steps by whole packages breaks what the steps break, no more and no less.** -/
theorem C102_steps (o o1 o2 : Order) (config : BreakConfig) (old mid new : PackageSet) (ho : SchemaOK old)
    (hm : SchemaOK mid) (hn : SchemaOK new) (hs : Step old mid new) :
    ∃ fs fs1 fs2, breakCheck o config old new = .ok fs ∧ breakCheck o1 config old mid = .ok fs1 ∧
      breakCheck o2 config mid new = .ok fs2 ∧
      ∀ f : Failure, f.lintID ≠ s%"PACKAGES_NO_BETA_DEPS" → (f ∈ fs ↔ f ∈ fs1 ∨ f ∈ fs2) := by
  obtain ⟨fs, h, _⟩ := C06_reports o config old new ho hn
  obtain ⟨fs1, h1, _⟩ := C06_reports o1 config old mid ho hm
  obtain ⟨fs2, h2, _⟩ := C06_reports o2 config mid new hm hn
  refine ⟨fs, fs1, fs2, h, h1, h2, fun f hid => ⟨fun hf => ?_, ?_⟩⟩
  · obtain ⟨p, _, hall⟩ := C102_local o config old new ho hn fs h f hf
    rcases hs p.name with ha | ha
    · obtain ⟨fs', e, hf'⟩ := hall o2 mid new hm hn ha (fun _ _ => Iff.rfl)
      rw [h2] at e
      cases e
      exact .inr hf'
    · obtain ⟨fs', e, hf'⟩ := hall o1 old mid ho hm (fun _ _ => Iff.rfl) (alike_symm ha)
      rw [h1] at e
      cases e
      exact .inl hf'
  · rintro (hf | hf)
    · obtain ⟨p, hp, hpn, hall⟩ := C102_unchanged o1 config old mid ho hm fs1 h1 f hf hid
      rcases hs p.name with ha | ha
      · exact absurd ((ha p rfl).1 hp) hpn
      · obtain ⟨fs', e, hf'⟩ := hall o old new ho hn (fun _ _ => Iff.rfl) ha
        rw [h] at e
        cases e
        exact hf'
    · obtain ⟨p, hp, hpn, hall⟩ := C102_unchanged o2 config mid new hm hn fs2 h2 f hf hid
      rcases hs p.name with ha | ha
      · obtain ⟨fs', e, hf'⟩ := hall o old new ho hn (alike_symm ha) (fun _ _ => Iff.rfl)
        rw [h] at e
        cases e
        exact hf'
      · exact absurd ((ha p rfl).1 hp) hpn

/-- C102: the check of the dependencies on beta packages is about the new schema alone. -/
theorem C102_beta (o o' : Order) (config : BreakConfig) (old old' new : PackageSet) (ho : SchemaOK old)
    (ho' : SchemaOK old') (hn : SchemaOK new) :
    ∃ fs fs', breakCheck o config old new = .ok fs ∧ breakCheck o' config old' new = .ok fs' ∧
      ∀ f : Failure, f.lintID = s%"PACKAGES_NO_BETA_DEPS" → (f ∈ fs ↔ f ∈ fs') := by
  obtain ⟨fs, h, hm⟩ := C06_reports o config old new ho hn
  obtain ⟨fs', h', hm'⟩ := C06_reports o' config old' new ho' hn
  refine ⟨fs, fs', h, h', fun f hid => ?_⟩
  rw [hm, hm']
  have key : ∀ (a b : PackageSet) id text, id = s%"PACKAGES_NO_BETA_DEPS" →
      MustReport config.includeBeta config.allowBetaDeps a new id text →
      MustReport config.includeBeta config.allowBetaDeps b new id text := by
    rintro a b id text rfl (hr | hr)
    · nomatch hr
    · exact .inr hr
  constructor
  · rintro ⟨id, text, hr, rfl⟩; exact ⟨id, text, key _ _ _ _ hid hr, rfl⟩
  · rintro ⟨id, text, hr, rfl⟩; exact ⟨id, text, key _ _ _ _ hid hr, rfl⟩

/-! ## An example -/

/-- A schema with one more package than `v1`, and `broken` with this package gone. -/
def twoStable : PackageSet := v1 ++ [⟨s%"baz.v1", [], [], [], []⟩]

theorem twoStable_ok : SchemaOK twoStable := schemaOK_of_check (by decide)

/-- Two packages change, and so the change can be made in two steps. -/
example : Step twoStable v1 broken := by
  intro name
  by_cases h : name = s%"baz.v1"
  · right
    intro p hp
    subst hp
    constructor
    · intro hm
      simp only [v1, List.mem_cons, List.not_mem_nil, or_false] at hm
      rcases hm with rfl | rfl <;> exact absurd h (by decide)
    · intro hm
      simp only [broken, List.mem_cons, List.not_mem_nil, or_false] at hm
      rcases hm with rfl
      exact absurd h (by decide)
  · left
    intro p hp
    subst hp
    constructor
    · intro hm
      rcases List.mem_append.1 hm with hm | hm
      · exact hm
      · cases List.mem_singleton.1 hm
        exact absurd rfl h
    · exact List.mem_append_left _

example : breakCheck Order.id ⟨false, false⟩ twoStable v1 = .ok
      [⟨[], 0, 0, s%"PACKAGES_NOT_DELETED", s%"Package \"baz.v1\" was deleted."⟩] ∧
    breakCheck Order.id ⟨false, false⟩ v1 broken = .ok
      [⟨[], 0, 0, s%"MESSAGES_NOT_DELETED", s%"Message \"foo.v1.Foo.Bar\" was deleted."⟩,
       ⟨[], 0, 0, s%"MESSAGE_FIELDS_SAME_NAME",
        s%"Message field \"1\" on message \"foo.v1.Foo\" changed from \"a\" to \"z\"."⟩] ∧
    breakCheck Order.id ⟨false, false⟩ twoStable broken = .ok
      [⟨[], 0, 0, s%"MESSAGES_NOT_DELETED", s%"Message \"foo.v1.Foo.Bar\" was deleted."⟩,
       ⟨[], 0, 0, s%"MESSAGE_FIELDS_SAME_NAME",
        s%"Message field \"1\" on message \"foo.v1.Foo\" changed from \"a\" to \"z\"."⟩,
       ⟨[], 0, 0, s%"PACKAGES_NOT_DELETED", s%"Package \"baz.v1\" was deleted."⟩] := ⟨rfl, rfl, rfl⟩

end Verif.Props
