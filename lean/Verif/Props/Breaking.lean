import Verif.Proof.Compatible
import Verif.Proof.SameRes
import Verif.Proof.Extension
import Verif.Proof.Links
import Verif.Spec.SchemaCheck
import Verif.Props.Text

/-!
# Break check: C01–C07 and C09

`SchemaOK` is what protoc and the reflection step ensure of a schema. `o` is an
arbitrary iteration order of all maps.
-/

namespace Verif.Props

open Verif Reflect Breaking Spec Text Proof.Breaking Proof.Extract

/-! ## Concrete schemas for the examples -/

namespace BreakExample

def foo : Message :=
  .mk (s%"Foo")
    [.mk (s%"Bar") [] [] [⟨s%"c", 1, 1, 11, s%"foo.v1.Foo"⟩] []]
    [⟨s%"E", [⟨s%"X", 0⟩, ⟨s%"Y", 1⟩]⟩]
    [⟨s%"a", 1, 1, 5, []⟩, ⟨s%"b", 2, 1, 9, []⟩]
    [⟨s%"w", [2]⟩]

def svc : Service := ⟨s%"S", [⟨s%"M", s%"foo.v1.Foo", s%"foo.v1.Foo", false, true⟩]⟩

def beta : Package := ⟨s%"bar.v1beta1", [], [], [.mk (s%"Baz") [] [] [] []], []⟩

/-- A schema with a stable and a beta package. -/
def v1 : PackageSet := [⟨s%"foo.v1", [], [], [foo], [svc]⟩, beta]

/-- `v1` with a nested message, an enum value, a field in the oneof, a message, a
method and a package added. -/
def v2 : PackageSet :=
  [⟨s%"foo.v1", [],
    [], [.mk (s%"Foo")
      [.mk (s%"Bar") [] [] [⟨s%"c", 1, 1, 11, s%"foo.v1.Foo"⟩] [], .mk (s%"Qux") [] [] [] []]
      [⟨s%"E", [⟨s%"X", 0⟩, ⟨s%"Y", 1⟩, ⟨s%"Z", 2⟩]⟩]
      [⟨s%"a", 1, 1, 5, []⟩, ⟨s%"b", 2, 1, 9, []⟩, ⟨s%"d", 3, 1, 9, []⟩]
      [⟨s%"w", [2, 3]⟩], .mk (s%"Quux") [] [] [] []],
    [⟨s%"S", [⟨s%"M", s%"foo.v1.Foo", s%"foo.v1.Foo", false, true⟩,
      ⟨s%"N", s%"foo.v1.Foo", s%"foo.v1.Foo", false, false⟩]⟩]⟩,
   beta, ⟨s%"new.v1", [], [], [], []⟩]

/-- `v1` with field `a` renamed, the nested message gone, the beta package gone. -/
def broken : PackageSet :=
  [⟨s%"foo.v1", [], [],
    [.mk (s%"Foo") [] [⟨s%"E", [⟨s%"X", 0⟩, ⟨s%"Y", 1⟩]⟩]
      [⟨s%"z", 1, 1, 5, []⟩, ⟨s%"b", 2, 1, 9, []⟩] [⟨s%"w", [2]⟩]], [svc]⟩]

/-- A stable package that depends on a beta package. -/
def betaDep : PackageSet := [⟨s%"foo.v1", [s%"bar.v1beta1"], [], [foo], [svc]⟩, beta]

theorem v1_ok : SchemaOK v1 := schemaOK_of_check (by decide)
theorem v2_ok : SchemaOK v2 := schemaOK_of_check (by decide)
theorem broken_ok : SchemaOK broken := schemaOK_of_check (by decide)
theorem betaDep_ok : SchemaOK betaDep := schemaOK_of_check (by decide)

end BreakExample

open BreakExample

/-! ## C06 -/

theorem checkedPackages_eq (config : BreakConfig) (ps : PackageSet) :
    checkedPackages config.includeBeta ps = checked config ps := by
  unfold checkedPackages checked kept
  apply List.filter_congr
  intro p _
  have h := ignorePackage_not (b := config.includeBeta) (name := p.name)
  by_cases hc : Checked config.includeBeta p.name
  · rw [h.2 hc]; simp [hc]
  · cases hi : Extract.ignorePackage (!config.includeBeta) p.name with
    | false => exact absurd (h.1 hi) hc
    | true => simp [hc]

/-- C06: break check succeeds on well-formed schemas, and the failures are exactly one
(or more) for each documented change to an element, with the documented check
identifier and a text naming the element. -/
theorem C06_reports (o : Order) (config : BreakConfig) (old new : PackageSet) (ho : SchemaOK old)
    (hn : SchemaOK new) : ∃ fs, breakCheck o config old new = .ok fs ∧
      ∀ f, f ∈ fs ↔ ∃ id text, MustReport config.includeBeta config.allowBetaDeps old new id text ∧
        f = ⟨[], 0, 0, id, text⟩ := by
  have h := breakCheck_yields o ho hn config
  unfold Yields at h
  split at h
  · obtain ⟨_, _, _, h⟩ := h
    cases h
  · rename_i fs hfs
    refine ⟨fs, hfs, fun f => ?_⟩
    rw [h.2 f]
    unfold MustReport
    rw [checkedPackages_eq, checkedPackages_eq]
    constructor
    · rintro ⟨id, msg, he, hf⟩
      exact ⟨id, msg, he, Option.some.inj hf⟩
    · rintro ⟨id, msg, he, rfl⟩
      exact ⟨id, msg, he, rfl⟩

example : breakCheck Order.id ⟨false, false⟩ v1 broken = .ok
    [⟨[], 0, 0, s%"MESSAGES_NOT_DELETED", s%"Message \"foo.v1.Foo.Bar\" was deleted."⟩,
     ⟨[], 0, 0, s%"MESSAGE_FIELDS_SAME_NAME",
      s%"Message field \"1\" on message \"foo.v1.Foo\" changed from \"a\" to \"z\"."⟩] := by rfl
example : SchemaOK v1 ∧ SchemaOK broken := ⟨v1_ok, broken_ok⟩

/-! ## C01 -/

/-- C01: break check is clean exactly for compatible changes that (in the default beta
mode) leave no stable package depending on a beta package. -/
theorem C01_clean_iff_compatible (o : Order) (config : BreakConfig) (old new : PackageSet)
    (ho : SchemaOK old) (hn : SchemaOK new) :
    breakCheck o config old new = .ok [] ↔
      Compatible (Checked config.includeBeta) old new ∧
      (config.includeBeta = false → config.allowBetaDeps = false → NoBetaDependencies new) := by
  obtain ⟨fs, hfs, hmem⟩ := C06_reports o config old new ho hn
  have hR := ready_checked ho hn config
  have hcompat : Compatible (Checked config.includeBeta) old new ↔
      Kept (checked config old) (checked config new) := by
    constructor
    · intro h p hp
      obtain ⟨hp, hc⟩ := mem_checked.1 hp
      obtain ⟨q, hq, hqn, hk⟩ := h p hp hc
      exact ⟨q, mem_checked.2 ⟨hq, hqn ▸ hc⟩, hqn, hk⟩
    · intro h p hp hc
      obtain ⟨q, hq, hqn, hk⟩ := h p (mem_checked.2 ⟨hp, hc⟩)
      exact ⟨q, (mem_checked.1 hq).1, hqn, hk⟩
  rw [hfs]
  have hnil : (Except.ok fs : Res) = .ok [] ↔
      ∀ id text, ¬ MustReport config.includeBeta config.allowBetaDeps old new id text := by
    constructor
    · intro h id text hm
      cases h
      exact absurd ((hmem _).2 ⟨id, text, hm, rfl⟩) (by simp)
    · intro h
      cases fs with
      | nil => rfl
      | cons f fs =>
        obtain ⟨id, text, hm, _⟩ := (hmem f).1 (by simp)
        exact absurd hm (h id text)
  rw [hnil, hcompat]
  unfold MustReport
  rw [checkedPackages_eq, checkedPackages_eq]
  constructor
  · intro h
    refine ⟨kept_of_not_reported hR fun id text hr => h id text (.inl hr), ?_⟩
    intro h1 h2 p hp hs d hd hb
    refine h _ _ (.inr ⟨h1, h2, .mk (q := p) (d := d) (mem_checked.2 ⟨hp, .inr hs⟩) hd hb⟩)
  · rintro ⟨h1, h2⟩ id text (hr | ⟨hb, ha, hr⟩)
    · exact not_reported_of_kept hR h1 id text hr
    · cases hr with
      | @mk q d hq hd hbd =>
        obtain ⟨hq, hc⟩ := mem_checked.1 hq
        rw [hb] at hc
        refine h2 hb ha q hq ?_ d hd hbd
        rcases hc with hc | hc
        · cases hc
        · exact hc

example : breakCheck Order.rev ⟨false, false⟩ v1 v2 = .ok [] := by rfl
example : breakCheck Order.id ⟨true, false⟩ v1 broken ≠ .ok [] := by
  intro h
  have := congrArg (fun r : Res => r.toOption.map List.length) h
  revert this
  decide
example : breakCheck Order.id ⟨false, false⟩ v1 betaDep = .ok
    [⟨[], 0, 0, s%"PACKAGES_NO_BETA_DEPS",
      s%"Package \"foo.v1\" depends on beta package \"bar.v1beta1\" which is not allowed."⟩] := by rfl

/-! ## C02 -/

theorem compatible_refl (scope : Str → Prop) (ps : PackageSet) : Compatible scope ps ps := by
  intro p hp _
  refine ⟨p, hp, rfl, ?_, ?_, ?_⟩
  · intro path m hm
    exact ⟨m, hm, fun f hf => ⟨f, hf, ⟨rfl, rfl, rfl, rfl, fun _ => rfl⟩, rfl⟩, fun w hw => ⟨w, hw, rfl⟩⟩
  · intro scope e he
    exact ⟨e, he, rfl, fun _ _ h => h⟩
  · intro s hs
    exact ⟨s, hs, rfl, fun m hm => hm⟩

/-- C02: a schema is clean against itself, unless a stable package depends on a beta
package in the mode that forbids it. -/
theorem C02_reflexive (o : Order) (config : BreakConfig) (ps : PackageSet) (h : SchemaOK ps)
    (hb : config.includeBeta = false → config.allowBetaDeps = false → NoBetaDependencies ps) :
    breakCheck o config ps ps = .ok [] :=
  (C01_clean_iff_compatible o config ps ps h h).2 ⟨compatible_refl _ ps, hb⟩

theorem v1_noBeta : NoBetaDependencies v1 := by
  intro p hp _ d hd
  simp only [v1, beta, List.mem_cons, List.not_mem_nil, or_false] at hp
  rcases hp with rfl | rfl <;> cases hd

example : SchemaOK v1 ∧ NoBetaDependencies v1 := ⟨v1_ok, v1_noBeta⟩

/-! ## C03 -/

theorem messageKept_trans {a b c : Message} (h : MessageKept a b) (h' : MessageKept b c) :
    MessageKept a c := by
  refine ⟨?_, ?_⟩
  · intro f hf
    obtain ⟨g, hg, k, ho⟩ := h.fields f hf
    obtain ⟨i, hi, k', ho'⟩ := h'.fields g hg
    refine ⟨i, hi, ⟨k'.number.trans k.number, k'.name.trans k.name, k'.label.trans k.label,
      k'.type.trans k.type, fun ht => (k'.typeName (k.type ▸ ht)).trans (k.typeName ht)⟩, ?_⟩
    rw [k.number] at ho'
    exact ho'.trans ho
  · intro w hw
    obtain ⟨v, hv, e⟩ := h.oneofs w hw
    obtain ⟨u, hu, e'⟩ := h'.oneofs v hv
    exact ⟨u, hu, e'.trans e⟩

theorem compatible_trans {scope : Str → Prop} {a b c : PackageSet} (h : Compatible scope a b)
    (h' : Compatible scope b c) : Compatible scope a c := by
  intro p hp hs
  obtain ⟨q, hq, hn, k⟩ := h p hp hs
  obtain ⟨r, hr, hn', k'⟩ := h' q hq (hn ▸ hs)
  refine ⟨r, hr, hn'.trans hn, ?_, ?_, ?_⟩
  · intro path m hm
    obtain ⟨m', hm', km⟩ := k.messages path m hm
    obtain ⟨m'', hm'', km'⟩ := k'.messages path m' hm'
    exact ⟨m'', hm'', messageKept_trans km km'⟩
  · intro sc e he
    obtain ⟨e', he', n, ke⟩ := k.enums sc e he
    obtain ⟨e'', he'', n', ke'⟩ := k'.enums sc e' he'
    exact ⟨e'', he'', n'.trans n, fun x y hxy => ke' x y (ke x y hxy)⟩
  · intro s hs
    obtain ⟨s', hs', n, ks⟩ := k.services s hs
    obtain ⟨s'', hs'', n', ks'⟩ := k'.services s' hs'
    exact ⟨s'', hs'', n'.trans n, fun m hm => ks' m (ks m hm)⟩

/-- C03: clean from A to B and from B to C implies clean from A to C. -/
theorem C03_transitive (o₁ o₂ o : Order) (config : BreakConfig) (a b c : PackageSet)
    (ha : SchemaOK a) (hb : SchemaOK b) (hc : SchemaOK c)
    (hab : breakCheck o₁ config a b = .ok []) (hbc : breakCheck o₂ config b c = .ok []) :
    breakCheck o config a c = .ok [] := by
  rw [C01_clean_iff_compatible _ _ _ _ ha hb] at hab
  rw [C01_clean_iff_compatible _ _ _ _ hb hc] at hbc
  exact (C01_clean_iff_compatible _ _ _ _ ha hc).2 ⟨compatible_trans hab.1 hbc.1, hbc.2⟩

/-- C03 for histories: if every version is clean against its predecessor, then every
version is clean against every earlier version. -/
theorem C03_history (o : Order) (config : BreakConfig) (version : Nat → PackageSet)
    (ok : ∀ n, SchemaOK (version n)) (last : Nat) (o' : Nat → Order)
    (h : ∀ n < last, breakCheck (o' n) config (version n) (version (n + 1)) = .ok []) :
    ∀ i j, i < j → j ≤ last → breakCheck o config (version i) (version j) = .ok [] := by
  intro i j hij
  induction j with
  | zero => omega
  | succ j ih =>
    intro hj
    by_cases he : i = j
    · subst he
      have := h i (by omega)
      rw [C01_clean_iff_compatible _ _ _ _ (ok _) (ok _)] at this ⊢
      exact this
    · exact C03_transitive o (o' j) o config _ _ _ (ok _) (ok _) (ok _) (ih (by omega) (by omega))
        (h j (by omega))

example : SchemaOK v1 ∧ SchemaOK v2 ∧ breakCheck Order.id ⟨true, false⟩ v1 v1 = .ok [] ∧
    breakCheck Order.id ⟨true, false⟩ v1 v2 = .ok [] := ⟨v1_ok, v2_ok, rfl, rfl⟩

/-! ## C04 -/

/-- C04: a schema that only grows is clean against the original. -/
theorem C04_additions (o : Order) (config : BreakConfig) (old new : PackageSet) (ho : SchemaOK old)
    (hn : SchemaOK new) (h : SchemaGrows old new)
    (hb : config.includeBeta = false → config.allowBetaDeps = false → NoBetaDependencies new) :
    breakCheck o config old new = .ok [] :=
  (C01_clean_iff_compatible o config old new ho hn).2 ⟨schemaGrows_compatible h _, hb⟩

theorem grows_refl {α : Type} {K : α → α → Prop} {N : α → Prop} (hK : ∀ a, K a a) (l : List α) :
    Grows K N l l := by
  induction l with
  | nil => exact .nil
  | cons a l ih => exact .keep (hK a) ih

example : SchemaGrows v1 v2 := by
  refine .keep ⟨rfl, .nil, ?_, ?_⟩ (.keep ⟨rfl, .nil, ?_, .nil⟩ (.add trivial .nil))
  · refine .keep (.mk ?_ ?_ ?_ ?_) (.add .nil)
    · exact .keep (.mk .nil .nil (grows_refl (fun _ => rfl) _) .nil) (.add .nil)
    · exact .keep ⟨rfl, .keep rfl (.keep rfl (.add (by decide) .nil))⟩ .nil
    · exact .keep rfl (.keep rfl (.add (by simp [UsedBy]) .nil))
    · exact .keep ⟨rfl, .keep rfl (.add (by simp [UsedBy]) .nil)⟩ .nil
  · exact .keep ⟨rfl, .keep rfl (.add trivial .nil)⟩ .nil
  · exact .keep (.mk .nil .nil .nil .nil) .nil

/-- Not covered by C04, and reported: a second name for an existing enum number
(`allow_alias`) replaces the first one in the comparison. -/
theorem C04_alias_is_reported :
    breakCheck Order.id ⟨false, false⟩
      [⟨s%"a.v1", [], [⟨s%"E", [⟨s%"X", 0⟩]⟩], [], []⟩]
      [⟨s%"a.v1", [], [⟨s%"E", [⟨s%"X", 0⟩, ⟨s%"Y", 0⟩]⟩], [], []⟩] = .ok
    [⟨[], 0, 0, s%"ENUM_VALUES_SAME_NAME",
      s%"Enum value \"0\" on enum \"a.v1.E\" changed from \"X\" to \"Y\"."⟩] := by rfl

/-! ## C05 -/

open Classical in
/-- C05: without `include_beta` the outcome depends only on the stable packages of the
two schemas (which list the names of their dependencies). -/
theorem C05_beta_irrelevant (o : Order) (allowBetaDeps : Bool) (old new old' new' : PackageSet)
    (ho : SchemaOK old) (hn : SchemaOK new) (ho' : SchemaOK old') (hn' : SchemaOK new')
    (hold : old.filter (fun p => ¬ IsBetaPackage p.name) = old'.filter (fun p => ¬ IsBetaPackage p.name))
    (hnew : new.filter (fun p => ¬ IsBetaPackage p.name) = new'.filter (fun p => ¬ IsBetaPackage p.name)) :
    breakCheck o ⟨false, allowBetaDeps⟩ old new = breakCheck o ⟨false, allowBetaDeps⟩ old' new' := by
  have hc : ∀ ps : PackageSet, checked ⟨false, allowBetaDeps⟩ ps =
      ps.filter (fun p => ¬ IsBetaPackage p.name) := by
    intro ps
    rw [← checkedPackages_eq]
    unfold checkedPackages
    apply List.filter_congr
    intro p _
    simp [Checked]
  rw [breakCheck_eq o ho hn, breakCheck_eq o ho' hn', hc, hc, hc, hc, hold, hnew]

theorem beta_isBeta : IsBetaPackage (s%"bar.v1beta1") := ignorePackage_true.1 (by decide)
theorem foo_notBeta : ¬ IsBetaPackage (s%"foo.v1") := fun h =>
  absurd (ignorePackage_true.2 h) (by decide)

open Classical in
example : SchemaOK v1 ∧ SchemaOK [⟨s%"foo.v1", [], [], [foo], [svc]⟩] ∧
    v1.filter (fun p => ¬ IsBetaPackage p.name) =
      [(⟨s%"foo.v1", [], [], [foo], [svc]⟩ : Package)].filter (fun p => ¬ IsBetaPackage p.name) := by
  refine ⟨v1_ok, schemaOK_of_check (by decide), ?_⟩
  simp [v1, beta, beta_isBeta, foo_notBeta]

/-! ## C07 -/

/-- C07: for any two iteration orders, the failures sort to the same list, so the same
lines are printed. -/
theorem C07_order_independent (o o' : Order) (config : BreakConfig) (old new : PackageSet)
    (ho : SchemaOK old) (hn : SchemaOK new) : ∃ fs fs',
      breakCheck o config old new = .ok fs ∧ breakCheck o' config old new = .ok fs' ∧
      sortFailures fs = sortFailures fs' := by
  obtain ⟨fs, hfs, _⟩ := C06_reports o config old new ho hn
  obtain ⟨fs', hfs', _⟩ := C06_reports o' config old new ho hn
  refine ⟨fs, fs', hfs, hfs', C18_canonical _ _ ?_⟩
  rw [breakCheck_eq o ho hn] at hfs
  rw [breakCheck_eq o' ho hn] at hfs'
  have := same_runCheckers o o' config (ws (checked config old)) (ws (checked config new))
  rw [hfs, hfs'] at this
  exact this

example : breakCheck Order.id ⟨true, false⟩ v1 [] ≠ breakCheck Order.rev ⟨true, false⟩ v1 [] := by
  intro h
  have := congrArg Except.toOption h
  revert this
  decide

/-! ## C09 -/

/-- C09: dependencies and importers mirror each other, only packages of the set are
listed, and the dependencies are the declared ones that are in the set. -/
theorem C09_links (o : Order) (ps : PackageSet) (withoutBeta : Bool) (x : Extract.XPackageSet)
    (h : Extract.newPackageSet o ps withoutBeta = .ok x) :
    (∀ p ∈ x.packages, ∀ q ∈ x.packages,
      q.proto.name ∈ p.dependencies ↔ p.proto.name ∈ q.importers) ∧
    (∀ p ∈ x.packages, ∀ n, n ∈ p.dependencies ∨ n ∈ p.importers → ∃ q ∈ x.packages, q.proto.name = n) ∧
    (∀ p ∈ x.packages, ∀ q ∈ x.packages,
      q.proto.name ∈ p.dependencies ↔ q.proto.name ∈ p.proto.dependencyNames) := by
  obtain ⟨hnd, _, hl, _⟩ := newPackageSet_links h
  have key : ∀ p ∈ x.packages, ∀ q ∈ x.packages,
      q.proto.name ∈ p.dependencies ↔ q.proto.name ∈ p.proto.dependencyNames := by
    intro p hp q hq
    rw [(hl p hp).1]
    exact ⟨fun h => h.1, fun h => ⟨h, List.mem_map_of_mem (f := xname) hq⟩⟩
  refine ⟨?_, ?_, key⟩
  · intro p hp q hq
    rw [key p hp q hq, (hl q hq).2]
    constructor
    · intro h
      exact ⟨p, hp, rfl, h⟩
    · rintro ⟨p', hp', hn, h⟩
      rw [eq_of_key_eq (key := xname) hnd hp hp' hn.symm]
      exact h
  · rintro p hp n (h | h)
    · exact List.mem_map.1 ((hl p hp).1 n |>.1 h).2
    · obtain ⟨q, hq, hn, _⟩ := ((hl p hp).2 n).1 h
      exact ⟨q, hq, hn⟩

/-- C09: the packages of the set are the given ones, without the beta packages if those
are filtered out. -/
theorem C09_packages (o : Order) (ps : PackageSet) (hps : (ps.map (·.name)).Nodup) (withoutBeta : Bool)
    (x : Extract.XPackageSet) (h : Extract.newPackageSet o ps withoutBeta = .ok x) (p : Package) :
    (∃ q ∈ x.packages, q.proto = p) ↔ p ∈ ps ∧ ¬ (withoutBeta = true ∧ IsBetaPackage p.name) := by
  obtain ⟨_, hpr, _, _⟩ := newPackageSet_links h
  rw [← List.mem_map, hpr, mem_basePackages hps]
  cases withoutBeta
  · simp [ignorePackage_false]
  · simp [← ignorePackage_true]

/-- C09: construction fails exactly when a package kept depends on an unknown package
(and that name is not a beta package being filtered out). -/
theorem C09_fails_iff (o : Order) (ps : PackageSet) (hps : (ps.map (·.name)).Nodup)
    (hok : ∀ p ∈ ps, PackageOK p) (withoutBeta : Bool) :
    (∃ e, Extract.newPackageSet o ps withoutBeta = .error e) ↔
      ∃ p ∈ ps, ¬ (withoutBeta = true ∧ IsBetaPackage p.name) ∧ ∃ d ∈ p.dependencyNames,
        (∀ q ∈ ps, q.name ≠ d) ∧ ¬ (withoutBeta = true ∧ IsBetaPackage d) := by
  have hig : ∀ d, Extract.ignorePackage withoutBeta d = false ↔ ¬ (withoutBeta = true ∧ IsBetaPackage d) := by
    intro d
    cases withoutBeta
    · simp [ignorePackage_false]
    · simp [← ignorePackage_true]
  constructor
  · rintro ⟨e, he⟩
    refine Classical.byContradiction fun hno => ?_
    obtain ⟨x, hx⟩ := newPackageSet_isOk o hps hok withoutBeta (by
      intro p hp hpi d hd hdi
      refine Classical.byContradiction fun hq => ?_
      exact hno ⟨p, hp, (hig _).1 hpi, d, hd, fun q hq' hn => hq ⟨q, hq', hn⟩, (hig _).1 hdi⟩)
    rw [he] at hx
    cases hx
  · rintro ⟨p, hp, hpb, d, hd, hq, hdb⟩
    cases hx : Extract.newPackageSet o ps withoutBeta with
    | error e => exact ⟨e, rfl⟩
    | ok x =>
      obtain ⟨_, hpr, _, hres⟩ := newPackageSet_links hx
      obtain ⟨p', hp', rfl⟩ := (C09_packages o ps hps withoutBeta x hx p).2 ⟨hp, hpb⟩
      rcases hres p' hp' d hd with h | h
      · obtain ⟨q, hqm, hn⟩ := List.mem_map.1 h
        have := (C09_packages o ps hps withoutBeta x hx q.proto).1 ⟨q, hqm, rfl⟩
        exact absurd hn (hq _ this.1)
      · rw [(hig d).2 hdb] at h
        cases h

example : (Extract.newPackageSet Order.id betaDep false).toBool = true ∧
    (betaDep.map (·.name)).Nodup := by decide
example : (Extract.newPackageSet Order.id [⟨s%"a.v1", [s%"b.v1"], [], [], []⟩] true).toBool = false := by
  decide

end Verif.Props
