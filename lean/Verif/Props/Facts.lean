import Verif.Spec.Facts
import Verif.Props.Breaking
import Verif.Props.Reflect
import Verif.Props.BreakCmd

/-!
# C112: break check passes exactly if everything that was stated is still stated

The facts a schema states are in Spec/Facts. A change is clean exactly if no fact about a checked package is lost, so
only the facts count: two schemas with the same facts are interchangeable, and a change that is clean both ways changes
no fact.
-/

namespace Verif.Props

open Verif Reflect Breaking Spec Text Descriptor Proof.Breaking Proof.Extract BreakExample

theorem states_iff {ps : PackageSet} (ok : SchemaOK ps) {q : Package} (hq : q ∈ ps) {fact : Fact}
    (hn : q.name = fact.about) : States ps fact ↔ fact.trueOf q := by
  constructor
  · rintro ⟨q', hq', hn', h⟩
    rwa [eq_of_key_eq ok.names hq hq' (hn.trans hn'.symm)]
  · exact fun h => ⟨q, hq, hn, h⟩

/-- What is kept of a package keeps every fact about it. -/
theorem trueOf_of_kept {p q : Package} (k : PackageKept p q) (fact : Fact) (h : fact.trueOf p) : fact.trueOf q := by
  cases fact with
  | package => trivial
  | message _ path =>
    obtain ⟨m, hm⟩ := h
    obtain ⟨m', hm', _⟩ := k.messages path m hm
    exact ⟨m', hm'⟩
  | field _ path number name label type refersTo oneof =>
    obtain ⟨m, hm, ho, f, hf, hnum, hname, hlabel, htype, href⟩ := h
    obtain ⟨m', hm', km⟩ := k.messages path m hm
    obtain ⟨f', hf', kf, ko⟩ := km.fields f hf
    refine ⟨m', hm', ?_, f', hf', kf.number.trans hnum, kf.name.trans hname, kf.label.trans hlabel,
      kf.type.trans htype, fun ht => ?_⟩
    · rw [← hnum, ko, hnum, ho]
    · rw [kf.typeName (by rw [htype]; exact ht), href ht]
  | oneof _ path name =>
    obtain ⟨m, hm, w, hw, hn⟩ := h
    obtain ⟨m', hm', km⟩ := k.messages path m hm
    obtain ⟨w', hw', hn'⟩ := km.oneofs w hw
    exact ⟨m', hm', w', hw', hn'.trans hn⟩
  | enum _ scope name =>
    obtain ⟨e, he, hn⟩ := h
    obtain ⟨e', he', hn', _⟩ := k.enums scope e he
    exact ⟨e', he', hn'.trans hn⟩
  | value _ scope enum number name =>
    obtain ⟨e, he, hn, hv⟩ := h
    obtain ⟨e', he', hn', ke⟩ := k.enums scope e he
    exact ⟨e', he', hn'.trans hn, ke number name hv⟩
  | service _ name =>
    obtain ⟨s, hs, hn⟩ := h
    obtain ⟨s', hs', hn', _⟩ := k.services s hs
    exact ⟨s', hs', hn'.trans hn⟩
  | method _ service method =>
    obtain ⟨s, hs, hn, hm⟩ := h
    obtain ⟨s', hs', hn', ks⟩ := k.services s hs
    exact ⟨s', hs', hn'.trans hn, ks method hm⟩

/-- If every fact about a package is kept, then the package is. -/
theorem kept_of_trueOf {p q : Package} (ok : PackageOK q)
    (h : ∀ fact : Fact, fact.about = p.name → fact.trueOf p → fact.trueOf q) : PackageKept p q := by
  have unique : ∀ {path m m'}, MessageAt q.messages path m → MessageAt q.messages path m' → m = m' :=
    fun h h' => messageAt_unique (distinct_of_ok ok) h h'
  refine ⟨?_, ?_, ?_⟩
  · intro path m hm
    obtain ⟨m', hm'⟩ := h (.message p.name path) rfl ⟨m, hm⟩
    refine ⟨m', hm', ?_, ?_⟩
    · intro f hf
      obtain ⟨m'', hm'', ho, f', hf', h1, h2, h3, h4, h5⟩ :=
        h (.field p.name path f.number f.name f.label f.type f.typeName (oneofOf m f.number)) rfl
          ⟨m, hm, rfl, f, hf, rfl, rfl, rfl, rfl, fun _ => rfl⟩
      rw [unique hm'' hm'] at ho hf'
      exact ⟨f', hf', ⟨h1, h2, h3, h4, h5⟩, ho⟩
    · intro w hw
      obtain ⟨m'', hm'', w', hw', hn⟩ := h (.oneof p.name path w.name) rfl ⟨m, hm, w, hw, rfl⟩
      rw [unique hm'' hm'] at hw'
      exact ⟨w', hw', hn⟩
  · intro scope e he
    obtain ⟨e', he', hn⟩ := h (.enum p.name scope e.name) rfl ⟨e, he, rfl⟩
    refine ⟨e', he', hn, fun number name hk => ?_⟩
    obtain ⟨e'', he'', hn', hk'⟩ := h (.value p.name scope e.name number name) rfl ⟨e, he, rfl, hk⟩
    rwa [enumAt_unique ok he'' he' (hn'.trans hn.symm)] at hk'
  · intro s hs
    obtain ⟨s', hs', hn⟩ := h (.service p.name s.name) rfl ⟨s, hs, rfl⟩
    refine ⟨s', hs', hn, fun m hm => ?_⟩
    obtain ⟨s'', hs'', hn', hm'⟩ := h (.method p.name s.name m) rfl ⟨s, hs, rfl, hm⟩
    rwa [eq_of_key_eq ok.service_names hs'' hs' (hn'.trans hn.symm)] at hm'

theorem compatible_iff_states {scope : Str → Prop} {old new : PackageSet} (ho : SchemaOK old) (hn : SchemaOK new) :
    Compatible scope old new ↔ StatesAll scope old new := by
  constructor
  · rintro h fact hs ⟨p, hp, hpn, ht⟩
    obtain ⟨q, hq, hqn, k⟩ := h p hp (by rw [hpn]; exact hs)
    exact ⟨q, hq, hqn.trans hpn, trueOf_of_kept k fact ht⟩
  · intro h p hp hs
    obtain ⟨q, hq, hqn, _⟩ := h (.package p.name) hs ⟨p, hp, rfl, trivial⟩
    refine ⟨q, hq, hqn, kept_of_trueOf (hn.packages q hq) fun fact hf ht => ?_⟩
    exact (states_iff hn hq (hqn.trans hf.symm)).1 (h fact (by rw [hf]; exact hs) ⟨p, hp, hf.symm, ht⟩)

/-- C112: break check is clean exactly if every fact that was stated about a checked package is still stated (and, in
the default beta mode, no stable package depends on a beta package). -/
theorem C112_clean_iff_stated (o : Order) (config : BreakConfig) (old new : PackageSet) (ho : SchemaOK old)
    (hn : SchemaOK new) :
    breakCheck o config old new = .ok [] ↔
      StatesAll (Checked config.includeBeta) old new ∧
      (config.includeBeta = false → config.allowBetaDeps = false → NoBetaDependencies new) := by
  rw [C01_clean_iff_compatible o config old new ho hn, compatible_iff_states ho hn]

/-- Non-vacuity: a fact of `v1` that `broken` does not state, so that the check is not clean. -/
example : States v1 (.field s%"foo.v1" [s%"Foo"] 1 s%"a" 1 5 [] none) ∧
    ¬ States broken (.field s%"foo.v1" [s%"Foo"] 1 s%"a" 1 5 [] none) := by
  constructor
  · exact ⟨_, .head _, rfl, _, .here (.head _), rfl, _, .head _, rfl, rfl, rfl, rfl, fun _ => rfl⟩
  · intro h
    rw [states_iff broken_ok (.head _) rfl] at h
    obtain ⟨m, hm, _, f, hf, hnum, hname, _⟩ := h
    rw [messageAt_unique (distinct_of_ok (broken_ok.packages _ (.head _))) hm (.here (.head _))] at hf
    simp only [Message.fields, List.mem_cons, List.not_mem_nil, or_false] at hf
    rcases hf with rfl | rfl
    · exact absurd hname (by decide)
    · exact absurd hnum (by decide)
example : breakCheck Order.id ⟨false, false⟩ v1 v2 = .ok [] := by rfl

/-- C112: a change that is clean in both directions changes no fact about a checked package. -/
theorem C112_both_ways (o o' : Order) (config : BreakConfig) (a b : PackageSet) (ha : SchemaOK a) (hb : SchemaOK b)
    (hab : breakCheck o config a b = .ok []) (hba : breakCheck o' config b a = .ok []) (fact : Fact)
    (hc : Checked config.includeBeta fact.about) : States a fact ↔ States b fact :=
  ⟨((C112_clean_iff_stated o config a b ha hb).1 hab).1 fact hc,
    ((C112_clean_iff_stated o' config b a hb ha).1 hba).1 fact hc⟩

/-- `v1` with its packages, fields and values in another order. -/
def shuffled : PackageSet :=
  [beta, ⟨s%"foo.v1", [], [], [.mk (s%"Foo")
    [.mk (s%"Bar") [] [] [⟨s%"c", 1, 1, 11, s%"foo.v1.Foo"⟩] []]
    [⟨s%"E", [⟨s%"Y", 1⟩, ⟨s%"X", 0⟩]⟩]
    [⟨s%"b", 2, 1, 9, []⟩, ⟨s%"a", 1, 1, 5, []⟩]
    [⟨s%"w", [2]⟩]], [svc]⟩]

/-- Non-vacuity. -/
example : SchemaOK v1 ∧ SchemaOK shuffled ∧ breakCheck Order.id ⟨true, false⟩ v1 shuffled = .ok [] ∧
    breakCheck Order.id ⟨true, false⟩ shuffled v1 = .ok [] :=
  ⟨v1_ok, schemaOK_of_check (by decide), rfl, rfl⟩

/-- C112: only the facts of the old schema count: if two schemas state the same, then the same changes are clean. -/
theorem C112_old_facts (o o' : Order) (config : BreakConfig) (old old' new : PackageSet) (ho : SchemaOK old)
    (ho' : SchemaOK old') (hn : SchemaOK new)
    (h : ∀ fact : Fact, Checked config.includeBeta fact.about → (States old fact ↔ States old' fact)) :
    breakCheck o config old new = .ok [] ↔ breakCheck o' config old' new = .ok [] := by
  rw [C112_clean_iff_stated o config old new ho hn, C112_clean_iff_stated o' config old' new ho' hn]
  refine and_congr_left fun _ => ⟨fun k fact hc hs => k fact hc ((h fact hc).2 hs),
    fun k fact hc hs => k fact hc ((h fact hc).1 hs)⟩

/-- C112: a schema that is checked against several earlier ones: clean against each of them is clean against any schema
that states only what one of them states. -/
theorem C112_several (o : Order) (config : BreakConfig) (olds : List PackageSet) (old new : PackageSet)
    (ho : SchemaOK old) (hs : ∀ a ∈ olds, SchemaOK a) (hn : SchemaOK new) (hne : olds ≠ [])
    (h : ∀ fact : Fact, Checked config.includeBeta fact.about → States old fact → ∃ a ∈ olds, States a fact)
    (hclean : ∀ a ∈ olds, ∃ o', breakCheck o' config a new = .ok []) :
    breakCheck o config old new = .ok [] := by
  rw [C112_clean_iff_stated o config old new ho hn]
  constructor
  · intro fact hc hf
    obtain ⟨a, ha, hfa⟩ := h fact hc hf
    obtain ⟨o', hk⟩ := hclean a ha
    exact ((C112_clean_iff_stated o' config a new (hs a ha) hn).1 hk).1 fact hc hfa
  · obtain ⟨a, ha⟩ := List.exists_mem_of_ne_nil _ hne
    obtain ⟨o', hk⟩ := hclean a ha
    exact ((C112_clean_iff_stated o' config a new (hs a ha) hn).1 hk).2

/-- C112 over a history: if each version was clean against the one before it, then the last version states every fact
that any version ever stated about a package that is checked. -/
theorem C112_history (config : BreakConfig) (version : Nat → PackageSet) (ok : ∀ n, SchemaOK (version n)) (last : Nat)
    (o : Nat → Order) (h : ∀ n < last, breakCheck (o n) config (version n) (version (n + 1)) = .ok [])
    (i : Nat) (hi : i ≤ last) (fact : Fact) (hc : Checked config.includeBeta fact.about)
    (hs : States (version i) fact) : States (version last) fact := by
  by_cases he : i = last
  · rwa [← he]
  · have := C03_history Order.id config version ok last o h i last (by omega) (Nat.le_refl _)
    exact ((C112_clean_iff_stated _ config _ _ (ok _) (ok _)).1 this).1 fact hc hs

/-- C112 end to end: the check of two descriptor sets is clean exactly if the schema described by the second states
every fact that the schema described by the first states about a checked package. -/
theorem C112_descriptors (s : SortSlice) (o : Order) (marshal : FileDesc → Except Err Str) (config : BreakConfig)
    (frm to : List FileSet) (hff : FaithfulOn marshal fun f => f ∈ frm.flatten)
    (hft : FaithfulOn marshal fun f => f ∈ to.flatten) (hf : DescriptorsOK frm.flatten)
    (ht : DescriptorsOK to.flatten) :
    ∃ old new, DescribesSet frm.flatten old ∧ DescribesSet to.flatten new ∧
      (breakCheckSets s o marshal config frm to = .ok [] ↔
        StatesAll (Checked config.includeBeta) old new ∧
        (config.includeBeta = false → config.allowBetaDeps = false → NoBetaDependencies new)) := by
  obtain ⟨old, ho, hos⟩ := C12_schemaOK s (o.sub (s%"from")) marshal frm hff hf
  obtain ⟨new, hn, hns⟩ := C12_schemaOK s (o.sub (s%"to")) marshal to hft ht
  refine ⟨old, new, C12_describes s _ marshal frm hff old ho, C12_describes s _ marshal to hft new hn, ?_⟩
  rw [breakCheckSets_eq s o marshal config frm to old new ho hn]
  exact C112_clean_iff_stated o config old new hos hns

example : DescriptorsOK ReflectExample.old.flatten := ReflectExample.old_valid

open Exec in
/-- C112 for the command: a check against a descriptor set ends well exactly if the files state every fact that the
schema of the descriptor set states about a checked package, and otherwise exits with 255. -/
theorem C112_command (h : Exec.Host) (hp : Prints h) (hj : h.json = true → ∀ f, ∃ t, h.toJSON f = .ok t)
    (t : Tools) (args : List Str) (path : Str) (hpath : path ≠ []) (m : Meta) (sets : List FileSet)
    (w : World) (hc : CompilesTo h args { doFileDescriptorSet := true } w.disk m sets)
    (data : Str) (hd : w.disk path = some data) (set : FileSet) (hdec : t.decode data = .ok set)
    (hff : FaithfulOn t.marshal fun f => f ∈ set) (hft : FaithfulOn t.marshal fun f => f ∈ sets.flatten)
    (hf : DescriptorsOK set) (hto : DescriptorsOK sets.flatten) :
    ∃ old new, DescribesSet set old ∧ DescribesSet sets.flatten new ∧
      ((breakCheckCmd h t args [] path w).2 = .ok () ↔
        StatesAll (Checked m.protoSet.config.break_.includeBeta) old new ∧
        (m.protoSet.config.break_.includeBeta = false → m.protoSet.config.break_.allowBetaDeps = false →
          NoBetaDependencies new)) ∧
      ((breakCheckCmd h t args [] path w).2 ≠ .ok () →
        (breakCheckCmd h t args [] path w).2 = .error (.exit 255 [])) := by
  have he : [set].flatten = set := by simp
  obtain ⟨old, ho, hos⟩ := C12_schemaOK t.srt (t.order.sub (s%"from")) t.marshal [set] (by rwa [he]) (by rwa [he])
  obtain ⟨new, hn, hns⟩ := C12_schemaOK t.srt (t.order.sub (s%"to")) t.marshal sets hft hto
  have heq := breakCheckSets_eq t.srt t.order t.marshal m.protoSet.config.break_ [set] sets old new ho hn
  obtain ⟨fs, hfs, _⟩ := C06_reports t.order m.protoSet.config.break_ old new hos hns
  have hrun := C66_descriptor_set h hp hj t args path hpath m sets w hc data hd set hdec fs (heq.trans hfs)
  have hdo := C12_describes _ _ _ _ (by rwa [he]) old ho
  rw [he] at hdo
  refine ⟨old, new, hdo, C12_describes _ _ _ _ hft new hn, ?_, ?_⟩
  · rw [hrun, ← C112_clean_iff_stated t.order m.protoSet.config.break_ old new hos hns, hfs]
    show breakOutcome fs = .ok () ↔ _
    rw [(C66_exit fs).1]
    exact ⟨fun e => by rw [e], fun e => by cases e; rfl⟩
  · rw [hrun]
    show breakOutcome fs ≠ .ok () → breakOutcome fs = _
    rw [Ne, (C66_exit fs).1, (C66_exit fs).2]
    exact id

namespace FactsExample

open Exec Exec.Sample ReflectExample

/-- Tools that read the schema `old` from a file. -/
def tools : Tools := { Exec.Sample.tools with decode := fun _ => .ok old.flatten }

/-- The files with a descriptor set among them. -/
def files : World := { world with disk := Disk.set world.disk s%"/tmp/set" (some s%"set") }

/-- Non-vacuity: a check of `new` against the descriptor set of `old`. -/
example := C112_command repoHost repo_prints (by intro _ f; exact ⟨_, rfl⟩) tools [s%"a"] s%"/tmp/set" (by decide) dir
  new files ⟨⟨s%"a", .inl rfl, .inl ⟨rfl, rfl, rfl⟩⟩, ⟨_, rfl⟩, rfl⟩ s%"set" (by decide +kernel) old.flatten rfl
  old_faithful new_faithful old_valid new_valid
example : (breakCheckCmd repoHost tools [s%"a"] [] s%"/tmp/set" files).2 = .ok () := by decide +kernel

end FactsExample

end Verif.Props
