import Verif.Model.Extract
import Verif.Proof.Keyed
import Verif.Props.Version
import Verif.Spec.Breaking

/-! # The wrappers built by internal/extract for schemas accepted by protoc -/

namespace Verif.Proof.Extract

open Verif Reflect Verif.Extract Spec

/-- The oneof of a field. -/
def oneofFor (oneofs : List Oneof) (number : Int) : Option Oneof :=
  oneofs.find? fun w => number ∈ w.fieldNumbers

mutual
/-- The wrapper of a message with the given full name. -/
def wmsg : Message → Str → XMessage
  | .mk name nestedMessages nestedEnums fields oneofs, fqn =>
    .mk name fqn (nestedEnums.map fun e => newEnum e fqn) (wmsgs nestedMessages fqn)
      (kmap (fun f => f.proto.name) (fields.map fun f => ⟨f, fqn, none⟩))
      (fields.map fun f => ⟨f, fqn, oneofFor oneofs f.number⟩)
      (oneofs.map fun w => ⟨w, fqn⟩)
def wmsgs : List Message → Str → List XMessage
  | [], _ => []
  | m :: ms, enclosing => wmsg m (getFullyQualifiedName enclosing m.name) :: wmsgs ms enclosing
end

theorem wmsgs_eq (ms : List Message) (enclosing : Str) :
    wmsgs ms enclosing = ms.map fun m => wmsg m (getFullyQualifiedName enclosing m.name) := by
  induction ms with
  | nil => rfl
  | cons m ms ih => simp [wmsgs, ih]

@[simp] theorem wmsg_name (m : Message) (fqn : Str) : (wmsg m fqn).name = m.name := by
  cases m; rfl
@[simp] theorem wmsg_fqn (m : Message) (fqn : Str) : (wmsg m fqn).fqn = fqn := by
  cases m; rfl
@[simp] theorem wmsg_nested (m : Message) (fqn : Str) : (wmsg m fqn).nestedMessages =
    m.nestedMessages.map fun n => wmsg n (getFullyQualifiedName fqn n.name) := by
  cases m; simp [wmsg, XMessage.nestedMessages, wmsgs_eq, Message.nestedMessages]
@[simp] theorem wmsg_enums (m : Message) (fqn : Str) : (wmsg m fqn).nestedEnums =
    m.nestedEnums.map fun e => newEnum e fqn := by
  cases m; rfl
@[simp] theorem wmsg_fields (m : Message) (fqn : Str) : (wmsg m fqn).fieldNumberToField =
    m.fields.map fun f => ⟨f, fqn, oneofFor m.oneofs f.number⟩ := by
  cases m; rfl
@[simp] theorem wmsg_oneofs (m : Message) (fqn : Str) : (wmsg m fqn).oneofs =
    m.oneofs.map fun w => ⟨w, fqn⟩ := by
  cases m; rfl

/-! ## Linking oneofs -/

theorem setFieldOneof_ok {fields : List XField} {n : Int} {w : Oneof}
    (h : ∃ f ∈ fields, f.proto.number = n) :
    setFieldOneof fields n w = some (fields.map fun f =>
      if f.proto.number = n then { f with oneof := some w } else f) := by
  unfold setFieldOneof
  rw [if_pos]
  cases hk : kget (fun f : XField => f.proto.number) fields n with
  | some _ => rfl
  | none =>
    obtain ⟨f, hf, hn⟩ := h
    exact absurd hn (kget_eq_none.1 hk f hf)

theorem linkOneof_ok {w : Oneof} {ns : List Int} {fields : List XField}
    (h : ∀ n ∈ ns, ∃ f ∈ fields, f.proto.number = n) :
    linkOneof w ns fields = .ok (fields.map fun f =>
      if f.proto.number ∈ ns then { f with oneof := some w } else f) := by
  induction ns generalizing fields with
  | nil => simp [linkOneof]
  | cons n ns ih =>
    rw [linkOneof, setFieldOneof_ok (h n (by simp))]
    dsimp only
    rw [ih]
    · rw [List.map_map]
      congr 1
      apply List.map_congr_left
      intro f _
      by_cases h1 : f.proto.number = n <;> by_cases h2 : f.proto.number ∈ ns <;> simp [h1] <;>
        simp_all
    · intro k hk
      obtain ⟨f, hf, hn⟩ := h k (by simp [hk])
      refine ⟨_, List.mem_map_of_mem hf, ?_⟩
      split <;> simpa using hn

/-- The oneof a field has after the oneofs `ws` are linked in this order. -/
def linked (ws : List Oneof) (f : XField) : XField :=
  { f with oneof := ((ws.filter fun w => f.proto.number ∈ w.fieldNumbers).getLast?).or f.oneof }

theorem linkOneofs_ok {ws : List XOneof} {fields : List XField}
    (h : ∀ w ∈ ws, ∀ n ∈ w.proto.fieldNumbers, ∃ f ∈ fields, f.proto.number = n) :
    linkOneofs ws fields = .ok (fields.map (linked (ws.map (·.proto)))) := by
  induction ws generalizing fields with
  | nil =>
    have : linked [] = id := by funext f; simp [linked]
    simp [linkOneofs, this]
  | cons w ws ih =>
    rw [linkOneofs, linkOneof_ok (h w (by simp))]
    dsimp only
    rw [ih]
    · rw [List.map_map]
      congr 1
      apply List.map_congr_left
      intro f _
      simp only [Function.comp_apply, linked, List.map_cons, List.filter_cons]
      by_cases h1 : f.proto.number ∈ w.proto.fieldNumbers
      · simp only [h1, if_true, decide_true, List.getLast?_cons]
        cases (List.filter (fun w => decide (f.proto.number ∈ w.fieldNumbers))
          (List.map (fun x => x.proto) ws)).getLast? <;> simp
      · simp [h1]
    · intro v hv k hk
      obtain ⟨f, hf, hn⟩ := h v (by simp [hv]) k hk
      refine ⟨_, List.mem_map_of_mem hf, ?_⟩
      split <;> simpa using hn

/-- With at most one candidate the last one found is the first one found. -/
theorem getLast_filter_eq_find {ws ws' : List Oneof} (hp : ws.Perm ws') {n : Int}
    (hu : ∀ w ∈ ws', ∀ w' ∈ ws', n ∈ w.fieldNumbers → n ∈ w'.fieldNumbers → w = w') :
    (ws.filter fun w => n ∈ w.fieldNumbers).getLast? = oneofFor ws' n := by
  unfold oneofFor
  cases hf : ws'.find? fun w => decide (n ∈ w.fieldNumbers) with
  | none =>
    rw [List.find?_eq_none] at hf
    rw [List.getLast?_eq_none_iff, List.filter_eq_nil_iff]
    intro w hw
    exact hf w (hp.mem_iff.1 hw)
  | some v =>
    have hv := List.mem_of_find?_eq_some hf
    have hvn : n ∈ v.fieldNumbers := by simpa using List.find?_some hf
    cases hl : (ws.filter fun w => decide (n ∈ w.fieldNumbers)).getLast? with
    | none =>
      rw [List.getLast?_eq_none_iff, List.filter_eq_nil_iff] at hl
      exact absurd (by simpa using hvn) (hl v (hp.mem_iff.2 hv))
    | some u =>
      have hu' := List.mem_of_getLast? hl
      rw [List.mem_filter] at hu'
      rw [hu u (hp.mem_iff.1 hu'.1) v hv (by simpa using hu'.2) hvn]

theorem finishMessage_ok (o : Order) {m : Message} (hm : MessageOK m) (fqn : Str) :
    finishMessage o m fqn (m.nestedMessages.map fun n => wmsg n (getFullyQualifiedName fqn n.name)) =
      .ok (wmsg m fqn) := by
  have hw : kmap (fun w : XOneof => w.proto.name) (m.oneofs.map fun w => ⟨w, fqn⟩) =
      m.oneofs.map fun w => ⟨w, fqn⟩ := by
    apply kmap_of_nodup
    simpa [List.map_map, Function.comp_def] using hm.oneof_names
  have hf : kmap (fun f : XField => f.proto.number) (m.fields.map fun f => ⟨f, fqn, none⟩) =
      m.fields.map fun f => ⟨f, fqn, none⟩ := by
    apply kmap_of_nodup
    simpa [List.map_map, Function.comp_def] using hm.field_numbers
  have hlink := linkOneofs_ok (ws := o.ord [fqn] (m.oneofs.map fun w => (⟨w, fqn⟩ : XOneof)))
    (fields := m.fields.map fun f => ⟨f, fqn, none⟩) (by
      intro w hw n hn
      have := (o.perm _ _).mem_iff.1 hw
      obtain ⟨v, hv, rfl⟩ := List.mem_map.1 this
      obtain ⟨f, hf, he⟩ := hm.oneof_fields v hv n hn
      exact ⟨_, List.mem_map_of_mem hf, he⟩)
  unfold finishMessage
  simp only [hw, hf, hlink]
  have hn : kmap XMessage.name (m.nestedMessages.map fun n => wmsg n (getFullyQualifiedName fqn n.name)) =
      m.nestedMessages.map fun n => wmsg n (getFullyQualifiedName fqn n.name) := by
    apply kmap_of_nodup
    simpa [List.map_map, Function.comp_def] using hm.nested_names
  have he : kmap (fun e : XEnum => e.proto.name) (m.nestedEnums.map fun e => newEnum e fqn) =
      m.nestedEnums.map fun e => newEnum e fqn := by
    apply kmap_of_nodup
    simpa [List.map_map, Function.comp_def, newEnum] using hm.enum_names
  rw [hn, he]
  have hfields : List.map (linked (List.map (·.proto) (o.ord [fqn] (m.oneofs.map fun w => (⟨w, fqn⟩ : XOneof)))))
      (m.fields.map fun f => ⟨f, fqn, none⟩) =
      m.fields.map fun f => ⟨f, fqn, oneofFor m.oneofs f.number⟩ := by
    rw [List.map_map]
    apply List.map_congr_left
    intro f _
    simp only [Function.comp_apply, linked, Option.or_none]
    rw [getLast_filter_eq_find (ws' := m.oneofs)]
    · have := (o.perm [fqn] (m.oneofs.map fun w => (⟨w, fqn⟩ : XOneof))).map (·.proto)
      simpa [List.map_map, Function.comp_def] using this
    · intro w hw w' hw' h1 h2
      exact hm.oneof_unique w hw w' hw' _ h1 h2
  rw [hfields]
  cases m
  simp [wmsg, wmsgs_eq, Message.name, Message.nestedEnums, Message.nestedMessages, Message.fields,
    Message.oneofs]

mutual
theorem newMessage_ok (o : Order) : ∀ (m : Message) (enclosing : Str), MessageOK m →
    (∀ path n, MessageAt m.nestedMessages path n → MessageOK n) →
    newMessage o m enclosing = .ok (wmsg m (getFullyQualifiedName enclosing m.name))
  | .mk name nested enums fields oneofs, enclosing, hm, hn => by
    rw [newMessage, newMessages_ok o nested _ hn]
    exact finishMessage_ok o hm _

theorem newMessages_ok (o : Order) : ∀ (ms : List Message) (enclosing : Str),
    (∀ path n, MessageAt ms path n → MessageOK n) →
    newMessages o ms enclosing = .ok (ms.map fun m => wmsg m (getFullyQualifiedName enclosing m.name))
  | [], _, _ => rfl
  | m :: ms, enclosing, h => by
    have hnil : ∀ path n, MessageAt ms path n → MessageOK n := by
      intro path n hp
      cases hp with
      | here hmem => exact h _ _ (.here (List.mem_cons_of_mem _ hmem))
      | inside hmem hp => exact h _ _ (.inside (List.mem_cons_of_mem _ hmem) hp)
    rw [newMessages, newMessage_ok o m enclosing (h _ _ (.here (by simp)))
      (fun path n hp => h _ _ (.inside (by simp) hp))]
    dsimp only
    rw [newMessages_ok o ms enclosing hnil]
    rfl
end

/-! ## Packages -/

/-- The wrapper of a package, without the links to other packages. -/
def wpkg (p : Package) : XPackage :=
  { proto := p, dependencies := [], importers := []
    enums := p.enums.map fun e => newEnum e p.name
    messages := p.messages.map fun m => wmsg m (getFullyQualifiedName p.name m.name)
    services := p.services.map fun s =>
      { proto := s, fqn := getFullyQualifiedName p.name s.name
        methods := s.methods.map fun m => ⟨m, getFullyQualifiedName p.name s.name⟩ } }

/-- Forgets the links. -/
def strip (p : XPackage) : XPackage := { p with dependencies := [], importers := [] }

theorem fillPackage_ok (o : Order) {p : XPackage} (hp : PackageOK p.proto) :
    fillPackage o p = .ok { wpkg p.proto with dependencies := p.dependencies, importers := p.importers } := by
  unfold fillPackage
  rw [newMessages_ok o _ _ hp.messages]
  dsimp only
  have h1 : kmap (fun e : XEnum => e.proto.name) (p.proto.enums.map fun e => newEnum e p.proto.name) =
      p.proto.enums.map fun e => newEnum e p.proto.name := by
    apply kmap_of_nodup
    simpa [List.map_map, Function.comp_def, newEnum] using hp.enum_names
  have h2 : kmap XMessage.name (p.proto.messages.map fun n =>
      wmsg n (getFullyQualifiedName p.proto.name n.name)) =
      p.proto.messages.map fun n => wmsg n (getFullyQualifiedName p.proto.name n.name) := by
    apply kmap_of_nodup
    simpa [List.map_map, Function.comp_def] using hp.message_names
  have h3 : kmap (fun s : XService => s.proto.name) (p.proto.services.map fun s => newService s p.proto.name) =
      p.proto.services.map fun s => newService s p.proto.name := by
    apply kmap_of_nodup
    simpa [List.map_map, Function.comp_def, newService] using hp.service_names
  have h4 : (p.proto.services.map fun s => newService s p.proto.name) = (wpkg p.proto).services := by
    apply List.map_congr_left
    intro s hs
    simp only [newService, XService.mk.injEq, true_and]
    apply kmap_of_nodup
    simpa [List.map_map, Function.comp_def] using hp.method_names s hs
  rw [h1, h2, h3, h4]
  rfl

/-! ## Linking packages -/

theorem linkDependency_strip {b : Bool} {name d : Str} {ps ps' : List XPackage}
    (h : linkDependency b name ps d = .ok ps') : ps'.map strip = ps.map strip := by
  unfold linkDependency at h
  split at h
  · split at h
    · cases h; rfl
    · cases h
  · cases h
    simp only [List.map_map]
    apply List.map_congr_left
    intro p _
    simp only [Function.comp_apply]
    split <;> split <;> rfl

theorem linkDependencies_strip {b : Bool} {name : Str} {ds : List Str} {ps ps' : List XPackage}
    (h : linkDependencies b name ds ps = .ok ps') : ps'.map strip = ps.map strip := by
  induction ds generalizing ps with
  | nil => cases h; rfl
  | cons d ds ih =>
    rw [linkDependencies] at h
    split at h
    · cases h
    · rename_i h1
      rw [ih h, linkDependency_strip h1]

theorem linkPackages_strip {b : Bool} {l ps ps' : List XPackage}
    (h : linkPackages b l ps = .ok ps') : ps'.map strip = ps.map strip := by
  induction l generalizing ps with
  | nil => cases h; rfl
  | cons p l ih =>
    rw [linkPackages] at h
    split at h
    · cases h
    · rename_i h1
      rw [ih h, linkDependencies_strip h1]

theorem names_of_strip {ps ps' : List XPackage} (h : ps'.map strip = ps.map strip) :
    ps'.map (fun p => p.proto.name) = ps.map (fun p => p.proto.name) := by
  have := congrArg (List.map fun p : XPackage => p.proto.name) h
  simpa [List.map_map, Function.comp_def, strip] using this

/-- Whether linking can find the package of a dependency name. -/
def Resolves (b : Bool) (ps : List XPackage) (d : Str) : Prop :=
  d ∈ ps.map (fun p => p.proto.name) ∨ ignorePackage b d = true

theorem linkDependency_isOk {b : Bool} {name d : Str} {ps : List XPackage} (h : Resolves b ps d) :
    ∃ ps', linkDependency b name ps d = .ok ps' := by
  unfold linkDependency
  split
  · rename_i hk
    rcases h with h | h
    · obtain ⟨p, hp, hd⟩ := List.mem_map.1 h
      exact absurd hd (kget_eq_none.1 hk p hp)
    · rw [if_pos h]; exact ⟨_, rfl⟩
  · exact ⟨_, rfl⟩

theorem linkDependencies_isOk {b : Bool} {name : Str} {ds : List Str} {ps : List XPackage}
    (h : ∀ d ∈ ds, Resolves b ps d) : ∃ ps', linkDependencies b name ds ps = .ok ps' := by
  induction ds generalizing ps with
  | nil => exact ⟨_, rfl⟩
  | cons d ds ih =>
    obtain ⟨ps1, h1⟩ := linkDependency_isOk (name := name) (h d (by simp))
    rw [linkDependencies, h1]
    refine ih fun e he => ?_
    have := h e (by simp [he])
    unfold Resolves at this ⊢
    rwa [names_of_strip (linkDependency_strip h1)]

theorem linkPackages_isOk {b : Bool} {l ps : List XPackage}
    (h : ∀ p ∈ l, ∀ d ∈ p.proto.dependencyNames, Resolves b ps d) :
    ∃ ps', linkPackages b l ps = .ok ps' := by
  induction l generalizing ps with
  | nil => exact ⟨_, rfl⟩
  | cons p l ih =>
    obtain ⟨ps1, h1⟩ := linkDependencies_isOk (name := p.proto.name) (h p (by simp))
    rw [linkPackages, h1]
    refine ih fun q hq d hd => ?_
    have := h q (by simp [hq]) d hd
    unfold Resolves at this ⊢
    rwa [names_of_strip (linkDependencies_strip h1)]

theorem ignorePackage_true {name : Str} : ignorePackage true name = true ↔ IsBetaPackage name := by
  unfold ignorePackage IsBetaPackage
  simp only [Bool.not_true, Bool.false_eq_true, if_false]
  cases h : Protostrs.majorBetaVersion name with
  | none =>
    simp only [Bool.false_eq_true, false_iff]
    rintro ⟨a, b, hab, _⟩
    rw [(Props.C13_majorBetaVersion name a b).2 hab] at h
    cases h
  | some p =>
    have hp := (Props.C13_majorBetaVersion name p.1 p.2).1 h
    simp only [decide_eq_true_eq]
    constructor
    · intro hb; exact ⟨_, _, hp, hb⟩
    · rintro ⟨a, b, hab, hb⟩
      rw [(Props.C13_unique name _ _ _ _ hp hab).2]
      exact hb

theorem ignorePackage_false {name : Str} : ignorePackage false name = false := rfl

theorem ignorePackage_not {b : Bool} {name : Str} :
    ignorePackage (!b) name = false ↔ Checked b name := by
  cases b
  · simp only [Bool.not_false, Checked, Bool.false_eq_true, false_or, ← ignorePackage_true]
    simp
  · simp [ignorePackage, Checked]

/-- The packages that are wrapped. -/
def kept (b : Bool) (ps : PackageSet) : PackageSet := ps.filter fun p => !ignorePackage b p.name

theorem basePackages_eq {b : Bool} {ps : PackageSet} (h : (ps.map (·.name)).Nodup) :
    basePackages b ps = (kept b ps).map fun p => ⟨p, [], [], [], [], []⟩ := by
  unfold basePackages
  apply kmap_of_nodup
  simp only [List.map_map, Function.comp_def]
  exact h.sublist ((List.filter_sublist).map _)

/-- The wrapper of packages whose dependencies resolve: whatever the iteration order,
construction succeeds and the result is determined, except for the listing order of
the links. -/
theorem newPackageSet_wraps (o : Order) {ps : PackageSet} (hnames : (ps.map (·.name)).Nodup)
    (hok : ∀ p ∈ ps, PackageOK p) (b : Bool)
    (hdeps : ∀ p ∈ ps, ignorePackage b p.name = false → ∀ d ∈ p.dependencyNames,
      ignorePackage b d = false → ∃ q ∈ ps, q.name = d) :
    ∃ x, newPackageSet o ps b = .ok x ∧ x.proto = ps ∧
      x.packages.map strip = (kept b ps).map wpkg := by
  have hb := basePackages_eq (b := b) hnames
  obtain ⟨linked, hl⟩ := linkPackages_isOk (b := b) (l := o.ord [s%"link"] (basePackages b ps))
    (ps := basePackages b ps) (by
      intro p hp d hd
      have hp := (o.perm _ _).mem_iff.1 hp
      rw [hb] at hp
      obtain ⟨p, hpk, rfl⟩ := List.mem_map.1 hp
      have hpm := (List.mem_filter.1 hpk).1
      unfold Resolves
      by_cases hi : ignorePackage b d = true
      · exact .inr hi
      · obtain ⟨q, hq, hqd⟩ := hdeps p hpm (by simpa using (List.mem_filter.1 hpk).2) d hd
          (by simpa using hi)
        refine .inl ?_
        rw [hb]
        simp only [List.map_map, Function.comp_def, List.mem_map]
        refine ⟨q, List.mem_filter.2 ⟨hq, ?_⟩, hqd⟩
        simpa [hqd] using hi)
  have hs := linkPackages_strip hl
  have hproto : ∀ p ∈ linked, PackageOK p.proto := by
    intro p hp
    have : strip p ∈ linked.map strip := List.mem_map_of_mem hp
    rw [hs, hb] at this
    simp only [List.map_map, Function.comp_def, List.mem_map] at this
    obtain ⟨q, hq, he⟩ := this
    have : p.proto = q := by
      have := congrArg XPackage.proto he
      simpa [strip] using this.symm
    rw [this]
    exact hok q (List.mem_filter.1 hq).1
  have hfill := mapLoop_ok o [s%"fill"] linked
    (fun p => { wpkg p.proto with dependencies := p.dependencies, importers := p.importers })
    (fillPackage o) (fun p hp => fillPackage_ok o (hproto p hp))
  refine ⟨⟨ps, linked.map
    (fun p => { wpkg p.proto with dependencies := p.dependencies, importers := p.importers })⟩,
    ?_, rfl, ?_⟩
  · unfold newPackageSet
    simp only [hl]
    rw [hfill]
  · have : linked.map (fun p => p.proto) = kept b ps := by
      have := congrArg (List.map fun p : XPackage => p.proto) hs
      rw [hb] at this
      simpa [List.map_map, Function.comp_def, strip] using this
    rw [← this]
    simp only [List.map_map, Function.comp_def]
    rfl

theorem newPackageSet_ok (o : Order) {ps : PackageSet} (hps : SchemaOK ps) (b : Bool) :
    ∃ x, newPackageSet o ps b = .ok x ∧ x.proto = ps ∧
      x.packages.map strip = (kept b ps).map wpkg :=
  newPackageSet_wraps o hps.names hps.packages b fun p hp _ d hd _ => hps.dependencies p hp d hd

theorem newPackageSet_isOk (o : Order) {ps : PackageSet} (hnames : (ps.map (·.name)).Nodup)
    (hok : ∀ p ∈ ps, PackageOK p) (b : Bool)
    (hdeps : ∀ p ∈ ps, ignorePackage b p.name = false → ∀ d ∈ p.dependencyNames,
      ignorePackage b d = false → ∃ q ∈ ps, q.name = d) :
    ∃ x, newPackageSet o ps b = .ok x :=
  let ⟨x, h, _⟩ := newPackageSet_wraps o hnames hok b hdeps
  ⟨x, h⟩

end Verif.Proof.Extract
