import Verif.Proof.BreakingRun

/-! # Nothing to report means compatible -/

namespace Verif.Proof.Breaking

open Verif Reflect Spec Proof.Extract

variable {P Q : List Package}

theorem oneofOf_some {m : Message} (hm : MessageOK m) {n : Int} {w : Oneof} (hw : w ∈ m.oneofs)
    (hn : n ∈ w.fieldNumbers) : oneofOf m n = some w.name := by
  unfold oneofOf
  cases hf : m.oneofs.find? fun w => decide (n ∈ w.fieldNumbers) with
  | none =>
    rw [List.find?_eq_none] at hf
    exact absurd (by simpa using hn) (hf w hw)
  | some v =>
    have hv := List.mem_of_find?_eq_some hf
    have hvn : n ∈ v.fieldNumbers := by simpa using List.find?_some hf
    rw [hm.oneof_unique v hv w hw n hvn hn]
    rfl

theorem mem_of_oneofOf {m : Message} {n : Int} {name : Str} (h : oneofOf m n = some name) :
    ∃ w ∈ m.oneofs, n ∈ w.fieldNumbers ∧ w.name = name := by
  unfold oneofOf at h
  cases hf : m.oneofs.find? fun w => decide (n ∈ w.fieldNumbers) with
  | none => rw [hf] at h; cases h
  | some v =>
    rw [hf] at h
    exact ⟨v, List.mem_of_find?_eq_some hf, by simpa using List.find?_some hf, by simpa using h⟩

/-- The message around a nested one. -/
theorem messageAt_parent {ms : List Message} {path : List Str} {m : Message} (h : MessageAt ms path m) :
    ∃ scope, path = scope ++ [m.name] ∧ (scope = [] ∨ ∃ n, MessageAt ms scope n) := by
  induction h with
  | here hm => exact ⟨[], rfl, .inl rfl⟩
  | inside hm _ ih =>
    obtain ⟨scope, rfl, h⟩ := ih
    refine ⟨_ :: scope, rfl, .inr ?_⟩
    rcases h with rfl | ⟨n, hn⟩
    · exact ⟨_, .here hm⟩
    · exact ⟨n, .inside hm hn⟩

/-- The compared packages are compatible. -/
def Kept (P Q : List Package) : Prop := ∀ p ∈ P, ∃ q ∈ Q, q.name = p.name ∧ PackageKept p q

theorem messageAt_of_not_reported {p q : Package} (hpq : PackagePair P Q p q)
    (h : ∀ id msg, ¬ Reported P Q id msg) :
    ∀ (k : Nat) (path : List Str), path.length = k → ∀ m, MessageAt p.messages path m →
      ∃ m', MessageAt q.messages path m' := by
  intro k
  induction k with
  | zero =>
    intro path hk m hm
    cases path with
    | nil => cases hm
    | cons _ _ => simp at hk
  | succ k ih =>
    intro path hk m hm
    obtain ⟨scope, rfl, hs⟩ := messageAt_parent hm
    have hq : ScopeAt q scope := by
      rcases hs with rfl | ⟨n, hn⟩
      · exact .inl rfl
      · exact .inr (ih scope (by simpa using hk) n hn)
    refine Classical.byContradiction fun hno => ?_
    exact h _ _ (.messageDeleted hpq hm hq fun m' hm' => hno ⟨m', hm'⟩)

theorem kept_of_not_reported (R : Ready P Q) (h : ∀ id msg, ¬ Reported P Q id msg) : Kept P Q := by
  intro p hp
  have hq : ∃ q ∈ Q, q.name = p.name := by
    refine Classical.byContradiction fun hno => ?_
    exact h _ _ (.packageDeleted hp fun q hq he => hno ⟨q, hq, he⟩)
  obtain ⟨q, hq, hn⟩ := hq
  have hpq : PackagePair P Q p q := ⟨hp, hq, hn⟩
  have hmsg := messageAt_of_not_reported hpq h
  refine ⟨q, hq, hn, ⟨?_, ?_, ?_⟩⟩
  · intro path m hm
    obtain ⟨m', hm'⟩ := hmsg _ path rfl m hm
    refine ⟨m', hm', ?_⟩
    have hmm : MessagePair P Q (fullName p.name path) m m' := ⟨p, q, path, hpq, hm, hm', rfl⟩
    have ok := messageOK_left R hmm
    have ok' := messageOK_right R hmm
    refine ⟨?_, ?_⟩
    · intro f hf
      have hf' : ∃ f' ∈ m'.fields, f'.number = f.number := by
        refine Classical.byContradiction fun hno => ?_
        exact h _ _ (.fieldDeleted hmm hf fun f' hf' he => hno ⟨f', hf', he⟩)
      obtain ⟨f', hf', hnum⟩ := hf'
      have hff : FieldPair P Q (fullName p.name path) f f' := ⟨m, m', hmm, hf, hf', hnum⟩
      refine ⟨f', hf', ⟨hnum, ?_, ?_, ?_, ?_⟩, ?_⟩
      · exact Classical.byContradiction fun hno => h _ _ (.fieldRenamed hff fun e => hno e.symm)
      · exact Classical.byContradiction fun hno => h _ _ (.fieldLabelChanged hff fun e => hno e.symm)
      · exact Classical.byContradiction fun hno => h _ _ (.fieldTypeChanged hff fun e => hno e.symm)
      · intro ht
        have htype : f.type = f'.type :=
          Classical.byContradiction fun hno => h _ _ (.fieldTypeChanged hff hno)
        exact Classical.byContradiction fun hno =>
          h _ _ (.fieldTypeNameChanged hff htype ht fun e => hno e.symm)
      · cases ho : oneofOf m f.number with
        | none =>
          cases ho' : oneofOf m' f.number with
          | none => rfl
          | some w => exact absurd (.fieldMovedIntoOneof hmm hf hf' hnum ho ho') (h _ _)
        | some w =>
          obtain ⟨v, hv, hvn, rfl⟩ := mem_of_oneofOf ho
          have hv' : ∃ v' ∈ m'.oneofs, v'.name = v.name := by
            refine Classical.byContradiction fun hno => ?_
            exact h _ _ (.oneofDeleted hmm hv fun w' hw' he => hno ⟨w', hw', he⟩)
          obtain ⟨v', hv', hvname⟩ := hv'
          have : f.number ∈ v'.fieldNumbers := Classical.byContradiction fun hno =>
            h _ _ (.fieldRemovedFromOneof hmm hv hv' hvname hvn hno)
          rw [oneofOf_some ok' hv' this, hvname]
    · intro w hw
      refine Classical.byContradiction fun hno => ?_
      exact h _ _ (.oneofDeleted hmm hw fun w' hw' he => hno ⟨w', hw', he⟩)
  · intro scope e he
    have hs : ScopeAt q scope := by
      cases he with
      | top _ => exact .inl rfl
      | nested hm _ => exact .inr (hmsg _ scope rfl _ hm)
    have he' : ∃ e', EnumAt q scope e' ∧ e'.name = e.name := by
      refine Classical.byContradiction fun hno => ?_
      exact h _ _ (.enumDeleted hpq he hs fun e' he' hne => hno ⟨e', he', hne⟩)
    obtain ⟨e', he', hname⟩ := he'
    have hee : EnumPair P Q (fullName p.name (scope ++ [e.name])) e e' :=
      ⟨p, q, scope, hpq, he, he', hname, rfl⟩
    refine ⟨e', he', hname, ?_⟩
    intro n a ha
    cases ha' : knownAs e' n with
    | none => exact absurd (.enumValueDeleted hee ha ha') (h _ _)
    | some b =>
      have : a = b := Classical.byContradiction fun hne => h _ _ (.enumValueRenamed hee ha ha' hne)
      rw [this]
  · intro s hs
    have hs' : ∃ s' ∈ q.services, s'.name = s.name := by
      refine Classical.byContradiction fun hno => ?_
      exact h _ _ (.serviceDeleted hpq hs fun s' hs' he => hno ⟨s', hs', he⟩)
    obtain ⟨s', hs', hname⟩ := hs'
    have hss : ServicePair P Q (fullName p.name [s.name]) s s' := ⟨p, q, hpq, hs, hs', hname, rfl⟩
    refine ⟨s', hs', hname, ?_⟩
    intro m hm
    have hm' : ∃ m' ∈ s'.methods, m'.name = m.name := by
      refine Classical.byContradiction fun hno => ?_
      exact h _ _ (.methodDeleted hss hm fun m' hm' he => hno ⟨m', hm', he⟩)
    obtain ⟨m', hm', hmn⟩ := hm'
    have hmm : MethodPair P Q (fullName p.name [s.name]) m m' := ⟨s, s', hss, hm, hm', hmn⟩
    have h1 : m.requestTypeName = m'.requestTypeName :=
      Classical.byContradiction fun hno => h _ _ (.requestChanged hmm hno)
    have h2 : m.responseTypeName = m'.responseTypeName :=
      Classical.byContradiction fun hno => h _ _ (.responseChanged hmm hno)
    have h3 : m.clientStreaming = m'.clientStreaming := by
      cases ha : m.clientStreaming <;> cases hb : m'.clientStreaming
      · rfl
      · exact absurd (.clientStreamingStarted hmm ha hb) (h _ _)
      · exact absurd (.clientStreamingStopped hmm ha hb) (h _ _)
      · rfl
    have h4 : m.serverStreaming = m'.serverStreaming := by
      cases ha : m.serverStreaming <;> cases hb : m'.serverStreaming
      · rfl
      · exact absurd (.serverStreamingStarted hmm ha hb) (h _ _)
      · exact absurd (.serverStreamingStopped hmm ha hb) (h _ _)
      · rfl
    have : m = m' := by cases m; cases m'; simp_all
    rw [this]; exact hm'

theorem Ready.pair_unique (R : Ready P Q) {p q q' : Package} (h : PackagePair P Q p q) (hq : q' ∈ Q)
    (hn : q'.name = p.name) : q' = q :=
  eq_of_key_eq R.names hq h.2.1 (hn.trans h.2.2.symm)

theorem message_kept (R : Ready P Q) (hk : Kept P Q) {name : Str} {m m' : Message}
    (h : MessagePair P Q name m m') : MessageKept m m' := by
  obtain ⟨p, q, path, hpq, hm, hm', rfl⟩ := h
  obtain ⟨q', hq', hn, hkept⟩ := hk p hpq.1
  rw [R.pair_unique hpq hq' hn] at hkept
  obtain ⟨m'', hm'', hmk⟩ := hkept.messages path m hm
  rw [messageAt_unique (distinct_of_ok (R.right q hpq.2.1)) hm' hm'']
  exact hmk

theorem field_kept (R : Ready P Q) (hk : Kept P Q) {name : Str} {f f' : Field}
    (h : FieldPair P Q name f f') : FieldKept f f' := by
  obtain ⟨m, m', hmm, hf, hf', hn⟩ := h
  obtain ⟨f'', hf'', hkept, _⟩ := (message_kept R hk hmm).fields f hf
  rw [eq_of_key_eq (messageOK_right R hmm).field_numbers hf' hf'' (hn.trans hkept.number.symm)]
  exact hkept

theorem enumAt_unique {q : Package} (ok : PackageOK q) {scope : List Str} {e e' : Enum}
    (h : EnumAt q scope e) (h' : EnumAt q scope e') (hn : e.name = e'.name) : e = e' := by
  cases h with
  | top he =>
    cases h' with
    | top he' => exact eq_of_key_eq ok.enum_names he he' hn
    | nested hm _ => cases hm
  | nested hm he =>
    cases h' with
    | top he' => cases hm
    | nested hm' he' =>
      rw [messageAt_unique (distinct_of_ok ok) hm' hm] at he'
      exact eq_of_key_eq (ok.messages _ _ hm).enum_names he he' hn

theorem enum_kept (R : Ready P Q) (hk : Kept P Q) {name : Str} {e e' : Enum}
    (h : EnumPair P Q name e e') : EnumKept e e' := by
  obtain ⟨p, q, scope, hpq, he, he', hee, rfl⟩ := h
  obtain ⟨q', hq', hn, hkept⟩ := hk p hpq.1
  rw [R.pair_unique hpq hq' hn] at hkept
  obtain ⟨e'', he'', hn'', hek⟩ := hkept.enums scope e he
  rw [enumAt_unique (R.right q hpq.2.1) he' he'' (hee.trans hn''.symm)]
  exact hek

theorem service_kept (R : Ready P Q) (hk : Kept P Q) {name : Str} {s s' : Service}
    (h : ServicePair P Q name s s') : ServiceKept s s' := by
  obtain ⟨p, q, hpq, hs, hs', hss, rfl⟩ := h
  obtain ⟨q', hq', hn, hkept⟩ := hk p hpq.1
  rw [R.pair_unique hpq hq' hn] at hkept
  obtain ⟨s'', hs'', hn'', hsk⟩ := hkept.services s hs
  rw [eq_of_key_eq (R.right q hpq.2.1).service_names hs' hs'' (hss.trans hn''.symm)]
  exact hsk

theorem method_kept (R : Ready P Q) (hk : Kept P Q) {name : Str} {m m' : Method}
    (h : MethodPair P Q name m m') : m' = m := by
  obtain ⟨s, s', hss, hm, hm', hmm⟩ := h
  exact eq_of_key_eq (methods_nodup R hss) hm' (service_kept R hk hss m hm) hmm

theorem not_reported_of_kept (R : Ready P Q) (hk : Kept P Q) (id msg : Str) : ¬ Reported P Q id msg := by
  intro h
  cases h with
  | packageDeleted hp hno =>
    obtain ⟨q, hq, hn, _⟩ := hk _ hp
    exact hno q hq hn
  | messageDeleted hpq hm _ hno =>
    obtain ⟨q', hq', hn, hkept⟩ := hk _ hpq.1
    rw [R.pair_unique hpq hq' hn] at hkept
    obtain ⟨m', hm', _⟩ := hkept.messages _ _ hm
    exact hno m' hm'
  | fieldDeleted hmm hf hno =>
    obtain ⟨f', hf', hkept, _⟩ := (message_kept R hk hmm).fields _ hf
    exact hno f' hf' hkept.number
  | fieldRenamed hff hne => exact hne (field_kept R hk hff).name.symm
  | fieldLabelChanged hff hne => exact hne (field_kept R hk hff).label.symm
  | fieldTypeChanged hff hne => exact hne (field_kept R hk hff).type.symm
  | fieldTypeNameChanged hff _ ht hne => exact hne ((field_kept R hk hff).typeName ht).symm
  | fieldMovedIntoOneof hmm hf hf' hn ho ho' =>
    obtain ⟨f'', hf'', hkept, hone⟩ := (message_kept R hk hmm).fields _ hf
    rw [ho, ho'] at hone
    cases hone
  | oneofDeleted hmm hw hno =>
    obtain ⟨w', hw', hn⟩ := (message_kept R hk hmm).oneofs _ hw
    exact hno w' hw' hn
  | fieldRemovedFromOneof hmm hw hw' hn hmem hno =>
    obtain ⟨f, hf, hfn⟩ := (messageOK_left R hmm).oneof_fields _ hw _ hmem
    obtain ⟨f', hf', hkept, hone⟩ := (message_kept R hk hmm).fields f hf
    rw [hfn, oneofOf_some (messageOK_left R hmm) hw hmem] at hone
    obtain ⟨v, hv, hvn, hvname⟩ := mem_of_oneofOf hone
    rw [eq_of_key_eq (messageOK_right R hmm).oneof_names hv hw' (hvname.trans hn.symm)] at hvn
    exact hno hvn
  | enumDeleted hpq he _ hno =>
    obtain ⟨q', hq', hn, hkept⟩ := hk _ hpq.1
    rw [R.pair_unique hpq hq' hn] at hkept
    obtain ⟨e', he', hn', _⟩ := hkept.enums _ _ he
    exact hno e' he' hn'
  | enumValueDeleted hee ha ha' =>
    have := enum_kept R hk hee _ _ ha
    rw [ha'] at this; cases this
  | enumValueRenamed hee ha ha' hne =>
    have := enum_kept R hk hee _ _ ha
    rw [ha'] at this
    exact hne (Option.some.inj this).symm
  | serviceDeleted hpq hs hno =>
    obtain ⟨q', hq', hn, hkept⟩ := hk _ hpq.1
    rw [R.pair_unique hpq hq' hn] at hkept
    obtain ⟨s', hs', hn', _⟩ := hkept.services _ hs
    exact hno s' hs' hn'
  | methodDeleted hss hm hno => exact hno _ (service_kept R hk hss _ hm) rfl
  | requestChanged hmm hne => exact hne (by rw [method_kept R hk hmm])
  | responseChanged hmm hne => exact hne (by rw [method_kept R hk hmm])
  | clientStreamingStarted hmm h1 h2 => rw [method_kept R hk hmm, h1] at h2; cases h2
  | clientStreamingStopped hmm h1 h2 => rw [method_kept R hk hmm, h1] at h2; cases h2
  | serverStreamingStarted hmm h1 h2 => rw [method_kept R hk hmm, h1] at h2; cases h2
  | serverStreamingStopped hmm h1 h2 => rw [method_kept R hk hmm, h1] at h2; cases h2

end Verif.Proof.Breaking
