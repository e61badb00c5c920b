import Verif.Proof.Yields
import Verif.Spec.BreakingReports

/-! # What each check reports -/

namespace Verif.Proof.Breaking

open Verif Reflect Verif.Extract Verif.Breaking Text Spec Proof.Extract

/-- The wrapped packages, without links. -/
def ws (ps : List Package) : XPackageSet := ⟨[], ps.map wpkg⟩

/-- What is used of two lists of packages that are compared. -/
structure Ready (P Q : List Package) : Prop where
  names : (Q.map (·.name)).Nodup
  left : ∀ p ∈ P, PackageOK p
  right : ∀ q ∈ Q, PackageOK q

theorem distinct_of_ok {p : Package} (h : PackageOK p) : DistinctNames p.messages :=
  ⟨h.message_names, fun path m hm => (h.messages path m hm).nested_names⟩

theorem fullName_append (pkg : Str) (path rest : List Str) :
    fullName pkg (path ++ rest) = fullName (fullName pkg path) rest := by
  induction path generalizing pkg with
  | nil => rfl
  | cons n path ih => exact ih _

theorem fullName_ne_nil {pkg : Str} (h : pkg ≠ []) (path : List Str) : fullName pkg path ≠ [] := by
  induction path generalizing pkg with
  | nil => exact h
  | cons n path ih => exact ih (by simp)

theorem gfn_eq {enclosing : Str} (h : enclosing ≠ []) (name : Str) :
    getFullyQualifiedName enclosing name = fullName enclosing [name] := by
  simp [getFullyQualifiedName, h, fullName]

/-- The wrapper of an enum with the given full name. -/
def wenum (e : Enum) (name : Str) : XEnum :=
  { proto := e, fqn := name
    valueNameToValue := kmap (fun v => v.proto.name) (e.values.map fun v => ⟨v, name⟩)
    valueNumberToValue := kmap (fun v => v.proto.number) (e.values.map fun v => ⟨v, name⟩) }

theorem newEnum_eq {enclosing : Str} (h : enclosing ≠ []) (e : Enum) :
    newEnum e enclosing = wenum e (fullName enclosing [e.name]) := by
  simp [newEnum, wenum, gfn_eq h]

/-- The wrapper of a service with the given full name. -/
def wservice (s : Service) (name : Str) : XService :=
  { proto := s, fqn := name, methods := s.methods.map fun m => ⟨m, name⟩ }

section
variable {P Q : List Package} (R : Ready P Q) (o : Order) (site : Site)
include R

theorem packagePairs {f : Site → XPackage → XPackage → Res} {T : Package → Package → Claim}
    (h : ∀ site p q, PackagePair P Q p q → Yields (f site (wpkg p) (wpkg q)) (T p q)) :
    Yields (forEachPackagePair o site (ws P) (ws Q) f)
      (fun x => ∃ p q, PackagePair P Q p q ∧ T p q x) := by
  unfold forEachPackagePair
  refine (yields_loop_both o site (l := P) (l' := Q) (u := wpkg) (v := wpkg)
    (key := fun q => q.proto.name) (k := fun q => q.proto.name)
    (g := fun p q => f (s%"package" :: p.proto.name :: site) p q) (T := T) R.names
    (fun p hp q hq hpq => h _ p q ⟨hp, hq, hpq⟩)).congr fun x => ?_
  constructor
  · rintro ⟨p, hp, q, hq, he, hT⟩; exact ⟨p, q, ⟨hp, hq, he⟩, hT⟩
  · rintro ⟨p, q, ⟨hp, hq, he⟩, hT⟩; exact ⟨p, hp, q, hq, he, hT⟩

theorem messagePairs {f : Site → XMessage → XMessage → Res} {T : Str → Message → Message → Claim}
    (h : ∀ site name m m', MessagePair P Q name m m' →
      Yields (f site (wmsg m name) (wmsg m' name)) (T name m m')) :
    Yields (forEachMessagePair o site (ws P) (ws Q) f)
      (fun x => ∃ name m m', MessagePair P Q name m m' ∧ T name m m' x) := by
  unfold forEachMessagePair
  refine (packagePairs R o site (T := fun p q x => ∃ path m m', MessageAt p.messages path m ∧
    MessageAt q.messages path m' ∧ T (fullName p.name path) m m' x) ?_).congr fun x => ?_
  · intro site p q hpq
    have hname := (R.left p hpq.1).name
    have := messagePairs_yields o f p.messages q.messages p.name site
      (fun path a b => T (fullName p.name path) a b) (distinct_of_ok (R.right q hpq.2.1)) (by
        intro site path a b ha hb
        rw [fq_eq_fullName hname]
        exact h site _ a b ⟨p, q, path, hpq, ha, hb, rfl⟩)
    simpa [wpkg, hpq.2.2] using this
  · constructor
    · rintro ⟨p, q, hpq, path, m, m', hm, hm', hT⟩
      exact ⟨_, m, m', ⟨p, q, path, hpq, hm, hm', rfl⟩, hT⟩
    · rintro ⟨_, m, m', ⟨p, q, path, hpq, hm, hm', rfl⟩, hT⟩
      exact ⟨p, q, hpq, path, m, m', hm, hm', hT⟩

theorem messageOK_right {name : Str} {m m' : Message} (h : MessagePair P Q name m m') : MessageOK m' := by
  obtain ⟨p, q, path, hpq, _, hm', _⟩ := h
  exact (R.right q hpq.2.1).messages path m' hm'

theorem messageOK_left {name : Str} {m m' : Message} (h : MessagePair P Q name m m') : MessageOK m := by
  obtain ⟨p, q, path, hpq, hm, _, _⟩ := h
  exact (R.left p hpq.1).messages path m hm

theorem fieldPairs {f : XField → XField → Res} {T : Str → Message → Message → Field → Field → Claim}
    (h : ∀ name m m' a b, MessagePair P Q name m m' → a ∈ m.fields → b ∈ m'.fields →
      b.number = a.number →
      Yields (f ⟨a, name, oneofFor m.oneofs a.number⟩ ⟨b, name, oneofFor m'.oneofs b.number⟩)
        (T name m m' a b)) :
    Yields (forEachMessageFieldPair o site (ws P) (ws Q) f)
      (fun x => ∃ name m m', MessagePair P Q name m m' ∧ ∃ a ∈ m.fields, ∃ b ∈ m'.fields,
        b.number = a.number ∧ T name m m' a b x) := by
  unfold forEachMessageFieldPair
  refine messagePairs R o site fun site name m m' hm => ?_
  rw [wmsg_fields, wmsg_fields]
  refine yields_loop_both o _ ?_ ?_
  · exact (messageOK_right R hm).field_numbers
  · exact fun a ha b hb hab => h name m m' a b hm ha hb hab

theorem oneofPairs {f : Site → XOneof → XOneof → Res} {T : Str → Message → Message → Oneof → Oneof → Claim}
    (h : ∀ site name m m' a b, MessagePair P Q name m m' → a ∈ m.oneofs → b ∈ m'.oneofs →
      b.name = a.name → Yields (f site ⟨a, name⟩ ⟨b, name⟩) (T name m m' a b)) :
    Yields (forEachMessageOneofPair o site (ws P) (ws Q) f)
      (fun x => ∃ name m m', MessagePair P Q name m m' ∧ ∃ a ∈ m.oneofs, ∃ b ∈ m'.oneofs,
        b.name = a.name ∧ T name m m' a b x) := by
  unfold forEachMessageOneofPair
  refine messagePairs R o site fun site name m m' hm => ?_
  rw [wmsg_oneofs, wmsg_oneofs]
  refine yields_loop_both o _ ?_ ?_
  · exact (messageOK_right R hm).oneof_names
  · exact fun a ha b hb hab => h _ name m m' a b hm ha hb hab

theorem enumPairs {f : Site → XEnum → XEnum → Res} {T : Str → Enum → Enum → Claim}
    (h : ∀ site name e e', EnumPair P Q name e e' →
      Yields (f site (wenum e name) (wenum e' name)) (T name e e')) :
    Yields (forEachEnumPair o site (ws P) (ws Q) f)
      (fun x => ∃ name e e', EnumPair P Q name e e' ∧ T name e e' x) := by
  have h1 := packagePairs R o (s%"1" :: site)
    (f := fun site p q => forEachEnumPairInternal o site p.enums q.enums f)
    (T := fun p q x => ∃ e ∈ p.enums, ∃ e' ∈ q.enums, e'.name = e.name ∧
      T (fullName p.name [e.name]) e e' x) (by
      intro site p q hpq
      unfold forEachEnumPairInternal
      have hp := (R.left p hpq.1).name
      simp only [wpkg]
      refine yields_loop_both o _ ?_ ?_
      · exact (R.right q hpq.2.1).enum_names
      · intro e he e' he' hee
        have hee : e'.name = e.name := hee
        rw [newEnum_eq hp, newEnum_eq (hpq.2.2 ▸ hp), hee, hpq.2.2]
        exact h _ _ e e' ⟨p, q, [], hpq, .top he, .top he', hee, rfl⟩)
  have h2 := messagePairs R o (s%"2" :: site)
    (f := fun site m m' => forEachEnumPairInternal o site m.nestedEnums m'.nestedEnums f)
    (T := fun name m m' x => ∃ e ∈ m.nestedEnums, ∃ e' ∈ m'.nestedEnums, e'.name = e.name ∧
      T (fullName name [e.name]) e e' x) (by
      intro site name m m' hm
      unfold forEachEnumPairInternal
      simp only [wmsg_enums]
      refine yields_loop_both o _ ?_ ?_
      · exact (messageOK_right R hm).enum_names
      · intro e he e' he' hee
        obtain ⟨p, q, path, hpq, h1, h2, rfl⟩ := hm
        have hee : e'.name = e.name := hee
        have hne : fullName p.name path ≠ [] := fullName_ne_nil (R.left p hpq.1).name path
        rw [newEnum_eq hne, newEnum_eq hne, hee]
        exact h _ _ e e' ⟨p, q, path, hpq, .nested h1 he, .nested h2 he', hee,
          (fullName_append _ _ _).symm⟩)
  refine (yields_andThen h1 h2).congr fun x => ?_
  constructor
  · rintro (⟨p, q, hpq, e, he, e', he', hee, hT⟩ | ⟨_, m, m', ⟨p, q, path, hpq, h1, h2, rfl⟩, e, he, e', he', hee, hT⟩)
    · exact ⟨_, e, e', ⟨p, q, [], hpq, .top he, .top he', hee, rfl⟩, hT⟩
    · exact ⟨_, e, e', ⟨p, q, path, hpq, .nested h1 he, .nested h2 he', hee,
          (fullName_append _ _ _).symm⟩, hT⟩
  · rintro ⟨_, e, e', ⟨p, q, scope, hpq, he, he', hee, rfl⟩, hT⟩
    cases he with
    | top he =>
      cases he' with
      | top he' => exact .inl ⟨p, q, hpq, e, he, e', he', hee, hT⟩
      | nested hm' _ => cases hm'
    | nested hm he =>
      cases he' with
      | top _ => cases hm
      | nested hm' he' =>
        exact .inr ⟨_, _, _, ⟨p, q, scope, hpq, hm, hm', rfl⟩, e, he, e', he', hee,
          by rw [← fullName_append]; exact hT⟩

theorem servicePairs {f : Site → XService → XService → Res} {T : Str → Service → Service → Claim}
    (h : ∀ site name s s', ServicePair P Q name s s' →
      Yields (f site (wservice s name) (wservice s' name)) (T name s s')) :
    Yields (forEachServicePair o site (ws P) (ws Q) f)
      (fun x => ∃ name s s', ServicePair P Q name s s' ∧ T name s s' x) := by
  unfold forEachServicePair
  refine (packagePairs R o site (T := fun p q x => ∃ s ∈ p.services, ∃ s' ∈ q.services,
    s'.name = s.name ∧ T (fullName p.name [s.name]) s s' x) ?_).congr fun x => ?_
  · intro site p q hpq
    have hp := (R.left p hpq.1).name
    simp only [wpkg]
    refine yields_loop_both o _ ?_ ?_
    · exact (R.right q hpq.2.1).service_names
    · intro s hs s' hs' hss
      have hss : s'.name = s.name := hss
      rw [gfn_eq hp, gfn_eq (hpq.2.2 ▸ hp), hss, hpq.2.2]
      exact h _ _ s s' ⟨p, q, hpq, hs, hs', hss, rfl⟩
  · constructor
    · rintro ⟨p, q, hpq, s, hs, s', hs', hss, hT⟩
      exact ⟨_, s, s', ⟨p, q, hpq, hs, hs', hss, rfl⟩, hT⟩
    · rintro ⟨_, s, s', ⟨p, q, hpq, hs, hs', hss, rfl⟩, hT⟩
      exact ⟨p, q, hpq, s, hs, s', hs', hss, hT⟩

theorem methods_nodup {name : Str} {s s' : Service} (h : ServicePair P Q name s s') :
    (s'.methods.map (·.name)).Nodup := by
  obtain ⟨p, q, hpq, _, hs', _, _⟩ := h
  exact (R.right q hpq.2.1).method_names s' hs'

theorem methodPairs {f : XMethod → XMethod → Res} {T : Str → Method → Method → Claim}
    (h : ∀ name m m', MethodPair P Q name m m' → Yields (f ⟨m, name⟩ ⟨m', name⟩) (T name m m')) :
    Yields (forEachServiceMethodPair o site (ws P) (ws Q) f)
      (fun x => ∃ name m m', MethodPair P Q name m m' ∧ T name m m' x) := by
  unfold forEachServiceMethodPair
  refine (servicePairs R o site (T := fun name s s' x => ∃ m ∈ s.methods, ∃ m' ∈ s'.methods,
    m'.name = m.name ∧ T name m m' x) ?_).congr fun x => ?_
  · intro site name s s' hs
    simp only [wservice]
    refine yields_loop_both o _ ?_ ?_
    · exact methods_nodup R hs
    · intro m hm m' hm' hmm
      exact h name m m' ⟨s, s', hs, hm, hm', hmm⟩
  · constructor
    · rintro ⟨name, s, s', hs, m, hm, m', hm', hmm, hT⟩
      exact ⟨name, m, m', ⟨s, s', hs, hm, hm', hmm⟩, hT⟩
    · rintro ⟨name, m, m', ⟨s, s', hs, hm, hm', hmm⟩, hT⟩
      exact ⟨name, s, s', hs, m, hm, m', hm', hmm, hT⟩
end

end Verif.Proof.Breaking
