import Verif.Proof.BreakingChecks

/-! # The remaining checks and the whole run -/

namespace Verif.Proof.Breaking

open Verif Reflect Verif.Extract Verif.Breaking Text Spec Proof.Extract

variable {P Q : List Package} (o : Order) (site : Site)

theorem enumsNotDeleted_yields (R : Ready P Q) : Yields (checkEnumsNotDeleted o site (ws P) (ws Q))
    (documented P Q (s%"ENUMS_NOT_DELETED")) := by
  unfold checkEnumsNotDeleted
  have h1 := packagePairs R o (s%"1" :: site)
    (f := fun site p q => checkEnumsNotDeletedMap o site p.enums q.enums)
    (T := fun p q x => ∃ e ∈ p.enums, (∀ e' ∈ q.enums, e'.name ≠ e.name) ∧
      x = some (newTextFailure (enumsNotDeletedText (getFullyQualifiedName p.name e.name)))) (by
      intro site p q hpq
      unfold checkEnumsNotDeletedMap
      simp only [wpkg]
      refine yields_loop_missing o _ ?_
      exact (R.right q hpq.2.1).enum_names)
  have h2 := messagePairs R o (s%"2" :: site)
    (f := fun site m m' => checkEnumsNotDeletedMap o site m.nestedEnums m'.nestedEnums)
    (T := fun name m m' x => ∃ e ∈ m.nestedEnums, (∀ e' ∈ m'.nestedEnums, e'.name ≠ e.name) ∧
      x = some (newTextFailure (enumsNotDeletedText (getFullyQualifiedName name e.name)))) (by
      intro site name m m' hm
      unfold checkEnumsNotDeletedMap
      simp only [wmsg_enums]
      refine yields_loop_missing o _ ?_
      exact (messageOK_right R hm).enum_names)
  refine (yields_andThen h1 h2).congr fun x => ?_
  constructor
  · rintro (⟨p, q, hpq, e, he, hn, rfl⟩ | ⟨_, m, m', ⟨p, q, path, hpq, h1, h2, rfl⟩, e, he, hn, rfl⟩)
    · rw [gfn_eq (R.left p hpq.1).name]
      refine ⟨_, .enumDeleted (scope := []) hpq (.top he) (.inl rfl) ?_, rfl⟩
      intro e' he'
      cases he' with
      | top he' => exact hn e' he'
      | nested hm _ => cases hm
    · rw [gfn_eq (fullName_ne_nil (R.left p hpq.1).name path), ← fullName_append]
      refine ⟨_, .enumDeleted hpq (.nested h1 he) (.inr ⟨m', h2⟩) ?_, rfl⟩
      intro e' he'
      cases he' with
      | top he' => cases h2
      | nested hm he' =>
        rw [messageAt_unique (distinct_of_ok (R.right q hpq.2.1)) hm h2] at he'
        exact hn e' he'
  · rintro ⟨_, h, rfl⟩
    generalize hid : s%"ENUMS_NOT_DELETED" = id at h
    cases h with
    | enumDeleted hpq he hs hn =>
      cases he with
      | top he =>
        exact .inl ⟨_, _, hpq, _, he, fun e' he' => hn e' (.top he'),
          by rw [gfn_eq (R.left _ hpq.1).name]; rfl⟩
      | nested hm he =>
        rcases hs with rfl | ⟨m', hm'⟩
        · cases hm
        · refine .inr ⟨_, _, m', ⟨_, _, _, hpq, hm, hm', rfl⟩, _, he,
            fun e' he' => hn e' (.nested hm' he'), ?_⟩
          rw [gfn_eq (fullName_ne_nil (R.left _ hpq.1).name _), ← fullName_append]
          rfl
    | _ => exact absurd hid (by decide)

/-! ## Deleted messages -/

theorem messagesNotDeletedBodies_eq (o : Order) (site : Site) (frm to : List XMessage) :
    messagesNotDeletedBodies o site frm to =
      frm.map fun m => lookupElse (kget XMessage.name to m.name)
        (addFailure (messagesNotDeletedText m.fqn))
        fun m' => messagesNotDeletedRec o site m m' := by
  induction frm with
  | nil => rfl
  | cons m ms ih => rw [messagesNotDeletedBodies, ih]; rfl

theorem messagesNotDeletedRec_eq (o : Order) (site : Site) (m m' : XMessage) :
    messagesNotDeletedRec o site m m' = loop o (s%"message" :: m.name :: site)
      (messagesNotDeletedBodies o (s%"message" :: m.name :: site) m.nestedMessages m'.nestedMessages) := by
  cases m; rfl

/-- The message at this path is gone while its scope is still there. -/
def Gone (ms ms' : List Message) (scope : List Str) (m : Message) : Prop :=
  MessageAt ms (scope ++ [m.name]) m ∧ (scope = [] ∨ ∃ n, MessageAt ms' scope n) ∧
    ∀ n, ¬ MessageAt ms' (scope ++ [m.name]) n

theorem messageAt_cons {ms : List Message} {n : Str} {path : List Str} {m : Message} :
    MessageAt ms (n :: path) m ↔
      ∃ a ∈ ms, a.name = n ∧ ((path = [] ∧ a = m) ∨ MessageAt a.nestedMessages path m) := by
  constructor
  · intro h
    generalize hp : n :: path = p at h
    cases h with
    | here hm =>
      simp only [List.cons.injEq] at hp
      exact ⟨m, hm, hp.1.symm, .inl ⟨hp.2, rfl⟩⟩
    | inside hm h =>
      simp only [List.cons.injEq] at hp
      exact ⟨_, hm, hp.1.symm, .inr (hp.2 ▸ h)⟩
  · rintro ⟨a, ha, rfl, ⟨rfl, rfl⟩ | h⟩
    · exact .here ha
    · exact .inside ha h

theorem gone_cons {ms ms' : List Message} (hd : DistinctNames ms') {T : List Str → Message → Prop} :
    (∃ scope m, Gone ms ms' scope m ∧ T scope m) ↔
      ∃ a ∈ ms, ((∀ b ∈ ms', b.name ≠ a.name) ∧ T [] a) ∨
        ∃ b ∈ ms', b.name = a.name ∧
          ∃ scope m, Gone a.nestedMessages b.nestedMessages scope m ∧ T (a.name :: scope) m := by
  constructor
  · rintro ⟨scope, m, ⟨h1, h2, h3⟩, hT⟩
    cases scope with
    | nil =>
      rw [List.nil_append, messageAt_cons] at h1
      obtain ⟨a, ha, _, ⟨_, rfl⟩ | h⟩ := h1
      · exact ⟨a, ha, .inl ⟨fun b hb hba => h3 b (hba ▸ .here hb), hT⟩⟩
      · cases h
    | cons n scope =>
      rw [List.cons_append, messageAt_cons] at h1
      obtain ⟨a, ha, rfl, ⟨h, _⟩ | h1⟩ := h1
      · simp at h
      · refine ⟨a, ha, .inr ?_⟩
        rcases h2 with h2 | ⟨k, h2⟩
        · cases h2
        · rw [messageAt_cons] at h2
          obtain ⟨b, hb, hba, h2⟩ := h2
          refine ⟨b, hb, hba, scope, m, ⟨h1, ?_, ?_⟩, hT⟩
          · rcases h2 with ⟨h, _⟩ | h
            · exact .inl h
            · exact .inr ⟨k, h⟩
          · intro n hn
            exact h3 n (hba ▸ .inside hb hn)
  · rintro ⟨a, ha, ⟨hn, hT⟩ | ⟨b, hb, hba, scope, m, ⟨h1, h2, h3⟩, hT⟩⟩
    · refine ⟨[], a, ⟨.here ha, .inl rfl, ?_⟩, hT⟩
      intro n hn'
      rw [List.nil_append, messageAt_cons] at hn'
      obtain ⟨b, hb, hba, _⟩ := hn'
      exact hn b hb hba
    · refine ⟨a.name :: scope, m, ⟨.inside ha h1, .inr ?_, ?_⟩, hT⟩
      · rcases h2 with rfl | ⟨n, hn⟩
        · exact ⟨b, hba ▸ .here hb⟩
        · exact ⟨n, hba ▸ .inside hb hn⟩
      · intro n hn
        rw [List.cons_append, messageAt_cons] at hn
        obtain ⟨c, hc, hca, ⟨h, _⟩ | h⟩ := hn
        · simp at h
        · have : c = b := eq_of_key_eq hd.1 hc hb (hca.trans hba.symm)
          subst this
          exact h3 n h

theorem messagesNotDeletedLoop_yields (ms : List Message) :
    ∀ (ms' : List Message) (enclosing : Str) (site : Site), DistinctNames ms' →
      Yields (loop o site (messagesNotDeletedBodies o site
          (ms.map fun m => wmsg m (getFullyQualifiedName enclosing m.name))
          (ms'.map fun m => wmsg m (getFullyQualifiedName enclosing m.name))))
        (fun x => ∃ scope m, Gone ms ms' scope m ∧
          x = some (newTextFailure (messagesNotDeletedText (fq enclosing (scope ++ [m.name]))))) := by
  let C : List Message → Prop := fun ms =>
    ∀ (ms' : List Message) (enclosing : Str) (site : Site), DistinctNames ms' →
      Yields (loop o site (messagesNotDeletedBodies o site
          (ms.map fun m => wmsg m (getFullyQualifiedName enclosing m.name))
          (ms'.map fun m => wmsg m (getFullyQualifiedName enclosing m.name))))
        (fun x => ∃ scope m, Gone ms ms' scope m ∧
          x = some (newTextFailure (messagesNotDeletedText (fq enclosing (scope ++ [m.name])))))
  have hstep : ∀ ms : List Message, (∀ m ∈ ms, C m.nestedMessages) → C ms := by
    intro ms ih ms' enclosing site hd
    rw [messagesNotDeletedBodies_eq]
    have key := yields_loop_pair o site (l := ms) (l' := ms') (key := XMessage.name)
      (k := XMessage.name)
      (u := fun m => wmsg m (getFullyQualifiedName enclosing m.name))
      (v := fun m => wmsg m (getFullyQualifiedName enclosing m.name))
      (missing := fun m => addFailure (messagesNotDeletedText m.fqn))
      (g := messagesNotDeletedRec o site)
      (T0 := fun a x => x = some (newTextFailure (messagesNotDeletedText (fq enclosing [a.name]))))
      (T := fun a b x => ∃ scope m, Gone a.nestedMessages b.nestedMessages scope m ∧
          x = some (newTextFailure (messagesNotDeletedText (fq enclosing (a.name :: scope ++ [m.name])))))
      (by simpa using hd.1)
      (by
        intro a ha
        rw [wmsg_fqn]
        exact yields_add _)
      (by
        intro a ha b hb hab
        simp only [wmsg_name] at hab
        rw [messagesNotDeletedRec_eq, wmsg_nested, wmsg_nested, hab]
        exact ih a ha b.nestedMessages (getFullyQualifiedName enclosing a.name) _ (hd.nested hb))
    refine key.congr fun x => ?_
    simp only [wmsg_name]
    exact (gone_cons hd (T := fun scope m =>
      x = some (newTextFailure (messagesNotDeletedText (fq enclosing (scope ++ [m.name])))))).symm
  exact hstep ms fun m _ => msg_induct (P := fun m => C m.nestedMessages)
    (fun m ih => hstep m.nestedMessages ih) m

theorem messagesNotDeleted_yields (R : Ready P Q) : Yields (checkMessagesNotDeleted o site (ws P) (ws Q))
    (documented P Q (s%"MESSAGES_NOT_DELETED")) := by
  unfold checkMessagesNotDeleted
  refine (packagePairs R o site (T := fun p q x => ∃ scope m, Gone p.messages q.messages scope m ∧
    x = some (newTextFailure (messagesNotDeletedText (fq p.name (scope ++ [m.name]))))) ?_).congr
    fun x => ?_
  · intro site p q hpq
    have := messagesNotDeletedLoop_yields o p.messages q.messages p.name site
      (distinct_of_ok (R.right q hpq.2.1))
    simpa [wpkg, hpq.2.2] using this
  · constructor
    · rintro ⟨p, q, hpq, scope, m, ⟨h1, h2, h3⟩, rfl⟩
      rw [fq_eq_fullName (R.left p hpq.1).name]
      exact ⟨_, .messageDeleted hpq h1 h2 h3, rfl⟩
    · rintro ⟨_, h, rfl⟩
      generalize hid : s%"MESSAGES_NOT_DELETED" = id at h
      cases h with
      | messageDeleted hpq h1 h2 h3 =>
        refine ⟨_, _, hpq, _, _, ⟨h1, h2, h3⟩, ?_⟩
        rw [fq_eq_fullName (R.left _ hpq.1).name]; rfl
      | _ => exact absurd hid (by decide)

/-! ## Beta dependencies -/

theorem packagesNoBetaDeps_yields (frm : XPackageSet) :
    Yields (checkPackagesNoBetaDeps o site frm (ws Q))
    (fun x => ∃ msg, BetaDependencyReported Q (s%"PACKAGES_NO_BETA_DEPS") msg ∧
      x = some (newTextFailure msg)) := by
  unfold checkPackagesNoBetaDeps
  simp only [ws, List.map_map]
  refine (yields_loop o site (T := fun p x => ∃ d ∈ p.dependencyNames, IsBetaPackage d ∧
    x = some (newTextFailure (packagesNoBetaDepsText p.name d))) ?_).congr fun x => ?_
  · intro p hp
    refine ⟨by simp, ?_⟩
    intro f
    simp only [List.mem_map, List.mem_filter, Function.comp_apply, wpkg, ignorePackage_true]
    constructor
    · rintro ⟨d, ⟨h1, h2⟩, rfl⟩; exact ⟨d, h1, h2, rfl⟩
    · rintro ⟨d, h1, h2, h⟩; exact ⟨d, ⟨h1, h2⟩, by simpa using h.symm⟩
  · constructor
    · rintro ⟨p, hp, d, hd, hb, rfl⟩
      exact ⟨_, .mk hp hd hb, rfl⟩
    · rintro ⟨_, h, rfl⟩
      generalize hid : s%"PACKAGES_NO_BETA_DEPS" = id at h
      cases h with
      | mk hp hd hb => exact ⟨_, hp, _, hd, hb, rfl⟩

/-! ## The run -/

/-- A labelled failure. -/
def report (id msg : Str) : Failure := ⟨[], 0, 0, id, msg⟩

theorem runChecker_yields {c : Checker} {frm to : XPackageSet} {C : Str → Prop}
    (h : Yields (c.check o [c.id] frm to) (fun x => ∃ msg, C msg ∧ x = some (newTextFailure msg))) :
    Yields (runChecker o c frm to) (fun x => ∃ msg, C msg ∧ x = some (report c.id msg)) := by
  unfold runChecker
  cases hr : c.check o [c.id] frm to with
  | error e => rw [hr] at h; obtain ⟨_, _, h⟩ := h; cases h
  | ok fs =>
    rw [hr] at h
    refine ⟨by simp, ?_⟩
    intro f
    simp only [List.mem_map, h.2]
    constructor
    · rintro ⟨g, ⟨msg, hC, hg⟩, rfl⟩
      simp only [Option.some.injEq] at hg
      subst hg
      exact ⟨msg, hC, rfl⟩
    · rintro ⟨msg, hC, hf⟩
      simp only [Option.some.injEq] at hf
      exact ⟨_, ⟨msg, hC, rfl⟩, by rw [hf]; rfl⟩

/-- Everything the checks of a configuration must report. -/
def Expected (config : BreakConfig) (P Q : List Package) (id msg : Str) : Prop :=
  Reported P Q id msg ∨
    (config.includeBeta = false ∧ config.allowBetaDeps = false ∧ BetaDependencyReported Q id msg)

theorem allCheckers_yields (R : Ready P Q) : ∀ c ∈ allCheckers,
    Yields (c.check o [c.id] (ws P) (ws Q)) (documented P Q c.id) := by
  intro c hc
  simp only [allCheckers, List.mem_cons, List.not_mem_nil, or_false] at hc
  rcases hc with rfl | rfl | rfl | rfl | rfl | rfl | rfl | rfl | rfl | rfl | rfl | rfl | rfl | rfl |
    rfl | rfl | rfl | rfl
  · exact enumsNotDeleted_yields o _ R
  · exact enumValuesNotDeleted_yields o _ R
  · exact enumValuesSameName_yields o _ R
  · exact messagesNotDeleted_yields o _ R
  · exact messageFieldsNotDeleted_yields o _ R
  · exact messageFieldsSameLabel_yields o _ R
  · exact messageFieldsSameName_yields o _ R
  · exact messageFieldsSameOneof_yields o _ R
  · exact messageFieldsSameType_yields o _ R
  · exact messageOneofsNotDeleted_yields o _ R
  · exact messageOneofsFieldsNotRemoved_yields o _ R
  · exact packagesNotDeleted_yields o _ R
  · exact servicesNotDeleted_yields o _ R
  · exact serviceMethodsNotDeleted_yields o _ R
  · exact serviceMethodsSameClientStreaming_yields o _ R
  · exact serviceMethodsSameRequestType_yields o _ R
  · exact serviceMethodsSameResponseType_yields o _ R
  · exact serviceMethodsSameServerStreaming_yields o _ R

/-- Every documented change belongs to one of the checks. -/
theorem reported_id {id msg : Str} (h : Reported P Q id msg) : ∃ c ∈ allCheckers, c.id = id := by
  cases h <;> simp [allCheckers]

theorem not_beta_id : ∀ c ∈ allCheckers, c.id ≠ s%"PACKAGES_NO_BETA_DEPS" := by
  intro c hc
  simp only [allCheckers, List.mem_cons, List.not_mem_nil, or_false] at hc
  rcases hc with rfl | rfl | rfl | rfl | rfl | rfl | rfl | rfl | rfl | rfl | rfl | rfl | rfl | rfl |
    rfl | rfl | rfl | rfl <;> decide

theorem runCheckers_yields (R : Ready P Q) (config : BreakConfig) :
    Yields (runCheckers o config (ws P) (ws Q))
      (fun x => ∃ id msg, Expected config P Q id msg ∧ x = some (report id msg)) := by
  unfold runCheckers
  have h : ∀ c ∈ activeCheckers config, Yields (runChecker o c (ws P) (ws Q))
      (fun x => ∃ msg, (if c.id = s%"PACKAGES_NO_BETA_DEPS" then BetaDependencyReported Q c.id msg
        else Reported P Q c.id msg) ∧ x = some (report c.id msg)) := by
    have hall : ∀ c ∈ allCheckers, Yields (runChecker o c (ws P) (ws Q))
      (fun x => ∃ msg, (if c.id = s%"PACKAGES_NO_BETA_DEPS" then BetaDependencyReported Q c.id msg
        else Reported P Q c.id msg) ∧ x = some (report c.id msg)) := by
      intro c hc
      have hne := not_beta_id c hc
      simp only [hne, if_false]
      exact runChecker_yields o (allCheckers_yields o R c hc)
    intro c hc
    unfold activeCheckers at hc
    split at hc
    · rcases List.mem_append.1 hc with hc | hc
      · exact hall c hc
      · simp only [List.mem_singleton] at hc
        subst hc
        exact runChecker_yields o (packagesNoBetaDeps_yields o _ (ws P))
    · exact hall c hc
  refine (@yields_seq Checker (activeCheckers config) (fun c => runChecker o c (ws P) (ws Q)) _ h).congr fun x => ?_
  constructor
  · rintro ⟨c, hc, msg, hC, rfl⟩
    refine ⟨c.id, msg, ?_, rfl⟩
    split at hC
    · rename_i he
      refine .inr ?_
      unfold activeCheckers at hc
      split at hc
      · rename_i hcfg
        simp only [Bool.and_eq_true, Bool.not_eq_true'] at hcfg
        exact ⟨hcfg.1, hcfg.2, hC⟩
      · exact absurd he (not_beta_id c hc)
    · exact .inl hC
  · rintro ⟨id, msg, h | ⟨h1, h2, h3⟩, rfl⟩
    · obtain ⟨c, hc, rfl⟩ := reported_id h
      refine ⟨c, ?_, msg, ?_, rfl⟩
      · unfold activeCheckers; split
        · exact List.mem_append_left _ hc
        · exact hc
      · rw [if_neg (not_beta_id c hc)]; exact h
    · refine ⟨packagesNoBetaDepsChecker, ?_, msg, ?_, ?_⟩
      · simp [activeCheckers, h1, h2]
      · rw [if_pos (show packagesNoBetaDepsChecker.id = s%"PACKAGES_NO_BETA_DEPS" from rfl)]
        cases h3 with
        | mk a b c => exact .mk a b c
      · cases h3; rfl

/-! ## The links between packages do not matter -/

/-- The package set without links. -/
def view (x : XPackageSet) : XPackageSet := ⟨[], x.packages.map strip⟩

theorem kget_strip (l : List XPackage) (k : Str) :
    kget (fun q => q.proto.name) (l.map strip) k = (kget (fun q => q.proto.name) l k).map strip := by
  unfold kget
  rw [List.find?_map]
  rfl

theorem forEachPackagePair_view (x y : XPackageSet) {f : Site → XPackage → XPackage → Res}
    (hf : ∀ site p q, f site (strip p) (strip q) = f site p q) :
    forEachPackagePair o site (view x) (view y) f = forEachPackagePair o site x y f := by
  unfold forEachPackagePair view
  simp only [List.map_map]
  congr 1
  apply List.map_congr_left
  intro p _
  simp only [Function.comp_apply, kget_strip]
  show lookupElse (Option.map strip (kget _ y.packages p.proto.name)) _ _ = _
  cases kget (fun q : XPackage => q.proto.name) y.packages p.proto.name with
  | none => rfl
  | some q => exact hf _ p q

theorem check_view (x y : XPackageSet) : ∀ c ∈ allCheckers ++ [packagesNoBetaDepsChecker],
    c.check o site (view x) (view y) = c.check o site x y := by
  intro c hc
  simp only [allCheckers, List.cons_append, List.nil_append, List.mem_cons, List.not_mem_nil,
    or_false] at hc
  have hp : ∀ site f, (∀ site p q, f site (strip p) (strip q) = f site p q) →
    forEachPackagePair o site (view x) (view y) f = forEachPackagePair o site x y f :=
    fun site f hf => forEachPackagePair_view o site x y hf
  have hm : ∀ site f, forEachMessagePair o site (view x) (view y) f = forEachMessagePair o site x y f :=
    fun site f => hp site _ fun _ _ _ => rfl
  have hs : ∀ site f, forEachServicePair o site (view x) (view y) f = forEachServicePair o site x y f :=
    fun site f => hp site _ fun _ _ _ => rfl
  have he : ∀ site f, forEachEnumPair o site (view x) (view y) f = forEachEnumPair o site x y f := by
    intro site f
    unfold forEachEnumPair
    rw [hm, hp _ _ fun _ _ _ => rfl]
  rcases hc with rfl | rfl | rfl | rfl | rfl | rfl | rfl | rfl | rfl | rfl | rfl | rfl | rfl | rfl |
    rfl | rfl | rfl | rfl | rfl <;> dsimp only [packagesNoBetaDepsChecker]
  · unfold checkEnumsNotDeleted; rw [hm, hp _ _ fun _ _ _ => rfl]
  · exact he _ _
  · exact he _ _
  · exact hp _ _ fun _ _ _ => rfl
  · exact hm _ _
  · exact hm _ _
  · exact hm _ _
  · exact hm _ _
  · exact hm _ _
  · exact hm _ _
  · exact hm _ _
  · unfold checkPackagesNotDeleted view
    simp only [List.map_map]
    congr 1
    apply List.map_congr_left
    intro p _
    simp only [Function.comp_apply, kget_strip]
    show lookupElse (Option.map strip (kget _ y.packages p.proto.name)) _ _ = _
    cases kget (fun q : XPackage => q.proto.name) y.packages p.proto.name <;> rfl
  · exact hp _ _ fun _ _ _ => rfl
  · exact hs _ _
  · unfold checkServiceMethodsSameClientStreaming forEachServiceMethodPair; exact hs _ _
  · unfold checkServiceMethodsSameRequestType forEachServiceMethodPair; exact hs _ _
  · unfold checkServiceMethodsSameResponseType forEachServiceMethodPair; exact hs _ _
  · unfold checkServiceMethodsSameServerStreaming forEachServiceMethodPair; exact hs _ _
  · unfold checkPackagesNoBetaDeps view
    simp only [List.map_map]
    rfl

/-- Forgetting the links does not change what is reported. -/
theorem runCheckers_view (config : BreakConfig) (x y : XPackageSet) :
    runCheckers o config x y = runCheckers o config (view x) (view y) := by
  unfold runCheckers
  congr 1
  apply List.map_congr_left
  intro c hc
  have hc : c ∈ allCheckers ++ [packagesNoBetaDepsChecker] := by
    unfold activeCheckers at hc
    split at hc
    · exact hc
    · exact List.mem_append_left _ hc
  unfold runChecker
  rw [check_view o _ x y c hc]

/-- The packages checked. -/
def checked (config : BreakConfig) (ps : PackageSet) : PackageSet := kept (!config.includeBeta) ps

theorem kept_false (ps : PackageSet) : kept false ps = ps := by
  simp [kept, ignorePackage]

/-- For schemas accepted by protoc, break check is the run of the checks on the
packages checked. -/
theorem breakCheck_eq {old new : PackageSet} (ho : SchemaOK old) (hn : SchemaOK new)
    (config : BreakConfig) :
    breakCheck o config old new = runCheckers o config (ws (checked config old)) (ws (checked config new)) := by
  unfold breakCheck
  obtain ⟨y, hy, hyp, hyv⟩ := newPackageSet_ok (o.sub (s%"to")) hn false
  obtain ⟨x, hx, hxp, hxv⟩ := newPackageSet_ok (o.sub (s%"from")) ho false
  rw [hy, hx]
  dsimp only
  unfold run checked
  cases hc : config.includeBeta with
  | true =>
    simp only [Bool.not_true, Bool.false_eq_true, if_false]
    rw [runCheckers_view]
    unfold view ws
    rw [hxv, hyv]
  | false =>
    simp only [Bool.not_false, if_true]
    unfold withoutBeta
    rw [hxp, hyp]
    obtain ⟨y', hy', _, hyv'⟩ := newPackageSet_ok (o.sub (s%"to without beta")) hn true
    obtain ⟨x', hx', _, hxv'⟩ := newPackageSet_ok (o.sub (s%"from without beta")) ho true
    rw [hy', hx']
    dsimp only
    rw [runCheckers_view]
    unfold view ws
    rw [hxv', hyv']

theorem ready_checked {old new : PackageSet} (ho : SchemaOK old) (hn : SchemaOK new)
    (config : BreakConfig) : Ready (checked config old) (checked config new) where
  names := hn.names.sublist ((List.filter_sublist).map _)
  left p hp := ho.packages p (List.mem_filter.1 hp).1
  right p hp := hn.packages p (List.mem_filter.1 hp).1

theorem mem_checked {config : BreakConfig} {ps : PackageSet} {p : Package} :
    p ∈ checked config ps ↔ p ∈ ps ∧ Checked config.includeBeta p.name := by
  unfold checked kept
  rw [List.mem_filter, ← ignorePackage_not]
  simp

theorem breakCheck_yields {old new : PackageSet} (ho : SchemaOK old) (hn : SchemaOK new)
    (config : BreakConfig) :
    Yields (breakCheck o config old new) (fun x => ∃ id msg,
      Expected config (checked config old) (checked config new) id msg ∧ x = some (report id msg)) := by
  rw [breakCheck_eq o ho hn]
  exact runCheckers_yields o (ready_checked ho hn config) config

end Verif.Proof.Breaking
