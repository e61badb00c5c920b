import Verif.Proof.ReportsTree
import Verif.Spec.Suppression

/-! # Rules that can be suppressed -/

namespace Verif.Lint

open Verif Proto Spec Str

theorem isSuppressed_iff {l : Linter} (h : l.suppressableAnnotation ≠ []) (c : Settings.Config)
    (comment : Option Comment) :
    l.isSuppressed (some c) comment = true ↔ Suppressed l.suppressableAnnotation c comment := by
  unfold Linter.isSuppressed Linter.allowSuppression Suppressed
  cases hc : c.lint.allowSuppression with
  | false => simp [h, hc]
  | true =>
    cases comment with
    | none => simp [h, hc]
    | some k => simp [h, hc, contains_infix]

theorem At.suppressable {l : Linter} {annotation : Str} (ha : l.suppressableAnnotation = annotation)
    (h : annotation ≠ []) (c : Settings.Config) (comment : Option Comment) (p : Position)
    (msg : List Str) : At l (addSuppressable c comment p msg)
      (if ¬ Suppressed annotation c comment then [p] else []) := by
  subst ha
  have hs := isSuppressed_iff h c comment
  refine ⟨?_, fun ev hev => by rw [List.mem_singleton.1 hev]; rfl⟩
  unfold addSuppressable
  by_cases hb : Suppressed l.suppressableAnnotation c comment
  · rw [if_neg (fun hn => hn hb)]
    simp [Linter.report, hs.2 hb]
  · rw [if_pos hb]
    have : l.isSuppressed (some c) comment = false := Bool.of_not_eq_true fun h => hb (hs.1 h)
    simp [Linter.report, this, place, newFailure]

theorem At.suppressableIf {l : Linter} {annotation : Str}
    (ha : l.suppressableAnnotation = annotation) (h : annotation ≠ []) (c : Settings.Config)
    (comment : Option Comment) (p : Position) (msg : List Str) {b b' : Prop} [Decidable b]
    [Decidable b'] (hb : b ↔ b') :
    At l (if b then addSuppressable c comment p msg else [])
      (if b' ∧ ¬ Suppressed annotation c comment then [p] else []) := by
  have hs := At.suppressable ha h c comment p msg
  by_cases hc : b'
  · simp only [hc, true_and, if_pos (hb.2 hc)]
    exact hs
  · simp only [hc, false_and, if_false, if_neg fun h => hc (hb.1 h)]
    exact .nil

/-- The state is only read. -/
theorem Reader.still {S : Type} {v : Visitor S} {f : Node → Act S} {descend : Element → Bool}
    (hstill : ∀ n s, (f n s).1 = s)
    (h : ∀ around e k, visit v (parentOf around) k e =
      bif descend e then (f ⟨around, e⟩).seq k else f ⟨around, e⟩) (s : S) :
    Reader v (fun _ => s) (fun n => (f n s).2) descend := by
  have hf : ∀ n, Runs (f n) s (f n s).2 := fun n =>
    ⟨(f n s).2, Prod.ext (hstill n s) rfl, .refl _⟩
  refine ⟨fun around e _ k kes hk => ?_⟩
  rw [h]
  cases hd : descend e with
  | false =>
    obtain ⟨es, h1, h2⟩ := hf ⟨around, e⟩
    exact ⟨es, h1, h2.trans (.of_eq (List.append_nil _).symm)⟩
  | true => exact (hf _).seq (hk hd)

theorem reports_suppressable {v : Visitor (Option Settings.Config)} {id annotation : Str}
    {f : Node → Act (Option Settings.Config)} {descend : Element → Bool}
    {at_ : Settings.Config → Node → List Position}
    (hs : v.onStart = startSuppressable) (hf : v.finally_ = fun s => (s, [], none))
    (hstill : ∀ n s, (f n s).1 = s)
    (h : ∀ around e k, visit v (parentOf around) k e =
      bif descend e then (f ⟨around, e⟩).seq k else f ⟨around, e⟩)
    (hat : ∀ l : Linter, l.suppressableAnnotation = annotation → ∀ c n,
      At l (f n (some c)).2 (at_ c n)) :
    Reports (newSuppressableLinter id purpose annotation (visitWith v none)) fun d =>
      (inside descend d).flatMap (at_ d.config) := by
  have := reports_reader (l := newSuppressableLinter id purpose annotation (visitWith v none)) (v := v)
    (s0 := none) rfl (I := fun _ => True) (st := fun d _ => some d.config)
    (own := fun d n => (f n (some d.config)).2)
    (start := fun _ => []) (fin := fun _ => []) (descend := descend)
    (at_ := fun d => at_ d.config) (ps := fun _ => []) (pf := fun _ => [])
    (fun d => Reader.still hstill h _) trivial (fun d s _ => by rw [hs]; rfl)
    (fun d _ => ⟨some d.config, by rw [hf], trivial⟩) (fun _ _ => .nil) (fun _ _ => .nil)
    (fun d _ n _ => hat _ rfl _ _) (ok := fun _ => True)
  simp only [List.nil_append, List.append_nil] at this
  exact this

/-! ## Floats -/

theorem reports_floats : Reports messageFieldsNotFloatsLinter fun d =>
    ((fields d).filter fun f => f.type = s%"float" ∧ ¬ Suppressed s%"floats" d.config f.comment).map
      (·.position) := by
  have := reports_suppressable (purpose := messageFieldsNotFloatsLinter.purpose) (id := s%"MESSAGE_FIELDS_NOT_FLOATS") (annotation := s%"floats")
    (v := messageFieldsNotFloats) (f := fun n => match asField n with
      | some f => checkNotFloat f
      | none => Act.skip) (descend := fun e => isMessage e || isOneof e)
    (at_ := fun c => atOf asField (fun f => f.type = s%"float" ∧ ¬ Suppressed s%"floats" c f.comment)
      (·.position)) rfl rfl
    (by
      intro n s
      cases asField n with
      | none => rfl
      | some f => show (checkNotFloat f s).1 = s; unfold checkNotFloat; split <;> rfl)
    (by intro around e k; cases e <;> rfl)
    (by
      intro l hl c n
      unfold atOf
      cases asField n with
      | none => exact .nil
      | some f =>
        show At l (checkNotFloat f (some c)).2 _
        have : (checkNotFloat f (some c)).2 = if f.type = s%"float" then
            (suppressable (fun c => addSuppressable c f.comment f.position [s%"Field ", quote f.name, s%" is a float and floats should generally not be used, consider using a double, or an int64 while representing your value in micros or nanos."]) (some c)).2 else [] := by
          unfold checkNotFloat; split <;> rfl
        rw [this]
        exact .suppressableIf hl (by decide) _ _ _ _ .rfl)
  simp only [flatMap_atOf] at this
  exact this

/-! ## Names -/

theorem checkName_still (w h : Str) (p : Position) (name : Str) (c : Option Comment)
    (s : Option Settings.Config) : (checkName w h p name c s).1 = s := by
  unfold checkName; split <;> rfl

theorem checkNames_still (w h : Str) (p : Position) (c : Option Comment) (ns : List Str)
    (s : Option Settings.Config) : (checkNames w h p c ns s).1 = s := by
  induction ns with
  | nil => rfl
  | cons n ns ih =>
    unfold checkNames Act.seq
    dsimp only
    rw [checkName_still, ih]

theorem checkNames_one (w h : Str) (p : Position) (c : Option Comment) (n : Str) :
    checkNames w h p c [n] = checkName w h p n c := seq_skip _

theorem at_checkName {l : Linter} (hl : l.suppressableAnnotation = s%"naming") (w h : Str)
    (p : Position) (name : Str) (comment : Option Comment) (c : Settings.Config) :
    At l (checkName w h p name comment (some c)).2
      (if w <:+: toLower name ∧ ¬ Suppressed s%"naming" c comment then [p] else []) := by
  have : (checkName w h p name comment (some c)).2 =
      if contains (toLower name) w = true then addSuppressable c comment p [s%"The name ", quote name,
      s%" contains the outlawed name ", quote w, s%". ", h, s%"."] else [] := by
    unfold checkName; split <;> rfl
  rw [this]
  exact .suppressableIf hl (by decide) _ _ _ _ contains_infix

theorem at_checkNames {l : Linter} (hl : l.suppressableAnnotation = s%"naming") (w h : Str)
    (p : Position) (comment : Option Comment) (ns : List Str) (c : Settings.Config) :
    At l (checkNames w h p comment ns (some c)).2
      ((ns.filter fun name => w <:+: toLower name ∧ ¬ Suppressed s%"naming" c comment).map
        fun _ => p) := by
  induction ns with
  | nil => exact .nil
  | cons n ns ih =>
    have e1 : (checkNames w h p comment (n :: ns) (some c)).2 =
        (checkName w h p n comment (some c)).2 ++ (checkNames w h p comment ns (some c)).2 := by
      show _ ++ (checkNames w h p comment ns (checkName w h p n comment (some c)).1).2 = _
      rw [checkName_still]
    have e2 : ((n :: ns).filter fun name => w <:+: toLower name ∧
        ¬ Suppressed s%"naming" c comment).map (fun _ => p) =
        (if w <:+: toLower n ∧ ¬ Suppressed s%"naming" c comment then [p] else []) ++
        ((ns.filter fun name => w <:+: toLower name ∧ ¬ Suppressed s%"naming" c comment).map
          fun _ => p) := by
      rw [List.filter_cons]
      split <;> rename_i hc <;> simp only [decide_eq_true_eq] at hc
      · rw [if_pos hc]; rfl
      · rw [if_neg hc]; rfl
    rw [e1, e2]
    exact (at_checkName hl w h p n comment c).append ih

theorem reports_names (id w h : Str) :
    Reports (newSuppressableLinter id purpose s%"naming" (visitWith (names w h) none)) fun d =>
      (fileNodes d).flatMap fun n =>
        ((namesOf n.self).filter fun name => w <:+: toLower name ∧
          ¬ Suppressed s%"naming" d.config (commentOf n.self)).map fun _ => positionOf n.self := by
  have := reports_suppressable (purpose := purpose) (id := id) (annotation := s%"naming") (v := names w h)
    (f := fun n => checkNames w h (positionOf n.self) (commentOf n.self) (namesOf n.self))
    (descend := hasBody)
    (at_ := fun c n => ((namesOf n.self).filter fun name => w <:+: toLower name ∧
      ¬ Suppressed s%"naming" c (commentOf n.self)).map fun _ => positionOf n.self) rfl rfl
    (fun n s => checkNames_still _ _ _ _ _ _)
    (by
      intro around e k
      cases e <;> first
        | rfl
        | (dsimp only [namesOf]; rw [checkNames_one]; rfl))
    (fun l hl c n => at_checkNames hl _ _ _ _ _ _)
  simp only [inside_hasBody] at this
  exact this

/-! ## Keywords -/

theorem flatMap_filter_one {α : Type} {β : Type} (p : α → Prop) [DecidablePred p] (b : β) (as : List α) :
    (as.flatMap fun a => if p a then [b] else []) = (as.filter fun a => p a).map fun _ => b := by
  induction as with
  | nil => rfl
  | cons a as ih =>
    rw [List.flatMap_cons, ih]
    by_cases h : p a <;> simp [h]

theorem reports_keywords : Reports packageNoKeywordsLinter fun d =>
    (packages d).flatMap fun p =>
      ((splitChar '.' p.name).filter fun part =>
        toLower part ∈ keywords ∧ ¬ Suppressed s%"keywords" d.config p.comment).map
        fun _ => p.position := by
  have := reports_suppressable (purpose := packageNoKeywordsLinter.purpose) (id := s%"PACKAGE_NO_KEYWORDS") (annotation := s%"keywords")
    (v := packageNoKeywords) (f := fun n => match asPackage n with
      | some p => packageNoKeywords.package p
      | none => Act.skip) (descend := nothing)
    (at_ := fun c n => (asPackage n).elim [] fun p => ((splitChar '.' p.name).filter fun part =>
        toLower part ∈ keywords ∧ ¬ Suppressed s%"keywords" c p.comment).map
        fun _ => p.position) rfl rfl
    (by
      intro n s
      cases asPackage n <;> rfl)
    (by intro around e k; cases e <;> rfl)
    (by
      intro l hl c n
      cases asPackage n with
      | none => exact .nil
      | some p =>
        show At l ((splitChar '.' p.name).flatMap _) ((List.filter _ _).map _)
        rw [← flatMap_filter_one]
        exact .flatMap _ fun part _ => .suppressableIf hl (by decide) _ _ _ _ .rfl)
  simp only [flatMap_pick] at this
  exact this

/-! ## Plurals -/

theorem reports_plurals (env : Env) : Reports (serviceNamesNoPluralsLinter env) fun d =>
    (services d).flatMap fun s =>
      ((Strs.splitCamelCaseWord s.name).filter fun word =>
        (env.singularize (toLower word) ≠ toLower word ∧ toUpper word ≠ word ∧
          toLower word ≠ s%"data") ∧ ¬ Suppressed s%"plurals" d.config s.comment).map
        fun _ => s.position := by
  have := reports_suppressable (purpose := (serviceNamesNoPluralsLinter env).purpose) (id := s%"SERVICE_NAMES_NO_PLURALS") (annotation := s%"plurals")
    (v := serviceNamesNoPlurals env) (f := fun n => match asService n with
      | some s => (serviceNamesNoPlurals env).service s Act.skip
      | none => Act.skip) (descend := nothing)
    (at_ := fun c n => (asService n).elim [] fun s =>
      ((Strs.splitCamelCaseWord s.name).filter fun word =>
        (env.singularize (toLower word) ≠ toLower word ∧ toUpper word ≠ word ∧
          toLower word ≠ s%"data") ∧ ¬ Suppressed s%"plurals" c s.comment).map
        fun _ => s.position) rfl rfl
    (by
      intro n s
      cases asService n <;> rfl)
    (by intro around e k; cases e <;> rfl)
    (by
      intro l hl c n
      cases asService n with
      | none => exact .nil
      | some s =>
        show At l ((Strs.splitCamelCaseWord s.name).flatMap _) ((List.filter _ _).map _)
        rw [← flatMap_filter_one]
        refine .flatMap _ fun word _ => ?_
        have key := At.suppressableIf hl (by decide) c s.comment s.position [s%"Service name ",
            quote s.name, s%" contains plural component ", quote (title word),
            s%", consider using ", quote (title (env.singularize (toLower word))), s%" instead."]
          (b := env.singularize (toLower word) ≠ toLower word ∧ toUpper word ≠ word ∧
            toLower word ≠ s%"data") .rfl
        dsimp only [suppressable]
        unfold isAllowedServiceNamePlural
        by_cases h1 : env.singularize (toLower word) ≠ toLower word
        · rw [if_pos h1]
          by_cases h2 : toUpper word = word
          · simp [h2]; exact .nil
          · by_cases h3 : toLower word = s%"data"
            · simp [h2, h3]; exact .nil
            · simp only [h1, h2, h3, ne_eq, not_false_eq_true, and_self, if_true] at key
              simpa [h1, h2, h3] using key
        · rw [if_neg h1]
          simp only [h1, false_and, if_false]
          exact .nil)
  simp only [flatMap_pick] at this
  exact this

/-! ## HTTP options -/

/-- The state of the visitor at a node: the RPC the node is directly in. -/
def httpState (d : FileDescriptor) (around : List Element) : HTTPState :=
  ⟨some d.config, match around with
    | .rpc r _ :: _ => some r
    | _ => none⟩

/-- What the visitor does at a node. -/
def httpOwn (d : FileDescriptor) (n : Node) : List Event :=
  match n.self with
  | .option o => (rpcOptionsNoGoogleAPIHTTP.option .file o (httpState d n.around)).2
  | _ => []

theorem reader_http (d : FileDescriptor) :
    ReaderOn (fun n => mayBeIn n.around n.self = true) rpcOptionsNoGoogleAPIHTTP (httpState d)
      (httpOwn d) (fun e => isService e || isRPC e) := by
  refine ⟨fun around e hg k kes hk => ?_⟩
  cases e with
  | service s es =>
    obtain ⟨evs, h1, h2⟩ := hk rfl
    cases around with
    | nil => exact ⟨evs, h1, h2⟩
    | cons a around => cases a <;> exact absurd hg Bool.false_ne_true
  | rpc r es =>
    obtain ⟨evs, h1, h2⟩ := hk rfl
    cases around with
    | nil => exact absurd hg Bool.false_ne_true
    | cons a around =>
      cases a with
      | service s _ =>
        refine ⟨evs, ?_, h2⟩
        have h1' : k ⟨some d.config, some r⟩ = (⟨some d.config, some r⟩, evs) := h1
        show ((⟨(k ⟨some d.config, some r⟩).1.config, none⟩ : HTTPState),
          (k ⟨some d.config, some r⟩).2) = _
        rw [h1']
        rfl
      | _ => exact absurd hg Bool.false_ne_true
  | option o => exact ⟨_, rfl, .of_eq (List.append_nil _).symm⟩
  | _ => exact Runs.skip

theorem reports_http : ReportsOn
    (fun d => Grammatical d ∧ ∀ o ∈ outerOptions d, ¬ s%"(.google.api.http)" <+: o.name)
    rpcOptionsNoGoogleAPIHTTPLinter fun d =>
      ((rpcOptions d).filter fun p => HTTPName p.2.name ∧
        ¬ Suppressed s%"google-api-http" d.config p.1.comment).map (·.2.position) := by
  have := reports_readerOn (l := rpcOptionsNoGoogleAPIHTTPLinter) (v := rpcOptionsNoGoogleAPIHTTP)
    (s0 := {}) rfl (I := fun _ => True) (st := httpState) (own := httpOwn)
    (start := fun _ => []) (fin := fun _ => []) (descend := fun e => isService e || isRPC e)
    (at_ := fun d => atOf asRPCOption (fun p => HTTPName p.2.name ∧
        ¬ Suppressed s%"google-api-http" d.config p.1.comment) (·.2.position))
    (ps := fun _ => []) (pf := fun _ => []) reader_http
    (ok := fun d => Grammatical d ∧ ∀ o ∈ outerOptions d, ¬ s%"(.google.api.http)" <+: o.name)
    (fun d hd n hn => hd.1 n hn) trivial (fun d s _ => rfl)
    (fun d _ => ⟨_, rfl, trivial⟩) (fun _ _ => .nil) (fun _ _ => .nil)
    (fun d hd n hn => by
      obtain ⟨hmem, hall⟩ := List.mem_filter.1 hn
      have houter : ∀ o ∈ asOuterOption n, ¬ s%"(.google.api.http)" <+: o.name := fun o ho =>
        hd.2 o (List.mem_filterMap.2 ⟨n, hmem, ho⟩)
      obtain ⟨around, e⟩ := n
      cases e with
      | option o =>
        have hout : ∀ s : HTTPState, s.rpc = none → ¬ s%"(.google.api.http)" <+: o.name →
            (rpcOptionsNoGoogleAPIHTTP.option .file o s).2 = [] := by
          intro s hs hn
          have hn' : hasPrefix o.name s%"(.google.api.http)" = false :=
            Bool.of_not_eq_true fun h => hn (hasPrefix_prefix.1 h)
          show (if (s.rpc.isSome && hasPrefix o.name s%"(google.api.http)") ||
              hasPrefix o.name s%"(.google.api.http)" then _ else []) = []
          rw [hs, hn']
          rfl
        cases around with
        | nil =>
          have : httpOwn d ⟨[], .option o⟩ = [] := hout _ rfl (houter o rfl)
          rw [this]; exact .nil
        | cons a around =>
          cases a with
          | service s es =>
            have : httpOwn d ⟨.service s es :: around, .option o⟩ = [] := hout _ rfl (houter o rfl)
            rw [this]; exact .nil
          | rpc r es =>
            refine .suppressableIf (l := rpcOptionsNoGoogleAPIHTTPLinter) rfl (by decide) _ _ _ _ ?_
            simp only [Option.isSome_some, Bool.true_and]
            exact or_bool hasPrefix_prefix hasPrefix_prefix
          | _ => exact absurd hall Bool.false_ne_true
      | _ =>
        have : ∀ e, (∀ o, e ≠ .option o) → asRPCOption ⟨around, e⟩ = none := by
          intro e he
          unfold asRPCOption
          split
          · rename_i hh; cases hh; exact absurd rfl (he _)
          · rfl
        unfold atOf
        rw [this _ (by intro _ h; cases h)]
        exact .nil)
  simp only [List.nil_append, List.append_nil, flatMap_atOf] at this
  exact this

end Verif.Lint
