import Verif.Proof.Says
import Verif.Proof.ReportsSuppress
import Verif.Proof.ReportsTypes
import Verif.Spec.LintTexts

/-! # The texts of rules about the declarations of a file and of rules that can be suppressed

As in Verif/Proof/ReportsFile.lean and Verif/Proof/ReportsSuppress.lean, with the texts. -/

namespace Verif.Lint

open Verif Proto Spec Str

/-- Rules that only look at the beginning of the file. -/
theorem says_start {v : Visitor Unit} {id : Str} {start : FileDescriptor → List Event}
    {ok : FileDescriptor → Prop} {said : FileDescriptor → List (Position × Str)}
    (hs : v.onStart = fun d => Act.emit (start d)) (hf : v.finally_ = fun s => (s, [], none))
    (h : ∀ around e k, visit v (parentOf around) k e = Act.skip)
    (has : ∀ l d, ok d → Said l (start d) (said d)) :
    SaysOn ok (newLinter id purpose (visitWith v ())) said := by
  refine says_of (out := start) (fun dirPath ds hok => ?_) (fun d hd => (has (newLinter id purpose (visitWith v ())) d hd).noPanic)
    fun d hd => .of_eq (has _ d hd).said
  show ∃ evs, visitWith v () dirPath ds = (evs, none) ∧ _
  obtain ⟨evs, h1, h2⟩ := ReaderOn.run (v := v) (good := fun _ => True) (ok := ok) (I := fun _ => True)
    (st := fun _ _ => ()) (own := fun _ _ => []) (start := start) (fin := fun _ => [])
    (descend := fun _ => false) (fun _ _ _ _ => trivial)
    (fun _ => Reader.unit fun around e k => .inl (h around e k)) (fun d s _ => by rw [hs]; rfl)
    (fun d _ => ⟨(), by rw [hf], trivial⟩) ds hok () trivial
  refine ⟨evs, h1, h2.trans (.of_eq ?_)⟩
  congr 1
  funext d
  have e : ∀ ns : List Node, (ns.flatMap fun _ => ([] : List Event)) = [] := by
    intro ns; induction ns <;> simp_all
  rw [e, List.append_nil, List.append_nil]

/-! ## Packages and syntax -/

theorem said_seePackage (env : Env) (f : Str) (ps : List Package) (l : Linter) :
    Said l (acts (seePackage env) ps ⟨f, none⟩).2 (ps.tail.map fun p => (p.position,
      text [s%"multiple package declarations, first was ",
        ps.head?.elim [] fun first => env.showPackage first])) := by
  cases ps with
  | nil => exact .nil
  | cons p ps =>
    have h : acts (seePackage env) (p :: ps) ⟨f, none⟩ = acts (seePackage env) ps ⟨f, some p⟩ := rfl
    rw [h, acts_seePackage_some]
    rw [List.tail_cons, ← flatMap_one]
    exact .flatMap _ fun p _ => .fail _ _

theorem says_package {env : Env} {finish : Str → Option Package → List Event} {id : Str}
    {at_ : Str → Option Package → List (Position × Str)}
    (h : ∀ l f p, Said l (finish f p) (at_ f p)) :
    Says (newLinter id purpose (visitWith (packageVisitor env finish) {})) fun d =>
      ((packages d).tail.map fun p => (p.position,
        text [s%"multiple package declarations, first was ",
          (packages d).head?.elim [] fun first => env.showPackage first])) ++
        at_ d.filename (packages d).head? := by
  refine says_acts (v := packageVisitor env finish) rfl (pick := asPackage)
    (f := seePackage env) (st := fun d => ⟨d.filename, none⟩) (descend := nothing)
    (fin := fun d => finish d.filename (packages d).head?) ?_ ?_ ?_ ?_
  · intro around e k; cases e <;> rfl
  · intro d s; rfl
  · intro d _
    exact ⟨_, by rw [(acts_seePackage env _ _).1]; rfl⟩
  · intro d _
    exact (said_seePackage env _ _ _).append (h _ _ _)

theorem first_said (bad : Package → Prop) [DecidablePred bad] (said : Package → Position × Str)
    (p : Package) : (((some p).toList.filter fun p => bad p).map said) =
      if bad p then [said p] else [] := by
  by_cases h : bad p <;> simp [h]

theorem said_seeSyntax (env : Env) (f : Str) (ps : List Syntax) (l : Linter) :
    Said l (acts (seeSyntax env) ps ⟨f, none⟩).2 (ps.tail.map fun p => (p.position,
      text [s%"multiple syntax declarations, first was ",
        ps.head?.elim [] fun first => env.showSyntax first])) := by
  cases ps with
  | nil => exact .nil
  | cons p ps =>
    have h : acts (seeSyntax env) (p :: ps) ⟨f, none⟩ = acts (seeSyntax env) ps ⟨f, some p⟩ := rfl
    rw [h, acts_seeSyntax_some]
    rw [List.tail_cons, ← flatMap_one]
    exact .flatMap _ fun p _ => .fail _ _

theorem says_syntax {env : Env} :
    Says (syntaxProto3Linter env) fun d =>
      ((syntaxes d).tail.map fun p => (p.position,
        text [s%"multiple syntax declarations, first was ",
          (syntaxes d).head?.elim [] fun first => env.showSyntax first])) ++
        match (syntaxes d).head? with
        | none => [({ filename := d.filename }, s%"No syntax declaration found.")]
        | some s => if s.value ≠ s%"proto3" then
            [(s.position, text [s%"Syntax should be proto3 but was ", quote s.value, s%"."])] else [] := by
  refine says_acts (v := syntaxProto3 env) (s0 := {}) rfl (pick := asSyntax)
    (f := seeSyntax env) (st := fun d => ⟨d.filename, none⟩) (descend := nothing)
    (fin := fun d => ((syntaxProto3 env).finally_ ⟨d.filename, (syntaxes d).head?⟩).2.1) ?_ ?_ ?_ ?_
  · intro around e k; cases e <;> rfl
  · intro d s; rfl
  · intro d _
    exact ⟨_, by rw [(acts_seeSyntax env _ _).1]; rfl⟩
  · intro d _
    refine (said_seeSyntax env _ _ _).append ?_
    unfold syntaxProto3
    dsimp only
    cases (syntaxes d).head? with
    | none => exact .fail _ _
    | some s => exact .iff .rfl

/-! ## Options -/

theorem says_notLongForm : Says fileOptionsGoPackageNotLongFormLinter fun d =>
    match ((fileOptions d).filter fun o => o.name = s%"go_package").getLast? with
    | some o => if s%";" <:+: o.constant.source then [(o.position, text [s%"Option \"go_package\" cannot be of the long-form \"go/import/path;package\" and must only be of the short-form \"package\", but was ", quote o.constant.source, s%"."])] else []
    | none => [] := by
  refine says_acts (v := fileOptionsGoPackageNotLongForm) (s0 := none) rfl (pick := asOption)
    (f := fun o => Act.modify fun s => if o.name = s%"go_package" then some o else s)
    (st := fun _ => none) (descend := nothing)
    (fin := fun d => (fileOptionsGoPackageNotLongForm.finally_
      ((fileOptions d).filter fun o => o.name = s%"go_package").getLast?).2.1) ?_ ?_ ?_ ?_
  · intro around e k; cases e <;> rfl
  · intro d s; rfl
  · intro d _
    rw [acts_modify, foldl_last, Option.or_none]; exact ⟨_, rfl⟩
  · intro d _
    rw [acts_modify]
    unfold fileOptionsGoPackageNotLongForm
    dsimp only
    rw [List.nil_append]
    cases ((fileOptions d).filter fun o => o.name = s%"go_package").getLast? with
    | none => exact .nil
    | some o => exact .iff contains_infix

theorem says_require (name id : Str) :
    Says (newLinter id purpose (visitWith (fileOptionsRequire name) {})) fun d =>
      if ∀ o ∈ fileOptions d, o.name ≠ name then [({ filename := d.filename },
        text [s%"File option ", quote name, s%" is required."])] else [] := by
  have hfold : ∀ (os : List Opt) (s : RequireState),
      os.foldl (fun s o => if o.name = name then { s with seen := true } else s) s =
        ⟨s.filename, s.seen || os.any fun o => o.name = name⟩ := by
    intro os
    induction os with
    | nil => intro s; simp
    | cons o os ih =>
      intro s
      rw [List.foldl_cons, ih]
      by_cases h : o.name = name
      · simp [h]
      · simp [h]
  refine says_acts (v := fileOptionsRequire name) rfl (pick := asOption)
    (f := fun o => Act.modify fun s => if o.name = name then { s with seen := true } else s)
    (st := fun d => ⟨d.filename, false⟩) (descend := nothing)
    (fin := fun d => ((fileOptionsRequire name).finally_
      ⟨d.filename, (fileOptions d).any fun o => o.name = name⟩).2.1) ?_ ?_ ?_ ?_
  · intro around e k; cases e <;> rfl
  · intro d s; rfl
  · intro d _
    rw [acts_modify, hfold]; exact ⟨_, rfl⟩
  · intro d _
    rw [acts_modify, List.nil_append]
    refine .iff ?_
    simp

theorem says_unset (name id : Str) :
    Says (newLinter id purpose (visitWith (fileOptionsUnset name) {})) fun d =>
      match ((fileOptions d).filter fun o => o.name = name).getLast? with
      | some o => [(o.position, text [s%"File option ", quote name, s%" should not be set."])]
      | none => [] := by
  have hfold : ∀ (os : List Opt) (s : UnsetState),
      os.foldl (fun s o => if o.name = name then ⟨true, o.position⟩ else s) s =
        match (os.filter fun o => o.name = name).getLast? with
        | some o => ⟨true, o.position⟩
        | none => s := by
    intro os
    induction os with
    | nil => intro s; rfl
    | cons o os ih =>
      intro s
      rw [List.foldl_cons, ih, List.filter_cons]
      by_cases h : o.name = name
      · simp only [h, if_true, decide_true]
        rw [List.getLast?_cons]
        cases (os.filter fun o => o.name = name).getLast? <;> rfl
      · simp [h]
  refine says_acts (v := fileOptionsUnset name) rfl (pick := asOption)
    (f := fun o => Act.modify fun s => if o.name = name then ⟨true, o.position⟩ else s)
    (st := fun d => {}) (descend := nothing)
    (fin := fun d => ((fileOptionsUnset name).finally_
      ((fileOptions d).foldl (fun s o => if o.name = name then ⟨true, o.position⟩ else s) {})).2.1)
    ?_ ?_ ?_ ?_
  · intro around e k; cases e <;> rfl
  · intro d s; rfl
  · intro d _
    rw [acts_modify]; exact ⟨_, rfl⟩
  · intro d _
    rw [acts_modify, List.nil_append, hfold]
    cases ((fileOptions d).filter fun o => o.name = name).getLast? with
    | none => exact .nil
    | some o => exact .fail _ _

/-! ## Rules that can be suppressed -/

theorem Said.suppressableIf {l : Linter} {annotation : Str}
    (ha : l.suppressableAnnotation = annotation) (h : annotation ≠ []) (c : Settings.Config)
    (comment : Option Comment) (p : Position) (msg : List Str) {b b' : Prop} [Decidable b]
    [Decidable b'] (hm : msg.flatten ≠ []) (hb : b ↔ b') :
    Said l (if b then addSuppressable c comment p msg else [])
      (if b' ∧ ¬ Suppressed annotation c comment then [(p, withHint annotation c msg)] else []) := by
  have hs : Said l (addSuppressable c comment p msg)
      (if ¬ Suppressed annotation c comment then [(p, withHint annotation c msg)] else []) := by
    subst ha
    have hs := isSuppressed_iff h c comment
    refine ⟨?_, fun ev hev => by rw [List.mem_singleton.1 hev]; rfl⟩
    unfold addSuppressable
    by_cases hb : Suppressed l.suppressableAnnotation c comment
    · rw [if_neg (fun hn => hn hb)]
      simp [Linter.report, hs.2 hb]
    · rw [if_pos hb]
      have : l.isSuppressed (some c) comment = false := Bool.of_not_eq_true fun h => hb (hs.1 h)
      have ha : l.allowSuppression (some c) = c.lint.allowSuppression := by
        unfold Linter.allowSuppression
        simp [h]
      have hm' : decide (msg.flatten ≠ []) = true := decide_eq_true hm
      unfold withHint
      cases hc : c.lint.allowSuppression with
      | false => simp [Linter.report, this, ha, hc, place, placeAndText, text, newFailure]
      | true =>
        simp only [List.filterMap_cons, Linter.report, this, ha, hc, Bool.true_and]
        simp only [newFailure, hm', if_true, List.filterMap_nil, List.map_cons, List.map_nil]
        simp [placeAndText, place, text]
        simpa using hm
  by_cases hc : b'
  · simp only [hc, true_and, if_pos (hb.2 hc)]
    exact hs
  · simp only [hc, false_and, if_false, if_neg fun h => hc (hb.1 h)]
    exact .nil

theorem says_suppressable {v : Visitor (Option Settings.Config)} {id annotation : Str}
    {f : Node → Act (Option Settings.Config)} {descend : Element → Bool}
    {at_ : Settings.Config → Node → List (Position × Str)}
    (hs : v.onStart = startSuppressable) (hf : v.finally_ = fun s => (s, [], none))
    (hstill : ∀ n s, (f n s).1 = s)
    (h : ∀ around e k, visit v (parentOf around) k e =
      bif descend e then (f ⟨around, e⟩).seq k else f ⟨around, e⟩)
    (hat : ∀ l : Linter, l.suppressableAnnotation = annotation → ∀ c n,
      Said l (f n (some c)).2 (at_ c n)) :
    Says (newSuppressableLinter id purpose annotation (visitWith v none)) fun d =>
      (inside descend d).flatMap (at_ d.config) :=
  says_reader (l := newSuppressableLinter id purpose annotation (visitWith v none)) (v := v)
    (s0 := none) rfl (I := fun _ => True) (st := fun d _ => some d.config)
    (own := fun d n => (f n (some d.config)).2) (descend := descend)
    (at_ := fun d => at_ d.config) (fun d => Reader.still hstill h _) trivial
    (fun d s _ => by rw [hs]; rfl) (fun d _ => ⟨some d.config, by rw [hf], trivial⟩)
    (fun d _ n _ => hat _ rfl _ _) (ok := fun _ => True)

theorem says_floats : Says messageFieldsNotFloatsLinter fun d =>
    ((fields d).filter fun f => f.type = s%"float" ∧ ¬ Suppressed s%"floats" d.config f.comment).map
      fun f => (f.position, withHint s%"floats" d.config [s%"Field ", quote f.name, s%" is a float and floats should generally not be used, consider using a double, or an int64 while representing your value in micros or nanos."]) := by
  have := says_suppressable (purpose := messageFieldsNotFloatsLinter.purpose) (id := s%"MESSAGE_FIELDS_NOT_FLOATS") (annotation := s%"floats")
    (v := messageFieldsNotFloats) (f := fun n => match asField n with
      | some f => checkNotFloat f
      | none => Act.skip) (descend := fun e => isMessage e || isOneof e)
    (at_ := fun c => saidOf asField (fun f => f.type = s%"float" ∧ ¬ Suppressed s%"floats" c f.comment)
      fun f => (f.position, withHint s%"floats" c [s%"Field ", quote f.name, s%" is a float and floats should generally not be used, consider using a double, or an int64 while representing your value in micros or nanos."])) rfl rfl
    (by
      intro n s
      cases asField n with
      | none => rfl
      | some f => show (checkNotFloat f s).1 = s; unfold checkNotFloat; split <;> rfl)
    (by intro around e k; cases e <;> rfl)
    (by
      intro l hl c n
      unfold saidOf
      cases asField n with
      | none => exact .nil
      | some f =>
        show Said l (checkNotFloat f (some c)).2 _
        have : (checkNotFloat f (some c)).2 = if f.type = s%"float" then
            (suppressable (fun c => addSuppressable c f.comment f.position [s%"Field ", quote f.name, s%" is a float and floats should generally not be used, consider using a double, or an int64 while representing your value in micros or nanos."]) (some c)).2 else [] := by
          unfold checkNotFloat; split <;> rfl
        rw [this]
        exact .suppressableIf hl (by decide) _ _ _ _ (by intro h; cases h) .rfl)
  simp only [flatMap_saidOf] at this
  exact this

theorem flatMap_filter_map {α : Type} {β : Type} (p : α → Prop) [DecidablePred p] (b : α → β)
    (as : List α) : (as.flatMap fun a => if p a then [b a] else []) = (as.filter fun a => p a).map b := by
  induction as with
  | nil => rfl
  | cons a as ih =>
    rw [List.flatMap_cons, ih]
    by_cases h : p a <;> simp [h]

theorem checkNames_events (w h : Str) (p : Position) (comment : Option Comment) (ns : List Str)
    (c : Settings.Config) : (checkNames w h p comment ns (some c)).2 =
      ns.flatMap fun name => if contains (toLower name) w = true then
        addSuppressable c comment p [s%"The name ", quote name,
          s%" contains the outlawed name ", quote w, s%". ", h, s%"."] else [] := by
  induction ns with
  | nil => rfl
  | cons n ns ih =>
    have e1 : (checkNames w h p comment (n :: ns) (some c)).2 =
        (checkName w h p n comment (some c)).2 ++ (checkNames w h p comment ns (some c)).2 := by
      show _ ++ (checkNames w h p comment ns (checkName w h p n comment (some c)).1).2 = _
      rw [checkName_still]
    rw [e1, ih, List.flatMap_cons]
    congr 1
    unfold checkName; split <;> rfl

theorem says_names (id w h : Str) :
    Says (newSuppressableLinter id purpose s%"naming" (visitWith (names w h) none)) fun d =>
      (fileNodes d).flatMap fun n =>
        ((namesOf n.self).filter fun name => w <:+: toLower name ∧
          ¬ Suppressed s%"naming" d.config (commentOf n.self)).map fun name => (positionOf n.self,
            withHint s%"naming" d.config [s%"The name ", quote name, s%" contains the outlawed name ", quote w, s%". ", h, s%"."]) := by
  have := says_suppressable (purpose := purpose) (id := id) (annotation := s%"naming") (v := names w h)
    (f := fun n => checkNames w h (positionOf n.self) (commentOf n.self) (namesOf n.self))
    (descend := hasBody)
    (at_ := fun c n => ((namesOf n.self).filter fun name => w <:+: toLower name ∧
      ¬ Suppressed s%"naming" c (commentOf n.self)).map fun name => (positionOf n.self,
            withHint s%"naming" c [s%"The name ", quote name, s%" contains the outlawed name ", quote w, s%". ", h, s%"."])) rfl rfl
    (fun n s => checkNames_still _ _ _ _ _ _)
    (by
      intro around e k
      cases e <;> first
        | rfl
        | (dsimp only [namesOf]; rw [checkNames_one]; rfl))
    (fun l hl c n => by
      rw [checkNames_events, ← flatMap_filter_map]
      exact .flatMap _ fun name _ => .suppressableIf hl (by decide) _ _ _ _ (by intro h; cases h) contains_infix)
  simp only [inside_hasBody] at this
  exact this

theorem says_keywords : Says packageNoKeywordsLinter fun d =>
    (packages d).flatMap fun p =>
      ((splitChar '.' p.name).filter fun part =>
        toLower part ∈ keywords ∧ ¬ Suppressed s%"keywords" d.config p.comment).map
        fun part => (p.position, withHint s%"keywords" d.config [s%"Package ", quote p.name, s%" contains the keyword ",
          quote (toLower part), s%", this could cause problems in generated code."]) := by
  have := says_suppressable (purpose := packageNoKeywordsLinter.purpose) (id := s%"PACKAGE_NO_KEYWORDS") (annotation := s%"keywords")
    (v := packageNoKeywords) (f := fun n => match asPackage n with
      | some p => packageNoKeywords.package p
      | none => Act.skip) (descend := nothing)
    (at_ := fun c n => (asPackage n).elim [] fun p => ((splitChar '.' p.name).filter fun part =>
        toLower part ∈ keywords ∧ ¬ Suppressed s%"keywords" c p.comment).map
        fun part => (p.position, withHint s%"keywords" c [s%"Package ", quote p.name, s%" contains the keyword ",
          quote (toLower part), s%", this could cause problems in generated code."])) rfl rfl
    (by
      intro n s
      cases asPackage n <;> rfl)
    (by intro around e k; cases e <;> rfl)
    (by
      intro l hl c n
      cases asPackage n with
      | none => exact .nil
      | some p =>
        show Said l ((splitChar '.' p.name).flatMap _) ((List.filter _ _).map _)
        rw [← flatMap_filter_map]
        exact .flatMap _ fun part _ => .suppressableIf hl (by decide) _ _ _ _ (by intro h; cases h) .rfl)
  simp only [flatMap_pick] at this
  exact this

theorem says_plurals (env : Env) : Says (serviceNamesNoPluralsLinter env) fun d =>
    (services d).flatMap fun s =>
      ((Strs.splitCamelCaseWord s.name).filter fun word =>
        (env.singularize (toLower word) ≠ toLower word ∧ toUpper word ≠ word ∧
          toLower word ≠ s%"data") ∧ ¬ Suppressed s%"plurals" d.config s.comment).map
        fun word => (s.position, withHint s%"plurals" d.config [s%"Service name ",
            quote s.name, s%" contains plural component ", quote (title word),
            s%", consider using ", quote (title (env.singularize (toLower word))), s%" instead."]) := by
  have := says_suppressable (purpose := (serviceNamesNoPluralsLinter env).purpose) (id := s%"SERVICE_NAMES_NO_PLURALS") (annotation := s%"plurals")
    (v := serviceNamesNoPlurals env) (f := fun n => match asService n with
      | some s => (serviceNamesNoPlurals env).service s Act.skip
      | none => Act.skip) (descend := nothing)
    (at_ := fun c n => (asService n).elim [] fun s =>
      ((Strs.splitCamelCaseWord s.name).filter fun word =>
        (env.singularize (toLower word) ≠ toLower word ∧ toUpper word ≠ word ∧
          toLower word ≠ s%"data") ∧ ¬ Suppressed s%"plurals" c s.comment).map
        fun word => (s.position, withHint s%"plurals" c [s%"Service name ",
            quote s.name, s%" contains plural component ", quote (title word),
            s%", consider using ", quote (title (env.singularize (toLower word))), s%" instead."])) rfl rfl
    (by
      intro n s
      cases asService n <;> rfl)
    (by intro around e k; cases e <;> rfl)
    (by
      intro l hl c n
      cases asService n with
      | none => exact .nil
      | some s =>
        show Said l ((Strs.splitCamelCaseWord s.name).flatMap _) ((List.filter _ _).map _)
        rw [← flatMap_filter_map]
        refine .flatMap _ fun word _ => ?_
        have key := Said.suppressableIf hl (by decide) c s.comment s.position [s%"Service name ",
            quote s.name, s%" contains plural component ", quote (title word),
            s%", consider using ", quote (title (env.singularize (toLower word))), s%" instead."]
          (b := env.singularize (toLower word) ≠ toLower word ∧ toUpper word ≠ word ∧
            toLower word ≠ s%"data") (by intro h; cases h) .rfl
        dsimp only [suppressable]
        unfold isAllowedServiceNamePlural
        by_cases h1 : env.singularize (toLower word) ≠ toLower word
        · rw [if_pos h1]
          by_cases h2 : toUpper word = word
          · simp [h2]; exact .nil
          · by_cases h3 : toLower word = s%"data"
            · simp [h2, h3]; exact .nil
            · simp only [h1, h2, h3, ne_eq, not_false_eq_true, and_self, if_true] at key
              simpa [h1, h2, h3] using key
        · rw [if_neg h1]
          simp only [h1, false_and, if_false]
          exact .nil)
  simp only [flatMap_pick] at this
  exact this

/-! ## Where the place is known and the text is one -/

/-- If all events say the same, the places are all there is to say. -/
theorem Said.ofAt {l : Linter} {evs : List Event} {ps : List Position} {m : Str}
    (h : At l evs ps) (hm : ∀ ev ∈ evs, ∀ f ∈ l.report ev, f.message = m) :
    Said l evs (ps.map fun p => (p, m)) := by
  refine ⟨?_, h.noPanic⟩
  rw [← h.places, List.map_map]
  refine List.map_congr_left fun f hf => ?_
  obtain ⟨ev, hev, he⟩ := List.mem_filterMap.1 hf
  show (place f, f.message) = _
  rw [hm ev hev f he]
  rfl

theorem repeated_congr {b b' : List Str} (h : ∀ t, t ∈ b ↔ t ∈ b') (us : List (Position × Str)) :
    repeated b us = repeated b' us := by
  induction us generalizing b b' with
  | nil => rfl
  | cons u us ih =>
    rw [repeated, repeated, ih (b := u.2 :: b) (b' := u.2 :: b') fun t => by simp [h t]]
    simp only [h u.2]

/-- What is said of a use of a type used before. -/
def usedBefore (u : Position × Str) : Position × Str :=
  (u.1, text [s%"Message ", quote u.2, s%" is already used as a request or response type in an RPC and all request and response types must be unique."])

theorem said_uses (us : List (Position × Str)) (seen : List Str) (l : Linter) :
    Said l (acts (fun u => useType u.1 u.2) us seen).2 ((repeated seen us).map usedBefore) := by
  induction us generalizing seen with
  | nil => exact .nil
  | cons u us ih =>
    rw [acts, Act.seq, repeated, List.map_append]
    refine Said.append ?_ ?_
    · have : (if u.2 ∈ seen then [u] else []).map usedBefore =
          if u.2 ∈ seen then [usedBefore u] else [] := by split <;> rfl
      show Said l (if u.2 ∈ seen then _ else []) _
      rw [show (if u.2 ∈ seen then [(u.1, u.2)] else []) = if u.2 ∈ seen then [u] else [] from rfl, this]
      exact .iff .rfl
    have h := ih (setInsert seen u.2)
    have e : repeated (setInsert seen u.2) us = repeated (u.2 :: seen) us :=
      repeated_congr (fun t => by rw [mem_setInsert, List.mem_cons, or_comm]) us
    rw [e] at h
    exact h

theorem says_unique : Says requestResponseTypesUniqueLinter fun d =>
    (repeated [] (uses d)).map usedBefore := by
  refine says_acts (v := requestResponseTypesUnique) (s0 := []) rfl (pick := asRPC)
    (f := fun r => (useType r.position r.requestType).seq (useType r.position r.returnsType))
    (st := fun _ => []) (descend := isService) (fin := fun _ => []) ?_ ?_ ?_ ?_
  · intro around e k; cases e <;> rfl
  · intro d s; rfl
  · intro d _; exact ⟨_, rfl⟩
  · intro d _
    rw [List.append_nil]
    have h := said_uses (uses d) [] requestResponseTypesUniqueLinter
    unfold uses at h
    rw [acts_flatMap] at h
    have e : (fun r : RPC => (useType r.position r.requestType).seq (useType r.position r.returnsType)) =
        fun r : RPC => acts (fun u : Position × Str => useType u.1 u.2)
          [(r.position, r.requestType), (r.position, r.returnsType)] := by
      funext r
      rw [acts, acts, acts, seq_skip]
    rw [e]
    exact h

end Verif.Lint
