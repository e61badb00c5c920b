import Verif.Proof.Rename

/-! # Each rule uses file names only as labels -/

namespace Verif.Lint

open Verif Proto Spec Str

variable {S : Type} {ρ : Str → Str}

theorem golang_rename (c : Option Comment) (name : Str) :
    hasGolangStyleComment (c.map (·.rename ρ)) name = hasGolangStyleComment c name := by
  cases c <;> rfl

theorem sentence_rename (c : Option Comment) :
    hasCompleteSentenceComment (c.map (·.rename ρ)) = hasCompleteSentenceComment c := by
  cases c <;> rfl

/-- The conditions of the rules. -/
macro "same" : tactic => `(tactic| first
  | exact Iff.rfl
  | exact iff_of_eq (congrArg (· = true) (congrArg (!·) (golang_rename _ _).symm))
  | exact iff_of_eq (congrArg (· = true) (congrArg (!·) (sentence_rename _).symm)))

/-- Failures of the rules. -/
macro "sims" : tactic => `(tactic| repeat' first
  | assumption
  | exact ActSim.skip
  | exact EvSim.nil
  | exact EvSim.panic
  | exact EvSim.failure _ _ _
  | exact EvSim.suppressable _ _ _ _ _
  | refine EvSim.ite (by same) ?_ ?_
  | refine ActSim.seq ?_ ?_
  | refine ActSim.emit ?_
  | refine EvSim.append ?_ ?_)

/-- Visitors without a state. -/
theorem sim_plain {v : Visitor S} (h0 : ∀ d, v.onStart d = Act.skip)
    (hf : ∀ s, v.finally_ s = (s, [], none))
    (hv : ∀ p k k' e, ActSim ρ id k k' →
      ActSim ρ id (visit v p k e) (visit v (Parent.rename ρ p) k' (e.rename ρ))) :
    VisitorSim ρ id v := by
  refine ⟨fun d => ?_, hv, fun s => ?_⟩
  · rw [h0, h0]; exact .skip
  · show (v.finally_ s).1 = (v.finally_ s).1 ∧ _ ∧ (v.finally_ s).2.2 = (v.finally_ s).2.2
    refine ⟨rfl, ?_, rfl⟩
    show EvSim ρ (v.finally_ s).2.1 (v.finally_ s).2.1
    rw [hf]
    exact .nil

theorem sim_checkComments (p : Position) (cs : List (Option Comment)) :
    ActSim ρ id (checkComments p cs)
      (checkComments (p.rename ρ) (cs.map (Option.map (·.rename ρ)))) := by
  refine .emit ?_
  rw [List.flatMap_map]
  refine .flatMap _ fun c _ => ?_
  cases c with
  | none => exact .nil
  | some c => exact .ite Iff.rfl (.failure _ _ _) .nil

theorem sim_commentsNoCStyle : VisitorSim ρ id commentsNoCStyle := by
  refine sim_plain (fun _ => rfl) (fun _ => rfl) fun p k k' e hk => ?_
  cases e <;> first
    | exact sim_checkComments _ _
    | exact (sim_checkComments _ _).seq hk

theorem sim_checkInlineComment (t : Str) (c : Option Comment) :
    ActSim ρ id (checkInlineComment t c) (checkInlineComment t (c.map (·.rename ρ))) := by
  refine .emit ?_
  cases c with
  | none => exact .nil
  | some c => exact .failure _ _ _

theorem sim_commentsNoInline : VisitorSim ρ id commentsNoInline := by
  refine sim_plain (fun _ => rfl) (fun _ => rfl) fun p k k' e hk => ?_
  cases e <;> first
    | exact hk
    | exact .skip
    | exact sim_checkInlineComment _ _
    | exact (sim_checkInlineComment _ _).seq hk

/-- Visitors without a state, proved by cases. -/
macro "plain" : tactic => `(tactic|
  (refine sim_plain (fun _ => rfl) (fun _ => rfl) fun p k k' e hk => ?_
   cases e <;> sims))

theorem sim_enumFieldNamesUppercase : VisitorSim ρ id enumFieldNamesUppercase := by plain

theorem sim_enumFieldNamesUpperSnakeCase : VisitorSim ρ id enumFieldNamesUpperSnakeCase := by plain

theorem sim_enumFieldsHaveComments : VisitorSim ρ id enumFieldsHaveComments := by plain

theorem sim_enumFieldsHaveSentenceComments : VisitorSim ρ id enumFieldsHaveSentenceComments := by plain

theorem sim_enumNamesCamelCase : VisitorSim ρ id enumNamesCamelCase := by plain

theorem sim_enumNamesCapitalized : VisitorSim ρ id enumNamesCapitalized := by plain

theorem sim_enumsHaveComments : VisitorSim ρ id enumsHaveComments := by plain

theorem sim_enumsHaveSentenceComments : VisitorSim ρ id enumsHaveSentenceComments := by plain

theorem sim_gogoNotImported : VisitorSim ρ id gogoNotImported := by plain

theorem sim_importsNotPublic : VisitorSim ρ id importsNotPublic := by plain

theorem sim_importsNotWeak : VisitorSim ρ id importsNotWeak := by plain

theorem sim_messageFieldNamesFilename : VisitorSim ρ id messageFieldNamesFilename := by plain

theorem sim_messageFieldNamesFilepath : VisitorSim ρ id messageFieldNamesFilepath := by plain

theorem sim_messageFieldNamesLowerSnakeCase : VisitorSim ρ id messageFieldNamesLowerSnakeCase := by plain

theorem sim_messageFieldNamesLowercase : VisitorSim ρ id messageFieldNamesLowercase := by plain

theorem sim_messageFieldNamesNoDescriptor : VisitorSim ρ id messageFieldNamesNoDescriptor := by plain

theorem sim_messageFieldsDuration : VisitorSim ρ id messageFieldsDuration := by plain

theorem sim_messageFieldsHaveComments : VisitorSim ρ id messageFieldsHaveComments := by plain

theorem sim_messageFieldsHaveSentenceComments : VisitorSim ρ id messageFieldsHaveSentenceComments := by plain

theorem sim_messageFieldsTime : VisitorSim ρ id messageFieldsTime := by plain

theorem sim_wktDurationSuffix : VisitorSim ρ id wktDurationSuffix := by plain

theorem sim_wktTimestampSuffix : VisitorSim ρ id wktTimestampSuffix := by plain

theorem sim_messageNamesCamelCase : VisitorSim ρ id messageNamesCamelCase := by plain

theorem sim_messageNamesCapitalized : VisitorSim ρ id messageNamesCapitalized := by plain

theorem sim_messagesHaveComments : VisitorSim ρ id messagesHaveComments := by plain

theorem sim_oneofNamesLowerSnakeCase : VisitorSim ρ id oneofNamesLowerSnakeCase := by plain

theorem sim_requestResponseNamesMatchRPC : VisitorSim ρ id requestResponseNamesMatchRPC := by plain

theorem sim_rpcNamesCamelCase : VisitorSim ρ id rpcNamesCamelCase := by plain

theorem sim_rpcNamesCapitalized : VisitorSim ρ id rpcNamesCapitalized := by plain

theorem sim_rpcsHaveComments : VisitorSim ρ id rpcsHaveComments := by plain

theorem sim_rpcsHaveSentenceComments : VisitorSim ρ id rpcsHaveSentenceComments := by plain

theorem sim_rpcsNoStreaming : VisitorSim ρ id rpcsNoStreaming := by plain

theorem sim_serviceNamesAPISuffix : VisitorSim ρ id serviceNamesAPISuffix := by plain

theorem sim_serviceNamesCamelCase : VisitorSim ρ id serviceNamesCamelCase := by plain

theorem sim_serviceNamesCapitalized : VisitorSim ρ id serviceNamesCapitalized := by plain

theorem sim_servicesHaveComments : VisitorSim ρ id servicesHaveComments := by plain

theorem sim_servicesHaveSentenceComments : VisitorSim ρ id servicesHaveSentenceComments := by plain

theorem sim_nested (name : Str) {k k' : Act (List Str)} (hk : ActSim ρ id k k') :
    ActSim ρ id (nested name k) (nested name k') := by
  intro s
  obtain ⟨h1, h2⟩ := hk (s ++ [Strs.toUpperSnakeCase name])
  unfold nested
  simp only [id_eq] at h1 h2 ⊢
  rw [h1]
  exact ⟨rfl, h2⟩

/-- Actions that only read the state. -/
theorem ActSim.read {h : S → S} {f g : S → List Event} (he : ∀ s, EvSim ρ (f s) (g (h s))) :
    ActSim ρ h (fun s => (s, f s)) (fun s => (s, g s)) := fun s => ⟨rfl, he s⟩

theorem sim_enumFieldPrefixes : VisitorSim ρ id enumFieldPrefixes := by
  refine sim_plain (fun _ => rfl) (fun _ => rfl) fun p k k' e hk => ?_
  cases e <;> first
    | exact .skip
    | exact sim_nested _ hk
    | exact .read fun _ => .ite Iff.rfl (.failure _ _ _) .nil

theorem sim_enumZeroValuesInvalid : VisitorSim ρ id enumZeroValuesInvalid := by
  refine sim_plain (fun _ => rfl) (fun _ => rfl) fun p k k' e hk => ?_
  cases e <;> first
    | exact .skip
    | exact sim_nested _ hk
    | exact .read fun _ => .ite Iff.rfl (.ite Iff.rfl (.failure _ _ _) .nil) .nil

theorem sim_withEnumParent (p : Parent) (f : EnumField) {use use' : Enum → List Event}
    (h : ∀ e, EvSim ρ (use e) (use' (e.rename ρ))) :
    EvSim ρ (withEnumParent p f use) (withEnumParent (Parent.rename ρ p) (f.rename ρ) use') := by
  cases p <;> first
    | exact h _
    | exact (EvSim.failure _ _ _).append .panic

theorem sim_enumFieldPrefixesExceptMessage : VisitorSim ρ id enumFieldPrefixesExceptMessage := by
  refine sim_plain (fun _ => rfl) (fun _ => rfl) fun p k k' e hk => ?_
  cases e <;> first
    | exact .skip
    | exact hk
    | exact .emit (sim_withEnumParent _ _ fun _ => .ite Iff.rfl (.failure _ _ _) .nil)

theorem sim_enumZeroValuesInvalidExceptMessage :
    VisitorSim ρ id enumZeroValuesInvalidExceptMessage := by
  refine sim_plain (fun _ => rfl) (fun _ => rfl) fun p k k' e hk => ?_
  cases e <;> first
    | exact .skip
    | exact hk
    | exact .emit (.ite Iff.rfl
        (sim_withEnumParent _ _ fun _ => .ite Iff.rfl (.failure _ _ _) .nil) .nil)

theorem sim_enumsNoAllowAlias : VisitorSim ρ id enumsNoAllowAlias := by
  refine sim_plain (fun _ => rfl) (fun _ => rfl) fun p k k' e hk => ?_
  cases e <;> first
    | exact .skip
    | exact hk
    | skip
  refine .emit ?_
  cases p <;> first
    | exact .nil
    | exact .ite Iff.rfl (.failure _ _ _) .nil

theorem sim_fieldsNotReserved : VisitorSim ρ id fieldsNotReserved := by
  refine sim_plain (fun _ => rfl) (fun _ => rfl) fun p k k' e hk => ?_
  cases e <;> first
    | exact .skip
    | exact fun s => ⟨rfl, (hk _).2⟩
    | exact .read fun _ => .failure _ _ _

theorem sim_fileHeader : VisitorSim ρ id fileHeader := by
  refine ⟨fun d => ?_, fun p k k' e hk => ?_, fun s => ⟨rfl, .nil, rfl⟩⟩
  · exact .emit (.ite Iff.rfl (.ite Iff.rfl (.failure { filename := d.filename } _ _) .nil) .nil)
  · cases e <;> exact .skip

theorem sim_fileNamesLowerSnakeCase (hρ : Renaming ρ) : VisitorSim ρ id fileNamesLowerSnakeCase := by
  refine ⟨fun d => ?_, fun p k k' e hk => ?_, fun s => ⟨rfl, .nil, rfl⟩⟩
  · refine .emit ?_
    have h : (d.rename ρ).filename = ρ d.filename := rfl
    dsimp only
    rw [h, hρ.base]
    exact .ite Iff.rfl (.failure { filename := d.filename } _ _) .nil
  · cases e <;> exact .skip

theorem sim_messageFieldsNoJSONName : VisitorSim ρ id messageFieldsNoJSONName := by
  have h : ∀ f : Field, EvSim ρ
      (f.options.flatMap fun o => if o.name = s%"json_name" then
        addFailure f.position
          [s%"Field ", quote f.name, s%" cannot have the \"json_name\" option set."] else [])
      ((f.rename ρ).options.flatMap fun o => if o.name = s%"json_name" then
        addFailure (f.rename ρ).position
          [s%"Field ", quote (f.rename ρ).name, s%" cannot have the \"json_name\" option set."]
        else []) := by
    intro f
    have ho : (f.rename ρ).options = f.options.map (·.rename ρ) := rfl
    rw [ho, List.flatMap_map]
    exact .flatMap _ fun o _ => .ite Iff.rfl (.failure _ _ _) .nil
  refine sim_plain (fun _ => rfl) (fun _ => rfl) fun p k k' e hk => ?_
  cases e <;> first
    | exact .skip
    | exact hk
    | exact .emit (h _)

theorem sim_wktDirectlyImported (env : Env) : VisitorSim ρ id (wktDirectlyImported env) := by
  refine sim_plain (fun _ => rfl) (fun _ => rfl) fun p k k' e hk => ?_
  cases e <;> first
    | exact .skip
    | exact .emit (.loop (φ := id) (env.order.perm _ _) (List.map_id _ ▸ env.order.perm _ _)
        fun _ _ => .ite Iff.rfl (.failure _ _ _) .nil)

/-! ## Rules that can be suppressed -/

theorem sim_suppressable {fs gs : Settings.Config → List Event} (h : ∀ c, EvSim ρ (fs c) (gs c)) :
    ActSim ρ id (suppressable fs) (suppressable gs) := by
  intro s
  cases s with
  | none => exact ⟨rfl, .panic⟩
  | some c => exact ⟨rfl, h c⟩

theorem sim_startSuppressable (d : FileDescriptor) :
    ActSim ρ id (startSuppressable d) (startSuppressable (d.rename ρ)) := .modify fun _ => rfl

theorem sim_checkNotFloat (f : Field) :
    ActSim ρ id (checkNotFloat f) (checkNotFloat (f.rename ρ)) :=
  .ite Iff.rfl (sim_suppressable fun _ => .suppressable _ _ _ _ _) .skip

theorem sim_messageFieldsNotFloats : VisitorSim ρ id messageFieldsNotFloats := by
  refine ⟨sim_startSuppressable, fun p k k' e hk => ?_, fun s => ⟨rfl, .nil, rfl⟩⟩
  cases e <;> first
    | exact .skip
    | exact hk
    | exact sim_checkNotFloat _

theorem sim_checkName (w h : Str) (p : Position) (n : Str) (c : Option Comment) :
    ActSim ρ id (checkName w h p n c) (checkName w h (p.rename ρ) n (c.map (·.rename ρ))) :=
  .ite Iff.rfl (sim_suppressable fun _ => .suppressable _ _ _ _ _) .skip

theorem sim_checkNames (w h : Str) (p : Position) (c : Option Comment) (ns : List Str) :
    ActSim ρ id (checkNames w h p c ns) (checkNames w h (p.rename ρ) (c.map (·.rename ρ)) ns) := by
  induction ns with
  | nil => exact .skip
  | cons n ns ih => exact (sim_checkName w h p n c).seq ih

theorem sim_names (w h : Str) : VisitorSim ρ id (names w h) := by
  refine ⟨sim_startSuppressable, fun p k k' e hk => ?_, fun s => ⟨rfl, .nil, rfl⟩⟩
  cases e <;> first
    | exact .skip
    | exact (sim_checkName _ _ _ _ _).seq hk
    | exact sim_checkName _ _ _ _ _
    | exact sim_checkNames _ _ _ _ _

theorem sim_packageNoKeywords : VisitorSim ρ id packageNoKeywords := by
  refine ⟨sim_startSuppressable, fun p k k' e hk => ?_, fun s => ⟨rfl, .nil, rfl⟩⟩
  cases e <;> first
    | exact .skip
    | exact .read fun s => .flatMap _ fun _ _ => .ite Iff.rfl
        ((sim_suppressable fun _ => .suppressable _ _ _ _ _) s).2 .nil

theorem sim_serviceNamesNoPlurals (env : Env) : VisitorSim ρ id (serviceNamesNoPlurals env) := by
  refine ⟨sim_startSuppressable, fun p k k' e hk => ?_, fun s => ⟨rfl, .nil, rfl⟩⟩
  cases e <;> first
    | exact .skip
    | exact .read fun s => .flatMap _ fun _ _ => .ite Iff.rfl (.ite Iff.rfl
        ((sim_suppressable fun _ => .suppressable _ _ _ _ _) s).2 .nil) .nil

/-- The state in the renamed file. -/
def HTTPState.rename (ρ : Str → Str) (s : HTTPState) : HTTPState :=
  ⟨s.config, s.rpc.map (·.rename ρ)⟩

theorem sim_http : VisitorSim ρ (HTTPState.rename ρ) rpcOptionsNoGoogleAPIHTTP := by
  have hopt : ∀ p p' o, ActSim ρ (HTTPState.rename ρ)
      (rpcOptionsNoGoogleAPIHTTP.option p o) (rpcOptionsNoGoogleAPIHTTP.option p' (o.rename ρ)) := by
    intro p p' o s
    refine ⟨rfl, ?_⟩
    obtain ⟨c, r⟩ := s
    cases r with
    | none => cases c <;> exact .ite Iff.rfl .panic .nil
    | some r => cases c with
      | none => exact .ite Iff.rfl .panic .nil
      | some c => exact .ite Iff.rfl (.suppressable _ _ _ _ _) .nil
  refine ⟨fun _ => .modify fun _ => rfl, fun p k k' e hk => ?_, fun s => ⟨rfl, .nil, rfl⟩⟩
  cases e <;> first
    | exact .skip
    | exact hk
    | exact hopt _ _ _
    | skip
  intro s
  obtain ⟨h1, h2⟩ := hk { s with rpc := some ‹_› }
  refine ⟨?_, h2⟩
  show { (k' _).1 with rpc := none } = _
  have : (k' (HTTPState.rename ρ { s with rpc := some ‹_› })).1 = _ := h1
  exact congrArg (fun t : HTTPState => { t with rpc := none }) this

end Verif.Lint
