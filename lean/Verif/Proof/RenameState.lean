import Verif.Proof.RenameRules

/-! # Rules with a state use file names only as labels -/

namespace Verif.Lint

open Verif Proto Spec Str

variable {S : Type} {ρ : Str → Str}

/-! ## File options -/

/-- The state in the renamed file. -/
def EqualState.rename (ρ : Str → Str) (s : EqualState) : EqualState :=
  ⟨s.descriptor.map (·.rename ρ), s.pkg.map (·.rename ρ), s.option.map (·.rename ρ)⟩

theorem ite_state {c : Prop} [Decidable c] {h : S → S} {a a' b b' : S} (ha : a' = h a)
    (hb : b' = h b) : (if c then a' else b') = h (if c then a else b) := by
  by_cases hc : c
  · rw [if_pos hc, if_pos hc, ha]
  · rw [if_neg hc, if_neg hc, hb]

theorem sim_equal (hρ : Renaming ρ) (fileOption : Str) (expected : FileDescriptor → Package → Str)
    (he : ∀ d p, d.filename ≠ [] → expected (d.rename ρ) (p.rename ρ) = expected d p) :
    VisitorSim ρ (EqualState.rename ρ) (fileOptionsEqual fileOption expected) := by
  refine ⟨fun _ => .modify fun _ => rfl, fun p k k' e hk => ?_, fun s => ?_⟩
  · cases e <;> first
      | exact .skip
      | exact .modify fun _ => rfl
      | exact .modify fun _ => ite_state rfl rfl
  · obtain ⟨d, pk, o⟩ := s
    cases d with
    | none => exact ⟨rfl, .nil, rfl⟩
    | some d =>
      cases pk with
      | none => exact ⟨rfl, .nil, rfl⟩
      | some pk =>
        cases o with
        | none => exact ⟨rfl, .nil, rfl⟩
        | some o =>
          have hf : (d.rename ρ).filename = ρ d.filename := rfl
          by_cases hd : d.filename = []
          · have hd' : (d.rename ρ).filename = [] := by rw [hf, hd, hρ.empty]
            simp only [fileOptionsEqual, EqualState.rename, Option.map_some, if_pos hd, if_pos hd']
            exact ⟨trivial, .nil, trivial⟩
          · have hd' : (d.rename ρ).filename ≠ [] := by rw [hf]; exact hρ.nonempty _ hd
            simp only [fileOptionsEqual, EqualState.rename, Option.map_some, if_neg hd, if_neg hd',
              he d pk hd]
            exact ⟨trivial, .ite Iff.rfl (.failure _ _ _) .nil, trivial⟩

/-- The state in the renamed file. -/
def RequireState.rename (ρ : Str → Str) (s : RequireState) : RequireState := ⟨ρ s.filename, s.seen⟩

theorem sim_require (fileOption : Str) :
    VisitorSim ρ (RequireState.rename ρ) (fileOptionsRequire fileOption) := by
  refine ⟨fun _ => .modify fun _ => rfl, fun p k k' e hk => ?_, fun s => ⟨rfl, ?_, rfl⟩⟩
  · cases e <;> first
      | exact .skip
      | exact .modify fun _ => ite_state rfl rfl
  · exact .ite Iff.rfl (.failure { filename := s.filename } _ _) .nil

/-- The state in the renamed file. -/
def UnsetState.rename (ρ : Str → Str) (s : UnsetState) : UnsetState := ⟨s.seen, s.position.rename ρ⟩

theorem sim_unset (hρ : Renaming ρ) (fileOption : Str) :
    VisitorSim ρ (UnsetState.rename ρ) (fileOptionsUnset fileOption) := by
  refine ⟨fun _ => .modify fun _ => ?_, fun p k k' e hk => ?_, fun s => ⟨rfl, ?_, rfl⟩⟩
  · unfold UnsetState.rename Position.rename
    rw [hρ.empty]
  · cases e <;> first
      | exact .skip
      | exact .modify fun _ => ite_state rfl rfl
  · exact .ite Iff.rfl (.failure _ _ _) .nil

/-- The state in the renamed file. -/
def OptionSameState.rename (ρ : Str → Str) (s : OptionSameState) : OptionSameState :=
  ⟨s.values, s.option.map (·.rename ρ)⟩

theorem sim_optionSame (env : Env) (fileOption : Str) :
    VisitorSim ρ (OptionSameState.rename ρ) (fileOptionsSameInDirVisitor env fileOption) := by
  refine ⟨fun _ => .modify fun _ => rfl, fun p k k' e hk => ?_, fun s => ?_⟩
  · cases e <;> first
      | exact .skip
      | skip
    rename_i o
    intro s
    obtain ⟨vs, first⟩ := s
    show (ite _ _ _ : OptionSameState × List Event).1 = _ ∧ EvSim ρ (ite _ _ _ : OptionSameState × List Event).2 _
    by_cases h : o.name = fileOption
    · have h' : (o.rename ρ).name = fileOption := h
      simp only [visit, fileOptionsSameInDirVisitor, Element.rename, if_pos h, if_pos h']
      cases first with
      | none => exact ⟨rfl, .nil⟩
      | some first => exact ⟨rfl, .failure _ _ _⟩
    · have h' : (o.rename ρ).name ≠ fileOption := h
      simp only [visit, fileOptionsSameInDirVisitor, Element.rename, if_neg h, if_neg h']
      exact ⟨trivial, .nil⟩
  · obtain ⟨vs, o⟩ := s
    cases o <;> exact ⟨rfl, .nil, rfl⟩

theorem sim_fileFailures (ds : List FileDescriptor) (m m' : List Str) :
    EvSim ρ (ds.flatMap fun d => addFailure { filename := d.filename } m)
      ((ds.map (·.rename ρ)).flatMap fun d => addFailure { filename := d.filename } m') := by
  rw [List.flatMap_map]
  exact .flatMap _ fun d _ => .failure { filename := d.filename } _ _

theorem labels_fileOptionsSameInDir (env : Env) (fileOption id : Str) :
    Labels ρ (newLinter id purpose (fileOptionsSameInDir env fileOption)) := by
  refine labels_of fun dirPath ds => ?_
  show EvSim ρ (fileOptionsSameInDir env fileOption dirPath ds).1
    (fileOptionsSameInDir env fileOption dirPath (ds.map (·.rename ρ))).1 ∧
      (fileOptionsSameInDir env fileOption dirPath (ds.map (·.rename ρ))).2 =
        (fileOptionsSameInDir env fileOption dirPath ds).2
  obtain ⟨h1, h2, h3⟩ := (sim_optionSame (ρ := ρ) env fileOption).run ds {}
  have h0 : OptionSameState.rename ρ {} = {} := rfl
  rw [h0] at h1 h2 h3
  unfold fileOptionsSameInDir
  rcases hr : runVisitor (fileOptionsSameInDirVisitor env fileOption) ds {} with ⟨s, es, err⟩
  rcases hr' : runVisitor (fileOptionsSameInDirVisitor env fileOption) (ds.map (·.rename ρ)) {}
    with ⟨s', es', err'⟩
  rw [hr']
  rw [hr, hr'] at h1 h2 h3
  dsimp only at h1 h2 h3
  subst h1 h3
  cases err' with
  | some e => exact ⟨h2, rfl⟩
  | none =>
    have hv : (OptionSameState.rename ρ s).values = s.values := rfl
    dsimp only
    rw [hv]
    by_cases ha : s.values.length > 1
    · rw [if_pos ha, if_pos ha]
      by_cases hb : [] ∈ s.values
      · rw [if_pos hb, if_pos hb]
        exact ⟨h2.append (sim_fileFailures _ _ _), rfl⟩
      · rw [if_neg hb, if_neg hb]
        exact ⟨h2.append (sim_fileFailures _ _ _), rfl⟩
    · rw [if_neg ha, if_neg ha]
      exact ⟨h2, rfl⟩

theorem sim_goPackage : VisitorSim ρ (Option.map (·.rename ρ)) fileOptionsGoPackageNotLongForm := by
  refine ⟨fun _ => .modify fun _ => rfl, fun p k k' e hk => ?_, fun s => ⟨rfl, ?_, rfl⟩⟩
  · cases e <;> first
      | exact .skip
      | exact .modify fun _ => ite_state rfl rfl
  · cases s with
    | none => exact .nil
    | some o => exact .ite Iff.rfl (.failure _ _ _) .nil

/-! ## Packages and syntax -/

/-- The state in the renamed file. -/
def PkgState.rename (ρ : Str → Str) (s : PkgState) : PkgState :=
  ⟨ρ s.filename, s.pkg.map (·.rename ρ)⟩

theorem sim_packageVisitor (env : Env) {finish : Str → Option Package → List Event}
    (hf : ∀ n p, EvSim ρ (finish n p) (finish (ρ n) (p.map (·.rename ρ)))) :
    VisitorSim ρ (PkgState.rename ρ) (packageVisitor env finish) := by
  refine ⟨fun _ => .modify fun _ => rfl, fun p k k' e hk => ?_, fun s => ⟨rfl, hf _ _, rfl⟩⟩
  cases e <;> first
    | exact .skip
    | skip
  intro s
  obtain ⟨n, pk⟩ := s
  cases pk with
  | none => exact ⟨rfl, .nil⟩
  | some first => exact ⟨rfl, .failure _ _ _⟩

theorem sim_noPackage (n : Str) : EvSim ρ (noPackage n) (noPackage (ρ n)) :=
  .failure { filename := n } _ _

theorem sim_packageIsDeclared (env : Env) :
    VisitorSim ρ (PkgState.rename ρ) (packageIsDeclared env) :=
  sim_packageVisitor env fun n p => by
    cases p with
    | none => exact sim_noPackage n
    | some p => exact .nil

theorem sim_packageLowerCase (env : Env) :
    VisitorSim ρ (PkgState.rename ρ) (packageLowerCase env) :=
  sim_packageVisitor env fun n p => by
    cases p with
    | none => exact .nil
    | some p => exact .ite Iff.rfl (.failure _ _ _) .nil

theorem sim_packageLowerSnakeCase (env : Env) :
    VisitorSim ρ (PkgState.rename ρ) (packageLowerSnakeCase env) :=
  sim_packageVisitor env fun n p => by
    cases p with
    | none => exact .nil
    | some p => exact .ite Iff.rfl (.failure _ _ _) .nil

theorem sim_packageMajorBetaVersioned (env : Env) :
    VisitorSim ρ (PkgState.rename ρ) (packageMajorBetaVersioned env) :=
  sim_packageVisitor env fun n p => by
    cases p with
    | none => exact sim_noPackage n
    | some p => exact .ite Iff.rfl (.failure _ _ _) .nil

/-- The state in the renamed file. -/
def PkgSameState.rename (ρ : Str → Str) (s : PkgSameState) : PkgSameState :=
  ⟨s.pkgs, s.pkg.map (·.rename ρ)⟩

theorem sim_packagesSame (env : Env) :
    VisitorSim ρ (PkgSameState.rename ρ) (packagesSameInDirVisitor env) := by
  refine ⟨fun _ => .modify fun _ => rfl, fun p k k' e hk => ?_, fun s => ?_⟩
  · cases e <;> first
      | exact .skip
      | skip
    intro s
    obtain ⟨n, pk⟩ := s
    cases pk with
    | none => exact ⟨rfl, .nil⟩
    | some first => exact ⟨rfl, .failure _ _ _⟩
  · obtain ⟨n, pk⟩ := s
    cases pk <;> exact ⟨rfl, .nil, rfl⟩

theorem labels_packagesSameInDir (env : Env) : Labels ρ (packagesSameInDirLinter env) := by
  refine labels_of fun dirPath ds => ?_
  show EvSim ρ (packagesSameInDir env dirPath ds).1
    (packagesSameInDir env dirPath (ds.map (·.rename ρ))).1 ∧
      (packagesSameInDir env dirPath (ds.map (·.rename ρ))).2 = (packagesSameInDir env dirPath ds).2
  obtain ⟨h1, h2, h3⟩ := (sim_packagesSame (ρ := ρ) env).run ds {}
  have h0 : PkgSameState.rename ρ {} = {} := rfl
  rw [h0] at h1 h2 h3
  unfold packagesSameInDir
  rcases hr : runVisitor (packagesSameInDirVisitor env) ds {} with ⟨s, es, err⟩
  rcases hr' : runVisitor (packagesSameInDirVisitor env) (ds.map (·.rename ρ)) {}
    with ⟨s', es', err'⟩
  rw [hr']
  rw [hr, hr'] at h1 h2 h3
  dsimp only at h1 h2 h3
  subst h1 h3
  cases err' with
  | some e => exact ⟨h2, rfl⟩
  | none =>
    have hv : (PkgSameState.rename ρ s).pkgs = s.pkgs := rfl
    dsimp only
    rw [hv]
    by_cases ha : s.pkgs.length > 1
    · rw [if_pos ha, if_pos ha]
      exact ⟨h2.append (sim_fileFailures _ _ _), rfl⟩
    · rw [if_neg ha, if_neg ha]
      exact ⟨h2, rfl⟩

/-- The state in the renamed file. -/
def SyntaxState.rename (ρ : Str → Str) (s : SyntaxState) : SyntaxState :=
  ⟨ρ s.filename, s.syntax_.map (·.rename ρ)⟩

theorem sim_syntaxProto3 (env : Env) : VisitorSim ρ (SyntaxState.rename ρ) (syntaxProto3 env) := by
  refine ⟨fun _ => .modify fun _ => rfl, fun p k k' e hk => ?_, fun s => ?_⟩
  · cases e <;> first
      | exact .skip
      | skip
    intro s
    obtain ⟨n, x⟩ := s
    cases x with
    | none => exact ⟨rfl, .nil⟩
    | some first => exact ⟨rfl, .failure _ _ _⟩
  · obtain ⟨n, x⟩ := s
    refine ⟨rfl, ?_, rfl⟩
    cases x with
    | none => exact .failure { filename := n } _ _
    | some x => exact .ite Iff.rfl (.failure _ _ _) .nil

/-! ## Maps of nodes -/

/-- The map with renamed values. -/
def mapValues {α β : Type} (φ : α → β) (m : GoMap Str α) : GoMap Str β := m.map fun p => (p.1, φ p.2)

theorem mapValues_set {α β : Type} (φ : α → β) (m : GoMap Str α) (k : Str) (v : α) :
    GoMap.set (mapValues φ m) k (φ v) = mapValues φ (GoMap.set m k v) := by
  unfold mapValues
  induction m with
  | nil => rfl
  | cons p m ih =>
    rw [List.map_cons]
    unfold GoMap.set
    dsimp only
    by_cases h : p.1 = k
    · rw [if_pos h, if_pos h]; rfl
    · rw [if_neg h, if_neg h, List.map_cons, ih]

theorem mapValues_get {α β : Type} (φ : α → β) (m : GoMap Str α) (k : Str) :
    GoMap.get? (mapValues φ m) k = (GoMap.get? m k).map φ := by
  unfold mapValues
  induction m with
  | nil => rfl
  | cons p m ih =>
    rw [List.map_cons, GoMap.get?_cons, GoMap.get?_cons, ih]
    dsimp only
    by_cases h : p.1 = k
    · rw [if_pos h, if_pos h]; rfl
    · rw [if_neg h, if_neg h]

theorem mapValues_delete {α β : Type} (φ : α → β) (m : GoMap Str α) (k : Str) :
    GoMap.delete (mapValues φ m) k = mapValues φ (GoMap.delete m k) := by
  unfold mapValues GoMap.delete
  rw [List.filter_map]
  rfl

/-! ## Messages -/

/-- The state in the renamed file. -/
def ExceptState.rename (ρ : Str → Str) (s : ExceptState Message) : ExceptState Message :=
  { s with messages := mapValues (·.rename ρ) s.messages }

theorem sim_messagesExcept (o : Order) {handle : Message → List Event}
    (hh : ∀ m, EvSim ρ (handle m) (handle (m.rename ρ))) :
    VisitorSim ρ (ExceptState.rename ρ) (messagesExceptVisitor o handle) := by
  refine ⟨fun _ => .modify fun _ => rfl, fun p k k' e hk => ?_, fun s => ⟨rfl, ?_, rfl⟩⟩
  · cases e <;> first
      | exact .skip
      | exact hk
      | exact .modify fun _ => rfl
      | skip
    rename_i m es
    intro s
    obtain ⟨h1, h2⟩ := hk { s with nestedMessageNames := s.nestedMessageNames ++ [m.name] }
    refine ⟨?_, h2⟩
    simp only [visit, messagesExceptVisitor, Element.rename]
    have h1' : (k' { ExceptState.rename ρ s with nestedMessageNames :=
        (ExceptState.rename ρ s).nestedMessageNames ++ [(m.rename ρ).name] }).1 = _ := h1
    rw [h1']
    unfold ExceptState.rename
    dsimp only
    rw [← mapValues_set]
    rfl
  · exact .loop (φ := fun p : Str × Message => (p.1, p.2.rename ρ)) (o.perm _ _) (o.perm _ _)
      fun x _ => .ite Iff.rfl (.ite Iff.rfl (hh _) .nil) .nil

theorem sim_messagesHaveCommentsExcept (env : Env) : VisitorSim ρ (ExceptState.rename ρ)
    (messagesHaveCommentsExceptRequestResponseTypes env) :=
  sim_messagesExcept _ fun _ => .ite (by same) (.failure _ _ _) .nil

theorem sim_messagesHaveSentenceCommentsExcept (env : Env) : VisitorSim ρ (ExceptState.rename ρ)
    (messagesHaveSentenceCommentsExceptRequestResponseTypes env) :=
  sim_messagesExcept _ fun _ => .ite (by same) (.failure _ _ _) .nil

/-- The state in the renamed file. -/
def NotEmptyState.rename (ρ : Str → Str) (s : NotEmptyState) : NotEmptyState :=
  { s with messages := mapValues (fun x => (x.1.rename ρ, x.2)) s.messages }

theorem sim_messagesNotEmpty (env : Env) : VisitorSim ρ (NotEmptyState.rename ρ)
    (messagesNotEmptyExceptRequestResponseTypes env) := by
  refine ⟨fun _ => .modify fun _ => rfl, fun p k k' e hk => ?_, fun s => ⟨rfl, ?_, rfl⟩⟩
  · cases e <;> first
      | exact .skip
      | exact hk
      | exact .modify fun _ => rfl
      | skip
    rename_i m es
    intro s
    obtain ⟨h1, h2⟩ := hk { s with
      nestedMessageNames := s.nestedMessageNames ++ [m.name], curFieldCount := 0 }
    refine ⟨?_, h2⟩
    simp only [visit, messagesNotEmptyExceptRequestResponseTypes, Element.rename]
    have h1' : (k' { NotEmptyState.rename ρ s with nestedMessageNames :=
        (NotEmptyState.rename ρ s).nestedMessageNames ++ [(m.rename ρ).name], curFieldCount := 0 }).1
        = _ := h1
    rw [h1']
    unfold NotEmptyState.rename
    dsimp only
    rw [← mapValues_set]
    rfl
  · exact .loop (φ := fun p : Str × Message × Nat => (p.1, p.2.1.rename ρ, p.2.2))
      (env.order.perm _ _) (env.order.perm _ _)
      fun x _ => .ite Iff.rfl (.ite Iff.rfl (.failure _ _ _) .nil) .nil

/-! ## Request and response types -/

/-- The state in the renamed file. -/
def AfterState.rename (ρ : Str → Str) (s : AfterState) : AfterState :=
  ⟨mapValues (·.rename ρ) s.messages, s.rpcs.map (·.rename ρ)⟩

theorem sim_after : VisitorSim ρ (AfterState.rename ρ) requestResponseTypesAfterService := by
  refine ⟨fun _ => .modify fun _ => rfl, fun p k k' e hk => ?_, fun s => ⟨rfl, ?_, rfl⟩⟩
  · cases e <;> first
      | exact .skip
      | exact hk
      | skip
    · refine .modify fun s => ?_
      unfold AfterState.rename
      dsimp only
      rw [← mapValues_set]
      rfl
    · refine .modify fun s => ?_
      unfold AfterState.rename
      dsimp only
      rw [List.map_append]
      rfl
  · simp only [requestResponseTypesAfterService, AfterState.rename]
    rw [List.flatMap_map]
    refine .flatMap _ fun rpc _ => ?_
    rw [mapValues_get, mapValues_get]
    have e1 : (rpc.rename ρ).requestType = rpc.requestType := rfl
    have e2 : (rpc.rename ρ).returnsType = rpc.returnsType := rfl
    rw [e1, e2]
    cases GoMap.get? s.messages rpc.requestType <;> cases GoMap.get? s.messages rpc.returnsType <;>
      exact ((by first | exact .nil | exact .ite Iff.rfl (.failure _ _ _) .nil :
        EvSim ρ _ _).append (by first | exact .nil | exact .ite Iff.rfl (.failure _ _ _) .nil)).append
          (by first | exact .nil | exact .ite Iff.rfl (.failure _ _ _) .nil)

/-- The state in the renamed file. -/
def SameFileState.rename (ρ : Str → Str) (s : SameFileState) : SameFileState :=
  { s with rpcs := s.rpcs.map (·.rename ρ) }

theorem sim_sameFile : VisitorSim ρ (SameFileState.rename ρ) requestResponseTypesInSameFile := by
  refine ⟨fun _ => .modify fun _ => rfl, fun p k k' e hk => ?_, fun s => ⟨rfl, ?_, rfl⟩⟩
  · cases e <;> first
      | exact .skip
      | exact hk
      | skip
    · rename_i m es
      intro s
      obtain ⟨h1, h2⟩ := hk { s with nestedMessageNames := s.nestedMessageNames ++ [m.name] }
      refine ⟨?_, h2⟩
      simp only [visit, requestResponseTypesInSameFile, Element.rename]
      have h1' : (k' { SameFileState.rename ρ s with nestedMessageNames :=
          (SameFileState.rename ρ s).nestedMessageNames ++ [(m.rename ρ).name] }).1 = _ := h1
      rw [h1']
      rfl
    · refine .modify fun s => ?_
      unfold SameFileState.rename
      dsimp only
      rw [List.map_append]
      rfl
  · simp only [requestResponseTypesInSameFile, SameFileState.rename]
    rw [List.flatMap_map]
    exact .flatMap _ fun rpc _ =>
      (EvSim.ite Iff.rfl (.failure _ _ _) (.ite Iff.rfl (.failure _ _ _) .nil)).append
        (.ite Iff.rfl (.failure _ _ _) (.ite Iff.rfl (.failure _ _ _) .nil))

/-- The state in the renamed file. -/
def OnlyState.rename (ρ : Str → Str) (s : OnlyState) : OnlyState :=
  ⟨mapValues (·.rename ρ) s.messages, mapValues (·.rename ρ) s.enums, s.rpcs.map (·.rename ρ)⟩

theorem fold_delete (ms : GoMap Str Message) (rs : List RPC) :
    (rs.map (·.rename ρ)).foldl (fun ms rpc =>
        GoMap.delete (GoMap.delete ms rpc.requestType) rpc.returnsType)
        (mapValues (·.rename ρ) ms) =
      mapValues (·.rename ρ) (rs.foldl (fun ms rpc =>
        GoMap.delete (GoMap.delete ms rpc.requestType) rpc.returnsType) ms) := by
  induction rs generalizing ms with
  | nil => rfl
  | cons r rs ih =>
    rw [List.map_cons, List.foldl_cons, List.foldl_cons, mapValues_delete, mapValues_delete, ih]
    rfl

theorem sim_only (env : Env) :
    VisitorSim ρ (OnlyState.rename ρ) (requestResponseTypesOnlyInFile env) := by
  refine ⟨fun _ => .modify fun _ => rfl, fun p k k' e hk => ?_, fun s => ?_⟩
  · cases e <;> first
      | exact .skip
      | exact hk
      | skip
    · refine .modify fun s => ?_
      unfold OnlyState.rename
      dsimp only
      rw [← mapValues_set]
      rfl
    · refine .modify fun s => ?_
      unfold OnlyState.rename
      dsimp only
      rw [← mapValues_set]
      rfl
    · refine .modify fun s => ?_
      unfold OnlyState.rename
      dsimp only
      rw [List.map_append]
      rfl
  · have hlen : (OnlyState.rename ρ s).rpcs.length = s.rpcs.length := List.length_map _
    simp only [requestResponseTypesOnlyInFile]
    rw [hlen]
    by_cases h : s.rpcs.length = 0
    · rw [if_pos h, if_pos h]
      exact ⟨rfl, .nil, rfl⟩
    · rw [if_neg h, if_neg h]
      have hd := fold_delete (ρ := ρ) s.messages s.rpcs
      simp only [OnlyState.rename]
      rw [hd]
      refine ⟨rfl, .append ?_ ?_, trivial⟩
      · exact .loop (φ := fun p : Str × Enum => (p.1, p.2.rename ρ)) (env.order.perm _ _)
          (env.order.perm _ _) fun x _ => .failure _ _ _
      · exact .loop (φ := fun p : Str × Message => (p.1, p.2.rename ρ)) (env.order.perm _ _)
          (env.order.perm _ _) fun x _ => .failure _ _ _

theorem sim_useType (p : Position) (t : Str) :
    ActSim ρ id (useType p t) (useType (p.rename ρ) t) :=
  fun _ => ⟨rfl, .ite Iff.rfl (.failure _ _ _) .nil⟩

theorem sim_unique : VisitorSim ρ id requestResponseTypesUnique := by
  refine ⟨fun _ => .modify fun _ => rfl, fun p k k' e hk => ?_, fun s => ⟨rfl, .nil, rfl⟩⟩
  cases e <;> first
    | exact .skip
    | exact hk
    | exact (sim_useType _ _).seq (sim_useType _ _)

/-! ## Services -/

/-- The state in the renamed file. -/
def ServicesState.rename (ρ : Str → Str) (s : ServicesState) : ServicesState :=
  ⟨ρ s.filename, s.services.map (·.rename ρ)⟩

theorem sim_services (hρ : Renaming ρ) :
    VisitorSim ρ (ServicesState.rename ρ) serviceNamesMatchFileName := by
  refine ⟨fun _ => .modify fun _ => rfl, fun p k k' e hk => ?_, fun s => ⟨rfl, ?_, rfl⟩⟩
  · cases e <;> first
      | exact .skip
      | skip
    refine .modify fun s => ?_
    unfold ServicesState.rename
    dsimp only
    rw [List.map_append]
    rfl
  · obtain ⟨n, ss⟩ := s
    cases ss with
    | nil => exact .nil
    | cons s ss =>
      cases ss with
      | nil =>
        simp only [serviceNamesMatchFileName, ServicesState.rename, List.map_cons, List.map_nil,
          hρ.base]
        exact .ite Iff.rfl (.failure _ _ _) .nil
      | cons s' ss =>
        simp only [serviceNamesMatchFileName, ServicesState.rename, List.map_cons]
        have := List.flatMap_map (Service.rename ρ) (fun s : Service => addFailure s.position
          [s%"Multiple services defined in this file and there should be only one service per file."])
          (l := s :: s' :: ss)
        rw [List.map_cons, List.map_cons] at this
        rw [this]
        exact .flatMap _ fun _ _ => .failure _ _ _

end Verif.Lint
