import Verif.Proof.Reports
import Verif.Model.LintRun

/-! # What the rules look at in the configuration -/

namespace Verif.Lint

open Verif Proto

variable {S : Type}

/-- A change of the configuration. -/
structure Change where
  config : Settings.Config → Settings.Config
  keepsHeader : Bool
  keepsPrefix : Bool
  keepsSuppression : Bool

/-- The changed configuration, with the file header, the prefix of Java packages and whether comments suppress
failures as before if they are kept. -/
def Change.apply (m : Change) (c : Settings.Config) : Settings.Config :=
  { m.config c with lint := { (m.config c).lint with
    fileHeader := if m.keepsHeader then c.lint.fileHeader else (m.config c).lint.fileHeader
    javaPackagePrefix := if m.keepsPrefix then c.lint.javaPackagePrefix else (m.config c).lint.javaPackagePrefix
    allowSuppression :=
      if m.keepsSuppression then c.lint.allowSuppression else (m.config c).lint.allowSuppression } }

/-- The file under the changed configuration. -/
def FileDescriptor.changed (m : Change) (d : FileDescriptor) : FileDescriptor :=
  { d with config := m.apply d.config }

/-- The event under the changed configuration. -/
def Event.changed (m : Change) : Event → Event
  | .add c comment f => .add (c.map m.apply) comment f
  | .panic => .panic

/-- The change keeps what the rule looks at. -/
structure Change.Keeps (m : Change) (l : Linter) : Prop where
  header : l.id = s%"FILE_HEADER" → m.keepsHeader = true
  javaPrefix : l.id = s%"FILE_OPTIONS_EQUAL_JAVA_PACKAGE_PREFIX" → m.keepsPrefix = true
  suppression : l.suppressableAnnotation ≠ [] → m.keepsSuppression = true

/-- The rule does not look at the rest of the configuration. -/
def Blind (l : Linter) : Prop :=
  ∀ m : Change, m.Keeps l → ∀ dirPath ds, l.check dirPath (ds.map (·.changed m)) = l.check dirPath ds

theorem blind_of {l : Linter}
    (h : ∀ m dirPath ds, l.addCheck dirPath (ds.map (·.changed m)) = l.addCheck dirPath ds) :
    Blind l := by
  intro m _ dirPath ds
  unfold Linter.check
  rw [h]

/-- Visitors that take nothing from the configuration that the change concerns. -/
theorem runVisitor_blind {v : Visitor S} (h : ∀ m d, v.onStart (d.changed m) = v.onStart d)
    (m : Change) (ds : List FileDescriptor) (s : S) :
    runVisitor v (ds.map (·.changed m)) s = runVisitor v ds s := by
  induction ds generalizing s with
  | nil => rfl
  | cons d ds ih =>
    rw [List.map_cons]
    unfold runVisitor
    rw [h]
    dsimp only
    simp only [ih]
    rfl

theorem blind_visit {l : Linter} {v : Visitor S} {s0 : S} (hl : l.addCheck = visitWith v s0)
    (h : ∀ m d, v.onStart (d.changed m) = v.onStart d) : Blind l :=
  blind_of fun m dirPath ds => by
    rw [hl]
    unfold visitWith
    rw [runVisitor_blind h]

/-! ## Visitors that keep the configuration -/

/-- The action does the same under the changed configuration. -/
def ActEq (m : Change) (h : S → S) (a b : Act S) : Prop :=
  ∀ s, b (h s) = (h (a s).1, (a s).2.map (·.changed m))

theorem ActEq.skip {m} {h : S → S} : ActEq m h Act.skip Act.skip := fun _ => rfl

theorem ActEq.seq {m} {h : S → S} {a a' b b' : Act S} (ha : ActEq m h a a')
    (hb : ActEq m h b b') : ActEq m h (a.seq b) (a'.seq b') := by
  intro s
  unfold Act.seq
  rw [ha s]
  dsimp only
  rw [hb _, List.map_append]

/-- The visitor does the same under the changed configuration. -/
structure VisitorEq (m : Change) (h : S → S) (v : Visitor S) : Prop where
  start : ∀ d, ActEq m h (v.onStart d) (v.onStart (d.changed m))
  visit : ∀ p k e, ActEq m h k k → ActEq m h (visit v p k e) (visit v p k e)
  fin : ∀ s, v.finally_ (h s) = (h (v.finally_ s).1, (v.finally_ s).2.1.map (·.changed m),
    (v.finally_ s).2.2)

theorem VisitorEq.all {m} {h : S → S} {v : Visitor S} (hv : VisitorEq m h v) (es : List Element) :
    ∀ p, ActEq m h (acceptAll v p es) (acceptAll v p es) := by
  have key : ∀ cs : List Element, (∀ c ∈ cs, ∀ p, ActEq m h (accept v p c) (accept v p c)) →
      ∀ p, ActEq m h (acceptAll v p cs) (acceptAll v p cs) := by
    intro cs
    induction cs with
    | nil => intro _ p; unfold acceptAll; exact .skip
    | cons c cs ih =>
      intro hc p
      unfold acceptAll
      exact (hc c List.mem_cons_self p).seq (ih (fun c h => hc c (List.mem_cons_of_mem _ h)) p)
  refine key es fun c _ => ?_
  refine element_ind (P := fun c => ∀ p, ActEq m h (accept v p c) (accept v p c)) ?_ c
  intro e ih p
  rw [accept_eq v p e []]
  exact hv.visit _ _ _ (key _ ih _)

theorem VisitorEq.run {m} {h : S → S} {v : Visitor S} (hv : VisitorEq m h v)
    (ds : List FileDescriptor) (s : S) :
    runVisitor v (ds.map (·.changed m)) (h s) =
      (h (runVisitor v ds s).1, (runVisitor v ds s).2.1.map (·.changed m),
        (runVisitor v ds s).2.2) := by
  induction ds generalizing s with
  | nil => rfl
  | cons d ds ih =>
    have hr : fileRun v (d.changed m) (h s) =
        (h (fileRun v d s).1, (fileRun v d s).2.1.map (·.changed m), (fileRun v d s).2.2) := by
      unfold fileRun
      dsimp only
      have ha : ((v.onStart (d.changed m)).seq (acceptAll v .file (d.changed m).elements)) (h s)
          = _ := ((hv.start d).seq (hv.all d.elements .file)) s
      rw [ha]
      dsimp only
      rw [hv.fin]
      simp only [List.map_append]
    rw [List.map_cons, runVisitor_cons, runVisitor_cons, hr]
    dsimp only
    cases (fileRun v d s).2.2 with
    | some err => rfl
    | none => dsimp only; rw [ih, List.map_append]

theorem report_changed {l : Linter} {m : Change} (hm : m.Keeps l) (ev : Event) :
    l.report (ev.changed m) = l.report ev := by
  cases ev with
  | panic => rfl
  | add c comment f =>
    have : l.allowSuppression (c.map m.apply) = l.allowSuppression c := by
      unfold Linter.allowSuppression
      by_cases hl : l.suppressableAnnotation = []
      · rw [hl]; rfl
      · cases c with
        | none => rfl
        | some c =>
          dsimp only [Option.map]
          congr 1
          show (if m.keepsSuppression then _ else _) = _
          rw [hm.suppression hl]
          rfl
    unfold Event.changed Linter.report Linter.isSuppressed
    dsimp only
    rw [this]

theorem isPanic_changed (m : Change) (ev : Event) :
    (ev.changed m).isPanic = ev.isPanic := by
  cases ev <;> rfl

theorem VisitorEq.check {l : Linter} {v : Visitor S} {s0 : S} (hl : l.addCheck = visitWith v s0) {m : Change}
    {h : S → S} (h0 : h s0 = s0) (hv : VisitorEq m h v) (hm : m.Keeps l) (dirPath : Str) (ds : List FileDescriptor) :
    l.check dirPath (ds.map (·.changed m)) = l.check dirPath ds := by
  unfold Linter.check
  rw [hl]
  unfold visitWith
  have := hv.run ds s0
  rw [h0] at this
  rw [this]
  dsimp only
  rw [List.any_map, List.filterMap_map]
  have h1 : Event.isPanic ∘ (·.changed m) = Event.isPanic := funext (isPanic_changed m)
  have h2 : l.report ∘ (·.changed m) = l.report := funext (report_changed hm)
  rw [h1, h2]

theorem VisitorEq.blind {l : Linter} {v : Visitor S} {s0 : S} (hl : l.addCheck = visitWith v s0)
    {h : Change → S → S} (h0 : ∀ m, h m s0 = s0) (hv : ∀ m, VisitorEq m (h m) v) :
    Blind l := fun m hm => VisitorEq.check hl (h0 m) (hv m) hm

/-! ## The rules that can be suppressed -/

theorem actEq_suppressable {m} {fs : Settings.Config → List Event}
    (h : ∀ c, fs (m.apply c) = (fs c).map (·.changed m)) :
    ActEq m (Option.map m.apply) (suppressable fs) (suppressable fs) := by
  intro s
  cases s with
  | none => rfl
  | some c =>
    show (_, fs (m.apply c)) = _
    rw [h]
    rfl

theorem actEq_ite {m} {h : S → S} {c : Prop} [Decidable c] {a a' b b' : Act S}
    (ha : ActEq m h a a') (hb : ActEq m h b b') :
    ActEq m h (if c then a else b) (if c then a' else b') := by
  by_cases hc : c
  · rw [if_pos hc, if_pos hc]; exact ha
  · rw [if_neg hc, if_neg hc]; exact hb

theorem actEq_checkNotFloat (m) (f : Field) :
    ActEq m (Option.map m.apply) (checkNotFloat f) (checkNotFloat f) :=
  actEq_ite (actEq_suppressable fun _ => rfl) .skip

theorem actEq_checkName (m) (w h : Str) (p : Position) (n : Str) (c : Option Comment) :
    ActEq m (Option.map m.apply) (checkName w h p n c) (checkName w h p n c) :=
  actEq_ite (actEq_suppressable fun _ => rfl) .skip

theorem actEq_checkNames (m) (w h : Str) (p : Position) (c : Option Comment) (ns : List Str) :
    ActEq m (Option.map m.apply) (checkNames w h p c ns) (checkNames w h p c ns) := by
  induction ns with
  | nil => exact .skip
  | cons n ns ih => unfold checkNames; exact (actEq_checkName m _ _ _ _ _).seq ih

theorem actEq_start (m) (d : FileDescriptor) : ActEq m (Option.map m.apply)
    (startSuppressable d) (startSuppressable (d.changed m)) := fun _ => rfl

theorem eq_floats (m) : VisitorEq m (Option.map m.apply) messageFieldsNotFloats := by
  refine ⟨actEq_start m, fun p k e hk => ?_, fun _ => rfl⟩
  cases e <;> first | exact .skip | exact hk | exact actEq_checkNotFloat m _

theorem eq_names (w h : Str) (m) : VisitorEq m (Option.map m.apply) (names w h) := by
  refine ⟨actEq_start m, fun p k e hk => ?_, fun _ => rfl⟩
  cases e <;> first
    | exact .skip
    | exact (actEq_checkName m _ _ _ _ _).seq hk
    | exact actEq_checkName m _ _ _ _ _
    | exact actEq_checkNames m _ _ _ _ _

theorem map_flatMap_events {α : Type} {m} (xs : List α) {f g : α → List Event}
    (h : ∀ x ∈ xs, g x = (f x).map (·.changed m)) :
    xs.flatMap g = (xs.flatMap f).map (·.changed m) := by
  induction xs with
  | nil => rfl
  | cons x xs ih =>
    rw [List.flatMap_cons, List.flatMap_cons, List.map_append, h x List.mem_cons_self,
      ih fun x hx => h x (List.mem_cons_of_mem _ hx)]

theorem ite_map_events {m} {c : Prop} [Decidable c] {a a' b b' : List Event}
    (ha : a' = a.map (·.changed m)) (hb : b' = b.map (·.changed m)) :
    (if c then a' else b') = (if c then a else b).map (·.changed m) := by
  by_cases hc : c
  · rw [if_pos hc, if_pos hc]; exact ha
  · rw [if_neg hc, if_neg hc]; exact hb

theorem eq_keywords (m) : VisitorEq m (Option.map m.apply) packageNoKeywords := by
  refine ⟨actEq_start m, fun p k e hk => ?_, fun _ => rfl⟩
  cases e <;> first
    | exact .skip
    | skip
  intro s
  refine Prod.ext rfl (map_flatMap_events _ fun x _ => ite_map_events ?_ rfl)
  exact congrArg Prod.snd (actEq_suppressable (fun _ => rfl) s)

theorem eq_plurals (env : Env) (m) :
    VisitorEq m (Option.map m.apply) (serviceNamesNoPlurals env) := by
  refine ⟨actEq_start m, fun p k e hk => ?_, fun _ => rfl⟩
  cases e <;> first
    | exact .skip
    | skip
  intro s
  refine Prod.ext rfl (map_flatMap_events _ fun x _ =>
    ite_map_events (ite_map_events ?_ rfl) rfl)
  exact congrArg Prod.snd (actEq_suppressable (fun _ => rfl) s)

theorem eq_http (m) : VisitorEq m (fun s : HTTPState => ⟨s.config.map m.apply, s.rpc⟩)
    rpcOptionsNoGoogleAPIHTTP := by
  have hopt : ∀ p o, ActEq m (fun s : HTTPState => ⟨s.config.map m.apply, s.rpc⟩)
      (rpcOptionsNoGoogleAPIHTTP.option p o) (rpcOptionsNoGoogleAPIHTTP.option p o) := by
    intro p o s
    refine Prod.ext rfl (ite_map_events ?_ rfl)
    obtain ⟨c, r⟩ := s
    cases c <;> cases r <;> rfl
  refine ⟨fun _ _ => rfl, fun p k e hk => ?_, fun _ => rfl⟩
  cases e <;> first
    | exact .skip
    | exact hk
    | exact hopt _ _
    | skip
  intro s
  show _ = _
  simp only [visit, rpcOptionsNoGoogleAPIHTTP]
  have := hk { s with rpc := some ‹_› }
  dsimp only at this
  rw [this]

theorem eq_equal (fileOption : Str) (expected : FileDescriptor → Package → Str)
    (m) (he : ∀ d p, expected (d.changed m) p = expected d p) :
    VisitorEq m (fun s : EqualState => { s with descriptor := s.descriptor.map (·.changed m) })
      (fileOptionsEqual fileOption expected) := by
  refine ⟨fun _ _ => rfl, fun p k e hk => ?_, fun s => ?_⟩
  · cases e <;> first
      | exact .skip
      | exact fun _ => rfl
      | skip
    intro s
    refine Prod.ext ?_ rfl
    show (if _ then _ else _) = _
    simp only [visit, fileOptionsEqual, Act.modify]
    split <;> rfl
  · obtain ⟨d, pk, o⟩ := s
    cases d with
    | none => rfl
    | some d =>
      cases pk with
      | none => rfl
      | some pk =>
        cases o with
        | none => rfl
        | some o =>
          simp only [fileOptionsEqual, Option.map_some, he]
          have hf : (d.changed m).filename = d.filename := rfl
          rw [hf]
          split
          · rfl
          · refine Prod.ext rfl (Prod.ext (ite_map_events rfl rfl) rfl)

/-! ## The rules that compare files -/

theorem blind_packagesSameInDir (env : Env) : Blind (packagesSameInDirLinter env) := by
  refine blind_of fun m dirPath ds => ?_
  show packagesSameInDir env dirPath _ = packagesSameInDir env dirPath _
  unfold packagesSameInDir
  rw [runVisitor_blind (fun _ _ => rfl)]
  simp only [List.flatMap_map]
  rfl

theorem blind_fileOptionsSameInDir (env : Env) (fileOption id : Str) :
    Blind (newLinter id purpose (fileOptionsSameInDir env fileOption)) := by
  refine blind_of fun m dirPath ds => ?_
  show fileOptionsSameInDir env fileOption dirPath _ = fileOptionsSameInDir env fileOption dirPath _
  unfold fileOptionsSameInDir
  rw [runVisitor_blind (fun _ _ => rfl)]
  simp only [List.flatMap_map]
  rfl

theorem blind_fileHeader : Blind fileHeaderLinter := by
  intro m hm dirPath ds
  have hk : m.keepsHeader = true := hm.header (by decide)
  refine VisitorEq.check (h := id) (v := fileHeader) (s0 := ()) rfl rfl ⟨fun d s => ?_, ?_, fun _ => rfl⟩ hm dirPath ds
  · have hd : fileHeader.onStart (d.changed m) = fileHeader.onStart d := by
      have : (d.changed m).config.lint.fileHeader = d.config.lint.fileHeader := by
        show (if m.keepsHeader then _ else _) = _
        rw [hk]
        rfl
      unfold fileHeader
      dsimp only
      rw [this]
      rfl
    rw [hd]
    simp only [fileHeader, Act.emit, id]
    split
    · split <;> rfl
    · rfl
  · intro p k e hk
    cases e <;> first | exact .skip | exact hk

theorem blind_javaPackagePrefix : Blind fileOptionsEqualJavaPackagePrefixLinter := by
  intro m hm dirPath ds
  have hk : m.keepsPrefix = true := hm.javaPrefix (by decide)
  refine VisitorEq.check rfl rfl (eq_equal _ _ m fun d p => ?_) hm dirPath ds
  have : (d.changed m).config.lint.javaPackagePrefix = d.config.lint.javaPackagePrefix := by
    show (if m.keepsPrefix then _ else _) = _
    rw [hk]
    rfl
  rw [this]

/-- No rule looks at the rest of the configuration. -/
theorem blind_all (env : Env) : ∀ l ∈ allLinters env, Blind l := by
  unfold allLinters
  simp only [List.forall_mem_cons]
  refine ⟨blind_visit rfl (fun _ _ => rfl),
    blind_visit rfl (fun _ _ => rfl),
    blind_visit rfl (fun _ _ => rfl),
    blind_visit rfl (fun _ _ => rfl),
    blind_visit rfl (fun _ _ => rfl),
    blind_visit rfl (fun _ _ => rfl),
    blind_visit rfl (fun _ _ => rfl),
    blind_visit rfl (fun _ _ => rfl),
    blind_visit rfl (fun _ _ => rfl),
    blind_visit rfl (fun _ _ => rfl),
    blind_visit rfl (fun _ _ => rfl),
    blind_visit rfl (fun _ _ => rfl),
    blind_visit rfl (fun _ _ => rfl),
    blind_visit rfl (fun _ _ => rfl),
    blind_visit rfl (fun _ _ => rfl),
    blind_visit rfl (fun _ _ => rfl),
    blind_fileHeader,
    blind_visit rfl (fun _ _ => rfl),
    blind_fileOptionsSameInDir env _ _,
    (VisitorEq.blind rfl (fun _ => rfl) (fun _ => eq_equal _ _ _ fun _ _ => rfl)),
    (VisitorEq.blind rfl (fun _ => rfl) (fun _ => eq_equal _ _ _ fun _ _ => rfl)),
    (VisitorEq.blind rfl (fun _ => rfl) (fun _ => eq_equal _ _ _ fun _ _ => rfl)),
    (VisitorEq.blind rfl (fun _ => rfl) (fun _ => eq_equal _ _ _ fun _ _ => rfl)),
    (VisitorEq.blind rfl (fun _ => rfl) (fun _ => eq_equal _ _ _ fun _ _ => rfl)),
    (VisitorEq.blind rfl (fun _ => rfl) (fun _ => eq_equal _ _ _ fun _ _ => rfl)),
    blind_javaPackagePrefix,
    (VisitorEq.blind rfl (fun _ => rfl) (fun _ => eq_equal _ _ _ fun _ _ => rfl)),
    (VisitorEq.blind rfl (fun _ => rfl) (fun _ => eq_equal _ _ _ fun _ _ => rfl)),
    blind_visit rfl (fun _ _ => rfl),
    blind_fileOptionsSameInDir env _ _,
    blind_fileOptionsSameInDir env _ _,
    blind_fileOptionsSameInDir env _ _,
    blind_fileOptionsSameInDir env _ _,
    blind_fileOptionsSameInDir env _ _,
    blind_visit rfl (fun _ _ => rfl),
    blind_visit rfl (fun _ _ => rfl),
    blind_visit rfl (fun _ _ => rfl),
    blind_visit rfl (fun _ _ => rfl),
    blind_visit rfl (fun _ _ => rfl),
    blind_visit rfl (fun _ _ => rfl),
    blind_visit rfl (fun _ _ => rfl),
    blind_visit rfl (fun _ _ => rfl),
    blind_visit rfl (fun _ _ => rfl),
    blind_visit rfl (fun _ _ => rfl),
    blind_visit rfl (fun _ _ => rfl),
    blind_visit rfl (fun _ _ => rfl),
    blind_visit rfl (fun _ _ => rfl),
    blind_visit rfl (fun _ _ => rfl),
    blind_visit rfl (fun _ _ => rfl),
    blind_visit rfl (fun _ _ => rfl),
    (VisitorEq.blind rfl (fun _ => rfl) eq_floats),
    blind_visit rfl (fun _ _ => rfl),
    blind_visit rfl (fun _ _ => rfl),
    blind_visit rfl (fun _ _ => rfl),
    blind_visit rfl (fun _ _ => rfl),
    blind_visit rfl (fun _ _ => rfl),
    blind_visit rfl (fun _ _ => rfl),
    blind_visit rfl (fun _ _ => rfl),
    blind_visit rfl (fun _ _ => rfl),
    blind_visit rfl (fun _ _ => rfl),
    blind_visit rfl (fun _ _ => rfl),
    blind_visit rfl (fun _ _ => rfl),
    blind_visit rfl (fun _ _ => rfl),
    blind_visit rfl (fun _ _ => rfl),
    (VisitorEq.blind rfl (fun _ => rfl) (eq_names _ _)),
    (VisitorEq.blind rfl (fun _ => rfl) (eq_names _ _)),
    (VisitorEq.blind rfl (fun _ => rfl) (eq_names _ _)),
    blind_visit rfl (fun _ _ => rfl),
    blind_visit rfl (fun _ _ => rfl),
    blind_visit rfl (fun _ _ => rfl),
    blind_visit rfl (fun _ _ => rfl),
    blind_visit rfl (fun _ _ => rfl),
    (VisitorEq.blind rfl (fun _ => rfl) eq_keywords),
    blind_packagesSameInDir env,
    blind_visit rfl (fun _ _ => rfl),
    blind_visit rfl (fun _ _ => rfl),
    blind_visit rfl (fun _ _ => rfl),
    blind_visit rfl (fun _ _ => rfl),
    blind_visit rfl (fun _ _ => rfl),
    (VisitorEq.blind rfl (fun _ => rfl) eq_http),
    blind_visit rfl (fun _ _ => rfl),
    blind_visit rfl (fun _ _ => rfl),
    blind_visit rfl (fun _ _ => rfl),
    blind_visit rfl (fun _ _ => rfl),
    blind_visit rfl (fun _ _ => rfl),
    blind_visit rfl (fun _ _ => rfl),
    blind_visit rfl (fun _ _ => rfl),
    blind_visit rfl (fun _ _ => rfl),
    blind_visit rfl (fun _ _ => rfl),
    blind_visit rfl (fun _ _ => rfl),
    blind_visit rfl (fun _ _ => rfl),
    (VisitorEq.blind rfl (fun _ => rfl) (eq_plurals env)),
    blind_visit rfl (fun _ _ => rfl),
    blind_visit rfl (fun _ _ => rfl),
    blind_visit rfl (fun _ _ => rfl),
    blind_visit rfl (fun _ _ => rfl), fun _ h => nomatch h⟩

end Verif.Lint
