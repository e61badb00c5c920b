import Verif.Proof.ReportsFile
import Verif.Proof.Keyed
import Verif.Proof.Sort
import Verif.Spec.SameInDir

/-! # Rules for the files of a directory -/

namespace Verif.Lint

open Verif Proto Spec Str

/-- A run that collects something in its state. -/
theorem runVisitor_collect {S A : Type} {v : Visitor S} {l : Linter} {get : S → A}
    {upd : FileDescriptor → A → A} {ps : FileDescriptor → List Position}
    (h : ∀ d s, ∃ s' evs, fileRun v d s = (s', evs, none) ∧ get s' = upd d (get s) ∧ At l evs (ps d))
    (ds : List FileDescriptor) (s : S) :
    ∃ s' evs, runVisitor v ds s = (s', evs, none) ∧
      get s' = ds.foldl (fun a d => upd d a) (get s) ∧ At l evs (ds.flatMap ps) := by
  induction ds generalizing s with
  | nil => exact ⟨s, [], rfl, rfl, .nil⟩
  | cons d ds ih =>
    obtain ⟨s1, e1, h1, g1, a1⟩ := h d s
    obtain ⟨s2, e2, h2, g2, a2⟩ := ih s1
    refine ⟨s2, e1 ++ e2, ?_, ?_, ?_⟩
    · rw [runVisitor_cons, h1]
      dsimp only
      rw [h2]
    · rw [g2, g1]; rfl
    · rw [List.flatMap_cons]; exact a1.append a2

/-- The set of the values of the files. -/
def valueSet (value : FileDescriptor → Option Str) (ds : List FileDescriptor) : List Str :=
  ds.foldl (fun a d => match value d with
    | some v => setInsert a v
    | none => a) []

theorem valueSet_spec (value : FileDescriptor → Option Str) (ds : List FileDescriptor) :
    (valueSet value ds).Nodup ∧ ∀ x, x ∈ valueSet value ds ↔ ∃ d ∈ ds, value d = some x := by
  have key : ∀ acc : List Str, acc.Nodup →
      (ds.foldl (fun a d => match value d with
        | some v => setInsert a v
        | none => a) acc).Nodup ∧ ∀ x, x ∈ ds.foldl (fun a d => match value d with
        | some v => setInsert a v
        | none => a) acc ↔ x ∈ acc ∨ ∃ d ∈ ds, value d = some x := by
    induction ds with
    | nil => intro acc h; exact ⟨h, fun x => by simp⟩
    | cons d ds ih =>
      intro acc h
      rw [List.foldl_cons]
      cases hv : value d with
      | none =>
        obtain ⟨h1, h2⟩ := ih acc h
        refine ⟨h1, fun x => (h2 x).trans ?_⟩
        simp [hv]
      | some v =>
        obtain ⟨h1, h2⟩ := ih (setInsert acc v) (setInsert_nodup h v)
        refine ⟨h1, fun x => (h2 x).trans ?_⟩
        rw [mem_setInsert]
        simp only [List.mem_cons, exists_eq_or_imp, hv, Option.some.injEq]
        constructor
        · rintro ((h | h) | h)
          · exact .inl h
          · exact .inr (.inl h.symm)
          · exact .inr (.inr h)
        · rintro (h | h | h)
          · exact .inl (.inl h)
          · exact .inl (.inr h.symm)
          · exact .inr h
  obtain ⟨h1, h2⟩ := key [] List.nodup_nil
  exact ⟨h1, fun x => (h2 x).trans (by simp)⟩

theorem length_gt_one {xs : List Str} (h : xs.Nodup) :
    xs.length > 1 ↔ ∃ a ∈ xs, ∃ b ∈ xs, a ≠ b := by
  match xs with
  | [] => simp
  | [a] => simp
  | a :: b :: xs =>
    refine ⟨fun _ => ⟨a, by simp, b, by simp, ?_⟩, fun _ => by simp⟩
    intro e
    rw [List.nodup_cons] at h
    exact h.1 (by simp [e])

theorem agree_iff (value : FileDescriptor → Option Str) (ds : List FileDescriptor) :
    (valueSet value ds).length > 1 ↔ ¬ Agree value ds := by
  obtain ⟨h1, h2⟩ := valueSet_spec value ds
  rw [length_gt_one h1]
  constructor
  · rintro ⟨a, ha, b, hb, hne⟩ h
    obtain ⟨d, hd, hd'⟩ := (h2 a).1 ha
    obtain ⟨e, he, he'⟩ := (h2 b).1 hb
    exact hne (h d hd e he a hd' b he')
  · intro h
    refine Classical.byContradiction fun hn => h fun d hd e he a ha b hb => ?_
    refine Classical.byContradiction fun hne => hn ⟨a, (h2 a).2 ⟨d, hd, ha⟩, b, (h2 b).2 ⟨e, he, hb⟩, hne⟩

/-- From events to the reports of a directory. -/
theorem reportsDir_of {l : Linter} {places : List FileDescriptor → List Position}
    (h : ∀ dirPath ds, ∃ evs, l.addCheck dirPath ds = (evs, none) ∧ At l evs (places ds)) :
    ReportsDir l places := by
  intro dirPath ds
  obtain ⟨evs, h1, h2⟩ := h dirPath ds
  refine ⟨evs.filterMap l.report, ?_, .of_eq h2.places, ?_⟩
  · unfold Linter.check
    dsimp only
    rw [h1]
    dsimp only
    rw [if_neg]
    rw [Bool.not_eq_true, List.any_eq_false]
    intro ev hev
    simp [h2.noPanic ev hev]
  · intro f hf
    obtain ⟨ev, _, hev⟩ := List.mem_filterMap.1 hf
    unfold Linter.report at hev
    cases ev with
    | panic => cases hev
    | add a b c =>
      dsimp only at hev
      split at hev
      · cases hev
      · cases hev; rfl

/-- A failure for each file. -/
theorem at_files {l : Linter} (ds : List FileDescriptor) (msg : List Str) :
    At l (ds.flatMap fun d => addFailure { filename := d.filename } msg)
      (ds.map fun d => { filename := d.filename }) := by
  rw [← flatMap_one]
  exact .flatMap _ fun d _ => .fail _ _

/-! ## Packages -/

/-- `VisitPackage`. -/
def seePackageDir (env : Env) (p : Package) : Act PkgSameState := fun s =>
  match s.pkg with
  | some first => (s, addFailure p.position
      [s%"multiple package declarations, first was ", env.showPackage first])
  | none => ({ s with pkg := some p }, [])

theorem acts_seePackageDir_some (env : Env) (f : List Str) (first : Package) (ps : List Package) :
    acts (seePackageDir env) ps ⟨f, some first⟩ = (⟨f, some first⟩, ps.flatMap fun p =>
      addFailure p.position [s%"multiple package declarations, first was ", env.showPackage first]) := by
  induction ps with
  | nil => rfl
  | cons p ps ih =>
    rw [acts, Act.seq]
    show ((acts (seePackageDir env) ps ⟨f, some first⟩).1,
      _ ++ (acts (seePackageDir env) ps ⟨f, some first⟩).2) = _
    rw [ih]
    rfl

theorem acts_seePackageDir (env : Env) (f : List Str) (ps : List Package) :
    (acts (seePackageDir env) ps ⟨f, none⟩).1 = ⟨f, ps.head?⟩ ∧
    ∀ l, At l (acts (seePackageDir env) ps ⟨f, none⟩).2 (ps.tail.map (·.position)) := by
  cases ps with
  | nil => exact ⟨rfl, fun _ => .nil⟩
  | cons p ps =>
    have h : acts (seePackageDir env) (p :: ps) ⟨f, none⟩ = acts (seePackageDir env) ps ⟨f, some p⟩ := rfl
    rw [h, acts_seePackageDir_some]
    refine ⟨rfl, fun l => ?_⟩
    rw [List.tail_cons, ← flatMap_one]
    exact .flatMap _ fun p _ => .fail _ _

/-- Visiting a file with a visitor that acts on things of a kind. -/
theorem fileRun_acts {S α : Type} {v : Visitor S} {pick : Node → Option α} {f : α → Act S}
    {descend : Element → Bool} (h : Steps v (onPick pick f) descend) (d : FileDescriptor) (s : S) :
    fileRun v d s =
      let r := (v.onStart d).seq (acts f ((inside descend d).filterMap pick)) s
      let t := v.finally_ r.1
      (t.1, r.2 ++ t.2.1, t.2.2) := by
  have ha := h.all d.elements [] rfl
  rw [steps_pick] at ha
  have ha' : acceptAll v Parent.file d.elements = acts f ((inside descend d).filterMap pick) := ha
  unfold fileRun
  rw [ha']

theorem reports_packagesSameInDir (env : Env) : ReportsDir (packagesSameInDirLinter env) fun ds =>
    (ds.flatMap fun d => (packages d).tail.map (·.position)) ++
      if ¬ Agree packageNameOf ds then ds.map fun d => { filename := d.filename } else [] := by
  refine reportsDir_of fun dirPath ds => ?_
  have hsteps : Steps (packagesSameInDirVisitor env) (onPick asPackage (seePackageDir env)) nothing := by
    intro around e k; cases e <;> rfl
  obtain ⟨s', evs, h1, h2, h3⟩ := runVisitor_collect (v := packagesSameInDirVisitor env)
    (l := packagesSameInDirLinter env) (get := (·.pkgs))
    (upd := fun d a => match packageNameOf d with
      | some v => setInsert a v
      | none => a) (ps := fun d => (packages d).tail.map (·.position)) (by
      intro d s
      rw [fileRun_acts hsteps]
      obtain ⟨g1, g2⟩ := acts_seePackageDir env s.pkgs ((inside nothing d).filterMap asPackage)
      refine ⟨_, _, rfl, ?_, ?_⟩
      · show ((packagesSameInDirVisitor env).finally_ (acts (seePackageDir env) _ ⟨s.pkgs, none⟩).1).1.pkgs = _
        rw [g1]
        show _ = match ((inside nothing d).filterMap asPackage).head?.map (·.name) with
          | some v => setInsert s.pkgs v
          | none => s.pkgs
        cases ((inside nothing d).filterMap asPackage).head? <;> rfl
      · show At _ ([] ++ (acts (seePackageDir env) _ ⟨s.pkgs, none⟩).2 ++ []) _
        rw [List.nil_append, List.append_nil]
        exact g2 _) ds {}
  have hs : s'.pkgs = valueSet packageNameOf ds := h2
  have hl : (packagesSameInDirLinter env).addCheck dirPath ds = packagesSameInDir env dirPath ds := rfl
  rw [hl]
  unfold packagesSameInDir
  rw [h1]
  dsimp only
  by_cases hA : s'.pkgs.length > 1
  · rw [if_pos hA, if_pos ((agree_iff _ _).1 (hs ▸ hA))]
    exact ⟨_, rfl, h3.append (at_files _ _)⟩
  · rw [if_neg hA, if_neg fun h => hA (hs ▸ (agree_iff _ _).2 h), List.append_nil]
    exact ⟨_, rfl, h3⟩

/-! ## Options -/

/-- `VisitOption`. -/
def seeOptionDir (env : Env) (name : Str) (o : Opt) : Act OptionSameState := fun s =>
  if o.name = name then
    match s.option with
    | some first => (s, addFailure o.position [s%"multiple option declarations for ",
        name, s%", first was ", env.showOption first])
    | none => ({ s with option := some o }, [])
  else (s, [])

theorem acts_seeOptionDir (env : Env) (name : Str) (f : List Str) (os : List Opt) :
    (acts (seeOptionDir env name) os ⟨f, none⟩).1 = ⟨f, (os.filter fun o => o.name = name).head?⟩ ∧
    ∀ l, At l (acts (seeOptionDir env name) os ⟨f, none⟩).2
      ((os.filter fun o => o.name = name).tail.map (·.position)) := by
  have later : ∀ (os : List Opt) (first : Opt),
      (acts (seeOptionDir env name) os ⟨f, some first⟩).1 = ⟨f, some first⟩ ∧
      ∀ l, At l (acts (seeOptionDir env name) os ⟨f, some first⟩).2
        ((os.filter fun o => o.name = name).map (·.position)) := by
    intro os first
    induction os with
    | nil => exact ⟨rfl, fun _ => .nil⟩
    | cons o os ih =>
      rw [acts]
      by_cases h : o.name = name
      · have e : seeOptionDir env name o ⟨f, some first⟩ = (⟨f, some first⟩,
            addFailure o.position [s%"multiple option declarations for ",
              name, s%", first was ", env.showOption first]) := by
          unfold seeOptionDir; rw [if_pos h]
        unfold Act.seq
        rw [e]
        dsimp only
        refine ⟨ih.1, fun l => ?_⟩
        rw [List.filter_cons_of_pos (by simpa using h), List.map_cons]
        exact (At.fail _ _).append (ih.2 l)
      · have e : seeOptionDir env name o ⟨f, some first⟩ = (⟨f, some first⟩, []) := by
          unfold seeOptionDir; rw [if_neg h]
        unfold Act.seq
        rw [e]
        dsimp only
        rw [List.filter_cons_of_neg (by simpa using h)]
        exact ⟨ih.1, fun l => ih.2 l⟩
  induction os with
  | nil => exact ⟨rfl, fun _ => .nil⟩
  | cons o os ih =>
    rw [acts]
    by_cases h : o.name = name
    · have e : seeOptionDir env name o ⟨f, none⟩ = (⟨f, some o⟩, []) := by
        unfold seeOptionDir; rw [if_pos h]
      unfold Act.seq
      rw [e]
      dsimp only
      rw [List.filter_cons_of_pos (by simpa using h)]
      exact ⟨(later os o).1, fun l => (later os o).2 l⟩
    · have e : seeOptionDir env name o ⟨f, none⟩ = (⟨f, none⟩, []) := by
        unfold seeOptionDir; rw [if_neg h]
      unfold Act.seq
      rw [e]
      dsimp only
      rw [List.filter_cons_of_neg (by simpa using h)]
      exact ⟨ih.1, fun l => ih.2 l⟩

theorem reports_optionSameInDir (env : Env) (id name : Str) :
    ReportsDir (newLinter id purpose (fileOptionsSameInDir env name)) fun ds =>
      (ds.flatMap fun d => (optionsNamed name d).tail.map (·.position)) ++
        if ¬ Agree (optionValueOf name) ds then ds.map fun d => { filename := d.filename } else [] := by
  refine reportsDir_of fun dirPath ds => ?_
  have hsteps : Steps (fileOptionsSameInDirVisitor env name)
      (onPick asOption (seeOptionDir env name)) nothing := by
    intro around e k; cases e <;> rfl
  obtain ⟨s', evs, h1, h2, h3⟩ := runVisitor_collect (v := fileOptionsSameInDirVisitor env name)
    (l := newLinter id purpose (fileOptionsSameInDir env name)) (get := (·.values))
    (upd := fun d a => match optionValueOf name d with
      | some v => setInsert a v
      | none => a) (ps := fun d => (optionsNamed name d).tail.map (·.position)) (by
      intro d s
      rw [fileRun_acts hsteps]
      obtain ⟨g1, g2⟩ := acts_seeOptionDir env name s.values ((inside nothing d).filterMap asOption)
      refine ⟨_, _, rfl, ?_, ?_⟩
      · show ((fileOptionsSameInDirVisitor env name).finally_
          (acts (seeOptionDir env name) _ ⟨s.values, none⟩).1).1.values = _
        rw [g1]
        show _ = setInsert s.values ((Option.map _ (List.filter _
          ((inside nothing d).filterMap asOption)).head?).getD [])
        cases (((inside nothing d).filterMap asOption).filter fun o => o.name = name).head? <;> rfl
      · show At _ ([] ++ (acts (seeOptionDir env name) _ ⟨s.values, none⟩).2 ++ []) _
        rw [List.nil_append, List.append_nil]
        exact g2 _) ds {}
  have hs : s'.values = valueSet (optionValueOf name) ds := h2
  show ∃ evs, fileOptionsSameInDir env name dirPath ds = _ ∧ _
  unfold fileOptionsSameInDir
  rw [h1]
  dsimp only
  by_cases hA : s'.values.length > 1
  · rw [if_pos hA, if_pos ((agree_iff _ _).1 (hs ▸ hA))]
    by_cases hE : [] ∈ s'.values
    · rw [if_pos hE]
      exact ⟨_, rfl, h3.append (at_files _ _)⟩
    · rw [if_neg hE]
      exact ⟨_, rfl, h3.append (at_files _ _)⟩
  · rw [if_neg hA, if_neg fun h => hA (hs ▸ (agree_iff _ _).2 h), List.append_nil]
    exact ⟨_, rfl, h3⟩

end Verif.Lint
