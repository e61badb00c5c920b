import Verif.Spec.Exec
import Verif.Proof.Strs

/-!
# Helper lemmas about Verif.Model.Exec
-/

namespace Verif.Exec

open Verif Str

/-- The run leaves the files alone. -/
def Quiet {α : Type} (r : Run α) : Prop := ∀ w, (r w).1.disk = w.disk ∧ (r w).1.writes = w.writes

theorem quiet_pure {α : Type} (a : α) : Quiet (Run.pure a) := fun _ => ⟨rfl, rfl⟩

theorem quiet_fail {α : Type} (e : RunErr) : Quiet (Run.fail e : Run α) := fun _ => ⟨rfl, rfl⟩

theorem quiet_exit {α : Type} (e : Str) : Quiet (exit255 e : Run α) := fun _ => ⟨rfl, rfl⟩

theorem quiet_bind {α β : Type} {m : Run α} {f : α → Run β} (hm : Quiet m) (hf : ∀ a, Quiet (f a)) :
    Quiet (Run.bind m f) := by
  intro w
  have h1 := hm w
  unfold Run.bind
  revert h1
  rcases m w with ⟨w', a | e | _⟩
  · intro h1
    have h2 := hf a w'
    exact ⟨h2.1.trans h1.1, h2.2.trans h1.2⟩
  · exact id
  · exact id

theorem quiet_lift {α : Type} (r : Except Err α) : Quiet (Run.lift r) := by
  cases r
  · exact quiet_fail _
  · exact quiet_pure _

theorem quiet_liftOption {α : Type} (r : Option (Except Err α)) : Quiet (Run.liftOption r) := by
  rcases r with _ | r
  · exact fun _ => ⟨rfl, rfl⟩
  · exact quiet_lift r

theorem quiet_write (h : Host) (t : Str) : Quiet (write h t) := by
  intro w
  unfold write
  rcases h.write w.out t with ⟨out, _ | e⟩ <;> exact ⟨rfl, rfl⟩

theorem quiet_println (h : Host) (t : Str) : Quiet (println h t) := by
  unfold println
  split
  · exact quiet_pure _
  · exact quiet_write h _

theorem quiet_printAll (h : Host) (l : List Str) : Quiet (printAll h l) := by
  induction l with
  | nil => exact quiet_pure _
  | cons a l ih => exact quiet_bind (quiet_println h a) fun _ => ih

theorem quiet_readFile (h : Host) (p : Str) : Quiet (readFile h p) := by
  intro w
  unfold readFile
  cases w.disk p <;> exact ⟨rfl, rfl⟩

theorem quiet_getMeta (h : Host) (args : List Str) : Quiet (getMeta h args) := quiet_lift _

theorem quiet_printFailuresFor (h : Host) (errorFormat filename : Str) (m : Option Meta)
    (fs : List Text.Failure) : Quiet (printFailuresFor h errorFormat filename m fs) := by
  unfold printFailuresFor
  dsimp only
  split
  · exact quiet_fail _
  · split
    · exact quiet_write h _
    · exact fun _ => ⟨rfl, rfl⟩

theorem quiet_printFailures (h : Host) (filename : Str) (m : Meta) (fs : List Text.Failure) :
    Quiet (printFailures h filename m fs) := quiet_printFailuresFor _ _ _ _ _

theorem quiet_doCompile (h : Host) (flags : CompileFlags) (hg : flags.doGen = false) (m : Meta) :
    Quiet (doCompile h flags m) := by
  intro w
  unfold doCompile
  simp only [hg, Bool.false_eq_true, if_false]
  split
  · exact ⟨rfl, rfl⟩
  · refine quiet_bind (quiet_printFailures _ _ _ _) (fun _ => ?_) w
    split
    · exact quiet_exit _
    · exact quiet_pure _

theorem quiet_doProtocCommands (h : Host) (flags : CompileFlags) (m : Meta) :
    Quiet (doProtocCommands h flags m) := by
  intro w
  unfold doProtocCommands
  split
  · exact ⟨rfl, rfl⟩
  · exact quiet_printAll h _ w

theorem quiet_compile (h : Host) (sets dryRun : Bool) (m : Meta) :
    Quiet (compile h false sets dryRun m) := by
  unfold compile
  dsimp only
  split
  · exact quiet_bind (quiet_doProtocCommands _ _ _) fun _ => quiet_pure _
  · exact quiet_doCompile h _ rfl m

theorem quiet_lint (h : Host) (env : Lint.Env) (m : Meta) : Quiet (lint h env m) := by
  intro w
  unfold lint
  refine quiet_bind (quiet_liftOption _) (fun fs => ?_) w
  refine quiet_bind (quiet_printFailures _ _ _ _) fun _ => ?_
  split
  · exact quiet_exit _
  · exact quiet_pure _

theorem quiet_generateIgnores (h : Host) (env : Lint.Env) (m : Meta) :
    Quiet (generateIgnores h env m) := by
  intro w
  unfold generateIgnores
  refine quiet_bind (quiet_liftOption _) (fun c => ?_) w
  rcases c with _ | c
  · exact quiet_pure _
  · exact quiet_bind (quiet_lift _) fun _ => quiet_println _ _

theorem quiet_lookupGroup (env : Lint.Env) (g : Str) : Quiet (lookupGroup env g) := by
  unfold lookupGroup
  split
  · exact quiet_exit _
  · exact quiet_pure _

theorem quiet_lintCmd (h : Host) (env : Lint.Env) (srt : SortSlice) (args : List Str)
    (flags : LintFlags) : Quiet (lintCmd h env srt args flags) := by
  have hp : ∀ c ls, Quiet (printLinters h srt c ls) := fun c ls => quiet_write h _
  unfold lintCmd
  split
  · exact quiet_exit _
  · split
    · exact quiet_printAll h _
    · split
      · unfold diffLintGroups
        split
        · unfold getLinterIDs
          exact quiet_bind (quiet_bind (quiet_lookupGroup _ _) fun _ => quiet_pure _) fun _ =>
            quiet_bind (quiet_bind (quiet_lookupGroup _ _) fun _ => quiet_pure _) fun _ =>
              quiet_printAll h _
        · exact quiet_fail _
      · refine quiet_bind (quiet_getMeta _ _) fun m => ?_
        split
        · exact hp _ _
        · split
          · exact quiet_bind (quiet_lift _) fun _ => hp _ _
          · split
            · exact quiet_bind (quiet_lookupGroup _ _) fun _ => hp _ _
            · refine quiet_bind (quiet_compile _ _ _ _) fun _ => ?_
              split
              · exact quiet_generateIgnores _ _ _
              · exact quiet_lint _ _ _

/-! ## Runs that end well -/

/-- The result of a run that ends well. -/
theorem bind_ok {α β : Type} {m : Run α} {f : α → Run β} {w : World} {w' : World} {b : β} :
    Run.bind m f w = (w', .ok b) ↔ ∃ w1 a, m w = (w1, .ok a) ∧ f a w1 = (w', .ok b) := by
  unfold Run.bind
  rcases m w with ⟨w1, a | e | _⟩
  · exact ⟨fun h => ⟨w1, a, rfl, h⟩, fun ⟨_, _, h1, h2⟩ => by cases h1; exact h2⟩
  · exact ⟨fun h => by simp at h, fun ⟨_, _, h1, _⟩ => by simp at h1⟩
  · exact ⟨fun h => by simp at h, fun ⟨_, _, h1, _⟩ => by simp at h1⟩

theorem bind_of_ok {α β : Type} {m : Run α} {f : α → Run β} {w w1 : World} {a : α}
    (h : m w = (w1, .ok a)) : Run.bind m f w = f a w1 := by
  unfold Run.bind
  rw [h]

theorem write_of_prints {h : Host} (hp : Prints h) (t : Str) (w : World) :
    write h t w = ({ w with out := w.out ++ t }, .ok ()) := by
  unfold write
  rw [hp]

theorem metaOf_ok {h : Host} {path : Str} {m : Meta} :
    metaOf h path = .ok m ↔
      (h.stat path = .ok .dir ∧ h.getForDir h.workDirPath path = .ok m.protoSet ∧ m.singleFilename = [] ∨
        h.stat path = .ok .regular ∧ h.getForDir h.workDirPath (Path.dir path) = .ok m.protoSet ∧
          m.singleFilename = path) := by
  obtain ⟨ps, single⟩ := m
  unfold metaOf
  rcases h.stat path with e | _ | _ | _
  · simp
  · cases h.getForDir h.workDirPath path <;> simp [eq_comm]
  · cases h.getForDir h.workDirPath (Path.dir path) <;> simp [eq_comm]
  · simp

theorem lift_ok {α : Type} {r : Except Err α} {a : α} {w w' : World} :
    Run.lift r w = (w', .ok a) ↔ w' = w ∧ r = .ok a := by
  rcases r with e | b
  · constructor
    · intro x; cases x
    · rintro ⟨_, x⟩; cases x
  · constructor
    · intro x; cases x; exact ⟨rfl, rfl⟩
    · rintro ⟨rfl, x⟩; cases x; rfl

theorem getMeta_ok {h : Host} {args : List Str} {m : Meta} {w w' : World} :
    getMeta h args w = (w', .ok m) ↔ w' = w ∧ Finds h args m := by
  unfold getMeta
  rw [lift_ok, metaOf_ok]
  refine and_congr_right fun _ => ?_
  unfold Finds
  match args with
  | [a] =>
    refine ⟨fun x => ⟨a, .inl rfl, x⟩, ?_⟩
    rintro ⟨arg, e | ⟨e, _⟩, x⟩
    · cases e
      exact x
    · exact absurd rfl e
  | [] =>
    refine ⟨fun x => ⟨_, .inr ⟨by simp, rfl⟩, x⟩, ?_⟩
    rintro ⟨arg, e | ⟨_, rfl⟩, x⟩
    · cases e
    · exact x
  | a :: b :: c =>
    refine ⟨fun x => ⟨_, .inr ⟨by simp, rfl⟩, x⟩, ?_⟩
    rintro ⟨arg, e | ⟨_, rfl⟩, x⟩
    · cases e
    · exact x

theorem Finds.unique {h : Host} {args : List Str} {m m' : Meta} (h1 : Finds h args m)
    (h2 : Finds h args m') : m = m' := by
  have e1 := getMeta_ok.2 ⟨(rfl : (⟨fun _ => none, [], []⟩ : World) = _), h1⟩
  have e2 := getMeta_ok.2 ⟨(rfl : (⟨fun _ => none, [], []⟩ : World) = _), h2⟩
  rw [e1] at e2
  cases e2
  rfl

theorem printFailures_nil {h : Host} (hp : Prints h) (he : ErrorFormatKnown h) (filename : Str) (m : Meta)
    (w : World) : printFailures h filename m [] w = (w, .ok ()) := by
  obtain ⟨fields, he⟩ := he
  unfold printFailures printFailuresFor
  rw [he]
  simp only [List.map_nil, ite_self]
  show write h [] w = _
  rw [write_of_prints hp, List.append_nil]

theorem printFailures_known {h : Host} {filename : Str} {m : Meta} {fs : List Text.Failure} {w w' : World}
    (e : printFailures h filename m fs w = (w', .ok ())) : ErrorFormatKnown h := by
  unfold printFailures printFailuresFor at e
  unfold ErrorFormatKnown
  revert e
  cases Text.parseColonSeparatedFailureFields h.errorFormat with
  | none => intro e; cases e
  | some fields => exact fun _ => ⟨fields, rfl⟩

/-- When compiling ends well. -/
theorem doCompile_ok {h : Host} (hp : Prints h) {flags : CompileFlags} {m : Meta} {w w' : World}
    {sets : List Descriptor.FileSet} :
    doCompile h flags m w = (w', .ok sets) ↔
      ErrorFormatKnown h ∧ h.compile flags w.disk m.protoSet = .ok ([], sets) ∧
        w' = if flags.doGen then { w with disk := h.generate w.disk m.protoSet } else w := by
  unfold doCompile
  dsimp only
  generalize (if flags.doGen then ({ w with disk := h.generate w.disk m.protoSet } : World) else w) = w1
  rcases h.compile flags w.disk m.protoSet with e | ⟨fs, sets'⟩
  · constructor
    · intro x; cases x
    · rintro ⟨_, x, _⟩; cases x
  · dsimp only
    rw [bind_ok]
    constructor
    · rintro ⟨w2, _, h1, h2⟩
      cases fs with
      | cons f fs => rw [if_pos (by simp)] at h2; cases h2
      | nil =>
        have hk := printFailures_known h1
        rw [printFailures_nil hp hk] at h1
        cases h1
        rw [if_neg (by simp)] at h2
        cases h2
        exact ⟨hk, rfl, rfl⟩
    · rintro ⟨hk, h1, rfl⟩
      cases h1
      exact ⟨w', (), printFailures_nil hp hk _ _ _, by rw [if_neg (by simp)]; rfl⟩

theorem compile_ok {h : Host} (hp : Prints h) {doGen sets : Bool} {m : Meta} {w w' : World}
    {r : List Descriptor.FileSet} :
    compile h doGen sets false m w = (w', .ok r) ↔
      ErrorFormatKnown h ∧
        h.compile { doGen := doGen, doFileDescriptorSet := sets } w.disk m.protoSet = .ok ([], r) ∧
        w' = if doGen then { w with disk := h.generate w.disk m.protoSet } else w := by
  unfold compile
  simp only [Bool.false_eq_true, if_false]
  exact doCompile_ok hp

end Verif.Exec
