import Verif.Spec.Cmd
import Verif.Proof.Exec

/-! # The command line -/

namespace Verif.Proof.Cmd

open Verif Str Exec Cmd Spec

/-- If the run ends with an exit code it is 255. -/
def Codes {α : Type} (r : Run α) : Prop := ∀ w c m, (r w).2 = .error (.exit c m) → c = 255

theorem codes_pure {α : Type} (a : α) : Codes (Run.pure a) := fun _ _ _ h => by cases h

theorem codes_other {α : Type} (e : Err) : Codes (Run.fail (.other e) : Run α) := fun _ _ _ h => by
  cases h

theorem codes_exit {α : Type} (e : Str) : Codes (exit255 e : Run α) := fun _ _ _ h => by cases h; rfl

theorem codes_bind {α β : Type} {m : Run α} {f : α → Run β} (hm : Codes m) (hf : ∀ a, Codes (f a)) :
    Codes (Run.bind m f) := by
  intro w c msg h
  unfold Run.bind at h
  have hm' := hm w
  revert h hm'
  rcases m w with ⟨w', a | e | _⟩
  · intro h _; exact hf a w' c msg h
  · intro h hm'
    dsimp only at h hm'
    injection h with h
    exact hm' c msg (by rw [h])
  · intro h; cases h

theorem codes_lift {α : Type} (r : Except Err α) : Codes (Run.lift r) := by
  cases r
  · exact codes_other _
  · exact codes_pure _

theorem codes_liftOption {α : Type} (r : Option (Except Err α)) : Codes (Run.liftOption r) := by
  rcases r with _ | r
  · exact fun _ _ _ h => by cases h
  · exact codes_lift r

theorem codes_write (h : Exec.Host) (t : Str) : Codes (write h t) := by
  intro w c m e
  unfold write at e
  revert e
  rcases h.write w.out t with ⟨out, _ | e⟩ <;> intro e <;> cases e

theorem codes_println (h : Exec.Host) (t : Str) : Codes (println h t) := by
  unfold println
  split
  · exact codes_pure _
  · exact codes_write h _

theorem codes_printAll (h : Exec.Host) (l : List Str) : Codes (printAll h l) := by
  induction l with
  | nil => exact codes_pure _
  | cons a l ih => exact codes_bind (codes_println h a) fun _ => ih

theorem codes_readFile (h : Exec.Host) (p : Str) : Codes (readFile h p) := by
  intro w c m e
  unfold readFile at e
  revert e
  cases w.disk p <;> intro e <;> cases e

theorem codes_writeFile (h : Exec.Host) (p d : Str) : Codes (writeFile h p d) := by
  intro w c m e
  unfold writeFile at e
  revert e
  dsimp only
  rcases h.writeFile p d with ⟨e, _ | _⟩ | _ <;> intro e <;> cases e

theorem codes_getMeta (h : Exec.Host) (args : List Str) : Codes (getMeta h args) := codes_lift _

theorem codes_printFailuresFor (h : Exec.Host) (errorFormat filename : Str) (m : Option Meta)
    (fs : List Text.Failure) : Codes (printFailuresFor h errorFormat filename m fs) := by
  unfold printFailuresFor
  dsimp only
  split
  · exact codes_other _
  · split
    · exact codes_write h _
    · intro _ _ _ e; cases e

theorem codes_printFailures (h : Exec.Host) (filename : Str) (m : Meta) (fs : List Text.Failure) :
    Codes (printFailures h filename m fs) := codes_printFailuresFor _ _ _ _ _

theorem codes_doCompile (h : Exec.Host) (flags : CompileFlags) (m : Meta) :
    Codes (doCompile h flags m) := by
  intro w c msg e
  unfold doCompile at e
  dsimp only at e
  split at e
  · cases e
  · revert e
    refine codes_bind (codes_printFailures _ _ _ _) (fun _ => ?_) _ _ _
    split
    · exact codes_exit _
    · exact codes_pure _

theorem codes_doProtocCommands (h : Exec.Host) (flags : CompileFlags) (m : Meta) :
    Codes (doProtocCommands h flags m) := by
  intro w c msg e
  unfold doProtocCommands at e
  split at e
  · cases e
  · exact codes_printAll h _ w _ _ e

theorem codes_compile (h : Exec.Host) (gen sets dryRun : Bool) (m : Meta) :
    Codes (compile h gen sets dryRun m) := by
  unfold compile
  dsimp only
  split
  · exact codes_bind (codes_doProtocCommands _ _ _) fun _ => codes_pure _
  · exact codes_doCompile h _ m

theorem codes_ite {α : Type} {p : Prop} [Decidable p] {a b : Run α} (ha : Codes a) (hb : Codes b) :
    Codes (if p then a else b) := by
  split
  · exact ha
  · exact hb

theorem codes_lint (h : Exec.Host) (env : Lint.Env) (m : Meta) : Codes (lint h env m) := by
  intro w c msg e
  unfold lint at e
  exact codes_bind (codes_liftOption _) (fun _ => codes_bind (codes_printFailures _ _ _ _) fun _ =>
    codes_ite (codes_exit _) (codes_pure _)) w c msg e

theorem codes_generateIgnores (h : Exec.Host) (env : Lint.Env) (m : Meta) :
    Codes (generateIgnores h env m) := by
  intro w c msg e
  unfold generateIgnores at e
  refine codes_bind (codes_liftOption _) (fun c => ?_) w c msg e
  cases c with
  | none => exact codes_pure _
  | some c => exact codes_bind (codes_lift _) fun _ => codes_println _ _

theorem codes_lookupGroup (env : Lint.Env) (g : Str) : Codes (lookupGroup env g) := by
  unfold lookupGroup
  split
  · exact codes_exit _
  · exact codes_pure _

theorem codes_getLinterIDs (env : Lint.Env) (g : Str) : Codes (getLinterIDs env g) :=
  codes_bind (codes_lookupGroup env g) fun _ => codes_pure _

theorem codes_diffLintGroups (h : Exec.Host) (env : Lint.Env) (g : Str) :
    Codes (diffLintGroups h env g) := by
  unfold diffLintGroups
  split
  · exact codes_bind (codes_getLinterIDs _ _) fun _ => codes_bind (codes_getLinterIDs _ _) fun _ =>
      codes_printAll _ _
  · exact codes_other _

theorem codes_lintCmd (h : Exec.Host) (env : Lint.Env) (srt : SortSlice) (args : List Str)
    (flags : LintFlags) : Codes (lintCmd h env srt args flags) := by
  unfold lintCmd
  refine codes_ite (codes_exit _) (codes_ite (codes_printAll _ _)
    (codes_ite (codes_diffLintGroups _ _ _) (codes_bind (codes_getMeta _ _) fun m => ?_)))
  refine codes_ite (codes_write _ _) (codes_ite (codes_bind (codes_lift _) fun _ => codes_write _ _)
    (codes_ite (codes_bind (codes_lookupGroup _ _) fun _ => codes_write _ _)
      (codes_bind (codes_compile _ _ _ _ _) fun _ => ?_)))
  exact codes_ite (codes_generateIgnores _ _ _) (codes_lint _ _ _)

theorem codes_formatFile (h : Exec.Host) (srt : SortSlice) (flags : FormatFlags) (m : Meta)
    (f : File.ProtoFile) : Codes (formatFile h srt flags m f) := by
  unfold formatFile
  refine codes_ite (codes_pure _) (codes_bind (codes_readFile _ _) fun _ =>
    codes_bind (codes_lift _) fun r => ?_)
  refine codes_ite (codes_bind (codes_printFailures _ _ _ _) fun _ => codes_pure _) (codes_ite ?_ ?_)
  · refine codes_ite (codes_bind (codes_writeFile _ _ _) fun _ => codes_pure _) (codes_ite
      (codes_bind (codes_printFailures _ _ _ _) fun _ => codes_pure _) (codes_ite ?_ ?_))
    · exact codes_bind (codes_lift _) fun _ => codes_bind (codes_write _ _) fun _ => codes_pure _
    · exact codes_bind (codes_write _ _) fun _ => codes_pure _
  · exact codes_ite (codes_bind (codes_write _ _) fun _ => codes_pure _) (codes_pure _)

theorem codes_formatFiles (h : Exec.Host) (srt : SortSlice) (flags : FormatFlags) (m : Meta)
    (fs : List File.ProtoFile) (b : Bool) : Codes (formatFiles h srt flags m fs b) := by
  induction fs generalizing b with
  | nil => exact codes_pure _
  | cons f fs ih => exact codes_bind (codes_formatFile _ _ _ _ _) fun _ => ih _

theorem codes_format (h : Exec.Host) (o : Order) (srt : SortSlice) (flags : FormatFlags) (m : Meta) :
    Codes (format h o srt flags m) :=
  codes_bind (codes_formatFiles _ _ _ _ _ _) fun _ => codes_ite (codes_exit _) (codes_pure _)

theorem codes_formatCmd (h : Exec.Host) (o : Order) (srt : SortSlice) (args : List Str)
    (flags : FormatFlags) : Codes (formatCmd h o srt args flags) :=
  codes_ite (codes_exit _) (codes_bind (codes_getMeta _ _) fun _ =>
    codes_bind (codes_compile _ _ _ _ _) fun _ => codes_format _ _ _ _ _)

theorem codes_allCmd (h : Exec.Host) (env : Lint.Env) (srt : SortSlice) (args : List Str)
    (a b c : Bool) : Codes (allCmd h env srt args a b c) :=
  codes_bind (codes_getMeta _ _) fun _ => codes_bind (codes_compile _ _ _ _ _) fun _ =>
    codes_bind (codes_ite (codes_format _ _ _ _ _) (codes_pure _)) fun _ =>
    codes_bind (codes_compile _ _ _ _ _) fun _ => codes_ite (codes_lint _ _ _) (codes_pure _)

theorem codes_writeTo (t : Tools) (path data : Str) : Codes (writeTo t path data) := by
  intro w c m e
  unfold writeTo at e
  dsimp only at e
  split at e <;> cases e

theorem codes_openOutput (t : Tools) (path : Str) : Codes (openOutput t path) := by
  intro w c m e
  unfold openOutput at e
  dsimp only at e
  split at e <;> cases e

theorem codes_closing {t : Tools} {path : Str} {r : Run Unit} (hr : Codes r) :
    Codes (closing t path r) := by
  intro w c m e
  unfold closing at e
  have := hr w c m
  revert e this
  rcases r w with ⟨w', a | x | _⟩ <;> rcases t.close path with _ | y <;> intro e this <;>
    first | exact this e | cases e

theorem codes_descriptorSetCmd (h : Exec.Host) (t : Tools) (args : List Str) (a b : Bool) (path : Str)
    (tmp : Bool) : Codes (descriptorSetCmd h t args a b path tmp) := by
  unfold descriptorSetCmd
  refine codes_ite (codes_exit _) (codes_bind (codes_getMeta _ _) fun _ =>
    codes_bind (codes_doCompile _ _ _) fun _ => codes_bind (codes_lift _) fun _ =>
    codes_bind (codes_lift _) fun _ => codes_ite (codes_write _ _)
    (codes_bind (codes_openOutput _ _) fun _ => codes_closing
      (codes_bind (codes_writeTo _ _ _) fun _ => codes_ite (codes_println _ _) (codes_pure _))))

theorem codes_breakDescriptorSetCmd (h : Exec.Host) (t : Tools) (args : List Str) (path : Str) :
    Codes (breakDescriptorSetCmd h t args path) :=
  codes_ite (codes_exit _) (codes_descriptorSetCmd _ _ _ _ _ _ _)

theorem codes_getPackageSetAndConfig (h : Exec.Host) (t : Tools) (site : Str) (args : List Str) :
    Codes (getPackageSetAndConfig h t site args) :=
  codes_bind (codes_getMeta _ _) fun _ => codes_bind (codes_compile _ _ _ _ _) fun _ =>
    codes_bind (codes_lift _) fun _ => codes_pure _

theorem codes_getPackage (h : Exec.Host) (t : Tools) (args : List Str) (name : Str) :
    Codes (getPackage h t args name) := by
  unfold getPackage
  refine codes_ite (codes_exit _) (codes_bind (codes_getPackageSetAndConfig _ _ _ _) fun r => ?_)
  split
  · exact codes_other _
  · exact codes_pure _

theorem codes_temporaryClone (h : Exec.Host) (t : Tools) (branch : Str) :
    Codes (temporaryClone h t branch) := by
  intro w c m e
  unfold temporaryClone at e
  dsimp only at e
  split at e
  · cases e
  · split at e
    · cases e
    · split at e <;> cases e
  · cases e

theorem codes_removing {α : Type} {t : Tools} {dir : Str} {r : Run α} (hr : Codes r) :
    Codes (removing t dir r) := fun w c m e => hr w c m e

theorem codes_breakReport (h : Exec.Host) (t : Tools) (c : Settings.Config)
    (a b : Extract.XPackageSet) : Codes (breakReport h t c a b) :=
  codes_bind (codes_lift _) fun _ => codes_ite (codes_bind (codes_printFailuresFor _ _ _ _ _) fun _ =>
    codes_exit _) (codes_pure _)

theorem codes_breakCheckCmd (h : Exec.Host) (t : Tools) (args : List Str) (a b : Str) :
    Codes (breakCheckCmd h t args a b) := by
  unfold breakCheckCmd
  refine codes_ite (codes_exit _) (codes_bind (codes_getPackageSetAndConfig _ _ _ _) fun _ =>
    codes_ite ?_ ?_)
  · exact codes_bind (codes_bind (codes_readFile _ _) fun _ => codes_bind (codes_lift _) fun _ =>
      codes_lift _) fun _ => codes_breakReport _ _ _ _ _
  · exact codes_bind (codes_lift _) fun _ => codes_bind (codes_temporaryClone _ _ _) fun _ =>
      codes_removing (codes_bind (codes_getPackageSetAndConfig _ _ _ _) fun _ =>
        codes_breakReport _ _ _ _ _)

theorem codes_initCmd (h : Exec.Host) (t : Tools) (args : List Str) (a b : Bool) :
    Codes (initCmd h t args a b) := by
  unfold initCmd
  refine codes_ite (codes_other _) ?_
  dsimp only
  refine codes_bind ?_ fun _ => ?_
  · split
    · exact codes_lift _
    · exact codes_pure _
  · generalize Path.joinPath _ = p
    intro w c m e
    dsimp only at e
    by_cases hp : (w.disk p).isSome
    · rw [if_pos hp] at e; cases e
    · rw [if_neg hp] at e
      exact codes_bind (codes_lift _) (fun _ => codes_writeFile _ _ _) w c m e

theorem codes_checkFilePath (h : Exec.Host) (path : Str) : Codes (Create.checkFilePath h path) := by
  intro w c m e
  unfold Create.checkFilePath at e
  repeat' split at e
  all_goals cases e

theorem codes_create (c : Create.Handler) (h : Exec.Host) (path : Str) :
    Codes (Create.create c h path) :=
  codes_bind (codes_liftOption _) fun _ => codes_bind (codes_lift _) fun _ => codes_writeFile _ _ _

theorem codes_forEach {f : Str → Run Unit} (hf : ∀ p, Codes (f p)) (ps : List Str) :
    Codes (Create.forEach f ps) := by
  induction ps with
  | nil => exact codes_pure _
  | cons p ps ih => exact codes_bind (hf p) fun _ => ih

theorem codes_grpcCmd (h : Exec.Host) (e : Grpc.Env) (args : List Str) (f : Grpc.Flags) :
    Codes (Grpc.grpcCmd h e args f) := by
  unfold Grpc.grpcCmd
  split
  · exact codes_exit _
  · refine codes_bind (codes_lift _) fun _ => codes_bind (codes_lift _) fun _ =>
      codes_bind (codes_lift _) fun _ => codes_bind (codes_lift _) fun _ =>
      codes_bind (codes_getMeta _ _) fun _ => codes_bind (codes_compile _ _ _ _ _) fun _ =>
      codes_ite (codes_other _) (codes_bind (codes_lift _) fun call => ?_)
    intro w c m h
    unfold Grpc.invoke at h
    dsimp only at h
    split at h
    · cases h
    · split at h <;> cases h

theorem codes_newDownloader (s : System) (r : Runner) (c : Settings.Config) :
    Codes (newDownloader s r c) := by
  intro w c m h
  unfold newDownloader at h
  split at h <;> cases h

theorem codes_onDisk (f : Disk → Disk × Option Err) : Codes (onDisk f) := by
  intro w c m h
  unfold onDisk at h
  split at h <;> cases h

/-- Every command ends with 255 if with an exit code at all. -/
theorem codes_run (s : System) (r : Runner) (args : List Str) (f : Cmd.Flags) (c : Command) :
    Codes (c.run s r args f) := by
  cases c with
  | all => exact codes_allCmd _ _ _ _ _ _ _
  | breakCheck => exact codes_breakCheckCmd _ _ _ _ _
  | breakDescriptorSet => exact codes_breakDescriptorSetCmd _ _ _ _
  | cacheUpdate =>
    exact codes_bind (codes_getMeta _ _) fun _ => codes_bind (codes_newDownloader _ _ _) fun _ =>
      codes_onDisk _
  | cacheDelete =>
    exact codes_bind (codes_getMeta _ _) fun _ => codes_bind (codes_newDownloader _ _ _) fun _ =>
      codes_onDisk _
  | compile => exact codes_bind (codes_getMeta _ _) fun _ => codes_bind (codes_compile _ _ _ _ _) fun _ =>
      codes_pure _
  | create => exact codes_bind (codes_forEach (codes_checkFilePath _) _) fun _ =>
      codes_forEach (codes_create _ _) _
  | descriptorSet => exact codes_descriptorSetCmd _ _ _ _ _ _ _
  | files => exact codes_bind (codes_getMeta _ _) fun _ => codes_printAll _ _
  | format => exact codes_formatCmd _ _ _ _ _
  | generate => exact codes_bind (codes_getMeta _ _) fun _ => codes_bind (codes_compile _ _ _ _ _) fun _ =>
      codes_pure _
  | grpc => exact codes_grpcCmd _ _ _ _
  | inspectPackages => exact codes_bind (codes_getPackageSetAndConfig _ _ _ _) fun _ => codes_printAll _ _
  | inspectPackageDeps => exact codes_bind (codes_getPackage _ _ _ _) fun _ => codes_printAll _ _
  | inspectPackageImporters => exact codes_bind (codes_getPackage _ _ _ _) fun _ => codes_printAll _ _
  | configInit => exact codes_initCmd _ _ _ _ _
  | lint => exact codes_lintCmd _ _ _ _ _
  | version => exact codes_ite (codes_write _ _) (codes_write _ _)

/-- What a flag sets. -/
theorem valueOf_set (b b' : Bind) (v : Value) (f : Cmd.Flags) :
    valueOf (b.set v f) b' = valueOf f b' ∨ b'.name = b.name := by
  by_cases h : b'.name = b.name
  · exact Or.inr h
  · refine Or.inl ?_
    cases b <;> cases v <;> first | rfl | (cases b' <;> first | rfl | exact absurd rfl h)

theorem valueOf_set_same (b b' : Bind) (v : Value) (f : Cmd.Flags) (h : b'.name = b.name)
    (hv : Fits b v) (hl : b ≠ .headers) : valueOf (b.set v f) b' = v := by
  cases b <;> cases v <;>
    first
    | exact absurd hv (fun h => h)
    | exact absurd rfl hl
    | (cases b' <;> first | rfl | exact absurd h (by decide))

theorem parse_append (c : Command) (xs ys : List (Str × Value)) (f : Cmd.Flags) :
    c.parse (xs ++ ys) f = (c.parse xs f).bind (c.parse ys) := by
  induction xs generalizing f with
  | nil => rfl
  | cons x xs ih =>
    obtain ⟨n, v⟩ := x
    simp only [List.cons_append, Command.parse]
    split
    · rfl
    · exact ih _

theorem parse_none (c : Command) (values : List (Str × Value)) (f : Cmd.Flags) :
    c.parse values f = none ↔ ∃ p ∈ values, p.1 ∉ flagNames c := by
  induction values generalizing f with
  | nil => simp [Command.parse]
  | cons x xs ih =>
    obtain ⟨n, v⟩ := x
    simp only [Command.parse]
    split
    · rename_i h
      simp only [List.find?_eq_none, decide_eq_true_eq] at h
      refine ⟨fun _ => ⟨(n, v), List.mem_cons_self .., ?_⟩, fun _ => rfl⟩
      intro hn
      obtain ⟨b, hb, e⟩ := List.mem_map.1 hn
      exact h b hb e
    · rename_i b h
      rw [ih]
      have hmem : n ∈ flagNames c := by
        have := List.find?_some h
        simp only [decide_eq_true_eq] at this
        rw [← this]
        exact List.mem_map.2 ⟨b, List.mem_of_find?_eq_some h, rfl⟩
      constructor
      · rintro ⟨p, hp, hn⟩; exact ⟨p, List.mem_cons_of_mem _ hp, hn⟩
      · rintro ⟨p, hp, hn⟩
        rcases List.mem_cons.1 hp with rfl | hp
        · exact absurd hmem hn
        · exact ⟨p, hp, hn⟩

theorem parse_keeps {c : Command} {values : List (Str × Value)} {f f' : Cmd.Flags}
    (h : c.parse values f = some f') (b : Bind) (hb : ∀ p ∈ values, p.1 ≠ b.name) :
    valueOf f' b = valueOf f b := by
  induction values generalizing f with
  | nil => injection h with h; rw [h]
  | cons x xs ih =>
    obtain ⟨n, v⟩ := x
    simp only [Command.parse] at h
    split at h
    · cases h
    · rename_i b' hf
      rw [ih h (fun p hp => hb p (List.mem_cons_of_mem _ hp))]
      have hn := List.find?_some hf
      simp only [decide_eq_true_eq] at hn
      rcases valueOf_set b' b v f with h1 | h1
      · exact h1
      · exact absurd (h1.trans hn).symm (hb _ (List.mem_cons_self ..))

theorem parse_last {c : Command} {before after : List (Str × Value)} {f f' : Cmd.Flags} {b : Bind}
    {v : Value} (h : c.parse (before ++ (b.name, v) :: after) f = some f')
    (ha : ∀ p ∈ after, p.1 ≠ b.name) (ht : Typed c (before ++ (b.name, v) :: after))
    (hl : b ≠ .headers) : valueOf f' b = v := by
  rw [parse_append] at h
  cases hb : c.parse before f with
  | none => rw [hb] at h; cases h
  | some f1 =>
    rw [hb] at h
    simp only [Option.bind_some, Command.parse] at h
    split at h
    · cases h
    · rename_i b' hf
      rw [parse_keeps h b ha]
      have hn := List.find?_some hf
      simp only [decide_eq_true_eq] at hn
      refine valueOf_set_same b' b v f1 hn.symm
        (ht _ (List.mem_append_right _ (List.mem_cons_self ..)) b' (List.mem_of_find?_eq_some hf) hn) ?_
      rintro rfl
      apply hl
      cases b <;> first | rfl | exact absurd hn (by decide)

theorem name_header {b : Bind} (h : b.name = s%"header") : b = .headers := by
  cases b <;> first | rfl | exact absurd h (by decide)

theorem parse_headers {c : Command} {values : List (Str × Value)} {f f' : Cmd.Flags}
    (h : c.parse values f = some f') (ht : Typed c values) :
    f'.headers = f.headers ++ allValues s%"header" values := by
  induction values generalizing f with
  | nil => injection h with h; rw [h]; simp [allValues]
  | cons x xs ih =>
    obtain ⟨n, v⟩ := x
    simp only [Command.parse] at h
    split at h
    · cases h
    · rename_i b hf
      have hn := List.find?_some hf
      simp only [decide_eq_true_eq] at hn
      rw [ih h (fun p hp => ht p (List.mem_cons_of_mem _ hp))]
      unfold allValues
      rw [List.flatMap_cons]
      by_cases he : n = s%"header"
      · subst he
        have := name_header hn
        subst this
        have hfit := ht _ (List.mem_cons_self ..) .headers (List.mem_of_find?_eq_some hf) rfl
        cases v with
        | list l => rw [if_pos rfl, ← List.append_assoc]; rfl
        | str s => exact absurd hfit fun h => h
        | bool s => exact absurd hfit fun h => h
      · rw [if_neg he, List.nil_append]
        congr 1
        have := valueOf_set b .headers v f
        rcases this with h1 | h1
        · injection h1
        · exact absurd (hn.symm.trans h1.symm) he

end Verif.Proof.Cmd
