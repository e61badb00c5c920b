import Verif.Props.BreakCmd
import Verif.Props.Cmd
import Verif.Props.Create
import Verif.Props.Init
import Verif.Spec.History

/-!
# Helper lemmas about histories: what runs change, and what they depend on
-/

namespace Verif.Exec

open Verif Str Cmd

/-! ## What is changed -/

/-- The run changes nothing at other paths. -/
def Confined {α : Type} (P : Str → Prop) (r : Run α) : Prop := ∀ w p, ¬P p → (r w).1.disk p = w.disk p

variable {P : Str → Prop}

theorem confined_of_quiet {α : Type} {r : Run α} (h : Quiet r) : Confined P r := fun w p _ => by rw [(h w).1]

theorem confined_bind {α β : Type} {m : Run α} {f : α → Run β} (hm : Confined P m)
    (hf : ∀ w w' a, m w = (w', .ok a) → Confined P (f a)) : Confined P (Run.bind m f) := by
  intro w p hp
  have h1 := hm w p hp
  unfold Run.bind
  rcases hr : m w with ⟨w', a | e | _⟩ <;> rw [hr] at h1
  · exact (hf w w' a hr w' p hp).trans h1
  · exact h1
  · exact h1

theorem confined_writeFile {h : Host} {path data : Str} (hp : P path) : Confined P (writeFile h path data) := by
  intro w p hn
  have : p ≠ path := fun e => hn (e ▸ hp)
  unfold writeFile
  dsimp only
  rcases h.writeFile path data with ⟨e, left⟩ | _ <;> exact if_neg this

theorem confined_writeTo {t : Tools} {path data : Str} (hp : P path) : Confined P (writeTo t path data) := by
  intro w p hn
  have : p ≠ path := fun e => hn (e ▸ hp)
  unfold writeTo
  dsimp only
  rcases t.writeTo path data with ⟨e, left⟩ | _ <;> exact if_neg this

theorem confined_compile {h : Host} {doGen sets dryRun : Bool} {m : Meta}
    (hg : doGen = true → dryRun = false → ∀ disk p, h.generate disk m.protoSet p ≠ disk p → P p) :
    Confined P (compile h doGen sets dryRun m) := by
  unfold compile
  dsimp only
  split
  · exact confined_of_quiet (quiet_bind (quiet_doProtocCommands _ _ _) fun _ => quiet_pure _)
  · rename_i hd
    have hd : dryRun = false := by simpa using hd
    intro w p hn
    have key : ∀ (o : Except Err (List Text.Failure × List Descriptor.FileSet)) (w' : World),
        (match o with
          | .error e => (w', .error (.other e))
          | .ok (failures, sets) =>
            (Run.bind (printFailures h [] m failures) fun _ =>
              if failures.length > 0 then exit255 else Run.pure sets) w' :
          World × Outcome (List Descriptor.FileSet)).1.disk = w'.disk := by
      intro o w'
      rcases o with e | ⟨fs, ss⟩
      · rfl
      · refine (quiet_bind (quiet_printFailures _ _ _ _) (fun _ => ?_) w').1
        split
        · exact quiet_exit _
        · exact quiet_pure _
    unfold doCompile
    dsimp only
    refine (congrFun (key _ _) p).trans ?_
    cases hdg : doGen with
    | false => rfl
    | true => exact Classical.byContradiction fun hne => hn (hg hdg hd _ _ hne)

theorem confined_formatFiles {h : Host} {srt : SortSlice} {flags : FormatFlags} {m : Meta}
    {fs : List File.ProtoFile} (b : Bool)
    (hp : ∀ f ∈ fs, (m.singleFilename = [] ∨ f.path = File.absClean h.wd m.singleFilename) → P f.path) :
    Confined P (formatFiles h srt flags m fs b) := by
  induction fs generalizing b with
  | nil => exact confined_of_quiet (quiet_pure _)
  | cons f fs ih =>
    refine confined_bind ?_ fun _ _ _ _ => ih _ fun g hg => hp g (List.mem_cons_of_mem _ hg)
    unfold formatFile
    split
    · exact confined_of_quiet (quiet_pure _)
    · rename_i hs
      have hP : P f.path := by
        refine hp f (List.mem_cons_self ..) ?_
        by_cases h1 : m.singleFilename = []
        · exact .inl h1
        · exact .inr (Classical.byContradiction fun h2 => hs ⟨h1, h2⟩)
      refine confined_bind (confined_of_quiet (quiet_readFile _ _)) fun _ _ _ _ =>
        confined_bind (confined_of_quiet (quiet_lift _)) fun _ _ _ _ => ?_
      split
      · exact confined_of_quiet (quiet_bind (quiet_printFailures _ _ _ _) fun _ => quiet_pure _)
      · split
        · split
          · exact confined_bind (confined_writeFile hP) fun _ _ _ _ => confined_of_quiet (quiet_pure _)
          · split
            · exact confined_of_quiet (quiet_bind (quiet_printFailures _ _ _ _) fun _ => quiet_pure _)
            · split
              · exact confined_of_quiet (quiet_bind (quiet_lift _) fun _ =>
                  quiet_bind (quiet_write _ _) fun _ => quiet_pure _)
              · exact confined_of_quiet (quiet_bind (quiet_write _ _) fun _ => quiet_pure _)
        · split
          · exact confined_of_quiet (quiet_bind (quiet_write _ _) fun _ => quiet_pure _)
          · exact confined_of_quiet (quiet_pure _)

theorem confined_format {h : Host} {o : Order} {srt : SortSlice} {flags : FormatFlags} {m : Meta}
    (hp : ∀ f, Concerns h m f → P f.path) : Confined P (format h o srt flags m) := by
  unfold format
  refine confined_bind (confined_formatFiles _ fun f hf hs => hp f ⟨?_, hs⟩) fun _ _ ok _ => ?_
  · obtain ⟨d, hd, hfd⟩ := List.mem_flatMap.1 hf
    obtain ⟨hd1, hd2⟩ := List.mem_filter.1 hd
    exact ⟨d.1, d.2, (o.perm _ _).mem_iff.1 hd1, List.isPrefixOf_iff_prefix.1 hd2, hfd⟩
  · cases ok
    · exact confined_of_quiet (quiet_exit _)
    · exact confined_of_quiet (quiet_pure _)

/-! ## What is depended on -/

/-- The world with more printed and written before. -/
def shift (o : Str) (ws : List (Str × Str)) (w : World) : World :=
  { w with out := o ++ w.out, writes := ws ++ w.writes }

/-- What was printed and written before makes no difference to the run. -/
def Framed {α : Type} (r : Run α) : Prop := ∀ o ws w, r (shift o ws w) = (shift o ws (r w).1, (r w).2)

theorem framed_pure {α : Type} (a : α) : Framed (Run.pure a) := fun _ _ _ => rfl

theorem framed_fail {α : Type} (e : RunErr) : Framed (Run.fail e : Run α) := fun _ _ _ => rfl

theorem framed_exit {α : Type} (e : Str) : Framed (exit255 e : Run α) := fun _ _ _ => rfl

theorem framed_bind {α β : Type} {m : Run α} {f : α → Run β} (hm : Framed m) (hf : ∀ a, Framed (f a)) :
    Framed (Run.bind m f) := by
  intro o ws w
  unfold Run.bind
  rw [hm o ws w]
  rcases m w with ⟨w', a | e | _⟩
  · exact hf a o ws w'
  · rfl
  · rfl

theorem framed_lift {α : Type} (r : Except Err α) : Framed (Run.lift r) := by
  cases r
  · exact framed_fail _
  · exact framed_pure _

theorem framed_liftOption {α : Type} (r : Option (Except Err α)) : Framed (Run.liftOption r) := by
  rcases r with _ | r
  · exact fun _ _ _ => rfl
  · exact framed_lift r

/-- A run that looks at the files first. -/
theorem framed_disk {α : Type} {f : Disk → Run α} (hf : ∀ d, Framed (f d)) : Framed fun w => f w.disk w :=
  fun o ws w => hf w.disk o ws w

theorem framed_readFile (h : Host) (p : Str) : Framed (readFile h p) := by
  intro o ws w
  unfold readFile shift
  dsimp only
  cases w.disk p <;> rfl

theorem framed_writeFile (h : Host) (path data : Str) : Framed (writeFile h path data) := by
  intro o ws w
  unfold writeFile shift
  dsimp only
  rcases h.writeFile path data with ⟨e, left⟩ | _ <;> simp [List.append_assoc]

theorem framed_getMeta (h : Host) (args : List Str) : Framed (getMeta h args) := framed_lift _

section Prints

variable {h : Host} (hp : Prints h)

include hp

theorem framed_write (t : Str) : Framed (write h t) := by
  intro o ws w
  unfold write
  rw [hp, hp]
  simp [shift, List.append_assoc]

theorem framed_println (t : Str) : Framed (println h t) := by
  unfold println
  split
  · exact framed_pure _
  · exact framed_write hp _

theorem framed_printAll (l : List Str) : Framed (printAll h l) := by
  induction l with
  | nil => exact framed_pure _
  | cons a l ih => exact framed_bind (framed_println hp a) fun _ => ih

theorem framed_printFailuresFor (errorFormat filename : Str) (m : Option Meta) (fs : List Text.Failure) :
    Framed (printFailuresFor h errorFormat filename m fs) := by
  unfold printFailuresFor
  dsimp only
  split
  · exact framed_fail _
  · split
    · exact framed_write hp _
    · intro o ws w
      simp [shift, List.append_assoc]

theorem framed_printFailures (filename : Str) (m : Meta) (fs : List Text.Failure) :
    Framed (printFailures h filename m fs) := framed_printFailuresFor hp _ _ _ _

theorem framed_doCompile (flags : CompileFlags) (m : Meta) : Framed (doCompile h flags m) := by
  refine framed_disk (f := fun d w =>
    let result := h.compile flags d m.protoSet
    let w := if flags.doGen then { w with disk := h.generate d m.protoSet } else w
    match result with
    | .error e => (w, .error (.other e))
    | .ok (failures, sets) =>
      (Run.bind (printFailures h [] m failures) fun _ =>
        if failures.length > 0 then exit255 else Run.pure sets) w) fun d => ?_
  intro o ws w
  dsimp only
  have e : (if flags.doGen = true then { shift o ws w with disk := h.generate d m.protoSet } else shift o ws w) =
      shift o ws (if flags.doGen = true then { w with disk := h.generate d m.protoSet } else w) := by
    split <;> rfl
  rw [e]
  rcases h.compile flags d m.protoSet with err | ⟨fs, sets⟩
  · rfl
  · refine framed_bind (framed_printFailures hp _ _ _) (fun _ => ?_) _ _ _
    split
    · exact framed_exit _
    · exact framed_pure _

theorem framed_doProtocCommands (flags : CompileFlags) (m : Meta) : Framed (doProtocCommands h flags m) := by
  refine framed_disk (f := fun d w =>
    match h.protocCommands flags d m.protoSet with
    | .error e => (w, .error (.other e))
    | .ok commands => printAll h commands w) fun d => ?_
  intro o ws w
  dsimp only
  rcases h.protocCommands flags d m.protoSet with e | cs
  · rfl
  · exact framed_printAll hp cs o ws w

theorem framed_compile (doGen sets dryRun : Bool) (m : Meta) : Framed (compile h doGen sets dryRun m) := by
  unfold compile
  dsimp only
  split
  · exact framed_bind (framed_doProtocCommands hp _ _) fun _ => framed_pure _
  · exact framed_doCompile hp _ m

theorem framed_lint (env : Lint.Env) (m : Meta) : Framed (lint h env m) := by
  refine framed_disk (f := fun d =>
    Run.bind (Run.liftOption (Lint.run env (lintHost h d) m.protoSet false)) fun failures =>
    Run.bind (printFailures h [] m failures) fun _ =>
    if failures.length > 0 then exit255 else Run.pure ()) fun d => ?_
  refine framed_bind (framed_liftOption _) fun fs => framed_bind (framed_printFailures hp _ _ _) fun _ => ?_
  split
  · exact framed_exit _
  · exact framed_pure _

theorem framed_generateIgnores (env : Lint.Env) (m : Meta) : Framed (generateIgnores h env m) := by
  refine framed_disk (f := fun d =>
    Run.bind (Run.liftOption (Lint.generateIgnores env (lintHost h d) m.protoSet)) fun c =>
    match c with
    | none => Run.pure ()
    | some c => Run.bind (Run.lift (h.toYAML c)) fun data => println h (trimSpace data)) fun d => ?_
  refine framed_bind (framed_liftOption _) fun c => ?_
  rcases c with _ | c
  · exact framed_pure _
  · exact framed_bind (framed_lift _) fun _ => framed_println hp _

omit hp in
theorem framed_lookupGroup (env : Lint.Env) (g : Str) : Framed (lookupGroup env g) := by
  unfold lookupGroup
  split
  · exact framed_exit _
  · exact framed_pure _

theorem framed_lintCmd (env : Lint.Env) (srt : SortSlice) (args : List Str) (flags : LintFlags) :
    Framed (lintCmd h env srt args flags) := by
  have hpl : ∀ c ls, Framed (printLinters h srt c ls) := fun c ls => framed_write hp _
  unfold lintCmd
  split
  · exact framed_exit _
  · split
    · exact framed_printAll hp _
    · split
      · unfold diffLintGroups
        split
        · unfold getLinterIDs
          exact framed_bind (framed_bind (framed_lookupGroup _ _) fun _ => framed_pure _) fun _ =>
            framed_bind (framed_bind (framed_lookupGroup _ _) fun _ => framed_pure _) fun _ =>
              framed_printAll hp _
        · exact framed_fail _
      · refine framed_bind (framed_getMeta _ _) fun m => ?_
        split
        · exact hpl _ _
        · split
          · exact framed_bind (framed_lift _) fun _ => hpl _ _
          · split
            · exact framed_bind (framed_lookupGroup _ _) fun _ => hpl _ _
            · refine framed_bind (framed_compile hp _ _ _ _) fun _ => ?_
              split
              · exact framed_generateIgnores hp _ _
              · exact framed_lint hp _ _

theorem framed_format (o : Order) (srt : SortSlice) (flags : FormatFlags) (m : Meta) :
    Framed (format h o srt flags m) := by
  have hfile : ∀ f, Framed (formatFile h srt flags m f) := by
    intro f
    unfold formatFile
    split
    · exact framed_pure _
    · refine framed_bind (framed_readFile _ _) fun _ => framed_bind (framed_lift _) fun _ => ?_
      split
      · exact framed_bind (framed_printFailures hp _ _ _) fun _ => framed_pure _
      · split
        · split
          · exact framed_bind (framed_writeFile _ _ _) fun _ => framed_pure _
          · split
            · exact framed_bind (framed_printFailures hp _ _ _) fun _ => framed_pure _
            · split
              · exact framed_bind (framed_lift _) fun _ => framed_bind (framed_write hp _) fun _ => framed_pure _
              · exact framed_bind (framed_write hp _) fun _ => framed_pure _
        · split
          · exact framed_bind (framed_write hp _) fun _ => framed_pure _
          · exact framed_pure _
  have hfiles : ∀ fs b, Framed (formatFiles h srt flags m fs b) := by
    intro fs
    induction fs with
    | nil => exact fun _ => framed_pure _
    | cons f fs ih => exact fun b => framed_bind (hfile f) fun _ => ih _
  unfold format
  refine framed_bind (hfiles _ _) fun ok => ?_
  cases ok
  · exact framed_exit _
  · exact framed_pure _

theorem framed_formatCmd (o : Order) (srt : SortSlice) (args : List Str) (flags : FormatFlags) :
    Framed (formatCmd h o srt args flags) := by
  unfold formatCmd
  split
  · exact framed_exit _
  · exact framed_bind (framed_getMeta _ _) fun m => framed_bind (framed_compile hp _ _ _ _) fun _ =>
      framed_format hp _ _ _ _

theorem framed_allCmd (env : Lint.Env) (srt : SortSlice) (args : List Str) (a b c : Bool) :
    Framed (allCmd h env srt args a b c) := by
  unfold allCmd
  refine framed_bind (framed_getMeta _ _) fun m => framed_bind (framed_compile hp _ _ _ _) fun _ =>
    framed_bind ?_ fun _ => framed_bind (framed_compile hp _ _ _ _) fun _ => ?_
  · split
    · exact framed_format hp _ _ _ _
    · exact framed_pure _
  · split
    · exact framed_lint hp _ _
    · exact framed_pure _

omit hp in
theorem framed_openOutput (t : Tools) (path : Str) : Framed (openOutput t path) := by
  intro o ws w
  unfold openOutput
  dsimp only
  generalize (if path ≠ [] then
      match t.create path with
      | .error e => Except.error e
      | .ok () => .ok path
    else t.tempFile) = opened
  cases opened <;> rfl

omit hp in
theorem framed_writeTo (t : Tools) (path data : Str) : Framed (writeTo t path data) := by
  intro o ws w
  unfold writeTo shift
  dsimp only
  rcases t.writeTo path data with ⟨e, left⟩ | _ <;> simp [List.append_assoc]

omit hp in
theorem framed_closing (t : Tools) (path : Str) {r : Run Unit} (hr : Framed r) : Framed (closing t path r) := by
  intro o ws w
  unfold closing
  rw [hr o ws w]
  rcases r w with ⟨w', _ | e | _⟩ <;> cases t.close path <;> rfl

theorem framed_descriptorSetCmd (t : Tools) (args : List Str) (a b : Bool) (path : Str) (tmp : Bool) :
    Framed (descriptorSetCmd h t args a b path tmp) := by
  unfold descriptorSetCmd
  split
  · exact framed_exit _
  · refine framed_bind (framed_getMeta _ _) fun _ => framed_bind (framed_doCompile hp _ _) fun _ =>
      framed_bind (framed_lift _) fun _ => framed_bind (framed_lift _) fun _ => ?_
    split
    · exact framed_write hp _
    · refine framed_bind (framed_openOutput _ _) fun p => framed_closing _ _ (framed_bind (framed_writeTo _ _ _)
        fun _ => ?_)
      split
      · exact framed_println hp _
      · exact framed_pure _

theorem framed_getPackageSetAndConfig (t : Tools) (site : Str) (args : List Str) :
    Framed (getPackageSetAndConfig h t site args) :=
  framed_bind (framed_getMeta _ _) fun _ => framed_bind (framed_compile hp _ _ _ _) fun _ =>
    framed_bind (framed_lift _) fun _ => framed_pure _

theorem framed_getPackage (t : Tools) (args : List Str) (name : Str) : Framed (getPackage h t args name) := by
  unfold getPackage
  split
  · exact framed_exit _
  · refine framed_bind (framed_getPackageSetAndConfig hp _ _ _) fun r => ?_
    split
    · exact framed_fail _
    · exact framed_pure _

theorem framed_breakReport (t : Tools) (c : Settings.Config) (a b : Extract.XPackageSet) :
    Framed (breakReport h t c a b) := by
  refine framed_bind (framed_lift _) fun fs => ?_
  split
  · exact framed_bind (framed_printFailuresFor hp _ _ _ _) fun _ => framed_exit _
  · exact framed_pure _

omit hp in
theorem framed_temporaryClone (t : Tools) (branch : Str) : Framed (temporaryClone h t branch) := by
  intro o ws w
  unfold temporaryClone
  dsimp only
  generalize h.stat _ = st
  rcases st with e | _ | _ | _
  · rfl
  · rcases t.tempDir with e | dir
    · rfl
    · dsimp only
      show (match t.git _ (Disk.set w.disk dir (some [])) with | (disk, none) => _ | (disk, some output) => _) = _
      rcases t.git (gitArgs (File.absClean h.wd h.workDirPath) branch dir) (Disk.set w.disk dir (some [])) with
        ⟨d, _ | x⟩ <;> rfl
  · rfl
  · rfl

omit hp in
theorem framed_removing {α : Type} (t : Tools) (dir : Str) {r : Run α} (hr : Framed r) :
    Framed (removing t dir r) := by
  intro o ws w
  unfold removing
  rw [hr o ws w]
  rcases r w with ⟨w', x⟩
  rfl

theorem framed_breakCheckCmd (t : Tools) (args : List Str) (branch path : Str) :
    Framed (breakCheckCmd h t args branch path) := by
  unfold breakCheckCmd
  split
  · exact framed_exit _
  · refine framed_bind (framed_getPackageSetAndConfig hp _ _ _) fun to => ?_
    split
    · exact framed_bind (framed_bind (framed_readFile _ _) fun _ => framed_bind (framed_lift _) fun _ =>
        framed_lift _) fun _ => framed_breakReport hp _ _ _ _
    · refine framed_bind (framed_lift _) fun _ => framed_bind (framed_temporaryClone _ _) fun dir =>
        framed_removing _ _ (framed_bind (framed_getPackageSetAndConfig (h := cloneForWorkDirPath h t dir) hp _ _ _)
          fun _ => framed_breakReport hp _ _ _ _)

omit hp in
theorem framed_initCmd (t : Tools) (args : List Str) (a b : Bool) : Framed (initCmd h t args a b) := by
  unfold initCmd
  split
  · exact framed_fail _
  · dsimp only
    refine framed_bind ?_ fun _ => ?_
    · split
      · exact framed_lift _
      · exact framed_pure _
    · generalize Path.joinPath _ = p
      refine framed_disk (f := fun d w => if (d p).isSome then (w, _) else
        (Run.bind (Run.lift (t.config a b)) fun data => writeFile h p data) w) fun d => ?_
      intro o ws w
      dsimp only
      cases (d p).isSome
      · exact framed_bind (framed_lift _) (fun _ => framed_writeFile _ _ _) o ws w
      · rfl

omit hp in
theorem framed_createCmd (c : Create.Handler) (paths : List Str) : Framed (Create.createCmd c h paths) := by
  have hall : ∀ (f : Str → Run Unit) (hf : ∀ p, Framed (f p)) (l : List Str), Framed (Create.forEach f l) := by
    intro f hf l
    induction l with
    | nil => exact framed_pure _
    | cons a l ih => exact framed_bind (hf a) fun _ => ih
  refine framed_bind (hall _ (fun p => ?_) _) fun _ => hall _ (fun p => ?_) _
  · intro o ws w
    unfold Create.checkFilePath
    by_cases hn : p = []
    · rw [if_pos hn, if_pos hn]
    · rw [if_neg hn, if_neg hn]
      rcases h.stat (Path.dir p) with e | _ | _ | _
      · rfl
      · show (match w.disk (File.absClean h.wd p) with | some data => _ | none => _) = _
        dsimp only
        rcases w.disk (File.absClean h.wd p) with _ | data
        · rcases h.stat p with e | k <;> rfl
        · dsimp only
          by_cases hl : data.length > 0
          · rw [if_pos hl, if_pos hl]
          · rw [if_neg hl, if_neg hl]
      · rfl
      · rfl
  · exact framed_bind (framed_liftOption _) fun _ => framed_bind (framed_lift _) fun _ => framed_writeFile _ _ _

theorem framed_grpcCmd (e : Grpc.Env) (args : List Str) (f : Grpc.Flags) : Framed (Grpc.grpcCmd h e args f) := by
  unfold Grpc.grpcCmd
  split
  · exact framed_exit _
  · refine framed_bind (framed_lift _) fun _ => framed_bind (framed_lift _) fun _ => framed_bind (framed_lift _)
      fun _ => framed_bind (framed_lift _) fun _ => framed_bind (framed_getMeta _ _) fun _ =>
      framed_bind (framed_compile hp _ _ _ _) fun sets => ?_
    split
    · exact framed_fail _
    · refine framed_bind (framed_lift _) fun call o ws w => ?_
      unfold Grpc.invoke
      rcases e.rpc call with ⟨events, _ | err⟩
      · dsimp only
        rcases Grpc.eventsErr events none with _ | err <;> simp [shift, List.append_assoc]
      · simp [shift, List.append_assoc]

end Prints

end Verif.Exec

namespace Verif.Cmd

open Verif Str Exec Spec

theorem framed_onDisk (f : Disk → Disk × Option Err) : Framed (onDisk f) := by
  intro o ws w
  unfold onDisk shift
  dsimp only
  rcases f w.disk with ⟨d, _ | e⟩ <;> rfl

theorem framed_newDownloader (s : System) (r : Runner) (c : Settings.Config) : Framed (newDownloader s r c) := by
  intro o ws w
  unfold newDownloader
  cases Download.newDownloader s.stat (downloaderOptions r c) <;> rfl

theorem framed_command {s : System} (r : Runner) (hp : Prints (s.host r)) (args : List Str) (f : Cmd.Flags)
    (c : Command) : Framed (c.run s r args f) := by
  have hp' : Prints (s.hostOf r) := hp
  cases c with
  | all => exact framed_allCmd hp' _ _ _ _ _ _
  | breakCheck => exact framed_breakCheckCmd hp' _ _ _ _
  | breakDescriptorSet =>
    unfold Command.run breakDescriptorSetCmd
    dsimp only
    split
    · exact framed_exit _
    · exact framed_descriptorSetCmd hp' _ _ _ _ _ _
  | cacheUpdate =>
    exact framed_bind (framed_getMeta _ _) fun _ => framed_bind (framed_newDownloader _ _ _) fun _ =>
      framed_onDisk _
  | cacheDelete =>
    exact framed_bind (framed_getMeta _ _) fun _ => framed_bind (framed_newDownloader _ _ _) fun _ =>
      framed_onDisk _
  | compile => exact framed_bind (framed_getMeta _ _) fun _ => framed_bind (framed_compile hp' _ _ _ _) fun _ => framed_pure _
  | create => exact framed_createCmd _ _
  | descriptorSet => exact framed_descriptorSetCmd hp' _ _ _ _ _ _
  | files => exact framed_bind (framed_getMeta _ _) fun _ => framed_printAll hp' _
  | format => exact framed_formatCmd hp' _ _ _ _
  | generate => exact framed_bind (framed_getMeta _ _) fun _ => framed_bind (framed_compile hp' _ _ _ _) fun _ => framed_pure _
  | grpc => exact framed_grpcCmd hp' _ _ _
  | inspectPackages => exact framed_bind (framed_getPackageSetAndConfig hp' _ _ _) fun _ => framed_printAll hp' _
  | inspectPackageDeps => exact framed_bind (framed_getPackage hp' _ _ _) fun _ => framed_printAll hp' _
  | inspectPackageImporters => exact framed_bind (framed_getPackage hp' _ _ _) fun _ => framed_printAll hp' _
  | configInit => exact framed_initCmd _ _ _ _
  | lint => exact framed_lintCmd hp' _ _ _ _
  | version =>
    unfold Command.run versionCmd
    dsimp only
    split <;> exact framed_write hp' _

theorem failWith_shift (e : RunErr) (o : Str) (ws : List (Str × Str)) (w : World) :
    failWith e (shift o ws w) = (shift o ws (failWith e w).1, (failWith e w).2) := by
  unfold failWith shift
  simp [List.append_assoc]

/-- A line does the same after something else was printed and written. -/
theorem line_framed {l : Line} (hp : l.Printing) (o : Str) (ws : List (Str × Str)) (w : World) :
    l.run (shift o ws w) = (shift o ws (l.run w).1, (l.run w).2) := by
  obtain ⟨s, usage, devel, parsed⟩ := l
  unfold Line.run Cmd.run
  dsimp only
  split
  · exact failWith_shift _ _ _ _
  · cases parsed with
    | help text => simp [shift, List.append_assoc]
    | invalid text e =>
      have : ({ shift o ws w with out := (shift o ws w).out ++ text } : World) =
          shift o ws { w with out := w.out ++ text } := by simp [shift, List.append_assoc]
      dsimp only
      rw [this]
      exact failWith_shift _ _ _ _
    | line c args values =>
      have hu : ∀ text e, failWith e { shift o ws w with out := (shift o ws w).out ++ text } =
          (shift o ws (failWith e { w with out := w.out ++ text }).1,
            (failWith e { w with out := w.out ++ text }).2) := by
        intro text e
        have : ({ shift o ws w with out := (shift o ws w).out ++ text } : World) =
            shift o ws { w with out := w.out ++ text } := by simp [shift, List.append_assoc]
        rw [this]
        exact failWith_shift _ _ _ _
      dsimp only
      cases c.parse values initial with
      | none => exact hu _ _
      | some f =>
        dsimp only
        split
        · unfold checkCmd
          cases getRunner s.environ devel f with
          | error e => exact failWith_shift _ _ _ _
          | ok r =>
            dsimp only
            rw [framed_command r (hp r) args f c o ws w]
            rcases c.run s r args f w with ⟨w', _ | e | _⟩
            · rfl
            · exact failWith_shift _ _ _ _
            · rfl
        · exact hu _ _

/-- The files after a line are those after its command. -/
theorem line_disk (l : Line) (w : World) :
    (l.run w).1.disk = w.disk ∨
      ∃ c args values f r, l.parsed = .line c args values ∧ c.parse values initial = some f ∧
        getRunner l.system.environ l.devel f = .ok r ∧
        (l.run w).1.disk = (c.run l.system r args f w).1.disk := by
  obtain ⟨s, usage, devel, parsed⟩ := l
  unfold Line.run Cmd.run
  dsimp only
  split
  · exact .inl rfl
  · cases parsed with
    | help text => exact .inl rfl
    | invalid text e => exact .inl rfl
    | line c args values =>
      dsimp only
      cases hf : c.parse values initial with
      | none => exact .inl rfl
      | some f =>
        dsimp only
        split
        · unfold checkCmd
          cases hr : getRunner s.environ devel f with
          | error e => exact .inl rfl
          | ok r =>
            refine .inr ⟨c, args, values, f, r, rfl, hf, hr, ?_⟩
            dsimp only
            rcases c.run s r args f w with ⟨w', _ | e | _⟩ <;> rfl
        · exact .inl rfl

theorem onDisk_disk (f : Disk → Disk × Option Err) (w : World) : (onDisk f w).1.disk = (f w.disk).1 := by
  unfold onDisk
  rcases f w.disk with ⟨d, _ | e⟩ <;> rfl

/-- The two commands about the cache. -/
theorem cache_disk {s : System} {r : Runner} {args : List Str} {g : Download.Options → Disk → Disk × Option Err}
    {w : World} {path : Str}
    (h : (Run.bind (getMeta (s.hostOf r) args) (fun m =>
      Run.bind (newDownloader s r m.protoSet.config) fun d => onDisk (g d)) w).1.disk path ≠ w.disk path) :
    ∃ d : Download.Options, d.cachePath = r.cachePath ∧ (g d w.disk).1 path ≠ w.disk path := by
  unfold Run.bind at h
  have hq := (quiet_getMeta (s.hostOf r) args w).1
  rcases hm : getMeta (s.hostOf r) args w with ⟨w1, m | e | _⟩ <;> rw [hm] at h hq <;> dsimp only at h hq
  · unfold newDownloader at h
    cases hn : Download.newDownloader s.stat (downloaderOptions r m.protoSet.config) with
    | ok d =>
      rw [hn] at h
      dsimp only at h
      rw [onDisk_disk, hq] at h
      exact ⟨d, Props.newDownloader_cachePath hn, h⟩
    | error e => rw [hn] at h; exact absurd (congrFun hq path) h
    | panic => rw [hn] at h; exact absurd (congrFun hq path) h
  · exact absurd (congrFun hq path) h
  · exact absurd (congrFun hq path) h

theorem confined_closing {P : Str → Prop} {t : Tools} {path : Str} {r : Run Unit} (hr : Confined P r) :
    Confined P (closing t path r) := by
  intro v q hq
  have := hr v q hq
  unfold closing
  rcases hx : r v with ⟨v', _ | e | _⟩ <;> rw [hx] at this <;> cases t.close path <;> exact this

theorem confined_removing {α : Type} {P : Str → Prop} {t : Tools} {dir : Str} {r : Run α}
    (ht : ∀ d p, ¬P p → t.removeAll dir d p = d p) (hr : Confined P r) : Confined P (removing t dir r) := by
  intro v q hq
  have := hr v q hq
  unfold removing
  rcases hx : r v with ⟨v', o⟩
  rw [hx] at this
  dsimp only at this ⊢
  rw [ht _ q hq]
  exact this

/-- The descriptor set goes to the output and nowhere else. -/
theorem confined_descriptorSetCmd {h : Host} {t : Tools} {args : List Str} {a b tmp : Bool} {out : Str} :
    Confined (fun p => (out ≠ [] ∧ tmp = false ∧ p = out) ∨ (out = [] ∧ tmp = true ∧ t.tempFile = .ok p))
      (descriptorSetCmd h t args a b out tmp) := by
  unfold descriptorSetCmd
  split
  · exact confined_of_quiet (quiet_exit _)
  · rename_i hone
    refine confined_bind (confined_of_quiet (quiet_getMeta _ _)) fun _ _ _ _ =>
      confined_bind (confined_of_quiet (quiet_doCompile _ _ rfl _)) fun _ _ _ _ =>
      confined_bind (confined_of_quiet (quiet_lift _)) fun _ _ _ _ =>
      confined_bind (confined_of_quiet (quiet_lift _)) fun _ _ _ _ => ?_
    split
    · exact confined_of_quiet (quiet_write _ _)
    · rename_i hto
      have hopen : ∀ w w' p, openOutput t out w = (w', .ok p) →
          (out ≠ [] ∧ tmp = false ∧ p = out) ∨ (out = [] ∧ tmp = true ∧ t.tempFile = .ok p) := by
        intro w w' p ho
        unfold openOutput at ho
        dsimp only at ho
        by_cases hn : out = []
        · rw [if_neg (not_not_intro hn)] at ho
          cases ht : t.tempFile with
          | error e => rw [ht] at ho; cases ho
          | ok q =>
            rw [ht] at ho
            cases ho
            refine .inr ⟨hn, ?_, rfl⟩
            cases tmp
            · exact absurd ⟨hn, rfl⟩ hto
            · rfl
        · rw [if_pos hn] at ho
          cases hc : t.create out with
          | error e => rw [hc] at ho; cases ho
          | ok u =>
            rw [hc] at ho
            cases ho
            refine .inl ⟨hn, ?_, rfl⟩
            cases tmp
            · rfl
            · exact absurd ⟨hn, rfl⟩ hone
      refine confined_bind ?_ fun w w' p ho => ?_
      · intro w p hp
        rcases ho : openOutput t out w with ⟨w', q | e | _⟩
        · have := hopen _ _ _ ho
          have hne : p ≠ q := fun e => hp (e ▸ this)
          unfold openOutput at ho
          dsimp only at ho
          split at ho
          · cases ho
          · cases ho
            exact if_neg hne
        · unfold openOutput at ho
          dsimp only at ho
          split at ho <;> cases ho
          rfl
        · unfold openOutput at ho
          dsimp only at ho
          split at ho <;> cases ho
      · refine confined_closing (confined_bind (confined_writeTo (hopen _ _ _ ho)) fun _ _ _ _ => ?_)
        split
        · exact confined_of_quiet (quiet_println _ _)
        · exact confined_of_quiet (quiet_pure _)

theorem confined_getPackageSetAndConfig {P : Str → Prop} {h : Host} {t : Tools} {site : Str} {args : List Str} :
    Confined P (getPackageSetAndConfig h t site args) :=
  confined_of_quiet (quiet_bind (quiet_getMeta _ _) fun _ => quiet_bind (quiet_compile _ _ _ _) fun _ =>
    quiet_bind (quiet_lift _) fun _ => quiet_pure _)

theorem confined_breakReport {P : Str → Prop} {h : Host} {t : Tools} {c : Settings.Config}
    {a b : Extract.XPackageSet} : Confined P (breakReport h t c a b) := by
  refine confined_of_quiet (quiet_bind (quiet_lift _) fun fs => ?_)
  split
  · exact quiet_bind (quiet_printFailuresFor _ _ _ _ _) fun _ => quiet_exit _
  · exact quiet_pure _

theorem confined_breakCheckCmd {h : Host} {t : Tools} {args : List Str} {branch path : Str}
    (habs : ∀ dir, t.tempDir = .ok dir → IsAbsPath dir)
    (hclone : ∀ src branch dir d p, ¬Within p dir → (t.git (cloneArgs src branch dir) d).1 p = d p)
    (hrem : ∀ dir d p, ¬Within p dir → t.removeAll dir d p = d p) :
    Confined (fun p => path = [] ∧ ∃ dir, t.tempDir = .ok dir ∧ Within p dir) (breakCheckCmd h t args branch path) := by
  unfold breakCheckCmd
  split
  · exact confined_of_quiet (quiet_exit _)
  · refine confined_bind confined_getPackageSetAndConfig fun _ _ _ _ => ?_
    split
    · exact confined_bind (confined_of_quiet (quiet_bind (quiet_readFile _ _) fun _ => quiet_bind (quiet_lift _)
        fun _ => quiet_lift _)) fun _ _ _ _ => confined_breakReport
    · rename_i hpath
      have hpath : path = [] := Decidable.not_not.1 hpath
      refine confined_bind (confined_of_quiet (quiet_lift _)) fun _ _ _ _ =>
        confined_bind ?_ fun w w' dir hd => ?_
      · intro w p hp
        have hn : ∀ dir, t.tempDir = .ok dir → ¬Within p dir := fun dir hd hw => hp ⟨hpath, dir, hd, hw⟩
        unfold temporaryClone
        simp only [Props.gitArgs_eq]
        generalize h.stat _ = st
        rcases st with e | _ | _ | _
        · rfl
        · dsimp only
          cases ht : t.tempDir with
          | error e => rfl
          | ok dir =>
            dsimp only
            have := hclone (File.absClean h.wd h.workDirPath) branch dir (Disk.set w.disk dir (some [])) p (hn dir ht)
            have hne : p ≠ dir := by
              rintro rfl
              exact hn p ht (Verif.Path.within_refl (habs _ ht))
            have hset : Disk.set w.disk dir (some []) p = w.disk p := if_neg hne
            rw [hset] at this
            generalize t.git _ _ = x at this ⊢
            rcases x with ⟨d, _ | e⟩ <;> exact this
        · rfl
        · rfl
      · have htd : t.tempDir = .ok dir := by
          unfold temporaryClone at hd
          dsimp only at hd
          generalize h.stat _ = st at hd
          rcases st with e | _ | _ | _
          · cases hd
          · dsimp only at hd
            cases ht : t.tempDir with
            | error e => rw [ht] at hd; cases hd
            | ok dir' =>
              rw [ht] at hd
              dsimp only at hd
              generalize t.git _ _ = x at hd
              rcases x with ⟨d, _ | e⟩ <;> cases hd
              rfl
          · cases hd
          · cases hd
        refine confined_removing (fun d p hp => hrem dir d p fun hw => hp ⟨hpath, dir, htd, hw⟩)
          (confined_bind confined_getPackageSetAndConfig fun _ _ _ _ => confined_breakReport)

end Verif.Cmd
