import Verif.Props.FormatHistory
import Verif.Spec.Interrupt
import Verif.Proof.Create

/-! # What commands that are stopped leave -/

namespace Verif.Exec

open Verif Spec Props

/-- Nothing changes on the disk but by the writes. -/
def Logged {α : Type} (r : Run α) : Prop :=
  ∀ w, ∃ new, (r w).1.writes = w.writes ++ new ∧ (r w).1.disk = afterWrites w.disk new

theorem logged_quiet {α : Type} {r : Run α} (h : Quiet r) : Logged r := fun w =>
  ⟨[], by rw [(h w).2, List.append_nil], (h w).1⟩

theorem afterWrites_append (disk : Disk) (xs ys : List (Str × Str)) :
    afterWrites disk (xs ++ ys) = afterWrites (afterWrites disk xs) ys := by
  induction xs generalizing disk with
  | nil => rfl
  | cons x xs ih => exact ih _

theorem logged_bind {α β : Type} {m : Run α} {f : α → Run β} (hm : Logged m) (hf : ∀ a, Logged (f a)) :
    Logged (Run.bind m f) := by
  intro w
  obtain ⟨new, h1, h2⟩ := hm w
  unfold Run.bind
  rcases hmw : m w with ⟨w1, a | e | _⟩
  all_goals rw [hmw] at h1 h2
  all_goals dsimp only at h1 h2 ⊢
  all_goals first
    | exact ⟨new, h1, h2⟩
    | (obtain ⟨new', h3, h4⟩ := hf _ w1
       exact ⟨new ++ new', by rw [h3, h1, List.append_assoc], by rw [h4, h2, afterWrites_append]⟩)

theorem logged_writeFile {h : Host} (hw : Writes h) (path text : Str) : Logged (writeFile h path text) := by
  intro w
  unfold writeFile
  dsimp only
  rw [hw]
  exact ⟨[(path, text)], rfl, rfl⟩

theorem logged_formatFile {h : Host} (hw : Writes h) (srt : SortSlice) (flags : FormatFlags) (m : Meta)
    (f : File.ProtoFile) : Logged (formatFile h srt flags m f) := by
  unfold formatFile
  split
  · exact logged_quiet (quiet_pure _)
  refine logged_bind (logged_quiet (quiet_readFile _ _)) fun input => ?_
  refine logged_bind (logged_quiet (quiet_lift _)) fun r => ?_
  split
  · exact logged_bind (logged_quiet (quiet_printFailures _ _ _ _)) fun _ => logged_quiet (quiet_pure _)
  split
  · split
    · exact logged_bind (logged_writeFile hw _ _) fun _ => logged_quiet (quiet_pure _)
    split
    · exact logged_bind (logged_quiet (quiet_printFailures _ _ _ _)) fun _ => logged_quiet (quiet_pure _)
    split
    · refine logged_bind (logged_quiet (quiet_lift _)) fun d => ?_
      exact logged_bind (logged_quiet (quiet_write _ _)) fun _ => logged_quiet (quiet_pure _)
    · exact logged_bind (logged_quiet (quiet_write _ _)) fun _ => logged_quiet (quiet_pure _)
  split
  · exact logged_bind (logged_quiet (quiet_write _ _)) fun _ => logged_quiet (quiet_pure _)
  · exact logged_quiet (quiet_pure _)

theorem logged_formatFiles {h : Host} (hw : Writes h) (srt : SortSlice) (flags : FormatFlags) (m : Meta)
    (fs : List File.ProtoFile) (s : Bool) : Logged (formatFiles h srt flags m fs s) := by
  induction fs generalizing s with
  | nil => exact logged_quiet (quiet_pure _)
  | cons f fs ih =>
    unfold formatFiles
    exact logged_bind (logged_formatFile hw srt flags m f) fun _ => ih _

theorem logged_format {h : Host} (hw : Writes h) (o : Order) (srt : SortSlice) (flags : FormatFlags) (m : Meta) :
    Logged (format h o srt flags m) := by
  unfold format
  refine logged_bind (logged_formatFiles hw _ _ _ _ _) fun ok => ?_
  split
  · exact logged_quiet (quiet_exit _)
  · exact logged_quiet (quiet_pure _)

theorem logged_formatCmd {h : Host} (hw : Writes h) (o : Order) (srt : SortSlice) (args : List Str)
    (flags : FormatFlags) : Logged (formatCmd h o srt args flags) := by
  unfold formatCmd
  split
  · exact logged_quiet (quiet_exit _)
  refine logged_bind (logged_quiet (quiet_getMeta _ _)) fun m => ?_
  exact logged_bind (logged_quiet (quiet_compile _ _ _ _)) fun _ => logged_format hw _ _ _ _

/-- A file after writes that each concern another file. -/
theorem afterWrites_at {disk : Disk} {writes : List (Str × Str)} (path : Str) :
    afterWrites disk writes path = disk path ∨ ∃ text, (path, text) ∈ writes ∧ afterWrites disk writes path = some text := by
  induction writes generalizing disk with
  | nil => exact .inl rfl
  | cons x writes ih =>
    obtain ⟨p, t⟩ := x
    rcases ih (disk := Disk.set disk p (some t)) with h | ⟨text, h1, h2⟩
    · by_cases hp : path = p
      · subst hp
        refine .inr ⟨t, List.mem_cons_self, ?_⟩
        unfold afterWrites
        rw [h]
        unfold Disk.set
        rw [if_pos rfl]
      · left
        unfold afterWrites
        rw [h]
        unfold Disk.set
        rw [if_neg hp]
    · exact .inr ⟨text, List.mem_cons_of_mem _ h1, h2⟩

end Verif.Exec

/-! ## Creating files -/

namespace Verif.Create

open Verif Exec Spec

theorem forEach_append (f : Str → Run Unit) (xs ys : List Str) (w : World) :
    forEach f (xs ++ ys) w = Run.bind (forEach f xs) (fun _ => forEach f ys) w := by
  induction xs generalizing w with
  | nil => rfl
  | cons x xs ih =>
    rw [List.cons_append, forEach, forEach]
    unfold Run.bind
    rcases f x w with ⟨w1, u | e | _⟩
    · exact ih w1
    · rfl
    · rfl

/-- Creating files does the same wherever it is done, if no write fails. -/
theorem creates_writes {h : Handler} {host : Host} (hw : Writes host) {ps : List Str} {w w' : World}
    (ho : forEach (create h host) ps w = (w', .ok ())) :
    ∃ new, new.map Prod.fst = ps.map (located host) ∧ w'.writes = w.writes ++ new ∧
      ∀ v : World, ∃ v' : World, forEach (create h host) ps v = (v', .ok ()) ∧ v'.disk = afterWrites v.disk new := by
  induction ps generalizing w with
  | nil =>
    cases ho
    exact ⟨[], rfl, (List.append_nil _).symm, fun v => ⟨v, rfl, rfl⟩⟩
  | cons p ps ih =>
    unfold forEach at ho
    obtain ⟨w1, u, h1, h2⟩ := bind_ok.1 ho
    obtain ⟨new, e1, e2, e3⟩ := ih h2
    rcases create_cases h host p w with ⟨o, ho, hne⟩ | ⟨c, pkg, hc, hg, he⟩
    · rw [ho] at h1
      cases h1
      exact absurd rfl hne
    · rw [he] at h1
      unfold writeFile at h1
      dsimp only at h1
      rw [hw] at h1
      cases h1
      refine ⟨(located host p, content c p pkg) :: new, by rw [List.map_cons, List.map_cons, e1], ?_, fun v => ?_⟩
      · rw [e2]; simp
      · obtain ⟨v', hv, hd⟩ := e3 ⟨Disk.set v.disk (located host p) (some (content c p pkg)), v.out,
          v.writes ++ [(located host p, content c p pkg)]⟩
        refine ⟨v', ?_, hd⟩
        rw [forEach]
        refine bind_ok.2 ⟨_, (), ?_, hv⟩
        unfold create Run.bind
        rw [hc]
        dsimp only [Run.liftOption, Run.lift, Run.pure]
        rw [hg]
        dsimp only [Run.lift, Run.pure]
        unfold writeFile
        dsimp only
        rw [hw]
        rfl

theorem check_same (host : Host) (p : Str) {w v : World} (hd : v.disk (located host p) = w.disk (located host p))
    (hc : checkFilePath host p w = (w, .ok ())) : checkFilePath host p v = (v, .ok ()) := by
  unfold checkFilePath at hc ⊢
  unfold located at hd
  rw [hd]
  by_cases hp : p = []
  · rw [if_pos hp] at hc; cases hc
  rw [if_neg hp] at hc ⊢
  cases hs : host.stat (Path.dir p) with
  | error e => rw [hs] at hc; cases hc
  | ok k =>
    rw [hs] at hc
    cases k with
    | regular => cases hc
    | other => cases hc
    | dir =>
      dsimp only at hc ⊢
      cases hx : w.disk (File.absClean host.wd p) with
      | some data =>
        rw [hx] at hc
        dsimp only at hc ⊢
        split at hc
        · cases hc
        · rename_i hl
          rw [if_neg hl]
      | none =>
        rw [hx] at hc
        dsimp only at hc ⊢
        cases ht : host.stat p with
        | ok _ => rw [ht] at hc; cases hc
        | error _ => rfl

theorem checks_iff (host : Host) (ps : List Str) (w : World) :
    forEach (checkFilePath host) ps w = (w, .ok ()) ↔ ∀ p ∈ ps, checkFilePath host p w = (w, .ok ()) := by
  induction ps with
  | nil => simp [forEach, Run.pure]
  | cons p ps ih =>
    rw [List.forall_mem_cons, ← ih, forEach]
    constructor
    · intro h
      obtain ⟨w1, u, h1, h2⟩ := bind_ok.1 h
      rcases check_cases host w p with ⟨e, he⟩ | ⟨he, _⟩
      · rw [he] at h1; cases h1
      · rw [he] at h1
        cases h1
        exact ⟨he, h2⟩
    · rintro ⟨h1, h2⟩
      exact bind_ok.2 ⟨w, (), h1, h2⟩

theorem afterWrites_other {disk : Disk} {writes : List (Str × Str)} {path : Str}
    (h : path ∉ writes.map Prod.fst) : afterWrites disk writes path = disk path := by
  rcases afterWrites_at (disk := disk) (writes := writes) path with he | ⟨t, ht, _⟩
  · exact he
  · exact absurd (List.mem_map_of_mem ht) h

end Verif.Create
