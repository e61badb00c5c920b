import Verif.Proof.MovedLint
import Verif.Proof.ExecOrder
import Verif.Proof.DownloadPath

/-!
# A moved tree: commands
-/

namespace Verif.Proof.Moved

open Verif Str Path Settings File Spec Exec

variable {r r' : List Str}

theorem moved_pure {α β : Type} {R : α → β → Prop} {a : α} {b : β} (h : R a b) :
    MovedRun r r' R (Run.pure a) (Run.pure b) := fun _ _ hw => ⟨hw, h⟩

theorem moved_bind {α β γ δ : Type} {R : α → β → Prop} {S : γ → δ → Prop} {m : Run α} {m' : Run β}
    {f : α → Run γ} {f' : β → Run δ} (h : MovedRun r r' R m m') (hf : ∀ a b, R a b → MovedRun r r' S (f a) (f' b)) :
    MovedRun r r' S (Run.bind m f) (Run.bind m' f') := by
  intro w w' hw
  obtain ⟨h1, h2⟩ := h w w' hw
  unfold Run.bind
  rcases hm : m w with ⟨w1, x⟩
  rcases hm' : m' w' with ⟨w1', x'⟩
  rw [hm, hm'] at h1 h2
  dsimp only at h1 h2
  cases x with
  | ok a =>
    cases x' with
    | ok b => exact hf a b h2 _ _ h1
    | error e => cases e <;> exact h2.elim
    | crash => exact h2.elim
  | error e =>
    cases x' with
    | ok b => cases e <;> exact h2.elim
    | error e' => cases e <;> cases e' <;> exact ⟨h1, h2⟩
    | crash => cases e <;> exact ⟨h1, h2⟩
  | crash =>
    cases x' with
    | ok b => exact h2.elim
    | error e' => cases e' <;> exact ⟨h1, h2⟩
    | crash => exact ⟨h1, h2⟩

theorem moved_fail {α β : Type} {R : α → β → Prop} (e : RunErr) :
    MovedRun r r' R (Run.fail (α := α) e) (Run.fail (α := β) e) := by
  intro w w' hw
  cases e with
  | exit c t => exact ⟨hw, rfl, rfl⟩
  | other e => exact ⟨hw, trivial⟩

theorem moved_lift {α β : Type} {R : α → β → Prop} {x : Except Err α} {x' : Except Err β}
    (h : SameResult R x x') : MovedRun r r' R (Run.lift x) (Run.lift x') := by
  intro w w' hw
  cases x <;> cases x' <;> exact ⟨hw, h⟩

theorem moved_liftOption {α β : Type} {R : α → β → Prop} {x : Option (Except Err α)} {x' : Option (Except Err β)}
    (h1 : ∀ a, x = some (.ok a) → ∃ b, x' = some (.ok b) ∧ R a b)
    (h2 : ∀ b, x' = some (.ok b) → ∃ a, x = some (.ok a)) :
    MovedRun r r' R (Run.liftOption x) (Run.liftOption x') := by
  intro w w' hw
  match x, x', h1, h2 with
  | some (.ok a), x', h1, _ =>
    obtain ⟨b, rfl, hr⟩ := h1 a rfl
    exact ⟨hw, hr⟩
  | none, some (.ok b), _, h2 => obtain ⟨a, h⟩ := h2 b rfl; cases h
  | some (.error e), some (.ok b), _, h2 => obtain ⟨a, h⟩ := h2 b rfl; cases h
  | none, none, _, _ => exact ⟨hw, trivial⟩
  | none, some (.error e), _, _ => exact ⟨hw, trivial⟩
  | some (.error e), none, _, _ => exact ⟨hw, trivial⟩
  | some (.error e), some (.error e'), _, _ => exact ⟨hw, trivial⟩

theorem moved_fun {α β : Type} {R : α → β → Prop} {f : World → Run α} {f' : World → Run β}
    (h : ∀ w w', MovedWorld r r' w w' → MovedRun r r' R (f w) (f' w')) :
    MovedRun r r' R (fun w => f w w) (fun w => f' w w) := fun w w' hw => h w w' hw w w' hw

theorem moved_mono {α β : Type} {R S : α → β → Prop} {m : Run α} {m' : Run β} (h : MovedRun r r' R m m')
    (hi : ∀ a b, R a b → S a b) : MovedRun r r' S m m' := by
  intro w w' hw
  obtain ⟨h1, h2⟩ := h w w' hw
  refine ⟨h1, ?_⟩
  cases hx : (m w).2 with
  | ok a =>
    cases hy : (m' w').2 with
    | ok b => rw [hx, hy] at h2; exact hi _ _ h2
    | error e => rw [hx, hy] at h2; cases e <;> exact h2
    | crash => rw [hx, hy] at h2; exact h2
  | error e =>
    cases hy : (m' w').2 with
    | ok b => rw [hx, hy] at h2; cases e <;> exact h2
    | error e' => rw [hx, hy] at h2; cases e <;> cases e' <;> exact h2
    | crash => rw [hx, hy] at h2; cases e <;> exact h2
  | crash =>
    cases hy : (m' w').2 with
    | ok b => rw [hx, hy] at h2; exact h2
    | error e' => rw [hx, hy] at h2; cases e' <;> exact h2
    | crash => trivial

theorem moved_write {h h' : Exec.Host} (he : h'.write = h.write) (t : Str) :
    MovedRun r r' (fun _ _ => True) (Exec.write h t) (Exec.write h' t) := by
  intro w w' hw
  unfold Exec.write
  rw [he, hw.out]
  rcases h.write w.out t with ⟨out, e⟩
  cases e with
  | none => exact ⟨⟨hw.disk, rfl, hw.writes⟩, trivial⟩
  | some e => exact ⟨⟨hw.disk, rfl, hw.writes⟩, trivial⟩

theorem moved_printAll {h h' : Exec.Host} (he : h'.write = h.write) (l : List Str) :
    MovedRun r r' (fun _ _ => True) (Exec.printAll h l) (Exec.printAll h' l) := by
  induction l with
  | nil => exact moved_pure trivial
  | cons s l ih =>
    rw [Exec.printAll, Exec.printAll]
    refine moved_bind (R := fun _ _ => True) ?_ fun _ _ _ => ih
    unfold Exec.println
    split
    · exact moved_pure trivial
    · exact moved_write he _

/-! ## The other way round -/

theorem pw_symm {α β : Type} {R : α → β → Prop} {S : β → α → Prop} (hs : ∀ a b, R a b → S b a) {l : List α}
    {l' : List β} (h : Pointwise R l l') : Pointwise S l' l := by
  induction h with
  | nil => exact .nil
  | cons h1 _ ih => exact .cons (hs _ _ h1) ih

theorem correspondingSymm {α β : Type} {R : α → β → Prop} {S : β → α → Prop} (hs : ∀ a b, R a b → S b a)
    {l : List α} {l' : List β} (h : Corresponding R l l') : Corresponding S l' l := by
  obtain ⟨m, h1, h2⟩ := h
  obtain ⟨k, hk1, hk2⟩ := Lint.pointwise_perm h2.symm (pw_symm hs h1)
  exact ⟨k, hk2, hk1.symm⟩

theorem configSymm {c c' : Config} (h : MovedConfig r r' c c') : MovedConfig r' r c' c where
  dirPath := symm h.dirPath
  excludes := pw_symm (fun _ _ => symm) h.excludes
  compile := by rw [h.compile]
  includes := pw_symm (fun _ _ => symm) h.includes
  packages := pw_symm (fun _ _ k => ⟨symm k.1, k.2.symm⟩) h.packages
  lint := by rw [h.lint]
  ignores := pw_symm (fun _ _ k => ⟨k.1.symm, pw_symm (fun _ _ => symm) k.2⟩) h.ignores
  break_ := h.break_.symm
  gen := by rw [h.gen]
  plugins := correspondingSymm (fun _ _ k => ⟨by rw [k.same], symm k.output⟩) h.plugins

theorem setSymm {ps ps' : ProtoSet} (h : MovedSet r r' ps ps') : MovedSet r' r ps' ps where
  workDirPath := symm h.workDirPath
  dirPath := symm h.dirPath
  config := configSymm h.config
  dirs := correspondingSymm (fun _ _ k => ⟨symm k.path, pw_symm (fun _ _ i => ⟨symm i.path, i.displayPath.symm⟩) k.files⟩)
    h.dirs

theorem set_file {ps ps' : ProtoSet} (h : MovedSet r r' ps ps') {f : ProtoFile} (hf : f ∈ allFiles ps) :
    ∃ f' ∈ allFiles ps', MovedFile r r' f f' := by
  obtain ⟨d, hd, hfd⟩ := List.mem_flatMap.1 hf
  obtain ⟨m, h1, h2⟩ := h.dirs
  obtain ⟨d', hd', hdd⟩ := Settings.pointwise_mem_left h1 d hd
  obtain ⟨f', hf', hff⟩ := Settings.pointwise_mem_left hdd.files f hfd
  exact ⟨f', List.mem_flatMap.2 ⟨d', h2.mem_iff.2 hd', hf'⟩, hff⟩

theorem lies_absClean {h : Exec.Host} {disk : Disk} {name path : Str} (hl : LiesAt (lintHost h disk) name path)
    (hp : IsAbsPath path) : absClean h.wd name = path := by
  unfold LiesAt at hl
  split at hl
  · rename_i ha
    subst hl
    unfold absClean
    rw [if_neg (by rintro rfl; cases ha), ha]
    exact clean_of_isAbsPath hp
  · exact Except.ok.inj hl

/-! ## The directory of an argument -/

theorem foldl_again {S : List Str} (cs : List Str) : ∀ T : List Str, (∀ t ∈ T, t ≠ [] ∧ t ≠ s%".") →
    (cs.foldl (cleanStep false) T).reverse.foldl (cleanStep true) S =
      cs.foldl (cleanStep true) (T.reverse.foldl (cleanStep true) S) := by
  induction cs with
  | nil => intro T _; rfl
  | cons c cs ih =>
    intro T hT
    rw [List.foldl_cons, List.foldl_cons]
    by_cases h1 : c = []
    · have e : ∀ b (s : List Str), cleanStep b s c = s := by intro b s; unfold cleanStep; rw [if_pos h1]
      rw [e, e]
      exact ih T hT
    by_cases h2 : c = s%"."
    · have e : ∀ b (s : List Str), cleanStep b s c = s := by
        intro b s; unfold cleanStep; rw [if_neg h1, if_pos h2]
      rw [e, e]
      exact ih T hT
    by_cases h3 : c = s%".."
    · have push : (∀ t ∈ s%".." :: T, t ≠ [] ∧ t ≠ s%".") := by
        intro t ht
        rcases List.mem_cons.1 ht with rfl | ht
        · decide
        · exact hT t ht
      cases T with
      | nil =>
        have e : cleanStep false [] c = [s%".."] := by
          unfold cleanStep; rw [if_neg h1, if_neg h2, if_pos h3]; rfl
        rw [e, ih _ push, List.reverse_singleton, List.foldl_cons, h3]
        rfl
      | cons t T =>
        by_cases h4 : t = s%".."
        · have e : cleanStep false (t :: T) c = s%".." :: t :: T := by
            unfold cleanStep; rw [if_neg h1, if_neg h2, if_pos h3]; dsimp only; rw [if_pos h4]
          rw [e, ih _ push, List.reverse_cons, List.foldl_append, List.foldl_cons, List.foldl_nil, h3]
        · have e : cleanStep false (t :: T) c = T := by
            unfold cleanStep; rw [if_neg h1, if_neg h2, if_pos h3]; dsimp only; rw [if_neg h4]
          rw [e, ih _ fun x hx => hT x (List.mem_cons_of_mem _ hx), List.reverse_cons, List.foldl_append,
            List.foldl_cons, List.foldl_nil]
          congr 1
          have ht := hT t List.mem_cons_self
          generalize List.foldl (cleanStep true) S T.reverse = U
          have e1 : cleanStep true U t = t :: U := by
            unfold cleanStep; rw [if_neg ht.1, if_neg ht.2, if_neg h4]
          rw [e1]
          unfold cleanStep
          rw [if_neg h1, if_neg h2, if_pos h3]
          dsimp only
          rw [if_neg h4]
    · have e : ∀ b (s : List Str), cleanStep b s c = c :: s := by
        intro b s; unfold cleanStep; rw [if_neg h1, if_neg h2, if_neg h3]
      rw [e, e, ih (c :: T) (by
        intro t ht
        rcases List.mem_cons.1 ht with rfl | ht
        · exact ⟨h1, h2⟩
        · exact hT t ht), List.reverse_cons, List.foldl_append, List.foldl_cons, List.foldl_nil, e]

theorem stays_append {a b : List Str} : ∀ {n : Nat}, stays n (a ++ b) = true → stays n a = true := by
  induction a with
  | nil => intro n _; rw [stays.eq_def]
  | cons c cs ih =>
    intro n h
    rw [List.cons_append, stays.eq_def] at h
    dsimp only at h
    rw [stays.eq_def]
    dsimp only
    split at h
    · rename_i h1; rw [if_pos h1]; exact ih h
    · rename_i h1
      rw [if_neg h1]
      split at h
      · rename_i h2
        rw [if_pos h2]
        cases n with
        | zero => cases h
        | succ n => exact ih h
      · rename_i h2; rw [if_neg h2]; exact ih h

theorem join_clean {cs : List Str} (hc : Components cs) {q : Str} (hq : isAbs q = false) :
    joinPath [absPath cs, clean q] = joinPath [absPath cs, q] := by
  rw [joinPath_absPath hc, joinPath_absPath hc]
  congr 2
  have hs : (splitChar '/' (clean q)).foldl (cleanStep true) cs.reverse =
      (cleanComps false q).foldl (cleanStep true) cs.reverse := by
    unfold clean
    simp only [hq, Bool.false_eq_true, if_false]
    by_cases e : cleanComps false q = []
    · rw [if_pos e, e]; rfl
    · rw [if_neg e]
      congr 1
      exact splitChar_join '/' e fun w hw => (Props.cleanComps_relative q w hw).1
  rw [hs]
  unfold cleanComps
  have := foldl_again (S := cs.reverse) (splitChar '/' q) [] (fun _ h => nomatch h)
  simpa using this

theorem clean_relative {q : Str} (hq : isAbs q = false) : clean q ≠ [] ∧ isAbs (clean q) = false := by
  unfold clean
  simp only [hq, Bool.false_eq_true, if_false]
  by_cases e : cleanComps false q = []
  · rw [if_pos e]; decide
  · rw [if_neg e]
    cases hc : cleanComps false q with
    | nil => exact absurd hc e
    | cons c cs =>
      have := Props.cleanComps_relative q c (by rw [hc]; exact List.mem_cons_self)
      cases c with
      | nil => exact absurd rfl this.2
      | cons a c =>
        have ha : a ≠ '/' := fun e => this.1 (e ▸ List.mem_cons_self)
        have hj : ∃ t, Str.join s%"/" ((a :: c) :: cs) = a :: t := by
          cases cs with
          | nil => exact ⟨c, rfl⟩
          | cons d ds => exact ⟨_, rfl⟩
        obtain ⟨t, ht⟩ := hj
        have ht' : Str.join ['/'] ((a :: c) :: cs) = a :: t := ht
        rw [ht']
        refine ⟨by simp, ?_⟩
        unfold isAbs
        rw [Bool.eq_false_iff]
        intro k
        obtain ⟨t', k⟩ := hasPrefix_iff.1 k
        exact ha (List.cons.inj k).1

/-- The directory of a path that does not leave the tree. -/
theorem absClean_dir (hr : Components r) (hr' : Components r') {x : List Str} (hx : Components x) {p : Str}
    (h : InTree x.length p) :
    MovedPath r r' (absClean (absPath (r ++ x)) (Path.dir p)) (absClean (absPath (r' ++ x)) (Path.dir p)) := by
  obtain ⟨a, b, e, hb, ha⟩ : ∃ a b, p = a ++ b ∧ '/' ∉ b ∧ (p.reverse.dropWhile (· ≠ '/')).reverse = a := by
    refine ⟨(p.reverse.dropWhile (· ≠ '/')).reverse, (p.reverse.takeWhile (· ≠ '/')).reverse, ?_, ?_, rfl⟩
    · rw [← List.reverse_append, List.takeWhile_append_dropWhile, List.reverse_reverse]
    · intro hm
      have := List.all_takeWhile (p := fun c => decide (c ≠ '/')) (l := p.reverse)
      have := List.all_eq_true.1 this _ (List.mem_reverse.1 hm)
      simp at this
  have hq : InTree x.length a := by
    refine ⟨?_, ?_⟩
    · have h1 := h.1
      unfold isAbs at h1 ⊢
      rw [Bool.eq_false_iff] at h1 ⊢
      intro k
      rw [hasPrefix_iff] at k
      exact h1 (by
        obtain ⟨t, k⟩ := k
        exact hasPrefix_iff.2 ⟨t ++ b, by rw [e, k, List.append_assoc]⟩)
    · by_cases h0 : a = []
      · subst h0; rfl
      · have hlast : ∃ a0, a = a0 ++ ['/'] := by
          cases hd : p.reverse.dropWhile (· ≠ '/') with
          | nil => rw [hd] at ha; exact absurd ha.symm h0
          | cons c cs =>
            have := List.head_dropWhile_not (fun c => decide (c ≠ '/')) (l := p.reverse) (by rw [hd]; simp)
            simp only [hd, List.head_cons] at this
            have hc : c = '/' := by simpa using this
            exact ⟨cs.reverse, by rw [← ha, hd, hc, List.reverse_cons]⟩
        obtain ⟨a0, rfl⟩ := hlast
        have h2 := h.2
        rw [e, List.append_assoc, List.singleton_append, Props.splitChar_append_any] at h2
        rw [Props.splitChar_append_any]
        have h3 := stays_append h2
        clear h2
        revert h3
        generalize x.length = n
        generalize splitChar '/' a0 = l
        induction l generalizing n with
        | nil => intro _; rfl
        | cons c l ih =>
          intro h3
          rw [List.cons_append, stays.eq_def]
          rw [stays.eq_def] at h3
          dsimp only at h3 ⊢
          split at h3
          · rename_i h1; rw [if_pos h1]; exact ih _ h3
          · rename_i h1
            rw [if_neg h1]
            split at h3
            · rename_i h4
              rw [if_pos h4]
              cases n with
              | zero => cases h3
              | succ n => exact ih _ h3
            · rename_i h4; rw [if_neg h4]; exact ih _ h3
  have hdir : Path.dir p = clean a := by unfold Path.dir; rw [ha]
  have key : ∀ {q : List Str}, Components q → absClean (absPath (q ++ x)) (Path.dir p) =
      joinPath [absPath (q ++ x), a] := by
    intro q hq'
    rw [hdir]
    have hne : clean a ≠ [] := (clean_relative hq.1).1
    have hab : isAbs (clean a) = false := (clean_relative hq.1).2
    unfold absClean
    rw [if_neg hne, hab]
    simp only [Bool.not_false, if_true]
    exact join_clean (components_append.2 ⟨hq', hx⟩) hq.1
  rw [key hr, key hr']
  exact join hr hr' hx hq

theorem absClean_arg (hr : Components r) (hr' : Components r') {x : List Str} (hx : Components x) {p : Str}
    (h : InTree x.length p) (hne : p ≠ []) :
    MovedPath r r' (absClean (absPath (r ++ x)) p) (absClean (absPath (r' ++ x)) p) := by
  unfold absClean
  rw [if_neg hne, if_neg hne, h.1]
  exact join hr hr' hx h

/-! ## Printing failures -/

/-- The file that the failure is about, if any, is a file of the tree. -/
def Named (r r' : List Str) (wd wd' : Str) (fs : List Text.Failure) : Prop :=
  ∀ f ∈ fs, f.filename = [] ∨ MovedPath r r' (absClean wd f.filename) (absClean wd' f.filename)

section
variable {h h' : Exec.Host} (hr : Components r) (hr' : Components r')
  (hsame : h'.errorFormat = h.errorFormat ∧ h'.json = h.json ∧ h'.toJSON = h.toJSON ∧ h'.write = h.write ∧
    h'.flushed = h.flushed)
include hr hr' hsame

omit hsame in
theorem shouldPrint_moved {m m' : Meta} (hm : m'.singleFilename = m.singleFilename)
    (hsingle : m.singleFilename = [] ∨
      MovedPath r r' (absClean h.wd m.singleFilename) (absClean h'.wd m.singleFilename))
    {f : Text.Failure} (hf : f.filename = [] ∨ MovedPath r r' (absClean h.wd f.filename) (absClean h'.wd f.filename)) :
    Exec.shouldPrint h' (some m') f = Exec.shouldPrint h (some m) f := by
  unfold Exec.shouldPrint
  dsimp only
  rw [hm]
  split
  · rfl
  · rename_i hc
    rcases hsingle with e | hs
    · exact absurd (by simp [e]) hc
    · rcases hf with e | hf
      · have hn : ∀ {s s' : List Str} {q q' : Str}, Components s → MovedPath s s' q q' → q ≠ [] := by
          rintro s s' q q' hcs ⟨y, hy, rfl, _⟩ e'
          exact absPath_ne_empty _ e'
        have e1 : ∀ wd : Str, absClean wd f.filename = [] := fun wd => by rw [e]; rfl
        rw [e1, e1, decide_eq_false (hn hr hs), decide_eq_false (hn hr' (symm hs))]
      · exact decide_eq_decide.2 (eq_iff hr hr' hs hf).symm

theorem failureLines_moved {m m' : Meta} (hm : m'.singleFilename = m.singleFilename)
    (hsingle : m.singleFilename = [] ∨
      MovedPath r r' (absClean h.wd m.singleFilename) (absClean h'.wd m.singleFilename))
    (fields : List Text.FailureField) (fs : List Text.Failure) (hf : Named r r' h.wd h'.wd fs) :
    ∀ out, Exec.failureLines h' (some m') fields fs out = Exec.failureLines h (some m) fields fs out := by
  induction fs with
  | nil => intro out; rfl
  | cons f fs ih =>
    intro out
    have hl : Exec.failureLine h' fields f = Exec.failureLine h fields f := by
      unfold Exec.failureLine; rw [hsame.2.1, hsame.2.2.1]
    rw [Exec.failureLines, Exec.failureLines, shouldPrint_moved hr hr' hm hsingle (hf f List.mem_cons_self), hl]
    simp only [ih fun g hg => hf g (List.mem_cons_of_mem _ hg)]

theorem printFailures_moved {m m' : Meta} (hm : m'.singleFilename = m.singleFilename)
    (hsingle : m.singleFilename = [] ∨
      MovedPath r r' (absClean h.wd m.singleFilename) (absClean h'.wd m.singleFilename))
    {fs : List Text.Failure} (hf : Named r r' h.wd h'.wd fs) :
    MovedRun r r' (fun _ _ => True) (Exec.printFailures h [] m fs) (Exec.printFailures h' [] m' fs) := by
  have hf' : Named r r' h.wd h'.wd (Text.sortFailures fs) := fun f hx =>
    hf f ((Props.C18_sorted fs).1.mem_iff.1 hx)
  unfold Exec.printFailures Exec.printFailuresFor
  simp only [if_true]
  rw [hsame.1]
  cases Text.parseColonSeparatedFailureFields h.errorFormat with
  | none => exact moved_fail _
  | some fields =>
    dsimp only
    rw [failureLines_moved hr hr' hsame hm hsingle fields _ hf']
    rcases Exec.failureLines h (some m) fields (Text.sortFailures fs) [] with ⟨t, e⟩
    cases e with
    | none => exact moved_write hsame.2.2.2.1 t
    | some e =>
      intro w w' hw
      dsimp only
      rw [hsame.2.2.2.2]
      exact ⟨⟨hw.disk, by rw [hw.out], hw.writes⟩, trivial⟩

end

end Verif.Proof.Moved
