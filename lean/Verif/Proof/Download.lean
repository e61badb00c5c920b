import Verif.Spec.Download
import Verif.Proof.Path

/-!
# Lemmas about the processes that use the cache
-/

namespace Verif.Download

open Verif Str Path Spec

theorem good_iff {s : Sys} {disk : Disk} : s.good disk = true ↔ Answered s disk := by
  unfold Sys.good accepts Answered
  cases hd : disk s.binary with
  | none => simp
  | some c =>
    rw [Option.bind_some]
    cases ha : s.answer c with
    | none => simp [ha]
    | some out =>
      by_cases hu : s.opts.protocURL = []
      · simp [hu, ha]
      · simp [hu, ha]

/-- The inode a process has opened. -/
def At.inode : At → Option Nat
  | .waiting i => some i
  | a => a.holds

theorem go_procs (w : World) (p : Nat) (a : At) (q : Nat) :
    (w.go p a).procs q = if q = p then a else w.procs q := rfl

theorem put_procs (w : World) (p : Nat) (x c : Str) (a : At) (q : Nat) :
    (w.put p x c a).procs q = if q = p then a else w.procs q := rfl

/-- What a step does: one process moves, and a file changes only while it writes. -/
structure Moves (s : Sys) (w w' : World) (p : Nat) (a : At) : Prop where
  procs : ∀ q, w'.procs q = if q = p then a else w.procs q
  lockFile : w'.lockFile = w.lockFile
  holds : a.holds = none ∨ a.holds = (w.procs p).holds ∨
    ∃ i, w.procs p = .waiting i ∧ a = .locked i ∧ ∀ q, (w.procs q).holds ≠ some i
  inode : a.inode = none ∨ a.inode = (w.procs p).inode ∨ a.inode = some w.lockFile
  disk : w'.disk = w.disk ∨ ∃ i e es o c, w.procs p = .writing i (e :: es) o ∧
    w'.disk = w.disk.set (writePath s.basePath e) (some c)
  writing : ∀ i rest o, a = .writing i rest o →
    (w.procs p = .locked i ∧ s.good w.disk = false ∧ s.offered rest ∧ o = false) ∨
    ∃ rest0 o0, w.procs p = .writing i rest0 o0 ∧ rest <:+ rest0
  checked : ∀ i, a = .checked i →
    (w.procs p).holds = some i ∧ s.good w.disk = true ∧ w'.disk = w.disk
  returned : a = .returned → (∃ i, w.procs p = .checked i) ∧ w'.disk = w.disk
  idle : a ≠ .idle
  running : (w.procs p).running = true

theorem stepOf_moves {s : Sys} {p : Nat} {w w' : World} (h : StepOf s p w w') : ∃ a, Moves s w w' p a := by
  cases h with
  | start h => exact ⟨_, ⟨fun _ => rfl, rfl, Or.inl rfl, Or.inr (Or.inr rfl), Or.inl rfl, by simp, by simp, by simp, by simp, by rw [h]; rfl⟩⟩
  | acquire h hn => exact ⟨_, ⟨fun _ => rfl, rfl, Or.inr (Or.inr ⟨_, h, rfl, hn⟩), Or.inr (Or.inl (by rw [h]; rfl)), Or.inl rfl, by simp, by simp, by simp, by simp, by rw [h]; rfl⟩⟩
  | timeout h => exact ⟨_, ⟨fun _ => rfl, rfl, Or.inl rfl, Or.inl rfl, Or.inl rfl, by simp, by simp, by simp, by simp, by rw [h]; rfl⟩⟩
  | found h hg => exact ⟨_, ⟨fun _ => rfl, rfl, Or.inr (Or.inl (by rw [h]; rfl)), Or.inr (Or.inl (by rw [h]; rfl)), Or.inl rfl, by simp, by intro j e; cases e; exact ⟨by rw [h]; rfl, hg, rfl⟩, by simp, by simp, by rw [h]; rfl⟩⟩
  | fetch h hg ho => exact ⟨_, ⟨fun _ => rfl, rfl, Or.inr (Or.inl (by rw [h]; rfl)), Or.inr (Or.inl (by rw [h]; rfl)), Or.inl rfl, by intro j r o e; cases e; exact Or.inl ⟨h, hg, ho, rfl⟩, by simp, by simp, by simp, by rw [h]; rfl⟩⟩
  | noFetch h hg => exact ⟨_, ⟨fun _ => rfl, rfl, Or.inr (Or.inl (by rw [h]; rfl)), Or.inr (Or.inl (by rw [h]; rfl)), Or.inl rfl, by simp, by simp, by simp, by simp, by rw [h]; rfl⟩⟩
  | skip h hd => exact ⟨_, ⟨fun _ => rfl, rfl, Or.inr (Or.inl (by rw [h]; rfl)), Or.inr (Or.inl (by rw [h]; rfl)), Or.inl rfl, by intro j r o e; cases e; exact Or.inr ⟨_, _, h, List.suffix_cons _ _⟩, by simp, by simp, by simp, by rw [h]; rfl⟩⟩
  | truncate h hd hdat => exact ⟨_, ⟨fun _ => rfl, rfl, Or.inr (Or.inl (by rw [h]; rfl)), Or.inr (Or.inl (by rw [h]; rfl)), Or.inr ⟨_, _, _, _, _, h, rfl⟩, by intro j r o e; cases e; exact Or.inr ⟨_, _, h, List.suffix_refl _⟩, by simp, by simp, by simp, by rw [h]; rfl⟩⟩
  | noFile h hd => exact ⟨_, ⟨fun _ => rfl, rfl, Or.inr (Or.inl (by rw [h]; rfl)), Or.inr (Or.inl (by rw [h]; rfl)), Or.inl rfl, by simp, by simp, by simp, by simp, by rw [h]; rfl⟩⟩
  | write h hd => exact ⟨_, ⟨fun _ => rfl, rfl, Or.inr (Or.inl (by rw [h]; rfl)), Or.inr (Or.inl (by rw [h]; rfl)), Or.inr ⟨_, _, _, _, _, h, rfl⟩, by intro j r o e; cases e; exact Or.inr ⟨_, _, h, List.suffix_cons _ _⟩, by simp, by simp, by simp, by rw [h]; rfl⟩⟩
  | noWrite h hd hp => exact ⟨_, ⟨fun _ => rfl, rfl, Or.inr (Or.inl (by rw [h]; rfl)), Or.inr (Or.inl (by rw [h]; rfl)), Or.inr ⟨_, _, _, _, _, h, rfl⟩, by simp, by simp, by simp, by simp, by rw [h]; rfl⟩⟩
  | unpacked h => exact ⟨_, ⟨fun _ => rfl, rfl, Or.inr (Or.inl (by rw [h]; rfl)), Or.inr (Or.inl (by rw [h]; rfl)), Or.inl rfl, by simp, by simp, by simp, by simp, by rw [h]; rfl⟩⟩
  | verified h hg => exact ⟨_, ⟨fun _ => rfl, rfl, Or.inr (Or.inl (by rw [h]; rfl)), Or.inr (Or.inl (by rw [h]; rfl)), Or.inl rfl, by simp, by intro j e; cases e; exact ⟨by rw [h]; rfl, hg, rfl⟩, by simp, by simp, by rw [h]; rfl⟩⟩
  | rejected h hg => exact ⟨_, ⟨fun _ => rfl, rfl, Or.inr (Or.inl (by rw [h]; rfl)), Or.inr (Or.inl (by rw [h]; rfl)), Or.inl rfl, by simp, by simp, by simp, by simp, by rw [h]; rfl⟩⟩
  | ret h => exact ⟨_, ⟨fun _ => rfl, rfl, Or.inl rfl, Or.inl rfl, Or.inl rfl, by simp, by simp, fun _ => ⟨⟨_, h⟩, rfl⟩, by simp, by rw [h]; rfl⟩⟩
  | noUnlock h => exact ⟨_, ⟨fun _ => rfl, rfl, Or.inl rfl, Or.inl rfl, Or.inl rfl, by simp, by simp, by simp, by simp, by rw [h]; rfl⟩⟩
  | fail h => exact ⟨_, ⟨fun _ => rfl, rfl, Or.inl rfl, Or.inl rfl, Or.inl rfl, by simp, by simp, by simp, by simp, by rw [h]; rfl⟩⟩
  | crash h => exact ⟨_, ⟨fun _ => rfl, rfl, Or.inl rfl, Or.inl rfl, Or.inl rfl, by simp, by simp, by simp, by simp, h⟩⟩
  | crashWriting h hd hp => exact ⟨_, ⟨fun _ => rfl, rfl, Or.inl rfl, Or.inl rfl, Or.inr ⟨_, _, _, _, _, h, rfl⟩, by simp, by simp, by simp, by simp, by rw [h]; rfl⟩⟩

theorem step_moves {s : Sys} {w w' : World} (h : Step s w w') : ∃ p a, Moves s w w' p a := by
  obtain ⟨p, h⟩ := h
  obtain ⟨a, h⟩ := stepOf_moves h
  exact ⟨p, a, h⟩

/-- What holds as long as nothing is deleted. -/
structure Inv (s : Sys) (w : World) : Prop where
  inode : ∀ p i, (w.procs p).inode = some i → i = w.lockFile
  one : ∀ p q, (w.procs p).holds ≠ none → (w.procs q).holds ≠ none → p = q
  settled : ∀ p, ((∃ i, w.procs p = .checked i) ∨ w.procs p = .returned) →
    s.good w.disk = true ∧ ∀ q i rest o, w.procs q ≠ .writing i rest o
  offered : ∀ p i rest o, w.procs p = .writing i rest o → ∃ es, s.offered es ∧ rest <:+ es

theorem inv_start {s : Sys} {w : World} (h : w.Start) : Inv s w := by
  constructor
  · intro p i hp; rw [h p] at hp; cases hp
  · intro p q hp; rw [h p] at hp; exact absurd rfl hp
  · intro p hp; rw [h p] at hp; rcases hp with ⟨i, hp⟩ | hp <;> cases hp
  · intro p i rest o hp; rw [h p] at hp; cases hp

theorem holds_inode {a : At} {i : Nat} (h : a.holds = some i) : a.inode = some i := by
  cases a <;> first | exact h | cases h

theorem inv_step {s : Sys} {w w' : World} (h : Step s w w') (hi : Inv s w) : Inv s w' := by
  obtain ⟨p, a, m⟩ := step_moves h
  have hold : ∀ q, (w.procs q).holds ≠ none → (w.procs q).holds = some w.lockFile := by
    intro q hq
    cases hh : (w.procs q).holds with
    | none => exact absurd hh hq
    | some i => rw [hi.inode q i (holds_inode hh)]
  have inode' : ∀ q i, (w'.procs q).inode = some i → i = w'.lockFile := by
    intro q i hq
    rw [m.lockFile]
    rw [m.procs] at hq
    split at hq
    · rcases m.inode with e | e | e
      · rw [e] at hq; cases hq
      · rw [e] at hq; exact hi.inode p i hq
      · rw [e] at hq; injection hq with hq; exact hq.symm
    · exact hi.inode q i hq
  have one' : ∀ q r, (w'.procs q).holds ≠ none → (w'.procs r).holds ≠ none → q = r := by
    -- another holder rules out that the moving process holds
    have other : ∀ q, q ≠ p → (w.procs q).holds ≠ none → a.holds = none := by
      intro q hq hh
      rcases m.holds with e | e | ⟨i, h1, h2, h3⟩
      · exact e
      · rw [e]
        rcases Classical.em ((w.procs p).holds = none) with hn | hn
        · exact hn
        · exact absurd (hi.one q p hh hn) hq
      · have : i = w.lockFile := hi.inode p i (by rw [h1]; rfl)
        subst this
        exact absurd (hold q hh) (h3 q)
    intro q r hq hr
    rw [m.procs] at hq hr
    by_cases eq : q = p <;> by_cases er : r = p
    · rw [eq, er]
    · rw [if_pos eq] at hq; rw [if_neg er] at hr
      exact absurd (other r er hr) hq
    · rw [if_neg eq] at hq; rw [if_pos er] at hr
      exact absurd (other q eq hq) hr
    · rw [if_neg eq] at hq; rw [if_neg er] at hr
      exact hi.one q r hq hr
  refine ⟨inode', one', ?_, ?_⟩
  · -- nothing is written once a process is checked
    have keep : (∃ q, (∃ i, w.procs q = .checked i) ∨ w.procs q = .returned) →
        w'.disk = w.disk ∧ s.good w.disk = true ∧ ∀ q i rest o, w'.procs q ≠ .writing i rest o := by
      rintro ⟨q, hq⟩
      obtain ⟨hg, hw⟩ := hi.settled q hq
      refine ⟨?_, hg, ?_⟩
      · rcases m.disk with e | ⟨i, e, es, o, c, h1, h2⟩
        · exact e
        · exact absurd h1 (hw p i _ o)
      · intro r i rest o hr
        rw [m.procs] at hr
        split at hr
        · rcases m.writing i rest o hr with ⟨_, hb, _⟩ | ⟨r0, o0, h1, _⟩
          · rw [hg] at hb; cases hb
          · exact hw p i r0 o0 h1
        · exact hw r i rest o hr
    intro q hq
    rw [m.procs] at hq
    by_cases eq : q = p
    · rw [if_pos eq] at hq
      rcases hq with ⟨i, hq⟩ | hq
      · obtain ⟨hh, hg, hd⟩ := m.checked i hq
        refine ⟨by rw [hd]; exact hg, ?_⟩
        intro r j rest o hr
        have h1 : (w'.procs p).holds ≠ none := by rw [m.procs, if_pos rfl, hq]; simp [At.holds]
        have h2 : (w'.procs r).holds ≠ none := by rw [hr]; simp [At.holds]
        have := one' r p h2 h1
        subst this
        rw [m.procs, if_pos rfl, hq] at hr
        cases hr
      · obtain ⟨⟨i, hc⟩, hd⟩ := m.returned hq
        obtain ⟨h1, h2, h3⟩ := keep ⟨p, Or.inl ⟨i, hc⟩⟩
        exact ⟨by rw [h1]; exact h2, h3⟩
    · rw [if_neg eq] at hq
      obtain ⟨h1, h2, h3⟩ := keep ⟨q, hq⟩
      exact ⟨by rw [h1]; exact h2, h3⟩
  · intro q i rest o hq
    rw [m.procs] at hq
    split at hq
    · rcases m.writing i rest o hq with ⟨_, _, h1, _⟩ | ⟨r0, o0, h1, h2⟩
      · exact ⟨rest, h1, List.suffix_refl _⟩
      · obtain ⟨es, h3, h4⟩ := hi.offered p i r0 o0 h1
        exact ⟨es, h3, h2.trans h4⟩
    · exact hi.offered q i rest o hq

theorem inv_runs {s : Sys} {w w' : World} (h : Runs (Step s) w w') (hi : Inv s w) : Inv s w' := by
  induction h with
  | refl => exact hi
  | snoc _ hs ih => exact inv_step hs ih

theorem Runs.trans {R : World → World → Prop} {a b c : World} (h : Runs R a b) (h' : Runs R b c) :
    Runs R a c := by
  induction h' with
  | refl => exact h
  | snoc _ hs ih => exact .snoc ih hs

theorem Runs.mono {R S : World → World → Prop} (hRS : ∀ a b, R a b → S a b) {a b : World}
    (h : Runs R a b) : Runs S a b := by
  induction h with
  | refl => exact .refl
  | snoc _ hs ih => exact .snoc ih (hRS _ _ hs)

/-- Once a process is checked, the files and what it says stay. -/
theorem settled_runs {s : Sys} {w w' : World} (h : Runs (Step s) w w') (hi : Inv s w)
    (hp : ∃ p, w.procs p = .returned) :
    w'.disk = w.disk ∧ ∃ p, w'.procs p = .returned := by
  induction h with
  | refl => exact ⟨rfl, hp⟩
  | snoc hr hs ih =>
    obtain ⟨h1, p, h2⟩ := ih
    have hi' := inv_runs hr hi
    obtain ⟨q, a, m⟩ := step_moves hs
    refine ⟨?_, p, ?_⟩
    · rcases m.disk with e | ⟨i, e, es, o, c, h3, _⟩
      · rw [e, h1]
      · exact absurd h3 ((hi'.settled p (Or.inr h2)).2 q i _ o)
    · rw [m.procs]
      split
      · rename_i e
        subst e
        have := m.running
        rw [h2] at this
        cases this
      · exact h2

/-- A process that returned was checked. -/
theorem returned_checked {s : Sys} {w w' : World} {p : Nat} (h : Runs (AnyStep s) w w')
    (hw : w.procs p ≠ .returned) (hc : ∀ i, w.procs p ≠ .checked i)
    (hr : w'.procs p = .returned ∨ ∃ i, w'.procs p = .checked i) :
    ∃ w1, Runs (AnyStep s) w w1 ∧ Runs (AnyStep s) w1 w' ∧
      InCriticalSection w1 p ∧ s.good w1.disk = true := by
  induction h with
  | refl =>
    rcases hr with hr | ⟨i, hr⟩
    · exact absurd hr hw
    · exact absurd hr (hc i)
  | snoc h hs ih =>
    rename_i w1 w2
    have back : (w1.procs p = .returned ∨ ∃ i, w1.procs p = .checked i) →
        ∃ w3, Runs (AnyStep s) w w3 ∧ Runs (AnyStep s) w3 w2 ∧
          InCriticalSection w3 p ∧ s.good w3.disk = true := by
      intro hb
      obtain ⟨w3, h1, h2, h3⟩ := ih hb
      exact ⟨w3, h1, .snoc h2 hs, h3⟩
    rcases hs with hs' | hs'
    · obtain ⟨q, a, m⟩ := step_moves hs'
      rw [m.procs] at hr
      by_cases e : p = q
      · subst e
        rw [if_pos rfl] at hr
        rcases hr with hr | ⟨i, hr⟩
        · obtain ⟨⟨i, hc⟩, _⟩ := m.returned hr
          exact back (Or.inr ⟨i, hc⟩)
        · obtain ⟨h1, h2, _⟩ := m.checked i hr
          exact ⟨w1, h, .snoc .refl (Or.inl hs'), by unfold InCriticalSection; rw [h1]; simp, h2⟩
      · rw [if_neg e] at hr
        exact back hr
    · cases hs' with
      | file => exact back hr
      | lockFile => exact back hr

/-! ## Unpacking -/

/-- As `Unpacked`, but without the file at one path. -/
def UnpackedBut (basePath x : Str) (es : List Entry) (disk : Disk) : Prop :=
  ∀ before e after, es = before ++ e :: after → e.isDir = false →
    (∀ e' ∈ after, e'.isDir = false → writePath basePath e' ≠ writePath basePath e) →
    writePath basePath e ≠ x →
    ∃ content, e.data = .ok content ∧ disk (writePath basePath e) = some content

theorem unpacked_nil {b : Str} {disk : Disk} : Unpacked b [] disk := by
  intro before e after h
  simp at h

/-- The cases of an entry of a longer list. -/
theorem snoc_split {es before after : List Entry} {e x : Entry}
    (h : es ++ [x] = before ++ e :: after) :
    (after = [] ∧ e = x ∧ before = es) ∨ ∃ after', after = after' ++ [x] ∧ es = before ++ e :: after' := by
  rcases List.eq_nil_or_concat after with ha | ⟨after', y, ha⟩
  · subst ha
    have := List.append_inj' h rfl
    exact Or.inl ⟨rfl, (List.singleton_inj.1 this.2).symm, this.1.symm⟩
  · rw [List.concat_eq_append] at ha
    subst ha
    rw [← List.cons_append, ← List.append_assoc] at h
    have := List.append_inj' h rfl
    have e2 := List.singleton_inj.1 this.2
    subst e2
    exact Or.inr ⟨after', rfl, this.1⟩

theorem unpacked_dir {b : Str} {es : List Entry} {x : Entry} {disk : Disk} (h : Unpacked b es disk)
    (hx : x.isDir = true) : Unpacked b (es ++ [x]) disk := by
  intro before e after he hd hl
  rcases snoc_split he with ⟨_, rfl, _⟩ | ⟨after', rfl, he'⟩
  · rw [hx] at hd; cases hd
  · exact h before e after' he' hd fun e' h' => hl e' (by simp [h'])

theorem unpacked_truncate {b c : Str} {es : List Entry} {x : Entry} {disk : Disk}
    (h : Unpacked b es disk) :
    UnpackedBut b (writePath b x) es (disk.set (writePath b x) (some c)) := by
  intro before e after he hd hl hne
  obtain ⟨d, h1, h2⟩ := h before e after he hd hl
  refine ⟨d, h1, ?_⟩
  unfold Disk.set
  rw [if_neg hne, h2]

theorem unpacked_write {b d : Str} {es : List Entry} {x : Entry} {disk : Disk}
    (h : UnpackedBut b (writePath b x) es disk) (hx : x.isDir = false) (hd : x.data = .ok d) :
    Unpacked b (es ++ [x]) (disk.set (writePath b x) (some d)) := by
  intro before e after he hdir hl
  rcases snoc_split he with ⟨_, rfl, _⟩ | ⟨after', rfl, he'⟩
  · exact ⟨d, hd, by unfold Disk.set; rw [if_pos rfl]⟩
  · have hne : writePath b e ≠ writePath b x := fun e' => hl x (by simp) hx e'.symm
    obtain ⟨d', h1, h2⟩ := h before e after' he' hdir (fun e' h' => hl e' (by simp [h'])) hne
    exact ⟨d', h1, by unfold Disk.set; rw [if_neg hne, h2]⟩

/-- Where a process can be after it began to unpack `es`, and what is on the disk then. -/
inductive Unpacking (s : Sys) (p i : Nat) (es : List Entry) (w : World) : Prop
  | between (done rest : List Entry) : w.procs p = .writing i rest false → es = done ++ rest →
      Unpacked s.basePath done w.disk → Unpacking s p i es w
  | opened (done : List Entry) (e : Entry) (rest : List Entry) :
      w.procs p = .writing i (e :: rest) true → es = done ++ e :: rest → e.isDir = false →
      UnpackedBut s.basePath (writePath s.basePath e) done w.disk → Unpacking s p i es w
  | after : w.procs p = .written i ∨ w.procs p = .checked i ∨ w.procs p = .returned →
      Unpacked s.basePath es w.disk → Unpacking s p i es w
  | gone : (w.procs p = .failing i ∨ w.procs p = .failed ∨ w.procs p = .crashed) →
      Unpacking s p i es w

theorem unpacking_step {s : Sys} {p i : Nat} {es : List Entry} {w w' : World} (h : Step s w w')
    (hi : Inv s w) (hu : Unpacking s p i es w) : Unpacking s p i es w' := by
  obtain ⟨q, h⟩ := h
  by_cases hq : q = p
  · subst hq
    cases hu with
    | between done rest h1 h2 h3 =>
      cases h with
      | skip h hd =>
        rw [h1] at h; injection h with e1 e2 _; subst e1 e2
        rename_i e es' _
        exact .between (done ++ [e]) es' (by rw [go_procs, if_pos rfl]) (by simp [h2]) (unpacked_dir h3 hd)
      | truncate h hd hdat =>
        rw [h1] at h; injection h with e1 e2 _; subst e1 e2
        rename_i e es' d _
        exact .opened done e es' (by rw [put_procs, if_pos rfl]) h2 hd (unpacked_truncate h3)
      | noFile h hd =>
        rw [h1] at h; injection h with e1 _ _; subst e1
        exact .gone (Or.inl (by rw [go_procs, if_pos rfl]))
      | unpacked h =>
        rw [h1] at h; injection h with e1 e2 _; subst e1 e2
        rw [List.append_nil] at h2
        subst h2
        exact .after (Or.inl (by rw [go_procs, if_pos rfl])) h3
      | crash h => exact .gone (Or.inr (Or.inr (by rw [go_procs, if_pos rfl])))
      | _ h => rw [h1] at h; cases h
    | opened done e rest h1 h2 h3 h4 =>
      cases h with
      | write h hd =>
        rw [h1] at h; injection h with e1 e2 _; injection e2 with e2 e3; subst e1 e2 e3
        exact .between (done ++ [e]) rest (by rw [put_procs, if_pos rfl]) (by simp [h2])
          (unpacked_write h4 h3 hd)
      | noWrite h hd hp =>
        rw [h1] at h; injection h with e1 _ _; subst e1
        exact .gone (Or.inl (by rw [put_procs, if_pos rfl]))
      | crash h => exact .gone (Or.inr (Or.inr (by rw [go_procs, if_pos rfl])))
      | crashWriting h hd hp => exact .gone (Or.inr (Or.inr (by rw [put_procs, if_pos rfl])))
      | _ h => rw [h1] at h; cases h
    | after h1 h2 =>
      cases h with
      | verified h hg =>
        rcases h1 with h1 | h1 | h1 <;> rw [h1] at h <;> cases h
        exact .after (Or.inr (Or.inl (by rw [go_procs, if_pos rfl]))) h2
      | rejected h hg =>
        rcases h1 with h1 | h1 | h1 <;> rw [h1] at h <;> cases h
        exact .gone (Or.inl (by rw [go_procs, if_pos rfl]))
      | ret h => exact .after (Or.inr (Or.inr (by rw [go_procs, if_pos rfl]))) h2
      | noUnlock h => exact .gone (Or.inr (Or.inl (by rw [go_procs, if_pos rfl])))
      | crash h => exact .gone (Or.inr (Or.inr (by rw [go_procs, if_pos rfl])))
      | _ h => rcases h1 with h1 | h1 | h1 <;> rw [h1] at h <;> cases h
    | gone h1 =>
      cases h with
      | fail h => exact .gone (Or.inr (Or.inl (by rw [go_procs, if_pos rfl])))
      | crash h => exact .gone (Or.inr (Or.inr (by rw [go_procs, if_pos rfl])))
      | _ h => rcases h1 with h1 | h1 | h1 <;> rw [h1] at h <;> cases h
  · obtain ⟨a, m⟩ := stepOf_moves h
    have hp : w'.procs p = w.procs p := by rw [m.procs, if_neg (fun e => hq e.symm)]
    -- another process does not write while this one holds the lock or has returned
    have disk : (w.procs p).holds ≠ none ∨ w.procs p = .returned → w'.disk = w.disk := by
      intro hh
      rcases m.disk with e | ⟨j, e, rest, o, c, h1, _⟩
      · exact e
      · rcases hh with hh | hh
        · exact absurd (hi.one q p (by rw [h1]; simp [At.holds]) hh) hq
        · exact absurd h1 ((hi.settled p (Or.inr hh)).2 q j _ o)
    cases hu with
    | between done rest h1 h2 h3 =>
      have := disk (Or.inl (by rw [h1]; simp [At.holds]))
      exact .between done rest (hp.trans h1) h2 (by rw [this]; exact h3)
    | opened done e rest h1 h2 h3 h4 =>
      have := disk (Or.inl (by rw [h1]; simp [At.holds]))
      exact .opened done e rest (hp.trans h1) h2 h3 (by rw [this]; exact h4)
    | after h1 h2 =>
      have := disk (by
        rcases h1 with h1 | h1 | h1
        · exact Or.inl (by rw [h1]; simp [At.holds])
        · exact Or.inl (by rw [h1]; simp [At.holds])
        · exact Or.inr h1)
      exact .after (by rw [hp]; exact h1) (by rw [this]; exact h2)
    | gone h1 => exact .gone (by rw [hp]; exact h1)

theorem unpacking_runs {s : Sys} {p i : Nat} {es : List Entry} {w w' : World}
    (h : Runs (Step s) w w') (hi : Inv s w) (hu : Unpacking s p i es w) : Unpacking s p i es w' := by
  induction h with
  | refl => exact hu
  | snoc hr hs ih => exact unpacking_step hs (inv_runs hr hi) ih

/-- A process can unpack everything that can be read. -/
theorem unpacks {s : Sys} {p i : Nat} {rest : List Entry} {w : World}
    (h : w.procs p = .writing i rest false)
    (hd : ∀ e ∈ rest, e.isDir = false → ∃ d, e.data = .ok d) :
    ∃ w', Runs (Step s) w w' ∧ w'.procs p = .written i := by
  induction rest generalizing w with
  | nil => exact ⟨_, .snoc .refl ⟨p, .unpacked h⟩, by rw [go_procs, if_pos rfl]⟩
  | cons e rest ih =>
    have hd' : ∀ e ∈ rest, e.isDir = false → ∃ d, e.data = .ok d := fun e he => hd e (by simp [he])
    cases hdir : e.isDir with
    | true =>
      obtain ⟨w', h1, h2⟩ := ih (w := w.go p (.writing i rest false)) (by rw [go_procs, if_pos rfl]) hd'
      exact ⟨w', (Runs.snoc .refl ⟨p, .skip h hdir⟩).trans h1, h2⟩
    | false =>
      obtain ⟨d, hdat⟩ := hd e (by simp) hdir
      let w1 := w.put p (writePath s.basePath e) [] (.writing i (e :: rest) true)
      have s1 : Step s w w1 := ⟨p, .truncate h hdir hdat⟩
      have hw1 : w1.procs p = .writing i (e :: rest) true := by rw [put_procs, if_pos rfl]
      have s2 : Step s w1 (w1.put p (writePath s.basePath e) d (.writing i rest false)) :=
        ⟨p, .write hw1 hdat⟩
      obtain ⟨w', h1, h2⟩ := ih (w := w1.put p (writePath s.basePath e) d (.writing i rest false))
        (by rw [put_procs, if_pos rfl]) hd'
      exact ⟨w', (Runs.snoc (.snoc .refl s1) s2).trans h1, h2⟩

theorem good_of_unpacked {s : Sys} {es : List Entry} {disk : Disk} (h : Unpacked s.basePath es disk)
    (hg : GoodArchive s es) : s.good disk = true := by
  obtain ⟨_, before, e, after, h1, h2, h3, h4, d, out, h5, h6, h7⟩ := hg
  obtain ⟨d', h8, h9⟩ := h before e after h1 h2 (fun e' he hd => by rw [h3]; exact h4 e' he hd)
  rw [h5] at h8
  injection h8 with h8
  subst h8
  rw [h3] at h9
  exact good_iff.2 ⟨d, out, h9, h6, h7⟩

theorem foldl_safe {cs stack : List Str} (h : s%".." ∉ cs) :
    ∃ added, cs.foldl (cleanStep true) stack = added ++ stack := by
  induction cs generalizing stack with
  | nil => exact ⟨[], rfl⟩
  | cons c cs ih =>
    rw [List.mem_cons, not_or] at h
    rw [List.foldl_cons]
    have hc : cleanStep true stack c = stack ∨ cleanStep true stack c = c :: stack := by
      unfold cleanStep
      split
      · exact Or.inl rfl
      · split
        · exact Or.inl rfl
        · rw [if_neg (fun e => h.1 e.symm)]
          exact Or.inr rfl
    obtain ⟨added, ha⟩ := ih (stack := cleanStep true stack c) h.2
    rcases hc with e | e
    · exact ⟨added, by rw [ha, e]⟩
    · exact ⟨added ++ [c], by rw [ha, e]; simp⟩

/-- A safe name stays below the directory. -/
theorem writePath_within {basePath : Str} {e : Entry} (hb : IsAbsPath basePath)
    (hs : SafeName e.name) : Within (writePath basePath e) basePath := by
  obtain ⟨cs, hc, rfl⟩ := hb
  unfold writePath
  obtain ⟨added, ha⟩ := foldl_safe (stack := cs.reverse) hs
  have hcomp := foldl_cleanStep_components (l := splitChar '/' e.name) (components_reverse.2 hc)
    fun c hc => splitChar_no_sep hc
  rw [joinPath_absPath hc, ha] at *
  refine ⟨cs, added.reverse, ?_, rfl, by simp⟩
  have := components_reverse.2 hcomp
  simpa using this

end Verif.Download
