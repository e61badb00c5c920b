import Verif.Proof.Download

/-!
# The cache for protoc
-/

namespace Verif.Props

open Verif Str Path Spec Download

/-! ## C47 -/

/-- C47: as long as nobody deletes the cache, at most one process is between the lock and the
unlock, whatever files there are, and however many processes crash. -/
theorem C47_exclusive {s : Sys} {w0 w : World} (h0 : w0.Start) (h : Runs (Step s) w0 w) {p q : Nat}
    (hp : InCriticalSection w p) (hq : InCriticalSection w q) : p = q :=
  (inv_runs h (inv_start h0)).one p q hp hq

/-- C47: as long as nobody deletes the cache, only the process that has the lock changes files. -/
theorem C47_one_writer {s : Sys} {w0 w w' : World} {p : Nat} (h0 : w0.Start)
    (h : Runs (Step s) w0 w) (hs : StepOf s p w w') (hd : w'.disk ≠ w.disk) :
    ∀ q, InCriticalSection w q ↔ q = p := by
  obtain ⟨a, m⟩ := stepOf_moves hs
  have hp : InCriticalSection w p := by
    rcases m.disk with e | ⟨i, e, es, o, c, h1, _⟩
    · exact absurd e hd
    · unfold InCriticalSection; rw [h1]; simp [At.holds]
  exact fun q => ⟨fun hq => C47_exclusive h0 h hq hp, fun e => e ▸ hp⟩

/-- C47: a process that got the path had asked the binary for its version while it had the lock,
and it answered as it should. This also holds if others delete the cache. -/
theorem C47_verified {s : Sys} {w0 w : World} {p : Nat} (h0 : w0.Start)
    (h : Runs (AnyStep s) w0 w) (hp : w.procs p = .returned) :
    ∃ w1, Runs (AnyStep s) w0 w1 ∧ Runs (AnyStep s) w1 w ∧ InCriticalSection w1 p ∧
      Answered s w1.disk := by
  obtain ⟨w1, h1, h2, h3, h4⟩ := returned_checked h (by rw [h0 p]; simp) (by rw [h0 p]; simp) (Or.inl hp)
  exact ⟨w1, h1, h2, h3, good_iff.1 h4⟩

/-- C47: once a process got the path, no file of the cache changes again and the binary is
accepted, as long as nobody deletes the cache. -/
theorem C47_settled {s : Sys} {w0 w w' : World} {p : Nat} (h0 : w0.Start) (h : Runs (Step s) w0 w)
    (hp : w.procs p = .returned) (h' : Runs (Step s) w w') :
    Answered s w.disk ∧ w'.disk = w.disk :=
  ⟨good_iff.1 ((inv_runs h (inv_start h0)).settled p (Or.inr hp)).1,
    (settled_runs h' (inv_runs h (inv_start h0)) ⟨p, hp⟩).1⟩

/-- C47: if a process downloaded an archive and got the path, then every file of the archive is
there, from then on. -/
theorem C47_complete {s : Sys} {w0 w w' : World} {p i : Nat} {es : List Entry} (h0 : w0.Start)
    (h : Runs (Step s) w0 w) (hp : w.procs p = .writing i es false) (h' : Runs (Step s) w w')
    (hr : w'.procs p = .returned) : Unpacked s.basePath es w'.disk := by
  have hu : Unpacking s p i es w := .between [] es hp rfl unpacked_nil
  cases unpacking_runs h' (inv_runs h (inv_start h0)) hu with
  | between _ _ h1 => rw [hr] at h1; cases h1
  | opened _ _ _ h1 => rw [hr] at h1; cases h1
  | after _ h2 => exact h2
  | gone h1 => rcases h1 with h1 | h1 | h1 <;> rw [hr] at h1 <;> cases h1

/-- C47: whatever is in the cache, a process that got the lock and finds no binary that answers as
it should can download a good archive, and then gets the path with all files there. Missing: a
cache with such a binary but without other files, see `C47_not_repaired`. -/
theorem C47_repair_partial {s : Sys} {w0 w : World} {p i : Nat} {es : List Entry} (h0 : w0.Start)
    (h : Runs (Step s) w0 w) (hp : w.procs p = .locked i) (hb : ¬ Answered s w.disk)
    (ho : s.offered es) (hg : GoodArchive s es) :
    ∃ w', Runs (Step s) w w' ∧ w'.procs p = .returned ∧ Answered s w'.disk ∧
      Unpacked s.basePath es w'.disk := by
  have hb' : s.good w.disk = false := by
    cases hgd : s.good w.disk with
    | false => rfl
    | true => exact absurd (good_iff.1 hgd) hb
  have hi := inv_runs h (inv_start h0)
  have s1 : Runs (Step s) w (w.go p (.writing i es false)) := .snoc .refl ⟨p, .fetch hp hb' ho⟩
  have hp1 : (w.go p (.writing i es false)).procs p = .writing i es false := by
    rw [go_procs, if_pos rfl]
  obtain ⟨w2, s2, hp2⟩ := unpacks (s := s) hp1 hg.1
  have hu2 : Unpacked s.basePath es w2.disk := by
    cases unpacking_runs s2 (inv_runs s1 hi) (.between [] es hp1 rfl unpacked_nil) with
    | between _ _ h1 => rw [hp2] at h1; cases h1
    | opened _ _ _ h1 => rw [hp2] at h1; cases h1
    | after _ h2 => exact h2
    | gone h1 => rcases h1 with h1 | h1 | h1 <;> rw [hp2] at h1 <;> cases h1
  have hgood := good_of_unpacked hu2 hg
  have s3 : Step s w2 (w2.go p (.checked i)) := ⟨p, .verified hp2 hgood⟩
  have s4 : Step s (w2.go p (.checked i)) ((w2.go p (.checked i)).go p .returned) :=
    ⟨p, .ret (i := i) (by rw [go_procs, if_pos rfl])⟩
  exact ⟨_, (s1.trans s2).snoc s3 |>.snoc s4, by rw [go_procs, if_pos rfl], good_iff.1 hgood, hu2⟩

/-- C47: a process that waits can always go on: it can get the lock if no process has it, and no
crashed process has it. -/
theorem C47_not_stuck {s : Sys} {w : World} {p i : Nat} (hp : w.procs p = .waiting i)
    (hn : ∀ q, ¬ InCriticalSection w q) :
    Step s w (w.go p (.locked i)) ∧ ∀ q, w.procs q = .crashed → ¬ InCriticalSection w q := by
  refine ⟨⟨p, .acquire hp fun q e => hn q (by unfold InCriticalSection; rw [e]; simp)⟩, ?_⟩
  intro q hq h
  unfold InCriticalSection at h
  rw [hq] at h
  exact h rfl

/-- A binary and another file. -/
def sampleArchive : List Entry :=
  [⟨s%"bin/protoc", false, .ok s%"good"⟩, ⟨s%"include", true, .ok []⟩,
   ⟨s%"include/a.proto", false, .ok s%"x"⟩]

/-- The cache for version 3.8.0. -/
def sampleSys : Sys where
  opts := { version := s%"3.8.0" }
  basePath := s%"/c/protobuf/3.8.0"
  answer content := if content = s%"good" then some s%"libprotoc 3.8.0\n" else none
  offered es := es = sampleArchive

/-- No files and no process. -/
def sampleStart : World := ⟨fun _ => none, 0, fun _ => .idle⟩

theorem sample_good : GoodArchive sampleSys sampleArchive := by
  refine ⟨?_, [], _, _, rfl, rfl, by decide +kernel, by decide +kernel, s%"good",
    s%"libprotoc 3.8.0\n", rfl, rfl, fun _ => by decide +kernel⟩
  intro e he _
  simp only [sampleArchive, List.mem_cons, List.not_mem_nil, or_false] at he
  rcases he with rfl | rfl | rfl <;> exact ⟨_, rfl⟩

/-- Non-vacuity for C47: a process gets the lock on an empty cache, downloads and gets the path. -/
example : ∃ w, Runs (Step sampleSys) sampleStart w ∧ w.procs 0 = .returned ∧
    Unpacked sampleSys.basePath sampleArchive w.disk := by
  have h0 : sampleStart.Start := fun _ => rfl
  have s1 : Step sampleSys sampleStart (sampleStart.go 0 (.waiting 0)) := ⟨0, .start rfl⟩
  have s2 : Step sampleSys (sampleStart.go 0 (.waiting 0))
      ((sampleStart.go 0 (.waiting 0)).go 0 (.locked 0)) := by
    refine ⟨0, .acquire rfl fun q => ?_⟩
    rw [go_procs]
    split <;> simp [sampleStart, At.holds]
  have h2 := (Runs.snoc (Runs.snoc .refl s1) s2)
  have hb : ¬ Answered sampleSys ((sampleStart.go 0 (.waiting 0)).go 0 (.locked 0)).disk := by
    rintro ⟨c, out, h, _⟩
    cases h
  obtain ⟨w, h3, h4, _, h5⟩ := C47_repair_partial (p := 0) (i := 0) h0 h2 rfl hb rfl sample_good
  exact ⟨w, h2.trans h3, h4, h5⟩

/-- C47 does not hold as stated: if a process crashes after it wrote the binary, the others accept
the cache and the missing files are never written. -/
theorem C47_not_repaired : ∃ (s : Sys) (w0 w : World) (es : List Entry) (p : Nat),
    w0.Start ∧ Runs (Step s) w0 w ∧ w.procs p = .returned ∧ (∀ es', s.offered es' ↔ es' = es) ∧
    GoodArchive s es ∧ ∀ w', Runs (Step s) w w' → ¬ Unpacked s.basePath es w'.disk := by
  have h0 : sampleStart.Start := fun _ => rfl
  let w1 := sampleStart.go 0 (.waiting 0)
  let w2 := w1.go 0 (.locked 0)
  let w3 := w2.go 0 (.writing 0 sampleArchive false)
  let w4 := w3.put 0 s%"/c/protobuf/3.8.0/bin/protoc" [] (.writing 0 sampleArchive true)
  let w5 := w4.put 0 s%"/c/protobuf/3.8.0/bin/protoc" s%"good" (.writing 0 sampleArchive.tail false)
  let w6 := w5.go 0 .crashed
  let w7 := w6.go 1 (.waiting 0)
  let w8 := w7.go 1 (.locked 0)
  let w9 := w8.go 1 (.checked 0)
  let w := w9.go 1 .returned
  have s1 : Step sampleSys sampleStart w1 := ⟨0, .start rfl⟩
  have s2 : Step sampleSys w1 w2 := by
    refine ⟨0, .acquire rfl fun q => ?_⟩
    show (if q = 0 then At.waiting 0 else At.idle).holds ≠ some 0
    split <;> simp [At.holds]
  have s3 : Step sampleSys w2 w3 := ⟨0, .fetch rfl rfl rfl⟩
  have s4 : Step sampleSys w3 w4 :=
    ⟨0, .truncate (e := ⟨s%"bin/protoc", false, .ok s%"good"⟩) (d := s%"good") rfl rfl rfl⟩
  have s5 : Step sampleSys w4 w5 :=
    ⟨0, .write (e := ⟨s%"bin/protoc", false, .ok s%"good"⟩) (d := s%"good") rfl rfl⟩
  have s6 : Step sampleSys w5 w6 := ⟨0, .crash rfl⟩
  have s7 : Step sampleSys w6 w7 := ⟨1, .start rfl⟩
  have s8 : Step sampleSys w7 w8 := by
    refine ⟨1, .acquire rfl fun q => ?_⟩
    by_cases e1 : q = 1
    · subst e1; decide
    · by_cases e0 : q = 0
      · subst e0; decide
      · have : w7.procs q = .idle := by
          simp only [w7, w6, w5, w4, w3, w2, w1, go_procs, put_procs, e1, e0, if_false]
          rfl
        rw [this]
        decide
  have s9 : Step sampleSys w8 w9 := ⟨1, .found rfl (by decide +kernel)⟩
  have s10 : Step sampleSys w9 w := ⟨1, .ret (i := 0) rfl⟩
  have hr : Runs (Step sampleSys) sampleStart w :=
    Runs.refl.snoc s1 |>.snoc s2 |>.snoc s3 |>.snoc s4 |>.snoc s5 |>.snoc s6 |>.snoc s7 |>.snoc s8
      |>.snoc s9 |>.snoc s10
  refine ⟨sampleSys, sampleStart, w, sampleArchive, 1, h0, hr, rfl, fun _ => Iff.rfl, sample_good, ?_⟩
  intro w' hw' hu
  have hd := (C47_settled (p := 1) h0 hr rfl hw').2
  obtain ⟨c, _, h2⟩ := hu [_, _] ⟨s%"include/a.proto", false, .ok s%"x"⟩ [] rfl rfl (by simp)
  rw [hd] at h2
  have : w.disk (writePath sampleSys.basePath ⟨s%"include/a.proto", false, .ok s%"x"⟩) = none := by
    decide +kernel
  rw [this] at h2
  cases h2

/-- C47 does not hold as stated: if the cache is deleted while a process has the lock, another
process gets a lock too. -/
theorem C47_not_exclusive : ∃ (s : Sys) (w0 w : World) (p q : Nat), w0.Start ∧
    Runs (AnyStep s) w0 w ∧ p ≠ q ∧ InCriticalSection w p ∧ InCriticalSection w q := by
  let w1 := sampleStart.go 0 (.waiting 0)
  let w2 := w1.go 0 (.locked 0)
  let w3 : World := { w2 with lockFile := 1 }
  let w4 := w3.go 1 (.waiting 1)
  let w5 := w4.go 1 (.locked 1)
  have s1 : Step sampleSys sampleStart w1 := ⟨0, .start rfl⟩
  have s2 : Step sampleSys w1 w2 := by
    refine ⟨0, .acquire rfl fun q => ?_⟩
    show (if q = 0 then At.waiting 0 else At.idle).holds ≠ some 0
    split <;> simp [At.holds]
  have s3 : Deletion w2 w3 := .lockFile
  have s4 : Step sampleSys w3 w4 := ⟨1, .start rfl⟩
  have s5 : Step sampleSys w4 w5 := by
    refine ⟨1, .acquire rfl fun q => ?_⟩
    by_cases e1 : q = 1
    · subst e1; decide
    · by_cases e0 : q = 0
      · subst e0; decide
      · have : w4.procs q = .idle := by
          simp only [w4, w3, w2, w1, go_procs, e1, e0, if_false]
          rfl
        rw [this]
        decide
  exact ⟨sampleSys, sampleStart, w5, 0, 1, fun _ => rfl,
    Runs.refl.snoc (Or.inl s1) |>.snoc (Or.inl s2) |>.snoc (Or.inr s3) |>.snoc (Or.inl s4)
      |>.snoc (Or.inl s5), by decide, by unfold InCriticalSection; decide,
    by unfold InCriticalSection; decide⟩

/-! ## C48 -/

/-- C48: a step changes only files below the directory of the version, if no name in an archive
has a component `..`. Missing: archives with such names, see `C48_not`. -/
theorem C48_below_partial {s : Sys} {w0 w w' : World} (h0 : w0.Start) (h : Runs (Step s) w0 w)
    (hs : Step s w w') (hb : IsAbsPath s.basePath)
    (ho : ∀ es, s.offered es → ∀ e ∈ es, SafeName e.name) (path : Str)
    (hd : w'.disk path ≠ w.disk path) : Within path s.basePath := by
  obtain ⟨p, a, m⟩ := step_moves hs
  rcases m.disk with e | ⟨i, e, es, o, c, h1, h2⟩
  · rw [e] at hd; exact absurd rfl hd
  · obtain ⟨es', h3, h4⟩ := (inv_runs h (inv_start h0)).offered p i _ o h1
    have hsafe := ho es' h3 e (h4.subset (by simp))
    rw [h2] at hd
    unfold Disk.set at hd
    split at hd
    · rename_i ep
      rw [ep]
      exact writePath_within hb hsafe
    · exact absurd rfl hd

/-- C48 does not hold as stated: an entry named `../../../x` is written outside the directory. -/
theorem C48_not : ∃ (s : Sys) (w0 w w' : World) (path : Str), w0.Start ∧ Runs (Step s) w0 w ∧
    Step s w w' ∧ IsAbsPath s.basePath ∧ w'.disk path ≠ w.disk path ∧ ¬ Within path s.basePath := by
  let e : Entry := ⟨s%"../../../home/.profile", false, .ok s%"x"⟩
  let s : Sys := { sampleSys with offered := fun es => es = [e] }
  let w1 := sampleStart.go 0 (.waiting 0)
  let w2 := w1.go 0 (.locked 0)
  let w3 := w2.go 0 (.writing 0 [e] false)
  let w4 := w3.put 0 s%"/home/.profile" [] (.writing 0 [e] true)
  have s1 : Step s sampleStart w1 := ⟨0, .start rfl⟩
  have s2 : Step s w1 w2 := by
    refine ⟨0, .acquire rfl fun q => ?_⟩
    show (if q = 0 then At.waiting 0 else At.idle).holds ≠ some 0
    split <;> simp [At.holds]
  have s3 : Step s w2 w3 := ⟨0, .fetch rfl rfl rfl⟩
  have s4 : Step s w3 w4 := ⟨0, .truncate (e := e) (d := s%"x") rfl rfl rfl⟩
  have hb : Components [s%"c", s%"protobuf", s%"3.8.0"] := by unfold Components Component; decide
  have hp : Components [s%"home", s%".profile"] := by unfold Components Component; decide
  refine ⟨s, sampleStart, w3, w4, s%"/home/.profile", fun _ => rfl,
    Runs.refl.snoc s1 |>.snoc s2 |>.snoc s3, s4, ⟨_, hb, rfl⟩, by decide, ?_⟩
  intro hw
  have := (within_iff hp hb).1 hw
  revert this
  decide

end Verif.Props
