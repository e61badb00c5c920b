import Verif.Proof.CompileOrder
import Verif.Proof.FormatOrder
import Verif.Props.ExecFiles
import Verif.Props.ExecMoreSample
import Verif.Props.ExecOrder

/-!
# C86 for the compiler and for `format`
-/

namespace Verif.Props

open Verif Str Spec Exec File Protoc

/-- C86: hosts that find the files by discovery and compile with the same toolchain are runs on
the same system. -/
theorem C86_system (h h' : Exec.Host) (c : Provider) (o o' : Order) (t t' : Toolchain)
    (hf : h.getForDir = getForDirOf c o) (hf' : h'.getForDir = getForDirOf c o')
    (u : Uses h t) (u' : Uses h' t') (s : SameToolchain t t')
    (same : h' = { h with getForDir := h'.getForDir, compile := h'.compile,
                          protocCommands := h'.protocCommands, generate := h'.generate }) :
    Reordered h h' where
  same := same
  finds w d := by rw [hf, hf']; exact C86_discovery c o o' w d
  compiles flags disk _ _ hs := uses_alike u u' s flags disk hs

theorem format_end {h : Exec.Host} {o : Order} {srt : SortSlice} {flags : FormatFlags} {m : Meta} {w w' : World}
    {b : Bool} (hf : formatFiles h srt flags m (formatList o m) true w = (w', .ok b)) :
    format h o srt flags m w = (w', if b then .ok () else .error (.exit 255 [])) := by
  unfold format
  unfold formatList at hf
  rw [bind_of_ok hf]
  cases b <;> rfl

theorem broken_alike {α β : Type} {R : α → β → Prop} {r : Outcome α} {r' : Outcome β} (h : Broken r)
    (h' : Broken r') : EndAlike R r r' := by
  cases r with
  | ok a => exact h.elim
  | crash =>
    cases r' with
    | ok a => exact h'.elim
    | crash => trivial
    | error e => cases e with
      | exit c t => exact h'.elim
      | other e => trivial
  | error e =>
    cases e with
    | exit c t => exact h.elim
    | other e =>
      cases r' with
      | ok a => exact h'.elim
      | crash => trivial
      | error e => cases e with
        | exit c t => exact h'.elim
        | other e => trivial

theorem formatFiles_eq {h h' : Exec.Host} (r : Reordered h h') (srt : SortSlice) (flags : FormatFlags) {m m' : Meta}
    (hm : SameMeta m m') (fs : List ProtoFile) :
    ∀ s, formatFiles h' srt flags m' fs s = formatFiles h srt flags m fs s := by
  induction fs with
  | nil => intro s; rfl
  | cons f fs ih =>
    intro s
    unfold formatFiles
    rw [r.formatFile srt flags hm f]
    congr
    funext b
    exact ih _

theorem formatList_perm {o o' : Order} {m m' : Meta} (hm : SameMeta m m') :
    (formatList o' m').Perm (formatList o m) := by
  unfold formatList dirsUnder
  rw [hm.1.dirPath]
  exact ((((o'.perm _ _).trans hm.1.dirs).trans (o.perm _ _).symm).filter _).flatMap_right _

theorem formatList_files {o : Order} {m : Meta} : (formatList o m).Perm (filesUnder m.protoSet) := by
  unfold formatList dirsUnder filesUnder
  exact ((o.perm _ _).filter _).flatMap_right _

/-- What `format` does to a proto set, at one world: it fails for both, or leaves the same files,
ends the same, and prints the same text for every file, in the order of the files. -/
theorem format_alike {h h' : Exec.Host} (r : Reordered h h') (hp : Prints h) (o o' : Order) (srt : SortSlice)
    (flags : FormatFlags) {m m' : Meta} (hm : SameMeta m m') (hd : Distinct m) (w : World) :
    (Broken (format h o srt flags m w).2 ∧ Broken (format h' o' srt flags m' w).2) ∨
    ((format h' o' srt flags m' w).2 = (format h o srt flags m w).2 ∧
      (format h' o' srt flags m' w).1.disk = (format h o srt flags m w).1.disk ∧
      ∃ text : ProtoFile → Str,
        (format h o srt flags m w).1.out = w.out ++ (formatList o m).flatMap text ∧
        (format h' o' srt flags m' w).1.out = w.out ++ (formatList o' m').flatMap text) := by
  rcases formatFiles_order (srt := srt) (flags := flags) (m := m) hp (formatList_perm (o := o) (o' := o') hm)
    (nodup_formatList hd) w with ⟨b1, b2⟩ | ⟨text, new, good, disk, e1, e2⟩
  · refine .inl ⟨broken_bind b1, ?_⟩
    unfold format
    refine broken_bind ?_
    rw [formatFiles_eq r srt flags hm]
    exact b2
  · rw [← formatFiles_eq r srt flags hm] at e2
    rw [format_end e1, format_end e2]
    exact .inr ⟨rfl, rfl, text, rfl, rfl⟩

theorem but_order {h : Exec.Host} {args : List Str} {w : World} {x x' : World × Outcome Unit}
    (hx : x'.1 = x.1 ∧ EndAlike (fun _ _ => True) x.2 x'.2) : AlikeButOrder h args w x x' :=
  ⟨hx.2, fun _ => ⟨by rw [hx.1], .inl (by rw [hx.1])⟩⟩

/-- What commands do before they format. -/
theorem after_compile {h h' : Exec.Host} (r : Reordered h h') (hp : Prints h) {args : List Str} {w : World}
    {K K' : Meta → Run Unit}
    (hk : ∀ m m', Finds h args m → SameMeta m m' → AlikeButOrder h args w (K m w) (K' m' w)) :
    AlikeButOrder h args w
      (Run.bind (getMeta h args) (fun m => Run.bind (compile h false false false m) fun _ => K m) w)
      (Run.bind (getMeta h' args) (fun m => Run.bind (compile h' false false false m) fun _ => K' m) w) := by
  have hg := r.getMeta args w
  rcases hm : getMeta h args w with ⟨w1, a⟩
  rcases hm' : getMeta h' args w with ⟨w1', a'⟩
  rw [hm, hm'] at hg
  obtain ⟨hg1, hg2⟩ := hg
  dsimp only at hg1 hg2
  subst hg1
  by_cases hok : ∃ m, a = .ok m
  · obtain ⟨m, rfl⟩ := hok
    cases a' with
    | error e => exact hg2.elim
    | crash => exact hg2.elim
    | ok m' =>
      obtain ⟨hw1, hfin⟩ := getMeta_ok.1 hm
      subst hw1
      rw [bind_of_ok hm, bind_of_ok hm']
      have hsm : SameMeta m m' := hg2
      have hc := r.compile (set := false) hsm w1'
      rcases hcm : compile h false false false m w1' with ⟨w2, b⟩
      rcases hcm' : compile h' false false false m' w1' with ⟨w2', b'⟩
      rw [hcm, hcm'] at hc
      obtain ⟨hc1, hc2⟩ := hc
      dsimp only at hc1 hc2
      subst hc1
      by_cases hok2 : ∃ x, b = .ok x
      · obtain ⟨x, rfl⟩ := hok2
        cases b' with
        | error e => exact hc2.elim
        | crash => exact hc2.elim
        | ok x' =>
          rw [bind_of_ok hcm, bind_of_ok hcm']
          have hw2 : w2' = w1' := (compile_ok hp).1 hcm |>.2.2
          rw [hw2]
          exact hk m m' hfin hsm
      · refine but_order (alike_bind (R := fun _ _ => True) ?_ ?_)
        · rw [hcm, hcm']
          refine ⟨rfl, ?_⟩
          revert hc2
          cases b with
          | ok x => exact absurd ⟨x, rfl⟩ hok2
          | crash => cases b' with
            | ok x => exact id
            | crash => exact id
            | error e => cases e <;> exact id
          | error e => cases e <;> cases b' with
            | ok x => exact id
            | crash => exact id
            | error e => cases e <;> exact id
        · intro a b w3 he
          rw [hcm] at he
          cases he
          exact absurd ⟨_, rfl⟩ hok2
  · refine but_order (alike_bind (R := SameMeta) ?_ ?_)
    · rw [hm, hm']
      exact ⟨rfl, hg2⟩
    · intro a b w3 he
      rw [hm] at he
      cases he
      exact absurd ⟨_, rfl⟩ hok

theorem broken_but_order {h : Exec.Host} {args : List Str} {w : World} {x x' : World × Outcome Unit}
    (b : Broken x.2) (b' : Broken x'.2) : AlikeButOrder h args w x x' := by
  refine ⟨broken_alike b b', fun hx => ?_⟩
  rcases hx with hx | ⟨c, t, hx⟩
  · rw [hx] at b
    exact b.elim
  · rw [hx] at b
    exact b.elim

/-- C86: `format`, in every mode, leaves the same files and ends alike, and says the same about
every file. Only the order in which it goes through the directories may differ. -/
theorem C86_format (h h' : Exec.Host) (r : Reordered h h') (hp : Prints h) (o o' : Order) (srt : SortSlice)
    (args : List Str) (flags : FormatFlags) (hd : ∀ m, Finds h args m → Distinct m) (w : World) :
    AlikeButOrder h args w (formatCmd h o srt args flags w) (formatCmd h' o' srt args flags w) := by
  unfold formatCmd
  split
  · exact but_order (runAlike_fail _ w)
  refine after_compile r hp fun m m' hfin hsm => ?_
  rcases format_alike r hp o o' srt flags hsm (hd m hfin) w with ⟨b1, b2⟩ | ⟨h1, h2, text, h3, h4⟩
  · exact broken_but_order b1 b2
  · refine ⟨?_, fun _ => ⟨h2, .inr ⟨m, hfin, text, _, _, formatList_files,
      (formatList_perm (o := o) hsm).trans formatList_files, h3, h4⟩⟩⟩
    rw [h1]
    exact (sameRun_refl (fun _ => format h o srt flags m w) w).2

/-- C86: with one directory to go through, `format` prints the same. -/
theorem C86_format_directory (h h' : Exec.Host) (r : Reordered h h') (o o' : Order) (srt : SortSlice)
    (args : List Str) (flags : FormatFlags)
    (hone : ∀ m, Finds h args m → (m.protoSet.dirPathToFiles.filter fun d =>
      hasPrefix d.1 m.protoSet.dirPath).length ≤ 1) :
    SameRun (formatCmd h o srt args flags) (formatCmd h' o' srt args flags) := by
  unfold formatCmd
  split
  · exact runAlike_fail _
  intro w
  refine alike_bind (r.getMeta args w) fun m m' w1 hm hsm => ?_
  refine runAlike_bind (r.compile hsm) (fun _ _ _ => ?_) w1
  have hfin := (getMeta_ok.1 hm).2
  have hl : dirsUnder o' s%"format" m'.protoSet = dirsUnder o s%"format" m.protoSet := by
    unfold dirsUnder
    rw [hsm.1.dirPath]
    have h1 := ((o.perm [s%"format"] m.protoSet.dirPathToFiles).filter
      fun d => hasPrefix d.1 m.protoSet.dirPath)
    have h2 := (((o'.perm [s%"format"] m'.protoSet.dirPathToFiles).trans hsm.1.dirs).filter
      fun d => hasPrefix d.1 m.protoSet.dirPath)
    have h3 := hone m hfin
    revert h1 h2 h3
    generalize (m.protoSet.dirPathToFiles.filter fun d => hasPrefix d.1 m.protoSet.dirPath) = l
    intro h1 h2 h3
    match l, h3 with
    | [], _ => rw [h1.eq_nil, h2.eq_nil]
    | [x], _ => rw [List.perm_singleton.1 h1, List.perm_singleton.1 h2]
  unfold format
  rw [hl, formatFiles_eq r srt flags hsm]
  exact sameRun_refl _

/-! ## What is not the same -/

/-- C86: with several directories, plain `format` prints the files in the order of a map, which
Go does not fix. -/
theorem C86_format_order_not : ∃ (h : Exec.Host) (o o' : Order) (w : World),
    (formatCmd h o' .stable [s%"a"] {} w).1.out ≠ (formatCmd h o .stable [s%"a"] {} w).1.out :=
  ⟨{ Exec.Sample.host with
      parse := fun _ c => .ok [.syntax { value := if c = s%"syntax=\"proto3\";" then s%"proto3" else s%"proto2" }] },
    .id, .rev, Exec.Sample.world, by decide +kernel⟩

/-- The same toolchain when maps come in the reverse order and there is one CPU. -/
def reversedToolchain (t : Toolchain) : Toolchain :=
  { t with env := fun disk => { t.env disk with order := .rev, numCPU := 1 } }

/-- protoc objects to everything when it sees some file. -/
def strictToolchain : Toolchain where
  env _ := Protoc.Sample.env
  live _ := []
  protoc disk _ :=
    if disk s%"/w/b/three.proto" = some s%"x" then
      .exited (some s%"exit status 1") s%"three.proto:1:1: Expected top-level statement.\n"
    else .exited none []

/-- C86: `compile --dry-run` prints the commands in the order of a map. -/
theorem C86_dry_run_order_not : ∃ (h h' : Exec.Host) (t t' : Toolchain) (w : World), Uses h t ∧ Uses h' t' ∧
    t' = reversedToolchain t ∧ Reordered h h' ∧
    (compileCmd h' [] true w).1.out ≠ (compileCmd h [] true w).1.out := by
  let t := strictToolchain
  have s : SameToolchain t (reversedToolchain t) := by
    refine ⟨fun _ => rfl, fun _ live live' => ?_, fun _ _ _ _ _ _ _ _ _ _ _ _ _ _ => rfl, fun _ _ _ _ _ _ _ _ _ _ _ _ _ _ _ _ => rfl⟩
    exact ⟨by simp, by simp⟩
  obtain ⟨f, g, u⟩ := exists_uses compileHost t (fun _ => Nat.zero_lt_two)
  obtain ⟨f', g', u'⟩ := exists_uses compileHost (reversedToolchain t) (fun _ => Nat.zero_lt_one)
  refine ⟨_, _, t, reversedToolchain t, { disk := fun _ => none }, u, u', rfl, ⟨rfl, fun _ _ => ?_,
    fun flags disk _ _ hs => uses_alike u u' s flags disk hs⟩, ?_⟩
  · exact ⟨rfl, rfl, rfl, .refl _⟩
  · let cmds (order : Order) : List CmdMeta :=
      match (getCmdMetas { Protoc.Sample.env with order := order, numCPU := 1 } (compilerOptions {})
        Protoc.Sample.protoSet []).2 with
      | .ok cmds => cmds
      | .error _ => []
    have fin : ∀ f g, Finds { compileHost with compile := f, protocCommands := g } []
      { protoSet := Protoc.Sample.protoSet } := fun _ _ => ⟨s%".", .inr ⟨by decide, rfl⟩, .inl ⟨rfl, rfl, rfl⟩⟩
    have e1 := C85_dry_run _ (fun _ _ => rfl) t u [] _ (fin f g) { disk := fun _ => none } false (cmds .id)
      ⟨_, rfl⟩
    have e2 := C85_dry_run _ (fun _ _ => rfl) _ u' [] _ (fin f' g') { disk := fun _ => none } false (cmds .rev)
      ⟨_, rfl⟩
    simp only [Bool.false_eq_true, if_false] at e1 e2
    rw [e1, e2]
    decide +kernel

/-! ## Examples -/

/-- The sample, listed in another order. -/
def reversedHost : Exec.Host :=
  { Exec.Sample.host with
    getForDir := fun _ p => if p = s%"a" then
        .ok { Exec.Sample.protoSet with dirPathToFiles := Exec.Sample.protoSet.dirPathToFiles.reverse }
      else .error s%"not there" }

theorem reversedHost_reordered : Reordered Exec.Sample.host reversedHost where
  same := rfl
  finds w d := by
    unfold reversedHost Exec.Sample.host
    dsimp only
    split
    · exact ⟨rfl, rfl, rfl, List.reverse_perm _⟩
    · trivial
  compiles _ _ _ _ _ := ⟨rfl, .refl _⟩

/-- Two runs of `format -d` that print differently, but the same about each of the three files. -/
example : Prints Exec.Sample.host ∧ (∀ m, Finds Exec.Sample.host [s%"a"] m → Distinct m) ∧
    (formatCmd Exec.Sample.host .id .stable [s%"a"] { diffMode := true } Exec.Sample.world).1.out =
      s%"--- a/two.proto\n--- ab/next.proto\n" ∧
    (formatCmd reversedHost .id .stable [s%"a"] { diffMode := true } Exec.Sample.world).1.out =
      s%"--- ab/next.proto\n--- a/two.proto\n" ∧
    (formatCmd Exec.Sample.host .id .stable [s%"a"] { diffMode := true } Exec.Sample.world).2 =
      .error (.exit 255 []) := by
  refine ⟨fun _ _ => rfl, ?_, by decide +kernel, by decide +kernel, rfl⟩
  rintro m ⟨arg, harg, hm⟩
  rcases harg with h | h
  · cases h
    rcases hm with ⟨_, h1, _⟩ | ⟨h1, _⟩
    · have : m.protoSet = Exec.Sample.protoSet := (Except.ok.inj h1).symm
      unfold Distinct
      rw [this]
      decide +kernel
    · cases h1
  · exact absurd rfl h.1

/-- Two runs in the sample repository: the maps come in reverse in one of them, and the descriptor
sets of the directories come in the other order. -/
example : Reordered Exec.Sample.repoHost
      { Exec.Sample.repoHost with
        compile := fun _ _ ps => .ok ([], if ps.workDirPath = s%"/tmp/clone" then ReflectExample.old.reverse
          else ReflectExample.new.reverse) } ∧
    SameTools Exec.Sample.tools { Exec.Sample.tools with order := .rev } ∧
    SoundSets Exec.Sample.repoHost Exec.Sample.tools := by
  refine ⟨⟨rfl, ?_, ?_⟩, ⟨rfl, ?_⟩, ?_⟩
  · intro w d
    unfold Exec.Sample.repoHost Exec.Sample.host
    dsimp only
    split
    · exact ⟨rfl, rfl, rfl, .refl _⟩
    · trivial
  · intro flags disk ps ps' hs
    refine ⟨rfl, ?_⟩
    dsimp only
    rw [hs.workDirPath]
    split
    · exact List.reverse_perm _
    · exact List.reverse_perm _
  · intro w d
    unfold Exec.Sample.tools
    dsimp only
    split
    · exact ⟨rfl, rfl, rfl, .refl _⟩
    · trivial
  · intro flags disk ps r hr
    have : r = ([], if ps.workDirPath = s%"/tmp/clone" then ReflectExample.old else ReflectExample.new) :=
      (Except.ok.inj hr).symm
    subst this
    dsimp only
    split
    · exact ⟨ReflectExample.old_faithful, ReflectExample.old_faithful, ReflectExample.old_valid⟩
    · exact ⟨ReflectExample.new_faithful, ReflectExample.new_faithful, ReflectExample.new_valid⟩

end Verif.Props
