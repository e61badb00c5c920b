import Verif.Proof.AllOrder
import Verif.Props.FormatOrder
import Verif.Props.Create
import Verif.Props.ExecAll

/-!
# C86 for `generate`, `all` and `create`
-/

namespace Verif.Props

open Verif Str Spec Exec File

/-- C86: `generate` prints the same, ends alike and leaves the same files, if the plugins make the
same of the same files. -/
theorem C86_generate (h h' : Exec.Host) (r : Reordered h h') (hg : GeneratesAlike h h') (args : List Str) :
    SameRun (genCmd h args false) (genCmd h' args false) := by
  unfold genCmd
  exact runAlike_bind (r.getMeta args) fun m m' hm =>
    runAlike_bind (r.compileWith (.inr hg) hm) fun _ _ _ => runAlike_pure trivial

/-- C86: `all` leaves the same files and ends alike. If formatting goes well it prints the same,
otherwise the same about every file. -/
theorem C86_all (h h' : Exec.Host) (r : Reordered h h') (hg : GeneratesAlike h h') (hp : Prints h) (env : Lint.Env)
    (o' : Order) (srt : SortSlice) (args : List Str) (disableFormat disableLint fix : Bool)
    (hd : ∀ m, Finds h args m → Distinct m) (w : World) :
    AlikeButOrder h args w (allCmd h env srt args disableFormat disableLint fix w)
      (allCmd h' { env with order := o' } srt args disableFormat disableLint fix w) := by
  unfold allCmd
  refine after_compile r hp fun m m' hfin hsm => ?_
  have hrest : SameRun
      (Run.bind (compile h true false false m) fun _ => if !disableLint then lint h env m else Run.pure ())
      (Run.bind (compile h' true false false m') fun _ =>
        if !disableLint then lint h' { env with order := o' } m' else Run.pure ()) :=
    runAlike_bind (r.compileWith (.inr hg) hsm) fun _ _ _ => by
      split
      · exact lint_alike r env o' hsm
      · exact runAlike_pure trivial
  have hblind : Blind (Run.bind (compile h' true false false m') fun _ =>
      if !disableLint then lint h' { env with order := o' } m' else Run.pure ()) :=
    blind_bind (blind_compile _ _ _ _) fun _ => by
      split
      · exact blind_lint _ _ _
      · exact blind_pure _
  generalize hR : (Run.bind (compile h true false false m) fun _ =>
    if !disableLint then lint h env m else Run.pure ()) = R at hrest ⊢
  generalize hR' : (Run.bind (compile h' true false false m') fun _ =>
    if !disableLint then lint h' { env with order := o' } m' else Run.pure ()) = R' at hrest hblind ⊢
  cases disableFormat with
  | true => exact but_order (hrest w)
  | false =>
    simp only [Bool.not_false, if_true]
    generalize hfl : ({ overwrite := true, fix := fix } : FormatFlags) = flags
    have ho : flags.overwrite = true := by rw [← hfl]
    rcases format_alike r hp env.order o' srt flags hsm (hd m hfin) w with ⟨b1, b2⟩ | ⟨h1, h2, text, h3, h4⟩
    · exact broken_but_order (broken_bind b1) (broken_bind b2)
    · rcases hf : format h env.order srt flags m w with ⟨w1, a⟩
      rcases hf' : format h' o' srt flags m' w with ⟨w1', a'⟩
      rw [hf, hf'] at h1 h2
      rw [hf] at h3
      rw [hf'] at h4
      dsimp only at h1 h2 h3 h4
      obtain rfl : a' = a := h1
      cases a' with
      | ok u =>
        rw [bind_of_ok hf, bind_of_ok hf']
        have hs := formatFiles_silent ho _ _ _ (format_ok.1 hf)
        have hnil : (formatList env.order m).flatMap text = [] := by
          rw [h3] at hs
          exact List.append_cancel_left (by rw [hs, List.append_nil])
        have hnil' : (formatList o' m').flatMap text = [] := by
          rw [List.flatMap_eq_nil_iff] at hnil ⊢
          exact fun x hx => hnil x ((formatList_perm hsm).mem_iff.1 hx)
        have hw : w1' = { w1 with writes := w1'.writes } := by
          rw [hnil'] at h4
          rw [hnil] at h3
          cases w1
          cases w1'
          dsimp only at h2 h3 h4 ⊢
          rw [h2, h3, h4]
        obtain ⟨k1, k2⟩ := hrest w1
        rw [hw, hblind]
        refine ⟨k2, fun _ => ⟨?_, .inl ?_⟩⟩
        · dsimp only
          rw [k1]
        · dsimp only
          rw [k1]
      | crash =>
        refine broken_but_order (broken_bind ?_) (broken_bind ?_)
        · rw [hf]; trivial
        · rw [hf']; trivial
      | error e =>
        have e1 : Run.bind (format h env.order srt flags m) (fun _ => R) w = (w1, .error e) := by
          unfold Run.bind
          rw [hf]
        have e2 : Run.bind (format h' o' srt flags m') (fun _ => R') w = (w1', .error e) := by
          unfold Run.bind
          rw [hf']
        rw [e1, e2]
        refine ⟨?_, fun _ => ⟨h2, .inr ⟨m, hfin, text, _, _, formatList_files,
          (formatList_perm (o := env.order) hsm).trans formatList_files, h3, h4⟩⟩⟩
        cases e with
        | exit c t => exact ⟨rfl, rfl⟩
        | other e => trivial

/-! ## create -/

theorem forEach_alike {f f' : Str → Run Unit} : ∀ l : List Str, (∀ p ∈ l, SameRun (f p) (f' p)) →
    SameRun (Create.forEach f l) (Create.forEach f' l)
  | [], _ => runAlike_pure trivial
  | p :: l, h => runAlike_bind (h p (by simp)) fun _ _ _ => forEach_alike l fun q hq => h q (by simp [hq])

theorem checked {host : Exec.Host} : ∀ (l : List Str) (w w' : World),
    Create.forEach (Create.checkFilePath host) l w = (w', .ok ()) → ∀ p ∈ l, p ≠ []
  | [], _, _, _, _, hp => by cases hp
  | q :: l, w, w', h, p, hp => by
    obtain ⟨w1, _, h1, h2⟩ := bind_ok.1 h
    rcases List.mem_cons.1 hp with rfl | hp
    · rintro rfl
      cases h1
    · exact checked l _ _ h2 p hp

/-- C86: `create` writes the same files, whatever the order of the maps. -/
theorem C86_create (h : Create.Handler) (o' : Order) (host : Exec.Host) (hwd : IsAbsPath host.wd)
    (paths : List Str) :
    SameRun (Create.createCmd h host paths) (Create.createCmd { h with order := o' } host paths) := by
  unfold Create.createCmd
  intro w
  refine alike_bind (runAlike_refl _ w) fun _ _ w1 hw1 _ => ?_
  refine forEach_alike paths (fun p hp => ?_) w1
  have hne := checked _ _ _ hw1 p hp
  have he : Create.create { h with order := o' } host p = Create.create h host p := by
    have hc' : Create.getConfig { h with order := o' } host p = Create.getConfig h host p := rfl
    unfold Create.create
    rw [hc']
    funext w
    cases hc : Create.getConfig h host p with
    | none => rfl
    | some c =>
      cases c with
      | error e => rfl
      | ok c =>
        simp only [Run.bind, Run.liftOption, Run.lift, Run.pure, C40_order h o' host hwd p hne c hc]
  rw [he]
  exact sameRun_refl _

/-! ## Examples -/

/-- The sample for `all`, listed in another order. -/
def reversedAllHost : Exec.Host :=
  { allHost with
    getForDir := fun _ _ => .ok { Exec.Sample.protoSet with
      config := singleSet.config
      dirPathToFiles := Exec.Sample.protoSet.dirPathToFiles.reverse } }

/-- The hypotheses of `C86_all` and `C86_generate` are met; the run formats a file. -/
example : Reordered allHost reversedAllHost ∧ GeneratesAlike allHost reversedAllHost ∧ Prints allHost ∧
    (∀ m, Finds allHost [s%"a"] m → Distinct m) ∧
    (allCmd reversedAllHost { sampleEnv with order := .rev } .stable [s%"a"] false false false Exec.Sample.world).2 = .ok () ∧
    (allCmd reversedAllHost { sampleEnv with order := .rev } .stable [s%"a"] false false false Exec.Sample.world).1.disk
      s%"/w/a/two.proto" = some s%"syntax = \"proto3\";\n" := by
  refine ⟨⟨rfl, fun _ _ => ⟨rfl, rfl, rfl, List.reverse_perm _⟩, fun _ _ _ _ _ => ⟨rfl, .refl _⟩⟩,
    fun _ _ _ _ => rfl, fun _ _ => rfl, ?_, by decide +kernel, by decide +kernel⟩
  rintro m ⟨arg, harg, hm⟩
  rcases harg with h | h
  · cases h
    rcases hm with ⟨_, h1, _⟩ | ⟨h1, _⟩
    · have : m.protoSet = { Exec.Sample.protoSet with config := singleSet.config } :=
        (Except.ok.inj h1).symm
      unfold Distinct
      rw [this]
      decide +kernel
    · cases h1
  · exact absurd rfl h.1

/-- `create` with the map of packages in reverse. -/
example : IsAbsPath createHost.wd ∧
    (Create.createCmd { createHandler with order := .rev } createHost [s%"idl/code/x/a_b.proto"]
      ⟨fun _ => none, [], []⟩).2 = .ok () :=
  ⟨Exec.Sample.isAbsPath_iff.2 (by decide), by decide +kernel⟩

end Verif.Props
