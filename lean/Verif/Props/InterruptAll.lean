import Verif.Props.Agree
import Verif.Props.Interrupt
import Verif.Spec.InterruptAll

/-!
# C101: `all` that is stopped and started again
-/

namespace Verif.Props

open Verif Str Exec Spec

/-- The formatting of `all` is `format --overwrite`. -/
theorem format_of_formatCmd {h : Host} (hp : Prints h) (hk : ErrorFormatKnown h) {o : Order} {srt : SortSlice}
    {args : List Str} {fix : Bool} {m : Meta} (hm : Finds h args m) {w : World} (hc : Compiles h {} m w.disk) :
    formatCmd h o srt args { overwrite := true, fix := fix } w =
      format h o srt { overwrite := true, fix := fix } m w := by
  obtain ⟨s, hc⟩ := hc
  rw [formatCmd_eq ⟨by simp, by simp, by simp⟩, bind_of_ok (getMeta_ok.2 ⟨rfl, hm⟩),
    bind_of_ok ((compile_ok hp (w' := w)).2 ⟨hk, hc, rfl⟩)]

/-- C101: **`all` that was stopped, while it formats, while the plugins run or later, and is started again ends well and
leaves what it would have left without the interruption**, if the files still compile. Missing: a stop in the write of a
file that is formatted, after which this is false (`C101_not_again`). -/
theorem C101_all_resumed_partial (h : Host) (hp : Prints h) (hw : Writes h) (env : Lint.Env) (o' : Order)
    (srt : SortSlice) (args : List Str) (fix : Bool) (m : Meta) (hm : Finds h args m) (hd : Distinct m) (w : World)
    (hok : (allCmd h env srt args false false fix w).2 = .ok ()) (made : Str → Prop) (hmade : PluginsMake h m made)
    (stable : ∀ f content text, Concerns h m f → w.disk f.path = some content →
      Formats h srt fix m f.path content text → Formats h srt fix m f.path text text)
    (new : List (Str × Str))
    (hn : (formatCmd h env.order srt args { overwrite := true, fix := fix } w).1.writes = w.writes ++ new)
    (w' : World) (hl : AllStopped w.disk (formatCmd h env.order srt args { overwrite := true, fix := fix } w).1.disk new
      made w'.disk) (hc : Compiles h {} m w'.disk) :
    (allCmd h { env with order := o' } srt args false false fix w').2 = .ok () ∧
      (allCmd h { env with order := o' } srt args false false fix w').1.disk =
        (allCmd h env srt args false false fix w).1.disk := by
  rcases e : allCmd h env srt args false false fix w with ⟨w3, x⟩
  rw [e] at hok
  cases hok
  obtain ⟨hk, hc0, w1, hf, hg, hlint⟩ := (allCmd_ok hp hm).1 e
  have hf0 := format_of_formatCmd hp hk (o := env.order) (srt := srt) (fix := fix) hm hc0
  rw [hf] at hf0
  have hrun : Lint.run env (lintHost h w3.disk) m.protoSet false = some (.ok []) := by
    have := C65_linted h hp env srt args m hm fix w (by rw [e])
    rw [e] at this
    exact this
  have hw3 : w3.disk = h.generate w1.disk m.protoSet := by
    have := (quiet_lint h env m { w1 with disk := h.generate w1.disk m.protoSet }).1
    rw [hlint] at this
    exact this
  -- the formatting, started again
  have hagain : ∃ w2, formatCmd h o' srt args { overwrite := true, fix := fix } w' = (w2, .ok ()) ∧
      ∀ p, ¬ made p → w2.disk p = w1.disk p := by
    rcases hl with hl | hl
    · obtain ⟨k1, k2⟩ := resumed_of_stable h hp hw env.order o' srt args { overwrite := true, fix := fix } rfl m hm hd w
        (by rw [hf0]) stable new hn w' hl hc
      refine ⟨_, Prod.ext rfl k1, fun p _ => ?_⟩
      rw [k2, hf0]
    · rw [hf0] at hl
      refine ⟨w', formatCmd_nothing hp hk ⟨by simp, by simp, by simp⟩ (fun hx => absurd hx.1 (by simp)) hm hc
        fun f hcon => ?_, hl⟩
      obtain ⟨c, t, j1, j2, j3⟩ := C38_overwritten h hp env.order srt args { overwrite := true, fix := fix } rfl m hm hd w
        (by rw [hf0]) f hcon
      rw [hf0] at j3
      exact ⟨t, by rw [hl _ (hmade.apart f hcon)]; exact j3, stable f c t hcon j1 j2⟩
  obtain ⟨w2, hf2, hsame⟩ := hagain
  have hgen : h.generate w2.disk m.protoSet = h.generate w1.disk m.protoSet := hmade.same _ _ hsame
  have hlint2 : lint h { env with order := o' } m { w2 with disk := h.generate w2.disk m.protoSet } =
      ({ w2 with disk := h.generate w2.disk m.protoSet }, .ok ()) := by
    refine lint_nothing hp hk ?_
    show Lint.run { env with order := o' } (lintHost h (h.generate w2.disk m.protoSet)) m.protoSet false = _
    rw [hgen, ← hw3]
    exact (C27_iteration_order env o' _ _ false []).2 hrun
  have hall : allCmd h { env with order := o' } srt args false false fix w' =
      ({ w2 with disk := h.generate w2.disk m.protoSet }, .ok ()) := by
    refine (allCmd_ok hp hm).2 ⟨hk, hc, w2, ?_, ?_, hlint2⟩
    · rw [← hf2]
      exact (format_of_formatCmd hp hk hm hc).symm
    · obtain ⟨s, hg⟩ := hg
      exact ⟨s, by rw [hmade.unread _ _ _ hsame]; exact hg⟩
  rw [hall]
  exact ⟨rfl, hgen.trans hw3.symm⟩

/-! ## The hypotheses can be met -/

section Examples

open Exec.Sample

/-- A plugin that writes one file. -/
def genHost : Host :=
  { allHost with generate := fun disk _ => disk.set s%"/w/gen/a.go" (some s%"package a") }

/-- The files after a run of `all` that was stopped when the plugin had begun to write. -/
def genStopped : World :=
  let w := (formatCmd genHost .rev .stable [s%"a"] { overwrite := true } world).1
  { w with disk := Disk.set w.disk s%"/w/gen/a.go" (some s%"pack") }

theorem genHost_makes : PluginsMake genHost agreeMeta (· = s%"/w/gen/a.go") := by
  refine ⟨?_, ?_, ?_, fun _ _ _ _ => rfl⟩
  · rintro f ⟨⟨d, files, h1, _, h2⟩, _⟩
    simp only [agreeMeta, protoSet, List.mem_cons, Prod.mk.injEq, List.not_mem_nil, or_false] at h1
    rcases h1 with ⟨rfl, rfl⟩ | ⟨rfl, rfl⟩ | ⟨rfl, rfl⟩
    · simp only [List.mem_cons, List.not_mem_nil, or_false] at h2
      rcases h2 with rfl | rfl <;> decide
    · simp only [List.mem_cons, List.not_mem_nil, or_false] at h2
      rcases h2 with rfl
      decide
    · simp only [List.mem_cons, List.not_mem_nil, or_false] at h2
      rcases h2 with rfl
      decide
  · intro d p hp
    simp [genHost, Disk.set, hp]
  · intro d d' hsame
    funext p
    rcases Classical.em (p = s%"/w/gen/a.go") with hp | hp
    · simp [genHost, Disk.set, hp]
    · simp [genHost, Disk.set, hp, hsame p hp]

/-- The plugin was stopped in its file: the next run leaves all of it, and `two.proto` formatted. -/
example : genStopped.disk s%"/w/gen/a.go" = some s%"pack" ∧
    (allCmd genHost sampleEnv .stable [s%"a"] false false false world).1.disk s%"/w/gen/a.go" = some s%"package a" ∧
    (allCmd genHost { sampleEnv with order := .id } .stable [s%"a"] false false false genStopped).2 = .ok () ∧
    (allCmd genHost { sampleEnv with order := .id } .stable [s%"a"] false false false genStopped).1.disk =
      (allCmd genHost sampleEnv .stable [s%"a"] false false false world).1.disk := by
  have hm : Finds genHost [s%"a"] agreeMeta := (getMeta_ok (w := world) (w' := world)).1 rfl |>.2
  have hd : Distinct agreeMeta := by unfold Distinct; decide +kernel
  refine ⟨by decide +kernel, by decide +kernel, ?_⟩
  exact C101_all_resumed_partial genHost (fun _ _ => rfl) (fun _ _ => rfl) sampleEnv .id .stable [s%"a"] false agreeMeta
    hm hd world (by decide +kernel) _ genHost_makes (fun f c t hf _ ht => agree_stable f c t hf ht) _ rfl genStopped
    (.inr fun p hp => by have hp : p ≠ s%"/w/gen/a.go" := hp; simp [genStopped, Disk.set, hp, sampleEnv]) ⟨_, rfl⟩

/-- The run was stopped before its first write. -/
example : (allCmd genHost { sampleEnv with order := .id } .stable [s%"a"] false false false world).2 = .ok () := by
  have hm : Finds genHost [s%"a"] agreeMeta := (getMeta_ok (w := world) (w' := world)).1 rfl |>.2
  have hd : Distinct agreeMeta := by unfold Distinct; decide +kernel
  exact (C101_all_resumed_partial genHost (fun _ _ => rfl) (fun _ _ => rfl) sampleEnv .id .stable [s%"a"] false agreeMeta
    hm hd world (by decide +kernel) _ genHost_makes (fun f c t hf _ ht => agree_stable f c t hf ht) _ rfl world
    (.inl ⟨[], _, rfl, rfl⟩) ⟨_, rfl⟩).1

end Examples

end Verif.Props
