import Verif.Proof.ExecOrder
import Verif.Proof.ExecFormat

/-!
# Formatting the same files in another order
-/

namespace Verif.Exec

open Verif Str Spec File

theorem _root_.Verif.Spec.Reordered.formatFile {h h' : Host} (r : Reordered h h') (srt : SortSlice)
    (flags : FormatFlags) {m m' : Meta} (hm : SameMeta m m') (f : ProtoFile) :
    Exec.formatFile h' srt flags m' f = Exec.formatFile h srt flags m f := by
  have e1 : Exec.readFile h' = Exec.readFile h := by
    funext p
    unfold Exec.readFile
    rw [r.missing]
  have e2 : ∀ q c, Exec.transform h' srt q c = Exec.transform h srt q c := by
    intro q c
    unfold Exec.transform
    rw [r.parse]
  have e3 : Exec.writeFile h' = Exec.writeFile h := by
    funext p d
    unfold Exec.writeFile
    rw [r.writeFileEq]
  have e4 : formatParams flags.fix m' f.path = formatParams flags.fix m f.path := by
    unfold formatParams
    rw [hm.1.config]
  unfold Exec.formatFile
  simp only [hm.2, r.wd, e1, e2, e3, e4, r.diff, r.write, r.printFailures hm.2 _ (.refl _)]

/-- What becomes of the world when a file is formatted: some text is printed and, perhaps, the file
is written. -/
def wrote (w : World) (f : ProtoFile) (text : Str) (new : Option Str) : World where
  disk := match new with
    | none => w.disk
    | some data => Disk.set w.disk f.path (some data)
  out := w.out ++ text
  writes := w.writes ++ new.toList.map fun data => (f.path, data)

/-- With this content, formatting the file goes this way. -/
def Goes (h : Host) (srt : SortSlice) (flags : FormatFlags) (m : Meta) (f : ProtoFile) (content : Option Str)
    (text : Str) (new : Option Str) (good : Bool) : Prop :=
  ∀ w : World, w.disk f.path = content → formatFile h srt flags m f w = (wrote w f text new, .ok good)

/-- Neither success nor an exit error. -/
def Broken {α : Type} (r : Outcome α) : Prop :=
  match r with
  | .ok _ | .error (.exit _ _) => False
  | _ => True

theorem wrote_nothing (w : World) (f : ProtoFile) (text : Str) :
    wrote w f text none = { w with out := w.out ++ text } := by
  unfold wrote
  simp

theorem printFailures_local {h : Host} (hp : Prints h) (filename : Str) (m : Meta) (fs : List Text.Failure) :
    (∃ text, ∀ w, printFailures h filename m fs w = ({ w with out := w.out ++ text }, .ok ())) ∨
      ∀ w, Broken (printFailures h filename m fs w).2 := by
  unfold printFailures printFailuresFor
  cases Text.parseColonSeparatedFailureFields h.errorFormat with
  | none => exact .inr fun _ => trivial
  | some fields =>
    dsimp only
    generalize Text.sortFailures _ = l
    rcases failureLines h (some m) fields l [] with ⟨t, o⟩
    cases o with
    | none => exact .inl ⟨t, fun w => by dsimp only; rw [write_of_prints hp]⟩
    | some e => exact .inr fun _ => trivial

theorem broken_bind {α β : Type} {m : Run α} {f : α → Run β} {w : World} (h : Broken (m w).2) :
    Broken (Run.bind m f w).2 := by
  unfold Run.bind
  rcases hm : m w with ⟨w1, r⟩
  rw [hm] at h
  cases r with
  | ok a => exact h.elim
  | error e =>
    cases e with
    | exit c t => exact h.elim
    | other e => trivial
  | crash => trivial

/-- What formatting a file does depends on its content only. -/
theorem formatFile_local {h : Host} (hp : Prints h) (srt : SortSlice) (flags : FormatFlags) (m : Meta)
    (f : ProtoFile) (content : Option Str) :
    (∃ text new good, Goes h srt flags m f content text new good) ∨
      ∀ w : World, w.disk f.path = content → Broken (formatFile h srt flags m f w).2 := by
  unfold Goes formatFile
  split
  · refine .inl ⟨[], none, true, fun w _ => ?_⟩
    rw [wrote_nothing]
    simp [Run.pure]
  cases content with
  | none =>
    refine .inr fun w hw => broken_bind ?_
    unfold readFile
    rw [hw]
    trivial
  | some input =>
    have hread : ∀ {β : Type} (k : Str → Run β) (w : World), w.disk f.path = some input →
        Run.bind (readFile h f.path) k w = k input w := by
      intro β k w hw
      refine bind_of_ok ?_
      unfold readFile
      rw [hw]
    cases ht : transform h srt (formatParams flags.fix m f.path) input with
    | error e =>
      refine .inr fun w hw => ?_
      rw [hread _ w hw]
      exact broken_bind (by rw [ht]; trivial)
    | ok r =>
      have hlift : ∀ {β : Type} (k : (Str × List Text.Failure) → Run β) (w : World),
          Run.bind (Run.lift (.ok r : Except Err _)) k w = k r w := fun k w => bind_of_ok rfl
      have hprint : ∀ (filename : Str) (fs : List Text.Failure) (good : Bool),
          (∃ text new good', ∀ w : World, w.disk f.path = some input →
            Run.bind (printFailures h filename m fs) (fun _ => Run.pure good) w = (wrote w f text new, .ok good')) ∨
          ∀ w : World, w.disk f.path = some input →
            Broken (Run.bind (printFailures h filename m fs) (fun _ => Run.pure good) w).2 := by
        intro filename fs good
        rcases printFailures_local hp filename m fs with ⟨text, ht⟩ | hb
        · refine .inl ⟨text, none, good, fun w _ => ?_⟩
          rw [bind_of_ok (ht w), wrote_nothing]
          rfl
        · exact .inr fun w _ => broken_bind (hb w)
      have hwrite : ∀ (text : Str) (good : Bool),
          (∃ text' new good', ∀ w : World, w.disk f.path = some input →
            Run.bind (write h text) (fun _ => Run.pure good) w = (wrote w f text' new, .ok good')) ∨
          ∀ w : World, w.disk f.path = some input →
            Broken (Run.bind (write h text) (fun _ => Run.pure good) w).2 := by
        intro text good
        refine .inl ⟨text, none, good, fun w _ => ?_⟩
        rw [bind_of_ok (write_of_prints hp ..), wrote_nothing]
        rfl
      have step : ∀ {k0 : Run Bool} (k : Run Bool), ((∃ text new good, ∀ w : World, w.disk f.path = some input →
            k w = (wrote w f text new, .ok good)) ∨ ∀ w : World, w.disk f.path = some input → Broken (k w).2) →
          (∀ w : World, w.disk f.path = some input → k0 w = k w) →
          (∃ text new good, ∀ w : World, w.disk f.path = some input → k0 w = (wrote w f text new, .ok good)) ∨
            ∀ w : World, w.disk f.path = some input → Broken (k0 w).2 := by
        intro k0 k hk he
        rcases hk with ⟨a, b, c, hk⟩ | hk
        · exact .inl ⟨a, b, c, fun w hw => by rw [he w hw, hk w hw]⟩
        · exact .inr fun w hw => by rw [he w hw]; exact hk w hw
      by_cases c1 : r.2.length > 0
      · refine step _ (hprint f.displayPath r.2 false) fun w hw => ?_
        rw [hread _ w hw, ht, hlift, if_pos c1]
      · by_cases c2 : input ≠ r.1
        · by_cases c3 : flags.overwrite = true
          · refine step (Run.bind (writeFile h f.path r.1) fun _ => Run.pure true) ?_ fun w hw => ?_
            · cases hwf : h.writeFile f.path r.1 with
              | ok u =>
                refine .inl ⟨[], some r.1, true, fun w _ => ?_⟩
                have : writeFile h f.path r.1 w = (wrote w f [] (some r.1), .ok ()) := by
                  unfold writeFile wrote
                  rw [hwf]
                  simp
                rw [bind_of_ok this]
                rfl
              | error e =>
                refine .inr fun w _ => broken_bind ?_
                unfold writeFile
                rw [hwf]
                trivial
            · rw [hread _ w hw, ht, hlift, if_neg c1, if_pos c2, if_pos c3]
          · by_cases c4 : flags.lintMode = true
            · refine step _ (hprint [] [{ filename := f.displayPath, line := 0, column := 0, lintID := s%"FORMAT_DIFF",
                                            message := s%"Format returned a diff." }] false) fun w hw => ?_
              rw [hread _ w hw, ht, hlift, if_neg c1, if_pos c2, if_neg c3, if_pos c4]
            · by_cases c5 : flags.diffMode = true
              · cases hd : h.diff input r.1 f.displayPath with
                | error e =>
                  refine step (Run.bind (Run.lift (h.diff input r.1 f.displayPath)) fun d =>
                    Run.bind (write h d) fun _ => Run.pure false) (.inr fun w _ => broken_bind ?_) fun w hw => ?_
                  · rw [hd]
                    trivial
                  · rw [hread _ w hw, ht, hlift, if_neg c1, if_pos c2, if_neg c3, if_neg c4, if_pos c5]
                | ok d =>
                  refine step _ (hwrite d false) fun w hw => ?_
                  rw [hread _ w hw, ht, hlift, if_neg c1, if_pos c2, if_neg c3, if_neg c4, if_pos c5, hd]
                  exact bind_of_ok rfl
              · refine step _ (hwrite r.1 false) fun w hw => ?_
                rw [hread _ w hw, ht, hlift, if_neg c1, if_pos c2, if_neg c3, if_neg c4, if_neg c5]
        · by_cases c6 : (!flags.overwrite && !flags.lintMode && !flags.diffMode) = true
          · refine step _ (hwrite r.1 true) fun w hw => ?_
            rw [hread _ w hw, ht, hlift, if_neg c1, if_neg c2, if_pos c6]
          · refine step (Run.pure true) (.inl ⟨[], none, true, fun w _ => ?_⟩) fun w hw => ?_
            · rw [wrote_nothing]
              simp [Run.pure]
            · rw [hread _ w hw, ht, hlift, if_neg c1, if_neg c2, if_neg c6]

theorem wrote_other {w : World} {f : ProtoFile} {text : Str} {new : Option Str} {p : Str} (h : p ≠ f.path) :
    (wrote w f text new).disk p = w.disk p := by
  unfold wrote
  cases new with
  | none => rfl
  | some d => exact if_neg h

theorem wrote_self {w : World} {f : ProtoFile} {text : Str} {new : Option Str} :
    (wrote w f text new).disk f.path = match new with
      | none => w.disk f.path
      | some d => some d := by
  unfold wrote
  cases new with
  | none => rfl
  | some d => exact if_pos rfl

/-- If all files go well, the texts follow each other and every file ends up as it would alone. -/
theorem formatFiles_each {h : Host} {srt : SortSlice} {flags : FormatFlags} {m : Meta}
    {text : ProtoFile → Str} {new : ProtoFile → Option Str} {good : ProtoFile → Bool} :
    ∀ (fs : List ProtoFile) (s : Bool) (w : World), (fs.map (·.path)).Nodup →
      (∀ f ∈ fs, Goes h srt flags m f (w.disk f.path) (text f) (new f) (good f)) →
      ∃ w', formatFiles h srt flags m fs s w = (w', .ok (s && fs.all good)) ∧
        w'.out = w.out ++ fs.flatMap text ∧
        w'.writes = w.writes ++ fs.flatMap (fun f => (new f).toList.map fun data => (f.path, data)) ∧
        (∀ p, p ∉ fs.map (·.path) → w'.disk p = w.disk p) ∧
        ∀ f ∈ fs, w'.disk f.path = match new f with
          | none => w.disk f.path
          | some d => some d := by
  intro fs
  induction fs with
  | nil =>
    intro s w _ _
    exact ⟨w, by simp [formatFiles, Run.pure], by simp, by simp, fun _ _ => rfl, fun _ hf => by cases hf⟩
  | cons f fs ih =>
    intro s w hn hg
    rw [List.map_cons, List.nodup_cons] at hn
    have hf := hg f (by simp) w rfl
    have hne : ∀ k ∈ fs, k.path ≠ f.path := fun k hk e => hn.1 (e ▸ List.mem_map_of_mem hk)
    obtain ⟨w', h1, h2, h2w, h3, h4⟩ := ih (s && good f) (wrote w f (text f) (new f)) hn.2 (fun k hk => by
      rw [wrote_other (hne k hk)]
      exact hg k (by simp [hk]))
    refine ⟨w', ?_, ?_, ?_, ?_, ?_⟩
    · unfold formatFiles
      rw [bind_of_ok hf, h1, List.all_cons, Bool.and_assoc]
    · rw [h2]
      unfold wrote
      simp
    · rw [h2w]
      unfold wrote
      simp
    · intro p hp
      simp only [List.map_cons, List.mem_cons, not_or] at hp
      rw [h3 p hp.2, wrote_other hp.1]
    · intro k hk
      rcases List.mem_cons.1 hk with rfl | hk
      · rw [h3 _ hn.1, wrote_self]
      · rw [h4 k hk, wrote_other (hne k hk)]

/-- If a file does not go well, the run does not. -/
theorem formatFiles_broken {h : Host} {srt : SortSlice} {flags : FormatFlags} {m : Meta} (hp : Prints h) :
    ∀ (fs : List ProtoFile) (s : Bool) (w : World), (fs.map (·.path)).Nodup →
      (∃ f ∈ fs, ∀ v : World, v.disk f.path = w.disk f.path → Broken (formatFile h srt flags m f v).2) →
      Broken (formatFiles h srt flags m fs s w).2 := by
  intro fs
  induction fs with
  | nil => rintro s w _ ⟨f, hf, _⟩; cases hf
  | cons f fs ih =>
    rintro s w hn ⟨k, hk, hb⟩
    rw [List.map_cons, List.nodup_cons] at hn
    unfold formatFiles
    rcases formatFile_local hp srt flags m f (w.disk f.path) with ⟨text, new, good, hg⟩ | hbad
    · rw [bind_of_ok (hg w rfl)]
      rcases List.mem_cons.1 hk with rfl | hk
      · have := hb w rfl
        rw [hg w rfl] at this
        exact this.elim
      · refine ih _ _ hn.2 ⟨k, hk, fun v hv => hb v ?_⟩
        rw [hv, wrote_other fun e => hn.1 (e ▸ List.mem_map_of_mem hk)]
    · exact broken_bind (hbad w rfl)

/-- The texts of the files in any order. -/
theorem formatFiles_order {h : Host} {srt : SortSlice} {flags : FormatFlags} {m : Meta} (hp : Prints h)
    {fs fs' : List ProtoFile} (hperm : fs'.Perm fs) (hn : (fs.map (·.path)).Nodup) (w : World) :
    (Broken (formatFiles h srt flags m fs true w).2 ∧ Broken (formatFiles h srt flags m fs' true w).2) ∨
    ∃ (text : ProtoFile → Str) (new : ProtoFile → Option Str) (good : Bool) (disk : Disk),
      formatFiles h srt flags m fs true w = ({ disk := disk
                                               out := w.out ++ fs.flatMap text
                                               writes := w.writes ++ fs.flatMap fun f =>
                                                (new f).toList.map fun data => (f.path, data) }, .ok good) ∧
      formatFiles h srt flags m fs' true w = ({ disk := disk
                                                out := w.out ++ fs'.flatMap text
                                                writes := w.writes ++ fs'.flatMap fun f =>
                                                  (new f).toList.map fun data => (f.path, data) }, .ok good) := by
  have hn' : (fs'.map (·.path)).Nodup := (hperm.map _).nodup_iff.2 hn
  by_cases hbad : ∃ f ∈ fs, ∀ v : World, v.disk f.path = w.disk f.path → Broken (formatFile h srt flags m f v).2
  · refine .inl ⟨formatFiles_broken hp fs true w hn hbad, formatFiles_broken hp fs' true w hn' ?_⟩
    obtain ⟨f, hf, hb⟩ := hbad
    exact ⟨f, hperm.mem_iff.2 hf, hb⟩
  · have hgo : ∀ f, ∃ x : Str × Option Str × Bool, f ∈ fs →
        Goes h srt flags m f (w.disk f.path) x.1 x.2.1 x.2.2 := by
      intro f
      by_cases hf : f ∈ fs
      · rcases formatFile_local hp srt flags m f (w.disk f.path) with ⟨a, b, c, hg⟩ | hb
        · exact ⟨(a, b, c), fun _ => hg⟩
        · exact absurd ⟨f, hf, hb⟩ hbad
      · exact ⟨([], none, true), fun h => absurd h hf⟩
    let x := fun f => Classical.choose (hgo f)
    have hx : ∀ f ∈ fs, Goes h srt flags m f (w.disk f.path) (x f).1 (x f).2.1 (x f).2.2 := fun f =>
      Classical.choose_spec (hgo f)
    obtain ⟨w1, e1, e2, e2w, e3, e4⟩ := formatFiles_each (text := fun f => (x f).1) (new := fun f => (x f).2.1)
      (good := fun f => (x f).2.2) fs true w hn hx
    obtain ⟨w2, f1, f2, f2w, f3, f4⟩ := formatFiles_each (text := fun f => (x f).1) (new := fun f => (x f).2.1)
      (good := fun f => (x f).2.2) fs' true w hn' fun f hf => hx f (hperm.mem_iff.1 hf)
    have hd : w2.disk = w1.disk := by
      funext p
      by_cases hpm : p ∈ fs.map (·.path)
      · obtain ⟨f, hf, rfl⟩ := List.mem_map.1 hpm
        rw [e4 f hf, f4 f (hperm.mem_iff.2 hf)]
      · rw [e3 p hpm, f3 p fun hq => hpm ((hperm.map _).mem_iff.1 hq)]
    have ha : (fs'.all fun f => (x f).2.2) = fs.all fun f => (x f).2.2 := by
      rw [Bool.eq_iff_iff, List.all_eq_true, List.all_eq_true]
      simp only [hperm.mem_iff]
    refine .inr ⟨fun f => (x f).1, fun f => (x f).2.1, fs.all fun f => (x f).2.2, w1.disk, ?_, ?_⟩
    · rw [e1, ← e2, ← e2w]
      simp
    · rw [f1, ha, ← f2, ← f2w, ← hd]
      simp

end Verif.Exec
