import Verif.Proof.ExecFormat
import Verif.Proof.ExecPrint

/-!
# Format runs without other errors, and what the plain mode prints
-/

namespace Verif.Exec

open Verif Str

/-- Nothing but failures and differences can be found: the file can be read and parsed, and the
operations on its formatted text work. -/
def Smooth (h : Host) (srt : SortSlice) (flags : FormatFlags) (m : Meta) (d : Disk)
    (f : File.ProtoFile) : Prop :=
  ∃ c t failures, d f.path = some c ∧
    transform h srt (formatParams flags.fix m f.path) c = .ok (t, failures) ∧
    (flags.overwrite = true → h.writeFile f.path t = .ok ()) ∧
    (flags.diffMode = true → ∃ s, h.diff c t f.displayPath = .ok s)

theorem formatFile_goes {h : Host} (hp : Prints h) (hc : CanPrint h) (srt : SortSlice)
    (flags : FormatFlags) (m : Meta) (f : File.ProtoFile) (w : World)
    (hs : Skips h m f ∨ Smooth h srt flags m w.disk f) :
    ∃ w' b, formatFile h srt flags m f w = (w', .ok b) := by
  unfold formatFile
  by_cases hk : Skips h m f
  · rw [if_pos hk]
    exact ⟨w, true, rfl⟩
  rw [if_neg hk]
  rcases hs with hs | ⟨c, t, fs, hd, ht, hw, hdf⟩
  · exact absurd hs hk
  have hr : readFile h f.path w = (w, .ok c) := by unfold readFile; rw [hd]
  rw [bind_of_ok hr, ht, bind_of_ok (show Run.lift (.ok (t, fs)) w = (w, .ok (t, fs)) from rfl)]
  dsimp only
  split
  · obtain ⟨out, e⟩ := printFailures_goes hp hc m f.displayPath fs w
    exact ⟨_, false, by rw [bind_of_ok e]; rfl⟩
  · split
    · split
      · rename_i ho
        have hw' : writeFile h f.path t w = ({ w with
            writes := w.writes ++ [(f.path, t)], disk := Disk.set w.disk f.path (some t) }, .ok ()) := by
          unfold writeFile
          rw [hw ho]
        exact ⟨_, true, by rw [bind_of_ok hw']; rfl⟩
      · split
        · obtain ⟨out, e⟩ := printFailures_goes hp hc m []
            [{ filename := f.displayPath, line := 0, column := 0, lintID := s%"FORMAT_DIFF",
               message := s%"Format returned a diff." }] w
          exact ⟨_, false, by rw [bind_of_ok e]; rfl⟩
        · split
          · rename_i hdm
            obtain ⟨s, e⟩ := hdf hdm
            refine ⟨{ w with out := w.out ++ s }, false, ?_⟩
            rw [e, bind_of_ok (show Run.lift (.ok s) w = (w, .ok s) from rfl),
              bind_of_ok (write_of_prints hp s w)]
            rfl
          · exact ⟨_, false, by rw [bind_of_ok (write_of_prints hp t w)]; rfl⟩
    · split
      · exact ⟨_, true, by rw [bind_of_ok (write_of_prints hp t w)]; rfl⟩
      · exact ⟨w, true, rfl⟩

theorem smooth_congr {h : Host} {srt : SortSlice} {flags : FormatFlags} {m : Meta} {d d' : Disk}
    {f : File.ProtoFile} (e : d f.path = d' f.path) (g : Smooth h srt flags m d f) :
    Smooth h srt flags m d' f := by
  obtain ⟨c, t, fs, hd, g⟩ := g
  exact ⟨c, t, fs, by rw [← e]; exact hd, g⟩

theorem formatFiles_goes {h : Host} (hp : Prints h) (hc : CanPrint h) (srt : SortSlice)
    (flags : FormatFlags) (m : Meta) (fs : List File.ProtoFile) (hn : (fs.map fun f => f.path).Nodup)
    (s : Bool) (w : World) (hs : ∀ f ∈ fs, Skips h m f ∨ Smooth h srt flags m w.disk f) :
    ∃ w' b, formatFiles h srt flags m fs s w = (w', .ok b) := by
  induction fs generalizing s w with
  | nil => exact ⟨w, s, rfl⟩
  | cons f fs ih =>
    rw [List.map_cons, List.nodup_cons] at hn
    obtain ⟨w1, b, e1⟩ := formatFile_goes hp hc srt flags m f w (hs f (List.mem_cons_self ..))
    have hother : ∀ p, p ≠ f.path → w1.disk p = w.disk p := by
      intro p hne
      have := formatFile_effect h srt flags m f w
      rw [e1] at this
      rcases this with ⟨h1, _⟩ | ⟨_, _, _, _, _, _, _, _, h1, _⟩
      · exact congrFun h1 p
      · exact h1 p hne
    obtain ⟨w', b', e2⟩ := ih hn.2 (s && b) w1 fun k hk => (hs k (List.mem_cons_of_mem _ hk)).imp id
      (smooth_congr (hother _ fun e => hn.1 (List.mem_map.2 ⟨k, hk, e⟩)).symm)
    exact ⟨w', b', by unfold formatFiles; rw [bind_of_ok e1]; exact e2⟩

/-! ## The plain mode -/

theorem formatFile_plain {h : Host} (hp : Prints h) (srt : SortSlice) (flags : FormatFlags)
    (hf : flags.plain) (m : Meta) (f : File.ProtoFile) (w : World) (hk : ¬Skips h m f) {c t : Str}
    (hd : w.disk f.path = some c) (hF : Formats h srt flags.fix m f.path c t) :
    formatFile h srt flags m f w = ({ w with out := w.out ++ t }, .ok (decide (c = t))) := by
  unfold formatFile
  rw [if_neg hk]
  have hr : readFile h f.path w = (w, .ok c) := by unfold readFile; rw [hd]
  rw [bind_of_ok hr, transform_eq.2 hF,
    bind_of_ok (show Run.lift (.ok (t, [])) w = (w, .ok (t, [])) from rfl)]
  dsimp only
  rw [if_neg (by simp), hf.1, hf.2.1, hf.2.2]
  by_cases e : c = t
  · rw [if_neg (Decidable.not_not.2 e)]
    simp only [Bool.not_false, Bool.and_self, if_true]
    rw [bind_of_ok (write_of_prints hp t w), decide_eq_true e]
    rfl
  · rw [if_pos e]
    simp only [Bool.false_eq_true, if_false]
    rw [bind_of_ok (write_of_prints hp t w), decide_eq_false e]
    rfl

theorem formatFiles_plain {h : Host} (hp : Prints h) (srt : SortSlice) (flags : FormatFlags)
    (hf : flags.plain) (m : Meta) (d : Disk) (text : Str → Str) (fs : List File.ProtoFile)
    (ht : ∀ f ∈ fs, ¬Skips h m f →
      ∃ c, d f.path = some c ∧ Formats h srt flags.fix m f.path c (text f.path))
    (s : Bool) (w : World) (hw : w.disk = d) :
    ∃ b, formatFiles h srt flags m fs s w =
      ({ w with out := w.out ++ (fs.filter fun f => decide (¬Skips h m f)).flatMap fun f => text f.path },
        .ok b) := by
  induction fs generalizing s w with
  | nil => exact ⟨s, by simp [formatFiles, Run.pure]⟩
  | cons f fs ih =>
    unfold formatFiles
    by_cases hk : Skips h m f
    · have e1 : formatFile h srt flags m f w = (w, .ok true) := by
        unfold formatFile
        rw [if_pos hk]
        rfl
      rw [bind_of_ok e1, List.filter_cons_of_neg (by simpa using hk)]
      exact ih (fun k hm => ht k (List.mem_cons_of_mem _ hm)) (s && true) w hw
    · obtain ⟨c, hd, hF⟩ := ht f (List.mem_cons_self ..) hk
      rw [← hw] at hd
      rw [bind_of_ok (formatFile_plain hp srt flags hf m f w hk hd hF),
        List.filter_cons, if_pos (decide_eq_true hk), List.flatMap_cons]
      obtain ⟨b, e⟩ := ih (fun k hm => ht k (List.mem_cons_of_mem _ hm)) (s && decide (c = text f.path))
        { w with out := w.out ++ text f.path } hw
      refine ⟨b, e.trans ?_⟩
      simp only [List.append_assoc]

end Verif.Exec
