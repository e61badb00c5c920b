import Verif.Proof.Exec

/-!
# Helper lemmas about the format command
-/

namespace Verif.Exec

open Verif Str

/-- The file is not the single one asked for. -/
abbrev Skips (h : Host) (m : Meta) (f : File.ProtoFile) : Prop :=
  m.singleFilename ≠ [] ∧ f.path ≠ File.absClean h.wd m.singleFilename

theorem Formats.unique {h : Host} {srt : SortSlice} {fix : Bool} {m : Meta} {p c t t' : Str}
    (h1 : Formats h srt fix m p c t) (h2 : Formats h srt fix m p c t') : t = t' := by
  obtain ⟨es, a1, a2⟩ := h1
  obtain ⟨es', b1, b2⟩ := h2
  rw [a1] at b1
  cases b1
  rw [a2] at b2
  cases b2
  rfl

theorem formatsAs_eq (fix : Bool) (m : Meta) (path : Str) :
    formatsAs fix m.protoSet.config.lint path = formatParams fix m path := by
  cases fix <;> rfl

theorem transform_eq {h : Host} {srt : SortSlice} {fix : Bool} {m : Meta} {p c t : Str} :
    transform h srt (formatParams fix m p) c = .ok (t, []) ↔ Formats h srt fix m p c t := by
  unfold transform Formats
  have hn : (formatParams fix m p).filename = p := rfl
  rw [hn, formatsAs_eq]
  cases h.parse p c with
  | error e => exact ⟨fun x => (by cases x), fun ⟨_, x, _⟩ => (by cases x)⟩
  | ok es => exact ⟨fun x => ⟨es, rfl, x⟩, fun ⟨_, x, y⟩ => (by cases x; exact y)⟩

/-- What a file is formatted to, and the write if there is one. -/
def Good (h : Host) (srt : SortSlice) (flags : FormatFlags) (m : Meta) (d : Disk)
    (f : File.ProtoFile) : Prop :=
  Skips h m f ∨ ∃ c t, d f.path = some c ∧ Formats h srt flags.fix m f.path c t ∧
    (c = t ∨ flags.overwrite = true ∧ h.writeFile f.path t = .ok ())

/-- The effect of `formatFile` on the files. -/
theorem formatFile_effect (h : Host) (srt : SortSlice) (flags : FormatFlags) (m : Meta)
    (f : File.ProtoFile) (w : World) :
    ((formatFile h srt flags m f w).1.disk = w.disk ∧
        (formatFile h srt flags m f w).1.writes = w.writes) ∨
      flags.overwrite = true ∧ ¬Skips h m f ∧ ∃ c t, w.disk f.path = some c ∧
        Formats h srt flags.fix m f.path c t ∧ c ≠ t ∧
        (formatFile h srt flags m f w).1.writes = w.writes ++ [(f.path, t)] ∧
        (∀ p, p ≠ f.path → (formatFile h srt flags m f w).1.disk p = w.disk p) ∧
        ((formatFile h srt flags m f w).1.disk f.path = some t ∨
          ∃ e left, h.writeFile f.path t = .error (e, left) ∧
            (formatFile h srt flags m f w).1.disk f.path = left) := by
  unfold formatFile
  by_cases hs : Skips h m f
  · rw [if_pos hs]
    exact .inl ⟨rfl, rfl⟩
  rw [if_neg hs]
  cases hd : w.disk f.path with
  | none =>
    left
    have : readFile h f.path w = (w, .error (.other (h.missing f.path))) := by
      unfold readFile; rw [hd]
    unfold Run.bind
    rw [this]
    exact ⟨rfl, rfl⟩
  | some c =>
    have hr : readFile h f.path w = (w, .ok c) := by unfold readFile; rw [hd]
    rw [bind_of_ok hr]
    cases ht : transform h srt (formatParams flags.fix m f.path) c with
    | error e => left; exact ⟨rfl, rfl⟩
    | ok r =>
      obtain ⟨t, fs⟩ := r
      rw [bind_of_ok (show Run.lift (.ok (t, fs)) w = (w, .ok (t, fs)) from rfl)]
      dsimp only
      by_cases hf : fs.length > 0
      · rw [if_pos hf]
        exact .inl (quiet_bind (quiet_printFailures _ _ _ _) (fun _ => quiet_pure _) w)
      rw [if_neg hf]
      obtain rfl : fs = [] := List.eq_nil_of_length_eq_zero (by omega)
      have hF := transform_eq.1 ht
      by_cases hc : c = t
      · rw [if_neg (Decidable.not_not.2 hc)]
        left
        split
        · exact quiet_bind (quiet_write _ _) (fun _ => quiet_pure _) w
        · exact ⟨rfl, rfl⟩
      rw [if_pos hc]
      by_cases ho : flags.overwrite = true
      · rw [if_pos ho]
        right
        refine ⟨ho, hs, c, t, rfl, hF, hc, ?_⟩
        unfold Run.bind writeFile
        cases hw : h.writeFile f.path t with
        | ok u =>
          refine ⟨rfl, fun p hp => ?_, .inl ?_⟩
          · exact if_neg hp
          · exact if_pos rfl
        | error e =>
          refine ⟨rfl, fun p hp => ?_, .inr ⟨e.1, e.2, rfl, ?_⟩⟩
          · exact if_neg hp
          · exact if_pos rfl
      · rw [if_neg ho]
        left
        split
        · exact quiet_bind (quiet_printFailures _ _ _ _) (fun _ => quiet_pure _) w
        · split
          · exact quiet_bind (quiet_lift _) (fun _ => quiet_bind (quiet_write _ _) fun _ => quiet_pure _) w
          · exact quiet_bind (quiet_write _ _) (fun _ => quiet_pure _) w

/-- When `formatFile` is content, and what the files are then. -/
theorem formatFile_true {h : Host} (srt : SortSlice) (flags : FormatFlags) (m : Meta)
    (f : File.ProtoFile) (w w' : World) (e : formatFile h srt flags m f w = (w', .ok true)) :
    (Skips h m f ∧ w' = w) ∨ ∃ c t, w.disk f.path = some c ∧ Formats h srt flags.fix m f.path c t ∧
      (c = t ∧ w'.disk = w.disk ∨
        flags.overwrite = true ∧ h.writeFile f.path t = .ok () ∧
          w'.disk = Disk.set w.disk f.path (some t)) := by
  unfold formatFile at e
  by_cases hs : Skips h m f
  · rw [if_pos hs] at e
    cases e
    exact .inl ⟨hs, rfl⟩
  rw [if_neg hs] at e
  right
  obtain ⟨w1, c, e1, e'⟩ := bind_ok.1 e
  clear e
  have e := e'
  clear e'
  have hd : w1 = w ∧ w.disk f.path = some c := by
    unfold readFile at e1
    revert e1
    cases w.disk f.path with
    | none => intro e1; simp at e1
    | some c' => intro e1; cases e1; exact ⟨rfl, rfl⟩
  obtain ⟨rfl, hd⟩ := hd
  obtain ⟨w2, r, e2, e'⟩ := bind_ok.1 e
  clear e
  have e := e'
  clear e'
  obtain ⟨t, fs⟩ := r
  have ht : w2 = w1 ∧ transform h srt (formatParams flags.fix m f.path) c = .ok (t, fs) := by
    revert e2
    cases transform h srt (formatParams flags.fix m f.path) c with
    | error _ => intro e2; cases e2
    | ok _ => intro e2; cases e2; exact ⟨rfl, rfl⟩
  obtain ⟨rfl, ht⟩ := ht
  dsimp only at e
  split at e
  · obtain ⟨_, _, _, e⟩ := bind_ok.1 e
    cases e
  rename_i hf
  obtain rfl : fs = [] := List.eq_nil_of_length_eq_zero (by omega)
  have hF := transform_eq.1 ht
  refine ⟨c, t, hd, hF, ?_⟩
  split at e
  · split at e
    · rename_i hc ho
      right
      obtain ⟨w3, _, e3, e⟩ := bind_ok.1 e
      cases e
      refine ⟨ho, ?_⟩
      unfold writeFile at e3
      revert e3
      cases h.writeFile f.path t with
      | ok u => intro e3; cases e3; exact ⟨rfl, rfl⟩
      | error x => intro e3; cases e3
    · split at e
      · obtain ⟨_, _, _, e⟩ := bind_ok.1 e
        cases e
      · split at e
        · obtain ⟨_, _, _, e⟩ := bind_ok.1 e
          obtain ⟨_, _, _, e⟩ := bind_ok.1 e
          cases e
        · obtain ⟨_, _, _, e⟩ := bind_ok.1 e
          cases e
  · rename_i hc
    left
    refine ⟨Decidable.not_not.1 hc, ?_⟩
    split at e
    · obtain ⟨w3, _, e3, e⟩ := bind_ok.1 e
      cases e
      have := (quiet_write h t w2).1
      rw [e3] at this
      exact this
    · cases e
      rfl

theorem formatFile_good {h : Host} (hp : Prints h) (srt : SortSlice) (flags : FormatFlags) (m : Meta)
    (f : File.ProtoFile) (w : World) (g : Good h srt flags m w.disk f) :
    ∃ w', formatFile h srt flags m f w = (w', .ok true) := by
  unfold formatFile
  by_cases hs : Skips h m f
  · rw [if_pos hs]
    exact ⟨w, rfl⟩
  rw [if_neg hs]
  rcases g with g | ⟨c, t, hd, hF, hc⟩
  · exact absurd g hs
  have hr : readFile h f.path w = (w, .ok c) := by unfold readFile; rw [hd]
  rw [bind_of_ok hr, transform_eq.2 hF,
    bind_of_ok (show Run.lift (.ok (t, [])) w = (w, .ok (t, [])) from rfl)]
  dsimp only
  rw [if_neg (by simp)]
  by_cases e : c = t
  · rw [if_neg (Decidable.not_not.2 e)]
    split
    · exact ⟨_, by rw [bind_of_ok (write_of_prints hp t w)]; rfl⟩
    · exact ⟨_, rfl⟩
  · rw [if_pos e]
    rcases hc with hc | ⟨ho, hw⟩
    · exact absurd hc e
    rw [if_pos ho]
    have hw' : writeFile h f.path t w = ({ w with
        writes := w.writes ++ [(f.path, t)], disk := Disk.set w.disk f.path (some t) }, .ok ()) := by
      unfold writeFile
      rw [hw]
    exact ⟨_, by rw [bind_of_ok hw']; rfl⟩

/-! ## All files -/

theorem formatFiles_effect (h : Host) (srt : SortSlice) (flags : FormatFlags) (m : Meta)
    (fs : List File.ProtoFile) (hn : (fs.map fun f => f.path).Nodup) (s : Bool) (w : World) :
    ∃ new : List (Str × Str), (formatFiles h srt flags m fs s w).1.writes = w.writes ++ new ∧
      (new.map fun x => x.1).Sublist (fs.map fun f => f.path) ∧
      (∀ p t, (p, t) ∈ new → flags.overwrite = true ∧ ∃ f ∈ fs, ¬Skips h m f ∧ f.path = p ∧
        ∃ c, w.disk p = some c ∧ Formats h srt flags.fix m p c t ∧ c ≠ t) ∧
      (∀ p, (formatFiles h srt flags m fs s w).1.disk p = w.disk p ∨ ∃ t, (p, t) ∈ new ∧
        ((formatFiles h srt flags m fs s w).1.disk p = some t ∨
          ∃ e left, h.writeFile p t = .error (e, left) ∧
            (formatFiles h srt flags m fs s w).1.disk p = left)) := by
  induction fs generalizing s w with
  | nil => exact ⟨[], (List.append_nil _).symm, .slnil, fun _ _ x => absurd x List.not_mem_nil,
      fun p => .inl rfl⟩
  | cons f fs ih =>
    rw [List.map_cons, List.nodup_cons] at hn
    have he := formatFile_effect h srt flags m f w
    unfold formatFiles
    -- the first file alone
    have first : ∃ new1 : List (Str × Str), (formatFile h srt flags m f w).1.writes = w.writes ++ new1 ∧
        (new1 = [] ∨ ∃ t, new1 = [(f.path, t)]) ∧
        (∀ p t, (p, t) ∈ new1 → flags.overwrite = true ∧ ¬Skips h m f ∧ f.path = p ∧
          ∃ c, w.disk p = some c ∧ Formats h srt flags.fix m p c t ∧ c ≠ t) ∧
        (∀ p, (formatFile h srt flags m f w).1.disk p = w.disk p ∨ p = f.path ∧ ∃ t, (p, t) ∈ new1 ∧
          ((formatFile h srt flags m f w).1.disk p = some t ∨
            ∃ e left, h.writeFile p t = .error (e, left) ∧
              (formatFile h srt flags m f w).1.disk p = left)) := by
      rcases he with ⟨h1, h2⟩ | ⟨ho, hs, c, t, hd, hF, hc, hw, hoth, hp⟩
      · exact ⟨[], by rw [h2, List.append_nil], .inl rfl, fun _ _ x => absurd x List.not_mem_nil,
          fun p => .inl (by rw [h1])⟩
      · refine ⟨[(f.path, t)], hw, .inr ⟨t, rfl⟩, ?_, ?_⟩
        · intro p t' hm
          cases List.mem_singleton.1 hm
          exact ⟨ho, hs, rfl, c, hd, hF, hc⟩
        · intro p
          by_cases e : p = f.path
          · subst e
            exact .inr ⟨rfl, t, List.mem_singleton.2 rfl, hp⟩
          · exact .inl (hoth p e)
    obtain ⟨new1, hw1, hk1, hn1, hd1⟩ := first
    have hsub1 : (new1.map fun x => x.1).Sublist [f.path] := by
      rcases hk1 with rfl | ⟨t, rfl⟩
      · exact List.nil_sublist _
      · exact List.Sublist.refl _
    cases hr : (formatFile h srt flags m f w).2 with
    | error e =>
      have : Run.bind (formatFile h srt flags m f) (fun ok => formatFiles h srt flags m fs (s && ok)) w =
          ((formatFile h srt flags m f w).1, .error e) := by
        unfold Run.bind
        rw [show formatFile h srt flags m f w = ((formatFile h srt flags m f w).1, .error e) from
          Prod.ext rfl hr]
      rw [this]
      refine ⟨new1, hw1, ?_, ?_, fun p => ?_⟩
      · exact hsub1.trans (List.Sublist.cons₂ _ (List.nil_sublist _))
      · intro p t hm
        have := hn1 p t hm
        exact ⟨this.1, f, List.mem_cons_self .., this.2⟩
      · rcases hd1 p with h1 | ⟨_, h1⟩
        · exact .inl h1
        · exact .inr h1
    | crash =>
      have : Run.bind (formatFile h srt flags m f) (fun ok => formatFiles h srt flags m fs (s && ok)) w =
          ((formatFile h srt flags m f w).1, .crash) := by
        unfold Run.bind
        rw [show formatFile h srt flags m f w = ((formatFile h srt flags m f w).1, .crash) from
          Prod.ext rfl hr]
      rw [this]
      refine ⟨new1, hw1, ?_, ?_, fun p => ?_⟩
      · exact hsub1.trans (List.Sublist.cons₂ _ (List.nil_sublist _))
      · intro p t hm
        have := hn1 p t hm
        exact ⟨this.1, f, List.mem_cons_self .., this.2⟩
      · rcases hd1 p with h1 | ⟨_, h1⟩
        · exact .inl h1
        · exact .inr h1
    | ok b =>
      rw [bind_of_ok (show formatFile h srt flags m f w = ((formatFile h srt flags m f w).1, .ok b) from
        Prod.ext rfl hr)]
      obtain ⟨new2, hw2, hsub2, hn2, hd2⟩ := ih hn.2 (s && b) (formatFile h srt flags m f w).1
      have hpath : ∀ p t, (p, t) ∈ new2 → p ≠ f.path := by
        intro p t hm e
        obtain ⟨_, g, hg, _, hgp, _⟩ := hn2 p t hm
        exact hn.1 (List.mem_map.2 ⟨g, hg, hgp.trans e⟩)
      have hother : ∀ p, p ≠ f.path → (formatFile h srt flags m f w).1.disk p = w.disk p := by
        intro p hp
        rcases hd1 p with h1 | ⟨h1, _⟩
        · exact h1
        · exact absurd h1 hp
      refine ⟨new1 ++ new2, by rw [hw2, hw1, List.append_assoc], ?_, ?_, fun p => ?_⟩
      · rw [List.map_append]
        exact List.Sublist.append hsub1 hsub2
      · intro p t hm
        rcases List.mem_append.1 hm with hm | hm
        · have := hn1 p t hm
          exact ⟨this.1, f, List.mem_cons_self .., this.2⟩
        · obtain ⟨ho, g, hg, hs, hgp, c, hc, hx⟩ := hn2 p t hm
          exact ⟨ho, g, List.mem_cons_of_mem _ hg, hs, hgp, c, by rw [← hother p (hpath p t hm)]; exact hc, hx⟩
      · rcases hd2 p with h2 | ⟨t, hm, h2⟩
        · rw [h2]
          rcases hd1 p with h1 | ⟨_, t, hm, h1⟩
          · exact .inl h1
          · exact .inr ⟨t, List.mem_append_left _ hm, h1⟩
        · exact .inr ⟨t, List.mem_append_right _ hm, h2⟩

theorem Disk.set_same (d : Disk) (p : Str) (c : Option Str) : Disk.set d p c p = c := if_pos rfl

theorem Disk.set_other (d : Disk) {p q : Str} (c : Option Str) (hq : q ≠ p) :
    Disk.set d p c q = d q := if_neg hq

theorem good_congr {h : Host} {srt : SortSlice} {flags : FormatFlags} {m : Meta} {d d' : Disk}
    {f : File.ProtoFile} (e : d f.path = d' f.path) (g : Good h srt flags m d f) :
    Good h srt flags m d' f := by
  rcases g with g | ⟨c, t, hd, g⟩
  · exact .inl g
  · exact .inr ⟨c, t, by rw [← e]; exact hd, g⟩

/-- When the loop is content, and what the files are then. -/
theorem formatFiles_true {h : Host} (srt : SortSlice) (flags : FormatFlags) (m : Meta)
    (fs : List File.ProtoFile) (hn : (fs.map fun f => f.path).Nodup) (s : Bool) (w w' : World)
    (e : formatFiles h srt flags m fs s w = (w', .ok true)) :
    s = true ∧ (∀ f ∈ fs, Good h srt flags m w.disk f) ∧
      (∀ f ∈ fs, ¬Skips h m f → ∃ c t, w.disk f.path = some c ∧
        Formats h srt flags.fix m f.path c t ∧
        w'.disk f.path = some (if flags.overwrite then t else c)) := by
  induction fs generalizing s w with
  | nil =>
    cases e
    exact ⟨rfl, fun f hf => absurd hf List.not_mem_nil, fun f hf => absurd hf List.not_mem_nil⟩
  | cons f fs ih =>
    rw [List.map_cons, List.nodup_cons] at hn
    unfold formatFiles at e
    obtain ⟨w1, b, e1, e2⟩ := bind_ok.1 e
    obtain ⟨hsb, hall, hdisk⟩ := ih hn.2 (s && b) w1 e2
    obtain ⟨rfl, rfl⟩ := Bool.and_eq_true_iff.1 hsb
    have hf := formatFile_true srt flags m f w w1 e1
    have hother : ∀ p, p ≠ f.path → w1.disk p = w.disk p := by
      intro p hp
      rcases hf with ⟨_, rfl⟩ | ⟨c, t, _, _, ⟨_, h1⟩ | ⟨_, _, h1⟩⟩
      · rfl
      · rw [h1]
      · rw [h1, Disk.set_other _ _ hp]
    have hne : ∀ g ∈ fs, g.path ≠ f.path := fun g hg e => hn.1 (List.mem_map.2 ⟨g, hg, e⟩)
    refine ⟨rfl, ?_, ?_⟩
    · intro g hg
      rcases List.mem_cons.1 hg with rfl | hg
      · rcases hf with ⟨hs, _⟩ | ⟨c, t, hd, hF, ⟨h1, _⟩ | ⟨h1, h2, _⟩⟩
        · exact .inl hs
        · exact .inr ⟨c, t, hd, hF, .inl h1⟩
        · exact .inr ⟨c, t, hd, hF, .inr ⟨h1, h2⟩⟩
      · exact good_congr (hother _ (hne g hg)) (hall g hg)
    · intro g hg hs
      rcases List.mem_cons.1 hg with rfl | hg
      · -- the later files have other paths
        have hlast : w'.disk g.path = w1.disk g.path := by
          obtain ⟨new, _, _, h3, h4⟩ := formatFiles_effect h srt flags m fs hn.2 (true && true) w1
          rw [e2] at h4
          rcases h4 g.path with h4 | ⟨t, hm, _⟩
          · exact h4
          · obtain ⟨_, k, hk, _, hkp, _⟩ := h3 _ t hm
            exact absurd hkp (hne k hk)
        rw [hlast]
        rcases hf with ⟨hs', _⟩ | ⟨c, t, hd, hF, ⟨h1, h2⟩ | ⟨h1, h2, h3⟩⟩
        · exact absurd hs' hs
        · refine ⟨c, t, hd, hF, ?_⟩
          rw [h2, hd, h1, ite_self]
        · refine ⟨c, t, hd, hF, ?_⟩
          rw [h3, Disk.set_same, if_pos h1]
      · obtain ⟨c, t, hd, hF, hx⟩ := hdisk g hg hs
        exact ⟨c, t, by rw [← hother _ (hne g hg)]; exact hd, hF, hx⟩

theorem formatFiles_good {h : Host} (hp : Prints h) (srt : SortSlice) (flags : FormatFlags) (m : Meta)
    (fs : List File.ProtoFile) (hn : (fs.map fun f => f.path).Nodup) (w : World)
    (g : ∀ f ∈ fs, Good h srt flags m w.disk f) :
    ∃ w', formatFiles h srt flags m fs true w = (w', .ok true) := by
  induction fs generalizing w with
  | nil => exact ⟨w, rfl⟩
  | cons f fs ih =>
    rw [List.map_cons, List.nodup_cons] at hn
    obtain ⟨w1, e1⟩ := formatFile_good hp srt flags m f w (g f (List.mem_cons_self ..))
    have hf := formatFile_true srt flags m f w w1 e1
    have hother : ∀ p, p ≠ f.path → w1.disk p = w.disk p := by
      intro p hp
      rcases hf with ⟨_, rfl⟩ | ⟨c, t, _, _, ⟨_, h1⟩ | ⟨_, _, h1⟩⟩
      · rfl
      · rw [h1]
      · rw [h1, Disk.set_other _ _ hp]
    obtain ⟨w', e2⟩ := ih hn.2 w1 fun k hk => good_congr
      (hother _ fun e => hn.1 (List.mem_map.2 ⟨k, hk, e⟩)).symm (g k (List.mem_cons_of_mem _ hk))
    exact ⟨w', by unfold formatFiles; rw [bind_of_ok e1]; exact e2⟩

/-! ## The files of the command -/

/-- The files `format` goes through. -/
def formatList (o : Order) (m : Meta) : List File.ProtoFile :=
  (dirsUnder o s%"format" m.protoSet).flatMap (·.2)

theorem mem_dirsUnder {o : Order} {site : Str} {ps : File.ProtoSet} {d : Str × List File.ProtoFile} :
    d ∈ dirsUnder o site ps ↔ d ∈ ps.dirPathToFiles ∧ ps.dirPath <+: d.1 := by
  unfold dirsUnder
  rw [List.mem_filter, (o.perm _ _).mem_iff]
  exact and_congr_right fun _ => List.isPrefixOf_iff_prefix

theorem mem_formatList {h : Host} {o : Order} {m : Meta} {f : File.ProtoFile} :
    (f ∈ formatList o m ∧ ¬Skips h m f) ↔ Concerns h m f := by
  unfold formatList Concerns Skips
  rw [List.mem_flatMap]
  refine and_congr ⟨?_, ?_⟩ ?_
  · rintro ⟨d, hd, hf⟩
    have := mem_dirsUnder.1 hd
    exact ⟨d.1, d.2, this.1, this.2, hf⟩
  · rintro ⟨dir, files, hd, hp, hf⟩
    exact ⟨(dir, files), mem_dirsUnder.2 ⟨hd, hp⟩, hf⟩
  · by_cases h1 : m.singleFilename = []
    · simp [h1]
    · simp [h1]

theorem nodup_formatList {o : Order} {m : Meta} (hd : Distinct m) :
    ((formatList o m).map fun f => f.path).Nodup := by
  unfold formatList dirsUnder
  have h1 : (((o.ord [s%"format"] m.protoSet.dirPathToFiles).flatMap fun d => d.2).map
      fun f => f.path).Nodup :=
    (((o.perm _ _).flatMap_right _).map _).nodup_iff.2 hd
  refine List.Sublist.nodup (List.Sublist.map _ ?_) h1
  generalize o.ord [s%"format"] m.protoSet.dirPathToFiles = l
  clear h1
  induction l with
  | nil => exact .slnil
  | cons a l ih =>
    rw [List.filter_cons]
    split
    · rw [List.flatMap_cons, List.flatMap_cons]
      exact List.Sublist.append (List.Sublist.refl _) ih
    · rw [List.flatMap_cons]
      exact ih.trans (List.sublist_append_right _ _)

/-- The last step of `format`. -/
theorem format_ok {h : Host} {o : Order} {srt : SortSlice} {flags : FormatFlags} {m : Meta} {w w' : World} :
    format h o srt flags m w = (w', .ok ()) ↔
      formatFiles h srt flags m (formatList o m) true w = (w', .ok true) := by
  unfold format
  rw [bind_ok]
  constructor
  · rintro ⟨w1, b, h1, h2⟩
    cases b
    · cases h2
    · cases h2
      exact h1
  · intro h1
    exact ⟨w', true, h1, rfl⟩

theorem format_world (h : Host) (o : Order) (srt : SortSlice) (flags : FormatFlags) (m : Meta) (w : World) :
    (format h o srt flags m w).1 = (formatFiles h srt flags m (formatList o m) true w).1 := by
  unfold format formatList Run.bind
  generalize formatFiles h srt flags m _ true w = r
  rcases r with ⟨w1, b | e | _⟩
  · cases b <;> rfl
  · rfl
  · rfl

end Verif.Exec
