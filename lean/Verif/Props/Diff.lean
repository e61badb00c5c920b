import Verif.Spec.Diff

/-!
# C83: the differences that format prints
-/

namespace Verif.Props

open Verif Str Diff Spec

/-! ## The files -/

theorem remove_set {disk : Disk} {file : Str} (h : disk file = none) (content : Str) :
    removeFile (setFile disk file content) file = disk := by
  funext p
  unfold removeFile setFile
  by_cases e : p = file
  · rw [if_pos e, e, h]
  · rw [if_neg e, if_neg e]

theorem writeTempFile_cases {s : System} (hs : FreshFiles s) (disk : Disk) (data : Str) :
    (∃ e, writeTempFile s disk data = (disk, .error e)) ∨
      ∃ file content, disk file = none ∧ s.tempFile disk = .ok file ∧
        (s.write file data).1 = content ∧
        writeTempFile s disk data = (setFile disk file content, .ok file) := by
  unfold writeTempFile
  cases ht : s.tempFile disk with
  | error e => exact .inl ⟨e, rfl⟩
  | ok file =>
    have hf := hs disk file ht
    dsimp only
    cases hw : (s.write file data).2.or (s.close file) with
    | some e =>
      left
      exact ⟨e, by dsimp only; rw [remove_set hf]⟩
    | none => exact .inr ⟨file, _, hf, rfl, rfl, rfl⟩

/-- C83: however it ends, comparing leaves every file as it was and no file behind. -/
theorem C83_no_files_left (s : System) (hs : FreshFiles s) (input output filename : Str) (disk : Disk) :
    (Diff.run s input output filename disk).1 = disk := by
  unfold Diff.run
  rcases writeTempFile_cases hs disk input with ⟨e, h1⟩ | ⟨f1, c1, h1, _, _, h2⟩
  · rw [h1]
  · rw [h2]
    dsimp only
    rcases writeTempFile_cases hs (setFile disk f1 c1) output with ⟨e, h3⟩ | ⟨f2, c2, h3, _, _, h4⟩
    · rw [h3]
      exact remove_set h1 c1
    · rw [h4]
      dsimp only
      rw [remove_set h3, remove_set h1]

/-! ## The text -/

theorem cutLine_some {s a b : Str} : cutLine s = some (a, b) ↔ s = a ++ '\n' :: b ∧ '\n' ∉ a := by
  induction s generalizing a with
  | nil => simp [cutLine]
  | cons c s ih =>
    rw [cutLine]
    split
    · rename_i e
      subst e
      constructor
      · intro h
        injection h with h
        injection h with h1 h2
        subst h1 h2
        exact ⟨rfl, by simp⟩
      · rintro ⟨h, hn⟩
        cases a with
        | nil => injection h with _ h; rw [h]
        | cons x a =>
          injection h with h _
          exact absurd (by rw [h]; simp) hn
    · rename_i e
      rw [Option.map_eq_some_iff]
      constructor
      · rintro ⟨⟨a', b'⟩, h, h'⟩
        injection h' with h1 h2
        subst h1 h2
        obtain ⟨h1, h2⟩ := ih.1 h
        refine ⟨by rw [h1]; rfl, ?_⟩
        rw [List.mem_cons]
        rintro (h | h)
        · exact e h.symm
        · exact h2 h
      · rintro ⟨h, hn⟩
        cases a with
        | nil => injection h with h _; exact absurd h e
        | cons x a =>
          injection h with h1 h2
          subst h1
          exact ⟨(a, b), ih.2 ⟨h2, fun hx => hn (by simp [hx])⟩, rfl⟩

theorem cutLine_none {s : Str} : cutLine s = none ↔ '\n' ∉ s := by
  induction s with
  | nil => simp [cutLine]
  | cons c s ih =>
    rw [cutLine]
    split
    · rename_i e
      simp [e]
    · rename_i e
      rw [Option.map_eq_none_iff, ih, List.mem_cons, not_or]
      exact ⟨fun h => ⟨fun x => e x.symm, h⟩, fun h => h.2⟩

theorem mem_takeWhile_ne {c x : Char} {l : Str} (h : x ∈ l.takeWhile (· ≠ c)) : x ≠ c := by
  induction l with
  | nil => cases h
  | cons y l ih =>
    rw [List.takeWhile_cons] at h
    split at h
    · rename_i hy
      rcases List.mem_cons.1 h with rfl | h
      · simpa using hy
      · exact ih h
    · cases h

theorem heading_timestamp {line : Str} (h : '\n' ∉ line) :
    ∃ name, Heading line name (timestamp line) := by
  have hsplit : line.reverse.takeWhile (· ≠ '\t') ++ line.reverse.dropWhile (· ≠ '\t') = line.reverse :=
    List.takeWhile_append_dropWhile
  have hrev := congrArg List.reverse hsplit
  rw [List.reverse_append, List.reverse_reverse] at hrev
  unfold timestamp
  cases hd : line.reverse.dropWhile (· ≠ '\t') with
  | nil =>
    refine ⟨line, by simp, h, .inl ⟨rfl, ?_⟩⟩
    rw [hd] at hrev
    rw [← hrev]
    simp only [List.reverse_nil, List.nil_append, List.mem_reverse]
    exact fun hx => mem_takeWhile_ne hx rfl
  | cons x r =>
    have hx : x = '\t' := by
      have : ∀ (l : Str) x r, l.dropWhile (· ≠ '\t') = x :: r → x = '\t' := by
        intro l
        induction l with
        | nil => intro x r h; cases h
        | cons y l ih =>
          intro x r h
          rw [List.dropWhile_cons] at h
          split at h
          · exact ih x r h
          · rename_i hy
            injection h with h _
            rw [← h]
            simpa using hy
      exact this _ x r hd
    subst hx
    refine ⟨r.reverse, ?_, h, .inr ⟨_, rfl, ?_⟩⟩
    · rw [hd] at hrev
      conv => lhs; rw [← hrev]
      simp
    · rw [List.mem_reverse]
      exact fun hx => mem_takeWhile_ne hx rfl

/-- C83: of a difference with two lines at least, only the names in the first two are replaced. -/
theorem C83_renamed (diff filename text : Str)
    (h : replaceTempFilename diff filename = .ok text) : Renamed filename diff text := by
  unfold replaceTempFilename at h
  cases h0 : cutLine diff with
  | none => rw [h0] at h; cases h
  | some p =>
    obtain ⟨line0, rest0⟩ := p
    rw [h0] at h
    dsimp only at h
    cases h1 : cutLine rest0 with
    | none => rw [h1] at h; cases h
    | some p =>
      obtain ⟨line1, rest⟩ := p
      rw [h1] at h
      injection h with h
      obtain ⟨e0, n0⟩ := cutLine_some.1 h0
      obtain ⟨e1, n1⟩ := cutLine_some.1 h1
      obtain ⟨name0, g0⟩ := heading_timestamp n0
      obtain ⟨name1, g1⟩ := heading_timestamp n1
      refine ⟨line0, name0, _, line1, name1, _, rest, ?_, g0, g1, ?_⟩
      · rw [e0, e1]; simp
      · rw [← h]; simp

/-- C83: two line breaks are enough for that, and less is an error. -/
theorem C83_unexpected (diff filename : Str) :
    (∃ e, replaceTempFilename diff filename = .error e) ↔ diff.count '\n' < 2 := by
  have hcount : ∀ {a b : Str}, '\n' ∉ a → (a ++ '\n' :: b).count '\n' = b.count '\n' + 1 := by
    intro a b ha
    rw [List.count_append, List.count_eq_zero.2 ha]
    simp
  unfold replaceTempFilename
  cases h0 : cutLine diff with
  | none =>
    have := List.count_eq_zero.2 (cutLine_none.1 h0)
    exact ⟨fun _ => by omega, fun _ => ⟨_, rfl⟩⟩
  | some p =>
    obtain ⟨line0, rest0⟩ := p
    obtain ⟨e0, n0⟩ := cutLine_some.1 h0
    rw [e0, hcount n0]
    dsimp only
    cases h1 : cutLine rest0 with
    | none =>
      have := List.count_eq_zero.2 (cutLine_none.1 h1)
      exact ⟨fun _ => by omega, fun _ => ⟨_, rfl⟩⟩
    | some p =>
      obtain ⟨line1, rest⟩ := p
      obtain ⟨e1, n1⟩ := cutLine_some.1 h1
      rw [e1, hcount n1]
      refine ⟨fun ⟨e, he⟩ => (by cases he), fun h => ?_⟩
      omega

/-- C83: `diff -u` compares two new files that hold the text before and the text after. What it
prints is returned with the names replaced, or is an error if it has less than two lines. If it
prints nothing, nothing is returned, or its error. -/
theorem C83_compares (s : System) (hs : FreshFiles s) (hw : WritesFiles s)
    (input output filename : Str) (disk : Disk) :
    ∃ f1 f2, f1 ≠ f2 ∧ disk f1 = none ∧ disk f2 = none ∧
      ∀ out err, s.run [s%"diff", s%"-u", f1, f2] (withTemps disk f1 f2 input output) = (out, err) →
        (out = [] → err = none → (Diff.run s input output filename disk).2 = .ok []) ∧
        (∀ e, out = [] → err = some e → (Diff.run s input output filename disk).2 = .error e) ∧
        (out ≠ [] → out.count '\n' < 2 → ∃ e, (Diff.run s input output filename disk).2 = .error e) ∧
        (2 ≤ out.count '\n' → ∃ text, (Diff.run s input output filename disk).2 = .ok text ∧
          Renamed filename out text) := by
  obtain ⟨htemp, hwrite⟩ := hw
  have hfile : ∀ d data, ∃ file, d file = none ∧
      writeTempFile s d data = (setFile d file data, .ok file) := by
    intro d data
    obtain ⟨file, hf⟩ := htemp d
    refine ⟨file, hs d file hf, ?_⟩
    unfold writeTempFile
    rw [hf]
    dsimp only
    rw [(hwrite file data).1, (hwrite file data).2]
    rfl
  obtain ⟨f1, n1, e1⟩ := hfile disk input
  obtain ⟨f2, n2, e2⟩ := hfile (setFile disk f1 input) output
  have hne : f1 ≠ f2 := by
    rintro rfl
    simp [setFile] at n2
  refine ⟨f1, f2, hne, n1, ?_, ?_⟩
  · unfold setFile at n2
    rw [if_neg hne.symm] at n2
    exact n2
  · intro out err hrun
    have hr : (Diff.run s input output filename disk).2 =
        (fun p : Str × Option Err => if p.1.length > 0 then replaceTempFilename p.1 filename
          else match p.2 with
            | some e => .error e
            | none => .ok []) (s.run [s%"diff", s%"-u", f1, f2] (withTemps disk f1 f2 input output)) := by
      unfold Diff.run
      rw [e1]
      dsimp only
      rw [e2]
      dsimp only
      rw [show setFile (setFile disk f1 input) f2 output = withTemps disk f1 f2 input output from rfl]
      rfl
    rw [hrun] at hr
    dsimp only at hr
    rw [hr]
    refine ⟨?_, ?_, ?_, ?_⟩
    · rintro rfl rfl; rfl
    · rintro e rfl rfl; rfl
    · intro hne hc
      rw [if_pos (List.length_pos_iff.2 hne)]
      exact (C83_unexpected out filename).2 hc
    · intro hc
      have hpos : out.length > 0 := by
        have := List.count_le_length (a := '\n') (l := out)
        omega
      rw [if_pos hpos]
      cases hx : replaceTempFilename out filename with
      | error e =>
        have := (C83_unexpected out filename).1 ⟨e, hx⟩
        omega
      | ok text => exact ⟨text, rfl, C83_renamed _ _ _ hx⟩

/-! ## These theorems are about something -/

/-- A system whose `diff` says that the second file has one more line. -/
def sampleSystem : System where
  tempFile disk := .ok (if disk s%"/tmp/1" = none then s%"/tmp/1" else s%"/tmp/2")
  write _ data := (data, none)
  close _ := none
  run args disk :=
    match args with
    | [_, _, f1, f2] =>
      if disk f1 = disk f2 then ([], none)
      else (s%"--- " ++ f1 ++ s%"\t2017-02-03\n+++ " ++ f2 ++ s%"\t2017-02-04\n@@ -1 +1 @@\n-a\n+\tb\n", some s%"exit status 1")
    | _ => ([], some s%"usage")

example : (Diff.run sampleSystem s%"a\n" s%"\tb\n" s%"x/y.proto" fun _ => none).2 =
    .ok s%"--- x/y.proto.orig\t2017-02-03\n+++ x/y.proto\t2017-02-04\n@@ -1 +1 @@\n-a\n+\tb\n" := by rfl

example : (Diff.run sampleSystem s%"a\n" s%"a\n" s%"x/y.proto" fun _ => none).2 = .ok [] := by rfl

/-- Without output the error of the program is returned. -/
example : (Diff.run { sampleSystem with run := fun _ _ => ([], some s%"not found") } s%"a" s%"b"
    s%"x/y.proto" fun _ => none).2 = .error s%"not found" := by rfl

end Verif.Props
