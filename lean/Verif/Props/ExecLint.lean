import Verif.Proof.ExecLint
import Verif.Proof.Listing
import Verif.Spec.ExecSample
import Verif.Props.LintRun

/-!
# Properties C53, C62 and C64: what the lint command prints and how it ends
-/

namespace Verif.Props

open Verif Str Spec Exec

/-- C53: with two known groups the command ends well and prints, sorted and one per line, the
rules that are only in the first group marked with `<` and those only in the second marked with
`>`. The groups are written in any case. -/
theorem C53_diff (h : Exec.Host) (hp : Prints h) (env : Lint.Env) (srt : SortSlice) (args : List Str)
    (g₁ g₂ : Str) (hc₁ : ',' ∉ g₁) (hc₂ : ',' ∉ g₂) (h₁ : toLower g₁ ∈ docGroups)
    (h₂ : toLower g₂ ∈ docGroups) (w : World) :
    ∃ lines, lintCmd h env srt args { diffLintGroups := g₁ ++ s%"," ++ g₂ } w =
        ({ w with out := w.out ++ lines.flatMap (· ++ s%"\n") }, .ok ()) ∧
      StrictSorted lines ∧ ∀ s, s ∈ lines ↔
        (∃ id, s = s%"< " ++ id ∧ DocInGroup (toLower g₁) id ∧ ¬DocInGroup (toLower g₂) id) ∨
        (∃ id, s = s%"> " ++ id ∧ DocInGroup (toLower g₂) id ∧ ¬DocInGroup (toLower g₁) id) := by
  obtain ⟨one, e1, n1, m1⟩ := getLinterIDs_ok env h₁
  obtain ⟨two, e2, n2, m2⟩ := getLinterIDs_ok env h₂
  obtain ⟨hs, hm⟩ := diffMaps_spec env.order n1 n2
  refine ⟨diffMaps env.order one two, ?_, hs, fun s => by rw [hm]; simp only [m1, m2]⟩
  have hsplit : splitChar ',' (g₁ ++ s%"," ++ g₂) = [g₁, g₂] := by
    rw [List.append_assoc]
    show splitChar ',' (g₁ ++ ',' :: g₂) = _
    rw [splitChar_append ',' hc₁, splitChar_of_not_mem hc₂]
  have hne : g₁ ++ s%"," ++ g₂ ≠ [] := by simp
  have : lintCmd h env srt args { diffLintGroups := g₁ ++ s%"," ++ g₂ } =
      diffLintGroups h env (g₁ ++ s%"," ++ g₂) := by
    unfold lintCmd
    dsimp only
    rw [if_neg (by simp [moreThanOneSet, hne]), if_neg (by decide), if_pos hne]
  rw [this]
  unfold diffLintGroups
  rw [hsplit]
  dsimp only
  rw [bind_of_ok (e1 w), bind_of_ok (e2 w)]
  refine printAll_ok' hp (fun s hs' => ?_) w
  rcases (hm s).1 hs' with ⟨id, rfl, _⟩ | ⟨id, rfl, _⟩ <;> simp

/-- C53: an unknown group ends the command with exit code 255, naming the first one unknown, and
nothing is printed. -/
theorem C53_unknown (h : Exec.Host) (env : Lint.Env) (srt : SortSlice) (args : List Str)
    (g₁ g₂ : Str) (hc₁ : ',' ∉ g₁) (hc₂ : ',' ∉ g₂) (w : World) :
    (toLower g₁ ∉ docGroups →
      lintCmd h env srt args { diffLintGroups := g₁ ++ s%"," ++ g₂ } w =
        (w, .error (.exit 255 (s%"unknown lint group: " ++ toLower g₁)))) ∧
    (toLower g₁ ∈ docGroups → toLower g₂ ∉ docGroups →
      lintCmd h env srt args { diffLintGroups := g₁ ++ s%"," ++ g₂ } w =
        (w, .error (.exit 255 (s%"unknown lint group: " ++ toLower g₂)))) := by
  have hsplit : splitChar ',' (g₁ ++ s%"," ++ g₂) = [g₁, g₂] := by
    rw [List.append_assoc]
    show splitChar ',' (g₁ ++ ',' :: g₂) = _
    rw [splitChar_append ',' hc₁, splitChar_of_not_mem hc₂]
  have hne : g₁ ++ s%"," ++ g₂ ≠ [] := by simp
  have : lintCmd h env srt args { diffLintGroups := g₁ ++ s%"," ++ g₂ } =
      diffLintGroups h env (g₁ ++ s%"," ++ g₂) := by
    unfold lintCmd
    dsimp only
    rw [if_neg (by simp [moreThanOneSet, hne]), if_neg (by decide), if_pos hne]
  rw [this]
  unfold diffLintGroups
  rw [hsplit]
  dsimp only
  constructor
  · intro h1
    have : getLinterIDs env g₁ w = (w, .error (.exit 255 (s%"unknown lint group: " ++ toLower g₁))) := by
      unfold getLinterIDs Run.bind
      rw [lookupGroup_unknown env h1]
    unfold Run.bind
    rw [this]
  · intro h1 h2
    obtain ⟨one, e1, _, _⟩ := getLinterIDs_ok env h1
    have : getLinterIDs env g₂ w = (w, .error (.exit 255 (s%"unknown lint group: " ++ toLower g₂))) := by
      unfold getLinterIDs Run.bind
      rw [lookupGroup_unknown env h2]
    rw [bind_of_ok (e1 w)]
    unfold Run.bind
    rw [this]

/-- C53: anything else than two parts is refused. The message speaks of `.` instead of the comma
that is meant. -/
theorem C53_malformed (h : Exec.Host) (env : Lint.Env) (srt : SortSlice) (args : List Str)
    (groups : Str) (hne : groups ≠ []) (hc : groups.count ',' ≠ 1) (w : World) :
    ∃ e, lintCmd h env srt args { diffLintGroups := groups } w = (w, .error (.other e)) := by
  have : lintCmd h env srt args { diffLintGroups := groups } = diffLintGroups h env groups := by
    unfold lintCmd
    dsimp only
    rw [if_neg (by simp [moreThanOneSet, hne]), if_neg (by decide), if_pos hne]
  rw [this]
  unfold diffLintGroups
  have hj := join_splitChar ',' groups
  have hsep : ∀ x ∈ splitChar ',' groups, ',' ∉ x := fun x hx => splitChar_no_sep hx
  generalize splitChar ',' groups = l at hj hsep
  match l with
  | [a, b] =>
    have : groups = a ++ s%"," ++ b := by rw [← hj]; simp [join]
    refine absurd ?_ hc
    rw [this, List.count_append, List.count_append, List.count_eq_zero.2 (hsep a (by simp)),
      List.count_eq_zero.2 (hsep b (by simp))]
    rfl
  | [] => exact ⟨_, rfl⟩
  | [a] => exact ⟨_, rfl⟩
  | a :: b :: c :: d => exact ⟨_, rfl⟩

/-! ## Listing rules -/

/-- Printing a list of linters. -/
theorem printLinters_ok {h : Exec.Host} (hp : Prints h) (srt : SortSlice) (c : Settings.LintConfig)
    {env : Lint.Env} (ls : List Lint.Linter) (hl : ∀ l ∈ ls, l ∈ Lint.allLinters env)
    (hn : (ls.map (·.id)).Nodup) (w : World) :
    ∃ ids, printLinters h srt c ls w =
        ({ w with out := w.out ++ TabWriter.table (ids.map fun id => (id, described c id)) }, .ok ()) ∧
      StrictSorted ids ∧ ∀ id, id ∈ ids ↔ id ∈ ls.map (·.id) := by
  refine ⟨(srt.run (fun a b => Str.lt a.id b.id) ls).map (·.id), ?_, ?_, fun id => ?_⟩
  · unfold printLinters
    rw [write_of_prints hp, List.map_map]
    have : ∀ l ∈ srt.run (fun a b => Str.lt a.id b.id) ls, (l.id, l.purposeIn c) =
        (l.id, described c l.id) := fun l h => by
      rw [Lint.purposeIn_eq (hl l ((srt.perm _ ls).mem_iff.1 h))]
    rw [List.map_congr_left this]
    rfl
  · have h1 := srt.sorted (fun a b : Lint.Linter => Str.lt a.id b.id) ls (SWO.str.on fun a : Lint.Linter => a.id)
    have h2 : ((srt.run (fun a b : Lint.Linter => Str.lt a.id b.id) ls).map (·.id)).Nodup :=
      (((srt.perm _ ls).map _).nodup_iff).2 hn
    unfold StrictSorted
    unfold List.Nodup at h2
    rw [List.pairwise_map] at h2 ⊢
    refine (h1.and h2).imp ?_
    rintro a b ⟨x, y⟩
    rcases lt_trichotomy a.id b.id with h | h | h
    · exact h
    · exact absurd h y
    · rw [h] at x; cases x
  · exact ((srt.perm _ ls).map _).mem_iff

/-- C64: `--list-linters` prints, sorted by name, the rules that would run: those the
configuration asks for. -/
theorem C64_list_linters (h : Exec.Host) (hp : Prints h) (env : Lint.Env) (srt : SortSlice) (args : List Str)
    (m : Meta) (hm : Finds h args m) (hk : KnownNames m.protoSet.config.lint) (w : World) :
    ∃ ids, lintCmd h env srt args { listLinters := true } w =
        ({ w with out := w.out ++ TabWriter.table (ids.map fun id => (id, described m.protoSet.config.lint id)) },
          .ok ()) ∧
      StrictSorted ids ∧ ∀ id, id ∈ ids ↔ AsksRule m.protoSet.config.lint id := by
  obtain ⟨ls, hl⟩ := (C23_known_names env m.protoSet.config.lint).2 hk
  obtain ⟨ha, hn, hids⟩ := C23_linters env _ ls hl
  obtain ⟨ids, e, hs, hmem⟩ := printLinters_ok hp srt m.protoSet.config.lint ls ha hn w
  refine ⟨ids, ?_, hs, fun id => by rw [hmem, hids]⟩
  rw [← e]
  show Run.bind (getMeta h args) _ w = _
  rw [bind_of_ok (getMeta_ok.2 ⟨rfl, hm⟩)]
  show Run.bind (Run.lift (Lint.getLinters env m.protoSet.config.lint)) _ w = _
  rw [hl]
  rfl

/-- C64: `--list-all-linters` prints all the documented rules, sorted by name. -/
theorem C64_list_all_linters (h : Exec.Host) (hp : Prints h) (env : Lint.Env) (srt : SortSlice)
    (args : List Str) (m : Meta) (hm : Finds h args m) (w : World) :
    ∃ ids, lintCmd h env srt args { listAllLinters := true } w =
        ({ w with out := w.out ++ TabWriter.table (ids.map fun id => (id, described m.protoSet.config.lint id)) },
          .ok ()) ∧
      StrictSorted ids ∧ ∀ id, id ∈ ids ↔ DocRule id := by
  obtain ⟨ids, e, hs, hmem⟩ := printLinters_ok hp srt m.protoSet.config.lint (Lint.allLinters env)
    (fun _ h => h) (by rw [Lint.allLinters_ids]; decide +kernel) w
  refine ⟨ids, ?_, hs, fun id => by rw [hmem, Lint.allLinters_ids, Lint.mem_allIDs]⟩
  rw [← e]
  show Run.bind (getMeta h args) _ w = _
  rw [bind_of_ok (getMeta_ok.2 ⟨rfl, hm⟩)]
  rfl

/-- C64: `--list-lint-group` prints the documented rules of the group, sorted by name; an unknown
group is refused with exit code 255. -/
theorem C64_list_lint_group (h : Exec.Host) (hp : Prints h) (env : Lint.Env) (srt : SortSlice)
    (args : List Str) (m : Meta) (hm : Finds h args m) (g : Str) (hg : g ≠ []) (w : World) :
    (toLower g ∈ docGroups → ∃ ids, lintCmd h env srt args { listLintGroup := g } w =
        ({ w with out := w.out ++ TabWriter.table (ids.map fun id => (id, described m.protoSet.config.lint id)) },
          .ok ()) ∧
      StrictSorted ids ∧ ∀ id, id ∈ ids ↔ DocInGroup (toLower g) id) ∧
    (toLower g ∉ docGroups → lintCmd h env srt args { listLintGroup := g } w =
      (w, .error (.exit 255 (s%"unknown lint group: " ++ toLower g)))) := by
  have : lintCmd h env srt args { listLintGroup := g } w = listLintGroup h env srt m g w := by
    unfold lintCmd
    dsimp only
    rw [if_neg (by simp [moreThanOneSet, hg]), if_neg (by decide), if_neg (by simp),
      bind_of_ok (getMeta_ok.2 ⟨rfl, hm⟩), if_neg (by decide), if_neg (by decide), if_pos hg]
  rw [this]
  constructor
  · intro hk
    obtain ⟨ls, _, h1, h2, h3, h4⟩ := lookupGroup_ok env hk
    obtain ⟨ids, e, hs, hmem⟩ := printLinters_ok hp srt m.protoSet.config.lint ls h2 h3 w
    refine ⟨ids, ?_, hs, fun id => by rw [hmem, h4]⟩
    rw [← e]
    unfold listLintGroup
    rw [bind_of_ok (h1 w)]
  · intro hk
    unfold listLintGroup Run.bind
    rw [lookupGroup_unknown env hk]

/-- C64: `--list-all-lint-groups` prints the documented groups, sorted, one per line. -/
theorem C64_list_all_lint_groups (h : Exec.Host) (hp : Prints h) (env : Lint.Env) (srt : SortSlice)
    (args : List Str) (w : World) :
    lintCmd h env srt args { listAllLintGroups := true } w =
      ({ w with out := w.out ++ s%"empty\ngoogle\nuber1\nuber2\n" }, .ok ()) := by
  show printAll h (sortStrs (env.order.ord _ (GoMap.keys (Lint.groupToLinters env)))) w = _
  have : sortStrs (env.order.ord [s%"listAllLintGroups"] (GoMap.keys (Lint.groupToLinters env))) =
      [s%"empty", s%"google", s%"uber1", s%"uber2"] := by
    rw [sortStrs_eq_of_perm (env.order.perm _ _)]
    rfl
  rw [this, printAll_ok' hp (by simp)]
  rfl

/-! ## Linting -/

/-- The line of a failure is not empty in JSON and in the default format. It can be with another
format: with `id` the line of a failure that has none is empty. -/
theorem lineOf_ne_nil {h : Exec.Host} (hc : CanPrint h) (hd : h.json = true ∨ h.errorFormat = [])
    (f : Text.Failure) : lineOf h f ≠ [] := by
  obtain ⟨fields, hf⟩ := hc.1
  unfold lineOf
  by_cases hj : h.json = true
  · obtain ⟨t, ht⟩ := hc.2 hj f
    rw [if_pos hj, ht]
    simp
  · have he : h.errorFormat = [] := hd.resolve_left hj
    rw [if_neg hj, he]
    show (Text.fprintln f Text.defaultFailureFields).1 ≠ []
    rw [C17_line_shape f _ (fun x hx => known_of_parse (s := []) rfl x hx)]
    have hne : shownTexts f (selectedFields Text.defaultFailureFields) ≠ [] := by
      intro hx
      have := List.filter_eq_nil_iff.1 hx (shownField f Text.fieldFilename)
        (List.mem_map.2 ⟨Text.fieldFilename, by decide, rfl⟩)
      exact this (decide_eq_true (C17_never_zero f).2.2)
    rw [if_neg hne]
    simp

/-- C62: if the files compile and the lint run finds these failures, the command prints those
about the single file asked for, or all of them if it was given a directory, sorted, and ends with
exit code 255 if there were any. No file is changed. -/
theorem C62_lint (h : Exec.Host) (hp : Prints h) (hc : CanPrint h) (env : Lint.Env) (srt : SortSlice)
    (args : List Str) (m : Meta) (hm : Finds h args m) (w : World) (hcomp : Compiles h {} m w.disk)
    (failures : List Text.Failure)
    (hl : Lint.run env (lintHost h w.disk) m.protoSet false = some (.ok failures)) :
    lintCmd h env srt args {} w = ({ w with out := w.out ++ printed h m failures },
      if failures = [] then .ok () else .error (.exit 255 [])) := by
  obtain ⟨r, hcomp⟩ := hcomp
  show Run.bind (getMeta h args) _ w = _
  rw [bind_of_ok (getMeta_ok.2 ⟨rfl, hm⟩)]
  show Run.bind (compile h false false false m) (fun _ => lint h env m) w = _
  rw [bind_of_ok ((compile_ok (w' := w) hp).2 ⟨hc.1, hcomp, rfl⟩)]
  unfold lint
  rw [hl]
  show Run.bind (printFailures h [] m failures) _ w = _
  rw [bind_of_ok (printFailures_ok hp hc m failures w)]
  cases failures with
  | nil => rfl
  | cons f fs =>
    rw [if_pos (by simp), if_neg (by simp)]
    rfl

/-- C62: if a failure that is to be printed cannot be, the command ends with that error and not
as if there were no such failure. -/
theorem C62_unprintable (h : Exec.Host) (hp : Prints h) (hfmt : ErrorFormatKnown h) (env : Lint.Env)
    (srt : SortSlice) (args : List Str) (m : Meta) (hm : Finds h args m) (w : World)
    (hcomp : Compiles h {} m w.disk) (failures : List Text.Failure)
    (hl : Lint.run env (lintHost h w.disk) m.protoSet false = some (.ok failures))
    (hj : h.json = true) (f : Text.Failure) (hf : f ∈ failures) (hs : Shown h m f) (e : Err)
    (he : h.toJSON f = .error e) :
    ∃ g e', g ∈ failures ∧ Shown h m g ∧ h.toJSON g = .error e' ∧
      (lintCmd h env srt args {} w).2 = .error (.other e') := by
  obtain ⟨r, hcomp⟩ := hcomp
  obtain ⟨fields, hfields⟩ := hfmt
  have hloop : ∀ (fs : List Text.Failure) out, f ∈ fs → ∃ g e' out', g ∈ fs ∧ Shown h m g ∧
      h.toJSON g = .error e' ∧ failureLines h (some m) fields fs out = (out', some e') := by
    intro fs
    induction fs with
    | nil => intro _ hx; cases hx
    | cons x xs ih =>
      intro out hx
      have next : ∀ out, f ∈ xs → ∃ g e' out', g ∈ x :: xs ∧ Shown h m g ∧ h.toJSON g = .error e' ∧
          failureLines h (some m) fields xs out = (out', some e') := fun out hx => by
        obtain ⟨g, e', out', h1, h2⟩ := ih out hx
        exact ⟨g, e', out', List.mem_cons_of_mem _ h1, h2⟩
      unfold failureLines
      by_cases hsx : Shown h m x
      · rw [if_pos ((shouldPrint_eq h m x).trans (decide_eq_true hsx))]
        unfold failureLine
        rw [if_pos hj]
        cases hjx : h.toJSON x with
        | error e' => exact ⟨x, e', out, List.mem_cons_self, hsx, hjx, rfl⟩
        | ok d =>
          rcases List.mem_cons.1 hx with rfl | hx
          · rw [he] at hjx; cases hjx
          · exact next _ hx
      · rw [if_neg (fun hx => hsx (of_decide_eq_true ((shouldPrint_eq h m x).symm.trans hx)))]
        rcases List.mem_cons.1 hx with rfl | hx
        · exact absurd hs hsx
        · exact next _ hx
  obtain ⟨g, e', out, h1, h2, h3, h4⟩ := hloop (Text.sortFailures failures) [] (by
    unfold Text.sortFailures
    exact mem_sortBy.2 hf)
  refine ⟨g, e', by unfold Text.sortFailures at h1; exact mem_sortBy.1 h1, h2, h3, ?_⟩
  show (Run.bind (getMeta h args) _ w).2 = _
  rw [bind_of_ok (getMeta_ok.2 ⟨rfl, hm⟩)]
  show (Run.bind (compile h false false false m) (fun _ => lint h env m) w).2 = _
  rw [bind_of_ok ((compile_ok (w' := w) hp).2 ⟨⟨fields, hfields⟩, hcomp, rfl⟩)]
  unfold lint
  rw [hl]
  show (Run.bind (printFailures h [] m failures) _ w).2 = _
  unfold printFailures printFailuresFor Run.bind
  rw [hfields]
  dsimp only
  rw [if_pos rfl, h4]

/-- C26: `lint --generate-ignores` compiles the files and prints the configuration as YAML without
space around it and with a line break at its end, or nothing if there is nothing to ignore. -/
theorem C26_printed (h : Exec.Host) (hp : Prints h) (hc : ErrorFormatKnown h) (env : Lint.Env)
    (srt : SortSlice) (args : List Str) (m : Meta) (hm : Finds h args m) (w : World)
    (hcomp : Compiles h {} m w.disk) (r : Option Settings.ExternalConfig)
    (hg : Lint.generateIgnores env (lintHost h w.disk) m.protoSet = some (.ok r)) :
    (r = none → lintCmd h env srt args { generateIgnores := true } w = (w, .ok ())) ∧
    ∀ c data, r = some c → h.toYAML c = .ok data → trimSpace data ≠ [] →
      lintCmd h env srt args { generateIgnores := true } w =
        ({ w with out := w.out ++ trimSpace data ++ s%"\n" }, .ok ()) := by
  obtain ⟨s, hcomp⟩ := hcomp
  have hstart : lintCmd h env srt args { generateIgnores := true } w = generateIgnores h env m w := by
    show Run.bind (getMeta h args) _ w = _
    rw [bind_of_ok (getMeta_ok.2 ⟨rfl, hm⟩)]
    show Run.bind (compile h false false false m) (fun _ => generateIgnores h env m) w = _
    rw [bind_of_ok ((compile_ok (w' := w) hp).2 ⟨hc, hcomp, rfl⟩)]
  rw [hstart]
  unfold generateIgnores
  rw [hg]
  refine ⟨?_, ?_⟩
  · rintro rfl
    rfl
  · rintro c data rfl hy hne
    show Run.bind (Run.lift (h.toYAML c)) _ w = _
    rw [hy]
    show println h (trimSpace data) w = _
    unfold println write
    rw [if_neg hne, hp]
    simp only [List.append_assoc]

/-- C62, for a directory and the default error format or JSON: the exit code is 255 exactly if something was printed. For a single file
this is false, `C62_not_single`. -/
theorem C62_exit_partial (h : Exec.Host) (hp : Prints h) (hc : CanPrint h) (env : Lint.Env)
    (srt : SortSlice) (args : List Str) (m : Meta) (hm : Finds h args m) (hdir : m.singleFilename = [])
    (w : World) (hcomp : Compiles h {} m w.disk) (failures : List Text.Failure)
    (hl : Lint.run env (lintHost h w.disk) m.protoSet false = some (.ok failures))
    (hd : h.json = true ∨ h.errorFormat = []) :
    ((lintCmd h env srt args {} w).2 = .error (.exit 255 []) ↔
        (lintCmd h env srt args {} w).1.out ≠ w.out) ∧
      ((lintCmd h env srt args {} w).2 = .ok () ↔ (lintCmd h env srt args {} w).1.out = w.out) := by
  rw [C62_lint h hp hc env srt args m hm w hcomp failures hl]
  have key : printed h m failures = [] ↔ failures = [] := by
    unfold printed
    rw [List.flatMap_eq_nil_iff]
    constructor
    · intro hx
      cases failures with
      | nil => rfl
      | cons f fs =>
        have hmem : f ∈ Text.sortFailures (f :: fs) := by
          unfold Text.sortFailures
          exact mem_sortBy.2 (by simp)
        exact absurd (hx f (List.mem_filter.2 ⟨hmem, decide_eq_true (.inl hdir)⟩)) (lineOf_ne_nil hc hd f)
    · rintro rfl
      intro f hf
      cases hf
  by_cases hf : failures = []
  · rw [key.2 hf]
    simp [hf]
  · simp [hf, mt key.1 hf]

section Single

/-- Two files, the first of which declares the wrong syntax. -/
def singleSet : File.ProtoSet where
  workDirPath := s%"/w"
  dirPath := s%"/w/a"
  dirPathToFiles := [
    (s%"/w/a", [⟨s%"/w/a/one.proto", s%"a/one.proto"⟩, ⟨s%"/w/a/two.proto", s%"a/two.proto"⟩])]
  config := { Spec.Sample.config with
    lint := { group := s%"empty", noDefault := false, includeIDs := [s%"SYNTAX_PROTO3"], excludeIDs := [],
              ignoreIDToFilePaths := [], fileHeader := [], javaPackagePrefix := [],
              allowSuppression := false } }

/-- The host for these files. -/
def singleHost : Exec.Host :=
  { Exec.Sample.host with
    getForDir := fun _ _ => .ok singleSet
    parse := fun p c => .ok [.syntax { position := ⟨p, 1, 1⟩, value := c }] }

/-- Their contents. -/
def singleWorld : World :=
  ⟨fun p => if p = s%"/w/a/one.proto" then some s%"proto2" else some s%"proto3", [], []⟩

/-- Linting the directory prints the failure. -/
example : (lintCmd singleHost sampleEnv .stable [s%"a"] {} singleWorld).1.out =
      s%"a/one.proto:1:1:Syntax should be proto3 but was \"proto2\".\n" ∧
    (lintCmd singleHost sampleEnv .stable [s%"a"] {} singleWorld).2 = .error (.exit 255 []) := by
  decide +kernel

/-- If it cannot be encoded the command ends with that error. -/
example : (lintCmd { singleHost with json := true, toJSON := fun _ => .error s%"no JSON" } sampleEnv .stable
    [s%"a"] {} singleWorld).2 = .error (.other s%"no JSON") := by
  decide +kernel

/-- The configuration to ignore the failure is printed with one line break at its end. -/
example : (lintCmd { singleHost with toYAML := fun _ => .ok s%"lint:\n  ignores:\n\n" } sampleEnv .stable
      [s%"a"] { generateIgnores := true } singleWorld).1.out = s%"lint:\n  ignores:\n" ∧
    (lintCmd singleHost sampleEnv .stable [s%"a"] { generateIgnores := true }
      ⟨fun _ => some s%"proto3", [], []⟩).1.out = [] := by
  decide +kernel

/-- C62 is false of a single file: linting a file without failures prints nothing but ends with
exit code 255 if another file of the directory has failures. -/
theorem C62_not_single : ∃ (h : Exec.Host) (env : Lint.Env) (srt : SortSlice) (file : Str) (w : World),
    Prints h ∧ CanPrint h ∧
      lintCmd h env srt [file] {} w = (w, .error (.exit 255 [])) := by
  refine ⟨singleHost, sampleEnv, .stable, s%"a/two.proto", singleWorld, fun _ _ => rfl,
    ⟨⟨_, rfl⟩, fun x => nomatch x⟩, ?_⟩
  have hd := quiet_lintCmd singleHost sampleEnv .stable [s%"a/two.proto"] {} singleWorld
  have ho : (lintCmd singleHost sampleEnv .stable [s%"a/two.proto"] {} singleWorld).1.out = [] ∧
      (lintCmd singleHost sampleEnv .stable [s%"a/two.proto"] {} singleWorld).2 = .error (.exit 255 []) := by
    decide +kernel
  generalize lintCmd singleHost sampleEnv .stable [s%"a/two.proto"] {} singleWorld = r at hd ho
  obtain ⟨⟨d, o, ws⟩, e⟩ := r
  obtain ⟨rfl, rfl⟩ := hd
  obtain ⟨rfl, rfl⟩ := ho
  rfl

end Single

/-! ## Examples that meet the hypotheses -/

section Example

open Exec.Sample

example : toLower s%"Uber2" ∈ docGroups ∧ toLower s%"google" ∈ docGroups := by decide +kernel

/-- `uber1` has rules that `google` does not have. -/
example : ((lintCmd host sampleEnv .stable [] { diffLintGroups := s%"GOOGLE,uber1" } world).1.out.take 45) =
    s%"> COMMENTS_NO_C_STYLE\n> ENUMS_NO_ALLOW_ALIAS\n" := by decide +kernel

example : (lintCmd host sampleEnv .stable [] { diffLintGroups := s%"google,uber3" } world).2 =
    .error (.exit 255 s%"unknown lint group: uber3") := by decide +kernel

example : s%"google.uber2".count ',' ≠ 1 := by decide

example : KnownNames dir.protoSet.config.lint := by
  refine ⟨fun g hg => ?_, fun _ h => (nomatch h), fun _ h => (nomatch h), fun _ h => (nomatch h)⟩
  cases hg <;> first | decide | contradiction

example : (lintCmd host sampleEnv .stable [s%"a"] { listLintGroup := s%"google" } world).2 = .ok () := by
  decide +kernel

end Example

end Verif.Props
