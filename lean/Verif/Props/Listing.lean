import Verif.Proof.FormatTwice
import Verif.Proof.Listing
import Verif.Props.CmdLine
import Verif.Props.LintSuppress

/-!
# C108: the listings of lint rules can be read back, and say what is true of each rule
-/

namespace Verif.Props

open Verif Exec Cmd Spec TabWriter Proof.Listing

/-- C108: a reader of a table gets its rows back: no name and no text is cut, joined to another or
lost, whatever the lengths. -/
theorem C108_reads (rows : List (Str × Str)) (h1 : ∀ row ∈ rows, PlainCell row.1)
    (h2 : ∀ row ∈ rows, row.2.head? ≠ some ' ' ∧ '\n' ∉ row.2) :
    readListing (table rows) = rows := readListing_table rows h1 h2

example : readListing (table [(s%"A", s%"one"), (s%"LONG NAME", []), (s%"BC", s%"two  words ")]) =
    [(s%"A", s%"one"), (s%"LONG NAME", []), (s%"BC", s%"two  words ")] := by decide +kernel

/-- C108: the second column begins at the same place in every line, two blanks after the longest
name. -/
theorem C108_aligned (rows : List (Str × Str)) : ∃ n,
    (∀ row ∈ rows, row.1.length + 2 ≤ n) ∧ (rows ≠ [] → ∃ row ∈ rows, row.1.length + 2 = n) ∧
    table rows = rows.flatMap fun row => row.1 ++ List.replicate (n - row.1.length) ' ' ++ row.2 ++ s%"\n" := by
  refine ⟨width rows, fun row h => width_le h, fun h => ?_, rfl⟩
  unfold width
  induction rows with
  | nil => exact absurd rfl h
  | cons x y ih =>
    by_cases hy : y = []
    · subst hy
      exact ⟨x, by simp, by simp⟩
    · obtain ⟨row, hr, e⟩ := ih hy
      simp only [List.map_cons, List.foldr_cons]
      rcases Nat.le_total x.1.length ((y.map (·.1.length)).foldr max 0) with hl | hl
      · exact ⟨row, List.mem_cons_of_mem _ hr, by rw [Nat.max_eq_right hl]; exact e⟩
      · exact ⟨x, by simp, by rw [Nat.max_eq_left hl]⟩

/-- C108: every documented rule has a description of its own: one sentence or more that a reader of a
listing can tell from the name, and that no other rule has. -/
theorem C108_purposes (config : Settings.LintConfig) :
    (∀ id, DocRule id → PlainCell id ∧ described config id ≠ [] ∧
      (described config id).head? ≠ some ' ' ∧ '\n' ∉ described config id) ∧
    ∀ id id', DocRule id → DocRule id' → described config id = described config id' → id = id' := by
  have hd : ∀ id, DocRule id ↔ id ∈ Lint.allIDs := fun id => Lint.mem_allIDs.symm
  unfold described
  simp only [hd]
  cases config.allowSuppression
  · constructor
    · unfold PlainCell
      decide +kernel
    · have : (Lint.allIDs.map (describedWith false)).Nodup := by decide +kernel
      exact fun id id' h h' he => Format.inj_of_nodup this h h' he
  · constructor
    · unfold PlainCell
      decide +kernel
    · have : (Lint.allIDs.map (describedWith true)).Nodup := by decide +kernel
      exact fun id id' h h' he => Format.inj_of_nodup this h h' he

/-- What a list of documented rules looks like as a table. -/
theorem reads_rules (config : Settings.LintConfig) (ids : List Str) (h : ∀ id ∈ ids, DocRule id) :
    readListing (table (ids.map fun id => (id, described config id))) =
      ids.map fun id => (id, described config id) := by
  obtain ⟨hp, _⟩ := C108_purposes config
  refine readListing_table _ (fun row hr => ?_) fun row hr => ?_
  all_goals
    obtain ⟨id, hid, rfl⟩ := List.mem_map.1 hr
    obtain ⟨a, _, b, c⟩ := hp id (h id hid)
  · exact a
  · exact ⟨b, c⟩

/-- C108: what a listing says about annotations is true. A rule whose description has the hint at an
annotation drops what it finds exactly where the comment has that annotation, and a rule whose description
has no hint drops nothing. -/
theorem C108_hints (env : Lint.Env) (l : Lint.Linter) (hl : l ∈ Lint.allLinters env) (c : Settings.Config) :
    (∃ word, described c.lint l.id = suppressHint word ++ rulePurpose l.id ∧
      ∀ comment failure, l.report (.add (some c) comment failure) = none ↔
        ∃ text, comment = some text ∧ ∃ line ∈ text.lines, s%"@suppresswarnings " ++ word <:+: line) ∨
    (described c.lint l.id = rulePurpose l.id ∧
      ∀ comment failure, l.report (.add (some c) comment failure) ≠ none) := by
  obtain ⟨h0, _, h2⟩ := Lint.texts_of_mem hl
  have h3 := Lint.annotation_ne _ h0
  unfold described describedWith
  cases h : ruleAnnotations.lookup l.id with
  | none =>
    refine .inr ⟨rfl, fun comment failure hn => ?_⟩
    rw [h] at h2
    exact ((C28_dropped ..).1 hn).1 h2
  | some word =>
    rw [h] at h2 h3
    have hw : l.suppressableAnnotation ≠ [] := fun e => h3 (by rw [← e, h2]; rfl)
    cases hc : c.lint.allowSuppression with
    | false =>
      refine .inr ⟨rfl, fun comment failure hn => ?_⟩
      obtain ⟨_, c', e, hs, _⟩ := (C28_dropped ..).1 hn
      cases e
      rw [hc] at hs
      cases hs
    | true =>
      refine .inl ⟨word, rfl, fun comment failure => ?_⟩
      rw [C28_dropped]
      have e : l.suppressableAnnotation = word := h2
      constructor
      · rintro ⟨_, c', e', _, hs⟩
        rw [← e]
        exact hs
      · intro hs
        exact ⟨hw, c, rfl, hc, by rw [e]; exact hs⟩

/-- Nothing else looks like a hint. -/
example : (Lint.allIDs.filter fun id => (s%"Suppressable").isPrefixOf (describedWith true id)) =
    [s%"MESSAGE_FIELDS_NOT_FLOATS", s%"NAMES_NO_COMMON", s%"NAMES_NO_DATA", s%"NAMES_NO_UUID",
     s%"PACKAGE_NO_KEYWORDS", s%"RPC_OPTIONS_NO_GOOGLE_API_HTTP", s%"SERVICE_NAMES_NO_PLURALS"] := by
  decide +kernel

section Commands

variable {s : System} {devel : Bool} {args : List Str} {values : List (Str × Value)} {r : Runner}
  {h : Exec.Host}

/-- C108: the three listings of rules, as a reader gets them: each rule with its description, in
increasing order of the names; all the rules the configuration asks for, all there are, or all of a
group. -/
theorem C108_lists (usage : Usage) (i : Invoked s devel .lint args values r h) (hp : Prints h)
    (m : Meta) (hm : Finds h args m) (w : World) :
    (lintOf values = { listLinters := true } → KnownNames m.protoSet.config.lint →
      ∃ ids text, run s usage devel (.line .lint args values) w = ({ w with out := w.out ++ text }, .code 0) ∧
        readListing text = ids.map (fun id => (id, described m.protoSet.config.lint id)) ∧
        StrictSorted ids ∧ ∀ id, id ∈ ids ↔ AsksRule m.protoSet.config.lint id) ∧
    (lintOf values = { listAllLinters := true } →
      ∃ ids text, run s usage devel (.line .lint args values) w = ({ w with out := w.out ++ text }, .code 0) ∧
        readListing text = ids.map (fun id => (id, described m.protoSet.config.lint id)) ∧
        StrictSorted ids ∧ ∀ id, id ∈ ids ↔ DocRule id) ∧
    (∀ g ∈ docGroups, lintOf values = { listLintGroup := g } →
      ∃ ids text, run s usage devel (.line .lint args values) w = ({ w with out := w.out ++ text }, .code 0) ∧
        readListing text = ids.map (fun id => (id, described m.protoSet.config.lint id)) ∧
        StrictSorted ids ∧ ∀ id, id ∈ ids ↔ DocInGroup g id) := by
  obtain ⟨h1, h2, h3, _⟩ := C95_lint_lists usage i hp m hm w
  refine ⟨fun hf hk => ?_, fun hf => ?_, fun g hg hf => ?_⟩
  · obtain ⟨ids, e, hs, hmem⟩ := h1 hf hk
    refine ⟨ids, _, e, reads_rules _ _ fun id hid => ?_, hs, hmem⟩
    obtain ⟨ls, hl⟩ := (C23_known_names s.lint m.protoSet.config.lint).2 hk
    obtain ⟨ha, _, hids⟩ := C23_linters s.lint _ ls hl
    obtain ⟨l, hl', rfl⟩ := List.mem_map.1 ((hids id).2 ((hmem id).1 hid))
    exact Lint.mem_allIDs.1 (Lint.texts_of_mem (ha l hl')).1
  · obtain ⟨ids, e, hs, hmem⟩ := h2 hf
    exact ⟨ids, _, e, reads_rules _ _ fun id hid => (hmem id).1 hid, hs, hmem⟩
  · obtain ⟨ids, e, hs, hmem⟩ := h3 g hg hf
    refine ⟨ids, _, e, reads_rules _ _ fun id hid => ?_, hs, hmem⟩
    obtain ⟨row, hr, h, _⟩ := (hmem id).1 hid
    exact ⟨row, hr, h⟩

/-- C108: the lines of `version`, as a reader gets them. -/
theorem C108_version (usage : Usage) (i : Invoked s devel .version args values r h) (hp : Prints h)
    (hj : isOn values s%"json" = false)
    (hv : s.environ.goVersion.head? ≠ some ' ' ∧ '\n' ∉ s.environ.goVersion)
    (ho : s.environ.goos.head? ≠ some ' ' ∧ '\n' ∉ s.environ.goos) (ha : '\n' ∉ s.environ.goarch) (w : World) :
    ∃ text, run s usage devel (.line .version args values) w = ({ w with out := w.out ++ text }, .code 0) ∧
      readListing text = [(s%"Version:", s%"1.11.0-dev"), (s%"Default protoc version:", s%"3.11.0"),
        (s%"Go version:", s.environ.goVersion),
        (s%"OS/Arch:", s.environ.goos ++ s%"/" ++ s.environ.goarch)] := by
  refine ⟨_, (C95_version usage i hp w).1 hj, readListing_table _ ?_ ?_⟩
  · unfold PlainCell
    intro row hr
    simp only [List.mem_cons, List.not_mem_nil, or_false] at hr
    rcases hr with rfl | rfl | rfl | rfl <;> (dsimp only; decide)
  · intro row hr
    simp only [List.mem_cons, List.not_mem_nil, or_false] at hr
    rcases hr with rfl | rfl | rfl | rfl
    · decide
    · decide
    · exact hv
    · constructor
      · cases hg : s.environ.goos with
        | nil => simp
        | cons x y => rw [hg] at ho; simpa using ho.1
      · simp [ho.2, ha]

end Commands

namespace CmdLineExample

open CmdExample Exec.Sample

/-- The listing of a group and the lines of `version`, on a machine. -/
example : (run (system []) usage false (.line .lint [s%"a"] [(s%"list-lint-group", .str s%"google")]) world).2 =
      .code 0 ∧
    (readListing (run (system []) usage false
      (.line .lint [s%"a"] [(s%"list-lint-group", .str s%"google")]) world).1.out)[1]? =
      some (s%"ENUM_NAMES_CAMEL_CASE", s%"Verifies that all enum names are CamelCase.") ∧
    (run (system []) usage false (.line .version [] []) world).1.out =
      s%"Version:                 1.11.0-dev\nDefault protoc version:  3.11.0\nGo version:              go1.14\nOS/Arch:                 linux/amd64\n" := by
  decide +kernel

end CmdLineExample

end Verif.Props
