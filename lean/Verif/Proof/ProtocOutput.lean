import Verif.Spec.Compile
import Verif.Proof.Regexp
import Verif.Proof.Strs

/-! # The lines of protoc -/

namespace Verif.Protoc

open Verif Str File Text Regexp Spec

theorem firstRule_some {m : CmdMeta} {line : Str} {rules : List Rule} {r : Option Failure}
    (h : firstRule m line rules = some r) :
    ∃ rule ∈ rules, ∃ g, rule.exp.find line = some g ∧ r = rule.act m line g := by
  induction rules with
  | nil => cases h
  | cons rule rules ih =>
    unfold firstRule at h
    split at h
    next g hg => cases h; exact ⟨rule, by simp, g, hg, rfl⟩
    next =>
      obtain ⟨r', h1, h2⟩ := ih h
      exact ⟨r', by simp [h1], h2⟩

theorem firstRule_none {m : CmdMeta} {line : Str} {rules : List Rule} :
    firstRule m line rules = none ↔ ∀ rule ∈ rules, ¬ rule.exp.Matches line := by
  induction rules with
  | nil => simp [firstRule]
  | cons rule rules ih =>
    unfold firstRule
    cases h : rule.exp.find line with
    | some g =>
      have := find_isSome.1 (show (rule.exp.find line).isSome = true by rw [h]; rfl)
      simp [this]
    | none => simp [ih, find_none.1 h]

/-- `Fit` on text without newlines. -/
def Fit0 (toEnd : Bool) : List Piece → Str → Prop
  | [], s => toEnd = true → s = []
  | .lit l :: ps, s => ∃ r, s = l ++ r ∧ Fit0 toEnd ps r
  | .any :: ps, s => ∃ c r, s = [c] ++ r ∧ Fit0 toEnd ps r
  | .star :: ps, s => ∃ a r, s = a ++ r ∧ Fit0 toEnd ps r
  | .digits :: ps, s => ∃ a r, s = a ++ r ∧ Number a ∧ Fit0 toEnd ps r

theorem fit0 {e : Bool} {ps : List Piece} {s : Str} (h : '\n' ∉ s) : Fit e ps s ↔ Fit0 e ps s := by
  induction ps generalizing s with
  | nil => rfl
  | cons p ps ih =>
    have hd : ∀ {c}, c ∈ s → dot c = true := by
      intro c hc
      have : c ≠ '\n' := by rintro rfl; exact h hc
      simp [dot, this]
    cases p with
    | lit l =>
      unfold Fit Fit0
      constructor
      · rintro ⟨r, rfl, hr⟩; exact ⟨r, rfl, (ih (by simp_all)).1 hr⟩
      · rintro ⟨r, rfl, hr⟩; exact ⟨r, rfl, (ih (by simp_all)).2 hr⟩
    | any =>
      unfold Fit Fit0
      constructor
      · rintro ⟨c, r, rfl, _, hr⟩; exact ⟨c, r, rfl, (ih (by simp_all)).1 hr⟩
      · rintro ⟨c, r, rfl, hr⟩; exact ⟨c, r, rfl, hd (by simp), (ih (by simp_all)).2 hr⟩
    | star =>
      unfold Fit Fit0
      constructor
      · rintro ⟨a, r, rfl, _, hr⟩; exact ⟨a, r, rfl, (ih (by simp_all)).1 hr⟩
      · rintro ⟨a, r, rfl, hr⟩
        exact ⟨a, r, rfl, fun c hc => hd (by simp [hc]), (ih (by simp_all)).2 hr⟩
    | digits =>
      unfold Fit Fit0
      constructor
      · rintro ⟨a, r, rfl, h1, h2, hr⟩; exact ⟨a, r, rfl, ⟨h1, h2⟩, (ih (by simp_all)).1 hr⟩
      · rintro ⟨a, r, rfl, ⟨h1, h2⟩, hr⟩; exact ⟨a, r, rfl, h1, h2, (ih (by simp_all)).2 hr⟩

theorem matches_start {e : Exp} {line : Str} (h : '\n' ∉ line) (hs : e.fromStart = true) :
    e.Matches line ↔ Fit0 e.toEnd (e.pieces.map (·.2)) line := by
  unfold Exp.Matches
  rw [if_pos hs, fit0 h]

theorem matches_anywhere {e : Exp} {line : Str} (h : '\n' ∉ line) (hs : e.fromStart = false) :
    e.Matches line ↔ ∃ a b, line = a ++ b ∧ Fit0 e.toEnd (e.pieces.map (·.2)) b := by
  unfold Exp.Matches
  rw [hs]
  simp only [Bool.false_eq_true, if_false]
  constructor
  · rintro ⟨a, b, rfl, hf⟩; exact ⟨a, b, rfl, (fit0 (by simp_all)).1 hf⟩
  · rintro ⟨a, b, rfl, hf⟩; exact ⟨a, b, rfl, (fit0 (by simp_all)).2 hf⟩

variable {line : Str}

theorem matches_pluginFailed (h : '\n' ∉ line) : pluginFailedRegexp.Matches line ↔
    ∃ a name status c, line = s%"--" ++ a ++ s%"_out: protoc-gen-" ++ name ++
      s%": Plugin failed with status code " ++ status ++ [c] := by
  rw [matches_start h rfl]
  simp only [pluginFailedRegexp, List.map, Fit0]
  constructor
  · rintro ⟨_, rfl, a, _, rfl, _, rfl, n, _, rfl, _, rfl, st, _, rfl, c, _, rfl, hr⟩
    cases hr trivial
    exact ⟨a, n, st, c, by simp only [List.append_assoc, List.append_nil]⟩
  · rintro ⟨a, n, st, c, rfl⟩
    exact ⟨_, by simp only [List.append_assoc], a, _, rfl, _, rfl, n, _, rfl, _, rfl, st, _, rfl, c, [],
      (List.append_nil _).symm, fun _ => rfl⟩

theorem matches_otherPlugin (h : '\n' ∉ line) : otherPluginFailureRegexp.Matches line ↔
    ∃ a b, line = s%"--" ++ a ++ s%"_out: " ++ b := by
  rw [matches_start h rfl]
  simp only [otherPluginFailureRegexp, List.map, Fit0]
  constructor
  · rintro ⟨_, rfl, a, _, rfl, _, rfl, b, _, rfl, hr⟩
    cases hr trivial
    exact ⟨a, b, by simp only [List.append_assoc, List.append_nil]⟩
  · rintro ⟨a, b, rfl⟩
    exact ⟨_, by simp only [List.append_assoc], a, _, rfl, _, rfl, b, [], (List.append_nil _).symm,
      fun _ => rfl⟩

theorem matches_fullPlugin (h : '\n' ∉ line) : fullPluginFailedRegexp.Matches line ↔
    ∃ a b name status c, line = a ++ s%"--" ++ b ++ s%"_out: protoc-gen-" ++ name ++
      s%": Plugin failed with status code " ++ status ++ [c] := by
  rw [matches_anywhere h rfl]
  simp only [fullPluginFailedRegexp, List.map, Fit0]
  constructor
  · rintro ⟨x, _, rfl, y, _, rfl, _, rfl, a, _, rfl, _, rfl, n, _, rfl, _, rfl, st, _, rfl, c, _, rfl, hr⟩
    cases hr trivial
    exact ⟨x ++ y, a, n, st, c, by simp only [List.append_assoc, List.append_nil]⟩
  · rintro ⟨y, a, n, st, c, rfl⟩
    exact ⟨[], _, by rw [List.nil_append], y, _, by simp only [List.append_assoc], _, rfl, a, _, rfl, _, rfl, n, _, rfl, _, rfl,
      st, _, rfl, c, [], (List.append_nil _).symm, fun _ => rfl⟩

theorem matches_plugin (h : '\n' ∉ line) :
    (∃ rule ∈ pluginRules, rule.exp.Matches line) ↔ PluginLine line := by
  simp only [pluginRules, List.mem_cons, List.not_mem_nil, or_false, exists_eq_or_imp,
    exists_eq_left, matches_pluginFailed h, matches_otherPlugin h, matches_fullPlugin h]
  unfold PluginLine
  constructor
  · rintro (⟨a, n, st, c, rfl⟩ | ⟨a, b, rfl⟩ | h)
    · exact Or.inl ⟨a, s%"protoc-gen-" ++ n ++ s%": Plugin failed with status code " ++ st ++ [c],
        by simp only [List.append_assoc]; rfl⟩
    · exact Or.inl ⟨a, b, rfl⟩
    · exact Or.inr h
  · rintro (h | h)
    · exact Or.inr (Or.inl h)
    · exact Or.inr (Or.inr h)

theorem matches_noSyntax (h : '\n' ∉ line) : noSyntaxSpecifiedRegexp.Matches line ↔
    NoSyntaxLine line := by
  rw [matches_anywhere h rfl]
  unfold NoSyntaxLine
  simp only [noSyntaxSpecifiedRegexp, List.map, Fit0]
  constructor
  · rintro ⟨x, _, rfl, _, rfl, a, _, rfl, b, rfl, _⟩
    exact ⟨x, a, b, by simp only [List.append_assoc]⟩
  · rintro ⟨x, a, b, rfl⟩
    exact ⟨x, _, by simp only [List.append_assoc], _, rfl, a, _, rfl, b, rfl, fun h => by cases h⟩

/-- The texts of `position`. -/
theorem fit0_position {e : Bool} {ps : List Piece} {s : Str} :
    Fit0 e (position.map (·.2) ++ ps) s ↔ ∃ f l c r, Number l ∧ Number c ∧
      s = f ++ s%":" ++ l ++ s%":" ++ c ++ s%": " ++ r ∧ Fit0 e ps r := by
  simp only [position, List.map, List.cons_append, List.nil_append, Fit0]
  constructor
  · rintro ⟨f, _, rfl, _, rfl, l, _, rfl, hl, _, rfl, c, _, rfl, hc, r, rfl, hr⟩
    exact ⟨f, l, c, r, hl, hc, by simp, hr⟩
  · rintro ⟨f, l, c, r, hl, hc, rfl, hr⟩
    exact ⟨f, _, by simp only [List.append_assoc]; rfl, _, rfl, l, _, rfl, hl, _, rfl, c, _, rfl, hc, r, rfl, hr⟩

theorem matches_unused3110 (h : '\n' ∉ line) : extraImport3110Regexp.Matches line ↔
    ∃ file l col imp c, Number l ∧ Number col ∧
      line = file ++ s%":" ++ l ++ s%":" ++ col ++ s%": warning: Import " ++ imp ++ s%" is unused" ++ [c] := by
  rw [matches_start h rfl]
  simp only [extraImport3110Regexp, List.map_append, fit0_position]
  simp only [List.map, Fit0]
  constructor
  · rintro ⟨f, l, co, _, hl, hc, rfl, _, rfl, i, _, rfl, _, rfl, c, _, rfl, hr⟩
    cases hr trivial
    exact ⟨f, l, co, i, c, hl, hc, by simp only [List.append_assoc]; rfl⟩
  · rintro ⟨f, l, co, i, c, hl, hc, rfl⟩
    exact ⟨f, l, co, _, hl, hc, by simp only [List.append_assoc]; rfl, _, rfl, i, _, rfl, _, rfl, c, [], rfl,
      fun _ => rfl⟩

theorem matches_unused (h : '\n' ∉ line) : extraImportRegexp.Matches line ↔
    ∃ a imp c, line = a ++ s%": warning: Import " ++ imp ++ s%" but not used" ++ [c] := by
  rw [matches_start h rfl]
  simp only [extraImportRegexp, List.map, Fit0]
  constructor
  · rintro ⟨f, _, rfl, _, rfl, i, _, rfl, _, rfl, c, _, rfl, hr⟩
    cases hr trivial
    exact ⟨f, i, c, by simp only [List.append_assoc]; rfl⟩
  · rintro ⟨f, i, c, rfl⟩
    exact ⟨f, _, by simp only [List.append_assoc]; rfl, _, rfl, i, _, rfl, _, rfl, c, [], rfl, fun _ => rfl⟩

theorem matches_unused380 (h : '\n' ∉ line) (hm : extraImport380Regexp.Matches line) :
    extraImportRegexp.Matches line := by
  rw [matches_unused h]
  rw [matches_start h rfl] at hm
  simp only [extraImport380Regexp, List.map_append, fit0_position] at hm
  simp only [List.map, Fit0] at hm
  obtain ⟨f, l, co, _, hl, hc, rfl, _, rfl, i, _, rfl, _, rfl, c, _, rfl, hr⟩ := hm
  cases hr trivial
  exact ⟨f ++ s%":" ++ l ++ s%":" ++ co, i, c, by simp only [List.append_assoc]; rfl⟩

theorem matches_recursive (h : '\n' ∉ line) : recursiveImportRegexp.Matches line ↔
    RecursiveLine line := by
  rw [matches_start h rfl]
  unfold RecursiveLine
  simp only [recursiveImportRegexp, List.map, Fit0]
  constructor
  · rintro ⟨f, _, rfl, _, rfl, i, _, rfl, hr⟩
    cases hr trivial
    exact ⟨f, i, by simp only [List.append_assoc, List.append_nil]⟩
  · rintro ⟨f, i, rfl⟩
    exact ⟨f, _, by simp only [List.append_assoc], _, rfl, i, [], (List.append_nil _).symm, fun _ => rfl⟩

theorem matches_recursive380 (h : '\n' ∉ line) (hm : recursiveImport380Regexp.Matches line) :
    recursiveImportRegexp.Matches line := by
  rw [matches_recursive h]
  rw [matches_start h rfl] at hm
  simp only [recursiveImport380Regexp, List.map_append, fit0_position] at hm
  simp only [List.map, Fit0] at hm
  obtain ⟨f, l, co, _, hl, hc, rfl, _, rfl, i, _, rfl, hr⟩ := hm
  cases hr trivial
  exact ⟨f ++ s%":" ++ l ++ s%":" ++ co, i, by simp only [List.append_assoc, List.append_nil]; rfl⟩

theorem matches_importNotFound (h : '\n' ∉ line) : importNotFoundRegexp.Matches line ↔
    ImportNotFoundLine line := by
  rw [matches_start h rfl]
  unfold ImportNotFoundLine
  simp only [importNotFoundRegexp, List.map, Fit0]
  constructor
  · rintro ⟨f, _, rfl, _, rfl, i, _, rfl, _, rfl, c, _, rfl, hr⟩
    cases hr trivial
    exact ⟨f, i, c, by simp only [List.append_assoc]; rfl⟩
  · rintro ⟨f, i, c, rfl⟩
    exact ⟨f, _, by simp only [List.append_assoc]; rfl, _, rfl, i, _, rfl, _, rfl, c, [], rfl, fun _ => rfl⟩

/-- The last but one character. -/
def beforeLast (s : Str) : Option Char := s.reverse.tail.head?

theorem beforeLast_append {a b : Str} {k c : Char} : beforeLast (a ++ (b ++ [k]) ++ [c]) = some k := by
  simp [beforeLast]

theorem beforeLast_tail {l : Str} {k : Char} (hl : ∃ b, l = b ++ [k]) (a : Str) (c : Char) :
    beforeLast (a ++ l ++ [c]) = some k := by
  obtain ⟨b, rfl⟩ := hl
  exact beforeLast_append

theorem fit0_tail {l s : Str} {k : Char} (hl : ∃ b, l = b ++ [k])
    (h : Fit0 true [.star, .lit l, .any] s) : beforeLast s = some k := by
  simp only [Fit0] at h
  obtain ⟨a, _, rfl, _, rfl, c, _, rfl, hr⟩ := h
  cases hr trivial
  simpa using beforeLast_tail hl a c

theorem importNotFound_beforeLast (h : ImportNotFoundLine line) : beforeLast line = some 's' := by
  obtain ⟨a, i, c, rfl⟩ := h
  exact beforeLast_tail ⟨s%" was not found or had error", rfl⟩ _ c

theorem unused_beforeLast (h : UnusedImportLine line) : beforeLast line = some 'd' := by
  rcases h with ⟨a, i, c, rfl⟩ | ⟨f, l, co, i, c, _, _, rfl⟩
  · exact beforeLast_tail ⟨s%" but not use", rfl⟩ _ c
  · exact beforeLast_tail ⟨s%" is unuse", rfl⟩ _ c

theorem directory_beforeLast (h : '\n' ∉ line) (hm : directoryDoesNotExistRegexp.Matches line) :
    beforeLast line = some 't' := by
  rw [matches_start h rfl] at hm
  exact fit0_tail ⟨s%": warning: directory does not exis", rfl⟩ hm

theorem fileNotFound_beforeLast (h : '\n' ∉ line) (hm : fileNotFoundRegexp.Matches line) :
    beforeLast line = some 'd' := by
  rw [matches_start h rfl] at hm
  exact fit0_tail ⟨s%": File not foun", rfl⟩ hm

theorem explicit_beforeLast (h : '\n' ∉ line)
    (hm : explicitDefaultValuesProto3Regexp.Matches line) : beforeLast line = some '3' := by
  rw [matches_start h rfl] at hm
  exact fit0_tail ⟨s%": Explicit default values are not allowed in proto", rfl⟩ hm

/-- Which of the rules decides when the first ones do not match. -/
theorem firstRule_cons {m : CmdMeta} {e : Exp} {act} {rules : List Rule} :
    (¬ e.Matches line → firstRule m line (⟨e, act⟩ :: rules) = firstRule m line rules) ∧
    (e.Matches line →
      ∃ g, e.find line = some g ∧ firstRule m line (⟨e, act⟩ :: rules) = some (act m line g)) := by
  constructor
  · intro h
    conv => lhs; unfold firstRule
    simp only [find_none.2 h]
  · intro h
    obtain ⟨g, hg⟩ := Option.isSome_iff_exists.1 (find_isSome.2 h)
    refine ⟨g, hg, ?_⟩
    conv => lhs; unfold firstRule
    simp only [hg]

theorem pluginRules_some {m : CmdMeta} {r} (h : firstRule m line pluginRules = some r) :
    r ≠ none := by
  obtain ⟨rule, hr, g, _, rfl⟩ := firstRule_some h
  simp only [pluginRules, List.mem_cons, List.not_mem_nil, or_false] at hr
  rcases hr with rfl | rfl | rfl <;> simp

theorem lineRules_ignore {m : CmdMeta} (h : '\n' ∉ line) :
    firstRule m line lineRules = some none ↔ ¬ NoSyntaxLine line ∧
      ((UnusedImportLine line ∧ m.protoSet.config.compile.allowUnusedImports = true) ∨
       (ImportNotFoundLine line ∧ ¬ RecursiveLine line)) := by
  unfold lineRules
  rcases Classical.em (NoSyntaxLine line) with h1 | h1
  · obtain ⟨g, _, hg⟩ := (firstRule_cons (m := m) (line := line)).2 ((matches_noSyntax h).2 h1)
    rw [hg]; simp [h1]
  rw [firstRule_cons.1 (mt (matches_noSyntax h).1 h1)]
  simp only [h1, not_false_eq_true, true_and]
  have hun : ∀ f, (some (unusedImport m f) = some none ↔
      m.protoSet.config.compile.allowUnusedImports = true) := by
    intro f; unfold unusedImport; split <;> simp_all
  have hdone : ∀ f rest, UnusedImportLine line → rest = some (unusedImport m f) → (rest = some none ↔
      ((UnusedImportLine line ∧ m.protoSet.config.compile.allowUnusedImports = true) ∨
       (ImportNotFoundLine line ∧ ¬ RecursiveLine line))) := by
    intro f rest hu hr
    rw [hr, hun]
    constructor
    · intro ha; exact Or.inl ⟨hu, ha⟩
    · rintro (⟨_, ha⟩ | ⟨hi, _⟩)
      · exact ha
      · have h1 := importNotFound_beforeLast hi
        rw [unused_beforeLast hu] at h1
        exact absurd h1 (by decide)
  rcases Classical.em (extraImport3110Regexp.Matches line) with h2 | h2
  · obtain ⟨g, _, hg⟩ := (firstRule_cons (m := m) (line := line)).2 h2
    exact hdone _ _ (Or.inr ((matches_unused3110 h).1 h2)) hg
  rw [firstRule_cons.1 h2]
  rcases Classical.em (extraImport380Regexp.Matches line) with h3 | h3
  · obtain ⟨g, _, hg⟩ := (firstRule_cons (m := m) (line := line)).2 h3
    exact hdone _ _ (Or.inl ((matches_unused h).1 (matches_unused380 h h3))) hg
  rw [firstRule_cons.1 h3]
  rcases Classical.em (extraImportRegexp.Matches line) with h4 | h4
  · obtain ⟨g, _, hg⟩ := (firstRule_cons (m := m) (line := line)).2 h4
    exact hdone _ _ (Or.inl ((matches_unused h).1 h4)) hg
  rw [firstRule_cons.1 h4]
  have hnu : ¬ UnusedImportLine line := by
    rintro (hu | hu)
    · exact h4 ((matches_unused h).2 hu)
    · exact h2 ((matches_unused3110 h).2 hu)
  simp only [hnu, false_and, false_or]
  rcases Classical.em (recursiveImport380Regexp.Matches line) with h5 | h5
  · obtain ⟨g, _, hg⟩ := (firstRule_cons (m := m) (line := line)).2 h5
    rw [hg]
    simp [(matches_recursive h).1 (matches_recursive380 h h5)]
  rw [firstRule_cons.1 h5]
  rcases Classical.em (recursiveImportRegexp.Matches line) with h6 | h6
  · obtain ⟨g, _, hg⟩ := (firstRule_cons (m := m) (line := line)).2 h6
    rw [hg]
    simp [(matches_recursive h).1 h6]
  rw [firstRule_cons.1 h6]
  simp only [mt (matches_recursive h).2 h6, not_false_eq_true, and_true]
  rcases Classical.em (directoryDoesNotExistRegexp.Matches line) with h7 | h7
  · obtain ⟨g, _, hg⟩ := (firstRule_cons (m := m) (line := line)).2 h7
    rw [hg]
    refine ⟨fun hx => by simp at hx, fun hi => ?_⟩
    have h1 := importNotFound_beforeLast hi
    rw [directory_beforeLast h h7] at h1
    exact absurd h1 (by decide)
  rw [firstRule_cons.1 h7]
  rcases Classical.em (fileNotFoundRegexp.Matches line) with h8 | h8
  · obtain ⟨g, _, hg⟩ := (firstRule_cons (m := m) (line := line)).2 h8
    rw [hg]
    refine ⟨fun hx => by simp at hx, fun hi => ?_⟩
    have h1 := importNotFound_beforeLast hi
    rw [fileNotFound_beforeLast h h8] at h1
    exact absurd h1 (by decide)
  rw [firstRule_cons.1 h8]
  rcases Classical.em (explicitDefaultValuesProto3Regexp.Matches line) with h9 | h9
  · obtain ⟨g, _, hg⟩ := (firstRule_cons (m := m) (line := line)).2 h9
    rw [hg]
    refine ⟨fun hx => by simp at hx, fun hi => ?_⟩
    have h1 := importNotFound_beforeLast hi
    rw [explicit_beforeLast h h9] at h1
    exact absurd h1 (by decide)
  rw [firstRule_cons.1 h9]
  rcases Classical.em (importNotFoundRegexp.Matches line) with h10 | h10
  · obtain ⟨g, _, hg⟩ := (firstRule_cons (m := m) (line := line)).2 h10
    rw [hg]
    simp [(matches_importNotFound h).1 h10]
  rw [firstRule_cons.1 h10]
  simp only [mt (matches_importNotFound h).2 h10, iff_false]
  intro hx
  obtain ⟨rule, hr, g, _, ha⟩ := firstRule_some hx
  simp only [List.mem_cons, List.not_mem_nil, or_false] at hr
  rcases hr with rfl | rfl | rfl | rfl | rfl | rfl | rfl <;> simp at ha

theorem parseProtocLine_none {m : CmdMeta} (h : '\n' ∉ line) :
    parseProtocLine m line = none ↔ IgnoredLine m.protoSet.config.compile.allowUnusedImports line := by
  unfold parseProtocLine IgnoredLine
  cases hp : firstRule m line pluginRules with
  | some r =>
    have h1 : PluginLine line := by
      obtain ⟨rule, hr, g, hg, _⟩ := firstRule_some hp
      exact (matches_plugin h).1 ⟨rule, hr, find_isSome.1 (by rw [hg]; rfl)⟩
    simp [h1, pluginRules_some hp]
  | none =>
    have h1 : ¬ PluginLine line := by
      intro hc
      obtain ⟨rule, hr, hm⟩ := (matches_plugin h).2 hc
      exact firstRule_none.1 hp rule hr hm
    simp only [h1, not_false_eq_true, true_and]
    split
    next heq =>
      rw [heq]
      simp
      split <;> simp
    next hne =>
      have h4 : (splitChar ':' line).length ≠ 4 := by
        intro hl
        match hs : splitChar ':' line, hl with
        | [a, b, c, d], _ => exact hne a b c d hs
      simp only [h4, ne_eq, not_false_eq_true, true_and]
      rw [← lineRules_ignore h (m := m)]
      cases firstRule m line lineRules with
      | none => simp
      | some r => simp

/-! ## Outputs -/

theorem trimSpace_cons {c : Char} {s : Str} (h : isSpace c = true) :
    trimSpace (c :: s) = trimSpace s := by
  simp [trimSpace, trimLeftBy, List.dropWhile_cons, h]

theorem trimSpace_snoc {c : Char} {s : Str} (h : isSpace c = true) :
    trimSpace (s ++ [c]) = trimSpace s := by
  induction s with
  | nil => simp [trimSpace, trimLeftBy, trimRightBy, h]
  | cons d s ih =>
    cases hd : isSpace d with
    | true => rw [List.cons_append, trimSpace_cons hd, trimSpace_cons hd, ih]
    | false =>
      simp [trimSpace, trimLeftBy, trimRightBy, List.dropWhile_cons, hd, h]

theorem linesOf_cons {c : Char} {s : Str} (h : isSpace c = true) : linesOf (c :: s) = linesOf s := by
  unfold linesOf
  rcases Decidable.em (c = '\n') with rfl | hc
  · simp [splitChar, trimSpace, trimLeftBy, trimRightBy]
  · have : splitChar '\n' (c :: s) = consHead c (splitChar '\n' s) := by
      simp [splitChar, hc]
    rw [this]
    cases hs : splitChar '\n' s with
    | nil => exact absurd hs (splitChar_ne_nil _ _)
    | cons a l => simp [consHead, trimSpace_cons h]

theorem splitChar_snoc {c : Char} {s : Str} (hc : c ≠ '\n') : ∃ init last,
    splitChar '\n' s = init ++ [last] ∧ splitChar '\n' (s ++ [c]) = init ++ [last ++ [c]] := by
  induction s with
  | nil => exact ⟨[], [], by simp [splitChar], by simp [splitChar, hc, consHead]⟩
  | cons d s ih =>
    obtain ⟨init, last, h1, h2⟩ := ih
    rcases Decidable.em (d = '\n') with hd | hd
    · exact ⟨[] :: init, last, by simp [splitChar, hd, h1], by simp [splitChar, hd, h2]⟩
    · cases init with
      | nil => exact ⟨[], d :: last, by simp [splitChar, hd, h1, consHead],
          by simp [splitChar, hd, h2, consHead]⟩
      | cons a l => exact ⟨(d :: a) :: l, last, by simp [splitChar, hd, h1, consHead],
          by simp [splitChar, hd, h2, consHead]⟩

theorem splitChar_snoc_newline {s : Str} : splitChar '\n' (s ++ ['\n']) = splitChar '\n' s ++ [[]] := by
  have := splitChar_append_last '\n' s (w := []) (by simp)
  simpa using this

theorem linesOf_snoc {c : Char} {s : Str} (h : isSpace c = true) : linesOf (s ++ [c]) = linesOf s := by
  unfold linesOf
  rcases Decidable.em (c = '\n') with rfl | hc
  · rw [splitChar_snoc_newline]
    simp [trimSpace, trimLeftBy, trimRightBy]
  · obtain ⟨init, last, h1, h2⟩ := splitChar_snoc (s := s) hc
    rw [h1, h2]
    simp [trimSpace_snoc h]

theorem linesOf_trimLeft {s : Str} : linesOf (trimLeftBy isSpace s) = linesOf s := by
  unfold trimLeftBy
  induction s with
  | nil => rfl
  | cons c s ih =>
    rw [List.dropWhile_cons]
    split
    next h => rw [ih, linesOf_cons h]
    next => rfl

theorem linesOf_trimRight {s : Str} : linesOf (trimRightBy isSpace s) = linesOf s := by
  unfold trimRightBy
  have : ∀ r : Str, linesOf (r.dropWhile isSpace).reverse = linesOf r.reverse := by
    intro r
    induction r with
    | nil => rfl
    | cons c r ih =>
      rw [List.dropWhile_cons]
      split
      next h => rw [ih, List.reverse_cons, linesOf_snoc h]
      next => rfl
  simpa using this s.reverse

theorem linesOf_trimSpace {s : Str} : linesOf (trimSpace s) = linesOf s := by
  unfold trimSpace
  rw [linesOf_trimRight, linesOf_trimLeft]

theorem mem_trimSpace {s : Str} {c : Char} (h : c ∈ trimSpace s) : c ∈ s := by
  have h1 := (trimRightBy_prefix isSpace (trimLeftBy isSpace s)).subset h
  exact (List.dropWhile_suffix (l := s) isSpace).subset h1

theorem linesOf_no_newline {s line : Str} (h : line ∈ linesOf s) : '\n' ∉ line ∧ line ≠ [] := by
  unfold linesOf at h
  rw [List.mem_filter] at h
  obtain ⟨h1, h2⟩ := h
  obtain ⟨w, hw, rfl⟩ := List.mem_map.1 h1
  exact ⟨fun hc => splitChar_no_sep hw (mem_trimSpace hc), by simpa using h2⟩

theorem parseProtocOutput_eq {m : CmdMeta} {output : Str} :
    parseProtocOutput m output = (linesOf output).filterMap (parseProtocLine m) := by
  rw [← linesOf_trimSpace]
  unfold parseProtocOutput linesOf
  generalize splitChar '\n' (trimSpace output) = l
  induction l with
  | nil => rfl
  | cons a l ih =>
    rw [List.filterMap_cons, List.map_cons, List.filter_cons]
    cases ht : trimSpace a with
    | nil => simpa using ih
    | cons c cs =>
      have ih' := ih
      simp at ih'
      simp [List.filterMap_cons, ih']

theorem getDisplayFilePath_found {files : List ProtoFile} {match_ cur : Str} (hc : cur ≠ []) :
    getDisplayFilePath files match_ cur =
      if files.any (fun f => hasSuffix f.displayPath match_) then none else some cur := by
  induction files with
  | nil => simp [getDisplayFilePath, hc]
  | cons f fs ih =>
    unfold getDisplayFilePath
    rw [List.any_cons]
    cases h : hasSuffix f.displayPath match_ with
    | true => simp [hc]
    | false => simpa using ih

theorem bestFilePath_eq {m : CmdMeta} {match_ : Str} (hne : ∀ f ∈ m.protoFiles, f.displayPath ≠ []) :
    bestFilePath m match_ = fileNamed m.protoFiles match_ := by
  unfold bestFilePath fileNamed
  generalize m.protoFiles = files at hne ⊢
  induction files with
  | nil => simp [getDisplayFilePath]
  | cons f fs ih =>
    unfold getDisplayFilePath
    rw [List.filter_cons]
    cases h : hasSuffix f.displayPath match_ with
    | true =>
      simp only [if_true, ne_eq, not_true_eq_false, if_false]
      rw [getDisplayFilePath_found (hne f (by simp))]
      cases hf : fs.filter (fun f => hasSuffix f.displayPath match_) with
      | nil =>
        rw [List.filter_eq_nil_iff] at hf
        have : fs.any (fun f => hasSuffix f.displayPath match_) = false := by
          rw [List.any_eq_false]; exact hf
        simp [this]
      | cons g gs =>
        have hg : g ∈ fs.filter (fun f => hasSuffix f.displayPath match_) := by rw [hf]; simp
        rw [List.mem_filter] at hg
        have : fs.any (fun f => hasSuffix f.displayPath match_) = true := by
          rw [List.any_eq_true]; exact ⟨g, hg.1, hg.2⟩
        simp [this]
    | false => exact ih fun g hg => hne g (by simp [hg])

theorem atoi_natStr {n : Nat} (h : n < 2 ^ 63) : atoi (natStr n) = some (n : Int) := by
  have h1 := natStr_ne_nil n
  have h2 := natStr_digits n
  have h3 := decValue_natStr n
  have hall : (natStr n).all isDigit = true := List.all_eq_true.2 h2
  unfold atoi
  split
  next neg digits heq =>
    have : (neg, digits) = (false, natStr n) := by
      rw [← heq]
      split
      next t he => have := h2 '-' (by rw [he]; simp); simp [isDigit] at this
      next t he => have := h2 '+' (by rw [he]; simp); simp [isDigit] at this
      next => rfl
    cases this
    simp [h1, hall, h3, h]

theorem parseProtocOutput_nil {m : CmdMeta} {output : Str} : parseProtocOutput m output = [] ↔
    ∀ line ∈ linesOf output, IgnoredLine m.protoSet.config.compile.allowUnusedImports line := by
  rw [parseProtocOutput_eq, List.filterMap_eq_nil_iff]
  constructor
  · intro h line hl; exact (parseProtocLine_none (linesOf_no_newline hl).1).1 (h line hl)
  · intro h line hl; exact (parseProtocLine_none (linesOf_no_newline hl).1).2 (h line hl)

end Verif.Protoc
