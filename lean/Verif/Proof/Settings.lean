import Verif.Spec.Settings
import Verif.Proof.Discovery
import Verif.Proof.Map
import Verif.Props.Strs

/-!
# Proofs about the conversion of configurations
-/

namespace Verif.Settings

open Verif Str Path Spec

theorem mem_sortUniq (l : List Str) (a : Str) : a ∈ Strs.sortUniq l ↔ a ∈ l ∧ a ≠ [] :=
  (Props.C14_sortUniq Order.id l).2 a

theorem resolve_eq {d x : Str} (hd : IsAbsPath d) : resolve d x = locate d x := by
  unfold resolve locate
  cases h : isAbs x with
  | true => simp
  | false =>
    simp only [Bool.not_false, if_true, Bool.false_eq_true, if_false]
    exact clean_of_isAbsPath (joinPath_isAbsPath hd x)

theorem locate_isAbsPath {d x : Str} (hd : IsAbsPath d) : IsAbsPath (locate d x) := by
  unfold locate
  split
  · rename_i h; exact clean_isAbsPath h
  · exact joinPath_isAbsPath hd x

theorem hasPrefix_ne {p d : Str} (h1 : p ≠ d) (h2 : hasPrefix p d = true) : ∃ t, t ≠ [] ∧ p = d ++ t := by
  obtain ⟨t, ht⟩ := hasPrefix_iff.1 h2
  refine ⟨t, fun e => h1 ?_, ht⟩
  subst e; rw [ht, List.append_nil]

theorem excludeLoop_iff {d : Str} (hd : IsAbsPath d) (l r : List Str) :
    excludeLoop d l = .ok r ↔
      (∀ x ∈ l, ∃ t, t ≠ [] ∧ locate d x = d ++ t) ∧ r = l.map (locate d) := by
  induction l generalizing r with
  | nil =>
    rw [excludeLoop]
    constructor
    · intro h; injection h with h; subst h; simp
    · rintro ⟨_, rfl⟩; rfl
  | cons x xs ih =>
    rw [excludeLoop]
    dsimp only
    rw [resolve_eq hd]
    by_cases h1 : locate d x = d
    · rw [if_pos h1]
      constructor
      · intro h; cases h
      · rintro ⟨h, _⟩
        obtain ⟨t, ht, e⟩ := h x (by simp)
        rw [h1] at e
        have := congrArg List.length e
        rw [List.length_append] at this
        exact absurd (List.length_eq_zero_iff.1 (by omega)) ht
    · rw [if_neg h1]
      cases h2 : hasPrefix (locate d x) d with
      | false =>
        simp only [Bool.not_false, if_true]
        constructor
        · intro h; cases h
        · rintro ⟨h, _⟩
          obtain ⟨t, ht, e⟩ := h x (by simp)
          rw [hasPrefix_iff.2 ⟨t, e⟩] at h2; cases h2
      | true =>
        simp only [Bool.not_true, Bool.false_eq_true, if_false]
        have hx := hasPrefix_ne h1 h2
        cases h3 : excludeLoop d xs with
        | error e =>
          constructor
          · intro h; cases h
          · rintro ⟨h, _⟩
            have := (ih (xs.map (locate d))).2 ⟨fun y hy => h y (by simp [hy]), rfl⟩
            rw [h3] at this; cases this
        | ok rest =>
          obtain ⟨i1, i2⟩ := (ih rest).1 h3
          constructor
          · intro h
            injection h with h
            subst h i2
            refine ⟨fun y hy => ?_, rfl⟩
            rcases List.mem_cons.1 hy with rfl | hy
            · exact hx
            · exact i1 y hy
          · rintro ⟨_, rfl⟩
            subst i2; rfl

theorem getExcludePrefixes_iff {d : Str} (hd : IsAbsPath d) (l r : List Str) :
    getExcludePrefixes l d = .ok r ↔
      (∀ x ∈ l, x ≠ [] → ∃ t, t ≠ [] ∧ locate d x = d ++ t) ∧
        r = (Strs.sortUniq l).map (locate d) := by
  unfold getExcludePrefixes
  rw [excludeLoop_iff hd]
  simp only [mem_sortUniq, and_imp]

/-! ## Plugins -/

theorem parseGenPluginType_iff (s : Str) (t : GenPluginType) :
    parseGenPluginType s = .ok t ↔ PluginType s t := by
  unfold parseGenPluginType PluginType
  dsimp only
  have he : toLower s = [] ↔ s = [] := by unfold toLower; simp
  by_cases h1 : toLower s = []
  · rw [if_pos h1]
    have := he.1 h1
    constructor
    · intro h; injection h with h; exact Or.inl ⟨h.symm, this⟩
    · rintro (⟨h, _⟩ | ⟨_, h⟩ | ⟨_, h⟩)
      · rw [h]
      · rw [h1] at h; cases h
      · rw [h1] at h; cases h
  · rw [if_neg h1]
    have h1' : s ≠ [] := fun h => h1 (he.2 h)
    by_cases h2 : toLower s = s%"go"
    · rw [if_pos h2]
      constructor
      · intro h; injection h with h; exact Or.inr (Or.inl ⟨h.symm, h2⟩)
      · rintro (⟨_, h⟩ | ⟨h, _⟩ | ⟨_, h⟩)
        · exact absurd h h1'
        · rw [h]
        · rw [h2] at h; cases h
    · rw [if_neg h2]
      by_cases h3 : toLower s = s%"gogo"
      · rw [if_pos h3]
        constructor
        · intro h; injection h with h; exact Or.inr (Or.inr ⟨h.symm, h3⟩)
        · rintro (⟨_, h⟩ | ⟨_, h⟩ | ⟨h, _⟩)
          · exact absurd h h1'
          · exact absurd h h2
          · rw [h]
      · rw [if_neg h3]
        constructor
        · intro h; cases h
        · rintro (⟨_, h⟩ | ⟨_, h⟩ | ⟨_, h⟩)
          · exact absurd h h1'
          · exact absurd h h2
          · exact absurd h h3

theorem pluginType_unique {s : Str} {t u : GenPluginType} (h : PluginType s t) (h' : PluginType s u) : t = u := by
  have h1 := (parseGenPluginType_iff s t).2 h
  rw [(parseGenPluginType_iff s u).2 h'] at h1
  injection h1 with h1
  exact h1.symm

theorem outputPathOf_spec {d : Str} (hd : IsAbsPath d) (p : ExternalPlugin) :
    ∃ o, outputPathOf d p = .ok o ∧ o.absPath = locate d p.output := by
  unfold outputPathOf locate
  cases h : isAbs p.output with
  | true =>
    rw [if_pos rfl, if_pos rfl]
    obtain ⟨bs, hb, rfl⟩ := hd
    obtain ⟨ts, ht, e⟩ := clean_isAbsPath h
    rw [e, rel_absPath hb ht]
    exact ⟨_, rfl, rfl⟩
  | false =>
    simp only [Bool.false_eq_true, if_false]
    exact ⟨_, rfl, clean_of_isAbsPath (joinPath_isAbsPath hd _)⟩

theorem checkPlugin_iff (p : ExternalPlugin) :
    checkPlugin p = .ok () ↔ (∀ rest, p.fileSuffix ≠ '.' :: rest) ∧
      (p.includeImports = true ∨ p.includeSourceInfo = true → p.name = s%"descriptor_set") := by
  unfold checkPlugin
  have hs : p.fileSuffix.head? = some '.' ↔ ∃ rest, p.fileSuffix = '.' :: rest := by
    cases p.fileSuffix with
    | nil => simp
    | cons c cs => simp
  by_cases h1 : p.fileSuffix.head? = some '.'
  · rw [if_pos h1]
    obtain ⟨rest, hr⟩ := hs.1 h1
    exact ⟨fun h => (by cases h), fun h => absurd hr (h.1 rest)⟩
  · rw [if_neg h1]
    have h1' : ∀ rest, p.fileSuffix ≠ '.' :: rest := fun rest h => h1 (hs.2 ⟨rest, h⟩)
    by_cases h2 : p.name = s%"descriptor_set"
    · rw [if_neg (by simp [h2])]
      exact ⟨fun _ => ⟨h1', fun _ => h2⟩, fun _ => rfl⟩
    · rw [if_pos h2]
      cases h3 : p.includeImports with
      | true =>
        rw [if_pos rfl]
        exact ⟨fun h => (by cases h), fun h => absurd (h.2 (Or.inl rfl)) h2⟩
      | false =>
        rw [if_neg (by simp)]
        cases h4 : p.includeSourceInfo with
        | true =>
          rw [if_pos rfl]
          exact ⟨fun h => (by cases h), fun h => absurd (h.2 (Or.inr rfl)) h2⟩
        | false =>
          rw [if_neg (by simp)]
          exact ⟨fun _ => ⟨h1', by simp⟩, fun _ => rfl⟩

/-- What is required of a plugin before the import path and name are looked at. -/
def PlugOK (p : ExternalPlugin) : Prop :=
  (∃ t, PluginType p.type t) ∧ p.output ≠ [] ∧ (∀ rest, p.fileSuffix ≠ '.' :: rest) ∧
      (p.includeImports = true ∨ p.includeSourceInfo = true → p.name = s%"descriptor_set")

theorem genPluginOf_spec {d : Str} (hd : IsAbsPath d) (p : ExternalPlugin) :
    (PlugOK p ∧ ∃ g, genPluginOf d p = .ok g ∧ PluginFrom d p g) ∨
      (¬ PlugOK p ∧ ∃ e, genPluginOf d p = .error e) := by
  unfold genPluginOf
  cases h1 : parseGenPluginType p.type with
  | error e =>
    refine Or.inr ⟨fun h => ?_, e, rfl⟩
    obtain ⟨t, ht⟩ := h.1
    rw [(parseGenPluginType_iff _ _).2 ht] at h1; cases h1
  | ok t =>
    have ht := (parseGenPluginType_iff _ _).1 h1
    dsimp only
    by_cases h2 : p.output = []
    · rw [if_pos h2]
      exact Or.inr ⟨fun h => h.2.1 h2, _, rfl⟩
    · rw [if_neg h2]
      obtain ⟨o, ho, hoa⟩ := outputPathOf_spec hd p
      rw [ho]
      dsimp only
      cases h3 : checkPlugin p with
      | error e =>
        refine Or.inr ⟨fun h => ?_, e, rfl⟩
        rw [(checkPlugin_iff p).2 h.2.2] at h3; cases h3
      | ok u =>
        exact Or.inl ⟨⟨⟨t, ht⟩, h2, (checkPlugin_iff p).1 h3⟩, _, rfl,
          ⟨rfl, rfl, rfl, ht, hoa, rfl, rfl, rfl⟩⟩

theorem genPluginsOf_spec {d : Str} (hd : IsAbsPath d) (ps : List ExternalPlugin) :
    ((∀ p ∈ ps, PlugOK p) ∧ ∃ gs, genPluginsOf d ps = .ok gs ∧ Pointwise (PluginFrom d) ps gs) ∨
      ((¬ ∀ p ∈ ps, PlugOK p) ∧ ∃ e, genPluginsOf d ps = .error e) := by
  induction ps with
  | nil => exact Or.inl ⟨by simp, [], rfl, .nil⟩
  | cons p ps ih =>
    rw [genPluginsOf]
    rcases genPluginOf_spec hd p with ⟨h1, g, hg, hf⟩ | ⟨h1, e, he⟩
    · rw [hg]
      dsimp only
      rcases ih with ⟨h2, gs, hgs, hfs⟩ | ⟨h2, e, he⟩
      · rw [hgs]
        exact Or.inl ⟨by simpa using ⟨h1, h2⟩, _, rfl, .cons hf hfs⟩
      · rw [he]
        exact Or.inr ⟨fun h => h2 fun q hq => h q (by simp [hq]), e, rfl⟩
    · rw [he]
      exact Or.inr ⟨fun h => h1 (h p (by simp)), e, rfl⟩

theorem checkGenPlugins_iff (importPath : Str) (gs : List GenPlugin) :
    checkGenPlugins importPath gs = .ok () ↔
      ∀ g ∈ gs, (∀ rest, g.name ≠ s%"protoc-gen-" ++ rest) ∧ (g.type ≠ .none → importPath ≠ []) := by
  induction gs with
  | nil => simp [checkGenPlugins]
  | cons g gs ih =>
    rw [checkGenPlugins]
    cases h1 : hasPrefix g.name s%"protoc-gen-" with
    | true =>
      rw [if_pos rfl]
      obtain ⟨t, ht⟩ := hasPrefix_iff.1 h1
      exact ⟨fun h => (by cases h), fun h => absurd ht ((h g (by simp)).1 t)⟩
    | false =>
      rw [if_neg (by simp)]
      have h1' : ∀ rest, g.name ≠ s%"protoc-gen-" ++ rest := by
        intro rest h
        rw [hasPrefix_iff.2 ⟨rest, h⟩] at h1; cases h1
      have ht : (g.type.isGo || g.type.isGogo) = true ↔ g.type ≠ .none := by
        cases g.type <;> simp [GenPluginType.isGo, GenPluginType.isGogo]
      by_cases h2 : g.type ≠ .none
      · have h2' := ht.2 h2
        by_cases h3 : importPath = []
        · rw [if_pos (by simp [h2', h3])]
          exact ⟨fun h => (by cases h), fun h => absurd h3 ((h g (by simp)).2 h2)⟩
        · rw [if_neg (by simp [h3]), ih]
          simp only [List.mem_cons, forall_eq_or_imp]
          exact ⟨fun h => ⟨⟨h1', fun _ => h3⟩, h⟩, fun h => h.2⟩
      · have h2' : (g.type.isGo || g.type.isGogo) = false := by
          cases hx : (g.type.isGo || g.type.isGogo) with
          | false => rfl
          | true => exact absurd (ht.1 hx) h2
        rw [if_neg (by simp [h2']), ih]
        simp only [List.mem_cons, forall_eq_or_imp]
        exact ⟨fun h => ⟨⟨h1', fun h => absurd h h2⟩, h⟩, fun h => h.2⟩

theorem pointwise_mem_left {α β : Type} {R : α → β → Prop} {as : List α} {bs : List β}
    (h : Pointwise R as bs) : ∀ a ∈ as, ∃ b ∈ bs, R a b := by
  induction h with
  | nil => simp
  | cons h1 _ ih =>
    intro a ha
    rcases List.mem_cons.1 ha with rfl | ha
    · exact ⟨_, by simp, h1⟩
    · obtain ⟨b, hb, hr⟩ := ih a ha
      exact ⟨b, by simp [hb], hr⟩

theorem pointwise_mem_right {α β : Type} {R : α → β → Prop} {as : List α} {bs : List β}
    (h : Pointwise R as bs) : ∀ b ∈ bs, ∃ a ∈ as, R a b := by
  induction h with
  | nil => simp
  | cons h1 _ ih =>
    intro a ha
    rcases List.mem_cons.1 ha with rfl | ha
    · exact ⟨_, by simp, h1⟩
    · obtain ⟨b, hb, hr⟩ := ih a ha
      exact ⟨b, by simp [hb], hr⟩

/-- The two parts of the plugin checks together. -/
theorem plugins_ok {d importPath : Str} {ps : List ExternalPlugin} {gs gs' : List GenPlugin}
    (h : Pointwise (PluginFrom d) ps gs) (hperm : gs'.Perm gs) :
    ((∀ p ∈ ps, PlugOK p) ∧ checkGenPlugins importPath gs' = .ok ()) ↔ ∀ p ∈ ps, PluginOK importPath p := by
  rw [checkGenPlugins_iff]
  constructor
  · rintro ⟨h1, h2⟩ p hp
    obtain ⟨g, hg, hf⟩ := pointwise_mem_left h p hp
    obtain ⟨hn, ht⟩ := h2 g (hperm.mem_iff.2 hg)
    obtain ⟨_, ho, hs, hdd⟩ := h1 p hp
    exact ⟨⟨g.type, hf.type, ht⟩, ho, hs, hdd, by rw [← hf.name]; exact hn⟩
  · intro h1
    refine ⟨fun p hp => ?_, fun g hg => ?_⟩
    · have := h1 p hp
      obtain ⟨t, ht, _⟩ := this.type
      exact ⟨⟨t, ht⟩, this.output, this.fileSuffix, this.descriptorSet⟩
    · obtain ⟨p, hp, hf⟩ := pointwise_mem_right h g (hperm.mem_iff.1 hg)
      have := h1 p hp
      obtain ⟨t, ht, hi⟩ := this.type
      rw [hf.name]
      exact ⟨this.name, by rw [pluginType_unique hf.type ht]; exact hi⟩

/-! ## Create packages -/

theorem createPackagesOf_spec (d : Str) (l : List (Str × Str)) (m : GoMap Str Str) :
    ((∀ x ∈ l, x.1 ≠ [] ∧ isAbs x.1 = false ∧ x.2 ≠ []) ∧
        createPackagesOf d l m = .ok (l.foldl (fun m x => m.set (clean (joinPath [d, x.1])) x.2) m)) ∨
      ((¬ ∀ x ∈ l, x.1 ≠ [] ∧ isAbs x.1 = false ∧ x.2 ≠ []) ∧ ∃ e, createPackagesOf d l m = .error e) := by
  induction l generalizing m with
  | nil => exact Or.inl ⟨by simp, rfl⟩
  | cons x l ih =>
    obtain ⟨a, b⟩ := x
    rw [createPackagesOf]
    by_cases h1 : a = []
    · rw [if_pos h1]
      exact Or.inr ⟨fun h => (h (a, b) (by simp)).1 h1, _, rfl⟩
    · rw [if_neg h1]
      by_cases h2 : b = []
      · rw [if_pos h2]
        exact Or.inr ⟨fun h => (h (a, b) (by simp)).2.2 h2, _, rfl⟩
      · rw [if_neg h2]
        cases h3 : isAbs a with
        | true =>
          rw [if_pos rfl]
          exact Or.inr ⟨fun h => absurd ((h (a, b) (by simp)).2.1) (by simp [h3]), _, rfl⟩
        | false =>
          rw [if_neg (by simp)]
          rcases ih (m.set (clean (joinPath [d, a])) b) with ⟨h4, h5⟩ | ⟨h4, h5⟩
          · refine Or.inl ⟨?_, h5⟩
            intro x hx
            rcases List.mem_cons.1 hx with rfl | hx
            · exact ⟨h1, h3, h2⟩
            · exact h4 x hx
          · exact Or.inr ⟨fun h => h4 fun x hx => h x (by simp [hx]), h5⟩

/-! ## The file header -/

theorem dropWhile_eq_nil {α : Type} {p : α → Bool} {l : List α} : l.dropWhile p = [] ↔ ∀ x ∈ l, p x = true := by
  induction l with
  | nil => simp
  | cons x l ih =>
    rw [List.dropWhile_cons]
    split
    · rename_i h; simp [ih, h]
    · rename_i h; simp [h]

theorem trimSpace_eq_nil {s : Str} : trimSpace s = [] ↔ ∀ c ∈ s, isSpace c = true := by
  unfold trimSpace trimRightBy trimLeftBy
  rw [List.reverse_eq_nil_iff, dropWhile_eq_nil]
  constructor
  · intro h
    have hd : s.dropWhile isSpace = [] := by
      cases hd : s.dropWhile isSpace with
      | nil => rfl
      | cons c cs =>
        have h1 := List.head_dropWhile_not (p := isSpace) (l := s) (by rw [hd]; simp)
        simp only [hd, List.head_cons] at h1
        have := h c (by rw [hd]; simp)
        rw [h1] at this; cases this
    exact dropWhile_eq_nil.1 hd
  · intro h c hc
    have : s.dropWhile isSpace = [] := dropWhile_eq_nil.2 h
    rw [this] at hc
    cases hc

theorem join_eq_nil {sep : Str} (hsep : sep ≠ []) {l : List Str} : join sep l = [] ↔ l = [] ∨ l = [[]] := by
  cases l with
  | nil => simp [join]
  | cons a l =>
    cases l with
    | nil => simp [join]
    | cons b l => simp [join, hsep]

theorem isSpace_newline : isSpace '\n' = true := by decide

/-- The header lines of a text with something in it do not collapse to nothing. -/
theorem headerLines_ne {t : Str} (h : ∃ c ∈ t, isSpace c = false) :
    join s%"\n" (getFileHeaderLines t) ≠ [] := by
  have hne : trimSpace t ≠ [] := by
    intro e
    obtain ⟨c, hc, hs⟩ := h
    rw [trimSpace_eq_nil.1 e c hc] at hs; cases hs
  intro e
  unfold getFileHeaderLines at e
  rw [join_eq_nil (by simp)] at e
  rcases e with e | e
  · exact splitChar_ne_nil _ _ (List.map_eq_nil_iff.1 e)
  · match hs : splitChar '\n' (trimSpace t), e with
    | _ :: _ :: _, e => simp at e
    | [w], e =>
      simp only [List.map_cons, List.map_nil, List.cons.injEq, and_true] at e
      have hj := join_splitChar '\n' (trimSpace t)
      rw [hs] at hj
      simp only [join] at hj
      rw [hj] at e
      have hall := trimSpace_eq_nil.1 e
      -- the first character of a trimmed text is not a space
      have : trimSpace t = [] := by
        rw [trimSpace_eq_nil]
        intro c hc
        by_cases hx : isSpace c = true
        · exact hx
        · exfalso
          have hm : c ∈ trimSpace t := by
            unfold trimSpace trimRightBy trimLeftBy
            have : ∀ (l : List Char), c ∈ l → c ∈ l.dropWhile isSpace := by
              intro l hl
              have := List.takeWhile_append_dropWhile (p := isSpace) (l := l)
              rw [← this] at hl
              rcases List.mem_append.1 hl with hl | hl
              · exact absurd ((List.all_eq_true.1 (List.all_takeWhile)) c hl) hx
              · exact hl
            rw [List.mem_reverse]
            exact this _ (List.mem_reverse.2 (this _ hc))
          exact hx (hall c hm)
      exact hne this

theorem headerLines_blank {t : Str} (h : ∀ c ∈ t, isSpace c = true) :
    join s%"\n" (getFileHeaderLines t) = [] := by
  unfold getFileHeaderLines
  rw [trimSpace_eq_nil.2 h]
  rfl

/-- The header lines with comment markers never collapse to nothing. -/
theorem commentLines_ne (t : Str) : join s%"\n" ((getFileHeaderLines t).map commentLine) ≠ [] := by
  intro e
  rw [join_eq_nil (by simp)] at e
  unfold getFileHeaderLines at e
  rcases e with e | e
  · exact splitChar_ne_nil _ _ (List.map_eq_nil_iff.1 (List.map_eq_nil_iff.1 e))
  · match hs : (splitChar '\n' (trimSpace t)).map trimSpace, e with
    | _ :: _ :: _, e => simp at e
    | [w], e =>
      simp only [List.map_cons, List.map_nil, List.cons.injEq, and_true] at e
      unfold commentLine at e
      split at e <;> cases e

/-- What the header is made of. -/
def headerOf (commented : Bool) (t : Str) : Str :=
  join s%"\n" (if commented then getFileHeaderLines t else (getFileHeaderLines t).map commentLine)

/-- The header for the text asked for. -/
def headerFrom (commented : Bool) : Option Str → Str
  | none => []
  | some t => headerOf commented t

theorem fileHeaderOf_spec (h : Host) (e : ExternalConfig) (d : Str) :
    (∃ text, HeaderText h e d text ∧
        (e.fileHeaderIsCommented = true → ∀ t, text = some t → ∃ c ∈ t, isSpace c = false) ∧
        fileHeaderOf h e d = .ok (headerFrom e.fileHeaderIsCommented text)) ∨
      ((¬ ∃ text, HeaderText h e d text ∧
        (e.fileHeaderIsCommented = true → ∀ t, text = some t → ∃ c ∈ t, isSpace c = false)) ∧
        ∃ err, fileHeaderOf h e d = .error err) := by
  unfold fileHeaderOf
  by_cases h1 : e.fileHeaderPath ≠ [] ∨ e.fileHeaderContent ≠ []
  · rw [if_pos h1]
    by_cases h2 : e.fileHeaderPath ≠ [] ∧ e.fileHeaderContent ≠ []
    · rw [if_pos h2]
      refine Or.inr ⟨?_, _, rfl⟩
      rintro ⟨text, ht, _⟩
      cases ht with
      | none h _ => exact h2.1 h
      | content h _ => exact h2.1 h
      | file _ h _ _ => exact h2.2 h
    · rw [if_neg h2]
      have hfin : ∀ t, HeaderText h e d (some t) →
          (∀ text, HeaderText h e d text → text = some t) →
          (∃ text, HeaderText h e d text ∧
            (e.fileHeaderIsCommented = true → ∀ t, text = some t → ∃ c ∈ t, isSpace c = false) ∧
            (if headerOf e.fileHeaderIsCommented t = [] then
              Except.error (s%"file header path or content specified but result was empty file header")
              else Except.ok (headerOf e.fileHeaderIsCommented t)) = Except.ok (headerFrom e.fileHeaderIsCommented text)) ∨
          ((¬ ∃ text, HeaderText h e d text ∧
            (e.fileHeaderIsCommented = true → ∀ t, text = some t → ∃ c ∈ t, isSpace c = false)) ∧
            ∃ err : Err, (if headerOf e.fileHeaderIsCommented t = [] then
              Except.error (s%"file header path or content specified but result was empty file header")
              else Except.ok (headerOf e.fileHeaderIsCommented t)) = Except.error err) := by
        intro t ht huniq
        cases hc : e.fileHeaderIsCommented with
        | false =>
          refine Or.inl ⟨some t, ht, by simp, ?_⟩
          rw [if_neg]
          · rfl
          · unfold headerOf
            simp only [Bool.false_eq_true, if_false]
            exact commentLines_ne t
        | true =>
          by_cases hb : ∃ c ∈ t, isSpace c = false
          · refine Or.inl ⟨some t, ht, fun _ t' e' => by injection e' with e'; rw [← e']; exact hb, ?_⟩
            rw [if_neg]
            · rfl
            · unfold headerOf
              simp only [if_true]
              exact headerLines_ne hb
          · refine Or.inr ⟨?_, ?_⟩
            · rintro ⟨text, h1, h2⟩
              exact hb (h2 rfl t (huniq text h1))
            · rw [if_pos]
              · exact ⟨_, rfl⟩
              · unfold headerOf
                simp only [if_true]
                refine headerLines_blank fun c hc => ?_
                cases hx : isSpace c with
                | true => rfl
                | false => exact absurd ⟨c, hc, hx⟩ hb
      unfold fileHeaderContentOf
      by_cases h3 : e.fileHeaderPath ≠ []
      · rw [if_pos h3]
        have h4 : e.fileHeaderContent = [] := Classical.not_not.1 fun h => h2 ⟨h3, h⟩
        cases h5 : isAbs e.fileHeaderPath with
        | true =>
          rw [if_pos rfl]
          refine Or.inr ⟨?_, _, rfl⟩
          rintro ⟨text, ht, _⟩
          cases ht with
          | none h _ => exact h3 h
          | content h _ => exact h3 h
          | file _ _ h _ => rw [h5] at h; cases h
        | false =>
          rw [if_neg (by simp)]
          cases h6 : h.readFile (joinPath [d, e.fileHeaderPath]) with
          | error err =>
            refine Or.inr ⟨?_, err, rfl⟩
            rintro ⟨text, ht, _⟩
            cases ht with
            | none h _ => exact h3 h
            | content h _ => exact h3 h
            | file _ _ _ h => rw [h6] at h; cases h
          | ok t =>
            have := hfin t (.file h3 h4 h5 h6) (by
              intro text ht
              cases ht with
              | none h _ => exact absurd h h3
              | content h _ => exact absurd h h3
              | file _ _ _ h => rw [h6] at h; injection h with h; rw [h])
            unfold headerOf at this
            cases hc : e.fileHeaderIsCommented <;> rw [hc] at this <;>
              simpa [hc, headerOf, headerFrom] using this
      · rw [if_neg h3]
        have h3' : e.fileHeaderPath = [] := Classical.not_not.1 h3
        have h4 : e.fileHeaderContent ≠ [] := by
          rcases h1 with h1 | h1
          · exact absurd h3' h1
          · exact h1
        have := hfin e.fileHeaderContent (.content h3' h4) (by
          intro text ht
          cases ht with
          | none _ h => exact absurd h h4
          | content _ _ => rfl
          | file h _ _ _ => exact absurd h3' h)
        unfold headerOf at this
        cases hc : e.fileHeaderIsCommented <;> rw [hc] at this <;>
          simpa [hc, headerOf, headerFrom] using this
  · rw [if_neg h1]
    have hp : e.fileHeaderPath = [] := Classical.not_not.1 fun h => h1 (Or.inl h)
    have hc : e.fileHeaderContent = [] := Classical.not_not.1 fun h => h1 (Or.inr h)
    exact Or.inl ⟨none, .none hp hc, by simp, rfl⟩

/-! ## Ignores -/

theorem addIgnore_get? (m : GoMap Str (List Str)) (id p k : Str) :
    (GoMap.get? (addIgnore m id p) k).getD [] =
      (GoMap.get? m k).getD [] ++ if id = k then [p] else [] := by
  unfold addIgnore
  rw [GoMap.get?_set]
  by_cases h : id = k
  · subst h; simp
  · simp [h]

theorem ignoresOf_getD (d : Str) (l : List (Str × List Str)) (m : GoMap Str (List Str)) (k : Str) :
    (GoMap.get? (l.foldl (fun m ignore =>
        ignore.2.foldl (fun m p => addIgnore m (toUpper ignore.1) (resolve d p)) m) m) k).getD [] =
      (GoMap.get? m k).getD [] ++
        (l.filter (fun x => toUpper x.1 = k)).flatMap fun x => x.2.map (resolve d) := by
  induction l generalizing m with
  | nil => simp
  | cons x l ih =>
    rw [List.foldl_cons, ih]
    have inner : ∀ (ps : List Str) (m : GoMap Str (List Str)),
        (GoMap.get? (ps.foldl (fun m p => addIgnore m (toUpper x.1) (resolve d p)) m) k).getD [] =
          (GoMap.get? m k).getD [] ++ if toUpper x.1 = k then ps.map (resolve d) else [] := by
      intro ps
      induction ps with
      | nil => intro m; simp
      | cons p ps ih =>
        intro m
        rw [List.foldl_cons, ih, addIgnore_get?]
        by_cases h : toUpper x.1 = k <;> simp [h]
    rw [inner]
    by_cases h : toUpper x.1 = k
    · rw [if_pos h, List.filter_cons_of_pos (by simpa using h), List.flatMap_cons, List.append_assoc]
    · rw [if_neg h, List.filter_cons_of_neg (by simpa using h), List.append_nil]

theorem mem_ignoresOf {d : Str} (hd : IsAbsPath d) (l : List (Str × List Str)) (k p : Str) :
    p ∈ (GoMap.get? (ignoresOf l d) k).getD [] ↔
      ∃ x ∈ l, toUpper x.1 = k ∧ ∃ q ∈ x.2, p = locate d q := by
  unfold ignoresOf
  rw [ignoresOf_getD]
  simp only [GoMap.get?_nil, Option.getD_none, List.nil_append, List.mem_flatMap, List.mem_filter, List.mem_map,
    decide_eq_true_eq]
  constructor
  · rintro ⟨x, ⟨hx, hk⟩, q, hq, rfl⟩
    exact ⟨x, hx, hk, q, hq, resolve_eq hd⟩
  · rintro ⟨x, hx, hk, q, hq, rfl⟩
    exact ⟨x, ⟨hx, hk⟩, q, hq, resolve_eq hd⟩

/-! ## The whole conversion -/

/-- The create packages of a configuration. -/
def packagesOf (d : Str) (l : List (Str × Str)) : GoMap Str Str :=
  l.foldl (fun m x => m.set (clean (joinPath [d, x.1])) x.2) []

theorem rules_iff (e : ExternalConfig) :
    ¬ (Strs.intersection (Strs.sortUniqModify e.add (some toUpper))
        (Strs.sortUniqModify e.remove (some toUpper))).length > 0 ↔
      ∀ a ∈ e.add, ∀ r ∈ e.remove, a ≠ [] → toUpper a ≠ toUpper r := by
  have hne : ∀ a : Str, toUpper a = [] ↔ a = [] := by intro a; unfold toUpper; simp
  have hmem : ∀ a, a ∈ Strs.intersection (Strs.sortUniqModify e.add (some toUpper))
      (Strs.sortUniqModify e.remove (some toUpper)) ↔
      a ≠ [] ∧ (∃ x ∈ e.add, toUpper x = a) ∧ (∃ x ∈ e.remove, toUpper x = a) := by
    intro a
    rw [Strs.intersection, (Props.C14_intersection Order.id _ _).2, Strs.sortUniqModify, Strs.sortUniqModify,
      (Props.C14_sortUniqModify Order.id _ _).2, (Props.C14_sortUniqModify Order.id _ _).2]
    exact ⟨fun ⟨⟨h1, h2⟩, ⟨_, h3⟩, _⟩ => ⟨h1, h2, h3⟩, fun ⟨h1, h2, h3⟩ => ⟨⟨h1, h2⟩, ⟨h1, h3⟩, h1⟩⟩
  constructor
  · intro h a ha r hr hne' he
    apply h
    exact List.length_pos_of_mem ((hmem (toUpper a)).2
      ⟨fun e => hne' ((hne a).1 e), ⟨a, ha, rfl⟩, r, hr, he.symm⟩)
  · intro h hl
    obtain ⟨a, ha⟩ := List.exists_mem_of_length_pos hl
    obtain ⟨h1, ⟨x, hx, rfl⟩, y, hy, hxy⟩ := (hmem a).1 ha
    exact h x hx y hy (fun e => h1 ((hne x).2 e)) hxy.symm

/-- The conversion succeeds exactly for acceptable configurations, and what it returns. -/
theorem externalConfigToConfig_spec (s : SortSlice) (h : Host) (develMode : Bool) (e : ExternalConfig)
    {d : Str} (hd : IsAbsPath d) :
    (Acceptable h develMode e d ∧ ∃ text gs, HeaderText h e d text ∧
        Pointwise (PluginFrom d) e.plugins gs ∧
        externalConfigToConfig s h develMode e d =
          .ok (buildConfig e d ((Strs.sortUniq e.excludes).map (locate d))
            (s.run (fun a b => Str.lt a.name b.name) gs) (packagesOf d e.createPackages)
            (headerFrom e.fileHeaderIsCommented text))) ∨
      (¬ Acceptable h develMode e d ∧ ∃ err, externalConfigToConfig s h develMode e d = .error err) := by
  unfold externalConfigToConfig
  cases h1 : getExcludePrefixes e.excludes d with
  | error err =>
    refine Or.inr ⟨fun ha => ?_, err, rfl⟩
    rw [(getExcludePrefixes_iff hd _ _).2 ⟨ha.excludes, rfl⟩] at h1
    cases h1
  | ok ex =>
    obtain ⟨hex, rfl⟩ := (getExcludePrefixes_iff hd _ _).1 h1
    dsimp only
    rcases genPluginsOf_spec hd e.plugins with ⟨h2, gs, hgs, hf⟩ | ⟨h2, err, he⟩
    · rw [hgs]
      dsimp only
      have hperm := s.perm (fun a b : GenPlugin => Str.lt a.name b.name) gs
      rcases createPackagesOf_spec d e.createPackages [] with ⟨h3, h4⟩ | ⟨h3, err, h4⟩
      · have h4' : createPackagesOf d e.createPackages [] = .ok (packagesOf d e.createPackages) := h4
        rw [h4']
        dsimp only
        rcases fileHeaderOf_spec h e d with ⟨text, ht, htc, hh⟩ | ⟨hn, err, hh⟩
        · rw [hh]
          dsimp only
          unfold finishConfig
          by_cases h5 : e.allowSuppression = true ∧ develMode = false
          · rw [if_pos (by simp [h5.1, h5.2])]
            refine Or.inr ⟨fun ha => ?_, _, rfl⟩
            have := ha.suppression h5.1
            rw [h5.2] at this; cases this
          · rw [if_neg (by cases hx : e.allowSuppression <;> cases hy : develMode <;> simp_all)]
            have hsup : e.allowSuppression = true → develMode = true := by
              intro hx
              cases hy : develMode with
              | true => rfl
              | false => exact absurd ⟨hx, hy⟩ h5
            dsimp only
            cases h6 : checkGenPlugins e.importPath (s.run (fun a b => Str.lt a.name b.name) gs) with
            | error err =>
              have h6' : checkGenPlugins e.importPath (buildConfig e d ((Strs.sortUniq e.excludes).map (locate d))
                (s.run (fun a b => Str.lt a.name b.name) gs) (packagesOf d e.createPackages)
                (headerFrom e.fileHeaderIsCommented text)).gen.plugins = .error err := h6
              rw [h6']
              refine Or.inr ⟨fun ha => ?_, _, rfl⟩
              have := ((plugins_ok (importPath := e.importPath) hf hperm).2 ha.plugins).2
              rw [h6] at this; cases this
            | ok u =>
              have h6' : checkGenPlugins e.importPath (buildConfig e d ((Strs.sortUniq e.excludes).map (locate d))
                (s.run (fun a b => Str.lt a.name b.name) gs) (packagesOf d e.createPackages)
                (headerFrom e.fileHeaderIsCommented text)).gen.plugins = .ok u := h6
              rw [h6']
              dsimp only
              have hpl := (plugins_ok (importPath := e.importPath) hf hperm).1 ⟨h2, h6⟩
              by_cases h7 : (Strs.intersection (Strs.sortUniqModify e.add (some toUpper))
                  (Strs.sortUniqModify e.remove (some toUpper))).length > 0
              · refine Or.inr ⟨fun ha => (rules_iff e).2 ha.rules h7, ?_⟩
                exact ⟨_, if_pos h7⟩
              · refine Or.inl ⟨⟨hex, hpl, h3, ⟨text, ht, htc⟩, hsup, (rules_iff e).1 h7⟩, text, gs, ht, hf, ?_⟩
                exact if_neg h7
        · rw [hh]
          exact Or.inr ⟨fun ha => hn ha.header, err, rfl⟩
      · rw [h4]
        exact Or.inr ⟨fun ha => h3 ha.packages, err, rfl⟩
    · rw [he]
      refine Or.inr ⟨fun ha => h2 fun p hp => ?_, err, rfl⟩
      have := ha.plugins p hp
      obtain ⟨t, ht, _⟩ := this.type
      exact ⟨⟨t, ht⟩, this.output, this.fileSuffix, this.descriptorSet⟩

/-! ## Lines of a generated header -/

theorem mem_trimSpace {s : Str} {c : Char} (h : c ∈ trimSpace s) : c ∈ s := by
  unfold trimSpace trimRightBy trimLeftBy at h
  rw [List.mem_reverse] at h
  have := (List.dropWhile_suffix _).subset h
  rw [List.mem_reverse] at this
  exact (List.dropWhile_suffix _).subset this

theorem headerOf_split (t : Str) :
    splitChar '\n' (headerOf false t) = (getFileHeaderLines t).map commentLine := by
  unfold headerOf
  simp only [Bool.false_eq_true, if_false]
  have hnl : ∀ w ∈ (getFileHeaderLines t).map commentLine, '\n' ∉ w := by
    intro w hw
    unfold getFileHeaderLines at hw
    rw [List.map_map, List.mem_map] at hw
    obtain ⟨x, hx, rfl⟩ := hw
    have h1 := splitChar_no_sep hx
    have h2 : '\n' ∉ trimSpace x := fun h => h1 (mem_trimSpace h)
    show '\n' ∉ commentLine (trimSpace x)
    unfold commentLine
    split
    · decide
    · simp [h2]
  exact splitChar_join '\n' (by
    unfold getFileHeaderLines
    intro e
    exact splitChar_ne_nil _ _ (List.map_eq_nil_iff.1 (List.map_eq_nil_iff.1 e))) hnl

/-- The lines of a header to which comment markers were added. -/
theorem headerOf_lines (t : Str) : ∀ line ∈ splitChar '\n' (headerOf false t),
    line = s%"//" ∨ ∃ rest, line = s%"// " ++ rest := by
  rw [headerOf_split]
  intro line hl
  obtain ⟨x, _, rfl⟩ := List.mem_map.1 hl
  unfold commentLine
  split
  · exact Or.inl rfl
  · exact Or.inr ⟨x, rfl⟩

/-- The text of those lines. -/
theorem headerOf_text (t : Str) : (splitChar '\n' (headerOf false t)).map (fun l => trimSpace (l.drop 2)) =
    (splitChar '\n' (trimSpace t)).map trimSpace := by
  have hid : ∀ x, trimSpace (trimSpace x) = trimSpace x := fun x => trimSpace_eq_self (trimmed_trimSpace x)
  rw [headerOf_split]
  unfold getFileHeaderLines
  rw [List.map_map, List.map_map]
  apply List.map_congr_left
  intro x _
  show trimSpace ((commentLine (trimSpace x)).drop 2) = trimSpace x
  unfold commentLine
  split
  · rename_i h; rw [h]; rfl
  · show trimSpace (' ' :: trimSpace x) = trimSpace x
    have : trimSpace (' ' :: trimSpace x) = trimSpace (trimSpace x) := by
      unfold trimSpace trimLeftBy
      rw [List.dropWhile_cons, if_pos (by decide)]
    rw [this, hid]

/-! ## Create packages as a map -/

theorem packagesOf_foldl {d : Str} (hd : IsAbsPath d) (l : List (Str × Str))
    (hl : ∀ x ∈ l, x.1 ≠ [] ∧ isAbs x.1 = false ∧ x.2 ≠ []) (m : GoMap Str Str) (k : Str) :
    GoMap.get? (l.foldl (fun m x => GoMap.set m (clean (joinPath [d, x.1])) x.2) m) k =
      ((l.reverse.find? fun x => locate d x.1 = k).map (·.2)).or (GoMap.get? m k) := by
  induction l generalizing m with
  | nil => simp
  | cons x l ih =>
    rw [List.foldl_cons, ih (fun y hy => hl y (by simp [hy])), GoMap.get?_set, List.reverse_cons, List.find?_append]
    have hx : clean (joinPath [d, x.1]) = locate d x.1 := by
      unfold locate
      rw [(hl x (by simp)).2.1]
      exact clean_of_isAbsPath (joinPath_isAbsPath hd _)
    rw [hx]
    cases List.find? (fun x => decide (locate d x.1 = k)) l.reverse with
    | some y => rfl
    | none =>
      by_cases h : locate d x.1 = k <;> simp [h]

theorem packagesOf_get? {d : Str} (hd : IsAbsPath d) {l : List (Str × Str)}
    (hl : ∀ x ∈ l, x.1 ≠ [] ∧ isAbs x.1 = false ∧ x.2 ≠ []) (k : Str) :
    GoMap.get? (packagesOf d l) k = (l.reverse.find? fun x => locate d x.1 = k).map (·.2) := by
  unfold packagesOf
  rw [packagesOf_foldl hd l hl]
  cases (l.reverse.find? fun x => locate d x.1 = k).map (·.2) <;> rfl

/-! ## Excludes that stay below -/

theorem foldl_cleanStep_noDots {l stack : List Str} (h : s%".." ∉ l) :
    ∃ a : List Str, l.foldl (cleanStep true) stack = a ++ stack := by
  induction l generalizing stack with
  | nil => exact ⟨[], rfl⟩
  | cons c cs ih =>
    simp only [List.mem_cons, not_or] at h
    rw [List.foldl_cons]
    obtain ⟨a, ha⟩ := ih (stack := cleanStep true stack c) h.2
    rw [ha]
    have hc : cleanStep true stack c = stack ∨ cleanStep true stack c = c :: stack := by
      unfold cleanStep
      split
      · exact Or.inl rfl
      · split
        · exact Or.inl rfl
        · rw [if_neg (fun e => h.1 e.symm)]
          exact Or.inr rfl
    rcases hc with hc | hc
    · exact ⟨a, by rw [hc]⟩
    · exact ⟨a ++ [c], by rw [hc]; simp⟩

/-- A relative path without `..` that is not the directory itself is below the directory. -/
theorem locate_below {d x : Str} (hd : IsAbsPath d) (hx : isAbs x = false) (hdots : s%".." ∉ splitChar '/' x)
    (hne : locate d x ≠ d) : Below (locate d x) d := by
  obtain ⟨cs, hc, rfl⟩ := hd
  unfold locate at hne ⊢
  rw [hx] at hne ⊢
  simp only [Bool.false_eq_true, if_false] at hne ⊢
  obtain ⟨es, he, e⟩ := joinPath_isAbsPath ⟨cs, hc, rfl⟩ x
  rw [e] at hne ⊢
  rw [below_iff he hc]
  have e2 := joinPath_absPath hc x
  obtain ⟨a, ha⟩ := foldl_cleanStep_noDots (stack := cs.reverse) hdots
  rw [ha, e, List.reverse_append, List.reverse_reverse] at e2
  have hcomp : Components (cs ++ a.reverse) := by
    have := foldl_cleanStep_components (stack := cs.reverse) (components_reverse.2 hc)
      (l := splitChar '/' x) fun c h => splitChar_no_sep h
    rw [ha, ← components_reverse, List.reverse_append, List.reverse_reverse] at this
    exact this
  have := absPath_inj he hcomp e2
  refine ⟨⟨a.reverse, this.symm⟩, fun e' => hne (by rw [e'])⟩

theorem excludesBelow_getExcludePrefixes {l r : List Str} {d : Str} (hd : IsAbsPath d)
    (hrel : ∀ x ∈ l, x ≠ [] → isAbs x = false ∧ s%".." ∉ splitChar '/' x)
    (h : getExcludePrefixes l d = .ok r) : ∀ e ∈ r, Below e d := by
  obtain ⟨h1, rfl⟩ := (getExcludePrefixes_iff hd _ _).1 h
  intro e he
  obtain ⟨x, hx, rfl⟩ := List.mem_map.1 he
  obtain ⟨hx, hne⟩ := (mem_sortUniq _ _).1 hx
  obtain ⟨hr, hdots⟩ := hrel x hx hne
  refine locate_below hd hr hdots fun e => ?_
  obtain ⟨t, ht, e2⟩ := h1 x hx hne
  rw [e] at e2
  have := congrArg List.length e2
  rw [List.length_append] at this
  exact ht (List.length_eq_zero_iff.1 (by omega))

end Verif.Settings
