import Verif.Proof.Download
import Verif.Proof.CompileArgs
import Verif.Proof.Walk

/-!
# Helper lemmas: where the cache is
-/

namespace Verif.Props

open Verif Str Path Spec Download

theorem splitChar_append_any (c : Char) (p s : Str) :
    splitChar c (p ++ c :: s) = splitChar c p ++ splitChar c s := by
  induction p with
  | nil => simp [splitChar]
  | cons x xs ih =>
    rw [List.cons_append]
    by_cases h : x = c
    · subst h
      simp only [splitChar, if_true, ih, List.cons_append]
    · simp only [splitChar, if_neg h, ih]
      have := splitChar_ne_nil c xs
      cases hs : splitChar c xs with
      | nil => exact absurd hs this
      | cons a as => rfl

theorem joinPath_cons {p : Str} (hp : p ≠ []) (cs : List Str) (hne : cs ≠ []) :
    joinPath (p :: cs) = clean (p ++ '/' :: join s%"/" cs) := by
  unfold joinPath
  rw [List.dropWhile_cons, if_neg (by simpa using hp)]
  cases cs with
  | nil => exact absurd rfl hne
  | cons c cs =>
    simp only [join]
    simp

theorem joinPath_names {p : Str} {xs cs : List Str} (h : Names p xs) (hc : Components cs)
    (hne : cs ≠ []) : joinPath (p :: cs) = absPath (xs ++ cs) := by
  obtain ⟨ha, hx, he⟩ := h
  have hp : p ≠ [] := by rintro rfl; cases ha
  have hx' : cleanComps true p = xs := by
    rw [clean_of_abs ha] at he
    exact absPath_inj (cleanComps_components p) hx he
  have hab : isAbs (p ++ '/' :: join s%"/" cs) = true := by
    unfold isAbs at ha ⊢
    rw [hasPrefix_iff] at ha ⊢
    obtain ⟨t, rfl⟩ := ha
    exact ⟨_, List.append_assoc _ _ _⟩
  rw [joinPath_cons hp cs hne, clean_of_abs hab]
  unfold cleanComps
  rw [splitChar_append_any, List.foldl_append, splitChar_join '/' hne (noSlash hc), foldl_cleanStep hc]
  rw [List.reverse_append, List.reverse_reverse]
  congr 2

theorem cleanComps_relative (p : Str) : ∀ c ∈ cleanComps false p, '/' ∉ c ∧ c ≠ [] := by
  have hall : ∀ (l stack : List Str), (∀ c ∈ l, '/' ∉ c) → (∀ c ∈ stack, '/' ∉ c ∧ c ≠ []) →
      ∀ c ∈ l.foldl (cleanStep false) stack, '/' ∉ c ∧ c ≠ [] := by
    intro l
    induction l with
    | nil => intro stack _ h; exact h
    | cons a l ih =>
      intro stack hl hs
      rw [List.foldl_cons]
      refine ih _ (fun c hc => hl c (by simp [hc])) ?_
      intro c hc
      unfold cleanStep at hc
      split at hc
      · exact hs c hc
      split at hc
      · exact hs c hc
      split at hc
      · cases stack with
        | nil =>
          simp only [Bool.false_eq_true, if_false, List.mem_singleton] at hc
          subst hc
          decide
        | cons t ts =>
          simp only at hc
          split at hc
          · rcases List.mem_cons.1 hc with e | e
            · subst e; decide
            · exact hs c e
          · exact hs c (by simp [hc])
      · rename_i h1 _ _
        rcases List.mem_cons.1 hc with e | e
        · subst e; exact ⟨hl _ (by simp), h1⟩
        · exact hs c e
  intro c hc
  unfold cleanComps at hc
  rw [List.mem_reverse] at hc
  exact hall _ [] (fun c hc => splitChar_no_sep hc) (by simp) c hc

theorem isAbs_clean {p : Str} (h : isAbs p = false) : isAbs (clean p) = false := by
  unfold clean
  simp only [h, if_false, Bool.false_eq_true]
  split
  · rfl
  · rename_i hne
    have hc := cleanComps_relative p
    cases hcc : cleanComps false p with
    | nil => exact absurd hcc hne
    | cons a l =>
      have ha := hc a (by rw [hcc]; simp)
      cases a with
      | nil => exact absurd rfl ha.2
      | cons x a =>
        have hx : x ≠ '/' := fun e => ha.1 (by simp [e])
        have hj : ∃ t, join s%"/" ((x :: a) :: l) = x :: t := by
          cases l with
          | nil => exact ⟨a, rfl⟩
          | cons b l => exact ⟨_, rfl⟩
        obtain ⟨t, ht⟩ := hj
        rw [ht]
        unfold isAbs hasPrefix
        show ('/' == x && _) = false
        rw [show ('/' == x) = false by simpa using Ne.symm hx, Bool.false_and]

theorem clean_ne_nil (p : Str) : clean p ≠ [] := by
  cases hab : isAbs p with
  | true => rw [clean_of_abs hab, absPath_eq]; simp
  | false =>
    unfold clean
    simp only [hab, Bool.false_eq_true, if_false]
    split
    · decide
    · rename_i hz
      have hc := cleanComps_relative p
      cases hl : cleanComps false p with
      | nil => exact absurd hl hz
      | cons a l =>
        have ha := (hc a (by rw [hl]; simp)).2
        cases l with
        | nil => exact ha
        | cons b l => simp [join]

theorem joinPath_ne_nil {p : Str} (hp : p ≠ []) (cs : List Str) (hne : cs ≠ []) :
    joinPath (p :: cs) ≠ [] := by
  rw [joinPath_cons hp cs hne]
  exact clean_ne_nil _

theorem isAbs_joinPath {p : Str} (hp : p ≠ []) (h : isAbs p = false) (cs : List Str) (hne : cs ≠ []) :
    isAbs (joinPath (p :: cs)) = false := by
  rw [joinPath_cons hp cs hne]
  refine isAbs_clean ?_
  cases p with
  | nil => exact absurd rfl hp
  | cons x p =>
    exact h

theorem names_of_abs {p : Str} (h : isAbs p = true) : ∃ cs, Names p cs := by
  obtain ⟨cs, hc, he⟩ := clean_isAbsPath h
  exact ⟨cs, h, hc, he⟩

theorem uname_ok {goos goarch s m : Str} :
    getUnameSUnameMPaths goos goarch = .ok (s, m) ↔ ∃ os, ((goos, goarch), os, s, m) ∈ platforms := by
  unfold getUnameSUnameMPaths platforms
  by_cases h1 : goos = s%"darwin"
  · subst h1
    by_cases h2 : goarch = s%"amd64"
    · subst h2
      simp [Eq.comm]
    · simp [h2]
  · by_cases h3 : goos = s%"linux"
    · subst h3
      by_cases h2 : goarch = s%"amd64"
      · subst h2
        simp [Eq.comm]
      · simp [h2]
    · simp [h1, h3]

theorem protocS_ok {goos goarch os s m : Str} (h : ((goos, goarch), os, s, m) ∈ platforms) :
    getProtocSPath goos = .ok os := by
  unfold platforms at h
  simp only [List.mem_cons, Prod.mk.injEq, List.not_mem_nil, or_false] at h
  rcases h with ⟨⟨rfl, rfl⟩, rfl, _⟩ | ⟨⟨rfl, rfl⟩, rfl, _⟩ <;> rfl

/-- Every version has exactly one tag. -/
theorem replaceRC_tag (version : Str) : TagOf version (replaceRC version) := by
  have hsplit : version = (version.reverse.dropWhile isDigit).reverse ++
      (version.reverse.takeWhile isDigit).reverse := by
    rw [← List.reverse_append, List.takeWhile_append_dropWhile, List.reverse_reverse]
  have hdig : ∀ c ∈ (version.reverse.takeWhile isDigit).reverse, isDigit c = true := by
    intro c hc
    rw [List.mem_reverse] at hc
    exact (List.all_eq_true.1 List.all_takeWhile) c hc
  unfold replaceRC
  dsimp only
  by_cases h : (version.reverse.takeWhile isDigit).reverse ≠ [] ∧
      hasSuffix (version.reverse.dropWhile isDigit).reverse s%"rc-" = true
  · rw [if_pos h]
    left
    obtain ⟨t, ht⟩ := hasSuffix_iff.1 h.2
    refine ⟨t, (version.reverse.takeWhile isDigit).reverse, ?_, h.1, hdig, ?_⟩
    · rw [← ht]; exact hsplit
    · rw [ht]
      congr 1
      have e : t ++ s%"rc-" = (t ++ s%"rc") ++ s%"-" := by simp
      rw [e, List.length_append, show (s%"-").length = 1 from rfl, Nat.add_sub_cancel,
        List.take_left]
  · rw [if_neg h]
    right
    refine ⟨?_, rfl⟩
    rintro ⟨before, digits, hv, hne, hd⟩
    apply h
    have hr : version.reverse = digits.reverse ++ ('-' :: 'c' :: 'r' :: before.reverse) := by
      rw [hv]; simp
    have hall : ∀ c ∈ digits.reverse, isDigit c = true := fun c hc => hd c (List.mem_reverse.1 hc)
    have h1 : version.reverse.takeWhile isDigit = digits.reverse := by
      rw [hr, List.takeWhile_append_of_pos hall, List.takeWhile_cons,
        if_neg (by decide), List.append_nil]
    have h2 : version.reverse.dropWhile isDigit = '-' :: 'c' :: 'r' :: before.reverse := by
      rw [hr, List.dropWhile_append_of_pos hall, List.dropWhile_cons, if_neg (by decide)]
    rw [h1, h2, List.reverse_reverse]
    refine ⟨hne, hasSuffix_iff.2 ⟨before, ?_⟩⟩
    simp

theorem tagOf_unique {version tag tag' : Str} (h : TagOf version tag) (h' : TagOf version tag') :
    tag = tag' := by
  have key : ∀ {b d b' d' : Str}, b ++ s%"rc-" ++ d = b' ++ s%"rc-" ++ d' →
      (∀ c ∈ d, isDigit c = true) → (∀ c ∈ d', isDigit c = true) → b = b' ∧ d = d' := by
    intro b d b' d' e hd hd'
    have er := congrArg List.reverse e
    have hall : ∀ {x : Str}, (∀ c ∈ x, isDigit c = true) → ∀ c ∈ x.reverse, isDigit c = true :=
      fun hx c hc => hx c (List.mem_reverse.1 hc)
    have f : ∀ (x y : Str), (∀ c ∈ y, isDigit c = true) →
        (x ++ s%"rc-" ++ y).reverse.takeWhile isDigit = y.reverse := by
      intro x y hy
      rw [show (x ++ s%"rc-" ++ y).reverse = y.reverse ++ ('-' :: 'c' :: 'r' :: x.reverse) by simp,
        List.takeWhile_append_of_pos (hall hy), List.takeWhile_cons, if_neg (by decide),
        List.append_nil]
    have ed : d = d' := by
      have := congrArg (List.takeWhile isDigit) er
      rw [f b d hd, f b' d' hd'] at this
      exact List.reverse_inj.1 this
    subst ed
    have := List.append_cancel_right e
    exact ⟨List.append_cancel_right this, rfl⟩
  rcases h with ⟨b, d, e, hne, hd, rfl⟩ | ⟨hn, rfl⟩
  · rcases h' with ⟨b', d', e', hne', hd', rfl⟩ | ⟨hn', rfl⟩
    · obtain ⟨rfl, rfl⟩ := key (e.symm.trans e') hd hd'
      rfl
    · exact absurd ⟨b, d, e, hne, hd⟩ hn'
  · rcases h' with ⟨b', d', e', hne', hd', rfl⟩ | ⟨_, rfl⟩
    · exact absurd ⟨b', d', e', hne', hd'⟩ hn
    · rfl

theorem platforms_functional {p q : (Str × Str) × Str × Str × Str} (hp : p ∈ platforms)
    (hq : q ∈ platforms) (h : p.1 = q.1) : p = q := by
  unfold platforms at hp hq
  simp only [List.mem_cons, List.not_mem_nil, or_false] at hp hq
  rcases hp with rfl | rfl <;> rcases hq with rfl | rfl <;> first | rfl | (revert h; decide)

theorem filter_platforms {p : (Str × Str) × Str × Str × Str} (hp : p ∈ platforms) :
    platforms.filter (fun q => q.1 = p.1) = [p] := by
  unfold platforms at hp
  simp only [List.mem_cons, List.not_mem_nil, or_false] at hp
  rcases hp with rfl | rfl <;> decide

theorem component_names : ∀ c ∈ [s%"prototool", s%"protobuf", s%"Darwin", s%"Linux", s%"x86_64",
    s%"Library", s%"Caches", s%".cache"], Component c := by
  unfold Component; decide

theorem defaultBelow_components (s : Str) : Components (defaultBelow s) := by
  unfold defaultBelow
  split <;> (unfold Components Component; decide)

theorem platform_cases {os s m goos goarch : Str} (h : ((goos, goarch), os, s, m) ∈ platforms) :
    (s = s%"Darwin" ∨ s = s%"Linux") ∧ m = s%"x86_64" := by
  unfold platforms at h
  simp only [List.mem_cons, Prod.mk.injEq, List.not_mem_nil, or_false] at h
  rcases h with ⟨_, _, rfl, rfl⟩ | ⟨_, _, rfl, rfl⟩ <;> simp

/-- The root for the default directory. -/
theorem defaultRoot {h : Host} {b : Str} :
    (getDefaultBasePathNoOSARCH h = .ok b ∧ isAbs b = true) ↔
    ∃ cs, CacheRoot h { version := [], cachePath := [] } cs ∧ b = absPath cs := by
  unfold getDefaultBasePathNoOSARCH CacheRoot
  simp only [ne_eq, not_true_eq_false, false_and, false_or, true_and]
  cases hg : getUnameSUnameMPaths h.goos h.goarch with
  | error e =>
    constructor
    · rintro ⟨h, _⟩; cases h
    · rintro ⟨cs, ⟨os, s, m, hm, _⟩, _⟩
      rw [uname_ok.2 ⟨os, hm⟩] at hg
      cases hg
  | ok p =>
    obtain ⟨s, m⟩ := p
    obtain ⟨os, hm⟩ := uname_ok.1 hg
    obtain ⟨hs, _⟩ := platform_cases hm
    have hone : Components [s%"prototool"] := by unfold Components Component; decide
    by_cases hx : h.getenv s%"XDG_CACHE_HOME" = []
    · simp only [hx, not_true_eq_false, if_false, false_and, false_or, true_and, ne_eq]
      by_cases hh : h.getenv s%"HOME" = []
      · simp only [hh, if_true]
        constructor
        · rintro ⟨h, _⟩; cases h
        · rintro ⟨cs, ⟨_, _, _, _, hs, hn, _⟩, _⟩
          have := hn.1
          cases this
      · rw [if_neg hh]
        have hval : ∀ b, (if s = s%"Darwin" then
              Except.ok (joinPath [h.getenv s%"HOME", s%"Library", s%"Caches", s%"prototool"])
            else if s = s%"Linux" then
              .ok (joinPath [h.getenv s%"HOME", s%".cache", s%"prototool"])
            else .error (s%"invalid value for uname -s: " ++ s)) = Except.ok (ε := Err) b ↔
            b = joinPath (h.getenv s%"HOME" :: (defaultBelow s ++ [s%"prototool"])) := by
          intro b
          unfold defaultBelow
          rcases hs with rfl | rfl
          · simp [Eq.comm]
          · simp [Eq.comm]
        rw [hval]
        have hc : Components (defaultBelow s ++ [s%"prototool"]) :=
          components_append.2 ⟨defaultBelow_components s, hone⟩
        constructor
        · rintro ⟨rfl, ha⟩
          cases hab : isAbs (h.getenv s%"HOME") with
          | false => rw [isAbs_joinPath hh hab _ (by simp)] at ha; cases ha
          | true =>
            obtain ⟨hs', hn⟩ := names_of_abs hab
            exact ⟨_, ⟨os, s, m, hm, hs', hn, rfl⟩, by
              rw [joinPath_names hn hc (by simp), List.append_assoc]⟩
        · rintro ⟨cs, ⟨os', s', m', hm', hs', hn, rfl⟩, rfl⟩
          have e := platforms_functional hm hm' rfl
          simp only [Prod.mk.injEq, true_and] at e
          obtain ⟨rfl, rfl, rfl⟩ := e
          exact ⟨by rw [joinPath_names hn hc (by simp), List.append_assoc], isAbs_absPath _⟩
    · simp only [hx, not_false_eq_true, if_true, true_and, false_and, or_false, ne_eq]
      constructor
      · rintro ⟨h1, ha⟩
        injection h1 with h1
        subst h1
        cases hab : isAbs (h.getenv s%"XDG_CACHE_HOME") with
        | false => rw [isAbs_joinPath hx hab _ (by simp)] at ha; cases ha
        | true =>
          obtain ⟨hs', hn⟩ := names_of_abs hab
          exact ⟨_, ⟨os, s, m, hm, hs', hn, rfl⟩, joinPath_names hn hone (by simp)⟩
      · rintro ⟨cs, ⟨os', s', m', hm', hs', hn, rfl⟩, rfl⟩
        exact ⟨congrArg _ (joinPath_names hn hone (by simp)), isAbs_absPath _⟩

theorem cacheRoot_default {h : Host} {d : Options} {cs : List Str} (hd : d.cachePath = []) :
    CacheRoot h d cs ↔ CacheRoot h { version := [], cachePath := [] } cs := by
  unfold CacheRoot
  simp [hd]

/-- The components of the root are components. -/
theorem cacheRoot_components {h : Host} {d : Options} {cs : List Str} (hr : CacheRoot h d cs) :
    Components cs := by
  have hone : Components [s%"prototool"] := by unfold Components Component; decide
  rcases hr with ⟨_, h, _⟩ | ⟨_, os, s, m, _, ⟨_, xs, hn, rfl⟩ | ⟨_, hs, hn, rfl⟩⟩
  · exact h
  · exact components_append.2 ⟨hn.2.1, hone⟩
  · exact components_append.2 ⟨components_append.2 ⟨hn.2.1, defaultBelow_components _⟩, hone⟩

theorem belowRoot_components (h : Host) (d : Options) : Components (belowRoot h d) := by
  unfold belowRoot
  refine components_append.2 ⟨?_, by unfold Components Component; decide⟩
  split
  · intro c hc
    obtain ⟨p, hp, hc⟩ := List.mem_flatMap.1 hc
    have := (List.mem_filter.1 hp).1
    obtain ⟨h1, h2⟩ := platform_cases (goos := p.1.1) (goarch := p.1.2) (os := p.2.1) this
    simp only [List.mem_cons, List.not_mem_nil, or_false] at hc
    rcases hc with rfl | rfl
    · rcases h1 with h1 | h1 <;> rw [h1] <;> (unfold Component; decide)
    · rw [h2]; unfold Component; decide
  · intro c hc; cases hc

theorem names_absPath {cs : List Str} (hc : Components cs) : Names (absPath cs) cs :=
  ⟨isAbs_absPath cs, hc, clean_absPath hc⟩

theorem noVersion {h : Host} {d : Options} {b : Str} (hwd : IsAbsPath h.wd) :
    getBasePathNoVersion h d = .ok b ↔
      ∃ cs, CacheRoot h d cs ∧ b = absPath (cs ++ belowRoot h d) := by
  have hone : Components [s%"protobuf"] := by unfold Components Component; decide
  unfold getBasePathNoVersion
  by_cases hd : d.cachePath = []
  · simp only [hd, if_true]
    unfold getDefaultBasePath
    cases hg : getDefaultBasePathNoOSARCH h with
    | error e =>
      simp only [cacheRoot_default hd]
      constructor
      · intro e; cases e
      · rintro ⟨cs, hr, _⟩
        have := (defaultRoot (h := h) (b := absPath cs)).2 ⟨cs, hr, rfl⟩
        rw [hg] at this
        cases this.1
    | ok b' =>
      dsimp only
      cases hu : getUnameSUnameMPaths h.goos h.goarch with
      | error e =>
        unfold getDefaultBasePathNoOSARCH at hg
        rw [hu] at hg
        cases hg
      | ok p =>
        obtain ⟨s, m⟩ := p
        obtain ⟨os, hm⟩ := uname_ok.1 hu
        obtain ⟨hs, hm2⟩ := platform_cases hm
        have htwo : Components [s, m] := by
          rw [hm2]
          rcases hs with rfl | rfl <;> (unfold Components Component; decide)
        have hbr : belowRoot h d = [s, m] ++ [s%"protobuf"] := by
          unfold belowRoot
          rw [if_pos hd]
          have := filter_platforms hm
          dsimp only at this
          rw [this]
          rfl
        dsimp only
        cases hab : isAbs b' with
        | false =>
          have hne : b' ≠ [] := by
            rintro rfl
            unfold getDefaultBasePathNoOSARCH at hg
            rw [hu] at hg
            dsimp only at hg
            split at hg
            · rename_i hx
              injection hg with hg
              exact joinPath_ne_nil hx _ (by simp) hg
            · split at hg
              · cases hg
              · rename_i hh
                split at hg
                · injection hg with hg
                  exact joinPath_ne_nil hh _ (by simp) hg
                · split at hg
                  · injection hg with hg
                    exact joinPath_ne_nil hh _ (by simp) hg
                  · cases hg
          unfold checkAbs
          rw [isAbs_joinPath hne hab _ (by simp)]
          simp only [Bool.false_eq_true, if_false, cacheRoot_default hd]
          constructor
          · intro e; cases e
          · rintro ⟨cs, hr, _⟩
            have := (defaultRoot (h := h) (b := absPath cs)).2 ⟨cs, hr, rfl⟩
            rw [hg] at this
            have h1 := this.1
            injection h1 with h1
            rw [h1, isAbs_absPath] at hab
            cases hab
        | true =>
          obtain ⟨cs, hr, rfl⟩ := (defaultRoot (h := h) (b := b')).1 ⟨hg, hab⟩
          have hc := cacheRoot_components hr
          have e1 : joinPath [absPath cs, s, m] = absPath (cs ++ [s, m]) :=
            joinPath_names (names_absPath hc) htwo (by simp)
          have e2 : joinPath [absPath (cs ++ [s, m]), s%"protobuf"] =
              absPath (cs ++ [s, m] ++ [s%"protobuf"]) :=
            joinPath_names (names_absPath (components_append.2 ⟨hc, htwo⟩)) hone (by simp)
          unfold checkAbs
          rw [e1, if_pos (isAbs_absPath _)]
          dsimp only
          rw [e2, hbr]
          constructor
          · intro e
            injection e with e
            exact ⟨cs, (cacheRoot_default hd).2 hr, by rw [← e, List.append_assoc]⟩
          · rintro ⟨cs', hr', rfl⟩
            have := (defaultRoot (h := h) (b := absPath cs')).2 ⟨cs', (cacheRoot_default hd).1 hr', rfl⟩
            rw [hg] at this
            have h1 := this.1
            injection h1 with h1
            rw [absPath_inj hc (cacheRoot_components hr') h1, List.append_assoc]
  · have hbr : belowRoot h d = [s%"protobuf"] := by unfold belowRoot; rw [if_neg hd]; rfl
    simp only [hd, if_false]
    obtain ⟨cs, hc, he⟩ := File.absClean_isAbsPath hwd hd
    have e2 : joinPath [absPath cs, s%"protobuf"] = absPath (cs ++ [s%"protobuf"]) :=
      joinPath_names (names_absPath hc) hone (by simp)
    unfold checkAbs
    rw [he, if_pos (isAbs_absPath cs)]
    dsimp only
    rw [e2, hbr]
    unfold CacheRoot
    simp only [hd, ne_eq, not_false_eq_true, true_and, false_and, or_false, he]
    constructor
    · intro e; injection e with e; exact ⟨cs, ⟨hc, rfl⟩, e.symm⟩
    · rintro ⟨cs', ⟨hc', e⟩, rfl⟩; rw [absPath_inj hc hc' e]

theorem removed_iff {root path : List Str} (hr : Components root) (hp : Components path) :
    removed (absPath root) (absPath path) = true ↔ Within (absPath path) (absPath root) := by
  rw [within_iff hp hr]
  unfold removed
  simp only [Bool.or_eq_true, decide_eq_true_eq]
  by_cases hroot : root = []
  · subst hroot
    rw [if_pos (show absPath [] = s%"/" from rfl)]
    have : hasPrefix (absPath path) (absPath []) = true := by
      rw [absPath_eq path]; rfl
    simp [this]
  · have hn : absPath root ≠ s%"/" := fun e =>
      hroot (absPath_inj hr (b := []) (by intro c hc; cases hc) e)
    rw [if_neg hn]
    constructor
    · rintro (e | e)
      · rw [absPath_inj hp hr e]; exact List.prefix_refl _
      · obtain ⟨t, ht⟩ := hasPrefix_iff.1 e
        have hpne : path ≠ [] := by
          rintro rfl
          rw [absPath_eq root] at ht
          have : (s%"/").length = ('/' :: join s%"/" root ++ s%"/" ++ t).length :=
            congrArg List.length ht
          simp at this
        have hs := split_absPath hp hpne
        rw [ht, List.append_assoc, show s%"/" ++ t = '/' :: t from rfl, splitChar_append_any,
          split_absPath hr hroot, List.cons_append] at hs
        exact ⟨_, (List.cons.inj hs).2⟩
    · rintro ⟨t, rfl⟩
      by_cases ht : t = []
      · left; rw [ht, List.append_nil]
      · right
        refine hasPrefix_iff.2 ⟨join s%"/" t, ?_⟩
        rw [← joinPath_names (names_absPath hr) (fun c hc => hp c (by simp [hc])) ht,
          joinPath_cons (by rw [absPath_eq]; simp) t ht]
        have hcl : absPath root ++ '/' :: join s%"/" t = absPath (root ++ t) := by
          rw [absPath_eq, absPath_eq]
          clear hn hp
          induction root with
          | nil => exact absurd rfl hroot
          | cons a root ih =>
            cases root with
            | nil =>
              cases t with
              | nil => exact absurd rfl ht
              | cons b t => simp [join]
            | cons a' root =>
              have := ih (fun c hc => hr c (by simp [hc])) (by simp)
              simp only [List.cons_append, List.cons.injEq, true_and, join, List.append_assoc] at this ⊢
              rw [this]
        rw [hcl, clean_absPath hp, ← hcl]
        simp

theorem joinPath_lock {b : Str} {cs : List Str} {v : Str} (h : b = absPath (cs ++ [v])) :
    lockPath b = absPath (cs ++ [v ++ s%".lock"]) := by
  subst h
  unfold lockPath
  rw [absPath_eq, absPath_eq, List.cons_append]
  congr 1
  cases cs with
  | nil => rfl
  | cons c cs =>
    rw [join_append_last _ (by simp), join_append_last _ (by simp)]
    simp

theorem component_lock {v : Str} (h : Component v) : Component (v ++ s%".lock") := by
  obtain ⟨_, h2, _, _⟩ := h
  have hl : ∀ x : Str, x.length < 5 → v ++ s%".lock" ≠ x := by
    intro x hx e
    have := congrArg List.length e
    rw [List.length_append, show (s%".lock").length = 5 from rfl] at this
    omega
  refine ⟨hl _ (by decide), ?_, hl _ (by decide), hl _ (by decide)⟩
  simp only [List.mem_append, not_or]
  exact ⟨h2, by decide⟩

end Verif.Props
