import Verif.Proof.DownloadPath

/-!
# Where protoc is downloaded from and to
-/

namespace Verif.Props

open Verif Str Path Spec Download

/-! ## C49: the URL -/

/-- C49: a given URL is used as it is, on every platform. -/
theorem C49_override (d : Options) (goos goarch : Str) (h : d.protocURL ≠ []) :
    getProtocURL d goos goarch = .ok d.protocURL := by
  unfold getProtocURL
  rw [if_pos h]

/-- C49: without a given URL, the URL is that of the release of the version for the platform, and
there is one exactly on the platforms of the table. -/
theorem C49_url (d : Options) (goos goarch url : Str) (h : d.protocURL = []) :
    getProtocURL d goos goarch = .ok url ↔
      ∃ os unameS unameM tag, ((goos, goarch), os, unameS, unameM) ∈ platforms ∧
        TagOf d.version tag ∧
        url = s%"https://github.com/protocolbuffers/protobuf/releases/download/v" ++ tag ++
          s%"/protoc-" ++ d.version ++ s%"-" ++ os ++ s%"-" ++ unameM ++ s%".zip" := by
  unfold getProtocURL
  rw [if_neg (by simpa using h)]
  constructor
  · intro hu
    cases hg : getUnameSUnameMPaths goos goarch with
    | error e => rw [hg] at hu; cases hu
    | ok p =>
      obtain ⟨s, m⟩ := p
      obtain ⟨os, hm⟩ := uname_ok.1 hg
      rw [hg] at hu
      simp only [protocS_ok hm] at hu
      injection hu with hu
      exact ⟨os, s, m, _, hm, replaceRC_tag d.version, hu.symm⟩
  · rintro ⟨os, s, m, tag, hm, ht, rfl⟩
    rw [uname_ok.2 ⟨os, hm⟩]
    simp only [protocS_ok hm]
    rw [tagOf_unique ht (replaceRC_tag d.version)]

/-- Non-vacuity for `C49_url`: a release candidate on Linux. -/
example : getProtocURL { version := s%"3.11.0-rc-2" } s%"linux" s%"amd64" = .ok
    s%"https://github.com/protocolbuffers/protobuf/releases/download/v3.11.0-rc2/protoc-3.11.0-rc-2-linux-x86_64.zip" := rfl

/-- C49: on other platforms there is an error unless a URL is given. -/
theorem C49_unsupported (d : Options) (goos goarch : Str)
    (h : ∀ p ∈ platforms, p.1 ≠ (goos, goarch)) :
    (∃ e, getProtocURL d goos goarch = .error e) ↔ d.protocURL = [] := by
  constructor
  · rintro ⟨e, he⟩
    apply Classical.byContradiction
    intro hne
    rw [C49_override d goos goarch hne] at he
    cases he
  · intro hu
    cases hg : getProtocURL d goos goarch with
    | error e => exact ⟨e, rfl⟩
    | ok url =>
      obtain ⟨_, _, _, _, hm, _⟩ := (C49_url d goos goarch url hu).1 hg
      exact absurd rfl (h _ hm)

/-- C49: what is downloaded is what the file or the server behind the URL has. Every other kind of
URL, every file that cannot be read and every request that fails is an error, and so is every
status other than 200 unless the URL was given. -/
theorem C49_data (readFile : Str → Except Err Str) (get : Str → Response) (d : Options)
    (goos goarch data : Str) :
    getDownloadData readFile get d goos goarch = .ok data ↔
      ∃ url, getProtocURL d goos goarch = .ok url ∧
        Obtains readFile get (decide (d.protocURL ≠ [])) url data := by
  unfold getDownloadData
  cases hu : getProtocURL d goos goarch with
  | error e => simp
  | ok url =>
    simp only [Except.ok.injEq, exists_eq_left']
    have hpre : ∀ p : Str, hasPrefix url p = true ↔ ∃ r, url = p ++ r := by
      intro p
      rw [show hasPrefix url p = p.isPrefixOf url from rfl, List.isPrefixOf_iff_prefix]
      exact ⟨fun ⟨r, h⟩ => ⟨r, h.symm⟩, fun ⟨r, h⟩ => ⟨r, h.symm⟩⟩
    unfold Obtains
    by_cases hf : hasPrefix url s%"file://" = true
    · obtain ⟨path, rfl⟩ := (hpre _).1 hf
      rw [if_pos hf, show trimPrefix (s%"file://" ++ path) s%"file://" = path by simp [trimPrefix, hasPrefix]]
      constructor
      · exact fun h => .inl ⟨path, rfl, h⟩
      · rintro (⟨p, h1, h2⟩ | ⟨⟨r, h | h⟩, _⟩)
        · rw [List.append_cancel_left h1]; exact h2
        · simp at h
        · simp at h
    · rw [if_neg hf]
      have hnf : ¬ ∃ path, url = s%"file://" ++ path ∧ readFile path = .ok data :=
        fun ⟨p, h, _⟩ => hf ((hpre _).2 ⟨p, h⟩)
      by_cases hh : (hasPrefix url s%"http://" || hasPrefix url s%"https://") = true
      · rw [if_pos hh]
        have hex : ∃ rest, url = s%"http://" ++ rest ∨ url = s%"https://" ++ rest := by
          rw [Bool.or_eq_true, hpre, hpre] at hh
          rcases hh with ⟨r, h⟩ | ⟨r, h⟩
          · exact ⟨r, .inl h⟩
          · exact ⟨r, .inr h⟩
        simp only [hnf, false_or, hex, true_and]
        cases hg : get url with
        | failed e =>
          dsimp only
          constructor
          · intro h; split at h <;> cases h
          · rintro ⟨_, _, h, _⟩; cases h
        | answered status body =>
          dsimp only
          by_cases hs : status = 200
          · subst hs
            rw [if_neg (by simp)]
            constructor
            · exact fun h => ⟨200, body, rfl, .inl ⟨rfl, h⟩⟩
            · rintro ⟨_, _, h, h'⟩
              cases h
              rcases h' with ⟨_, h'⟩ | ⟨h', _⟩
              · exact h'
              · exact absurd rfl h'
          · rw [if_pos hs]
            by_cases hp : d.protocURL = []
            · rw [if_pos hp]
              constructor
              · intro h; cases h
              · rintro ⟨_, _, h, h'⟩
                cases h
                rcases h' with ⟨h', _⟩ | ⟨_, h', _⟩
                · exact absurd h' hs
                · simp [hp] at h'
            · rw [if_neg hp]
              constructor
              · intro h
                injection h with h
                exact ⟨status, body, rfl, .inr ⟨hs, by simpa using hp, h.symm⟩⟩
              · rintro ⟨_, _, h, h'⟩
                cases h
                rcases h' with ⟨h', _⟩ | ⟨_, _, rfl⟩
                · exact absurd h' hs
                · rfl
      · rw [if_neg hh]
        constructor
        · intro h; cases h
        · rintro (h | ⟨⟨r, h⟩, _⟩)
          · exact absurd h hnf
          · refine absurd ?_ hh
            rw [Bool.or_eq_true, hpre, hpre]
            rcases h with h | h
            · exact .inl ⟨r, h⟩
            · exact .inr ⟨r, h⟩

/-- Non-vacuity for `C49_data`: the error page of a server for a given URL is dropped without an
error. -/
example : getDownloadData (fun _ => .error s%"no file") (fun _ => .answered 404 (.ok s%"not found"))
      { version := s%"3.11.0", protocURL := s%"https://a.b/protoc.zip" } s%"linux" s%"amd64" = .ok [] ∧
    getDownloadData (fun p => .ok p) (fun _ => .answered 404 (.ok s%"not found"))
      { version := s%"3.11.0", protocURL := s%"file:///protoc.zip" } s%"linux" s%"amd64" = .ok s%"/protoc.zip" :=
  ⟨rfl, rfl⟩

/-! ## C49: the directory -/

/-- C76: the root of the cache. -/
theorem C76_root {h : Host} {d : Options} {b : Str} (hwd : IsAbsPath h.wd) :
    getBasePathNoVersionOSARCH h d = .ok b ↔ ∃ cs, CacheRoot h d cs ∧ b = absPath cs := by
  unfold getBasePathNoVersionOSARCH
  by_cases hd : d.cachePath = []
  · simp only [hd, if_true]
    have := defaultRoot (h := h) (b := b)
    simp only [cacheRoot_default hd]
    rw [← this]
    cases hg : getDefaultBasePathNoOSARCH h with
    | error e => simp
    | ok b' =>
      unfold checkAbs
      dsimp only
      by_cases ha : isAbs b' = true
      · rw [if_pos ha]
        constructor
        · intro e; injection e with e; subst e; exact ⟨rfl, ha⟩
        · rintro ⟨e, _⟩; exact e
      · rw [if_neg ha]
        constructor
        · intro e; cases e
        · rintro ⟨e, h2⟩; injection e with e; subst e; exact absurd h2 ha
  · simp only [hd, if_false]
    obtain ⟨cs, hc, he⟩ := File.absClean_isAbsPath hwd hd
    unfold checkAbs
    rw [he, if_pos (isAbs_absPath cs)]
    unfold CacheRoot
    simp only [hd, ne_eq, not_false_eq_true, true_and, false_and, or_false, he]
    constructor
    · intro e; injection e with e; subst e; exact ⟨cs, ⟨hc, rfl⟩, rfl⟩
    · rintro ⟨cs', ⟨hc', e⟩, rfl⟩; rw [e]

/-- C49: the directory for a version or URL lies in the root of the cache, below the names of the
platform unless the cache directory is given. There is one exactly if the cache has a root. -/
theorem C49_directory {h : Host} {d : Options} {b : Str} (hwd : IsAbsPath h.wd)
    (hv : Component (directoryName h d)) :
    getBasePath h d = .ok b ↔
      ∃ cs, CacheRoot h d cs ∧ b = absPath (cs ++ belowRoot h d ++ [directoryName h d]) := by
  have hpart : getBasePathVersionPart h d = directoryName h d := by
    unfold getBasePathVersionPart directoryName
    by_cases hu : d.protocURL = []
    · simp [hu]
    · simp [hu]
  unfold getBasePath
  rw [hpart]
  have hone : Components [directoryName h d] := by rw [components_single]; exact hv
  cases hg : getBasePathNoVersion h d with
  | error e =>
    constructor
    · intro e; cases e
    · rintro ⟨cs, hr, _⟩
      rw [(noVersion hwd).2 ⟨cs, hr, rfl⟩] at hg
      cases hg
  | ok b' =>
    obtain ⟨cs, hr, rfl⟩ := (noVersion hwd).1 hg
    have hc : Components (cs ++ belowRoot h d) :=
      components_append.2 ⟨cacheRoot_components hr, belowRoot_components h d⟩
    dsimp only
    rw [joinPath_names (names_absPath hc) hone (by simp)]
    constructor
    · intro e; injection e with e; exact ⟨cs, hr, e.symm⟩
    · rintro ⟨cs', hr', rfl⟩
      rw [(noVersion hwd).2 ⟨cs', hr', rfl⟩] at hg
      obtain rfl : cs = cs' := by
        injection hg with hg
        have := absPath_inj (components_append.2 ⟨cacheRoot_components hr', belowRoot_components h d⟩)
          hc hg
        exact (List.append_cancel_right this).symm
      rfl

/-- C49: the root is unique. -/
theorem C49_one_root {h : Host} {d : Options} {cs cs' : List Str} (hwd : IsAbsPath h.wd)
    (h1 : CacheRoot h d cs) (h2 : CacheRoot h d cs') : cs = cs' := by
  have a := (C76_root hwd).2 ⟨cs, h1, rfl⟩
  have b := (C76_root hwd).2 ⟨cs', h2, rfl⟩
  rw [a] at b
  injection b with b
  exact absPath_inj (cacheRoot_components h1) (cacheRoot_components h2) b

/-- C49: without a given cache directory there is no directory on other platforms. -/
theorem C49_unsupported_directory {h : Host} {d : Options} (hc : d.cachePath = [])
    (hp : ∀ p ∈ platforms, p.1 ≠ (h.goos, h.goarch)) : ∃ e, getBasePath h d = .error e := by
  unfold getBasePath getBasePathNoVersion getDefaultBasePath getDefaultBasePathNoOSARCH
  simp only [hc, if_true]
  cases hg : getUnameSUnameMPaths h.goos h.goarch with
  | error e => exact ⟨_, rfl⟩
  | ok p =>
    obtain ⟨os, hm⟩ := (uname_ok (s := p.1) (m := p.2)).1 hg
    exact absurd rfl (hp _ hm)

/-- C49: the directory depends only on the version, the platform, the given cache directory, the
given URL, the two environment variables and the working directory; the version plays no role if
a URL is given, the platform and the environment variables play none if a cache directory is
given. -/
theorem C49_depends {h h' : Host} {d d' : Options}
    (hsum : h.sum = h'.sum) (hwd : h.wd = h'.wd) (hc : d.cachePath = d'.cachePath)
    (hu : d.protocURL = d'.protocURL) (hv : d.protocURL = [] → d.version = d'.version)
    (he : d.cachePath = [] → h.goos = h'.goos ∧ h.goarch = h'.goarch ∧
      h.getenv s%"XDG_CACHE_HOME" = h'.getenv s%"XDG_CACHE_HOME" ∧
      h.getenv s%"HOME" = h'.getenv s%"HOME") :
    getBasePath h d = getBasePath h' d' ∧
    (h.goos = h'.goos → h.goarch = h'.goarch → d.version = d'.version →
      getProtocURL d h.goos h.goarch = getProtocURL d' h'.goos h'.goarch) := by
  refine ⟨?_, ?_⟩
  · have hpart : getBasePathVersionPart h d = getBasePathVersionPart h' d' := by
      unfold getBasePathVersionPart
      rw [← hu, ← hsum]
      by_cases hn : d.protocURL = []
      · rw [if_neg (by simpa using hn), if_neg (by simpa using hn), hv hn]
      · rw [if_pos hn, if_pos hn]
    have hno : getBasePathNoVersion h d = getBasePathNoVersion h' d' := by
      unfold getBasePathNoVersion
      rw [← hc, ← hwd]
      by_cases hn : d.cachePath = []
      · obtain ⟨e1, e2, e3, e4⟩ := he hn
        have : getDefaultBasePath h = getDefaultBasePath h' := by
          unfold getDefaultBasePath getDefaultBasePathNoOSARCH
          rw [e1, e2, e3, e4]
        rw [this]
      · rw [if_neg hn, if_neg hn]
    unfold getBasePath
    rw [hpart, hno]
  · intro e1 e2 e3
    unfold getProtocURL
    rw [e1, e2, e3, hu]

/-- C49: different versions have different directories. Missing: versions with slashes or dots
only, see `C49_not_distinct`. -/
theorem C49_distinct_partial {h : Host} {d d' : Options} {b b' : Str} (hwd : IsAbsPath h.wd)
    (hc : d.cachePath = d'.cachePath)
    (hv : Component (directoryName h d)) (hv' : Component (directoryName h d'))
    (hne : directoryName h d ≠ directoryName h d')
    (hb : getBasePath h d = .ok b) (hb' : getBasePath h d' = .ok b') :
    ¬ Within b b' ∧ ¬ Within b' b := by
  obtain ⟨cs, hr, rfl⟩ := (C49_directory hwd hv).1 hb
  obtain ⟨cs', hr', rfl⟩ := (C49_directory hwd hv').1 hb'
  have hr2 : CacheRoot h d cs' := by
    unfold CacheRoot at hr' ⊢
    rw [hc]; exact hr'
  obtain rfl := C49_one_root hwd hr hr2
  have hbr : belowRoot h d = belowRoot h d' := by unfold belowRoot; rw [hc]
  have hcs := components_append.2 ⟨cacheRoot_components hr, belowRoot_components h d⟩
  have c1 : Components (cs ++ belowRoot h d ++ [directoryName h d]) :=
    components_append.2 ⟨hcs, by rw [components_single]; exact hv⟩
  have c2 : Components (cs ++ belowRoot h d ++ [directoryName h d']) :=
    components_append.2 ⟨hcs, by rw [components_single]; exact hv'⟩
  rw [← hbr, within_iff c1 c2, within_iff c2 c1]
  constructor
  · intro hp
    have := hp.eq_of_length (by simp)
    exact hne (by simpa using this.symm)
  · intro hp
    have := hp.eq_of_length (by simp)
    exact hne (by simpa using this)

/-- A user on Linux. -/
def sampleHost : Host where
  getenv name := if name = s%"HOME" then s%"/home/u" else []
  wd := s%"/w"
  goos := s%"linux"
  goarch := s%"amd64"
  sum url := s%"sum"

theorem sampleHost_wd : IsAbsPath sampleHost.wd := ⟨[s%"w"], by unfold Components Component; decide, rfl⟩

/-- Non-vacuity for `C49_directory` and `C49_distinct_partial`. -/
example : getBasePath sampleHost { version := s%"3.8.0" } =
      .ok s%"/home/u/.cache/prototool/Linux/x86_64/protobuf/3.8.0" ∧
    getBasePath sampleHost { version := s%"3.9.0" } =
      .ok s%"/home/u/.cache/prototool/Linux/x86_64/protobuf/3.9.0" ∧
    getBasePath sampleHost { version := s%"3.9.0", cachePath := s%"c/" } =
      .ok s%"/w/c/protobuf/3.9.0" ∧
    Component (directoryName sampleHost { version := s%"3.8.0" }) ∧
    Component (directoryName sampleHost { version := s%"3.9.0" }) := by
  refine ⟨rfl, rfl, rfl, ?_, ?_⟩ <;>
    (unfold Component directoryName; decide)

/-- C49 does not hold as stated: versions that are the same path have the same directory, and the
version `..` has the directory of all versions. -/
theorem C49_not_distinct : ∃ (h : Host) (d d' d'' : Options) (b : Str), IsAbsPath h.wd ∧
    d.version ≠ d'.version ∧ getBasePath h d = .ok b ∧ getBasePath h d' = .ok b ∧
    getBasePath h d'' = .ok s%"/home/u/.cache/prototool/Linux/x86_64" ∧ Within b s%"/home/u/.cache/prototool/Linux/x86_64" := by
  refine ⟨sampleHost, { version := s%"3.8.0" }, { version := s%"./3.8.0" }, { version := s%".." },
    s%"/home/u/.cache/prototool/Linux/x86_64/protobuf/3.8.0", sampleHost_wd, by decide,
    rfl, rfl, rfl,
    ⟨[s%"home", s%"u", s%".cache", s%"prototool", s%"Linux", s%"x86_64"], [s%"protobuf", s%"3.8.0"],
      by unfold Components Component; decide, rfl, rfl⟩⟩

/-- C49 does not hold as stated: with a given cache directory, all platforms use the same
directory. -/
theorem C49_not_platform : ∃ (h h' : Host) (d : Options) (b : Str),
    getBasePath h d = .ok b ∧ getBasePath h' d = .ok b ∧
    getProtocURL d h.goos h.goarch ≠ getProtocURL d h'.goos h'.goarch :=
  ⟨sampleHost, { sampleHost with goos := s%"darwin" },
    { version := s%"3.8.0", cachePath := s%"/c" }, s%"/c/protobuf/3.8.0",
    rfl, rfl, by intro e; injection e with e; revert e; decide +kernel⟩

/-! ## C76: deleting the cache -/

/-- C76: deleting the cache removes exactly what is in its root. -/
theorem C76_exactly {h : Host} {d : Options} {cs path : List Str} (disk : Disk)
    (hwd : IsAbsPath h.wd) (hr : CacheRoot h d cs) (hp : Components path) :
    (delete h d disk).2 = none ∧
    (Within (absPath path) (absPath cs) → (delete h d disk).1 (absPath path) = none) ∧
    (¬ Within (absPath path) (absPath cs) →
      (delete h d disk).1 (absPath path) = disk (absPath path)) := by
  have hg := (C76_root hwd).2 ⟨cs, hr, rfl⟩
  have hrem := removed_iff (cacheRoot_components hr) hp
  unfold delete
  rw [hg]
  refine ⟨rfl, ?_, ?_⟩
  · intro hw; dsimp only; rw [if_pos (hrem.2 hw)]
  · intro hw; dsimp only; rw [if_neg (fun e => hw (hrem.1 e))]

/-- C76: without a root there is an error and nothing is deleted. -/
theorem C76_no_root {h : Host} {d : Options} (disk : Disk) (hwd : IsAbsPath h.wd)
    (hr : ¬ ∃ cs, CacheRoot h d cs) :
    (delete h d disk).1 = disk ∧ (delete h d disk).2 ≠ none := by
  unfold delete
  cases hg : getBasePathNoVersionOSARCH h d with
  | error e => exact ⟨rfl, by simp⟩
  | ok b =>
    obtain ⟨cs, hc, _⟩ := (C76_root hwd).1 hg
    exact absurd ⟨cs, hc⟩ hr

/-- C76: deleting the cache removes everything any version, with or without a URL, has downloaded
for this platform, and the lock files. -/
theorem C76_everything {h : Host} {d d' : Options} {b : Str} (disk : Disk) (hwd : IsAbsPath h.wd)
    (hc : d.cachePath = d'.cachePath) (hv : Component (directoryName h d'))
    (hb : getBasePath h d' = .ok b) :
    (delete h d disk).2 = none ∧ (delete h d disk).1 (lockPath b) = none ∧
    ∀ path, Within path b → (delete h d disk).1 path = none := by
  obtain ⟨cs, hr', rfl⟩ := (C49_directory hwd hv).1 hb
  have hr : CacheRoot h d cs := by
    unfold CacheRoot at hr' ⊢
    rw [hc]; exact hr'
  have hcs := components_append.2 ⟨cacheRoot_components hr, belowRoot_components h d'⟩
  have c1 : Components (cs ++ belowRoot h d' ++ [directoryName h d' ++ s%".lock"]) :=
    components_append.2 ⟨hcs, by rw [components_single]; exact component_lock hv⟩
  have c2 : Components (cs ++ belowRoot h d' ++ [directoryName h d']) :=
    components_append.2 ⟨hcs, by rw [components_single]; exact hv⟩
  refine ⟨(C76_exactly disk hwd hr (path := []) (by intro c hc; cases hc)).1, ?_, ?_⟩
  · rw [joinPath_lock rfl]
    refine (C76_exactly disk hwd hr c1).2.1 ((within_iff c1 (cacheRoot_components hr)).2 ?_)
    rw [List.append_assoc]
    exact List.prefix_append _ _
  · intro path hw
    obtain ⟨⟨ps, hps, rfl⟩, _⟩ := within_isAbsPath hw
    refine (C76_exactly disk hwd hr hps).2.1 ((within_iff hps (cacheRoot_components hr)).2 ?_)
    have := (within_iff hps c2).1 hw
    refine List.IsPrefix.trans ?_ this
    rw [List.append_assoc]
    exact List.prefix_append _ _

/-- Non-vacuity for C76. -/
example : CacheRoot sampleHost { version := [] } [s%"home", s%"u", s%".cache", s%"prototool"] := by
  refine Or.inr ⟨rfl, s%"linux", s%"Linux", s%"x86_64", by decide, Or.inr ⟨rfl, [s%"home", s%"u"],
    ⟨by decide, by unfold Components Component; decide, by decide +kernel⟩, by decide⟩⟩

/-- C76: with a given cache directory, files in it that are not part of the cache are deleted
too. -/
theorem C76_not_only : ∃ (h : Host) (d : Options) (disk : Disk) (path : Str),
    IsAbsPath h.wd ∧ disk path ≠ none ∧ (delete h d disk).1 path = none ∧
    ∀ version b, Component version → getBasePath h { d with version := version } = .ok b →
      ¬ Within path b ∧ path ≠ lockPath b := by
  refine ⟨sampleHost, { version := [], cachePath := s%"/home/u" },
    fun p => if p = s%"/home/u/mail" then some [] else none, s%"/home/u/mail", sampleHost_wd,
    by decide, by decide +kernel, ?_⟩
  intro version b hv hb
  have hd : directoryName sampleHost { version := version, cachePath := s%"/home/u" } = version := rfl
  obtain ⟨cs, hr, rfl⟩ := (C49_directory (d := { version := version, cachePath := s%"/home/u" })
    sampleHost_wd hv).1 hb
  have hroot : CacheRoot sampleHost { version := version, cachePath := s%"/home/u" }
      [s%"home", s%"u"] :=
    Or.inl ⟨by simp, by unfold Components Component; decide, rfl⟩
  obtain rfl := C49_one_root sampleHost_wd hr hroot
  have hbr : belowRoot sampleHost { version := version, cachePath := s%"/home/u" } =
      [s%"protobuf"] := rfl
  rw [hbr, hd]
  have hp : Components [s%"home", s%"u", s%"mail"] := by unfold Components Component; decide
  have h3 : Components [s%"home", s%"u", s%"protobuf"] := by unfold Components Component; decide
  have hc1 : Components ([s%"home", s%"u"] ++ [s%"protobuf"] ++ [version]) :=
    components_append.2 ⟨h3, by rw [components_single]; exact hv⟩
  have hc2 : Components ([s%"home", s%"u"] ++ [s%"protobuf"] ++ [version ++ s%".lock"]) :=
    components_append.2 ⟨h3, by rw [components_single]; exact component_lock hv⟩
  rw [show s%"/home/u/mail" = absPath [s%"home", s%"u", s%"mail"] from rfl, within_iff hp hc1,
    joinPath_lock rfl]
  constructor
  · rintro ⟨t, ht⟩
    have := congrArg List.length ht
    simp at this
  · intro e
    have := congrArg List.length (absPath_inj hp hc2 e)
    simp at this

/-! ## C75: an own protoc -/

/-- C75: an own protoc is used exactly if both paths are given, without a URL, and they exist; the
cleaned paths are then what is used. -/
theorem C75_own {stat : Str → Stat} {d d' : Options} (hp : d.protocBinPath ≠ [] ∨ d.protocWKTPath ≠ []) :
    newDownloader stat d = .ok d' ↔
      d.protocURL = [] ∧ d.protocBinPath ≠ [] ∧ d.protocWKTPath ≠ [] ∧
      (∀ e, stat (clean d.protocBinPath) ≠ .notExist e) ∧
      (∀ e, stat (clean d.protocWKTPath) ≠ .notExist e) ∧
      stat (joinPath [clean d.protocWKTPath, s%"google", s%"protobuf"]) = .dir ∧
      d' = { version := if d.version = [] then defaultProtocVersion else d.version
             cachePath := d.cachePath
             protocBinPath := clean d.protocBinPath
             protocWKTPath := clean d.protocWKTPath } := by
  obtain ⟨version, cachePath, url, bin, wkt⟩ := d
  unfold newDownloader
  have hd : (if version = [] then
        (⟨defaultProtocVersion, cachePath, url, bin, wkt⟩ : Options)
      else ⟨version, cachePath, url, bin, wkt⟩) =
      ⟨if version = [] then defaultProtocVersion else version, cachePath, url, bin, wkt⟩ := by
    split <;> rfl
  dsimp only at hp ⊢
  rw [hd]
  dsimp only
  rw [if_pos hp]
  by_cases hu : url = []
  · rw [if_neg (by simpa using hu)]
    subst hu
    by_cases hb : bin = [] ∨ wkt = []
    · rw [if_pos hb]
      constructor
      · intro e; cases e
      · rintro ⟨_, h1, h2, _⟩; rcases hb with hb | hb <;> contradiction
    · rw [if_neg hb]
      rw [not_or] at hb
      cases h1 : stat (clean bin) <;> cases h2 : stat (clean wkt) <;>
        cases h3 : stat (joinPath [clean wkt, s%"google", s%"protobuf"]) <;>
        simp [hb.1, hb.2, Eq.comm]
  · rw [if_pos hu]
    constructor
    · intro e; cases e
    · rintro ⟨h, _⟩; exact absurd h hu

/-- C75: with an own protoc nothing is downloaded: the paths do not depend on the download. -/
theorem C75_nothing_downloaded {stat : Str → Stat} {d d' : Options}
    (hp : d.protocBinPath ≠ [] ∨ d.protocWKTPath ≠ []) (h : newDownloader stat d = .ok d')
    (downloaded : Except Err Str) :
    protocPath d' downloaded = .ok (clean d.protocBinPath) ∧
    wktIncludePath d' downloaded = .ok (clean d.protocWKTPath) := by
  obtain ⟨_, _, _, _, _, _, rfl⟩ := (C75_own hp).1 h
  unfold protocPath wktIncludePath
  exact ⟨if_pos (clean_ne_nil _), if_pos (clean_ne_nil _)⟩

/-- C75: without an own protoc the downloaded one is used. -/
theorem C75_downloaded {stat : Str → Stat} {d : Options} (h1 : d.protocBinPath = [])
    (h2 : d.protocWKTPath = []) :
    ∃ d', newDownloader stat d = .ok d' ∧ d'.protocURL = d.protocURL ∧ d'.cachePath = d.cachePath ∧
      d'.version = (if d.version = [] then defaultProtocVersion else d.version) ∧
      ∀ cs, Components cs →
        protocPath d' (.ok (absPath cs)) = .ok (absPath (cs ++ [s%"bin", s%"protoc"])) ∧
        wktIncludePath d' (.ok (absPath cs)) = .ok (absPath (cs ++ [s%"include"])) := by
  obtain ⟨version, cachePath, url, bin, wkt⟩ := d
  dsimp only at h1 h2
  subst h1 h2
  refine ⟨⟨if version = [] then defaultProtocVersion else version, cachePath, url, [], []⟩, ?_, rfl, rfl,
    rfl, ?_⟩
  · unfold newDownloader
    dsimp only
    split <;> simp
  · intro cs hc
    unfold protocPath wktIncludePath
    simp only [ne_eq, not_true_eq_false, if_false]
    constructor
    · rw [joinPath_names (names_absPath hc) (by unfold Components Component; decide) (by simp)]
    · rw [joinPath_names (names_absPath hc) (by unfold Components Component; decide) (by simp)]

/-- Non-vacuity for C75. -/
example : newDownloader (fun _ => .dir)
    { version := s%"3.8.0", protocBinPath := s%"b//protoc", protocWKTPath := s%"i/" } =
    .ok { version := s%"3.8.0", protocBinPath := s%"b/protoc", protocWKTPath := s%"i" } := by
  decide +kernel

/-- C75: if `google/protobuf` in the given directory cannot be looked at for a reason other than
that it does not exist, the program panics. -/
theorem C75_not : ∃ stat d, newDownloader stat d = .panic :=
  ⟨fun p => if p = s%"i/google/protobuf" then .failed s%"permission denied" else .dir,
    { version := [], protocBinPath := s%"b", protocWKTPath := s%"i" }, by decide +kernel⟩

end Verif.Props
