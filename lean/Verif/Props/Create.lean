import Verif.Proof.CreateText
import Verif.Props.FormatFix
import Verif.Spec.ExecSample

/-!
# C39, C40, C41: `create`
-/

namespace Verif.Props

open Verif Str Exec Path Spec Create
open Verif.Format (fileOptions_eq packages_eq)

/-! ## C39: nothing is overwritten -/

/-- If one of the paths is unfit, the command fails and nothing has changed. -/
theorem C39_refused (h : Handler) (host : Host) (w : World) (paths : List Str)
    (hu : ∃ p ∈ paths, Unfit host w.disk p) :
    ∃ e, createCmd h host paths w = (w, .error e) := by
  obtain ⟨p, hp, hu⟩ := hu
  unfold createCmd Run.bind
  rcases checks_cases host w paths with ⟨e, he⟩ | ⟨_, hs⟩
  · rw [he]; exact ⟨e, rfl⟩
  · exact absurd hu (hs p hp)

/-- However it ends, it prints nothing and changes no other files than those it is given. -/
theorem C39_only (h : Handler) (host : Host) (w : World) (paths : List Str) :
    let w' := (createCmd h host paths w).1
    w'.out = w.out ∧
    (∃ written, w'.writes = w.writes ++ written ∧ ∀ x ∈ written, ∃ p ∈ paths, x.1 = located host p) ∧
    ∀ q, (∀ p ∈ paths, q ≠ located host p) → w'.disk q = w.disk q := by
  dsimp only
  unfold createCmd Run.bind
  rcases checks_cases host w paths with ⟨e, he⟩ | ⟨he, _⟩
  · rw [he]; exact ⟨rfl, ⟨[], by simp, by simp⟩, fun _ _ => rfl⟩
  · rw [he]; exact creates_frame h host paths w

/-- However it ends, a file with content keeps it. -/
theorem C39_kept (h : Handler) (host : Host) (w : World) (paths : List Str) (q data : Str)
    (hd : w.disk q = some data) (hn : data ≠ []) :
    (createCmd h host paths w).1.disk q = some data := by
  rcases Classical.em (∃ p ∈ paths, q = located host p) with ⟨p, hp, rfl⟩ | hno
  · obtain ⟨e, he⟩ := C39_refused h host w paths ⟨p, hp, .inr (.inr ⟨data, hd, hn⟩)⟩
    rw [he]; exact hd
  · rw [(C39_only h host w paths).2.2 q (fun p hp e => hno ⟨p, hp, e⟩)]
    exact hd

/-- On success all the files are there, each with the text for a path that names it. -/
theorem C39_written (h : Handler) (host : Host) (hwd : IsAbsPath host.wd) (w w' : World)
    (paths : List Str) (ho : createCmd h host paths w = (w', .ok ())) (p : Str) (hp : p ∈ paths) :
    ∃ p' ∈ paths, located host p' = located host p ∧ ∃ c package, getConfig h host p' = some (.ok c) ∧
      getPkg h host c p' (if c.lint.group = s%"uber2" then s%"uber.prototool.generated.v1"
        else s%"uber.prototool.generated") = .ok package ∧
      w'.disk (located host p) = some (newText c.lint.fileHeader (c.lint.group = s%"uber2") p' package
        c.lint.javaPackagePrefix) := by
  unfold createCmd at ho
  obtain ⟨w1, u, h1, h2⟩ := bind_ok.1 ho
  rcases checks_cases host w paths with ⟨e, he⟩ | ⟨he, hs⟩
  · rw [he] at h1; cases h1
  rw [he] at h1
  cases h1
  obtain ⟨p', hp', e, text, ⟨c, package, hc, hg, rfl⟩, hd⟩ := creates_ok h2 p hp
  have hne : p' ≠ [] := fun hn => hs p' hp' (.inl hn)
  have hpl := getConfig_placed (absDir_isAbsPath hwd hne) hc
  have hroot : c.dirPath ≠ [] := by
    obtain ⟨cs, ds, _, e, _⟩ := hpl.above
    rw [e, absPath_eq]; simp
  have hlow : toLower c.lint.group = c.lint.group := hpl.lower
  rw [content_eq hroot, hlow] at hd
  refine ⟨p', hp', e, c, package, hc, ?_, hd⟩
  have hv : isV2 c = decide (c.lint.group = s%"uber2") := by
    unfold isV2; rw [if_neg hroot, hlow]
  rw [hv] at hg
  by_cases hg2 : c.lint.group = s%"uber2"
  · rw [if_pos hg2]
    rw [decide_eq_true hg2, if_pos rfl] at hg
    exact hg
  · rw [if_neg hg2]
    rw [decide_eq_false hg2, if_neg Bool.false_ne_true] at hg
    exact hg

/-! ## C40: the package -/

/-- The package given on the command line is used. -/
theorem C40_explicit (h : Handler) (host : Host) (c : Settings.Config) (p default : Str) (hp : h.pkg ≠ []) :
    getPkg h host c p default = .ok h.pkg := by
  unfold getPkg
  rw [if_pos hp]

/-- The directory of the configuration in force contains the new file, and every directory of
`create.packages` is an absolute path with a base package. -/
theorem C40_config (h : Handler) (host : Host) (hwd : IsAbsPath host.wd) (p : Str) (hp : p ≠ [])
    (c : Settings.Config) (hc : getConfig h host p = some (.ok c)) :
    Within (dir (located host p)) c.dirPath ∧
    (h.configData ≠ [] → c.dirPath = dir (located host p)) ∧
    (h.configData = [] → NearestConfig h.settings.stat (dir (located host p)) c.dirPath ∨
      c.dirPath = dir (located host p) ∧
        ∀ d, Within (dir (located host p)) d → NoConfig h.settings.stat d) ∧
    ∀ k base, GoMap.get? c.dirPathToBasePackage k = some base → IsAbsPath k ∧ base ≠ [] := by
  have hd : IsAbsPath (absDir host p) := absDir_isAbsPath hwd hp
  have hpl := getConfig_placed hd hc
  obtain ⟨h1, h2⟩ := getConfig_root hd hc
  exact ⟨hpl.above, h1, h2, fun k base hk => hpl.bases k base (GoMap.get?_some_mem hk)⟩

/-- The package does not depend on the order in which the map of base packages is gone
through. -/
theorem C40_order (h : Handler) (o : Order) (host : Host) (hwd : IsAbsPath host.wd) (p : Str) (hp : p ≠ [])
    (c : Settings.Config) (hc : getConfig h host p = some (.ok c)) (default : Str) :
    getPkg { h with order := o } host c p default = getPkg h host c p default := by
  have hpl := getConfig_placed (absDir_isAbsPath hwd hp) hc
  unfold getPkg
  dsimp only
  rw [← longest_perm (d := absDir host p) hpl.keys (h.order.perm _ _).symm,
    ← longest_perm (d := absDir host p) hpl.keys (o.perm _ _).symm]

/-- There is at most one package for a directory. -/
theorem C40_unique {bases : GoMap Str Str} {root d default a b : Str} (ha : PackageFor bases root d default a)
    (hb : PackageFor bases root d default b) : a = b := by
  have same : ∀ {k names names'}, Through d k names → Through d k names' → names = names' := by
    rintro k names names' ⟨cs, hc, e1, e2⟩ ⟨cs', hc', e1', e2'⟩
    have h1 : cs = cs' := absPath_inj (components_append.1 hc).1 (components_append.1 hc').1 (e1.symm.trans e1')
    have h2 := absPath_inj hc hc' (e2.symm.trans e2')
    subst h1
    exact List.append_cancel_left h2
  have within : ∀ {k names}, Through d k names → Within d k := fun ⟨cs, h⟩ => ⟨cs, _, h⟩
  cases ha with
  | mapped hk ht hin =>
    cases hb with
    | mapped hk' ht' hin' =>
      have e : ∀ {k k'}, Within k k' → Within k' k → k = k' := by
        rintro k k' ⟨cs, ds, hc, e1, e2⟩ ⟨cs', ds', hc', e1', e2'⟩
        have h1 : cs ++ ds = cs' := absPath_inj hc (components_append.1 hc').1 (e2.symm.trans e1')
        have h2 : cs' ++ ds' = cs := absPath_inj hc' (components_append.1 hc).1 (e2'.symm.trans e1)
        have : ds = [] := by
          have := congrArg List.length h2
          rw [← h1] at this
          simp only [List.length_append] at this
          exact List.length_eq_zero_iff.1 (by omega)
        rw [e1, e2, this, List.append_nil]
      have := e (hin _ _ hk' (within ht')) (hin' _ _ hk (within ht))
      subst this
      rw [hk] at hk'
      cases hk'
      rw [same ht ht']
    | unmapped hu => exact absurd (within ht) (hu _ _ hk)
    | top hu => exact absurd (within ht) (hu _ _ hk)
  | unmapped hu ht hn =>
    cases hb with
    | mapped hk' ht' => exact absurd (within ht') (hu _ _ hk')
    | unmapped hu' ht' => rw [same ht ht']
    | top hu' e =>
      obtain ⟨cs, hc, e1, e2⟩ := ht
      have := absPath_inj hc (components_append.1 hc).1 (e2.symm.trans (e.trans e1))
      exact absurd (List.append_right_eq_self.1 this) hn
  | top hu e =>
    cases hb with
    | mapped hk' ht' => exact absurd (within ht') (hu _ _ hk')
    | unmapped hu' ht hn =>
      obtain ⟨cs, hc, e1, e2⟩ := ht
      have := absPath_inj hc (components_append.1 hc).1 (e2.symm.trans (e.trans e1))
      exact absurd (List.append_right_eq_self.1 this) hn
    | top => rfl

/-- The package is the one of docs/create.md, provided that no directory of `create.packages` is
the beginning of the path without containing the file (`C40_not`). -/
theorem C40_partial (h : Handler) (host : Host) (hwd : IsAbsPath host.wd) (hpkg : h.pkg = []) (p : Str)
    (hp : p ≠ []) (c : Settings.Config) (hc : getConfig h host p = some (.ok c)) (default : Str)
    (hs : ∀ k base, GoMap.get? c.dirPathToBasePackage k = some base → k <+: dir (located host p) →
      Within (dir (located host p)) k) :
    ∃ package, getPkg h host c p default = .ok package ∧
      PackageFor c.dirPathToBasePackage c.dirPath (dir (located host p)) default package :=
  getPkg_spec hpkg (getConfig_placed (absDir_isAbsPath hwd hp) hc) hs

/-! ## C41: the text -/

/-- `format --fix` finds a created file as it would write it, up to the newline at the end: it
sets no other option, another value or another order, and reports nothing. `comments` are the
comments the header is read as. -/
theorem C41_format_fix (srt : SortSlice) (comments : List Proto.Comment) (header : Str) (uber2 : Bool)
    (path package javaPrefix : Str) (hheader : CleanLines header ∧ Trimmed header)
    (hc : header = [] → comments = []) :
    Format.transform srt ⟨path, if uber2 then Format.fixV2 else Format.fixV1, header, javaPrefix⟩
        (newFile comments uber2 path package javaPrefix) =
      .ok (newText header uber2 path package javaPrefix ++ s%"\n", []) := by
  rw [newText_eq]
  have hfix : (if uber2 then Format.fixV2 else Format.fixV1) ≠ Format.fixNone := by cases uber2 <;> decide
  have htop : topItems ⟨path, if uber2 then Format.fixV2 else Format.fixV1, header, javaPrefix⟩
      (newFile comments uber2 path package javaPrefix) = if header = [] then [] else [flush header, blank] := by
    unfold topItems
    by_cases hh : header = []
    · rw [if_neg (by simp [hh]), if_pos hh, newFile_takeWhile, hc hh]
      rfl
    · rw [if_pos ⟨hfix, hh⟩, if_neg hh]
  refine newFile_transform comments uber2 path package javaPrefix srt _ header _ (.inl rfl) ?_ ?_ ?_
  · rw [htop]
    by_cases hh : header = []
    · rw [if_pos hh, if_pos hh]; rfl
    · rw [if_neg hh, if_neg hh]
      show lineText 0 header ++ (lineText 0 [] ++ []) = _
      have : lineText 0 header = header ++ s%"\n" := by
        unfold lineText
        rw [show List.replicate (2 * 0) ' ' ++ header = header from rfl, trimRightBy_eq_self hheader.2.2]
      rw [this]
      show header ++ s%"\n" ++ s%"\n" = _
      simp
  · rw [htop]
    by_cases hh : header = []
    · rw [if_pos hh]; rfl
    · rw [if_neg hh]; rfl
  · intro c hcc
    by_cases hh : header = []
    · rw [if_pos hh] at hcc; cases hcc
    · rw [if_neg hh] at hcc
      cases header with
      | nil => exact absurd rfl hh
      | cons x header => exact hheader.2.1 c hcc

/-- The header of the configuration is as the theorem needs it, and stands at the top as
FILE_HEADER asks. -/
theorem C41_header (h : Handler) (host : Host) (hwd : IsAbsPath host.wd) (p : Str) (hp : p ≠ [])
    (c : Settings.Config) (hc : getConfig h host p = some (.ok c)) :
    (CleanLines c.lint.fileHeader ∧ Trimmed c.lint.fileHeader) ∧
    ∀ uber2 path package javaPrefix,
      c.lint.fileHeader <+: newText c.lint.fileHeader uber2 path package javaPrefix := by
  refine ⟨(getConfig_placed (absDir_isAbsPath hwd hp) hc).header, fun uber2 path package javaPrefix => ?_⟩
  unfold newText
  by_cases hh : c.lint.fileHeader = []
  · rw [hh]; exact List.nil_prefix
  · rw [if_neg hh, List.append_assoc, List.append_assoc]
    exact List.prefix_append ..

theorem declares_new {comments : List Proto.Comment} {uber2 : Bool} {path package javaPrefix : Str}
    {d : Lint.FileDescriptor} (hd : d.elements = newFile comments uber2 path package javaPrefix)
    {name : Str} {o : Proto.Opt}
    (h : (newOptions uber2 path package javaPrefix).filter (fun o => o.name = name) = [o]) :
    Declares d name o.constant.source := by
  refine ⟨o, ?_, rfl⟩
  unfold optionsNamed
  rw [fileOptions_eq, hd, newFile_options, h]

/-- A file created for `uber2` has the options the group requires. -/
theorem C41_uber2 (comments : List Proto.Comment) (path package javaPrefix : Str)
    (d : Lint.FileDescriptor) (hd : d.elements = newFile comments true path package javaPrefix)
    (hf : d.filename ≠ []) (hp : path ≠ []) (hbase : base d.filename = base path)
    (hpre : d.config.lint.javaPackagePrefix = javaPrefix) : Options2 d package := by
  refine ⟨hf, by rw [packages_eq, hd, newFile_packages]; rfl, ?_, ?_, ?_, ?_, ?_, ?_, ?_⟩
  · exact declares_new hd (name := s%"csharp_namespace") (o := quoted _ _) rfl
  · exact declares_new hd (name := s%"go_package") (o := quoted _ _) rfl
  · exact declares_new hd (name := s%"java_multiple_files") (o := { name := _, constant := .plain s%"true" }) rfl
  · rw [outer_eq hf hp hbase]
    exact declares_new hd (name := s%"java_outer_classname") (o := quoted _ _) rfl
  · rw [hpre]
    exact declares_new hd (name := s%"java_package") (o := quoted _ _) rfl
  · exact declares_new hd (name := s%"objc_class_prefix") (o := quoted _ _) rfl
  · exact declares_new hd (name := s%"php_namespace") (o := quoted _ _) rfl

/-- So all the rules of `uber2` about the options of a file are silent about created files. -/
theorem C41_uber2_silent (dirPath : Str) (ds : List Lint.FileDescriptor)
    (h : ∀ d ∈ ds, ∃ comments path package, ';' ∉ package ∧
      d.elements = newFile comments true path package d.config.lint.javaPackagePrefix ∧
      d.filename ≠ [] ∧ path ≠ [] ∧ base d.filename = base path) :
    ∀ l ∈ optionRules2, l.check dirPath ds = some (.ok []) :=
  C58_uber2_together dirPath ds fun d hd => by
    obtain ⟨comments, path, package, hs, he, hf, hp, hb⟩ := h d hd
    exact ⟨package, hs, C41_uber2 comments path package _ d he hf hp hb rfl⟩

/-- A file created for another group has the options `uber1` requires, provided that no prefix
for Java packages is configured (`C41_not_prefix`). -/
theorem C41_uber1_partial (comments : List Proto.Comment) (path package : Str)
    (d : Lint.FileDescriptor) (hd : d.elements = newFile comments false path package [])
    (hf : d.filename ≠ []) (hp : path ≠ []) (hbase : base d.filename = base path) : Options1 d package := by
  refine ⟨hf, by rw [packages_eq, hd, newFile_packages]; rfl, ?_, ?_, ?_, ?_⟩
  · exact declares_new hd (name := s%"go_package") (o := quoted _ _) rfl
  · exact declares_new hd (name := s%"java_multiple_files") (o := { name := _, constant := .plain s%"true" }) rfl
  · rw [outer_eq hf hp hbase]
    exact declares_new hd (name := s%"java_outer_classname") (o := quoted _ _) rfl
  · have : Protostrs.javaPackage package = Protostrs.javaPackagePrefixOverride package [] := by
      unfold Protostrs.javaPackagePrefixOverride Protostrs.javaPackage
      simp
    rw [this]
    exact declares_new hd (name := s%"java_package") (o := quoted _ _) rfl

theorem C41_uber1_silent_partial (dirPath : Str) (ds : List Lint.FileDescriptor)
    (h : ∀ d ∈ ds, ∃ comments path package, ';' ∉ package ∧
      d.elements = newFile comments false path package [] ∧
      d.filename ≠ [] ∧ path ≠ [] ∧ base d.filename = base path) :
    ∀ l ∈ optionRules1, l.check dirPath ds = some (.ok []) :=
  C58_uber1_together dirPath ds fun d hd => by
    obtain ⟨comments, path, package, hs, he, hf, hp, hb⟩ := h d hd
    exact ⟨package, hs, C41_uber1_partial comments path package d he hf hp hb⟩

/-- Violation: with group `uber1` and a prefix for Java packages, the rule about `java_package`
reports what `create` has written. -/
theorem C41_not_prefix :
    Lint.fileOptionsEqualJavaPackageComPrefixLinter ∈ optionRules1 ∧
    ∀ dirPath, Lint.fileOptionsEqualJavaPackageComPrefixLinter.check dirPath
        [Sample.file s%"/a/foo.proto" (newFile [] false s%"/a/foo.proto" s%"uber.trip" s%"org")] ≠
      some (.ok []) := by
  refine ⟨by unfold optionRules1; simp, fun dirPath h => ?_⟩
  obtain ⟨fs, hc, hp, _⟩ := C58_prescribed
    (Lint.fileOptionsEqualJavaPackageComPrefixLinter, s%"java_package", fun _ => Protostrs.javaPackage)
    (by unfold prescribing; simp) dirPath
    [Sample.file s%"/a/foo.proto" (newFile [] false s%"/a/foo.proto" s%"uber.trip" s%"org")] (by
      intro d hd; cases List.mem_singleton.1 hd; decide)
  have hc : Lint.fileOptionsEqualJavaPackageComPrefixLinter.check dirPath
        [Sample.file s%"/a/foo.proto" (newFile [] false s%"/a/foo.proto" s%"uber.trip" s%"org")] =
      some (.ok fs) := hc
  rw [h] at hc
  cases hc
  have hp := hp.length_eq
  revert hp
  decide +kernel

/-! ## The theorems are about something -/

/-- A configuration in `/w` with base packages for two directories. -/
def createConfig : Settings.ExternalConfig :=
  { createPackages := [(s%"idl", s%"foo"), (s%"idl/code", s%"bar")]
    lintGroup := s%"uber2", fileHeaderContent := s%"Header", javaPackagePrefix := s%"org" }

/-- The configuration is in `/w/prototool.yaml`. -/
def createSettings : Settings.Host where
  stat p := p = s%"/w/prototool.yaml"
  readFile p := if p = s%"/w/prototool.yaml" then .ok s%"yaml" else .error s%"missing"
  parseYAML _ := .ok createConfig

/-- `create` in that tree. -/
def createHandler : Handler := { srt := .stable, order := .id, settings := createSettings }

/-- The directories. -/
def createHost : Host :=
  { Exec.Sample.host with
    wd := s%"/w"
    stat := fun p => if p ∈ [s%".", s%"idl/code/x", s%"idl/codegen", s%"other/y"] then .ok .dir
      else .error s%"no such file" }

example : IsAbsPath createHost.wd :=
  ⟨[s%"w"], by intro c hc; simp at hc; subst hc; refine ⟨?_, ?_, ?_, ?_⟩ <;> decide, rfl⟩

/-- Two files are created. -/
example : (createCmd createHandler createHost [s%"idl/code/x/a_b.proto", s%"other/y/c.proto"] ⟨fun _ => none, [], []⟩).2 = .ok () ∧
    (createCmd createHandler createHost [s%"idl/code/x/a_b.proto", s%"other/y/c.proto"] ⟨fun _ => none, [], []⟩).1.disk
        s%"/w/idl/code/x/a_b.proto" =
      some s%"// Header\n\nsyntax = \"proto3\";\n\npackage bar.x;\n\noption csharp_namespace = \"Bar.X\";\noption go_package = \"xpb\";\noption java_multiple_files = true;\noption java_outer_classname = \"ABProto\";\noption java_package = \"org.bar.x\";\noption objc_class_prefix = \"BXX\";\noption php_namespace = \"Bar\\\\X\";" := by
  decide +kernel

/-- One of them is in the way. -/
example : Unfit createHost (fun p => if p = s%"/w/other/y/c.proto" then some s%"x" else none) s%"other/y/c.proto" :=
  .inr (.inr ⟨s%"x", by decide +kernel, by decide⟩)

/-- Violation: a directory whose name merely begins like that of a directory with a base package
gets that base package, with dots for the way up and down again. -/
theorem C40_not : ∃ (h : Handler) (host : Host) (p : Str) (c : Settings.Config),
    getConfig h host p = some (.ok c) ∧ h.pkg = [] ∧
    getPkg h host c p [] = .ok s%"bar....codegen" ∧
    PackageFor c.dirPathToBasePackage c.dirPath (dir (located host p)) [] s%"foo.codegen" := by
  refine ⟨createHandler, createHost, s%"idl/codegen/a.proto", _, rfl, rfl, rfl, ?_⟩
  refine .mapped (k := s%"/w/idl") (base := s%"foo") (names := [s%"codegen"]) rfl ?_ ?_
  · refine ⟨[s%"w", s%"idl"], ?_, rfl, rfl⟩
    intro c hc
    simp only [List.cons_append, List.nil_append, List.mem_cons, List.not_mem_nil, or_false] at hc
    rcases hc with rfl | rfl | rfl <;> refine ⟨by decide, by decide, by decide, by decide⟩
  · intro k base hk hw
    have h2 : Components [s%"w", s%"idl", s%"code"] ∧ Components [s%"w", s%"idl", s%"codegen"] ∧
        Components [s%"w", s%"idl"] := by
      refine ⟨?_, ?_, ?_⟩ <;> intro c hc <;>
        simp only [List.mem_cons, List.not_mem_nil, or_false] at hc
      · rcases hc with rfl | rfl | rfl <;> refine ⟨by decide, by decide, by decide, by decide⟩
      · rcases hc with rfl | rfl | rfl <;> refine ⟨by decide, by decide, by decide, by decide⟩
      · rcases hc with rfl | rfl <;> refine ⟨by decide, by decide, by decide, by decide⟩
    have hm : (k, base) ∈ [(s%"/w/idl", s%"foo"), (s%"/w/idl/code", s%"bar")] := GoMap.get?_some_mem hk
    simp only [List.mem_cons, List.not_mem_nil, or_false, Prod.mk.injEq] at hm
    rcases hm with ⟨rfl, rfl⟩ | ⟨rfl, rfl⟩
    · exact within_refl ⟨_, h2.2.2, rfl⟩
    · have := (within_iff h2.2.1 h2.1).1 hw
      exact absurd this (by decide)

end Verif.Props
