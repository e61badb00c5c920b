import Verif.Props.CreateBreak
import Verif.Spec.Tended

/-!
# C122: creating and formatting files breaks nothing, however often
-/

namespace Verif.Props

open Verif Str Proto Reflect Breaking Descriptor Spec Exec Create

theorem _root_.Verif.Spec.SameFile.trans {f g k : FileDesc} (h : SameFile f g) (h' : SameFile g k) : SameFile f k :=
  ⟨h'.name.trans h.name, h'.package.trans h.package, h'.dependency.trans h.dependency, h'.messages.trans h.messages,
    h'.enums.trans h.enums, h'.services.trans h.services⟩

theorem _root_.Verif.Spec.KeptIn.refl (all : List FileDesc) : KeptIn all all :=
  ⟨fun f hf => ⟨f, hf, .refl f⟩, fun f hf => .inl ⟨f, hf, .refl f⟩⟩

theorem _root_.Verif.Spec.KeptIn.trans {a b c : List FileDesc} (h : KeptIn a b) (h' : KeptIn b c) : KeptIn a c := by
  refine ⟨fun f hf => ?_, fun f hf => ?_⟩
  · obtain ⟨g, hg, hfg⟩ := h.kept f hf
    obtain ⟨k, hk, hgk⟩ := h'.kept g hg
    exact ⟨k, hk, hfg.trans hgk⟩
  · rcases h'.others f hf with ⟨g, hg, hgf⟩ | he
    · rcases h.others g hg with ⟨k, hk, hkg⟩ | he
      · exact .inl ⟨k, hk, hkg.trans hgf⟩
      · exact .inr (List.perm_nil.1 (he ▸ hgf.dependency))
    · exact .inr he

theorem _root_.Verif.Spec.KeptIn.keeps {all all' : List FileDesc} (h : KeptIn all all') :
    KeepsDefinitions all all' where
  packages f hf := have ⟨g, hg, s⟩ := h.kept f hf; ⟨g, hg, s.package⟩
  messages f hf _ hx := have ⟨g, hg, s⟩ := h.kept f hf; ⟨g, hg, s.package, s.messages ▸ hx⟩
  enums f hf _ hx := have ⟨g, hg, s⟩ := h.kept f hf; ⟨g, hg, s.package, s.enums ▸ hx⟩
  services f hf _ hx := have ⟨g, hg, s⟩ := h.kept f hf; ⟨g, hg, s.package, s.services ▸ hx⟩

theorem _root_.Verif.Spec.KeptIn.stable {all all' : List FileDesc} (h : KeptIn all all') (hr : Reflectable all)
    (hr' : Reflectable all') (hs : StableOnStable all) : StableOnStable all' := by
  rintro k q hne ⟨f', hf', hfk, d, hd, g', hg', hgn, hgq⟩ hk
  rcases h.others f' hf' with ⟨f, hf, s⟩ | he
  · have hd' := s.dependency.mem_iff.1 hd
    obtain ⟨g, hg, hgd⟩ := hr.imports f hf d hd'
    obtain ⟨g2, hg2, s2⟩ := h.kept g hg
    have : g2 = g' := hr'.one_copy g2 hg2 g' hg' (by rw [s2.name, hgd, hgn])
    subst this
    exact hs k q hne ⟨f, hf, s.package ▸ hfk, d, hd', g, hg, hgd, s2.package ▸ hgq⟩ hk
  · rw [he] at hd
    cases hd

/-- What protoc makes of files depends on their texts only. -/
theorem described_same {P : Protoc} {h : Host} {files : List (Str × Str)} {disk disk' : Disk} {all all' : List FileDesc}
    (same : ∀ x ∈ files, disk' x.2 = disk x.2) (hall : Described P h files disk all)
    (hall' : Described P h files disk' all') : ∀ f, f ∈ all ↔ f ∈ all' := by
  obtain ⟨es, h1, h2⟩ := hall
  obtain ⟨es', h1', h2'⟩ := hall'
  have he : ∀ x ∈ files, es' x = es x := by
    intro x hx
    obtain ⟨c, hc, hp⟩ := h1 x hx
    obtain ⟨c', hc', hp'⟩ := h1' x hx
    rw [same x hx, hc] at hc'
    cases hc'
    rw [hp] at hp'
    injection hp' with e
    exact e.symm
  have hn : (files.flatMap fun y => namesAll (topScope (es' y)) (es' y)) =
      files.flatMap fun y => namesAll (topScope (es y)) (es y) := by
    have : ∀ l : List (Str × Str), (∀ x ∈ l, es' x = es x) →
        (l.flatMap fun y => namesAll (topScope (es' y)) (es' y)) = l.flatMap fun y => namesAll (topScope (es y)) (es y) := by
      intro l hl
      induction l with
      | nil => rfl
      | cons x l ih =>
        rw [List.flatMap_cons, List.flatMap_cons, hl x (.head _), ih fun y hy => hl y (.tail _ hy)]
    exact this files he
  intro f
  rw [h2, h2', hn]
  exact exists_congr fun x => and_congr_right fun hx => by rw [he x hx]

/-- C122: **whatever is created and formatted, all definitions stay where they are**, and only files that import
nothing are added. -/
theorem C122_kept (P : Protoc) (a b : Moment) (h : Tended P a b) : KeptIn a.all b.all := by
  induction h with
  | start => exact .refl _
  | step _ hs ih =>
    refine ih.trans ?_
    cases hs with
    | create ch h hwd paths w w' run finds files made among all all' before after =>
      obtain ⟨h1, h2⟩ := C121_described ch h hwd paths w w' run finds P files made among _ _ before after
      exact ⟨fun f hf => ⟨f, h1 f hf, .refl f⟩, fun f hf => (h2 f hf).imp_left fun hf => ⟨f, hf, .refl f⟩⟩
    | format h hw o srt args flags m hm hd w files names can all all' before after =>
      obtain ⟨hl, hr, _⟩ := C110_redistributed P h srt flags.fix m files w.disk _ (fun x _ => by
        rcases formatted_or_not h hw o srt args flags m hm hd w x.2 with e | ⟨_, content, text, _, _, h1, h2, h3⟩
        · exact .inl e
        · exact .inr ⟨content, text, h1, h2, h3⟩) can.fits can.fixable can.back _ _ names before after
      exact ⟨hl, fun f hf => .inl (hr f hf)⟩
    | other h files disk disk' same all all' before after =>
      have := described_same same before after
      exact ⟨fun f hf => ⟨f, (this f).1 hf, .refl f⟩, fun f hf => .inl ⟨f, (this f).2 hf, .refl f⟩⟩

/-- C122: **a check of the files against themselves from before finds nothing**, whatever was created and formatted
since, if no stable package imported a beta package. -/
theorem C122_sets (P : Protoc) (a b : Moment) (h : Tended P a b) (frm to : List FileSet) (hfrm : frm.flatten = a.all)
    (hto : to.flatten = b.all) (s : SortSlice) (o : Order) (marshal : FileDesc → Except Err Str) (config : BreakConfig)
    (hff : FaithfulOn marshal fun f => f ∈ a.all) (hft : FaithfulOn marshal fun f => f ∈ b.all)
    (hf : DescriptorsOK a.all) (ht : DescriptorsOK b.all)
    (hb : config.includeBeta = false → config.allowBetaDeps = false → StableOnStable a.all) :
    breakCheckSets s o marshal config frm to = .ok [] := by
  have hk := C122_kept P a b h
  rw [← hfrm] at hff hf hb hk
  rw [← hto] at hft ht hk
  exact (C120_sets s o marshal config frm to hff hft hf ht (grown_of_keeps hk.keeps)).2 fun x y =>
    hk.stable hf.reflectable ht.reflectable (hb x y)

/-- C122 for the command, against a descriptor set from before. -/
theorem C122_command (P : Protoc) (a b : Moment) (ht : Tended P a b)
    (h : Host) (hp : Prints h) (hj : h.json = true → ∀ f, ∃ t, h.toJSON f = .ok t)
    (t : Tools) (args : List Str) (path : Str) (hpath : path ≠ []) (m : Meta) (sets : List FileSet) (w : World)
    (hw : w.disk = b.disk) (hc : CompilesTo h args { doFileDescriptorSet := true } w.disk m sets)
    (hsets : sets.flatten = b.all)
    (data : Str) (hd : w.disk path = some data) (hdec : t.decode data = .ok a.all)
    (hff : FaithfulOn t.marshal fun f => f ∈ a.all) (hft : FaithfulOn t.marshal fun f => f ∈ b.all)
    (hf : DescriptorsOK a.all) (hto : DescriptorsOK b.all)
    (hb : m.protoSet.config.break_.includeBeta = false → m.protoSet.config.break_.allowBetaDeps = false →
      StableOnStable a.all) :
    breakCheckCmd h t args [] path w = (w, .ok ()) := by
  have hk := C122_kept P a b ht
  rw [← hsets] at hft hto hk
  exact C120_descriptor_set h hp hj t args path hpath m sets w hc data hd a.all hdec hff hft hf hto
    (grown_of_keeps hk.keeps) fun x y => hk.stable hf.reflectable hto.reflectable (hb x y)

/-- C122 for the command, against a branch of the repository that holds the files from before. -/
theorem C122_git (P : Protoc) (a b : Moment) (htd : Tended P a b)
    (h : Host) (hp : Prints h) (hj : h.json = true → ∀ f, ∃ t, h.toJSON f = .ok t)
    (t : Tools) (args : List Str) (branch : Str) (m m' : Meta) (sets sets' : List FileSet)
    (w : World) (hw : w.disk = b.disk) (ht : TempDirsOK t w.disk)
    (hc : CompilesTo h args { doFileDescriptorSet := true } w.disk m sets) (hsets : sets.flatten = b.all)
    (hrel : Path.isAbs (fileOrDir args) = false)
    (hin : File.absClean h.wd h.workDirPath <+: File.absClean h.wd (fileOrDir args))
    (dir : Str) (disk' : Disk) (hclone : Clones h t branch w.disk dir disk')
    (hc' : CompilesTo { h with workDirPath := dir, stat := t.treeStat, getForDir := t.treeForDir }
      [cloneDirFor dir (fileOrDir args)] { doFileDescriptorSet := true } disk' m' sets')
    (hsets' : sets'.flatten = a.all)
    (hff : FaithfulOn t.marshal fun f => f ∈ a.all) (hft : FaithfulOn t.marshal fun f => f ∈ b.all)
    (hf : DescriptorsOK a.all) (hto : DescriptorsOK b.all)
    (hb : m.protoSet.config.break_.includeBeta = false → m.protoSet.config.break_.allowBetaDeps = false →
      StableOnStable a.all) :
    breakCheckCmd h t args branch [] w = (w, .ok ()) := by
  have hk := C122_kept P a b htd
  rw [← hsets] at hft hto hk
  rw [← hsets'] at hff hf hb hk
  exact C120_git h hp hj t args branch m m' sets sets' w ht hc hrel hin dir disk' hclone hc' hff hft hf hto
    (grown_of_keeps hk.keeps) fun x y => hk.stable hf.reflectable hto.reflectable (hb x y)

/-! ## The hypotheses can be met -/

namespace TendedExample

open NewFileExample (name found dirOf config header text_eq parsed)
open DescribedExample (P path fixed fixedElements desc desc_valid)
open CreateBreakExample (newDesc)

/-- A file that is not formatted, and a descriptor set. -/
def start : World where
  disk p := if p = path then some DescribedExample.text else if p = s%"/set" then some s%"S" else none

/-- After `format --fix --overwrite b`. -/
def tidy : World :=
  (formatCmd DescribedExample.host Order.rev SortSlice.stable [s%"b"] { fix := true, overwrite := true } start).1

set_option maxRecDepth 100000 in
theorem tidy_disk : tidy.disk path = some fixed := by decide +kernel

/-- The host of the examples of `create`, which can also read the formatted file. -/
def host : Exec.Host :=
  { NewFileExample.host with
    parse := fun p c => if c = fixed then .ok fixedElements else NewFileExample.host.parse p c }

/-- After `create other/y/c.proto`. -/
def after : World := (createCmd createHandler host [name] tidy).1

set_option maxRecDepth 100000 in
theorem made : createCmd createHandler host [name] tidy = (after, .ok ()) :=
  Prod.ext rfl (by decide +kernel)

set_option maxRecDepth 100000 in
theorem after_disk : after.disk s%"/w/other/y/c.proto" = some NewFileExample.text ∧ after.disk path = some fixed ∧
    after.disk s%"/set" = some s%"S" := by decide +kernel

theorem host_parse (p c : Str) : host.parse p c = if c = fixed then .ok fixedElements else NewFileExample.host.parse p c :=
  rfl

theorem parse_new (path : Str) : host.parse path NewFileExample.text = .ok found := by
  have hne : NewFileExample.text ≠ fixed := by decide +kernel
  rw [host_parse, if_neg hne, parsed _ _ (.inl rfl)]

theorem parse_old (path : Str) : host.parse path fixed = .ok fixedElements := by
  rw [host_parse, if_pos rfl]

theorem configured' : getConfig createHandler host name = some (.ok config) := by rfl

theorem packaged' : getPkg createHandler host config name s%"uber.prototool.generated.v1" = .ok s%"other.y" := by rfl

theorem finds_new : FindsNew createHandler host [name] := by
  intro p hp c package es hc hpk hes
  cases List.mem_singleton.1 hp
  rw [configured'] at hc
  injection hc with hc
  injection hc with hc
  subst hc
  rw [header.2.1, if_pos rfl, packaged'] at hpk
  injection hpk with hpk
  subst hpk
  rw [← text_eq, parse_new] at hes
  injection hes with hes
  subst hes
  rw [header.2.1, header.2.2]
  rfl

def old : List (Str × Str) := [(s%"b/user.proto", path)]
def fresh : List (Str × Str) := [(s%"other/y/c.proto", s%"/w/other/y/c.proto")]

theorem among : MadeAmong host [name] tidy.disk old fresh := by
  refine ⟨fun x hx => ?_, fun x hx => ?_⟩
  · obtain rfl := List.mem_singleton.1 hx
    exact ⟨name, List.mem_singleton.2 rfl, by decide +kernel⟩
  · obtain rfl := List.mem_singleton.1 hx
    rw [tidy_disk]
    decide +kernel

def frm : FileSet := [desc s%"rest....."]
def mid : FileSet := [desc s%"rest........"]
def to : FileSet := [desc s%"rest........", newDesc]

theorem start_described : Described P DescribedExample.host old start.disk frm := by
  have := (DescribedExample.compiles {} start.disk DescribedExample.text DescribedExample.elements (by rfl)
    DescribedExample.text_read).2
  rwa [DescribedExample.elements_described] at this

theorem tidy_described : Described P DescribedExample.host old tidy.disk mid := by
  have := (DescribedExample.compiles {} tidy.disk fixed fixedElements tidy_disk DescribedExample.fixed_read).2
  rwa [DescribedExample.fixed_described] at this

set_option maxRecDepth 100000 in
theorem tidy_described' : Described P host old tidy.disk mid := by
  refine ⟨fun _ => fixedElements, fun x hx => ?_, fun f => ?_⟩
  · obtain rfl := List.mem_singleton.1 hx
    exact ⟨fixed, tidy_disk, parse_old _⟩
  · simp only [mid, old, List.mem_singleton, exists_eq_left, ← DescribedExample.fixed_described, List.flatMap_cons,
      List.flatMap_nil, List.append_nil]

set_option maxRecDepth 100000 in
theorem after_described : Described P host (old ++ fresh) after.disk to := by
  refine ⟨fun x => if x.2 = path then fixedElements else found, fun x hx => ?_, fun f => ?_⟩
  · simp only [old, fresh, List.cons_append, List.nil_append, List.mem_cons, List.not_mem_nil, or_false] at hx
    rcases hx with rfl | rfl
    · exact ⟨fixed, after_disk.2.1, parse_old _⟩
    · exact ⟨NewFileExample.text, after_disk.1, parse_new _⟩
  · simp only [old, fresh, to, List.cons_append, List.nil_append, List.mem_cons, List.not_mem_nil, or_false,
      exists_eq_or_imp, exists_eq_left]
    rfl

set_option maxRecDepth 100000 in
/-- The file was formatted, and then another one was created. -/
theorem tended : Tended P ⟨old, start.disk, frm⟩ ⟨old ++ fresh, after.disk, to⟩ :=
  .step (.step (.start _) (.format DescribedExample.host (fun _ _ => rfl) Order.rev SortSlice.stable [s%"b"]
      { fix := true, overwrite := true } DescribedExample.dirB
      (DescribedExample.compiles {} start.disk DescribedExample.text _ (by rfl) DescribedExample.text_read).1.1
      (by unfold Distinct; decide) start old (by decide)
      ⟨DescribedExample.fits_ok start (by rfl), DescribedExample.fixable_ok, DescribedExample.back_ok start (by rfl)⟩ frm mid
      start_described tidy_described))
    (.create createHandler host NewFileExample.abs [name] tidy after made finds_new old fresh among mid to tidy_described'
      after_described)

theorem two {f : FileDesc} (hf : f ∈ to) : f = desc s%"rest........" ∨ f = newDesc := by simpa [to] using hf

theorem to_valid : DescriptorsOK to := by
  have same : SameFile (desc s%"rest.....") (desc s%"rest........") := ⟨rfl, rfl, .refl _, rfl, rfl, rfl⟩
  refine CreateBreakExample.after_valid.of_same (fun f hf g hg => ?_) (fun f hf => ?_) (fun f hf => ?_)
  · rcases two hf with rfl | rfl <;> rcases two hg with rfl | rfl <;> intro h <;> first | rfl | cases h
  · rcases (by simpa [CreateBreakExample.to] using hf : f = desc s%"rest....." ∨ f = newDesc) with rfl | rfl
    · exact ⟨_, .head _, same⟩
    · exact ⟨_, .tail _ (.head _), .refl _⟩
  · rcases two hf with rfl | rfl
    · exact ⟨_, .head _, same⟩
    · exact ⟨_, .tail _ (.head _), .refl _⟩

theorem to_faithful : FaithfulOn ReflectExample.byName fun f => f ∈ to := by
  refine ⟨fun f _ => ⟨_, rfl⟩, ?_⟩
  intro f g x hf hg hx hx'
  rw [← hx'] at hx
  rcases two hf with rfl | rfl <;> rcases two hg with rfl | rfl <;> first | rfl | cases hx

/-- A host on which protoc sees both files. -/
def seeing : Exec.Host := { host with compile := fun _ _ _ => .ok ([], [to]) }

set_option maxRecDepth 100000 in
/-- The check after both commands against the descriptor set from before. -/
example : breakCheckCmd seeing CreateBreakExample.tools [s%"other/y"] [] s%"/set" after = (after, .ok ()) :=
  C122_command P _ _ tended seeing (fun _ _ => rfl) (by intro _ f; exact ⟨_, rfl⟩) CreateBreakExample.tools
    [s%"other/y"] s%"/set" (by decide) dirOf [to] after rfl
    ⟨⟨s%"other/y", .inl rfl, .inl ⟨rfl, rfl, rfl⟩⟩, ⟨_, rfl⟩, rfl⟩ (List.append_nil _) s%"S" after_disk.2.2 rfl
    CreateBreakExample.before_faithful to_faithful (desc_valid _) to_valid fun _ _ => CreateBreakExample.before_stable

/-- The two files, and nothing else. -/
def rest : World where
  disk p := if p = path then some fixed else if p = s%"/w/other/y/c.proto" then some NewFileExample.text else none

set_option maxRecDepth 100000 in
theorem rest_same : ∀ x ∈ old ++ fresh, rest.disk x.2 = after.disk x.2 := by
  intro x hx
  simp only [old, fresh, List.cons_append, List.nil_append, List.mem_cons, List.not_mem_nil, or_false] at hx
  rcases hx with rfl | rfl
  · exact after_disk.2.1.symm
  · exact after_disk.1.symm

/-- After both commands the descriptor set was removed. -/
theorem tended_rest : Tended P ⟨old, start.disk, frm⟩ ⟨old ++ fresh, rest.disk, to⟩ := by
  refine .step tended (.other host _ _ _ rest_same _ _ after_described ?_)
  obtain ⟨es, h1, h2⟩ := after_described
  exact ⟨es, fun x hx => by rw [rest_same x hx]; exact h1 x hx, h2⟩

open Exec.Sample in
/-- The working directory is a repository whose branch holds the files from before. -/
def repo : Exec.Host :=
  { repoHost with compile := fun _ _ ps => .ok ([], if ps.workDirPath = s%"/tmp/clone" then [frm] else [to]) }

open Exec.Sample in
theorem repo_temp : TempDirsOK tools rest.disk := by
  refine ⟨tools_ok.isAbs, ?_, tools_ok.clone, tools_ok.removed, tools_ok.kept⟩
  intro dir h p hp
  cases h
  have hp := isWithin_iff.2 hp
  have : ∀ q, q = path ∨ q = s%"/w/other/y/c.proto" → isWithin q s%"/tmp/clone" ≠ true := by
    rintro q (rfl | rfl) <;> decide
  show (if p = path then some fixed else if p = s%"/w/other/y/c.proto" then some NewFileExample.text else none) = none
  rw [if_neg (fun e => this p (.inl e) hp), if_neg (fun e => this p (.inr e) hp)]

open Exec.Sample in
/-- The check after both commands against the branch. -/
example : breakCheckCmd repo tools [s%"a"] [] [] rest = (rest, .ok ()) :=
  C122_git P _ _ tended_rest repo (fun _ _ => rfl) (by intro _ f; exact ⟨_, rfl⟩) tools [s%"a"] [] dir
    { protoSet := cloneSet } [to] [frm] rest rfl repo_temp ⟨⟨s%"a", .inl rfl, .inl ⟨rfl, rfl, rfl⟩⟩, ⟨_, rfl⟩, by rfl⟩
    (List.append_nil _) rfl (by decide) s%"/tmp/clone" _ ⟨by rfl, rfl, by rfl⟩
    ⟨⟨_, .inl rfl, .inl ⟨by rfl, by rfl, rfl⟩⟩, ⟨_, rfl⟩, by rfl⟩ (List.append_nil _)
    CreateBreakExample.before_faithful to_faithful (desc_valid _) to_valid fun _ _ => CreateBreakExample.before_stable

end TendedExample

end Verif.Props
