import Verif.Props.Says
import Verif.Props.Described
import Verif.Spec.Removed

/-!
# C124: what is removed from the sources is noticed
-/

namespace Verif.Props

open Verif Str Proto Reflect Breaking Descriptor Spec Exec

theorem messages_top (P : Protoc) (names : List (Str × Int)) (scope : List Str) (es : List Element)
    (ht : ∀ e ∈ es, (∀ g sub, e ≠ .group g sub) ∧ (∀ f, e ≠ .mapField f) ∧ ∀ o sub, e ≠ .oneof o sub) (n : Str) :
    (∃ d ∈ messagesDescs P names scope es, d.name = n) ↔ DeclaresTop es n .message := by
  rw [messagesDescs_eq]
  constructor
  · rintro ⟨d, hd, rfl⟩
    obtain ⟨e, he, hd⟩ := List.mem_flatMap.1 hd
    obtain ⟨h1, h2, h3⟩ := ht e he
    cases e with
    | message m sub =>
      rw [messageDescs] at hd
      split at hd
      · cases hd
      · rename_i hx
        obtain rfl := List.mem_singleton.1 hd
        exact ⟨m, sub, he, by simpa using hx, rfl⟩
    | group g sub => exact absurd rfl (h1 g sub)
    | mapField f => exact absurd rfl (h2 f)
    | oneof o sub => exact absurd rfl (h3 o sub)
    | _ => rw [messageDescs] at hd <;> first | cases hd | (intros; simp)
  · rintro ⟨m, sub, he, hx, rfl⟩
    refine ⟨.mk m.name (messagesDescs P names (scope ++ [m.name]) sub) (sub.flatMap enumDescs)
      (fieldDescs P names (scope ++ [m.name]) 0 sub) (sub.flatMap oneofDescs), List.mem_flatMap.2 ⟨_, he, ?_⟩, rfl⟩
    rw [messageDescs, hx]
    exact .head _

theorem enums_top (es : List Element) (n : Str) : (∃ d ∈ es.flatMap enumDescs, d.name = n) ↔ DeclaresTop es n .enum := by
  constructor
  · rintro ⟨d, hd, rfl⟩
    obtain ⟨e, he, hd⟩ := List.mem_flatMap.1 hd
    cases e with
    | enum m sub =>
      obtain rfl := List.mem_singleton.1 hd
      exact ⟨m, sub, he, rfl⟩
    | _ => cases hd
  · rintro ⟨m, sub, he, rfl⟩
    exact ⟨_, List.mem_flatMap.2 ⟨_, he, .head _⟩, rfl⟩

theorem services_top (P : Protoc) (names : List (Str × Int)) (scope : List Str) (es : List Element) (n : Str) :
    (∃ d ∈ es.flatMap (serviceDescs P names scope), d.name = n) ↔ DeclaresTop es n .service := by
  constructor
  · rintro ⟨d, hd, rfl⟩
    obtain ⟨e, he, hd⟩ := List.mem_flatMap.1 hd
    cases e with
    | service m sub =>
      obtain rfl := List.mem_singleton.1 hd
      exact ⟨m, sub, he, rfl⟩
    | _ => cases hd
  · rintro ⟨m, sub, he, rfl⟩
    exact ⟨_, List.mem_flatMap.2 ⟨_, he, .head _⟩, rfl⟩

theorem said_top (f : FileDesc) (package n : Str) (kind : DeclKind) : (kind.fact package n).saidBy f ↔
    match kind with
    | .message => ∃ d ∈ f.messages, d.name = n
    | .enum => ∃ d ∈ f.enums, d.name = n
    | .service => ∃ d ∈ f.services, d.name = n := by
  cases kind with
  | message =>
    constructor
    · rintro ⟨d, h⟩
      generalize hp : [n] = path at h
      cases h with
      | here hd =>
        injection hp with hp
        exact ⟨d, hd, hp.symm⟩
      | inside hd hn =>
        injection hp with _ hp
        subst hp
        cases hn
    · rintro ⟨d, hd, rfl⟩
      exact ⟨d, .here hd⟩
  | enum =>
    constructor
    · rintro ⟨e, h, hn⟩
      cases h with
      | top h => exact ⟨e, h, hn⟩
      | nested hd => cases hd
    · rintro ⟨e, h, hn⟩
      exact ⟨e, .top h, hn⟩
  | service => exact Iff.rfl

/-- C124: **the descriptors say that there is a message, an enum or a service exactly if one of the sources declares
it**. -/
theorem C124_declared (P : Protoc) (h : Host) (files : List (Str × Str)) (disk : Disk) (all : List FileDesc)
    (hall : Described P h files disk all) (ht : TopLevel h files disk) (package n : Str) (kind : DeclKind) :
    FilesSay all (kind.fact package n) ↔ ProjectDeclares h files disk package n kind := by
  obtain ⟨es, h1, h2⟩ := hall
  have about : (kind.fact package n).about = package := by cases kind <;> rfl
  have key : ∀ x ∈ files, ∀ names, (kind.fact package n).saidBy (describe P names x.1 (es x)) ↔
      DeclaresTop (es x) n kind := by
    intro x hx names
    obtain ⟨c, hc, hp⟩ := h1 x hx
    rw [said_top]
    cases kind with
    | message => exact messages_top P names _ _ (ht x hx c _ hc hp) n
    | enum => exact enums_top _ n
    | service => exact services_top P names _ _ n
  constructor
  · rintro ⟨f, hf, hfp, hs⟩
    obtain ⟨x, hx, rfl⟩ := (h2 f).1 hf
    obtain ⟨c, hc, hp⟩ := h1 x hx
    exact ⟨x, hx, c, _, hc, hp, hfp.trans about, (key x hx _).1 hs⟩
  · rintro ⟨x, hx, c, es', hc, hp, hpk, hd⟩
    obtain ⟨c', hc', hp'⟩ := h1 x hx
    rw [hc] at hc'
    cases hc'
    rw [hp] at hp'
    injection hp' with e
    subst e
    exact ⟨_, (h2 _).2 ⟨x, hx, rfl⟩, hpk.trans about.symm, (key x hx _).2 hd⟩

/-- C124: **a check that ends well means that every message, enum and service that the sources declared, in a package
that is checked, is still declared** in the package, in whatever file. Otherwise the check ends with code 255. -/
theorem C124_removed (P : Protoc) (h h' : Host) (hp : Prints h') (hj : h'.json = true → ∀ f, ∃ t, h'.toJSON f = .ok t)
    (t : Tools) (args : List Str) (path : Str) (hpath : path ≠ []) (m : Meta) (sets : List FileSet)
    (disk : Disk) (w : World) (hc : CompilesTo h' args { doFileDescriptorSet := true } w.disk m sets)
    (data : Str) (hd : w.disk path = some data) (set : FileSet) (hdec : t.decode data = .ok set)
    (files files' : List (Str × Str)) (hall : Described P h files disk set)
    (hall' : Described P h' files' w.disk sets.flatten) (htop : TopLevel h files disk) (htop' : TopLevel h' files' w.disk)
    (hff : FaithfulOn t.marshal fun f => f ∈ set) (hft : FaithfulOn t.marshal fun f => f ∈ sets.flatten)
    (hf : DescriptorsOK set) (hto : DescriptorsOK sets.flatten) :
    ((breakCheckCmd h' t args [] path w).2 = .ok () → ∀ package n kind,
      Checked m.protoSet.config.break_.includeBeta package →
      ProjectDeclares h files disk package n kind → ProjectDeclares h' files' w.disk package n kind) ∧
    ((breakCheckCmd h' t args [] path w).2 ≠ .ok () →
      (breakCheckCmd h' t args [] path w).2 = .error (.exit 255 [])) := by
  have he : [set].flatten = set := by simp
  obtain ⟨old, ho, hos⟩ := C12_schemaOK t.srt (t.order.sub (s%"from")) t.marshal [set] (by rwa [he]) (by rwa [he])
  obtain ⟨new, hn, hns⟩ := C12_schemaOK t.srt (t.order.sub (s%"to")) t.marshal sets hft hto
  have heq := breakCheckSets_eq t.srt t.order t.marshal m.protoSet.config.break_ [set] sets old new ho hn
  obtain ⟨fs, hfs, _⟩ := C06_reports t.order m.protoSet.config.break_ old new hos hns
  have hrun := C66_descriptor_set h' hp hj t args path hpath m sets w hc data hd set hdec fs (heq.trans hfs)
  rw [hrun]
  refine ⟨fun hok package n kind hck hdecl => ?_, ?_⟩
  · have hnil : fs = [] := (C66_exit fs).1.1 hok
    have about : (kind.fact package n).about = package := by cases kind <;> rfl
    have hk := C123_kept t.srt t.order t.marshal m.protoSet.config.break_ [set] sets (by rwa [he]) hft (by rwa [he]) hto
      (by rw [heq, hfs, hnil]) (kind.fact package n) (by cases kind <;> exact id) (by rwa [about])
    rw [he] at hk
    exact (C124_declared P h' files' w.disk _ hall' htop' package n kind).1
      (hk ((C124_declared P h files disk _ hall htop package n kind).2 hdecl))
  · show breakOutcome fs ≠ .ok () → breakOutcome fs = _
    rw [Ne, (C66_exit fs).1, (C66_exit fs).2]
    exact id

/-- C124 against a branch of the repository that holds the sources from before. -/
theorem C124_git (P : Protoc) (h h' : Host) (hp : Prints h') (hj : h'.json = true → ∀ f, ∃ t, h'.toJSON f = .ok t)
    (t : Tools) (args : List Str) (branch : Str) (m m' : Meta) (sets sets' : List FileSet)
    (disk : Disk) (w : World) (ht : TempDirsOK t w.disk)
    (hc : CompilesTo h' args { doFileDescriptorSet := true } w.disk m sets)
    (hrel : Path.isAbs (fileOrDir args) = false)
    (hin : File.absClean h'.wd h'.workDirPath <+: File.absClean h'.wd (fileOrDir args))
    (dir : Str) (disk' : Disk) (hclone : Clones h' t branch w.disk dir disk')
    (hc' : CompilesTo { h' with workDirPath := dir, stat := t.treeStat, getForDir := t.treeForDir }
      [cloneDirFor dir (fileOrDir args)] { doFileDescriptorSet := true } disk' m' sets')
    (files files' : List (Str × Str)) (hall : Described P h files disk sets'.flatten)
    (hall' : Described P h' files' w.disk sets.flatten) (htop : TopLevel h files disk) (htop' : TopLevel h' files' w.disk)
    (hff : FaithfulOn t.marshal fun f => f ∈ sets'.flatten) (hft : FaithfulOn t.marshal fun f => f ∈ sets.flatten)
    (hf : DescriptorsOK sets'.flatten) (hto : DescriptorsOK sets.flatten) :
    ((breakCheckCmd h' t args branch [] w).2 = .ok () → ∀ package n kind,
      Checked m.protoSet.config.break_.includeBeta package →
      ProjectDeclares h files disk package n kind → ProjectDeclares h' files' w.disk package n kind) ∧
    ((breakCheckCmd h' t args branch [] w).2 ≠ .ok () →
      (breakCheckCmd h' t args branch [] w).2 = .error (.exit 255 [])) := by
  obtain ⟨old, ho, hos⟩ := C12_schemaOK t.srt (t.order.sub (s%"from")) t.marshal sets' hff hf
  obtain ⟨new, hn, hns⟩ := C12_schemaOK t.srt (t.order.sub (s%"to")) t.marshal sets hft hto
  have heq := breakCheckSets_eq t.srt t.order t.marshal m.protoSet.config.break_ sets' sets old new ho hn
  obtain ⟨fs, hfs, _⟩ := C06_reports t.order m.protoSet.config.break_ old new hos hns
  have hrun := C66_git h' hp hj t args branch m m' sets sets' w ht hc hrel hin dir disk' hclone hc' fs (heq.trans hfs)
  rw [hrun]
  refine ⟨fun hok package n kind hck hdecl => ?_, ?_⟩
  · have hnil : fs = [] := (C66_exit fs).1.1 hok
    have about : (kind.fact package n).about = package := by cases kind <;> rfl
    have hk := C123_kept t.srt t.order t.marshal m.protoSet.config.break_ sets' sets hff hft hf hto
      (by rw [heq, hfs, hnil]) (kind.fact package n) (by cases kind <;> exact id) (by rwa [about])
    exact (C124_declared P h' files' w.disk _ hall' htop' package n kind).1
      (hk ((C124_declared P h files disk _ hall htop package n kind).2 hdecl))
  · show breakOutcome fs ≠ .ok () → breakOutcome fs = _
    rw [Ne, (C66_exit fs).1, (C66_exit fs).2]
    exact id

/-! ## The hypotheses can be met -/

namespace RemovedExample

open DescribedExample (P elements desc desc_valid)

/-- The file of `DescribedExample` without its enum. -/
def fewer : List Element := elements.take 4

/-- Its descriptor. -/
def descFewer : FileDesc := { desc s%"rest...." with enums := [] }

/-- A host on which the file is read and compiled. -/
def host : Exec.Host :=
  { Exec.Sample.host with
    parse := fun _ c => if c = s%"U" then .ok elements else .ok fewer
    compile := fun _ _ _ => .ok ([], [[descFewer]]) }

/-- The file was changed, and the descriptor set is from before. -/
def after : World where
  disk p := if p = s%"/w/b/user.proto" then some s%"V" else if p = s%"/set" then some s%"S" else none

def before : Disk := fun p => if p = s%"/w/b/user.proto" then some s%"U" else none

def files : List (Str × Str) := [(s%"b/user.proto", s%"/w/b/user.proto")]

def tools : Tools :=
  { Exec.Sample.tools with marshal := ReflectExample.byName, decode := fun _ => .ok [desc s%"rest....."] }

theorem parse_before (p : Str) : host.parse p s%"U" = .ok elements := rfl

theorem parse_after (p : Str) : host.parse p s%"V" = .ok fewer := rfl

theorem before_described : Described P host files before [desc s%"rest....."] := by
  refine ⟨fun _ => elements, fun x hx => ?_, fun f => ?_⟩
  · obtain rfl := List.mem_singleton.1 hx
    exact ⟨s%"U", rfl, parse_before _⟩
  · simp only [files, List.mem_singleton, exists_eq_left, ← DescribedExample.elements_described, List.flatMap_cons,
      List.flatMap_nil, List.append_nil]

theorem fewer_described : describe P (namesAll (topScope fewer) fewer) s%"b/user.proto" fewer = descFewer := by rfl

theorem after_described : Described P host files after.disk [descFewer] := by
  refine ⟨fun _ => fewer, fun x hx => ?_, fun f => ?_⟩
  · obtain rfl := List.mem_singleton.1 hx
    exact ⟨s%"V", rfl, parse_after _⟩
  · simp only [files, List.mem_singleton, exists_eq_left, ← fewer_described, List.flatMap_cons,
      List.flatMap_nil, List.append_nil]

theorem top (es : List Element) (h : ∀ e ∈ es, e ∈ elements) : ∀ e ∈ es,
    (∀ g sub, e ≠ .group g sub) ∧ (∀ f, e ≠ .mapField f) ∧ ∀ o sub, e ≠ .oneof o sub := by
  intro e he
  have := h e he
  simp only [elements, List.mem_cons, List.not_mem_nil, or_false] at this
  rcases this with rfl | rfl | rfl | rfl | rfl <;> simp

theorem before_top : TopLevel host files before := by
  intro x hx c es hc hp
  obtain rfl := List.mem_singleton.1 hx
  cases hc
  rw [parse_before] at hp
  cases hp
  exact top _ fun _ h => h

theorem after_top : TopLevel host files after.disk := by
  intro x hx c es hc hp
  obtain rfl := List.mem_singleton.1 hx
  cases hc
  rw [parse_after] at hp
  cases hp
  exact top _ fun _ h => List.mem_of_mem_take h

theorem after_valid : DescriptorsOK [descFewer] := by
  have hv := desc_valid s%"rest...."
  have hd := List.mem_singleton.2 (rfl : desc s%"rest...." = desc s%"rest....")
  have one : ∀ f ∈ [descFewer], f = descFewer := fun f hf => List.mem_singleton.1 hf
  refine ⟨⟨?_, ?_, ?_, ?_, ?_⟩, ⟨?_, ?_, ?_, ?_, ?_, ?_⟩, ?_, ?_⟩
  · intro f hf; rw [one f hf]; exact hv.reflectable.packages (desc s%"rest....") hd
  · intro f hf g hg _; rw [one f hf, one g hg]
  · intro f hf d hd; rw [one f hf] at hd; cases hd
  · intro f hf; rw [one f hf]; exact hv.reflectable.messages (desc s%"rest....") hd
  · intro f hf s hs; rw [one f hf] at hs; cases hs
  · intro f hf; rw [one f hf]; exact List.nodup_nil
  · intro f hf; rw [one f hf]; exact hv.names.messages (desc s%"rest....") hd
  · intro f hf; rw [one f hf]; exact hv.names.services (desc s%"rest....") hd
  · intro f hf g hg _ _ _ _ _ _; rw [one f hf, one g hg]
  · intro f hf g hg _ _ _ _ _ _; rw [one f hf, one g hg]
  · intro f hf g hg _ _ _ _ _ _; rw [one f hf, one g hg]
  · intro f hf; rw [one f hf]; exact hv.messages (desc s%"rest....") hd
  · intro f hf s hs; rw [one f hf] at hs; cases hs

theorem declared : ProjectDeclares host files before s%"b.v1" s%"Kind" .enum :=
  ⟨_, .head _, s%"U", elements, rfl, parse_before _, rfl, { name := s%"Kind" }, _, .tail _ (.tail _ (.tail _ (.tail _ (.head _)))), rfl⟩

theorem not_declared : ¬ ProjectDeclares host files after.disk s%"b.v1" s%"Kind" .enum := by
  rintro ⟨x, hx, c, es, hc, hp, _, e, sub, he, _⟩
  obtain rfl := List.mem_singleton.1 hx
  cases hc
  rw [parse_after] at hp
  cases hp
  simp [fewer, elements] at he

/-- The enum `Kind` was removed, so the check ends with code 255. -/
example : (breakCheckCmd host tools [s%"a"] [] s%"/set" after).2 = .error (.exit 255 []) := by
  obtain ⟨h1, h2⟩ := C124_removed P host host (fun _ _ => rfl) (by intro _ f; exact ⟨_, rfl⟩) tools [s%"a"] s%"/set"
    (by decide) Exec.Sample.dir [[descFewer]] before after ⟨⟨s%"a", .inl rfl, .inl ⟨rfl, rfl, rfl⟩⟩, ⟨_, rfl⟩, rfl⟩ s%"S" rfl
    [desc s%"rest....."] rfl files files before_described after_described before_top after_top
    (DescribedExample.desc_faithful _) (DescribedExample.desc_faithful _) (desc_valid _) after_valid
  refine h2 fun hok => not_declared (h1 hok s%"b.v1" s%"Kind" .enum (.inr fun hb => ?_) declared)
  exact absurd (Proof.Extract.ignorePackage_true.2 hb) (by decide)

open Exec.Sample in
/-- The working directory is a repository whose branch holds the file from before. -/
def repo : Exec.Host :=
  { repoHost with
    parse := host.parse
    compile := fun _ _ ps =>
      .ok ([], if ps.workDirPath = s%"/tmp/clone" then [[desc s%"rest....."]] else [[descFewer]]) }

open Exec.Sample in
theorem repo_temp : TempDirsOK Exec.Sample.tools after.disk := by
  refine ⟨Exec.Sample.tools_ok.isAbs, ?_, Exec.Sample.tools_ok.clone, Exec.Sample.tools_ok.removed,
    Exec.Sample.tools_ok.kept⟩
  intro dir h p hp
  cases h
  have hp := isWithin_iff.2 hp
  have : ∀ q, q = s%"/w/b/user.proto" ∨ q = s%"/set" → isWithin q s%"/tmp/clone" ≠ true := by
    rintro q (rfl | rfl) <;> decide
  show (if p = s%"/w/b/user.proto" then some s%"V" else if p = s%"/set" then some s%"S" else none) = none
  rw [if_neg (fun e => this p (.inl e) hp), if_neg (fun e => this p (.inr e) hp)]

theorem repo_described : Described P repo files after.disk [descFewer] := by
  obtain ⟨es, h1, h2⟩ := after_described
  exact ⟨es, h1, h2⟩

open Exec.Sample in
/-- It is noticed as well in a check against the branch. -/
example : (breakCheckCmd repo Exec.Sample.tools [s%"a"] [] [] after).2 = .error (.exit 255 []) := by
  obtain ⟨h1, h2⟩ := C124_git P host repo (fun _ _ => rfl) (by intro _ f; exact ⟨_, rfl⟩) Exec.Sample.tools [s%"a"] []
    Exec.Sample.dir { protoSet := cloneSet } [[descFewer]] [[desc s%"rest....."]] before after repo_temp
    ⟨⟨s%"a", .inl rfl, .inl ⟨rfl, rfl, rfl⟩⟩, ⟨_, rfl⟩, by rfl⟩ rfl (by decide) s%"/tmp/clone" _ ⟨by rfl, rfl, by rfl⟩
    ⟨⟨_, .inl rfl, .inl ⟨by rfl, by rfl, rfl⟩⟩, ⟨_, rfl⟩, by rfl⟩ files files before_described repo_described before_top
    after_top (DescribedExample.desc_faithful _) (DescribedExample.desc_faithful _) (desc_valid _) after_valid
  refine h2 fun hok => not_declared (h1 hok s%"b.v1" s%"Kind" .enum (.inr fun hb => ?_) declared)
  exact absurd (Proof.Extract.ignorePackage_true.2 hb) (by decide)

end RemovedExample

end Verif.Props
