import Verif.Props.Members
import Verif.Spec.Streams

/-!
# Methods that stream something else are noticed: C127
-/

namespace Verif.Props

open Verif Str Proto Reflect Breaking Descriptor Spec Exec

theorem streams_describe (P : Protoc) (names : List (Str × Int)) (file : Str) (es : List Element) (service n : Str)
    (c r : Bool) :
    (∃ s ∈ (describe P names file es).services, s.name = service ∧
      ∃ x ∈ s.methods, x.name = n ∧ x.clientStreaming = c ∧ x.serverStreaming = r) ↔
    ∃ s sub, .service s sub ∈ es ∧ s.name = service ∧ ∃ q rs, .rpc q rs ∈ sub ∧ q.name = n ∧ q.streamsRequest = c ∧
      q.streamsReturns = r := by
  constructor
  · rintro ⟨s, hs, hn, x, hx, hm⟩
    obtain ⟨e, he, hs⟩ := List.mem_flatMap.1 hs
    cases e with
    | service s' sub =>
      obtain rfl := List.mem_singleton.1 hs
      obtain ⟨e, he', hx⟩ := List.mem_flatMap.1 hx
      cases e with
      | rpc q rs =>
        obtain rfl := List.mem_singleton.1 hx
        exact ⟨s', sub, he, hn, q, rs, he', hm⟩
      | _ => cases hx
    | _ => cases hs
  · rintro ⟨s, sub, he, hn, q, rs, he', hm⟩
    exact ⟨_, List.mem_flatMap.2 ⟨_, he, .head _⟩, hn, _, List.mem_flatMap.2 ⟨_, he', .head _⟩, hm⟩

/-- C127: **the descriptors have a method that streams this exactly if one of the sources declares it so**. -/
theorem C127_declared (P : Protoc) (h : Host) (files : List (Str × Str)) (disk : Disk) (all : List FileDesc)
    (hall : Described P h files disk all) (package service n : Str) (c r : Bool) :
    (∃ f ∈ all, f.package = package ∧ ∃ s ∈ f.services, s.name = service ∧
      ∃ x ∈ s.methods, x.name = n ∧ x.clientStreaming = c ∧ x.serverStreaming = r) ↔
      ProjectDeclaresMethod h files disk package service n c r := by
  obtain ⟨es, h1, h2⟩ := hall
  constructor
  · rintro ⟨f, hf, hfp, hs⟩
    obtain ⟨x, hx, rfl⟩ := (h2 f).1 hf
    obtain ⟨content, hc, hp⟩ := h1 x hx
    exact ⟨x, hx, content, _, hc, hp, hfp, (streams_describe P _ x.1 _ service n c r).1 hs⟩
  · rintro ⟨x, hx, content, es', hc, hp, hpk, hs⟩
    obtain ⟨content', hc', hp'⟩ := h1 x hx
    rw [hc] at hc'
    cases hc'
    rw [hp] at hp'
    injection hp' with e'
    subst e'
    exact ⟨_, (h2 _).2 ⟨x, hx, rfl⟩, hpk, (streams_describe P _ x.1 _ service n c r).2 hs⟩

/-- A clean check keeps what methods stream. -/
theorem kept_streams (P : Protoc) (h h' : Host) (s : SortSlice) (o : Order) (marshal : FileDesc → Except Err Str)
    (config : BreakConfig) (frm to : List FileSet) (disk disk' : Disk) (files files' : List (Str × Str))
    (hall : Described P h files disk frm.flatten) (hall' : Described P h' files' disk' to.flatten)
    (hff : FaithfulOn marshal fun f => f ∈ frm.flatten) (hft : FaithfulOn marshal fun f => f ∈ to.flatten)
    (hf : DescriptorsOK frm.flatten) (ht : DescriptorsOK to.flatten)
    (hok : breakCheckSets s o marshal config frm to = .ok []) (package service n : Str) (c r : Bool)
    (hck : Checked config.includeBeta package) (hd : ProjectDeclaresMethod h files disk package service n c r) :
    ProjectDeclaresMethod h' files' disk' package service n c r := by
  obtain ⟨f, hmem, rfl, s, hs, rfl, x, hx, rfl, rfl, rfl⟩ := (C127_declared P h files disk _ hall package service n c r).2 hd
  obtain ⟨g, hg, hgp, s', hs', hn, x', hx', e⟩ := C123_kept _ o marshal config frm to hff hft hf ht hok
    (.method f.package s.name ⟨x.name, x.inputType.drop 1, x.outputType.drop 1, x.clientStreaming, x.serverStreaming⟩)
    id hck ⟨f, hmem, rfl, s, hs, rfl, x, hx, rfl⟩
  injection e with e1 _ _ e4 e5
  exact (C127_declared P h' files' disk' _ hall' _ _ _ _ _).1 ⟨g, hg, hgp, s', hs', hn, x', hx', e1, e4, e5⟩

/-- C127: **a check that ends well means that every method that the sources declared still streams its requests and its
responses if it did, and does not if it did not**. Otherwise the check ends with code 255. -/
theorem C127_removed (P : Protoc) (h h' : Host) (hp : Prints h') (hj : h'.json = true → ∀ f, ∃ t, h'.toJSON f = .ok t)
    (t : Tools) (args : List Str) (path : Str) (hpath : path ≠ []) (m : Meta) (sets : List FileSet)
    (disk : Disk) (w : World) (hc : CompilesTo h' args { doFileDescriptorSet := true } w.disk m sets)
    (data : Str) (hd : w.disk path = some data) (set : FileSet) (hdec : t.decode data = .ok set)
    (files files' : List (Str × Str)) (hall : Described P h files disk set)
    (hall' : Described P h' files' w.disk sets.flatten)
    (hff : FaithfulOn t.marshal fun f => f ∈ set) (hft : FaithfulOn t.marshal fun f => f ∈ sets.flatten)
    (hf : DescriptorsOK set) (hto : DescriptorsOK sets.flatten) :
    ((breakCheckCmd h' t args [] path w).2 = .ok () → ∀ package service n request returns,
      Checked m.protoSet.config.break_.includeBeta package →
      ProjectDeclaresMethod h files disk package service n request returns →
      ProjectDeclaresMethod h' files' w.disk package service n request returns) ∧
    ((breakCheckCmd h' t args [] path w).2 ≠ .ok () →
      (breakCheckCmd h' t args [] path w).2 = .error (.exit 255 [])) := by
  have he : [set].flatten = set := by simp
  obtain ⟨old, ho, hos⟩ := C12_schemaOK t.srt (t.order.sub (s%"from")) t.marshal [set] (by rwa [he]) (by rwa [he])
  obtain ⟨new, hn, hns⟩ := C12_schemaOK t.srt (t.order.sub (s%"to")) t.marshal sets hft hto
  have heq := breakCheckSets_eq t.srt t.order t.marshal m.protoSet.config.break_ [set] sets old new ho hn
  obtain ⟨fs, hfs, _⟩ := C06_reports t.order m.protoSet.config.break_ old new hos hns
  have hrun := C66_descriptor_set h' hp hj t args path hpath m sets w hc data hd set hdec fs (heq.trans hfs)
  rw [hrun]
  refine ⟨fun hok package service n c r hck hdecl => ?_, ?_⟩
  · have hnil : fs = [] := (C66_exit fs).1.1 hok
    exact kept_streams P h h' t.srt t.order t.marshal m.protoSet.config.break_ [set] sets disk w.disk files files'
      (by rwa [he]) hall' (by rwa [he]) hft (by rwa [he]) hto (by rw [heq, hfs, hnil]) package service n c r hck hdecl
  · show breakOutcome fs ≠ .ok () → breakOutcome fs = _
    rw [Ne, (C66_exit fs).1, (C66_exit fs).2]
    exact id

/-- C127 against a branch of the repository that holds the sources from before. -/
theorem C127_git (P : Protoc) (h h' : Host) (hp : Prints h') (hj : h'.json = true → ∀ f, ∃ t, h'.toJSON f = .ok t)
    (t : Tools) (args : List Str) (branch : Str) (m m' : Meta) (sets sets' : List FileSet)
    (disk : Disk) (w : World) (ht : TempDirsOK t w.disk)
    (hc : CompilesTo h' args { doFileDescriptorSet := true } w.disk m sets)
    (hrel : Path.isAbs (fileOrDir args) = false)
    (hin : File.absClean h'.wd h'.workDirPath <+: File.absClean h'.wd (fileOrDir args))
    (dir : Str) (disk' : Disk) (hclone : Clones h' t branch w.disk dir disk')
    (hc' : CompilesTo { h' with workDirPath := dir, stat := t.treeStat, getForDir := t.treeForDir }
      [cloneDirFor dir (fileOrDir args)] { doFileDescriptorSet := true } disk' m' sets')
    (files files' : List (Str × Str)) (hall : Described P h files disk sets'.flatten)
    (hall' : Described P h' files' w.disk sets.flatten)
    (hff : FaithfulOn t.marshal fun f => f ∈ sets'.flatten) (hft : FaithfulOn t.marshal fun f => f ∈ sets.flatten)
    (hf : DescriptorsOK sets'.flatten) (hto : DescriptorsOK sets.flatten) :
    ((breakCheckCmd h' t args branch [] w).2 = .ok () → ∀ package service n request returns,
      Checked m.protoSet.config.break_.includeBeta package →
      ProjectDeclaresMethod h files disk package service n request returns →
      ProjectDeclaresMethod h' files' w.disk package service n request returns) ∧
    ((breakCheckCmd h' t args branch [] w).2 ≠ .ok () →
      (breakCheckCmd h' t args branch [] w).2 = .error (.exit 255 [])) := by
  obtain ⟨old, ho, hos⟩ := C12_schemaOK t.srt (t.order.sub (s%"from")) t.marshal sets' hff hf
  obtain ⟨new, hn, hns⟩ := C12_schemaOK t.srt (t.order.sub (s%"to")) t.marshal sets hft hto
  have heq := breakCheckSets_eq t.srt t.order t.marshal m.protoSet.config.break_ sets' sets old new ho hn
  obtain ⟨fs, hfs, _⟩ := C06_reports t.order m.protoSet.config.break_ old new hos hns
  have hrun := C66_git h' hp hj t args branch m m' sets sets' w ht hc hrel hin dir disk' hclone hc' fs (heq.trans hfs)
  rw [hrun]
  refine ⟨fun hok package service n c r hck hdecl => ?_, ?_⟩
  · have hnil : fs = [] := (C66_exit fs).1.1 hok
    exact kept_streams P h h' t.srt t.order t.marshal m.protoSet.config.break_ sets' sets disk w.disk files files'
      hall hall' hff hft hf hto (by rw [heq, hfs, hnil]) package service n c r hck hdecl
  · show breakOutcome fs ≠ .ok () → breakOutcome fs = _
    rw [Ne, (C66_exit fs).1, (C66_exit fs).2]
    exact id

/-! ## The hypotheses can be met -/

namespace StreamsExample

open DescribedExample (P desc)
open RemovedExample (after files)

/-- A file with a service, whose method answers with a stream or not. -/
def source (streams : Bool) : List Element :=
  [.syntax { value := s%"proto3" }, .package { name := s%"b.v1" }, .message { name := s%"User" } [],
   .service { name := s%"API" }
     [.rpc { name := s%"Get", requestType := s%"User", returnsType := s%"User", streamsReturns := streams } []]]

/-- Its descriptor. -/
def descOf (streams : Bool) : FileDesc where
  name := s%"b/user.proto"
  package := s%"b.v1"
  dependency := []
  messages := [.mk s%"User" [] [] [] []]
  enums := []
  services := [⟨s%"API", [⟨s%"Get", s%".b.v1.User", s%".b.v1.User", false, streams⟩]⟩]
  rest := s%"rest...."

theorem source_described (b : Bool) :
    describe P (namesAll (topScope (source b)) (source b)) s%"b/user.proto" (source b) = descOf b := by rfl

/-- The responses were a stream before. -/
def repo : Exec.Host :=
  { Exec.Sample.repoHost with
    parse := fun _ c => if c = s%"U" then .ok (source true) else .ok (source false)
    compile := fun _ _ ps =>
      .ok ([], if ps.workDirPath = s%"/tmp/clone" then [[descOf true]] else [[descOf false]]) }

def tools : Tools :=
  { Exec.Sample.tools with marshal := ReflectExample.byName, decode := fun _ => .ok [descOf true] }

theorem parse_before (p : Str) : repo.parse p s%"U" = .ok (source true) := rfl

theorem parse_after (p : Str) : repo.parse p s%"V" = .ok (source false) := rfl

theorem before_described : Described P repo files RemovedExample.before [descOf true] := by
  refine ⟨fun _ => source true, fun x hx => ?_, fun f => ?_⟩
  · obtain rfl := List.mem_singleton.1 hx
    exact ⟨s%"U", rfl, parse_before _⟩
  · simp only [files, List.mem_singleton, exists_eq_left, ← source_described, List.flatMap_cons,
      List.flatMap_nil, List.append_nil]

theorem after_described : Described P repo files after.disk [descOf false] := by
  refine ⟨fun _ => source false, fun x hx => ?_, fun f => ?_⟩
  · obtain rfl := List.mem_singleton.1 hx
    exact ⟨s%"V", rfl, parse_after _⟩
  · simp only [files, List.mem_singleton, exists_eq_left, ← source_described, List.flatMap_cons,
      List.flatMap_nil, List.append_nil]

theorem valid (b : Bool) : DescriptorsOK [descOf b] := by
  have one : ∀ f ∈ [descOf b], f = descOf b := fun f hf => List.mem_singleton.1 hf
  refine ⟨⟨?_, ?_, ?_, ?_, ?_⟩, ⟨?_, ?_, ?_, ?_, ?_, ?_⟩, ?_, ?_⟩
  · intro f hf; rw [one f hf]; exact ⟨by simp [descOf], by simp [descOf, Qualified]⟩
  · intro f hf g hg _; rw [one f hf, one g hg]
  · intro f hf d hd; rw [one f hf] at hd; cases hd
  · intro f hf; rw [one f hf]; simp [descOf, MessagesQualified, MessageQualified, FieldQualified, Qualified]
  · intro f hf s hs; rw [one f hf] at hs; simp [descOf] at hs; subst hs; simp [Qualified]
  · intro f hf; rw [one f hf]; simp [descOf]
  · intro f hf; rw [one f hf]; simp [descOf]
  · intro f hf; rw [one f hf]; simp [descOf]
  · intro f hf g hg _ _ _ _ _ _; rw [one f hf, one g hg]
  · intro f hf g hg _ _ _ _ _ _; rw [one f hf, one g hg]
  · intro f hf g hg _ _ _ _ _ _; rw [one f hf, one g hg]
  · intro f hf; rw [one f hf]; simp [descOf, MessagesValid, MessageValid, NamesType]
  · intro f hf s hs; rw [one f hf] at hs; simp [descOf] at hs; subst hs; simp

theorem declared : ProjectDeclaresMethod repo files RemovedExample.before s%"b.v1" s%"API" s%"Get" false true :=
  ⟨_, .head _, s%"U", source true, rfl, parse_before _, rfl, _, _, .tail _ (.tail _ (.tail _ (.head _))), rfl, _, _,
    .head _, rfl, rfl, rfl⟩

theorem not_declared : ¬ ProjectDeclaresMethod repo files after.disk s%"b.v1" s%"API" s%"Get" false true := by
  intro h
  obtain ⟨f, hf, _, s, hs, _, x, hx, _, _, hr⟩ := (C127_declared P repo files after.disk _ after_described _ _ _ _ _).2 h
  obtain rfl := List.mem_singleton.1 hf
  obtain rfl := List.mem_singleton.1 hs
  obtain rfl := List.mem_singleton.1 hx
  cases hr

/-- The responses are no stream any more, so the check against the descriptor set from before ends with code 255. -/
example : (breakCheckCmd repo tools [s%"a"] [] s%"/set" after).2 = .error (.exit 255 []) := by
  obtain ⟨h1, h2⟩ := C127_removed P repo repo (fun _ _ => rfl) (by intro _ f; exact ⟨_, rfl⟩) tools [s%"a"]
    s%"/set" (by decide) Exec.Sample.dir [[descOf false]] RemovedExample.before after
    ⟨⟨s%"a", .inl rfl, .inl ⟨rfl, rfl, rfl⟩⟩, ⟨_, rfl⟩, by rfl⟩ s%"S" rfl [descOf true] rfl files files
    before_described after_described
    (DescribedExample.desc_faithful _) (DescribedExample.desc_faithful _) (valid _) (valid _)
  refine h2 fun hok => not_declared (h1 hok s%"b.v1" _ _ _ _ (.inr fun hb => ?_) declared)
  exact absurd (Proof.Extract.ignorePackage_true.2 hb) (by decide)

open Exec.Sample in
/-- And so does the check against the branch. -/
example : (breakCheckCmd repo Exec.Sample.tools [s%"a"] [] [] after).2 = .error (.exit 255 []) := by
  obtain ⟨h1, h2⟩ := C127_git P repo repo (fun _ _ => rfl) (by intro _ f; exact ⟨_, rfl⟩) Exec.Sample.tools
    [s%"a"] [] Exec.Sample.dir { protoSet := cloneSet } [[descOf false]] [[descOf true]] RemovedExample.before after
    RemovedExample.repo_temp ⟨⟨s%"a", .inl rfl, .inl ⟨rfl, rfl, rfl⟩⟩, ⟨_, rfl⟩, by rfl⟩ rfl (by decide) s%"/tmp/clone" _
    ⟨by rfl, rfl, by rfl⟩ ⟨⟨_, .inl rfl, .inl ⟨by rfl, by rfl, rfl⟩⟩, ⟨_, rfl⟩, by rfl⟩ files files before_described
    after_described (DescribedExample.desc_faithful _) (DescribedExample.desc_faithful _) (valid _) (valid _)
  refine h2 fun hok => not_declared (h1 hok s%"b.v1" _ _ _ _ (.inr fun hb => ?_) declared)
  exact absurd (Proof.Extract.ignorePackage_true.2 hb) (by decide)

end StreamsExample

end Verif.Props
