import Verif.Props.Members
import Verif.Spec.FieldPlace

/-!
# Other labels and other oneofs are noticed: C126
-/

namespace Verif.Props

open Verif Str Proto Reflect Breaking Descriptor Spec Exec

/-- The field descriptor says this of the field. -/
def PlacedAs (oneofs : List Str) (k : Int) (n : Str) (label : Int) (inOneof : Option Str) (x : FieldDesc) : Prop :=
  x.number = k ∧ x.name = n ∧ x.label = label ∧ oneofName oneofs x = inOneof

section

variable (P : Protoc) (names : List (Str × Int))

theorem fieldDescs_placed (scope : List Str) (k : Int) (n : Str) (label : Int) (w : Option Str) :
    ∀ (es : List Element) (pre : List Str),
    (∃ x ∈ fieldDescs P names scope pre.length es, PlacedAs (pre ++ es.flatMap oneofDescs) k n label w x) ↔
      ∃ e ∈ es, FieldSays P k n label w e
  | [], pre => by simp [fieldDescs]
  | e :: es, pre => by
    have ih := fieldDescs_placed scope k n label w es
    rw [exists_cons, List.flatMap_cons]
    cases e with
    | normalField f =>
      have e0 : oneofDescs (.normalField f) = [] := rfl
      rw [fieldDescs, e0, List.nil_append, exists_cons, ih]
      refine or_congr_left ?_
      simp only [PlacedAs, FieldSays, fieldDesc, oneofName, Option.bind_none, eq_comm (a := w)]
    | mapField f =>
      have e0 : oneofDescs (.mapField f) = [] := rfl
      rw [fieldDescs, e0, List.nil_append, exists_cons, ih]
      refine or_congr_left ?_
      simp only [PlacedAs, FieldSays, oneofName, Option.bind_none, eq_comm (a := w), eq_comm (a := label)]
    | group g sub =>
      have e0 : oneofDescs (.group g sub) = [] := rfl
      rw [fieldDescs, e0, List.nil_append, exists_cons, ih]
      refine or_congr_left ?_
      simp only [PlacedAs, FieldSays, oneofName, Option.bind_none, eq_comm (a := w), eq_comm (a := label)]
    | oneof o os =>
      have e0 : oneofDescs (.oneof o os) = [o.name] := rfl
      have hall : pre ++ ([o.name] ++ es.flatMap oneofDescs) = (pre ++ [o.name]) ++ es.flatMap oneofDescs := by simp
      have hlen : pre.length + 1 = (pre ++ [o.name]).length := by simp
      have hat : (pre ++ ([o.name] ++ es.flatMap oneofDescs))[pre.length]? = some o.name := by simp
      have : (∃ x ∈ os.flatMap (oneofFields P names scope pre.length),
          PlacedAs (pre ++ ([o.name] ++ es.flatMap oneofDescs)) k n label w x) ↔ FieldSays P k n label w (.oneof o os) := by
        constructor
        · rintro ⟨x, hx, h1, h2, h3, h4⟩
          obtain ⟨e, he, hx⟩ := List.mem_flatMap.1 hx
          cases e with
          | oneofField f =>
            obtain rfl := List.mem_singleton.1 hx
            exact ⟨h3.symm, h4.symm.trans hat, .inl ⟨f, he, h1, h2⟩⟩
          | group g sub =>
            obtain rfl := List.mem_singleton.1 hx
            exact ⟨h3.symm, h4.symm.trans hat, .inr ⟨g, sub, he, h1, h2⟩⟩
          | _ => cases hx
        · rintro ⟨rfl, rfl, ⟨f, he, h1, h2⟩ | ⟨g, sub, he, h1, h2⟩⟩
          · exact ⟨_, List.mem_flatMap.2 ⟨_, he, .head _⟩, h1, h2, rfl, hat⟩
          · exact ⟨_, List.mem_flatMap.2 ⟨_, he, .head _⟩, h1, h2, rfl, hat⟩
      rw [fieldDescs, e0, ← this, ← ih (pre ++ [o.name]), ← hlen, ← hall]
      constructor
      · rintro ⟨x, hx, h⟩
        rcases List.mem_append.1 hx with hx | hx
        · exact .inl ⟨x, hx, h⟩
        · exact .inr ⟨x, hx, h⟩
      · rintro (⟨x, hx, h⟩ | ⟨x, hx, h⟩)
        · exact ⟨x, List.mem_append.2 (.inl hx), h⟩
        · exact ⟨x, List.mem_append.2 (.inr hx), h⟩
    | _ =>
      rw [fieldDescs]
      · show (∃ x ∈ fieldDescs P names scope pre.length es, PlacedAs (pre ++ es.flatMap oneofDescs) k n label w x) ↔ _
        rw [ih]
        exact ⟨.inr, fun h => h.resolve_left id⟩
      all_goals (intros; rename_i h; cases h)

theorem fieldsFor_placed (scope : List Str) (m : Str) (e : Element) (k : Int) (n : Str) (label : Int) (w : Option Str) :
    (∃ x ∈ fieldsFor P names scope m e, PlacedAs ((bodyOf e).flatMap oneofDescs) k n label w x) ↔
      ((∃ y ∈ bodyOf e, FieldSays P k n label w y) ∨
        ∃ f, e = .mapField f ∧ label = 1 ∧ w = none ∧ (k = 1 ∧ n = s%"key" ∨ k = 2 ∧ n = s%"value")) := by
  cases e with
  | mapField f =>
    simp only [fieldsFor, bodyOf, List.mem_cons, List.not_mem_nil, or_false, exists_eq_or_imp, exists_eq_left, fieldDesc,
      false_and, exists_false, false_or, PlacedAs, oneofName, Option.bind_none]
    constructor
    · rintro (⟨rfl, rfl, rfl, rfl⟩ | ⟨rfl, rfl, rfl, rfl⟩)
      · exact ⟨f, rfl, rfl, rfl, .inl ⟨rfl, rfl⟩⟩
      · exact ⟨f, rfl, rfl, rfl, .inr ⟨rfl, rfl⟩⟩
    · rintro ⟨_, _, rfl, rfl, ⟨rfl, rfl⟩ | ⟨rfl, rfl⟩⟩
      · exact .inl ⟨rfl, rfl, rfl, rfl⟩
      · exact .inr ⟨rfl, rfl, rfl, rfl⟩
  | _ =>
    rw [fieldsFor]
    · refine (fieldDescs_placed P names _ k n label w _ []).trans ?_
      exact ⟨.inl, fun h => h.resolve_right fun ⟨_, h, _⟩ => by cases h⟩
    all_goals (intro _ h; cases h)

end

/-- C126: **the descriptors have a field with this label and oneof exactly if one of the sources declares it so**. -/
theorem C126_declared (P : Protoc) (h : Host) (files : List (Str × Str)) (disk : Disk) (all : List FileDesc)
    (hall : Described P h files disk all) (package : Str) (path : List Str) (k : Int) (n : Str) (label : Int)
    (w : Option Str) :
    (∃ f ∈ all, f.package = package ∧ ∃ d, DescAt f.messages path d ∧ ∃ x ∈ d.fields, PlacedAs d.oneofs k n label w x) ↔
      ProjectDeclaresField P h files disk package path k n label w := by
  obtain ⟨es, h1, h2⟩ := hall
  constructor
  · rintro ⟨f, hf, hfp, d, hd, hx⟩
    obtain ⟨x, hx', rfl⟩ := (h2 f).1 hf
    obtain ⟨c, hc, hp⟩ := h1 x hx'
    obtain ⟨e, s, m, he, rfl⟩ := messageIn_of_descAt P _ hd (topScope _) _ rfl
    exact ⟨x, hx', c, _, hc, hp, hfp, e, he, (fieldsFor_placed P _ s m e k n label w).1 hx⟩
  · rintro ⟨x, hx, c, es', hc, hp, hpk, e, he, hy⟩
    obtain ⟨c', hc', hp'⟩ := h1 x hx
    rw [hc] at hc'
    cases hc'
    rw [hp] at hp'
    injection hp' with e'
    subst e'
    obtain ⟨s, m, hd⟩ := descAt_of_messageIn P (files.flatMap fun y => namesAll (topScope (es y)) (es y)) he (topScope (es x))
    exact ⟨_, (h2 _).2 ⟨x, hx, rfl⟩, hpk, _, hd, (fieldsFor_placed P _ s m e k n label w).2 hy⟩

/-- A clean check keeps labels and oneofs. -/
theorem kept_placed (P : Protoc) (h h' : Host) (s : SortSlice) (o : Order) (marshal : FileDesc → Except Err Str)
    (config : BreakConfig) (frm to : List FileSet) (disk disk' : Disk) (files files' : List (Str × Str))
    (hall : Described P h files disk frm.flatten) (hall' : Described P h' files' disk' to.flatten)
    (hff : FaithfulOn marshal fun f => f ∈ frm.flatten) (hft : FaithfulOn marshal fun f => f ∈ to.flatten)
    (hf : DescriptorsOK frm.flatten) (ht : DescriptorsOK to.flatten)
    (hok : breakCheckSets s o marshal config frm to = .ok []) (package : Str) (path : List Str) (k : Int) (n : Str)
    (label : Int) (w : Option Str) (hck : Checked config.includeBeta package)
    (hd : ProjectDeclaresField P h files disk package path k n label w) :
    ProjectDeclaresField P h' files' disk' package path k n label w := by
  obtain ⟨f, hmem, rfl, d, hda, x, hx, h1, h2, h3, h4⟩ := (C126_declared P h files disk _ hall package path k n label w).2 hd
  obtain ⟨g, hg, hgp, d', hd', x', hx', g1, g2, g3, _, _, g4⟩ := C123_kept s o marshal config frm to hff hft hf ht hok
    (.field f.package path k n label x.type (x.typeName.drop 1) w) id hck
    ⟨f, hmem, rfl, d, hda, x, hx, h1, h2, h3, rfl, fun _ => rfl, h4⟩
  exact (C126_declared P h' files' disk' _ hall' _ path k n label w).1 ⟨g, hg, hgp, d', hd', x', hx', g1, g2, g3, g4⟩

/-- C126: **a check that ends well means that every field that the sources declared still has its label and is still in
its oneof, or in none**. Otherwise the check ends with code 255. -/
theorem C126_removed (P : Protoc) (h h' : Host) (hp : Prints h') (hj : h'.json = true → ∀ f, ∃ t, h'.toJSON f = .ok t)
    (t : Tools) (args : List Str) (path : Str) (hpath : path ≠ []) (m : Meta) (sets : List FileSet)
    (disk : Disk) (w : World) (hc : CompilesTo h' args { doFileDescriptorSet := true } w.disk m sets)
    (data : Str) (hd : w.disk path = some data) (set : FileSet) (hdec : t.decode data = .ok set)
    (files files' : List (Str × Str)) (hall : Described P h files disk set)
    (hall' : Described P h' files' w.disk sets.flatten)
    (hff : FaithfulOn t.marshal fun f => f ∈ set) (hft : FaithfulOn t.marshal fun f => f ∈ sets.flatten)
    (hf : DescriptorsOK set) (hto : DescriptorsOK sets.flatten) :
    ((breakCheckCmd h' t args [] path w).2 = .ok () → ∀ package scope k n label inOneof,
      Checked m.protoSet.config.break_.includeBeta package →
      ProjectDeclaresField P h files disk package scope k n label inOneof →
      ProjectDeclaresField P h' files' w.disk package scope k n label inOneof) ∧
    ((breakCheckCmd h' t args [] path w).2 ≠ .ok () →
      (breakCheckCmd h' t args [] path w).2 = .error (.exit 255 [])) := by
  have he : [set].flatten = set := by simp
  obtain ⟨old, ho, hos⟩ := C12_schemaOK t.srt (t.order.sub (s%"from")) t.marshal [set] (by rwa [he]) (by rwa [he])
  obtain ⟨new, hn, hns⟩ := C12_schemaOK t.srt (t.order.sub (s%"to")) t.marshal sets hft hto
  have heq := breakCheckSets_eq t.srt t.order t.marshal m.protoSet.config.break_ [set] sets old new ho hn
  obtain ⟨fs, hfs, _⟩ := C06_reports t.order m.protoSet.config.break_ old new hos hns
  have hrun := C66_descriptor_set h' hp hj t args path hpath m sets w hc data hd set hdec fs (heq.trans hfs)
  rw [hrun]
  refine ⟨fun hok package scope k n label inOneof hck hdecl => ?_, ?_⟩
  · have hnil : fs = [] := (C66_exit fs).1.1 hok
    exact kept_placed P h h' t.srt t.order t.marshal m.protoSet.config.break_ [set] sets disk w.disk files files'
      (by rwa [he]) hall' (by rwa [he]) hft (by rwa [he]) hto (by rw [heq, hfs, hnil]) package scope k n label inOneof hck
      hdecl
  · show breakOutcome fs ≠ .ok () → breakOutcome fs = _
    rw [Ne, (C66_exit fs).1, (C66_exit fs).2]
    exact id

/-- C126 against a branch of the repository that holds the sources from before. -/
theorem C126_git (P : Protoc) (h h' : Host) (hp : Prints h') (hj : h'.json = true → ∀ f, ∃ t, h'.toJSON f = .ok t)
    (t : Tools) (args : List Str) (branch : Str) (m m' : Meta) (sets sets' : List FileSet)
    (disk : Disk) (w : World) (ht : TempDirsOK t w.disk)
    (hc : CompilesTo h' args { doFileDescriptorSet := true } w.disk m sets)
    (hrel : Path.isAbs (fileOrDir args) = false)
    (hin : File.absClean h'.wd h'.workDirPath <+: File.absClean h'.wd (fileOrDir args))
    (dir : Str) (disk' : Disk) (hclone : Clones h' t branch w.disk dir disk')
    (hc' : CompilesTo { h' with workDirPath := dir, stat := t.treeStat, getForDir := t.treeForDir }
      [cloneDirFor dir (fileOrDir args)] { doFileDescriptorSet := true } disk' m' sets')
    (files files' : List (Str × Str)) (hall : Described P h files disk sets'.flatten)
    (hall' : Described P h' files' w.disk sets.flatten)
    (hff : FaithfulOn t.marshal fun f => f ∈ sets'.flatten) (hft : FaithfulOn t.marshal fun f => f ∈ sets.flatten)
    (hf : DescriptorsOK sets'.flatten) (hto : DescriptorsOK sets.flatten) :
    ((breakCheckCmd h' t args branch [] w).2 = .ok () → ∀ package scope k n label inOneof,
      Checked m.protoSet.config.break_.includeBeta package →
      ProjectDeclaresField P h files disk package scope k n label inOneof →
      ProjectDeclaresField P h' files' w.disk package scope k n label inOneof) ∧
    ((breakCheckCmd h' t args branch [] w).2 ≠ .ok () →
      (breakCheckCmd h' t args branch [] w).2 = .error (.exit 255 [])) := by
  obtain ⟨old, ho, hos⟩ := C12_schemaOK t.srt (t.order.sub (s%"from")) t.marshal sets' hff hf
  obtain ⟨new, hn, hns⟩ := C12_schemaOK t.srt (t.order.sub (s%"to")) t.marshal sets hft hto
  have heq := breakCheckSets_eq t.srt t.order t.marshal m.protoSet.config.break_ sets' sets old new ho hn
  obtain ⟨fs, hfs, _⟩ := C06_reports t.order m.protoSet.config.break_ old new hos hns
  have hrun := C66_git h' hp hj t args branch m m' sets sets' w ht hc hrel hin dir disk' hclone hc' fs (heq.trans hfs)
  rw [hrun]
  refine ⟨fun hok package scope k n label inOneof hck hdecl => ?_, ?_⟩
  · have hnil : fs = [] := (C66_exit fs).1.1 hok
    exact kept_placed P h h' t.srt t.order t.marshal m.protoSet.config.break_ sets' sets disk w.disk files files'
      hall hall' hff hft hf hto (by rw [heq, hfs, hnil]) package scope k n label inOneof hck hdecl
  · show breakOutcome fs ≠ .ok () → breakOutcome fs = _
    rw [Ne, (C66_exit fs).1, (C66_exit fs).2]
    exact id

/-! ## The hypotheses can be met -/

namespace FieldPlaceExample

open DescribedExample (P elements desc desc_valid)
open RemovedExample (after files tools before_described parse_before)

/-- The file of `DescribedExample` with the field of the oneof moved out of it, and another one in its place. -/
def moved : List Element :=
  [.syntax { value := s%"proto3" }, .package { name := s%"b.v1" },
   .option { name := s%"go_package", constant := .str s%"b" },
   .message { name := s%"User" }
     [.normalField { repeated := true, field := { name := s%"friends", type := s%"User", sequence := 2 } },
      .normalField { field := { name := s%"id", type := s%"string", sequence := 1 } },
      .oneof { name := s%"x" } [.oneofField { name := s%"key", type := s%"string", sequence := 3 }]],
   .enum { name := s%"Kind" } [.enumField { name := s%"KIND_INVALID", integer := 0 } []]]

/-- Its descriptor. -/
def descMoved : FileDesc :=
  { desc s%"rest....." with
    messages := [.mk s%"User" [] []
      [⟨s%"friends", 2, 3, 11, s%".b.v1.User", none⟩, ⟨s%"id", 1, 1, 9, [], none⟩, ⟨s%"key", 3, 1, 9, [], some 0⟩] [s%"x"]] }

/-- The branch of the repository, and any descriptor set, hold the file from before. -/
def repo : Exec.Host :=
  { Exec.Sample.repoHost with
    parse := fun _ c => if c = s%"U" then .ok elements else .ok moved
    compile := fun _ _ ps =>
      .ok ([], if ps.workDirPath = s%"/tmp/clone" then [[desc s%"rest....."]] else [[descMoved]]) }

theorem parse_after (p : Str) : repo.parse p s%"V" = .ok moved := rfl

theorem moved_described : describe P (namesAll (topScope moved) moved) s%"b/user.proto" moved = descMoved := by
  rfl

theorem after_described : Described P repo files after.disk [descMoved] := by
  refine ⟨fun _ => moved, fun x hx => ?_, fun f => ?_⟩
  · obtain rfl := List.mem_singleton.1 hx
    exact ⟨s%"V", rfl, parse_after _⟩
  · simp only [files, List.mem_singleton, exists_eq_left, ← moved_described, List.flatMap_cons,
      List.flatMap_nil, List.append_nil]

theorem after_valid : DescriptorsOK [descMoved] := by
  have one : ∀ f ∈ [descMoved], f = descMoved := fun f hf => List.mem_singleton.1 hf
  refine ⟨⟨?_, ?_, ?_, ?_, ?_⟩, ⟨?_, ?_, ?_, ?_, ?_, ?_⟩, ?_, ?_⟩
  · intro f hf; rw [one f hf]; exact ⟨by simp [descMoved, desc], by simp [descMoved, desc, Qualified]⟩
  · intro f hf g hg _; rw [one f hf, one g hg]
  · intro f hf d hd; rw [one f hf] at hd; cases hd
  · intro f hf; rw [one f hf]; simp [descMoved, desc, MessagesQualified, MessageQualified, FieldQualified, Qualified]
  · intro f hf s hs; rw [one f hf] at hs; cases hs
  · intro f hf; rw [one f hf]; simp [descMoved, desc]
  · intro f hf; rw [one f hf]; simp [descMoved, desc]
  · intro f hf; rw [one f hf]; simp [descMoved, desc]
  · intro f hf g hg _ _ _ _ _ _; rw [one f hf, one g hg]
  · intro f hf g hg _ _ _ _ _ _; rw [one f hf, one g hg]
  · intro f hf g hg _ _ _ _ _ _; rw [one f hf, one g hg]
  · intro f hf; rw [one f hf]; simp [descMoved, desc, MessagesValid, MessageValid, NamesType]
  · intro f hf s hs; rw [one f hf] at hs; cases hs

theorem declared : ProjectDeclaresField P RemovedExample.host files RemovedExample.before s%"b.v1" [s%"User"] 1 s%"id" 1
    (some s%"x") :=
  ⟨_, .head _, s%"U", elements, rfl, parse_before _, rfl, _,
    .here (.here (.tail _ (.tail _ (.tail _ (.head _))))) rfl,
    .inl ⟨_, .tail _ (.head _), rfl, rfl, .inl ⟨_, .head _, rfl, rfl⟩⟩⟩

theorem not_declared : ¬ ProjectDeclaresField P repo files after.disk s%"b.v1" [s%"User"] 1 s%"id" 1 (some s%"x") := by
  intro h
  obtain ⟨f, hf, _, d, hd, x, hx, hk, _, _, hw⟩ := (C126_declared P repo files after.disk _ after_described _ _ _ _ _ _).2 h
  obtain rfl := List.mem_singleton.1 hf
  generalize hp : [s%"User"] = path at hd
  cases hd with
  | here hd =>
    obtain rfl := List.mem_singleton.1 hd
    rcases List.mem_cons.1 hx with rfl | hx
    · revert hk; decide
    · rcases List.mem_cons.1 hx with rfl | hx
      · revert hw; decide
      · obtain rfl := List.mem_singleton.1 hx
        revert hk; decide
  | inside _ hd =>
    injection hp with _ hp
    subst hp
    cases hd

/-- The field `id` has left the oneof, so the check against the descriptor set from before ends with code 255. -/
example : (breakCheckCmd repo tools [s%"a"] [] s%"/set" after).2 = .error (.exit 255 []) := by
  obtain ⟨h1, h2⟩ := C126_removed P RemovedExample.host repo (fun _ _ => rfl) (by intro _ f; exact ⟨_, rfl⟩) tools [s%"a"]
    s%"/set" (by decide) Exec.Sample.dir [[descMoved]] RemovedExample.before after
    ⟨⟨s%"a", .inl rfl, .inl ⟨rfl, rfl, rfl⟩⟩, ⟨_, rfl⟩, by rfl⟩ s%"S" rfl [desc s%"rest....."] rfl files files
    before_described after_described
    (DescribedExample.desc_faithful _) (DescribedExample.desc_faithful _) (desc_valid _) after_valid
  refine h2 fun hok => not_declared (h1 hok s%"b.v1" _ _ _ _ _ (.inr fun hb => ?_) declared)
  exact absurd (Proof.Extract.ignorePackage_true.2 hb) (by decide)

open Exec.Sample in
/-- And so does the check against the branch. -/
example : (breakCheckCmd repo Exec.Sample.tools [s%"a"] [] [] after).2 = .error (.exit 255 []) := by
  obtain ⟨h1, h2⟩ := C126_git P RemovedExample.host repo (fun _ _ => rfl) (by intro _ f; exact ⟨_, rfl⟩) Exec.Sample.tools
    [s%"a"] [] Exec.Sample.dir { protoSet := cloneSet } [[descMoved]] [[desc s%"rest....."]] RemovedExample.before after
    RemovedExample.repo_temp ⟨⟨s%"a", .inl rfl, .inl ⟨rfl, rfl, rfl⟩⟩, ⟨_, rfl⟩, by rfl⟩ rfl (by decide) s%"/tmp/clone" _
    ⟨by rfl, rfl, by rfl⟩ ⟨⟨_, .inl rfl, .inl ⟨by rfl, by rfl, rfl⟩⟩, ⟨_, rfl⟩, by rfl⟩ files files before_described
    after_described (DescribedExample.desc_faithful _) (DescribedExample.desc_faithful _) (desc_valid _) after_valid
  refine h2 fun hok => not_declared (h1 hok s%"b.v1" _ _ _ _ _ (.inr fun hb => ?_) declared)
  exact absurd (Proof.Extract.ignorePackage_true.2 hb) (by decide)

end FieldPlaceExample

end Verif.Props
