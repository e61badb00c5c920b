import Verif.Props.Members
import Verif.Spec.FieldTypes

/-!
# Other builtin types of fields are noticed: C128
-/

namespace Verif.Props

open Verif Str Proto Reflect Breaking Descriptor Spec Exec

/-- Groups and messages are not builtin. -/
theorem builtin_number : ∀ t ∈ builtinTypes, (10 : Int) ≠ t.2 ∧ (11 : Int) ≠ t.2 := by decide

section

variable (P : Protoc) (hP : KnowsBuiltins P) (names : List (Str × Int))

include hP

theorem fieldDescs_typed (scope : List Str) (k : Int) (n : Str) (t : Str × Int) (ht : t ∈ builtinTypes) :
    ∀ (es : List Element) (i : Nat),
    (∃ x ∈ fieldDescs P names scope i es, x.number = k ∧ x.name = n ∧ x.type = t.2) ↔
      ∃ e ∈ es, FieldTyped k n t.1 e
  | [], i => by simp [fieldDescs]
  | e :: es, i => by
    have ih := fieldDescs_typed scope k n t ht es
    have h10 : (10 : Int) ≠ t.2 := (builtin_number t ht).1
    have h11 : (11 : Int) ≠ t.2 := (builtin_number t ht).2
    rw [exists_cons]
    cases e with
    | normalField f =>
      rw [fieldDescs, exists_cons, ih]
      refine or_congr_left ?_
      simp only [FieldTyped, fieldDesc, hP t ht]
    | mapField f =>
      rw [fieldDescs, exists_cons, ih]
      exact or_congr_left ⟨fun h => absurd h.2.2 h11, fun h => h.elim⟩
    | group g sub =>
      rw [fieldDescs, exists_cons, ih]
      exact or_congr_left ⟨fun h => absurd h.2.2 h10, fun h => h.elim⟩
    | oneof o os =>
      have : (∃ x ∈ os.flatMap (oneofFields P names scope i), x.number = k ∧ x.name = n ∧ x.type = t.2) ↔
          FieldTyped k n t.1 (.oneof o os) := by
        constructor
        · rintro ⟨x, hx, h1, h2, h3⟩
          obtain ⟨e, he, hx⟩ := List.mem_flatMap.1 hx
          cases e with
          | oneofField f =>
            obtain rfl := List.mem_singleton.1 hx
            exact ⟨f, he, h1, h2, (hP t ht _ _ _).1 h3⟩
          | group g sub =>
            obtain rfl := List.mem_singleton.1 hx
            exact absurd h3 h10
          | _ => cases hx
        · rintro ⟨f, he, h1, h2, h3⟩
          exact ⟨_, List.mem_flatMap.2 ⟨_, he, .head _⟩, h1, h2, (hP t ht _ _ _).2 h3⟩
      rw [fieldDescs, ← this, ← ih (i + 1)]
      constructor
      · rintro ⟨x, hx, h⟩
        rcases List.mem_append.1 hx with hx | hx
        · exact .inl ⟨x, hx, h⟩
        · exact .inr ⟨x, hx, h⟩
      · rintro (⟨x, hx, h⟩ | ⟨x, hx, h⟩)
        · exact ⟨x, List.mem_append.2 (.inl hx), h⟩
        · exact ⟨x, List.mem_append.2 (.inr hx), h⟩
    | _ =>
      rw [fieldDescs]
      · rw [ih]
        exact ⟨.inr, fun h => h.resolve_left id⟩
      all_goals (intros; rename_i h; cases h)

theorem fieldsFor_typed (scope : List Str) (m : Str) (e : Element) (k : Int) (n : Str) (t : Str × Int)
    (ht : t ∈ builtinTypes) :
    (∃ x ∈ fieldsFor P names scope m e, x.number = k ∧ x.name = n ∧ x.type = t.2) ↔ HasTyped e k n t.1 := by
  cases e with
  | mapField f =>
    simp only [fieldsFor, HasTyped, bodyOf, List.mem_cons, List.not_mem_nil, or_false, exists_eq_or_imp, exists_eq_left,
      fieldDesc, false_and, exists_false, false_or, hP t ht]
    constructor
    · rintro (⟨rfl, rfl, h⟩ | ⟨rfl, rfl, h⟩)
      · exact ⟨f, rfl, .inl ⟨rfl, rfl, h⟩⟩
      · exact ⟨f, rfl, .inr ⟨rfl, rfl, h⟩⟩
    · rintro ⟨_, e, ⟨rfl, rfl, h⟩ | ⟨rfl, rfl, h⟩⟩
      · cases e; exact .inl ⟨rfl, rfl, h⟩
      · cases e; exact .inr ⟨rfl, rfl, h⟩
  | _ =>
    rw [fieldsFor]
    · refine (fieldDescs_typed P hP names _ k n t ht _ 0).trans ?_
      exact ⟨.inl, fun h => h.resolve_right fun ⟨_, h, _⟩ => by cases h⟩
    all_goals (intro _ h; cases h)

end

/-- C128: **the descriptors have a field with the number of a builtin type exactly if one of the sources declares it with
that type**. -/
theorem C128_declared (P : Protoc) (hP : KnowsBuiltins P) (h : Host) (files : List (Str × Str)) (disk : Disk)
    (all : List FileDesc) (hall : Described P h files disk all) (package : Str) (path : List Str) (k : Int) (n : Str)
    (t : Str × Int) (ht : t ∈ builtinTypes) :
    (∃ f ∈ all, f.package = package ∧ ∃ d, DescAt f.messages path d ∧
      ∃ x ∈ d.fields, x.number = k ∧ x.name = n ∧ x.type = t.2) ↔
      ProjectDeclaresTyped P h files disk package path k n t.1 := by
  obtain ⟨es, h1, h2⟩ := hall
  constructor
  · rintro ⟨f, hf, hfp, d, hd, hx⟩
    obtain ⟨x, hx', rfl⟩ := (h2 f).1 hf
    obtain ⟨c, hc, hp⟩ := h1 x hx'
    obtain ⟨e, s, m, he, rfl⟩ := messageIn_of_descAt P _ hd (topScope _) _ rfl
    exact ⟨x, hx', c, _, hc, hp, hfp, e, he, (fieldsFor_typed P hP _ s m e k n t ht).1 hx⟩
  · rintro ⟨x, hx, c, es', hc, hp, hpk, e, he, hy⟩
    obtain ⟨c', hc', hp'⟩ := h1 x hx
    rw [hc] at hc'
    cases hc'
    rw [hp] at hp'
    injection hp' with e'
    subst e'
    obtain ⟨s, m, hd⟩ := descAt_of_messageIn P (files.flatMap fun y => namesAll (topScope (es y)) (es y)) he (topScope (es x))
    exact ⟨_, (h2 _).2 ⟨x, hx, rfl⟩, hpk, _, hd, (fieldsFor_typed P hP _ s m e k n t ht).2 hy⟩

/-- A clean check keeps builtin types. -/
theorem kept_types (P : Protoc) (hP : KnowsBuiltins P) (h h' : Host) (s : SortSlice) (o : Order)
    (marshal : FileDesc → Except Err Str)
    (config : BreakConfig) (frm to : List FileSet) (disk disk' : Disk) (files files' : List (Str × Str))
    (hall : Described P h files disk frm.flatten) (hall' : Described P h' files' disk' to.flatten)
    (hff : FaithfulOn marshal fun f => f ∈ frm.flatten) (hft : FaithfulOn marshal fun f => f ∈ to.flatten)
    (hf : DescriptorsOK frm.flatten) (ht : DescriptorsOK to.flatten)
    (hok : breakCheckSets s o marshal config frm to = .ok []) (package : Str) (path : List Str) (k : Int) (n type : Str)
    (hty : type ∈ builtinTypes.map (·.1)) (hck : Checked config.includeBeta package)
    (hd : ProjectDeclaresTyped P h files disk package path k n type) :
    ProjectDeclaresTyped P h' files' disk' package path k n type := by
  obtain ⟨t, hb, rfl⟩ := List.mem_map.1 hty
  obtain ⟨f, hmem, rfl, d, hda, x, hx, h1, h2, h3⟩ := (C128_declared P hP h files disk _ hall package path k n t hb).2 hd
  obtain ⟨g, hg, hgp, d', hd', x', hx', g1, g2, _, g3, _⟩ := C123_kept s o marshal config frm to hff hft hf ht hok
    (.field f.package path k n x.label t.2 (x.typeName.drop 1) (oneofName d.oneofs x)) id hck
    ⟨f, hmem, rfl, d, hda, x, hx, h1, h2, rfl, h3, fun _ => rfl, rfl⟩
  exact (C128_declared P hP h' files' disk' _ hall' _ path k n t hb).1 ⟨g, hg, hgp, d', hd', x', hx', g1, g2, g3⟩

/-- C128: **a check that ends well means that every field that the sources declared with a builtin type still has that
type**, keys and values of maps included. Otherwise the check ends with code 255. -/
theorem C128_removed (P : Protoc) (hP : KnowsBuiltins P) (h h' : Host) (hp : Prints h') (hj : h'.json = true → ∀ f, ∃ t, h'.toJSON f = .ok t)
    (t : Tools) (args : List Str) (path : Str) (hpath : path ≠ []) (m : Meta) (sets : List FileSet)
    (disk : Disk) (w : World) (hc : CompilesTo h' args { doFileDescriptorSet := true } w.disk m sets)
    (data : Str) (hd : w.disk path = some data) (set : FileSet) (hdec : t.decode data = .ok set)
    (files files' : List (Str × Str)) (hall : Described P h files disk set)
    (hall' : Described P h' files' w.disk sets.flatten)
    (hff : FaithfulOn t.marshal fun f => f ∈ set) (hft : FaithfulOn t.marshal fun f => f ∈ sets.flatten)
    (hf : DescriptorsOK set) (hto : DescriptorsOK sets.flatten) :
    ((breakCheckCmd h' t args [] path w).2 = .ok () → ∀ package scope k n type, type ∈ builtinTypes.map (·.1) →
      Checked m.protoSet.config.break_.includeBeta package →
      ProjectDeclaresTyped P h files disk package scope k n type →
      ProjectDeclaresTyped P h' files' w.disk package scope k n type) ∧
    ((breakCheckCmd h' t args [] path w).2 ≠ .ok () →
      (breakCheckCmd h' t args [] path w).2 = .error (.exit 255 [])) := by
  have he : [set].flatten = set := by simp
  obtain ⟨old, ho, hos⟩ := C12_schemaOK t.srt (t.order.sub (s%"from")) t.marshal [set] (by rwa [he]) (by rwa [he])
  obtain ⟨new, hn, hns⟩ := C12_schemaOK t.srt (t.order.sub (s%"to")) t.marshal sets hft hto
  have heq := breakCheckSets_eq t.srt t.order t.marshal m.protoSet.config.break_ [set] sets old new ho hn
  obtain ⟨fs, hfs, _⟩ := C06_reports t.order m.protoSet.config.break_ old new hos hns
  have hrun := C66_descriptor_set h' hp hj t args path hpath m sets w hc data hd set hdec fs (heq.trans hfs)
  rw [hrun]
  refine ⟨fun hok package scope k n type hty hck hdecl => ?_, ?_⟩
  · have hnil : fs = [] := (C66_exit fs).1.1 hok
    exact kept_types P hP h h' t.srt t.order t.marshal m.protoSet.config.break_ [set] sets disk w.disk files files'
      (by rwa [he]) hall' (by rwa [he]) hft (by rwa [he]) hto (by rw [heq, hfs, hnil]) package scope k n type hty hck hdecl
  · show breakOutcome fs ≠ .ok () → breakOutcome fs = _
    rw [Ne, (C66_exit fs).1, (C66_exit fs).2]
    exact id

/-- C128 against a branch of the repository that holds the sources from before. -/
theorem C128_git (P : Protoc) (hP : KnowsBuiltins P) (h h' : Host) (hp : Prints h') (hj : h'.json = true → ∀ f, ∃ t, h'.toJSON f = .ok t)
    (t : Tools) (args : List Str) (branch : Str) (m m' : Meta) (sets sets' : List FileSet)
    (disk : Disk) (w : World) (ht : TempDirsOK t w.disk)
    (hc : CompilesTo h' args { doFileDescriptorSet := true } w.disk m sets)
    (hrel : Path.isAbs (fileOrDir args) = false)
    (hin : File.absClean h'.wd h'.workDirPath <+: File.absClean h'.wd (fileOrDir args))
    (dir : Str) (disk' : Disk) (hclone : Clones h' t branch w.disk dir disk')
    (hc' : CompilesTo { h' with workDirPath := dir, stat := t.treeStat, getForDir := t.treeForDir }
      [cloneDirFor dir (fileOrDir args)] { doFileDescriptorSet := true } disk' m' sets')
    (files files' : List (Str × Str)) (hall : Described P h files disk sets'.flatten)
    (hall' : Described P h' files' w.disk sets.flatten)
    (hff : FaithfulOn t.marshal fun f => f ∈ sets'.flatten) (hft : FaithfulOn t.marshal fun f => f ∈ sets.flatten)
    (hf : DescriptorsOK sets'.flatten) (hto : DescriptorsOK sets.flatten) :
    ((breakCheckCmd h' t args branch [] w).2 = .ok () → ∀ package scope k n type, type ∈ builtinTypes.map (·.1) →
      Checked m.protoSet.config.break_.includeBeta package →
      ProjectDeclaresTyped P h files disk package scope k n type →
      ProjectDeclaresTyped P h' files' w.disk package scope k n type) ∧
    ((breakCheckCmd h' t args branch [] w).2 ≠ .ok () →
      (breakCheckCmd h' t args branch [] w).2 = .error (.exit 255 [])) := by
  obtain ⟨old, ho, hos⟩ := C12_schemaOK t.srt (t.order.sub (s%"from")) t.marshal sets' hff hf
  obtain ⟨new, hn, hns⟩ := C12_schemaOK t.srt (t.order.sub (s%"to")) t.marshal sets hft hto
  have heq := breakCheckSets_eq t.srt t.order t.marshal m.protoSet.config.break_ sets' sets old new ho hn
  obtain ⟨fs, hfs, _⟩ := C06_reports t.order m.protoSet.config.break_ old new hos hns
  have hrun := C66_git h' hp hj t args branch m m' sets sets' w ht hc hrel hin dir disk' hclone hc' fs (heq.trans hfs)
  rw [hrun]
  refine ⟨fun hok package scope k n type hty hck hdecl => ?_, ?_⟩
  · have hnil : fs = [] := (C66_exit fs).1.1 hok
    exact kept_types P hP h h' t.srt t.order t.marshal m.protoSet.config.break_ sets' sets disk w.disk files files'
      hall hall' hff hft hf hto (by rw [heq, hfs, hnil]) package scope k n type hty hck hdecl
  · show breakOutcome fs ≠ .ok () → breakOutcome fs = _
    rw [Ne, (C66_exit fs).1, (C66_exit fs).2]
    exact id

/-! ## The hypotheses can be met -/

namespace FieldTypesExample

open RemovedExample (after files)

/-- Builtin types are looked up first. -/
def P : Protoc where
  resolve _ scope type := ((builtinTypes.find? fun x => x.1 = type).map fun x => (x.2, [])).getD
    (11, nameAt (scope.take 1) type)
  entryName n := n ++ s%"Entry"
  groupField n := n
  rest _ := s%"rest"

theorem knows : KnowsBuiltins P := by
  intro x hx names scope written
  constructor
  · intro h
    unfold P at h
    dsimp only at h
    cases hf : builtinTypes.find? (fun x => decide (x.1 = written)) with
    | none =>
      rw [hf] at h
      exact absurd h (builtin_number x hx).2
    | some y =>
      rw [hf] at h
      have hw := List.find?_some hf
      have hy := List.mem_of_find?_eq_some hf
      rw [← of_decide_eq_true hw]
      have inj : ∀ y ∈ builtinTypes, ∀ x ∈ builtinTypes, y.2 = x.2 → y.1 = x.1 := by decide
      exact inj y hy x hx h
  · rintro rfl
    have found : ∀ x ∈ builtinTypes, builtinTypes.find? (fun y => decide (y.1 = x.1)) = some x := by decide
    unfold P
    dsimp only
    rw [found x hx]
    rfl

/-- A file with a message that has a field and a map. -/
def source (text : Bool) : List Element :=
  [.syntax { value := s%"proto3" }, .package { name := s%"b.v1" },
   .message { name := s%"User" }
     [.normalField { field := { name := s%"id", type := if text then s%"string" else s%"int32", sequence := 1 } },
      .mapField { keyType := s%"string", field := { name := s%"x", type := s%"bool", sequence := 2 } }]]

/-- Its descriptor. -/
def descOf (text : Bool) : FileDesc where
  name := s%"b/user.proto"
  package := s%"b.v1"
  dependency := []
  messages := [.mk s%"User" [.mk s%"xEntry" [] [] [⟨s%"key", 1, 1, 9, [], none⟩, ⟨s%"value", 2, 1, 8, [], none⟩] []] []
    [⟨s%"id", 1, 1, if text then 9 else 5, [], none⟩, ⟨s%"x", 2, 3, 11, s%".b.v1.User.xEntry", none⟩] []]
  enums := []
  services := []
  rest := s%"rest"

theorem source_described (b : Bool) :
    describe P (namesAll (topScope (source b)) (source b)) s%"b/user.proto" (source b) = descOf b := by
  cases b <;> rfl

/-- The field was a string before. -/
def repo : Exec.Host :=
  { Exec.Sample.repoHost with
    parse := fun _ c => if c = s%"U" then .ok (source true) else .ok (source false)
    compile := fun _ _ ps =>
      .ok ([], if ps.workDirPath = s%"/tmp/clone" then [[descOf true]] else [[descOf false]]) }

def tools : Tools :=
  { Exec.Sample.tools with marshal := ReflectExample.byName, decode := fun _ => .ok [descOf true] }

theorem parse_before (p : Str) : repo.parse p s%"U" = .ok (source true) := rfl

theorem parse_after (p : Str) : repo.parse p s%"V" = .ok (source false) := rfl

theorem before_described : Described P repo files RemovedExample.before [descOf true] := by
  refine ⟨fun _ => source true, fun x hx => ?_, fun f => ?_⟩
  · obtain rfl := List.mem_singleton.1 hx
    exact ⟨s%"U", rfl, parse_before _⟩
  · simp only [files, List.mem_singleton, exists_eq_left, ← source_described, List.flatMap_cons,
      List.flatMap_nil, List.append_nil]

theorem after_described : Described P repo files after.disk [descOf false] := by
  refine ⟨fun _ => source false, fun x hx => ?_, fun f => ?_⟩
  · obtain rfl := List.mem_singleton.1 hx
    exact ⟨s%"V", rfl, parse_after _⟩
  · simp only [files, List.mem_singleton, exists_eq_left, ← source_described, List.flatMap_cons,
      List.flatMap_nil, List.append_nil]

theorem valid (b : Bool) : DescriptorsOK [descOf b] := by
  have one : ∀ f ∈ [descOf b], f = descOf b := fun f hf => List.mem_singleton.1 hf
  refine ⟨⟨?_, ?_, ?_, ?_, ?_⟩, ⟨?_, ?_, ?_, ?_, ?_, ?_⟩, ?_, ?_⟩
  · intro f hf; rw [one f hf]; exact ⟨by simp [descOf], by simp [descOf, Qualified]⟩
  · intro f hf g hg _; rw [one f hf, one g hg]
  · intro f hf d hd; rw [one f hf] at hd; cases hd
  · intro f hf; rw [one f hf]; simp [descOf, MessagesQualified, MessageQualified, FieldQualified, Qualified]
  · intro f hf s hs; rw [one f hf] at hs; cases hs
  · intro f hf; rw [one f hf]; simp [descOf]
  · intro f hf; rw [one f hf]; simp [descOf]
  · intro f hf; rw [one f hf]; simp [descOf]
  · intro f hf g hg _ _ _ _ _ _; rw [one f hf, one g hg]
  · intro f hf g hg _ _ _ _ _ _; rw [one f hf, one g hg]
  · intro f hf g hg _ _ _ _ _ _; rw [one f hf, one g hg]
  · intro f hf; rw [one f hf]; cases b <;> simp [descOf, MessagesValid, MessageValid, NamesType]
  · intro f hf s hs; rw [one f hf] at hs; cases hs

theorem declared : ProjectDeclaresTyped P repo files RemovedExample.before s%"b.v1" [s%"User"] 1 s%"id" s%"string" :=
  ⟨_, .head _, s%"U", source true, rfl, parse_before _, rfl, _, .here (.here (.tail _ (.tail _ (.head _)))) rfl,
    .inl ⟨_, .head _, rfl, rfl, rfl⟩⟩

theorem not_declared : ¬ ProjectDeclaresTyped P repo files after.disk s%"b.v1" [s%"User"] 1 s%"id" s%"string" := by
  intro h
  obtain ⟨f, hf, _, d, hd, x, hx, hk, _, ht⟩ := (C128_declared P knows repo files after.disk _ after_described _ _ _ _
    (s%"string", 9) (by decide)).2 h
  obtain rfl := List.mem_singleton.1 hf
  generalize hp : [s%"User"] = path at hd
  cases hd with
  | here hd =>
    obtain rfl := List.mem_singleton.1 hd
    rcases List.mem_cons.1 hx with rfl | hx
    · revert ht; decide
    · obtain rfl := List.mem_singleton.1 hx
      revert hk; decide
  | inside _ hd =>
    injection hp with _ hp
    subst hp
    cases hd

/-- The field is a number now, so the check against the descriptor set from before ends with code 255. -/
example : (breakCheckCmd repo tools [s%"a"] [] s%"/set" after).2 = .error (.exit 255 []) := by
  obtain ⟨h1, h2⟩ := C128_removed P knows repo repo (fun _ _ => rfl) (by intro _ f; exact ⟨_, rfl⟩) tools [s%"a"]
    s%"/set" (by decide) Exec.Sample.dir [[descOf false]] RemovedExample.before after
    ⟨⟨s%"a", .inl rfl, .inl ⟨rfl, rfl, rfl⟩⟩, ⟨_, rfl⟩, by rfl⟩ s%"S" rfl [descOf true] rfl files files
    before_described after_described
    (DescribedExample.desc_faithful _) (DescribedExample.desc_faithful _) (valid _) (valid _)
  refine h2 fun hok => not_declared (h1 hok s%"b.v1" _ _ _ s%"string" (by decide) (.inr fun hb => ?_) declared)
  exact absurd (Proof.Extract.ignorePackage_true.2 hb) (by decide)

open Exec.Sample in
/-- And so does the check against the branch. -/
example : (breakCheckCmd repo Exec.Sample.tools [s%"a"] [] [] after).2 = .error (.exit 255 []) := by
  obtain ⟨h1, h2⟩ := C128_git P knows repo repo (fun _ _ => rfl) (by intro _ f; exact ⟨_, rfl⟩) Exec.Sample.tools
    [s%"a"] [] Exec.Sample.dir { protoSet := cloneSet } [[descOf false]] [[descOf true]] RemovedExample.before after
    RemovedExample.repo_temp ⟨⟨s%"a", .inl rfl, .inl ⟨rfl, rfl, rfl⟩⟩, ⟨_, rfl⟩, by rfl⟩ rfl (by decide) s%"/tmp/clone" _
    ⟨by rfl, rfl, by rfl⟩ ⟨⟨_, .inl rfl, .inl ⟨by rfl, by rfl, rfl⟩⟩, ⟨_, rfl⟩, by rfl⟩ files files before_described
    after_described (DescribedExample.desc_faithful _) (DescribedExample.desc_faithful _) (valid _) (valid _)
  refine h2 fun hok => not_declared (h1 hok s%"b.v1" _ _ _ s%"string" (by decide) (.inr fun hb => ?_) declared)
  exact absurd (Proof.Extract.ignorePackage_true.2 hb) (by decide)

end FieldTypesExample

end Verif.Props
