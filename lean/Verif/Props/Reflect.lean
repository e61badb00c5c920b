import Verif.Proof.ReflectUnique
import Verif.Props.Breaking
import Verif.Model.BreakCmd

/-!
# Reflection of descriptor sets: C12 and C08, and break check end to end

`marshal` is any encoding that succeeds and is injective on the files at hand, `s` any
implementation of `sort.Slice`, `o` any iteration order of the maps.
-/

namespace Verif.Props

open Verif Descriptor Reflect Spec Breaking Text Proof.Reflect Proof.Breaking

/-! ## C12 -/

/-- C12: reflection succeeds exactly when the files are closed and consistent: proper
packages, one copy of every file, all imports present, references qualified. -/
theorem C12_succeeds_iff (s : SortSlice) (o : Order) (marshal : FileDesc → Except Err Str)
    (sets : List FileSet) (hf : FaithfulOn marshal fun f => f ∈ sets.flatten) :
    (∃ ps, Reflect.newPackageSet s o marshal sets = .ok ps) ↔ Reflectable sets.flatten :=
  ⟨fun ⟨_, h⟩ => (newPackageSet_ok hf h).1, fun h => newPackageSet_complete hf h⟩

/-- C12: the package set holds exactly what the files declare, all listings sorted. -/
theorem C12_describes (s : SortSlice) (o : Order) (marshal : FileDesc → Except Err Str)
    (sets : List FileSet) (hf : FaithfulOn marshal fun f => f ∈ sets.flatten) (ps : PackageSet)
    (h : Reflect.newPackageSet s o marshal sets = .ok ps) : DescribesSet sets.flatten ps :=
  built_describes (newPackageSet_ok hf h).2

/-- C12: if names identify the definitions of a package, success and result depend only
on which files occur: not on the order of the sets, the order or repetition of
files, or the iteration order of the maps. -/
theorem C12_order_independent (s : SortSlice) (o o' : Order) (marshal : FileDesc → Except Err Str)
    (sets sets' : List FileSet) (hf : FaithfulOn marshal fun f => f ∈ sets.flatten)
    (h : ∀ f, f ∈ sets.flatten ↔ f ∈ sets'.flatten) (hn : DistinctNames sets.flatten) :
    (Reflect.newPackageSet s o marshal sets).toOption = (Reflect.newPackageSet s o' marshal sets').toOption := by
  have hf' : FaithfulOn marshal fun f => f ∈ sets'.flatten :=
    ⟨fun f hm => hf.total f ((h f).2 hm),
      fun f g x hm hm' => hf.injective f g x ((h f).2 hm) ((h g).2 hm')⟩
  have hr : Reflectable sets.flatten ↔ Reflectable sets'.flatten := by
    constructor
    · intro r
      exact ⟨fun f hm => r.packages f ((h f).2 hm),
        fun f hm g hg => r.one_copy f ((h f).2 hm) g ((h g).2 hg),
        fun f hm d hd => by
          obtain ⟨g, hg, hn⟩ := r.imports f ((h f).2 hm) d hd
          exact ⟨g, (h g).1 hg, hn⟩,
        fun f hm => r.messages f ((h f).2 hm), fun f hm => r.methods f ((h f).2 hm)⟩
    · intro r
      exact ⟨fun f hm => r.packages f ((h f).1 hm),
        fun f hm g hg => r.one_copy f ((h f).1 hm) g ((h g).1 hg),
        fun f hm d hd => by
          obtain ⟨g, hg, hn⟩ := r.imports f ((h f).1 hm) d hd
          exact ⟨g, (h g).2 hg, hn⟩,
        fun f hm => r.messages f ((h f).1 hm), fun f hm => r.methods f ((h f).1 hm)⟩
  cases hps : Reflect.newPackageSet s o marshal sets with
  | error e =>
    cases hps' : Reflect.newPackageSet s o' marshal sets' with
    | error e' => rfl
    | ok ps' =>
      obtain ⟨_, hc⟩ := newPackageSet_complete (s := s) (o := o) hf (hr.2 (newPackageSet_ok hf' hps').1)
      rw [hps] at hc; cases hc
  | ok ps =>
    cases hps' : Reflect.newPackageSet s o' marshal sets' with
    | error e' =>
      obtain ⟨_, hc⟩ := newPackageSet_complete (s := s) (o := o') hf' (hr.1 (newPackageSet_ok hf hps).1)
      rw [hps'] at hc; cases hc
    | ok ps' =>
      rw [built_redistributed (newPackageSet_ok hf hps).2 (newPackageSet_ok hf' hps').2 hn
        (redistributed_of_mem h)]

/-! ## Concrete descriptors -/

namespace ReflectExample

def base : FileDesc :=
  ⟨s%"base.proto", s%"base.v1", [], [.mk (s%"Id") [] [] [⟨s%"value", 1, 1, 9, [], none⟩] []], [], [], []⟩

def user : FileDesc :=
  ⟨s%"user.proto", s%"foo.v1", [s%"base.proto"],
    [.mk (s%"User") [] [] [⟨s%"id", 2, 1, 11, s%".base.v1.Id", some 0⟩, ⟨s%"n", 1, 1, 5, [], some 0⟩] [s%"w"]],
    [⟨s%"E", [⟨s%"B", 1⟩, ⟨s%"A", 0⟩]⟩],
    [⟨s%"S", [⟨s%"M", s%".foo.v1.User", s%".base.v1.Id", false, false⟩]⟩], []⟩

/-- The message of `user.proto` moved to its own file, its fields reordered. -/
def user1 : FileDesc :=
  ⟨s%"user1.proto", s%"foo.v1", [s%"base.proto"],
    [.mk (s%"User") [] [] [⟨s%"n", 1, 1, 5, [], some 0⟩, ⟨s%"id", 2, 1, 11, s%".base.v1.Id", some 0⟩] [s%"w"]],
    [], [], []⟩

/-- The rest of `user.proto`. -/
def user2 : FileDesc :=
  ⟨s%"user2.proto", s%"foo.v1", [s%"base.proto", s%"user1.proto"], [],
    [⟨s%"E", [⟨s%"A", 0⟩, ⟨s%"B", 1⟩]⟩],
    [⟨s%"S", [⟨s%"M", s%".foo.v1.User", s%".base.v1.Id", false, false⟩]⟩], []⟩

def old : List FileSet := [[base], [base, user]]
def new : List FileSet := [[base], [base, user1, user2]]

/-- An encoding that tells the example files apart. -/
def byName (f : FileDesc) : Except Err Str := .ok f.name

def reflected : PackageSet :=
  [⟨s%"base.v1", [], [], [.mk (s%"Id") [] [] [⟨s%"value", 1, 1, 9, []⟩] []], []⟩,
   ⟨s%"foo.v1", [s%"base.v1"], [⟨s%"E", [⟨s%"A", 0⟩, ⟨s%"B", 1⟩]⟩],
    [.mk (s%"User") [] [] [⟨s%"n", 1, 1, 5, []⟩, ⟨s%"id", 2, 1, 11, s%"base.v1.Id"⟩] [⟨s%"w", [1, 2]⟩]],
    [⟨s%"S", [⟨s%"M", s%"foo.v1.User", s%"base.v1.Id", false, false⟩]⟩]⟩]

theorem mem_old {f : FileDesc} : f ∈ old.flatten ↔ f = base ∨ f = user := by
  simp only [old, List.flatten_cons, List.flatten_nil, List.append_nil, List.mem_append, List.mem_cons,
    List.not_mem_nil, or_false]
  exact ⟨fun h => h.elim .inl id, .inr⟩

theorem mem_new {f : FileDesc} : f ∈ new.flatten ↔ f = base ∨ f = user1 ∨ f = user2 := by
  simp only [new, List.flatten_cons, List.flatten_nil, List.append_nil, List.mem_append, List.mem_cons,
    List.not_mem_nil, or_false]
  exact ⟨fun h => h.elim .inl id, .inr⟩

theorem old_faithful : FaithfulOn byName fun f => f ∈ old.flatten := by
  refine ⟨fun f _ => ⟨_, rfl⟩, ?_⟩
  intro f g x hf hg hx hx'
  rw [mem_old] at hf hg
  rw [← hx'] at hx
  rcases hf with rfl | rfl <;> rcases hg with rfl | rfl <;> first | rfl | cases hx

theorem new_faithful : FaithfulOn byName fun f => f ∈ new.flatten := by
  refine ⟨fun f _ => ⟨_, rfl⟩, ?_⟩
  intro f g x hf hg hx hx'
  rw [mem_new] at hf hg
  rw [← hx'] at hx
  rcases hf with rfl | rfl | rfl <;> rcases hg with rfl | rfl | rfl <;> first | rfl | cases hx

theorem old_reflected : Reflect.newPackageSet SortSlice.stable Order.id byName old = .ok reflected := by rfl
theorem new_reflected : Reflect.newPackageSet SortSlice.stable Order.rev byName new = .ok reflected := by rfl

theorem old_reflectable : Reflectable old.flatten := (newPackageSet_ok old_faithful old_reflected).1
theorem new_reflectable : Reflectable new.flatten := (newPackageSet_ok new_faithful new_reflected).1

theorem old_names : DistinctNames old.flatten := by
  refine ⟨?_, ?_, ?_, ?_, ?_, ?_⟩
  · intro f hf; rcases mem_old.1 hf with rfl | rfl <;> decide
  · intro f hf; rcases mem_old.1 hf with rfl | rfl <;> decide
  · intro f hf; rcases mem_old.1 hf with rfl | rfl <;> decide
  all_goals
    intro f hf g hg hp
    rcases mem_old.1 hf with rfl | rfl <;> rcases mem_old.1 hg with rfl | rfl <;>
      first | (intros; rfl) | cases hp

theorem new_names : DistinctNames new.flatten := by
  refine ⟨?_, ?_, ?_, ?_, ?_, ?_⟩
  · intro f hf; rcases mem_new.1 hf with rfl | rfl | rfl <;> decide
  · intro f hf; rcases mem_new.1 hf with rfl | rfl | rfl <;> decide
  · intro f hf; rcases mem_new.1 hf with rfl | rfl | rfl <;> decide
  all_goals
    intro f hf g hg hp a ha b hb hab
    rcases mem_new.1 hf with rfl | rfl | rfl <;> rcases mem_new.1 hg with rfl | rfl | rfl <;>
      first | rfl | (cases ha; done) | (cases hb; done) | (cases hp; done)

theorem old_valid : DescriptorsOK old.flatten := by
  refine ⟨old_reflectable, old_names, ?_, ?_⟩
  · intro f hf
    rcases mem_old.1 hf with rfl | rfl
    · simp [base, MessagesValid, MessageValid, NamesType]
    · simp [user, MessagesValid, MessageValid, NamesType]
  · intro f hf
    rcases mem_old.1 hf with rfl | rfl
    · simp [base]
    · simp [user]

theorem new_valid : DescriptorsOK new.flatten := by
  refine ⟨new_reflectable, new_names, ?_, ?_⟩
  · intro f hf
    rcases mem_new.1 hf with rfl | rfl | rfl
    · simp [base, MessagesValid, MessageValid, NamesType]
    · simp [user1, MessagesValid, MessageValid, NamesType]
    · simp [user2, MessagesValid]
  · intro f hf
    rcases mem_new.1 hf with rfl | rfl | rfl
    · simp [base]
    · simp [user1]
    · simp [user2]

/-- Files of a package, each once, from a listing of all files. -/
theorem filesOf_filter {all files : List FileDesc} (hn : (files.map (·.name)).Nodup)
    (hm : ∀ f, f ∈ files ↔ f ∈ all) (k : Str) : FilesOf all k (files.filter fun f => decide (f.package = k)) := by
  refine ⟨List.Pairwise.filter _ (List.Pairwise.of_map _ (fun _ _ hne he => hne (congrArg _ he)) hn), fun f => ?_⟩
  rw [List.mem_filter, hm]
  simp

theorem redistributed : Redistributed old.flatten new.flatten := by
  have ho := filesOf_filter (all := old.flatten) (files := [base, user]) (by decide)
    (fun f => by rw [mem_old]; simp)
  have hn := filesOf_filter (all := new.flatten) (files := [base, user1, user2]) (by decide)
    (fun f => by rw [mem_new]; simp)
  have key : ∀ {α : Type} (R : α → α → Prop) (defs : FileDesc → List α),
      (∀ k, Rearranged R (([base, user].filter fun f => decide (f.package = k)).flatMap defs)
        (([base, user1, user2].filter fun f => decide (f.package = k)).flatMap defs)) →
      ∀ k files files', FilesOf old.flatten k files → FilesOf new.flatten k files' →
        Rearranged R (files.flatMap defs) (files'.flatMap defs) := by
    intro α R defs h k files files' hf hf'
    exact .trans (.perm (flatMap_perm (filesOf_perm hf (ho k)) defs))
      (.trans (h k) (.perm (flatMap_perm (filesOf_perm (hn k) hf') defs)))
  have cases : ∀ k : Str, k = s%"base.v1" ∨ k = s%"foo.v1" ∨ (s%"base.v1" ≠ k ∧ s%"foo.v1" ≠ k) := by
    intro k
    by_cases h1 : k = s%"base.v1"
    · exact .inl h1
    · by_cases h2 : k = s%"foo.v1"
      · exact .inr (.inl h2)
      · exact .inr (.inr ⟨fun h => h1 h.symm, fun h => h2 h.symm⟩)
  refine ⟨?_, ?_, key _ _ ?_, key _ _ ?_, key _ _ ?_⟩
  · intro k
    simp only [mem_old, mem_new, exists_eq_or_imp, exists_eq_left]
    show base.package = k ∨ user.package = k ↔ base.package = k ∨ user.package = k ∨ user.package = k
    simp
  · intro k q hq
    constructor
    · rintro ⟨f, hf, rfl, d, hd, g, hg, rfl, rfl⟩
      rcases mem_old.1 hf with rfl | rfl
      · cases hd
      · rcases mem_old.1 hg with rfl | rfl
        · exact ⟨user1, mem_new.2 (by simp), rfl, s%"base.proto", by simp [user1], base, mem_new.2 (by simp), rfl, rfl⟩
        · exact absurd rfl hq
    · rintro ⟨f, hf, rfl, d, hd, g, hg, rfl, rfl⟩
      rcases mem_new.1 hf with rfl | rfl | rfl
      · cases hd
      · rcases mem_new.1 hg with rfl | rfl | rfl
        · exact ⟨user, mem_old.2 (by simp), rfl, s%"base.proto", by simp [user], base, mem_old.2 (by simp), rfl, rfl⟩
        · exact absurd rfl hq
        · exact absurd rfl hq
      · rcases mem_new.1 hg with rfl | rfl | rfl
        · exact ⟨user, mem_old.2 (by simp), rfl, s%"base.proto", by simp [user], base, mem_old.2 (by simp), rfl, rfl⟩
        · exact absurd rfl hq
        · exact absurd rfl hq
  · intro k
    rcases cases k with rfl | rfl | ⟨h1, h2⟩
    · exact .perm (.refl _)
    · exact .edit (before := []) (after := []) (.values (by decide) (.swap _ _ _))
    · rw [List.filter_eq_nil_iff.2, List.filter_eq_nil_iff.2]
      · exact .perm (.refl _)
      · simp [base, user1, user2, h1, h2]
      · simp [base, user, h1, h2]
  · intro k
    rcases cases k with rfl | rfl | ⟨h1, h2⟩
    · exact .perm (.refl _)
    · exact .edit (before := []) (after := []) (.fields (by decide) (.swap _ _ _))
    · rw [List.filter_eq_nil_iff.2, List.filter_eq_nil_iff.2]
      · exact .perm (.refl _)
      · simp [base, user1, user2, h1, h2]
      · simp [base, user, h1, h2]
  · intro k
    rcases cases k with rfl | rfl | ⟨h1, h2⟩
    · exact .perm (.refl _)
    · exact .perm (.refl _)
    · rw [List.filter_eq_nil_iff.2, List.filter_eq_nil_iff.2]
      · exact .perm (.refl _)
      · simp [base, user1, user2, h1, h2]
      · simp [base, user, h1, h2]

end ReflectExample

open ReflectExample

example : Reflect.newPackageSet SortSlice.stable Order.id byName old = .ok reflected := old_reflected
example : FaithfulOn byName fun f => f ∈ old.flatten := old_faithful
example : DistinctNames old.flatten := old_names
example : Reflect.newPackageSet SortSlice.stable Order.id byName [[user]] =
    .error (s%"no package for dep base.proto") := by rfl
example : Reflect.newPackageSet SortSlice.stable Order.id (fun f => .ok f.rest)
    [[base], [{ base with rest := s%"x" }]] = .error (s%"unequal FileDescriptorProtos for base.proto") := by rfl

/-! ## Break check end to end -/

/-- Break check on descriptor sets is break check on their packages. -/
theorem breakCheckSets_eq (s : SortSlice) (o : Order) (marshal : FileDesc → Except Err Str) (config : BreakConfig)
    (frm to : List FileSet) (psf pst : PackageSet)
    (hf : Reflect.newPackageSet s (o.sub (s%"from")) marshal frm = .ok psf)
    (ht : Reflect.newPackageSet s (o.sub (s%"to")) marshal to = .ok pst) :
    breakCheckSets s o marshal config frm to = breakCheck o config psf pst := by
  unfold breakCheckSets packageSetOf breakCheck
  rw [hf, ht]
  rfl

/-- C12 for the break check: descriptors that protoc produces reflect to well-formed
schemas, so the theorems about break check apply to them. -/
theorem C12_schemaOK (s : SortSlice) (o : Order) (marshal : FileDesc → Except Err Str)
    (sets : List FileSet) (hf : FaithfulOn marshal fun f => f ∈ sets.flatten)
    (hv : DescriptorsOK sets.flatten) :
    ∃ ps, Reflect.newPackageSet s o marshal sets = .ok ps ∧ SchemaOK ps := by
  obtain ⟨ps, h⟩ := newPackageSet_complete (s := s) (o := o) hf hv.reflectable
  exact ⟨ps, h, built_schemaOK (newPackageSet_ok hf h).2 hv⟩

/-- C01 end to end: break check on descriptor sets is clean exactly if the schemas they
describe are compatible. -/
theorem C01_descriptors (s : SortSlice) (o : Order) (marshal : FileDesc → Except Err Str) (config : BreakConfig)
    (frm to : List FileSet) (hff : FaithfulOn marshal fun f => f ∈ frm.flatten)
    (hft : FaithfulOn marshal fun f => f ∈ to.flatten) (hf : DescriptorsOK frm.flatten)
    (ht : DescriptorsOK to.flatten) :
    ∃ old new, DescribesSet frm.flatten old ∧ DescribesSet to.flatten new ∧
      (breakCheckSets s o marshal config frm to = .ok [] ↔
        Compatible (Checked config.includeBeta) old new ∧
        (config.includeBeta = false → config.allowBetaDeps = false → NoBetaDependencies new)) := by
  obtain ⟨old, ho, hos⟩ := C12_schemaOK s (o.sub (s%"from")) marshal frm hff hf
  obtain ⟨new, hn, hns⟩ := C12_schemaOK s (o.sub (s%"to")) marshal to hft ht
  refine ⟨old, new, C12_describes s _ marshal frm hff old ho, C12_describes s _ marshal to hft new hn, ?_⟩
  rw [breakCheckSets_eq s o marshal config frm to old new ho hn]
  exact C01_clean_iff_compatible o config old new hos hns

example : DescriptorsOK old.flatten := old_valid

/-! ## C08 -/

/-- C08: redistributing the definitions of packages over files gives the same packages. -/
theorem C08_same_packages (s : SortSlice) (o o' : Order) (marshal : FileDesc → Except Err Str)
    (sets sets' : List FileSet) (hf : FaithfulOn marshal fun f => f ∈ sets.flatten)
    (hf' : FaithfulOn marshal fun f => f ∈ sets'.flatten) (hr : Reflectable sets.flatten)
    (hr' : Reflectable sets'.flatten) (hn : DistinctNames sets.flatten)
    (h : Redistributed sets.flatten sets'.flatten) :
    ∃ ps, Reflect.newPackageSet s o marshal sets = .ok ps ∧ Reflect.newPackageSet s o' marshal sets' = .ok ps := by
  obtain ⟨ps, hps⟩ := newPackageSet_complete (s := s) (o := o) hf hr
  obtain ⟨ps', hps'⟩ := newPackageSet_complete (s := s) (o := o') hf' hr'
  have := built_redistributed (newPackageSet_ok hf hps).2 (newPackageSet_ok hf' hps').2 hn h
  subst this
  exact ⟨ps, hps, hps'⟩

/-- C08: redistributing the definitions of either schema over files does not change the
outcome of break check. -/
theorem C08_same_outcome (s : SortSlice) (o : Order) (marshal : FileDesc → Except Err Str) (config : BreakConfig)
    (frm frm' to to' : List FileSet)
    (hff : FaithfulOn marshal fun f => f ∈ frm.flatten) (hff' : FaithfulOn marshal fun f => f ∈ frm'.flatten)
    (hft : FaithfulOn marshal fun f => f ∈ to.flatten) (hft' : FaithfulOn marshal fun f => f ∈ to'.flatten)
    (hrf : Reflectable frm.flatten) (hrf' : Reflectable frm'.flatten)
    (hrt : Reflectable to.flatten) (hrt' : Reflectable to'.flatten)
    (hnf : DistinctNames frm.flatten) (hnt : DistinctNames to.flatten)
    (hf : Redistributed frm.flatten frm'.flatten) (ht : Redistributed to.flatten to'.flatten) :
    breakCheckSets s o marshal config frm to = breakCheckSets s o marshal config frm' to' := by
  obtain ⟨psf, h1, h2⟩ := C08_same_packages s (o.sub (s%"from")) (o.sub (s%"from")) marshal frm frm'
    hff hff' hrf hrf' hnf hf
  obtain ⟨pst, h3, h4⟩ := C08_same_packages s (o.sub (s%"to")) (o.sub (s%"to")) marshal to to'
    hft hft' hrt hrt' hnt ht
  rw [breakCheckSets_eq s o marshal config frm to psf pst h1 h3,
    breakCheckSets_eq s o marshal config frm' to' psf pst h2 h4]

/-- C08: moving definitions between files of a package is not breaking: checking the
redistributed schema against the original one is clean. -/
theorem C08_not_breaking (s : SortSlice) (o : Order) (marshal : FileDesc → Except Err Str) (config : BreakConfig)
    (frm to : List FileSet)
    (hff : FaithfulOn marshal fun f => f ∈ frm.flatten) (hft : FaithfulOn marshal fun f => f ∈ to.flatten)
    (hvf : DescriptorsOK frm.flatten) (hrt : Reflectable to.flatten)
    (h : Redistributed frm.flatten to.flatten)
    (hb : ∀ k q, k ≠ q → Imports frm.flatten k q → IsBetaPackage q → IsBetaPackage k) :
    breakCheckSets s o marshal config frm to = .ok [] := by
  obtain ⟨ps, h1, h2⟩ := C08_same_packages s (o.sub (s%"from")) (o.sub (s%"to")) marshal frm to hff hft
    hvf.reflectable hrt hvf.names h
  rw [breakCheckSets_eq s o marshal config frm to ps ps h1 h2]
  have hbuilt := (newPackageSet_ok hff h1).2
  refine C02_reflexive o config ps (built_schemaOK hbuilt hvf) ?_
  intro _ _ p hp hpb d hd hdb
  obtain ⟨hne, himp⟩ := (hbuilt.imports hp d).1 hd
  exact hpb (hb p.name d (fun h => hne h.symm) himp hdb)

example : Redistributed old.flatten new.flatten := redistributed
example : Reflectable old.flatten ∧ Reflectable new.flatten ∧ DistinctNames old.flatten :=
  ⟨old_reflectable, new_reflectable, old_names⟩
example : breakCheckSets SortSlice.stable Order.id byName ⟨false, false⟩ old new = .ok [] := by
  rw [breakCheckSets_eq _ _ _ _ _ _ reflected reflected (by rfl) (by rfl)]
  rfl
example : breakCheck Order.id ⟨false, false⟩ reflected [] =
    .ok [⟨[], 0, 0, s%"PACKAGES_NOT_DELETED", s%"Package \"base.v1\" was deleted."⟩,
      ⟨[], 0, 0, s%"PACKAGES_NOT_DELETED", s%"Package \"foo.v1\" was deleted."⟩] := by rfl

end Verif.Props
