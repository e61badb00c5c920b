import Verif.Props.BreakCmd
import Verif.Props.DescriptorSet

/-!
# Checking against a descriptor set written before (C70)
-/

namespace Verif.Props

open Verif Str Descriptor Spec Exec Proof.Reflect

theorem reflectable_of_mem {all all' : List FileDesc} (h : ∀ f, f ∈ all ↔ f ∈ all') (hr : Reflectable all) :
    Reflectable all' := by
  refine ⟨?_, ?_, ?_, ?_, ?_⟩
  · exact fun f hf => hr.packages f ((h f).2 hf)
  · exact fun f hf g hg => hr.one_copy f ((h f).2 hf) g ((h g).2 hg)
  · intro f hf d hd
    obtain ⟨g, hg, e⟩ := hr.imports f ((h f).2 hf) d hd
    exact ⟨g, (h g).1 hg, e⟩
  · exact fun f hf => hr.messages f ((h f).2 hf)
  · exact fun f hf => hr.methods f ((h f).2 hf)

/-- A `break descriptor-set` that ends well leaves the encoding of all compiled files at the path. -/
theorem breakDescriptorSet_file (h : Host) (hp : Prints h) (hj : h.json = false) (t : Tools)
    (args : List Str) (path : Str) (hpath : path ≠ []) (m : Meta) (sets : List FileSet) (w w1 : World)
    (hc : CompilesTo h args { fullControl := true, includeImports := true } w.disk m sets)
    (hs : FaithfulOn t.sum fun f => f ∈ sets.flatten)
    (hnames : ∀ f ∈ sets.flatten, f.name ≠ [])
    (hone : ∀ f ∈ sets.flatten, ∀ g ∈ sets.flatten, f.name = g.name → f = g)
    (hrun : breakDescriptorSetCmd h t args path w = (w1, .ok ())) :
    ∃ set data, IsMerged sets set ∧ t.encodeProto set = .ok data ∧ w1.disk path = some data := by
  rw [(C67_break_descriptor_set h t args w).2 path hpath] at hrun
  have hs' : FaithfulOn t.sum (InSets (sets.map fun s => some (s.map some))) :=
    ⟨fun f hf => hs.total f (inSets_iff.1 hf),
      fun f g x hf hg => hs.injective f g x (inSets_iff.1 hf) (inSets_iff.1 hg)⟩
  unfold descriptorSetCmd at hrun
  rw [if_neg (by simp), bind_of_ok ((getMeta_ok (w := w) (w' := w)).2 ⟨rfl, hc.1⟩),
    bind_of_ok ((doCompile_ok hp (m := m) (w := w) (w' := w) (sets := sets)
      (flags := { fullControl := true, includeImports := true })).2 ⟨hc.2.1, hc.2.2, rfl⟩)] at hrun
  obtain ⟨w2, set, h1, h2⟩ := bind_ok.1 hrun
  obtain ⟨w3, data, h3, h4⟩ := bind_ok.1 h2
  have hset : Desc.mergeFileDescriptorSets t.srt t.sum (sets.map fun s => some (s.map some)) = .ok set := by
    revert h1
    unfold Run.lift
    cases Desc.mergeFileDescriptorSets t.srt t.sum (sets.map fun s => some (s.map some)) with
    | error e => intro h; cases h
    | ok x => intro h; cases h; rfl
  have hdata : t.encodeProto set = .ok data := by
    revert h3
    rw [hj]
    unfold Run.lift
    simp only [Bool.false_eq_true, if_false]
    cases t.encodeProto set with
    | error e => intro h; cases h
    | ok x => intro h; cases h; rfl
  have hu := C10_union t.srt t.sum _ hs' set hset
  refine ⟨set, data, ⟨hu.1, fun f => (hu.2 f).trans inSets_iff⟩, hdata, ?_⟩
  rw [if_neg (by simp [hpath])] at h4
  obtain ⟨w4, p, h5, h6⟩ := bind_ok.1 h4
  have hpp : p = path := by
    unfold openOutput at h5
    simp only [hpath, ne_eq, not_false_eq_true, if_true] at h5
    revert h5
    cases t.create path with
    | error e => intro h; cases h
    | ok _ => intro h; cases h; rfl
  subst hpp
  have hworld := closing_world t p (Run.bind (writeTo t p data) fun _ =>
    if (false : Bool) = true then println h p else Run.pure ()) w4
  rw [h6] at hworld
  unfold closing at h6
  rw [show w1 = _ from hworld]
  unfold Run.bind at h6 ⊢
  unfold writeTo at h6 ⊢
  dsimp only at h6 ⊢
  revert h6
  rcases t.writeTo p data with ⟨e, left⟩ | _
  · dsimp only
    cases t.close p <;> (intro h6; cases h6)
  · intro _
    exact if_pos rfl

/-- C70: a check against the descriptor set that `break descriptor-set` wrote reports what a
comparison of the schema of then with the schema of now reports, whatever happened in between as
long as the written file is still there. -/
theorem C70_as_direct (h h' : Host) (hp : Prints h) (hp' : Prints h') (hj : h.json = false)
    (hj' : h'.json = true → ∀ f, ∃ t, h'.toJSON f = .ok t)
    (t : Tools) (args args' : List Str) (path : Str) (hpath : path ≠ []) (m m' : Meta)
    (sets sets' : List FileSet) (w w1 w' : World)
    (hc : CompilesTo h args { fullControl := true, includeImports := true } w.disk m sets)
    (hs : FaithfulOn t.sum fun f => f ∈ sets.flatten) (hm : FaithfulOn t.marshal fun f => f ∈ sets.flatten)
    (hnames : ∀ f ∈ sets.flatten, f.name ≠ []) (hr : Reflectable sets.flatten)
    (hd : DistinctNames sets.flatten)
    (hdec : ∀ set data, IsMerged sets set → t.encodeProto set = .ok data → t.decode data = .ok set)
    (hrun : breakDescriptorSetCmd h t args path w = (w1, .ok ()))
    (hkept : w'.disk path = w1.disk path)
    (hc' : CompilesTo h' args' { doFileDescriptorSet := true } w'.disk m' sets')
    (hr' : Reflectable sets'.flatten) (hd' : DistinctNames sets'.flatten)
    (hm' : FaithfulOn t.marshal fun f => f ∈ sets'.flatten)
    (failures : List Text.Failure)
    (hf : Breaking.breakCheckSets t.srt t.order t.marshal m'.protoSet.config.break_ sets sets' = .ok failures) :
    breakCheckCmd h' t args' [] path w' =
      ({ w' with out := w'.out ++ breakLines h' failures }, breakOutcome failures) := by
  obtain ⟨set, data, hset, hdata, hfile⟩ :=
    breakDescriptorSet_file h hp hj t args path hpath m sets w w1 hc hs hnames hr.one_copy hrun
  have hmem : ∀ f, f ∈ sets.flatten ↔ f ∈ [set].flatten := by
    intro f
    rw [← hset.2 f]
    simp
  have hms : FaithfulOn t.marshal fun f => f ∈ [set].flatten :=
    ⟨fun f hf => hm.total f ((hmem f).2 hf),
      fun f g x hf hg => hm.injective f g x ((hmem f).2 hf) ((hmem g).2 hg)⟩
  refine C66_descriptor_set h' hp' hj' t args' path hpath m' sets' w' hc' data (hkept.trans hfile) set
    (hdec set data hset hdata) failures ?_
  rw [← hf]
  exact (C08_same_outcome t.srt t.order t.marshal _ sets [set] sets' sets' hm hms hm' hm' hr
    (reflectable_of_mem hmem hr) hr' hr' hd hd' (redistributed_of_mem hmem)
    (redistributed_of_mem fun _ => Iff.rfl)).symm

/-- C70: right after `break descriptor-set`, and as long as the definitions stay the same even
though they may move between the files of their packages, a check against what it wrote prints
nothing and ends well. -/
theorem C70_round_trip (h h' : Host) (hp : Prints h) (hp' : Prints h') (hj : h.json = false)
    (hj' : h'.json = true → ∀ f, ∃ t, h'.toJSON f = .ok t)
    (t : Tools) (args args' : List Str) (path : Str) (hpath : path ≠ []) (m m' : Meta)
    (sets sets' : List FileSet) (w w1 w' : World)
    (hc : CompilesTo h args { fullControl := true, includeImports := true } w.disk m sets)
    (hs : FaithfulOn t.sum fun f => f ∈ sets.flatten) (hm : FaithfulOn t.marshal fun f => f ∈ sets.flatten)
    (hnames : ∀ f ∈ sets.flatten, f.name ≠ []) (hv : DescriptorsOK sets.flatten)
    (hdec : ∀ set data, IsMerged sets set → t.encodeProto set = .ok data → t.decode data = .ok set)
    (hrun : breakDescriptorSetCmd h t args path w = (w1, .ok ()))
    (hkept : w'.disk path = w1.disk path)
    (hc' : CompilesTo h' args' { doFileDescriptorSet := true } w'.disk m' sets')
    (hv' : DescriptorsOK sets'.flatten) (hm' : FaithfulOn t.marshal fun f => f ∈ sets'.flatten)
    (hsame : Redistributed sets.flatten sets'.flatten)
    (hb : ∀ k q, k ≠ q → Imports sets.flatten k q → IsBetaPackage q → IsBetaPackage k) :
    breakCheckCmd h' t args' [] path w' = (w', .ok ()) := by
  rw [C70_as_direct h h' hp hp' hj hj' t args args' path hpath m m' sets sets' w w1 w' hc hs hm hnames
    hv.reflectable hv.names hdec hrun hkept hc' hv'.reflectable hv'.names hm' []
    (C08_not_breaking t.srt t.order t.marshal _ sets sets' hm hm' hv hv'.reflectable hsame hb)]
  unfold breakLines Text.sortFailures
  simp [breakOutcome, sortBy]

section Example

open Exec.Sample ReflectExample

/-- An encoding for the sample schemas. -/
def roundTools : Tools :=
  { tools with
    encodeJSON := fun _ => .ok s%"{}"
    decode := fun data =>
      if data = s%"base.proto\nuser.proto\n" then .ok [base, user] else .error s%"unexpected EOF" }

/-- The host when the schema was `old`. -/
def oldHost : Host := { repoHost with compile := fun _ _ _ => .ok ([], old) }

theorem merged_old {set : FileSet} (h : IsMerged old set) : set = [base, user] := by
  have hne : ∀ {l : FileSet}, (l.Pairwise fun a b => Str.lt a.name b.name = true) → l.Nodup := by
    intro l hl
    refine hl.imp ?_
    rintro a b hab rfl
    rw [Str.lt_irrefl] at hab
    cases hab
  have h2 : ([base, user] : FileSet).Pairwise fun a b => Str.lt a.name b.name = true := by
    refine List.Pairwise.cons ?_ (List.Pairwise.cons (by simp) .nil)
    intro b hb
    rw [List.mem_singleton] at hb
    subst hb
    decide
  have hp : set.Perm [base, user] := by
    refine (List.perm_ext_iff_of_nodup (hne h.1) (hne h2)).2 fun f => ?_
    rw [h.2, mem_old]
    simp
  refine List.Perm.eq_of_pairwise (fun a b _ _ hab hba => ?_) h.1 h2 hp
  rw [Str.lt_asymm hab] at hba
  cases hba

/-- The schema `old` is written and the files are changed to `new`, which only moves
definitions: the check is clean. -/
example (path : Str) (hpath : path ≠ []) :
    breakCheckCmd repoHost roundTools [s%"a"] [] path
      (breakDescriptorSetCmd oldHost roundTools [s%"a"] path world).1 =
    ((breakDescriptorSetCmd oldHost roundTools [s%"a"] path world).1, .ok ()) := by
  have hc : CompilesTo oldHost [s%"a"] { fullControl := true, includeImports := true } world.disk dir old :=
    ⟨⟨s%"a", .inl rfl, .inl ⟨rfl, rfl, rfl⟩⟩, ⟨_, rfl⟩, rfl⟩
  have hnames : ∀ f ∈ old.flatten, f.name ≠ [] := by
    intro f hf
    rcases mem_old.1 hf with rfl | rfl <;> decide
  have hset : ∀ set data, IsMerged old set → roundTools.encodeProto set = .ok data →
      roundTools.decode data = .ok set := by
    intro set data hs he
    rw [merged_old hs] at he ⊢
    cases he
    rfl
  obtain ⟨set, hs, hall⟩ := C67_written oldHost (fun _ _ => rfl) roundTools [s%"a"] true false dir old world
    hc old_faithful hnames old_reflectable.one_copy
  have hrun := (hall _ rfl).2.1 path hpath rfl rfl rfl
  rw [← (C67_break_descriptor_set oldHost roundTools [s%"a"] world).2 path hpath] at hrun
  refine C70_round_trip oldHost repoHost (fun _ _ => rfl) (fun _ _ => rfl) rfl (fun h => (nomatch h)) roundTools
    [s%"a"] [s%"a"] path hpath dir dir old new world _ _ hc old_faithful old_faithful hnames
    old_valid hset hrun (by rw [hrun])
    ⟨⟨s%"a", .inl rfl, .inl ⟨rfl, rfl, rfl⟩⟩, ⟨_, rfl⟩, rfl⟩ new_valid new_faithful redistributed ?_
  rintro k q _ ⟨_, _, _, _, _, g, hg, _, rfl⟩ hb
  refine absurd (Proof.Extract.ignorePackage_true.2 hb) ?_
  rcases mem_old.1 hg with rfl | rfl <;> decide

/-- C70 is false with `--json`: what it writes then is not what the check reads. -/
theorem C70_not_json : ∃ (h : Host) (t : Tools) (args : List Str) (path : Str) (w w1 : World),
    Prints h ∧ h.json = true ∧
      (∀ set data, IsMerged old set → t.encodeProto set = .ok data → t.decode data = .ok set) ∧
      breakDescriptorSetCmd h t args path w = (w1, .ok ()) ∧
      (breakCheckCmd { h with json := false } t args [] path w1).2 = .error (.other s%"unexpected EOF") := by
  refine ⟨{ oldHost with json := true }, roundTools, [s%"a"], s%"/tmp/set", world, _, fun _ _ => rfl, rfl, ?_,
    Prod.ext rfl ?_, ?_⟩
  · intro set data hs he
    rw [merged_old hs] at he ⊢
    cases he
    rfl
  · decide +kernel
  · decide +kernel

end Example

end Verif.Props
