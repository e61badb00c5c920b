import Verif.Spec.Compile
import Verif.Proof.CompileRun
import Verif.Props.Text

/-! # The result of a compile and its temporary files -/

namespace Verif.Protoc

open Verif Str File Text Spec

/-! ## Temporary files -/

/-- The temporary files of commands. -/
def tempsOf (cmds : List CmdMeta) : List Str :=
  (cmds.map (·.descriptorSetTempFilePath)).filter (· ≠ [])

theorem cleanCmdMetas_eq {live : List Str} {cmds : List CmdMeta} :
    cleanCmdMetas live cmds = live.filter (· ∉ tempsOf cmds) := by
  unfold cleanCmdMetas
  induction cmds generalizing live with
  | nil =>
    symm
    rw [List.foldl_nil, List.filter_eq_self]
    simp [tempsOf]
  | cons m ms ih =>
    rw [List.foldl_cons, ih]
    unfold clean1 tempsOf
    split
    next h =>
      rw [List.filter_filter]
      apply List.filter_congr
      intro x _
      simp only [List.map_cons, List.filter_cons, h, decide_true, if_true, List.mem_cons, not_or,
        Bool.decide_and, Bool.and_comm, ne_eq, not_false_eq_true, Bool.not_eq_true]
    next h =>
      have h' : m.descriptorSetTempFilePath = [] := Decidable.not_not.1 h
      simp [h']

/-- What the commands made say about the temporary files. -/
structure Tracked (live : List Str) (made : Made) : Prop where
  files : made.1 = live ++ tempsOf made.2.1
  fresh : ∀ p ∈ tempsOf made.2.1, p ∉ live

theorem tempsOf_append {a b : List CmdMeta} : tempsOf (a ++ b) = tempsOf a ++ tempsOf b := by
  simp [tempsOf]

theorem tempsOf_none {a : List CmdMeta} (h : ∀ m ∈ a, m.descriptorSetTempFilePath = []) :
    tempsOf a = [] := by
  unfold tempsOf
  rw [List.filter_eq_nil_iff]
  intro p hp
  obtain ⟨m, hm, rfl⟩ := List.mem_map.1 hp
  simp [h m hm]

theorem tracked_none {live e} : Tracked live (live, [], e) := ⟨by simp [tempsOf], by simp [tempsOf]⟩

theorem cmdMetasForDir_tracked {env : Env} (hf : FreshTemp env) {c protoSet live dirPath files} :
    Tracked live (cmdMetasForDir env c protoSet live dirPath files) := by
  unfold cmdMetasForDir
  dsimp only
  split
  · exact tracked_none
  split
  · exact tracked_none
  split
  next live' cmds e h =>
    split at h
    · split at h
      · cases h; exact tracked_none
      · cases h
    · split at h
      · cases h
      · split at h
        · cases h; exact tracked_none
        · cases h
  next live' cmds h =>
    have h0 : Tracked live (live', cmds, none) := by
      split at h
      · split at h
        · cases h
        next temp ht =>
          cases h
          obtain ⟨h1, h2⟩ := hf _ _ ht
          exact ⟨by simp [tempsOf, h1], by simpa [tempsOf, h1] using h2⟩
      · split at h
        · cases h; exact tracked_none
        · split at h
          · cases h
          · cases h; exact ⟨by simp [tempsOf], by simp [tempsOf]⟩
    split
    · exact ⟨h0.files, h0.fresh⟩
    next flagSets _ =>
      have h1 : ∀ g : List Str → CmdMeta, (∀ l, (g l).descriptorSetTempFilePath = []) →
          tempsOf (cmds ++ flagSets.map g) = tempsOf cmds := by
        intro g hg
        rw [tempsOf_append, tempsOf_none (a := flagSets.map g), List.append_nil]
        intro m hm
        obtain ⟨l, _, rfl⟩ := List.mem_map.1 hm
        exact hg l
      constructor
      · simp only
        rw [h1 _ fun _ => rfl]
        exact h0.files
      · simp only
        rw [h1 _ fun _ => rfl]
        exact h0.fresh

theorem cmdMetasLoop_tracked {env : Env} (hf : FreshTemp env) {c protoSet ds live0 live cmds}
    (h : Tracked live0 (live, cmds, none)) : 
    Tracked live0 (cmdMetasLoop env c protoSet ds live cmds) := by
  induction ds generalizing live cmds with
  | nil => exact h
  | cons d ds ih =>
    unfold cmdMetasLoop
    split
    · exact ih h
    · have hd := cmdMetasForDir_tracked hf (c := c) (protoSet := protoSet) (live := live)
        (dirPath := d.1) (files := d.2)
      have key : ∀ live' added e, cmdMetasForDir env c protoSet live d.1 d.2 = (live', added, e) →
          ∀ e', Tracked live0 (live', cmds ++ added, e') := by
        intro live' added e he e'
        rw [he] at hd
        obtain ⟨h1, h2⟩ := h
        obtain ⟨h3, h4⟩ := hd
        simp only at h1 h2 h3 h4
        subst h1
        constructor
        · simpa [tempsOf_append] using h3
        · intro p hp hl
          simp only [tempsOf_append, List.mem_append] at hp
          rcases hp with hp | hp
          · exact h2 p hp hl
          · exact h4 p hp (by simp [hl])
      split
      next he => exact key _ _ _ he _
      next he => exact ih (key _ _ _ he _)

theorem cleanCmdMetas_tracked {live live' cmds e} (h : Tracked live (live', cmds, e)) :
    cleanCmdMetas live' cmds = live := by
  obtain ⟨h1, h2⟩ := h
  simp only at h1 h2
  rw [cleanCmdMetas_eq, h1, List.filter_append]
  have h3 : live.filter (· ∉ tempsOf cmds) = live := by
    rw [List.filter_eq_self]
    intro p hp
    simp only [decide_eq_true_eq]
    intro hc
    exact h2 p hc hp
  have h4 : (tempsOf cmds).filter (· ∉ tempsOf cmds) = [] := by
    rw [List.filter_eq_nil_iff]
    intro p hp
    simp [hp]
  rw [h3, h4, List.append_nil]

theorem getCmdMetas_error {env : Env} (hf : FreshTemp env) {c protoSet live live' e}
    (h : getCmdMetas env c protoSet live = (live', .error e)) : live' = live := by
  unfold getCmdMetas at h
  split at h
  · cases h; rfl
  · split at h
    next hl =>
      cases h
      exact cleanCmdMetas_tracked (hl ▸ cmdMetasLoop_tracked hf tracked_none)
    · cases h

theorem getCmdMetas_ok {env : Env} (hf : FreshTemp env) {c protoSet live live' cmds}
    (h : getCmdMetas env c protoSet live = (live', .ok cmds)) :
    Tracked live (live', cmds, none) := by
  unfold getCmdMetas at h
  split at h
  · cases h
  · split at h
    · cases h
    next hl =>
      cases h
      exact hl ▸ cmdMetasLoop_tracked hf tracked_none

/-! ## Verdicts -/

theorem afterWait_perm {env : Env} {cmds : List CmdMeta} {fs fs' : List Failure} {es es' : List Err}
    (hf : fs.Perm fs') (he : es.Perm es') :
    SameVerdict (afterWait env cmds fs es) (afterWait env cmds fs' es') := by
  unfold afterWait
  rw [he.length_eq, hf.length_eq]
  split
  · exact trivial
  · split
    · exact congrArg (fun x => (⟨x, []⟩ : CompileResult)) (Props.C18_canonical fs fs' hf)
    · split
      · exact trivial
      · rfl

theorem getFileDescriptorSets_ok {env : Env} {cmds : List CmdMeta} {content : Str → Descriptor.FileSet}
    (hc : ∀ m ∈ cmds, m.descriptorSetTempFilePath ≠ [] →
      env.readSet m.descriptorSetTempFilePath = .ok (content m.descriptorSetTempFilePath)) :
    getFileDescriptorSets env cmds =
      .ok ((cmds.filter (·.descriptorSetTempFilePath ≠ [])).map fun m =>
        ⟨content m.descriptorSetTempFilePath, m.protoSet, m.dirPath, m.protoFiles⟩) := by
  induction cmds with
  | nil => rfl
  | cons m ms ih =>
    unfold getFileDescriptorSets getFileDescriptorSet
    rcases Decidable.em (m.descriptorSetTempFilePath = []) with ht | ht
    · rw [if_pos ht, ih (fun m' hm' => hc m' (by simp [hm']))]
      simp [ht]
    · rw [if_neg ht, hc m (by simp) ht, ih (fun m' hm' => hc m' (by simp [hm']))]
      simp [ht]

theorem getFileDescriptorSets_error {env : Env} {cmds : List CmdMeta} {m : CmdMeta} {e : Err}
    (hmem : m ∈ cmds) (hne : m.descriptorSetTempFilePath ≠ [])
    (herr : env.readSet m.descriptorSetTempFilePath = .error e) :
    ∃ e, getFileDescriptorSets env cmds = .error e := by
  induction cmds with
  | nil => cases hmem
  | cons m' ms ih =>
    unfold getFileDescriptorSets
    split
    next e' _ => exact ⟨e', rfl⟩
    next set hset =>
      rcases List.mem_cons.1 hmem with rfl | hmem
      · unfold getFileDescriptorSet at hset
        rw [if_neg hne, herr] at hset
        cases hset
      · obtain ⟨e', he'⟩ := ih hmem
        rw [he']
        exact ⟨e', rfl⟩

/-- Every run can be brought to its end. -/
theorem reaches {n cap result} (hcap : 0 < cap) (s : State) (hs : Inv n cap result s) :
    ∃ k t, Steps n cap result k s t ∧ t.main = .done := by
  induction hm : s.left n using Nat.strongRecOn generalizing s with
  | ind m ih =>
    rcases Classical.em (s.main = .done) with hd | hd
    · exact ⟨0, s, Steps.refl s, hd⟩
    · obtain ⟨t, ht⟩ := progress hcap hs hd
      have hl := left_step ht hs
      obtain ⟨k, u, hu, hud⟩ := ih (t.left n) (by omega) t (inv_step ht hs) rfl
      refine ⟨k + 1, u, ?_, hud⟩
      clear ih hud hl
      induction hu with
      | refl => exact Steps.tail (Steps.refl _) ht
      | tail _ h2 ih => exact Steps.tail (ih ht) h2

end Verif.Protoc
