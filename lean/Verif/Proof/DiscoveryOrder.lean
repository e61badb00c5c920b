import Verif.Proof.Displayed
import Verif.Spec.ExecOrder

/-!
# Discovery in another order
-/

namespace Verif.File

open Verif Str Path Settings Spec

/-- One set: all directories have the same configuration. -/
theorem getBaseProtoSets_uniform {c : Provider} {o : Order} {w : Str} {m : GoMap Str (List ProtoFile)}
    (hn : (m.map (·.1)).Nodup) (hm : m ≠ []) {b : BaseSet} (h : getBaseProtoSets c o w m = .ok [b]) :
    ∃ k, ∀ x ∈ m, configFor c w x.1 = .ok (k, b.2) := by
  unfold getBaseProtoSets at h
  rw [if_neg (by simp [hm])] at h
  cases hl : baseLoop c w (o.ord [s%"dirs"] m) [] with
  | error e => rw [hl] at h; cases h
  | ok sets =>
    rw [hl] at h
    injection h with h
    have hperm : sets.map (·.2) |>.Perm [b] := by
      have h1 := c.sort.perm (fun a b : BaseSet => Str.lt a.2.dirPath b.2.dirPath)
        (o.ord [s%"sets"] (sets.map (·.2)))
      rw [h] at h1
      exact ((o.perm [s%"sets"] (sets.map (·.2))).symm.trans h1.symm)
    have hone := List.perm_singleton.1 hperm
    obtain ⟨k, hsets⟩ : ∃ k, sets = [(k, b)] := by
      match sets, hone with
      | [(k, b')], hone => injection hone with hone _; exact ⟨k, by rw [show b' = b from hone]⟩
    subst hsets
    have hpm := o.perm [s%"dirs"] m
    have hi := baseLoop_inv (o.ord [s%"dirs"] m) [] [] [(k, b)]
      (by rw [List.nil_append]; exact (hpm.map (·.1)).nodup_iff.2 hn)
      ⟨by simp, fun k b h => (by cases h), by simp, fun k b h => (by cases h), fun k b h => (by cases h),
        fun k b h => (by cases h)⟩ hl
    rw [List.nil_append] at hi
    have hk : GoMap.get? [(k, b)] k = some b := by rw [GoMap.get?_cons, if_pos rfl]
    refine ⟨k, fun x hx => ?_⟩
    obtain ⟨k', b', h1, h2⟩ := hi.cover x (hpm.mem_iff.2 hx)
    rw [GoMap.get?_cons] at h1
    split at h1
    · injection h1 with h1
      subst h1
      exact hi.configs k b hk x.1 x.2 h2
    · cases h1

theorem set_absent {κ ν : Type} [DecidableEq κ] (m : GoMap κ ν) (k : κ) (v : ν)
    (h : k ∉ m.map (·.1)) : m.set k v = m ++ [(k, v)] := by
  induction m with
  | nil => rfl
  | cons p m ih =>
    rw [List.map_cons, List.mem_cons] at h
    rw [GoMap.set, if_neg (fun e => h (.inl e.symm)), ih (fun e => h (.inr e))]
    rfl

/-- If all directories have the same configuration, the loop makes one set. -/
theorem baseLoop_uniform {c : Provider} {w k : Str} {cfg : Config} (todo : List (Str × List ProtoFile)) :
    ∀ done : GoMap Str (List ProtoFile), ((done ++ todo).map (·.1)).Nodup → done ≠ [] →
      (∀ x ∈ todo, configFor c w x.1 = .ok (k, cfg)) →
      baseLoop c w todo [(k, (done, cfg))] = .ok [(k, (done ++ todo, cfg))] := by
  induction todo with
  | nil => intro done _ _ _; simp [baseLoop]
  | cons x todo ih =>
    obtain ⟨d, fs⟩ := x
    intro done hn hne hall
    have hd : d ∉ done.map (·.1) := by
      intro hm
      rw [List.map_append, List.nodup_append] at hn
      exact hn.2.2 d hm d (by simp) rfl
    have hg : GoMap.get? done d = none := GoMap.get?_none.2 (fun p hp e => hd (List.mem_map.2 ⟨p, hp, e⟩))
    have hgk : GoMap.get? [(k, (done, cfg))] k = some (done, cfg) := by rw [GoMap.get?_cons, if_pos rfl]
    rw [baseLoop, hall (d, fs) (by simp)]
    dsimp only
    rw [hgk]
    dsimp only [Option.map_some, Option.getD_some]
    rw [hg]
    dsimp only [Option.getD_none]
    rw [List.nil_append, set_absent _ _ _ hd]
    have : GoMap.set [(k, (done, cfg))] k ((done ++ [(d, fs)], cfg) : BaseSet) =
        [(k, (done ++ [(d, fs)], cfg))] := by rw [GoMap.set, if_pos rfl]
    rw [this, ih (done ++ [(d, fs)]) (by simpa using hn) (by simp) (fun x hx => hall x (by simp [hx]))]
    simp

/-- All directories have the same configuration: one set. -/
theorem getBaseProtoSets_of_uniform {c : Provider} {o' : Order} {w k : Str} {cfg : Config}
    {m : GoMap Str (List ProtoFile)} (hn : (m.map (·.1)).Nodup) (hm : m ≠ [])
    (hk : ∀ x ∈ m, configFor c w x.1 = .ok (k, cfg)) :
    ∃ b', getBaseProtoSets c o' w m = .ok [b'] ∧ b'.1.Perm m ∧ b'.2 = cfg := by
  have hpm := o'.perm [s%"dirs"] m
  have hne : o'.ord [s%"dirs"] m ≠ [] := fun e => hm (by rw [e] at hpm; exact List.nil_perm.1 hpm)
  have hall : ∀ x ∈ o'.ord [s%"dirs"] m, configFor c w x.1 = .ok (k, cfg) :=
    fun x hx => hk x (hpm.mem_iff.1 hx)
  have hnd : ((o'.ord [s%"dirs"] m).map (·.1)).Nodup := (hpm.map (·.1)).nodup_iff.2 hn
  have hloop : baseLoop c w (o'.ord [s%"dirs"] m) [] = .ok [(k, (o'.ord [s%"dirs"] m, cfg))] := by
    generalize o'.ord [s%"dirs"] m = l at hne hall hnd
    match l, hne with
    | (d, fs) :: l, _ =>
      rw [baseLoop, hall (d, fs) (by simp)]
      dsimp only
      have e : GoMap.set ([] : GoMap Str BaseSet) k (GoMap.set (((GoMap.get? ([] : GoMap Str BaseSet) k).map (·.1)).getD [] : GoMap Str (List ProtoFile)) d
          ((GoMap.get? (((GoMap.get? ([] : GoMap Str BaseSet) k).map (·.1)).getD [] : GoMap Str (List ProtoFile)) d).getD [] ++ fs), cfg) =
          [(k, ([(d, fs)], cfg))] := rfl
      rw [e, baseLoop_uniform l [(d, fs)] (by simpa using hnd) (by simp) (fun x hx => hall x (by simp [hx]))]
      rfl
  refine ⟨(o'.ord [s%"dirs"] m, cfg), ?_, hpm, rfl⟩
  unfold getBaseProtoSets
  rw [if_neg (by simp [hm]), hloop]
  dsimp only
  have h1 := o'.perm [s%"sets"] [(o'.ord [s%"dirs"] m, cfg)]
  have h2 := (c.sort.perm (fun a b : BaseSet => Str.lt a.2.dirPath b.2.dirPath)
    (o'.ord [s%"sets"] [(o'.ord [s%"dirs"] m, cfg)])).trans h1
  rw [List.map_cons, List.map_nil]
  exact congrArg _ (List.perm_singleton.1 h2)

theorem getBaseProtoSets_reordered {c : Provider} {o o' : Order} {w : Str} {m : GoMap Str (List ProtoFile)}
    (hn : (m.map (·.1)).Nodup) {b : BaseSet} (h : getBaseProtoSets c o w m = .ok [b]) :
    ∃ b', getBaseProtoSets c o' w m = .ok [b'] ∧ b'.1.Perm m ∧ b'.2 = b.2 := by
  by_cases hm : m = []
  · subst hm
    unfold getBaseProtoSets at h ⊢
    rw [if_pos (by simp)] at h ⊢
    refine ⟨b, h, ?_, rfl⟩
    cases hb : defaultBaseSet c w with
    | error e => rw [hb] at h; cases h
    | ok b' =>
      rw [hb] at h
      injection h with h
      injection h with h _
      subst h
      unfold defaultBaseSet at hb
      split at hb
      · split at hb
        · cases hb
        · cases hb
        · injection hb with hb; subst hb; exact .refl _
      · split at hb
        · cases hb
        · injection hb with hb; subst hb; exact .refl _
  · obtain ⟨k, hk⟩ := getBaseProtoSets_uniform hn hm h
    exact getBaseProtoSets_of_uniform hn hm hk

/-- The validation of a directory. -/
theorem validateDirs_iff {cd : Str} {m : List (Str × List ProtoFile)} :
    validateDirs cd m = .ok () ↔ ∀ p ∈ m, validateFiles cd p.1 p.2 = .ok () := by
  induction m with
  | nil => simp [validateDirs]
  | cons q m ih =>
    obtain ⟨d, fs⟩ := q
    rw [validateDirs]
    cases hv : validateFiles cd d fs with
    | error e => simp [hv]
    | ok u => simp [hv, ih]

/-- The stages of a successful discovery, and back. -/
theorem getForDirOf_iff {c : Provider} {o : Order} {w d : Str} {ps : ProtoSet} :
    getForDirOf c o w d = .ok ps ↔
    ∃ root fs b, walkRoot c (absClean c.wd w) (absClean c.wd d) = .ok root ∧
      walkAndGetAllProtoFiles c (absClean c.wd w) root = .ok fs ∧
      getBaseProtoSets c o (absClean c.wd w) (getDirPathToProtoFiles fs) = .ok [b] ∧
      (∀ p ∈ b.1, validateFiles b.2.dirPath p.1 p.2 = .ok ()) ∧
      ps = ⟨absClean c.wd w, absClean c.wd d, b.1, b.2⟩ := by
  unfold getForDirOf
  constructor
  · intro h
    cases hm : getMultipleForDir c o w d with
    | error e => rw [hm] at h; cases h
    | ok sets =>
      rw [hm] at h
      match sets, h with
      | [ps'], h =>
        injection h with h
        subst h
        unfold getMultipleForDir at hm
        dsimp only at hm
        cases hr : walkRoot c (absClean c.wd w) (absClean c.wd d) with
        | error e => rw [hr] at hm; cases hm
        | ok root =>
          rw [hr] at hm
          dsimp only at hm
          cases hwk : walkAndGetAllProtoFiles c (absClean c.wd w) root with
          | error e => rw [hwk] at hm; cases hm
          | ok fs =>
            rw [hwk] at hm
            dsimp only at hm
            cases hb : getBaseProtoSets c o (absClean c.wd w) (getDirPathToProtoFiles fs) with
            | error e => rw [hb] at hm; cases hm
            | ok sets =>
              rw [hb] at hm
              dsimp only at hm
              cases hv : validateSets o sets with
              | error e => rw [hv] at hm; cases hm
              | ok u =>
                rw [hv] at hm
                dsimp only at hm
                injection hm with hm
                match sets, hm, hv with
                | [b], hm, hv =>
                  injection hm with hm _
                  refine ⟨root, fs, b, rfl, hwk, hb, ?_, hm.symm⟩
                  rw [validateSets] at hv
                  split at hv
                  · cases hv
                  · rename_i hv'
                    intro p hp
                    exact validateDirs_iff.1 hv' p ((o.perm _ _).mem_iff.2 hp)
  · rintro ⟨root, fs, b, h1, h2, h3, h4, rfl⟩
    have : getMultipleForDir c o w d = .ok [⟨absClean c.wd w, absClean c.wd d, b.1, b.2⟩] := by
      unfold getMultipleForDir
      dsimp only
      rw [h1]
      dsimp only
      rw [h2]
      dsimp only
      rw [h3]
      dsimp only
      rw [validateSets, validateDirs_iff.2 (fun p hp => h4 p ((o.perm _ _).mem_iff.1 hp)), validateSets]
      rfl
    rw [this]

theorem sameSet_symm {ps ps' : ProtoSet} (h : SameSet ps ps') : SameSet ps' ps :=
  ⟨h.workDirPath.symm, h.dirPath.symm, h.config.symm, h.dirs.symm⟩

theorem sameSet_refl (ps : ProtoSet) : SameSet ps ps := ⟨rfl, rfl, rfl, .refl _⟩

/-- A discovery that succeeds does so in any order. -/
theorem getForDirOf_reordered {c : Provider} {o : Order} (o' : Order) {w d : Str} {ps : ProtoSet}
    (h : getForDirOf c o w d = .ok ps) : ∃ ps', getForDirOf c o' w d = .ok ps' ∧ SameSet ps ps' := by
  obtain ⟨root, fs, b, h1, h2, h3, h4, rfl⟩ := getForDirOf_iff.1 h
  obtain ⟨b', hb', hp', hc'⟩ := getBaseProtoSets_reordered (o' := o') (group_nodup fs) h3
  obtain ⟨b0, hb0, hp0, _⟩ := getBaseProtoSets_reordered (o' := o) (group_nodup fs) h3
  rw [h3] at hb0
  injection hb0 with hb0
  injection hb0 with hb0 _
  subst hb0
  have hperm : b'.1.Perm b.1 := hp'.trans hp0.symm
  refine ⟨⟨absClean c.wd w, absClean c.wd d, b'.1, b'.2⟩, getForDirOf_iff.2 ⟨root, fs, b', h1, h2, hb', ?_, rfl⟩,
    ⟨rfl, rfl, hc', hperm⟩⟩
  intro p hp
  rw [hc']
  exact h4 p (hperm.mem_iff.1 hp)

end Verif.File
