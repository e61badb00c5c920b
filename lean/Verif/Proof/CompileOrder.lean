import Verif.Props.ExecCompile
import Verif.Proof.ExecOrder
import Verif.Proof.RenameRun

/-!
# Two runs of the compiler
-/

namespace Verif.Exec

open Verif Str Spec File Settings Protoc Props

/-! ## What protoc says -/

theorem parse_alike {m m' : CmdMeta} (hf : m'.protoFiles = m.protoFiles)
    (hc : m'.protoSet.config = m.protoSet.config) (line : Str) : parseProtocLine m' line = parseProtocLine m line := by
  have hb : ∀ x, bestFilePath m' x = bestFilePath m x := by
    intro x
    unfold bestFilePath
    rw [hf]
  have hu : ∀ x, unusedImport m' x = unusedImport m x := by
    intro x
    unfold unusedImport
    rw [hc]
  have hl : ∀ a b c d e, located m' a b c d e = located m a b c d e := by
    intro a b c d e
    unfold located
    rw [hb]
  have hr : ∀ rules : List Rule, (∀ r ∈ rules, ∀ l g, r.act m' l g = r.act m l g) →
      firstRule m' line rules = firstRule m line rules := by
    intro rules
    induction rules with
    | nil => intro _; rfl
    | cons r rs ih =>
      intro h
      unfold firstRule
      rw [ih fun x hx => h x (by simp [hx])]
      simp only [h r (by simp)]
  have h1 : firstRule m' line pluginRules = firstRule m line pluginRules := by
    apply hr
    unfold pluginRules
    simp only [List.forall_mem_cons, List.not_mem_nil, false_implies, implies_true, and_true, hb, hu, hl]
  have h2 : firstRule m' line lineRules = firstRule m line lineRules := by
    apply hr
    unfold lineRules
    simp only [List.forall_mem_cons, List.not_mem_nil, false_implies, implies_true, and_true, hb, hu, hl]
  unfold parseProtocLine
  simp only [h1, h2, hl]

theorem runCmdMeta_alike {m m' : CmdMeta} (hf : m'.protoFiles = m.protoFiles)
    (hc : m'.protoSet.config = m.protoSet.config) (e : Ended) : runCmdMeta m' e = runCmdMeta m e := by
  cases e with
  | signalled k => rfl
  | notRun e => rfl
  | exited status output =>
    have : parseProtocOutput m' (trimSpace output) = parseProtocOutput m (trimSpace output) := by
      rw [parseProtocOutput_eq, parseProtocOutput_eq]
      congr 1
      funext l
      exact parse_alike hf hc l
    unfold runCmdMeta
    dsimp only
    rw [this]

theorem results_eq {t : Toolchain} {disk : Disk} {cmds : List CmdMeta} {ended : Nat → Ended}
    (he : ∀ i (hi : i < cmds.length), ended i = t.protoc disk cmds[i]) :
    allErrors cmds ended = cmds.flatMap (fun cmd => (runCmdMeta cmd (t.protoc disk cmd)).2.toList) ∧
      allFailures cmds ended = cmds.flatMap fun cmd => (runCmdMeta cmd (t.protoc disk cmd)).1 := by
  have key : ∀ i (hi : i < cmds.length), resultOf cmds ended i = runCmdMeta cmds[i] (t.protoc disk cmds[i]) := by
    intro i hi
    unfold resultOf
    rw [List.getElem?_eq_getElem hi]
    dsimp only
    rw [he i hi]
  unfold allErrors allFailures
  constructor
  · rw [List.flatMap_def, List.flatMap_def]
    congr 1
    apply List.ext_getElem (by simp)
    intro i h1 h2
    simp only [List.length_map, List.length_range] at h1
    simp [key i h1]
  · rw [List.flatMap_def, List.flatMap_def]
    congr 1
    apply List.ext_getElem (by simp)
    intro i h1 h2
    simp only [List.length_map, List.length_range] at h1
    simp [key i h1]

/-! ## The commands -/

/-- Two commands for the same directory. -/
structure Like (ps ps' : ProtoSet) (cmd cmd' : CmdMeta) : Prop where
  command : SameCommand cmd cmd'
  dirPath : cmd'.dirPath = cmd.dirPath
  files : cmd'.protoFiles = cmd.protoFiles
  set : cmd.protoSet = ps
  set' : cmd'.protoSet = ps'
  temp : cmd.descriptorSetTempFilePath = [] ↔ cmd'.descriptorSetTempFilePath = []

/-- What is made for a directory, whatever temporary files there are. -/
def One (env : Env) (c : Options) (ps : ProtoSet) (d : Str × List ProtoFile) (cmds : List CmdMeta) : Prop :=
  ∃ live l, cmdMetasForDir env c ps live d.1 d.2 = (l, cmds, none)

/-! ### Modifiers -/

/-- A map made by setting values that depend on the key. -/
theorem foldl_set_spec (f : Str → Str) : ∀ (kvs m : GoMap Str Str), (∀ kv ∈ kvs, kv.2 = f kv.1) →
    (∀ kv ∈ m, kv.2 = f kv.1) → (m.map (·.1)).Nodup →
    let r := kvs.foldl (fun m kv => GoMap.set m kv.1 kv.2) m
    (r.map (·.1)).Nodup ∧ (∀ kv ∈ r, kv.2 = f kv.1) ∧
      ∀ k, k ∈ r.map (·.1) ↔ k ∈ m.map (·.1) ∨ k ∈ kvs.map (·.1) := by
  intro kvs
  induction kvs with
  | nil => intro m _ h2 h3; exact ⟨h3, h2, by simp⟩
  | cons kv kvs ih =>
    intro m h1 h2 h3
    have hk : ∀ x ∈ m.set kv.1 kv.2, x.2 = f x.1 := by
      intro x hx
      have hg := GoMap.get?_of_mem (GoMap.set_keys_nodup h3 kv.1 kv.2) (k := x.1) (v := x.2) hx
      rw [GoMap.get?_set] at hg
      split at hg
      · rename_i e
        rw [← Option.some.inj hg, h1 kv (by simp), e]
      · exact h2 _ (GoMap.get?_some_mem hg)
    have hkeys : ∀ k, k ∈ (m.set kv.1 kv.2).map (·.1) ↔ k ∈ m.map (·.1) ∨ k = kv.1 := by
      intro k
      rw [GoMap.set_keys]
      split
      · rename_i hm
        constructor
        · exact .inl
        · rintro (h | h)
          · exact h
          · exact h ▸ hm
      · simp
    obtain ⟨r1, r2, r3⟩ := ih (m.set kv.1 kv.2) (fun x hx => h1 x (by simp [hx])) hk (GoMap.set_keys_nodup h3 _ _)
    refine ⟨r1, r2, fun k => ?_⟩
    rw [List.foldl_cons, r3 k, hkeys k, List.map_cons, List.mem_cons, or_assoc]

theorem perm_of_keys {f : Str → Str} {m m' : GoMap Str Str} (h : (m.map (·.1)).Nodup) (h' : (m'.map (·.1)).Nodup)
    (hv : ∀ kv ∈ m, kv.2 = f kv.1) (hv' : ∀ kv ∈ m', kv.2 = f kv.1)
    (hk : ∀ k, k ∈ m'.map (·.1) ↔ k ∈ m.map (·.1)) : m'.Perm m := by
  have e : ∀ {m : GoMap Str Str}, (∀ kv ∈ m, kv.2 = f kv.1) → m = (m.map (·.1)).map fun k => (k, f k) := by
    intro m hv
    rw [List.map_map]
    conv => lhs; rw [← List.map_id m]
    apply List.map_congr_left
    intro kv hkv
    exact Prod.ext rfl (hv kv hkv)
  rw [e hv, e hv']
  exact ((List.perm_ext_iff_of_nodup h' h).2 hk).map _

theorem modifiersFor_alike {ps ps' : ProtoSet} (hs : SameSet ps ps') (o o' : Order) (site site' : Site) (d : Str)
    (plugin : GenPlugin) : (modifiersFor o' site' ps' d plugin).Perm (modifiersFor o site ps d plugin) := by
  let f : Str → Str := fun path =>
    Path.clean (Path.joinPath [ps.config.gen.importPath, plugin.outputPath.relPath, Path.dir path])
  have hf : ∀ ds, ∀ kv ∈ modifierList ps d plugin ds, kv.2 = f kv.1 := by
    intro ds kv hkv
    unfold modifierList at hkv
    obtain ⟨x, _, hx⟩ := List.mem_flatMap.1 hkv
    obtain ⟨y, _, rfl⟩ := List.mem_map.1 hx
    rfl
  have hl : ∀ ds, modifierList ps' d plugin ds = modifierList ps d plugin ds := by
    intro ds
    unfold modifierList
    rw [hs.config]
  rw [modifiersFor_fold, modifiersFor_fold, hl]
  obtain ⟨a1, a2, a3⟩ := foldl_set_spec f _ [] (hf (o.ord (site ++ [s%"DirPathToFiles"]) ps.dirPathToFiles))
    (fun _ h => by cases h) (by simp)
  obtain ⟨b1, b2, b3⟩ := foldl_set_spec f _ [] (hf (o'.ord (site' ++ [s%"DirPathToFiles"]) ps'.dirPathToFiles))
    (fun _ h => by cases h) (by simp)
  refine perm_of_keys a1 b1 a2 b2 fun k => ?_
  rw [a3, b3]
  have : (modifierList ps d plugin (o'.ord (site' ++ [s%"DirPathToFiles"]) ps'.dirPathToFiles)).Perm
      (modifierList ps d plugin (o.ord (site ++ [s%"DirPathToFiles"]) ps.dirPathToFiles)) := by
    unfold modifierList
    exact ((((o'.perm _ _).trans hs.dirs).trans (o.perm _ _).symm).filter _).flatMap_right _
  rw [(this.map (·.1)).mem_iff]

/-- The modifiers of the two runs are the same in each group. -/
theorem goFlags_alike {ps ps' : ProtoSet} (hs : SameSet ps ps') (o o' : Order) (site : Site) (d : Str)
    (plugin : GenPlugin) : ∃ (first : List Str) (groups groups' : List (List Str)),
      Pointwise (fun g g' => g'.Perm g) groups groups' ∧ (∀ x ∈ first ++ groups.flatten, x ≠ []) ∧
      goFlags o site ps d plugin = first ++ groups.flatten ∧ goFlags o' site ps' d plugin = first ++ groups'.flatten := by
  have hm : ∀ kv : Str × Str, modifierFlag kv ≠ [] := by
    intro kv h
    unfold modifierFlag at h
    simp at h
  refine ⟨if plugin.flags ≠ [] then [plugin.flags] else [],
    [(o.ord (site ++ [s%"modifiers"]) (modifiersFor o site ps d plugin)).map modifierFlag,
      if ps.config.compile.includeWellKnownTypes then
        (o.ord (site ++ [s%"wktModifiers"]) (wktModifiers plugin.type)).map modifierFlag else [],
      (o.ord (site ++ [s%"ExtraModifiers"]) ps.config.gen.extraModifiers).map modifierFlag],
    [(o'.ord (site ++ [s%"modifiers"]) (modifiersFor o' site ps' d plugin)).map modifierFlag,
      if ps.config.compile.includeWellKnownTypes then
        (o'.ord (site ++ [s%"wktModifiers"]) (wktModifiers plugin.type)).map modifierFlag else [],
      (o'.ord (site ++ [s%"ExtraModifiers"]) ps.config.gen.extraModifiers).map modifierFlag], ?_, ?_, ?_, ?_⟩
  · refine .cons ?_ (.cons ?_ (.cons ?_ .nil))
    · exact (((o'.perm _ _).trans (modifiersFor_alike hs o o' site site d plugin)).trans (o.perm _ _).symm).map _
    · split
      · exact ((o'.perm _ _).trans (o.perm _ _).symm).map _
      · exact .refl _
    · exact ((o'.perm _ _).trans (o.perm _ _).symm).map _
  · intro x hx
    rcases List.mem_append.1 hx with hx | hx
    · split at hx
      · rename_i hne
        cases List.mem_singleton.1 hx
        exact hne
      · cases hx
    · obtain ⟨g, hg, hx⟩ := List.mem_flatten.1 hx
      have : ∃ kv, modifierFlag kv = x := by
        simp only [List.mem_cons, List.not_mem_nil, or_false] at hg
        rcases hg with rfl | rfl | rfl
        · obtain ⟨kv, _, e⟩ := List.mem_map.1 hx; exact ⟨kv, e⟩
        · split at hx
          · obtain ⟨kv, _, e⟩ := List.mem_map.1 hx; exact ⟨kv, e⟩
          · cases hx
        · obtain ⟨kv, _, e⟩ := List.mem_map.1 hx; exact ⟨kv, e⟩
      obtain ⟨kv, rfl⟩ := this
      exact hm kv
  · unfold goFlags
    cases ps.config.compile.includeWellKnownTypes <;> simp
  · unfold goFlags
    rw [hs.config]
    cases ps.config.compile.includeWellKnownTypes <;> simp

theorem join_nil_iff {l : List Str} (h : ∀ x ∈ l, x ≠ []) : join s%"," l = [] ↔ l = [] := by
  constructor
  · intro e
    match l, h, e with
    | [], _, _ => rfl
    | [w], h, e => exact absurd e (h w (by simp))
    | w :: x :: l, _, e => simp [join] at e
  · rintro rfl; rfl

theorem flatten_perm {α : Type} {a b : List (List α)} (h : Pointwise (fun g g' => g'.Perm g) a b) :
    b.flatten.Perm a.flatten := by
  induction h with
  | nil => exact .refl _
  | cons h1 _ ih => exact h1.append ih

theorem pointwise_refl {α : Type} {R : α → α → Prop} (h : ∀ a, R a a) : ∀ l : List α, Pointwise R l l
  | [] => .nil
  | a :: l => .cons (h a) (pointwise_refl h l)

theorem pointwise_flatten {α β : Type} {R : α → β → Prop} {a : List (List α)} {b : List (List β)}
    (h : Pointwise (Pointwise R) a b) : Pointwise R a.flatten b.flatten := by
  induction h with
  | nil => exact .nil
  | cons h1 _ ih => exact pointwise_append h1 ih

section
variable {t t' : Toolchain} (s : SameToolchain t t') {ps ps' : ProtoSet} (hs : SameSet ps ps') {c : Options}
  (disk : Disk)
include s hs

theorem pluginFlagSet_alike (site : Site) (d : Str) (plugin : GenPlugin) :
    SameResult (Pointwise SameFlag) (getPluginFlagSet (t.env disk) site ps d plugin)
      (getPluginFlagSet (t'.env disk) site ps' d plugin) := by
  have hpp : (t'.env disk).pluginPath = (t.env disk).pluginPath := by rw [s.env]
  have ho : outputPathFor ps' d plugin = outputPathFor ps d plugin := by
    unfold outputPathFor getRelOutputFilePath
    rw [hs.config]
  have refl : ∀ l : List Str, Pointwise SameFlag l l := pointwise_refl fun _ => .inl rfl
  have rest : ∀ (a a' : Str), SameFlag a a' →
      SameResult (Pointwise SameFlag)
        (match (t.env disk).pluginPath plugin with
        | .error e => (.error e : Except Err (List Str))
        | .ok path =>
          let flagSet :=
            if path ≠ [] then [a] ++ [s%"--plugin=protoc-gen-" ++ plugin.name ++ s%"=" ++ path] else [a]
          let flagSet := if plugin.includeImports then flagSet ++ [s%"--include_imports"] else flagSet
          .ok (if plugin.includeSourceInfo then flagSet ++ [s%"--include_source_info"] else flagSet))
        (match (t.env disk).pluginPath plugin with
        | .error e => (.error e : Except Err (List Str))
        | .ok path =>
          let flagSet :=
            if path ≠ [] then [a'] ++ [s%"--plugin=protoc-gen-" ++ plugin.name ++ s%"=" ++ path] else [a']
          let flagSet := if plugin.includeImports then flagSet ++ [s%"--include_imports"] else flagSet
          .ok (if plugin.includeSourceInfo then flagSet ++ [s%"--include_source_info"] else flagSet)) := by
    intro a a' ha
    cases (t.env disk).pluginPath plugin with
    | error e => trivial
    | ok path =>
      dsimp only
      have h0 : Pointwise SameFlag [a] [a'] := .cons ha .nil
      generalize hl : [a] = l at h0
      generalize hl' : [a'] = l' at h0
      by_cases h1 : path ≠ [] <;> by_cases h2 : plugin.includeImports = true <;>
        by_cases h3 : plugin.includeSourceInfo = true <;>
        simp only [h1, h2, h3, if_true, if_false, Bool.false_eq_true, ne_eq, not_true_eq_false, not_false_eq_true] <;>
        first
        | exact h0
        | exact pointwise_append h0 (refl _)
        | exact pointwise_append (pointwise_append h0 (refl _)) (refl _)
        | exact pointwise_append (pointwise_append (pointwise_append h0 (refl _)) (refl _)) (refl _)
  unfold getPluginFlagSet
  rw [hpp, ho]
  have hflag : SameResult (fun x x' : Str => x' = x ∨ ∃ (first : List Str) (groups groups' : List (List Str)),
      Pointwise (fun g g' => g'.Perm g) groups groups' ∧ x.length > 0 ∧ x'.length > 0 ∧
      x = join s%"," (first ++ groups.flatten) ∧ x' = join s%"," (first ++ groups'.flatten))
      (getPluginFlagSetProtoFlags (t.env disk).order site ps d plugin)
      (getPluginFlagSetProtoFlags (t'.env disk).order site ps' d plugin) := by
    unfold getPluginFlagSetProtoFlags
    split
    · exact .inl rfl
    · split
      · trivial
      · obtain ⟨first, groups, groups', h1, h2, h3, h4⟩ :=
          goFlags_alike hs (t.env disk).order (t'.env disk).order site d plugin
        rw [h3, h4]
        have hp : (first ++ groups'.flatten).Perm (first ++ groups.flatten) := (List.Perm.refl _).append (flatten_perm h1)
        have h2' : ∀ x ∈ first ++ groups'.flatten, x ≠ [] := fun x hx => h2 x (hp.mem_iff.1 hx)
        by_cases hz : first ++ groups.flatten = []
        · have hz' : first ++ groups'.flatten = [] := List.Perm.eq_nil (hz ▸ hp)
          rw [hz, hz']
          exact .inl rfl
        · have hz' : first ++ groups'.flatten ≠ [] := fun e => hz (List.Perm.eq_nil (e ▸ hp.symm))
          exact .inr ⟨first, groups, groups', h1,
            List.length_pos_iff.2 fun e => hz ((join_nil_iff h2).1 e),
            List.length_pos_iff.2 fun e => hz' ((join_nil_iff h2').1 e), rfl, rfl⟩
  revert hflag
  cases getPluginFlagSetProtoFlags (t.env disk).order site ps d plugin with
  | error e =>
    cases getPluginFlagSetProtoFlags (t'.env disk).order site ps' d plugin with
    | error e' => exact fun _ => trivial
    | ok x' => exact fun h => h.elim
  | ok x =>
    cases getPluginFlagSetProtoFlags (t'.env disk).order site ps' d plugin with
    | error e' => exact fun h => h.elim
    | ok x' =>
      intro hx
      dsimp only
      cases outputPathFor ps d plugin with
      | error e => trivial
      | ok out =>
        dsimp only
        rcases hx with rfl | ⟨first, groups, groups', h1, h2, h3, rfl, rfl⟩
        · by_cases hz : x'.length > 0
          · rw [if_pos hz]
            exact rest _ _ (.inl rfl)
          · rw [if_neg hz]
            exact rest _ _ (.inl rfl)
        · rw [if_pos h2, if_pos h3]
          exact rest _ _ (.inr ⟨plugin.name, first, groups, groups', out, h1, rfl, rfl⟩)

theorem pluginFlagSets_alike (d : Str) :
    SameResult (Pointwise (Pointwise SameFlag)) (getPluginFlagSets (t.env disk) c ps d)
      (getPluginFlagSets (t'.env disk) c ps' d) := by
  unfold getPluginFlagSets
  rw [hs.config]
  split
  · exact .nil
  · generalize [s%"getPluginFlagSets", d] = site
    generalize ps.config.gen.plugins = plugins
    have : ∀ i, SameResult (Pointwise (Pointwise SameFlag)) (pluginFlagSetsFrom (t.env disk) site ps d i plugins)
        (pluginFlagSetsFrom (t'.env disk) site ps' d i plugins) := by
      induction plugins with
      | nil => intro i; exact .nil
      | cons p plugins ih =>
        intro i
        unfold pluginFlagSetsFrom
        have h1 := pluginFlagSet_alike s hs disk (site ++ [natStr i]) d p
        have h2 := ih (i + 1)
        cases e1 : getPluginFlagSet (t.env disk) (site ++ [natStr i]) ps d p <;>
          cases e2 : getPluginFlagSet (t'.env disk) (site ++ [natStr i]) ps' d p <;> rw [e1, e2] at h1
        · trivial
        · exact h1.elim
        · exact h1.elim
        · dsimp only
          cases e3 : pluginFlagSetsFrom (t.env disk) site ps d (i + 1) plugins <;>
            cases e4 : pluginFlagSetsFrom (t'.env disk) site ps' d (i + 1) plugins <;> rw [e3, e4] at h2
          · trivial
          · exact h2.elim
          · exact h2.elim
          · exact .cons h1 h2
    exact this 0

theorem forDir_alike (live live' : List Str) (d : Str) (fs : List ProtoFile) :
    (∃ l cmds l' cmds', cmdMetasForDir (t.env disk) c ps live d fs = (l, cmds, none) ∧
      cmdMetasForDir (t'.env disk) c ps' live' d fs = (l', cmds', none) ∧ Pointwise (Like ps ps') cmds cmds') ∨
    ((∃ e, (cmdMetasForDir (t.env disk) c ps live d fs).2.2 = some e) ∧
      ∃ e, (cmdMetasForDir (t'.env disk) c ps' live' d fs).2.2 = some e) := by
  have w : (t'.env disk).wktPath = (t.env disk).wktPath := by rw [s.env]
  have p : (t'.env disk).protocPath = (t.env disk).protocPath := by rw [s.env]
  have g : (t'.env disk).goos = (t.env disk).goos := by rw [s.env]
  unfold cmdMetasForDir
  simp only [hs.config, hs.workDirPath, w, p, g]
  cases getIncludes ((t.env disk).wktPath d) ps.config.compile d
      (if ps.config.dirPath = [] then ps.workDirPath else ps.config.dirPath) with
  | error e => exact .inr ⟨⟨_, rfl⟩, _, rfl⟩
  | ok includes =>
    dsimp only
    cases (t.env disk).protocPath d with
    | error e => exact .inr ⟨⟨_, rfl⟩, _, rfl⟩
    | ok protocPath =>
      dsimp only
      have refl : ∀ l : List Str, Pointwise SameFlag l l := pointwise_refl fun _ => .inl rfl
      -- what follows the first command
      have rest : ∀ (live live' : List Str) (cmds cmds' : List CmdMeta), Pointwise (Like ps ps') cmds cmds' →
          (∃ l r l' r',
            (match getPluginFlagSets (t.env disk) c ps d with
              | .error e => (live, cmds, some e)
              | .ok flagSets => (live, cmds ++ flagSets.map fun flagSet => (⟨protocPath,
                includeArgs includes ++ flagSet ++ fs.map (·.path), ps, d, fs, []⟩ : CmdMeta), none) : Made) =
              (l, r, none) ∧
            (match getPluginFlagSets (t'.env disk) c ps' d with
              | .error e => (live', cmds', some e)
              | .ok flagSets => (live', cmds' ++ flagSets.map fun flagSet => (⟨protocPath,
                includeArgs includes ++ flagSet ++ fs.map (·.path), ps', d, fs, []⟩ : CmdMeta), none) : Made) =
              (l', r', none) ∧ Pointwise (Like ps ps') r r') ∨
          ((∃ e, (match getPluginFlagSets (t.env disk) c ps d with
              | .error e => (live, cmds, some e)
              | .ok flagSets => (live, cmds ++ flagSets.map fun flagSet => (⟨protocPath,
                includeArgs includes ++ flagSet ++ fs.map (·.path), ps, d, fs, []⟩ : CmdMeta), none) : Made).2.2 = some e) ∧
            ∃ e, (match getPluginFlagSets (t'.env disk) c ps' d with
              | .error e => (live', cmds', some e)
              | .ok flagSets => (live', cmds' ++ flagSets.map fun flagSet => (⟨protocPath,
                includeArgs includes ++ flagSet ++ fs.map (·.path), ps', d, fs, []⟩ : CmdMeta), none) : Made).2.2 = some e) := by
        intro live live' cmds cmds' hl
        have hf := pluginFlagSets_alike s hs (c := c) disk d
        cases e1 : getPluginFlagSets (t.env disk) c ps d <;>
          cases e2 : getPluginFlagSets (t'.env disk) c ps' d <;> rw [e1, e2] at hf
        · exact .inr ⟨⟨_, rfl⟩, _, rfl⟩
        · exact hf.elim
        · exact hf.elim
        · refine .inl ⟨_, _, _, _, rfl, rfl, pointwise_append hl (Protoc.pointwise_map _ _ ?_ hf)⟩
          intro a b hab
          exact ⟨⟨rfl, .inr (pointwise_append (pointwise_append (refl _) hab) (refl _))⟩, rfl, rfl, rfl, rfl, Iff.rfl⟩
      by_cases hd : c.doFileDescriptorSet = true
      · simp only [hd, if_true]
        have ht := s.temp disk live live'
        cases h1 : (t.env disk).tempFile live <;> cases h2 : (t'.env disk).tempFile live' <;>
          rw [h1, h2] at ht
        · exact .inr ⟨⟨_, rfl⟩, _, rfl⟩
        · exact ht.elim
        · exact ht.elim
        · rename_i p p'
          refine rest _ _ _ _ (.cons ⟨⟨rfl, .inl ⟨includes, p, p', setArgs c ++ fs.map (·.path), ?_, ?_⟩⟩, rfl, rfl,
            rfl, rfl, ⟨fun e => absurd e ht.1, fun e => absurd e ht.2⟩⟩ .nil)
          · simp [includeArgs]
          · simp [includeArgs]
      · simp only [hd, Bool.false_eq_true, if_false]
        by_cases hg : (c.doGen && ps.config.gen.plugins.length > 0) = true
        · simp only [hg, if_true]
          exact rest _ _ _ _ .nil
        · simp only [hg, Bool.false_eq_true, if_false]
          cases devNull (t.env disk).goos with
          | error e => exact .inr ⟨⟨_, rfl⟩, _, rfl⟩
          | ok out =>
            exact rest _ _ _ _ (.cons ⟨⟨rfl, .inr (refl _)⟩, rfl, rfl, rfl, rfl, Iff.rfl⟩ .nil)

omit hs in
theorem loop_ok (f : SameSet ps ps') : ∀ (ds : List (Str × List ProtoFile)) (live : List Str) (cmds : List CmdMeta) (l : List Str)
    (r : List CmdMeta), cmdMetasLoop (t.env disk) c ps ds live cmds = (l, r, none) →
      ∃ added, r = cmds ++ added.flatten ∧
        Pointwise (One (t.env disk) c ps) (ds.filter fun d => hasPrefix d.1 ps.dirPath) added := by
  intro ds
  induction ds with
  | nil =>
    intro live cmds l r h
    cases h
    exact ⟨[], by simp, .nil⟩
  | cons d ds ih =>
    intro live cmds l r h
    unfold cmdMetasLoop at h
    by_cases hp : hasPrefix d.1 ps.dirPath = true
    · rw [if_neg (by simp [hp])] at h
      rw [List.filter_cons_of_pos (p := fun d : Str × List ProtoFile => hasPrefix d.1 ps.dirPath) hp]
      rcases forDir_alike s f (c := c) disk live [] d.1 d.2 with ⟨l1, new, _, _, e, _, _⟩ | ⟨⟨e, he⟩, _⟩
      · rw [e] at h
        dsimp only at h
        obtain ⟨added, h1, h2⟩ := ih _ _ _ _ h
        exact ⟨new :: added, by rw [h1]; simp, .cons ⟨_, _, e⟩ h2⟩
      · rcases hx : cmdMetasForDir (t.env disk) c ps live d.1 d.2 with ⟨l1, x, o⟩
        rw [hx] at he h
        dsimp only at he
        subst he
        cases h
    · rw [if_pos (by simp [hp])] at h
      rw [List.filter_cons_of_neg (p := fun d : Str × List ProtoFile => hasPrefix d.1 ps.dirPath) hp]
      exact ih _ _ _ _ h

theorem loop_ok' : ∀ (ds : List (Str × List ProtoFile)) (live : List Str) (cmds : List CmdMeta) (l : List Str)
    (r : List CmdMeta), cmdMetasLoop (t'.env disk) c ps' ds live cmds = (l, r, none) →
      ∃ added, r = cmds ++ added.flatten ∧
        Pointwise (One (t'.env disk) c ps') (ds.filter fun d => hasPrefix d.1 ps.dirPath) added := by
  intro ds
  induction ds with
  | nil =>
    intro live cmds l r h
    cases h
    exact ⟨[], by simp, .nil⟩
  | cons d ds ih =>
    intro live cmds l r h
    unfold cmdMetasLoop at h
    rw [hs.dirPath] at h
    by_cases hp : hasPrefix d.1 ps.dirPath = true
    · rw [if_neg (by simp [hp])] at h
      rw [List.filter_cons_of_pos (p := fun d : Str × List ProtoFile => hasPrefix d.1 ps.dirPath) hp]
      rcases forDir_alike s hs (c := c) disk [] live d.1 d.2 with ⟨_, _, l1, new, _, e, _⟩ | ⟨_, e, he⟩
      · rw [e] at h
        dsimp only at h
        obtain ⟨added, h1, h2⟩ := ih _ _ _ _ h
        exact ⟨new :: added, by rw [h1]; simp, .cons ⟨_, _, e⟩ h2⟩
      · rcases hx : cmdMetasForDir (t'.env disk) c ps' live d.1 d.2 with ⟨l1, x, o⟩
        rw [hx] at he h
        dsimp only at he
        subst he
        cases h
    · rw [if_pos (by simp [hp])] at h
      rw [List.filter_cons_of_neg (p := fun d : Str × List ProtoFile => hasPrefix d.1 ps.dirPath) hp]
      exact ih _ _ _ _ h

omit s hs in
theorem loop_succeeds {env : Env} : ∀ (ds : List (Str × List ProtoFile)) (live : List Str) (cmds : List CmdMeta),
    (∀ d ∈ ds, hasPrefix d.1 ps.dirPath = true → ∀ live, (cmdMetasForDir env c ps live d.1 d.2).2.2 = none) →
      ∃ l r, cmdMetasLoop env c ps ds live cmds = (l, r, none) := by
  intro ds
  induction ds with
  | nil => intro live cmds _; exact ⟨_, _, rfl⟩
  | cons d ds ih =>
    intro live cmds h
    unfold cmdMetasLoop
    by_cases hp : hasPrefix d.1 ps.dirPath = true
    · rw [if_neg (by simp [hp])]
      have := h d (by simp) hp live
      rcases hx : cmdMetasForDir env c ps live d.1 d.2 with ⟨l1, x, o⟩
      rw [hx] at this
      dsimp only at this ⊢
      subst this
      exact ih _ _ fun x hx => h x (by simp [hx])
    · rw [if_pos (by simp [hp])]
      exact ih _ _ fun x hx => h x (by simp [hx])

theorem commands_alike (live live' : List Str) :
    (∃ l cmds l' cmds' b, getCmdMetas (t.env disk) c ps live = (l, .ok cmds) ∧
      getCmdMetas (t'.env disk) c ps' live' = (l', .ok cmds') ∧ b.Perm cmds' ∧
      Pointwise (Like ps ps') cmds b) ∨
    ((∃ l e, getCmdMetas (t.env disk) c ps live = (l, .error e)) ∧
      ∃ l' e, getCmdMetas (t'.env disk) c ps' live' = (l', .error e)) := by
  have hdl : (t'.env disk).download = (t.env disk).download := by rw [s.env]
  unfold getCmdMetas
  rw [hdl]
  cases (t.env disk).download with
  | error e => exact .inr ⟨⟨_, _, rfl⟩, _, _, rfl⟩
  | ok u =>
    dsimp only
    have hp1 := (t.env disk).order.perm [s%"getCmdMetas"] ps.dirPathToFiles
    have hp2 := (t'.env disk).order.perm [s%"getCmdMetas"] ps'.dirPathToFiles
    generalize (t.env disk).order.ord [s%"getCmdMetas"] ps.dirPathToFiles = ds at hp1 ⊢
    generalize (t'.env disk).order.ord [s%"getCmdMetas"] ps'.dirPathToFiles = ds' at hp2 ⊢
    have hp : ds'.Perm ds := (hp2.trans hs.dirs).trans hp1.symm
    rcases h1 : cmdMetasLoop (t.env disk) c ps ds live [] with ⟨l, cmds, o⟩
    rcases h2 : cmdMetasLoop (t'.env disk) c ps' ds' live' [] with ⟨l', cmds', o'⟩
    cases o with
    | none =>
      obtain ⟨x, e1, hx⟩ := loop_ok s disk hs _ _ _ _ _ h1
      rw [List.nil_append] at e1
      subst e1
      have hgood : ∀ d ∈ ds', hasPrefix d.1 ps'.dirPath = true → ∀ live,
          (cmdMetasForDir (t'.env disk) c ps' live d.1 d.2).2.2 = none := by
        intro d hd hpre live
        rw [hs.dirPath] at hpre
        obtain ⟨cmd, _, live0, l0, e0⟩ := pointwise_left hx d (List.mem_filter.2 ⟨hp.mem_iff.1 hd, hpre⟩)
        rcases forDir_alike s hs (c := c) disk live0 live d.1 d.2 with ⟨_, _, _, _, _, e, _⟩ | ⟨⟨e, he⟩, _⟩
        · rw [e]
        · rw [e0] at he; cases he
      obtain ⟨l2, r2, e2⟩ := loop_succeeds ds' live' [] hgood
      rw [h2] at e2
      cases e2
      obtain ⟨x', e1', hx'⟩ := loop_ok' s hs disk _ _ _ _ _ h2
      rw [List.nil_append] at e1'
      subst e1'
      obtain ⟨b, hb1, hb2⟩ := Lint.pointwise_perm (hp.filter _) hx'
      refine .inl ⟨l, x.flatten, l', x'.flatten, b.flatten, rfl, rfl, hb1.flatten, pointwise_flatten ?_⟩
      clear h1 h2 hb1 hx'
      generalize (ds.filter fun d => hasPrefix d.1 ps.dirPath) = fs at hx hb2
      induction hx generalizing b with
      | nil => cases hb2; exact .nil
      | cons h _ ih =>
        cases hb2 with
        | cons h' hb2 =>
          refine .cons ?_ (ih _ hb2)
          obtain ⟨lv, l, e⟩ := h
          obtain ⟨lv', l', e'⟩ := h'
          rcases forDir_alike s hs (c := c) disk lv lv' _ _ with ⟨_, _, _, _, x1, x2, x3⟩ | ⟨⟨_, x1⟩, _⟩
          · rw [e] at x1
            rw [e'] at x2
            cases x1
            cases x2
            exact x3
          · rw [e] at x1
            cases x1
    | some e =>
      refine .inr ⟨⟨_, _, rfl⟩, ?_⟩
      cases o' with
      | some e' => exact ⟨_, _, rfl⟩
      | none =>
        exfalso
        obtain ⟨x, _, hx⟩ := loop_ok' s hs disk _ _ _ _ _ h2
        have hgood : ∀ d ∈ ds, hasPrefix d.1 ps.dirPath = true → ∀ live,
            (cmdMetasForDir (t.env disk) c ps live d.1 d.2).2.2 = none := by
          intro d hd hpre live
          obtain ⟨cmd, _, live0, l0, e0⟩ := pointwise_left hx d (List.mem_filter.2 ⟨hp.mem_iff.2 hd, hpre⟩)
          rcases forDir_alike s hs (c := c) disk live live0 d.1 d.2 with ⟨_, _, _, _, e, _, _⟩ | ⟨_, e, he⟩
          · rw [e]
          · rw [e0] at he; cases he
        obtain ⟨l2, r2, e2⟩ := loop_succeeds ds live [] hgood
        rw [h1] at e2
        cases e2
end

/-! ### The directories for generated files -/

theorem genDirsFor_goes {ps : ProtoSet} {plugin : GenPlugin} : ∀ (ds : List (Str × List ProtoFile)) (acc : List Str),
    (∃ dirs, genDirsFor ps plugin ds acc = .ok dirs) ↔
      ∀ d ∈ ds, hasPrefix d.1 ps.dirPath = true → ∃ r, getRelOutputFilePath ps d.1 plugin.fileSuffix = .ok r := by
  intro ds
  induction ds with
  | nil => intro acc; exact ⟨fun _ _ h => (nomatch h), fun _ => ⟨_, rfl⟩⟩
  | cons d ds ih =>
    intro acc
    unfold genDirsFor
    by_cases hp : hasPrefix d.1 ps.dirPath = true
    · rw [if_neg (by simp [hp])]
      cases hr : getRelOutputFilePath ps d.1 plugin.fileSuffix with
      | error e =>
        constructor
        · rintro ⟨_, h⟩; cases h
        · intro h
          obtain ⟨r, h⟩ := h d (by simp) hp
          rw [hr] at h; cases h
      | ok r =>
        dsimp only
        rw [ih]
        constructor
        · intro h x hx hp
          rcases List.mem_cons.1 hx with rfl | hx
          · exact ⟨r, hr⟩
          · exact h x hx hp
        · exact fun h x hx => h x (by simp [hx])
    · rw [if_pos (by simp [hp]), ih]
      constructor
      · intro h x hx hp'
        rcases List.mem_cons.1 hx with rfl | hx
        · exact absurd hp' hp
        · exact h x hx hp'
      · exact fun h x hx => h x (by simp [hx])

theorem genDirs_goes {o : Order} {ps : ProtoSet} : ∀ (plugins : List GenPlugin) (i : Nat) (acc : List Str),
    (∃ dirs, genDirs o ps i plugins acc = .ok dirs) ↔
      ∀ plugin ∈ plugins, plugin.fileSuffix ≠ [] → ∀ d ∈ ps.dirPathToFiles, hasPrefix d.1 ps.dirPath = true →
        ∃ r, getRelOutputFilePath ps d.1 plugin.fileSuffix = .ok r := by
  intro plugins
  induction plugins with
  | nil => intro i acc; exact ⟨fun _ _ h => (nomatch h), fun _ => ⟨_, rfl⟩⟩
  | cons p plugins ih =>
    intro i acc
    unfold genDirs
    by_cases hz : p.fileSuffix = []
    · rw [if_pos hz, ih]
      constructor
      · intro h q hq hne
        rcases List.mem_cons.1 hq with rfl | hq
        · exact absurd hz hne
        · exact h q hq hne
      · exact fun h q hq => h q (by simp [hq])
    · rw [if_neg hz]
      have hp := o.perm [s%"makeGenDirs", natStr i] ps.dirPathToFiles
      have hgo := genDirsFor_goes (ps := ps) (plugin := p) (o.ord [s%"makeGenDirs", natStr i] ps.dirPathToFiles) acc
      simp only [hp.mem_iff] at hgo
      cases hr : genDirsFor ps p (o.ord [s%"makeGenDirs", natStr i] ps.dirPathToFiles) acc with
      | error e =>
        constructor
        · rintro ⟨_, h⟩; cases h
        · intro h
          obtain ⟨r, h⟩ := hgo.2 (h p (by simp) hz)
          rw [hr] at h; cases h
      | ok dirs =>
        dsimp only
        rw [ih]
        constructor
        · intro h q hq hne
          rcases List.mem_cons.1 hq with rfl | hq
          · exact hgo.1 ⟨_, hr⟩
          · exact h q hq hne
        · exact fun h q hq => h q (by simp [hq])

theorem mkdirs_goes {mk : Str → Except Err Unit} : ∀ l : List Str, (mkdirs mk l).2 = none ↔ ∀ d ∈ l, mk d = .ok () := by
  intro l
  induction l with
  | nil => exact ⟨fun _ _ h => (nomatch h), fun _ => rfl⟩
  | cons d ds ih =>
    unfold mkdirs
    cases hd : mk d with
    | error e => simp [hd]
    | ok u => simp [hd, ih]

/-- The directories can be made if none is too high up and each can be made. -/
theorem makeGenDirs_goes {env : Env} {ps : ProtoSet} : (makeGenDirs env ps).2 = none ↔
    (∀ plugin ∈ ps.config.gen.plugins, plugin.fileSuffix ≠ [] → ∀ d ∈ ps.dirPathToFiles,
      hasPrefix d.1 ps.dirPath = true → ∃ r, getRelOutputFilePath ps d.1 plugin.fileSuffix = .ok r) ∧
    ∀ x, (∃ p ∈ ps.config.gen.plugins, NeedsDir ps p x) → env.mkdirAll x = .ok () := by
  unfold makeGenDirs
  have hgo := genDirs_goes (o := env.order) (ps := ps) ps.config.gen.plugins 0 []
  cases hr : genDirs env.order ps 0 ps.config.gen.plugins [] with
  | error e =>
    constructor
    · intro h; cases h
    · intro h
      obtain ⟨r, h⟩ := hgo.2 h.1
      rw [hr] at h; cases h
  | ok dirs =>
    dsimp only
    rw [mkdirs_goes]
    have hm := mem_genDirs hr
    simp only [(env.order.perm [s%"makeGenDirs"] dirs).mem_iff, hm, List.not_mem_nil, false_or]
    exact ⟨fun h => ⟨hgo.1 ⟨_, hr⟩, h⟩, fun h => h.2⟩

theorem needsDir_alike {ps ps' : ProtoSet} (hs : SameSet ps ps') (p : GenPlugin) (x : Str) :
    NeedsDir ps' p x ↔ NeedsDir ps p x := by
  unfold NeedsDir getRelOutputFilePath
  simp only [hs.config, hs.dirPath, hs.dirs.mem_iff]

theorem dirs_alike {t t' : Toolchain} (s : SameToolchain t t') {ps ps' : ProtoSet} (hs : SameSet ps ps') (disk : Disk) :
    (makeGenDirs (t'.env disk) ps').2 = none ↔ (makeGenDirs (t.env disk) ps).2 = none := by
  have hm : (t'.env disk).mkdirAll = (t.env disk).mkdirAll := by rw [s.env]
  have hg : ∀ d suffix, getRelOutputFilePath ps' d suffix = getRelOutputFilePath ps d suffix := by
    intro d suffix
    unfold getRelOutputFilePath
    rw [hs.config]
  rw [makeGenDirs_goes, makeGenDirs_goes]
  simp only [hm, hg, hs.config, hs.dirPath, hs.dirs.mem_iff, needsDir_alike hs]

/-- Compiling the same files gives the same failures and the same descriptor sets. -/
theorem uses_alike {h h' : Host} {t t' : Toolchain} (u : Uses h t) (u' : Uses h' t') (s : SameToolchain t t')
    (flags : CompileFlags) (disk : Disk) {ps ps' : ProtoSet} (hs : SameSet ps ps') :
    SameResult (fun r r' => r'.1 = r.1 ∧ r'.2.Perm r.2) (h.compile flags disk ps) (h'.compile flags disk ps') := by
  obtain ⟨ended, l, r, h1, h2, h3⟩ := u.compile flags disk ps
  obtain ⟨ended', l', r', h1', h2', h3'⟩ := u'.compile flags disk ps'
  rw [h3, h3']
  rcases commands_alike s hs (c := compilerOptions flags) disk (t.live disk) (t'.live disk) with
    ⟨lv, cmds, lv', cmds', b, e, e', hb, hl⟩ | ⟨⟨_, _, e⟩, _, _, e'⟩
  · by_cases hnd : (compilerOptions flags).doGen = true ∧ (makeGenDirs (t.env disk) ps).2 ≠ none
    · have hnd' : (makeGenDirs (t'.env disk) ps').2 ≠ none := fun hx => hnd.2 ((dirs_alike s hs disk).1 hx)
      cases h1 with
      | noCommands x => rw [e] at x; cases x
      | ran x hy => exact absurd (hy hnd.1) hnd.2
      | noDirs _ _ _ =>
        cases h1' with
        | noCommands x => rw [e'] at x; cases x
        | ran x hy => exact absurd (hy hnd.1) hnd'
        | noDirs _ _ _ => trivial
    have hdirs : (compilerOptions flags).doGen = true → (makeGenDirs (t.env disk) ps).2 = none := fun hx =>
      Classical.byContradiction fun hy => hnd ⟨hx, hy⟩
    have hc := h2 cmds ⟨_, e⟩
    have hc' := h2' cmds' ⟨_, e'⟩
    obtain ⟨a1, a2, a3⟩ := C42_outcome h1 e hdirs
    obtain ⟨b1, b2, b3⟩ := C42_outcome h1' e' fun hx => (dirs_alike s hs disk).2 (hdirs hx)
    obtain ⟨r1, r2⟩ := results_eq (t := t) (disk := disk) hc
    obtain ⟨r1', r2'⟩ := results_eq (t := t') (disk := disk) hc'
    have hrun : ∀ {cmd cmd'}, cmd ∈ cmds → cmd' ∈ cmds' → Like ps ps' cmd cmd' →
        runCmdMeta cmd' (t'.protoc disk cmd') = runCmdMeta cmd (t.protoc disk cmd) := by
      intro cmd cmd' hm hm' hk
      rw [s.protoc flags disk ps ps' cmds cmds' hs ⟨_, e⟩ ⟨_, e'⟩ cmd hm cmd' hm' hk.command]
      exact runCmdMeta_alike hk.files (by rw [hk.set, hk.set', hs.config]) _
    have hflat : ∀ {α : Type} (f : List Text.Failure × Option Err → List α),
        (cmds'.flatMap fun cmd => f (runCmdMeta cmd (t'.protoc disk cmd))).Perm
          (cmds.flatMap fun cmd => f (runCmdMeta cmd (t.protoc disk cmd))) := by
      intro α f
      refine (hb.flatMap_right _).symm.trans (List.Perm.of_eq ?_)
      have : ∀ (x y : List CmdMeta), Pointwise (Like ps ps') x y → (∀ m ∈ x, m ∈ cmds) → (∀ m ∈ y, m ∈ cmds') →
          (y.flatMap fun cmd => f (runCmdMeta cmd (t'.protoc disk cmd))) =
            x.flatMap fun cmd => f (runCmdMeta cmd (t.protoc disk cmd)) := by
        intro x y hxy
        induction hxy with
        | nil => intro _ _; rfl
        | cons hk _ ih =>
          intro m1 m2
          rw [List.flatMap_cons, List.flatMap_cons, hrun (m1 _ (by simp)) (m2 _ (by simp)) hk,
            ih (fun m hm => m1 m (by simp [hm])) (fun m hm => m2 m (by simp [hm]))]
      exact this cmds b hl (fun _ hm => hm) fun _ hm => hb.mem_iff.1 hm
    have hE : (allErrors cmds' ended').Perm (allErrors cmds ended) := by
      rw [r1, r1']
      exact hflat fun r => r.2.toList
    have hF : (allFailures cmds' ended').Perm (allFailures cmds ended) := by
      rw [r2, r2']
      exact hflat fun r => r.1
    by_cases z : allErrors cmds ended = []
    · have z' : allErrors cmds' ended' = [] := List.Perm.eq_nil (z ▸ hE)
      by_cases y : allFailures cmds ended = []
      · have y' : allFailures cmds' ended' = [] := List.Perm.eq_nil (y ▸ hF)
        obtain ⟨c1, c2⟩ := a3 z y
        obtain ⟨d1, d2⟩ := b3 z' y'
        -- the sets of a command and its twin
        have htwin : ∀ cmd ∈ cmds, ∃ cmd' ∈ cmds', Like ps ps' cmd cmd' := fun cmd hm => by
          obtain ⟨cmd', hm', hk⟩ := pointwise_left hl cmd hm
          exact ⟨cmd', hb.mem_iff.1 hm', hk⟩
        have htwin' : ∀ cmd' ∈ cmds', ∃ cmd ∈ cmds, Like ps ps' cmd cmd' := fun cmd hm =>
          pointwise_right hl cmd (hb.mem_iff.2 hm)
        have hset : ∀ cmd ∈ cmds, ∀ cmd' ∈ cmds', Like ps ps' cmd cmd' → cmd.descriptorSetTempFilePath ≠ [] →
            SameResult (fun s s' => s' = s) ((t.env disk).readSet cmd.descriptorSetTempFilePath)
              ((t'.env disk).readSet cmd'.descriptorSetTempFilePath) := fun cmd hm cmd' hm' hk hne =>
          s.sets flags disk ps ps' cmds cmds' hs ⟨_, e⟩ ⟨_, e'⟩ cmd hm cmd' hm' hk.dirPath hne
            fun hz => hne (hk.temp.2 hz)
        by_cases bad : ∃ m ∈ cmds, m.descriptorSetTempFilePath ≠ [] ∧
            ∃ e, (t.env disk).readSet m.descriptorSetTempFilePath = .error e
        · obtain ⟨x, hx⟩ := c2 bad
          obtain ⟨m, hm, hne, er, her⟩ := bad
          obtain ⟨m', hm', hk⟩ := htwin m hm
          have := hset m hm m' hm' hk hne
          rw [her] at this
          obtain ⟨x', hx'⟩ := d2 ⟨m', hm', fun hz => hne (hk.temp.2 hz), by
            cases hq : (t'.env disk).readSet m'.descriptorSetTempFilePath with
            | error e => exact ⟨e, rfl⟩
            | ok v => rw [hq] at this; exact this.elim⟩
          rw [hx, hx']
          trivial
        · have bad' : ¬ ∃ m ∈ cmds', m.descriptorSetTempFilePath ≠ [] ∧
              ∃ e, (t'.env disk).readSet m.descriptorSetTempFilePath = .error e := by
            rintro ⟨m', hm', hne, er, her⟩
            obtain ⟨m, hm, hk⟩ := htwin' m' hm'
            have hne' : m.descriptorSetTempFilePath ≠ [] := fun hz => hne (hk.temp.1 hz)
            have := hset m hm m' hm' hk hne'
            rw [her] at this
            cases hq : (t.env disk).readSet m.descriptorSetTempFilePath with
            | error e => exact bad ⟨m, hm, hne', e, hq⟩
            | ok v => rw [hq] at this; exact this.elim
          let content : Env → Str → Descriptor.FileSet := fun env p =>
            match env.readSet p with
            | .ok v => v
            | .error _ => []
          have hcont : ∀ (env : Env) (l : List CmdMeta), (¬ ∃ m ∈ l, m.descriptorSetTempFilePath ≠ [] ∧
              ∃ e, env.readSet m.descriptorSetTempFilePath = .error e) → ∀ m ∈ l,
              m.descriptorSetTempFilePath ≠ [] →
                env.readSet m.descriptorSetTempFilePath = .ok (content env m.descriptorSetTempFilePath) := by
            intro env l hbad m hm hne
            show _ = Except.ok (match env.readSet m.descriptorSetTempFilePath with
              | .ok v => v
              | .error _ => [])
            cases hq : env.readSet m.descriptorSetTempFilePath with
            | error e => exact absurd ⟨m, hm, hne, e, hq⟩ hbad
            | ok v => rfl
          have hx := c1 (content (t.env disk)) (hcont _ _ bad)
          have hx' := d1 (content (t'.env disk)) (hcont _ _ bad')
          rw [hx, hx']
          refine ⟨rfl, ?_⟩
          simp only [List.map_map, Function.comp_def]
          refine ((hb.filter _).map _).symm.trans (List.Perm.of_eq ?_)
          have hmem : (∀ x ∈ cmds, x ∈ cmds) ∧ ∀ x ∈ b, x ∈ cmds' := ⟨fun _ h => h, fun _ h => hb.mem_iff.1 h⟩
          revert hmem
          have : ∀ (l : List CmdMeta) (b : List CmdMeta), Pointwise (Like ps ps') l b → (∀ x ∈ l, x ∈ cmds) →
              (∀ x ∈ b, x ∈ cmds') →
              ((b.filter (·.descriptorSetTempFilePath ≠ [])).map fun m =>
                  content (t'.env disk) m.descriptorSetTempFilePath) =
                (l.filter (·.descriptorSetTempFilePath ≠ [])).map fun m =>
                  content (t.env disk) m.descriptorSetTempFilePath := by
            intro l b hp
            induction hp with
            | nil => intro _ _; rfl
            | @cons cmd cmd' as bs hk _ ih =>
              intro m1 m2
              have ih := ih (fun x hx => m1 x (by simp [hx])) (fun x hx => m2 x (by simp [hx]))
              by_cases hz : cmd.descriptorSetTempFilePath = []
              · rw [List.filter_cons_of_neg (by simp [hk.temp.1 hz]), List.filter_cons_of_neg (by simp [hz])]
                exact ih
              · have hz' : ¬ cmd'.descriptorSetTempFilePath = [] := fun e => hz (hk.temp.2 e)
                rw [List.filter_cons_of_pos (by simp [hz']), List.filter_cons_of_pos (by simp [hz]),
                  List.map_cons, List.map_cons, ih]
                have := hset cmd (m1 cmd (by simp)) cmd' (m2 cmd' (by simp)) hk hz
                rw [hcont _ _ bad cmd (m1 cmd (by simp)) hz, hcont _ _ bad' cmd' (m2 cmd' (by simp)) hz'] at this
                have : content (t'.env disk) cmd'.descriptorSetTempFilePath =
                  content (t.env disk) cmd.descriptorSetTempFilePath := this
                rw [this]
          exact fun hmem => this cmds b hl hmem.1 hmem.2
      · have y' : allFailures cmds' ended' ≠ [] := fun hz => y (List.Perm.eq_nil (hz ▸ hF.symm))
        rw [a2 z y, b2 z' y']
        exact ⟨C18_canonical _ _ hF, .refl _⟩
    · have z' : allErrors cmds' ended' ≠ [] := fun hz => z (List.Perm.eq_nil (hz ▸ hE.symm))
      obtain ⟨_, _, hx⟩ := a1 z
      obtain ⟨_, _, hx'⟩ := b1 z'
      rw [hx, hx']
      trivial
  · cases h1 with
    | noDirs x => rw [e] at x; cases x
    | ran x => rw [e] at x; cases x
    | noCommands x =>
      cases h1' with
      | noDirs x => rw [e'] at x; cases x
      | ran x => rw [e'] at x; cases x
      | noCommands x => trivial

end Verif.Exec
