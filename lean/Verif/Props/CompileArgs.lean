import Verif.Proof.CompileArgs
import Verif.Spec.CompileSample

/-!
# What protoc is called with
-/

namespace Verif.Props

open Verif Str Path File Settings Spec Protoc

/-! ## C44 -/

/-- C44: the include directories are the configured ones, then the one of the well-known types,
then that of the configuration exactly if it is not configured and no other is a prefix of the
directory. The only error is that of the directory of the well-known types. -/
theorem C44_includes (wkt : Except Err Str) (config : CompileConfig) (dirPath configDirPath : Str) :
    (∀ includes, getIncludes wkt config dirPath configDirPath = .ok includes →
      ∃ w, (config.includeWellKnownTypes = true → wkt = .ok w) ∧
        IncludeList config w dirPath configDirPath includes) ∧
    (∀ e, getIncludes wkt config dirPath configDirPath = .error e →
      config.includeWellKnownTypes = true ∧ wkt = .error e) :=
  ⟨fun _ h => getIncludes_ok h, fun _ h => getIncludes_error h⟩

/-- C44: for a directory below that of the configuration, the latter is listed exactly once more
if no listed directory is a prefix of the directory, and then it is not listed already. -/
theorem C44_added {config : CompileConfig} {wkt dirPath configDirPath : Str} {includes : List Str}
    (h : IncludeList config wkt dirPath configDirPath includes)
    (hd : Within dirPath configDirPath) :
    (includes = listed config wkt ++ [configDirPath] ↔ ∀ p ∈ listed config wkt, ¬ p <+: dirPath) ∧
    (includes = listed config wkt ++ [configDirPath] → configDirPath ∉ listed config wkt) := by
  have hp : configDirPath <+: dirPath := by
    obtain ⟨cs, ds, h, rfl, rfl⟩ := hd
    rcases Classical.em (cs = []) with e | e
    · subst e
      rw [absPath_eq, absPath_eq]
      exact ⟨_, rfl⟩
    · rw [absPath_ne_nil e, absPath_ne_nil (by simp [e]), List.flatMap_append]
      exact ⟨_, rfl⟩
  have key : includes = listed config wkt ++ [configDirPath] ↔
      ∀ p ∈ listed config wkt, ¬ p <+: dirPath := by
    constructor
    · intro e
      rcases Classical.em (AddsConfigDir config wkt dirPath configDirPath) with ha | ha
      · exact ha.2
      · have := h.same ha
        rw [e] at this
        have := congrArg List.length this
        simp at this
    · intro hn
      exact h.added ⟨fun hm => hn _ (by simp [listed, hm]) hp, hn⟩
  exact ⟨key, fun e hm => key.1 e _ hm hp⟩

/-- Non-vacuity for C44: an include directory elsewhere, and one above the directory. -/
example : getIncludes (.ok s%"/wkt") ⟨[], [s%"/inc"], true, false⟩ s%"/w/a" s%"/w" =
      .ok [s%"/inc", s%"/wkt", s%"/w"] ∧
    getIncludes (.ok s%"/wkt") ⟨[], [s%"/inc", s%"/w/a"], false, false⟩ s%"/w/a/b" s%"/w" =
      .ok [s%"/inc", s%"/w/a"] := by constructor <;> rfl

/-! ## C72 -/

/-- C72: the directory lies in one of the include directories. Missing: the include directories
that are a prefix of the directory as a string but do not contain it, see `C72_not`. -/
theorem C72_partial {config : CompileConfig} {wkt : Except Err Str} {dirPath configDirPath : Str}
    {includes : List Str} (h : getIncludes wkt config dirPath configDirPath = .ok includes)
    (hd : Within dirPath configDirPath)
    (hp : ∀ p ∈ includes, p <+: dirPath → Within dirPath p) :
    ∃ p ∈ includes, Within dirPath p := by
  obtain ⟨w, _, hi⟩ := getIncludes_ok h
  rcases Classical.em (AddsConfigDir config w dirPath configDirPath) with ha | ha
  · exact ⟨configDirPath, by rw [hi.added ha]; simp, hd⟩
  · have he := hi.same ha
    rcases Classical.em (∃ p ∈ listed config w, p <+: dirPath) with ⟨p, hm, hpre⟩ | hn
    · exact ⟨p, he ▸ hm, hp p (he ▸ hm) hpre⟩
    · have : configDirPath ∈ config.includePaths := by
        rcases Classical.em (configDirPath ∈ config.includePaths) with hm | hm
        · exact hm
        · exact absurd ⟨hm, fun p hp1 hp2 => hn ⟨p, hp1, hp2⟩⟩ ha
      exact ⟨configDirPath, by rw [he]; simp [listed, this], hd⟩

/-- C72 does not hold as stated: with the include directory `/w/inc` the directory `/w/incl`
of the configuration in `/w` is in none. -/
theorem C72_not : ∃ (config : CompileConfig) (dirPath configDirPath : Str) (includes : List Str),
    Within dirPath configDirPath ∧ (∀ p ∈ includes, IsAbsPath p) ∧
    getIncludes (.ok s%"/wkt") config dirPath configDirPath = .ok includes ∧
    ¬ ∃ p ∈ includes, Within dirPath p := by
  have hc : Components [s%"w", s%"incl"] := by unfold Components Component; decide
  have hi : Components [s%"w", s%"inc"] := by unfold Components Component; decide
  refine ⟨⟨[], [s%"/w/inc"], false, false⟩, s%"/w/incl", s%"/w", [s%"/w/inc"],
    ⟨[s%"w"], [s%"incl"], hc, rfl, rfl⟩, ?_, rfl, ?_⟩
  · intro p hp
    rw [List.mem_singleton] at hp
    subst hp
    exact ⟨_, hi, rfl⟩
  · rintro ⟨p, hp, hw⟩
    rw [List.mem_singleton] at hp
    subst hp
    have := (within_iff hc hi).1 hw
    revert this
    decide

/-! ## C73 -/

/-- C73: protoc is run for exactly the directories whose path starts with the given one, for each
once for every job, with the include directories, the output and all files of the directory. -/
theorem C73_commands {env : Env} {c : Options} {protoSet : ProtoSet} {live live' : List Str}
    {cmds : List CmdMeta} (h : getCmdMetas env c protoSet live = (live', .ok cmds)) :
    ∃ dirs : List (Str × List ProtoFile),
      dirs.Perm (protoSet.dirPathToFiles.filter fun d => hasPrefix d.1 protoSet.dirPath) ∧
      Pointwise (fun (x : (Str × List ProtoFile) × Job) m => CommandFor env c protoSet x.1 x.2 m)
        (dirs.flatMap fun d => (jobs c protoSet.config.gen.plugins).map fun j => (d, j)) cmds := by
  unfold getCmdMetas at h
  cases hd : env.download with
  | error e => rw [hd] at h; injection h with _ h; cases h
  | ok u =>
    rw [hd] at h
    dsimp only at h
    cases hl : cmdMetasLoop env c protoSet
        (env.order.ord [s%"getCmdMetas"] protoSet.dirPathToFiles) live [] with
    | mk live1 r =>
      obtain ⟨cmds1, e⟩ := r
      rw [hl] at h
      cases e with
      | some e => injection h with _ h; cases h
      | none =>
        injection h with _ h
        injection h with h
        subst h
        obtain ⟨added, h1, h2⟩ := cmdMetasLoop_ok hl
        rw [List.nil_append] at h1
        subst h1
        exact ⟨_, (env.order.perm _ _).filter _, h2⟩

/-- C73: every file of every directory below the given one is handed to protoc with every plugin,
together with all files of its directory. -/
theorem C73_generated {env : Env} {c : Options} {protoSet : ProtoSet} {live live' : List Str}
    {cmds : List CmdMeta} (h : getCmdMetas env c protoSet live = (live', .ok cmds))
    (hg : c.doGen = true) {d : Str × List ProtoFile} (hd : d ∈ protoSet.dirPathToFiles)
    (hw : Within d.1 protoSet.dirPath) {p : GenPlugin} (hp : p ∈ protoSet.config.gen.plugins) :
    ∃ m ∈ cmds, CommandFor env c protoSet d (.plugin p) m := by
  obtain ⟨dirs, hperm, hc⟩ := C73_commands h
  have pick : ∀ {α β : Type} {R : α → β → Prop} {a : List α} {b : List β}, Pointwise R a b →
      ∀ x ∈ a, ∃ y ∈ b, R x y := by
    intro α β R a b h
    induction h with
    | nil => intro x hx; cases hx
    | cons h _ ih =>
      intro x hx
      rcases List.mem_cons.1 hx with e | hx
      · exact ⟨_, by simp, e ▸ h⟩
      · obtain ⟨y, hy, hr⟩ := ih x hx
        exact ⟨y, by simp [hy], hr⟩
  have hpre : hasPrefix d.1 protoSet.dirPath = true := by
    rw [hasPrefix_prefix]
    obtain ⟨cs, ds, h, e1, e2⟩ := hw
    rw [e1, e2]
    rcases Classical.em (cs = []) with e | e
    · subst e
      rw [absPath_eq, absPath_eq]
      exact ⟨_, rfl⟩
    · rw [absPath_ne_nil e, absPath_ne_nil (by simp [e]), List.flatMap_append]
      exact ⟨_, rfl⟩
  refine pick hc (d, .plugin p) ?_
  rw [List.mem_flatMap]
  refine ⟨d, hperm.mem_iff.2 (List.mem_filter.2 ⟨hd, hpre⟩), ?_⟩
  rw [List.mem_map]
  refine ⟨_, ?_, rfl⟩
  have hm : Job.plugin p ∈ (if c.doFileDescriptorSet then [Job.descriptorSet] else []) ++
      (if c.doGen then protoSet.config.gen.plugins.map .plugin else []) := by
    rw [hg, if_pos rfl]
    exact List.mem_append_right _ (List.mem_map_of_mem hp)
  unfold jobs
  dsimp only
  rw [if_neg]
  · exact hm
  · intro e
    rw [List.isEmpty_iff] at e
    rw [e] at hm
    cases hm

/-- Non-vacuity for C73: three directories with two plugins each. -/
example : ∃ live' cmds, getCmdMetas Sample.env { doGen := true } Sample.protoSet [] =
    (live', .ok cmds) ∧ cmds.length = 6 ∧
    (cmds.map fun m => m.args.getLast?) = [some s%"/w/a/two.proto", some s%"/w/a/two.proto",
      some s%"/w/b/three.proto", some s%"/w/b/three.proto", some s%"/w/four.proto",
      some s%"/w/four.proto"] :=
  ⟨_, _, rfl, by decide +kernel, by decide +kernel⟩

/-! ## C45 -/

/-- C45: the flags of a go or gogo plugin are the configured flags and the modifiers: one for
every file outside the directory, one for every well-known type if these are included, and the
configured ones. Those for the files are for different files, and none is for a file of the
directory. Missing: the order and that a configured modifier may be for the same file as
another, see `C45_not_sorted` and `C45_not_once`. -/
theorem C45_modifiers_partial {o : Order} {site : Site} {protoSet : ProtoSet} {dirPath flags : Str}
    {plugin : GenPlugin} (hf : FilesBelow protoSet)
    (ht : plugin.type.isGo = true ∨ plugin.type.isGogo = true)
    (h : getPluginFlagSetProtoFlags o site protoSet dirPath plugin = .ok flags) :
    ∃ mods files : List (Str × Str),
      flags = join s%"," ((if plugin.flags = [] then [] else [plugin.flags]) ++
        mods.map fun kv => s%"M" ++ kv.1 ++ s%"=" ++ kv.2) ∧
      mods.Perm (files ++ (if protoSet.config.compile.includeWellKnownTypes then
          wellKnownTypes plugin.type.isGogo else []) ++ protoSet.config.gen.extraModifiers) ∧
      Pointwise (ModifierOf protoSet.config plugin) (filesOutside protoSet dirPath) files ∧
      (files.map (·.1)).Nodup ∧
      (∀ d ∈ protoSet.dirPathToFiles, d.1 = dirPath → ∀ f ∈ d.2, ∀ kv,
        ModifierOf protoSet.config plugin f.path kv → kv.1 ∉ files.map (·.1)) := by
  unfold getPluginFlagSetProtoFlags at h
  rw [if_neg (by rcases ht with h | h <;> simp [h])] at h
  split at h
  · cases h
  · rename_i hboth
    injection h with h
    have hpw : ∀ fs : List ProtoFile, (∀ f ∈ fs, Below f.path protoSet.config.dirPath) →
        Pointwise (ModifierOf protoSet.config plugin) (fs.map (·.path))
          (fs.map (modifierOf protoSet.config plugin)) := by
      intro fs hb
      induction fs with
      | nil => exact .nil
      | cons f fs ih =>
        exact .cons (modifierOf_spec (hb f (by simp))) (ih fun f hf => hb f (by simp [hf]))
    have hfo : filesOutside protoSet dirPath = (outside protoSet dirPath).map (·.path) := by
      unfold filesOutside outside
      rw [map_flatMap_path]
    refine ⟨(o.ord (site ++ [s%"modifiers"]) (modifiersFor o site protoSet dirPath plugin)) ++
        (if protoSet.config.compile.includeWellKnownTypes then
          o.ord (site ++ [s%"wktModifiers"]) (wktModifiers plugin.type) else []) ++
        o.ord (site ++ [s%"ExtraModifiers"]) protoSet.config.gen.extraModifiers,
      (outside protoSet dirPath).map (modifierOf protoSet.config plugin),
      ?_, ?_, ?_, nodup_keys (outside_below hf) (outside_nodup hf), ?_⟩
    · rw [← h, show (fun kv : Str × Str => s%"M" ++ kv.1 ++ s%"=" ++ kv.2) = modifierFlag from rfl]
      unfold goFlags
      dsimp only
      congr 1
      cases protoSet.config.compile.includeWellKnownTypes <;> cases plugin.flags <;> simp
    · refine (((o.perm _ _).trans (modifiersFor_perm hf)).append ?_).append (o.perm _ _)
      rw [← wktModifiers_eq (t := plugin.type) (by simpa using hboth) ht]
      split
      · exact o.perm _ _
      · exact List.Perm.refl _
    · rw [hfo]
      exact hpw _ (outside_below hf)
    · intro d hd he f hfm kv hkv hm
      rw [List.map_map, List.mem_map] at hm
      obtain ⟨g, hg, e⟩ := hm
      have hgf := modifierOf_inj (modifierOf_spec (plugin := plugin) (outside_below hf g hg)) hkv e
      obtain ⟨d', hd', hg'⟩ := List.mem_flatMap.1 hg
      have hd'' := List.mem_filter.1 hd'
      have hne : d'.1 ≠ dirPath := by simpa using hd''.2
      -- the file would be in two directories
      have key : ∀ (ds : List (Str × List ProtoFile)), d ∈ ds → d' ∈ ds → d ≠ d' →
          (ds.flatMap fun d => d.2.map (·.path)).Nodup → False := by
        intro ds
        induction ds with
        | nil => intro h; cases h
        | cons x xs ih =>
          intro h1 h2 h3 hn
          rw [List.flatMap_cons, List.nodup_append] at hn
          rcases List.mem_cons.1 h1 with e1 | m1
          · rcases List.mem_cons.1 h2 with e2 | m2
            · exact h3 (e1.trans e2.symm)
            · subst e1
              exact hn.2.2 f.path (List.mem_map_of_mem hfm) g.path
                (List.mem_flatMap.2 ⟨d', m2, List.mem_map_of_mem hg'⟩) hgf.symm
          · rcases List.mem_cons.1 h2 with e2 | m2
            · subst e2
              exact hn.2.2 g.path (List.mem_map_of_mem hg') f.path
                (List.mem_flatMap.2 ⟨d, m1, List.mem_map_of_mem hfm⟩) hgf
            · exact ih m1 m2 h3 hn.2.1
      exact key _ hd hd''.1 (fun e => hne (e ▸ he)) hf.once

/-- C45: the flags of other plugins are the configured ones. -/
theorem C45_others {o : Order} {site : Site} {protoSet : ProtoSet} {dirPath : Str}
    {plugin : GenPlugin} (h1 : plugin.type.isGo = false) (h2 : plugin.type.isGogo = false) :
    getPluginFlagSetProtoFlags o site protoSet dirPath plugin = .ok plugin.flags := by
  unfold getPluginFlagSetProtoFlags
  rw [if_pos (by simp [h1, h2])]

/-- C45 does not hold as stated: the modifiers are in the order of the loops over maps, so the
same input can give different flags. -/
theorem C45_not_sorted : ∃ (protoSet : ProtoSet) (dirPath : Str) (plugin : GenPlugin) (o o' : Order)
    (flags flags' : Str), FilesBelow protoSet ∧
    getPluginFlagSetProtoFlags o [] protoSet dirPath plugin = .ok flags ∧
    getPluginFlagSetProtoFlags o' [] protoSet dirPath plugin = .ok flags' ∧ flags ≠ flags' := by
  have hb : FilesBelow Sample.protoSet := by
    constructor
    · intro d hd f hf
      have hc : ∀ ds : List Str, ds ≠ [] → Components (s%"w" :: ds) →
          Below (absPath (s%"w" :: ds)) s%"/w" := fun ds hne h => ⟨[s%"w"], ds, h, hne, rfl, rfl⟩
      simp only [Sample.protoSet, List.mem_cons, List.not_mem_nil, or_false] at hd
      rcases hd with rfl | rfl | rfl <;> simp only [List.mem_cons, List.not_mem_nil, or_false] at hf
      · rcases hf with rfl | rfl
        · exact hc [s%"a", s%"one.proto"] (by simp) (by unfold Components Component; decide)
        · exact hc [s%"a", s%"two.proto"] (by simp) (by unfold Components Component; decide)
      · subst hf
        exact hc [s%"b", s%"three.proto"] (by simp) (by unfold Components Component; decide)
      · subst hf
        exact hc [s%"four.proto"] (by simp) (by unfold Components Component; decide)
    · decide +kernel
  exact ⟨Sample.protoSet, s%"/w/a", Sample.goPlugin, .id, .rev, _, _, hb, rfl, rfl, by decide +kernel⟩

/-- C45 does not hold as stated: a configured modifier for a file of the set is passed in addition
to the one for the file. -/
theorem C45_not_once : ∃ (protoSet : ProtoSet) (dirPath : Str) (plugin : GenPlugin) (flags : Str),
    getPluginFlagSetProtoFlags .id [] protoSet dirPath plugin = .ok flags ∧
    (splitChar ',' flags).filter (hasPrefix · s%"Mb/three.proto=") =
      [s%"Mb/three.proto=example.com/foo/gen/go/b", s%"Mb/three.proto=example.com/other"] :=
  ⟨{ Sample.protoSet with config := { Protoc.Sample.config with
      gen := { Protoc.Sample.config.gen with
        extraModifiers := [(s%"b/three.proto", s%"example.com/other")] } } },
    s%"/w/a", Sample.goPlugin, _, rfl, by decide +kernel⟩

/-! ## C74 -/

/-- C74: a plugin that makes a single file for a directory makes it below the output directory of
the plugin, and for different directories different files. -/
theorem C74_outputs {protoSet : ProtoSet} {plugin : GenPlugin}
    (hs : plugin.fileSuffix ≠ []) (hslash : '/' ∉ plugin.fileSuffix)
    (ho : IsAbsPath plugin.outputPath.absPath) {d : Str} (hd : Within d protoSet.config.dirPath) :
    ∃ output, outputPathFor protoSet d plugin = .ok output ∧
      Below output plugin.outputPath.absPath ∧
      ∀ d', Within d' protoSet.config.dirPath → outputPathFor protoSet d' plugin = .ok output →
        d' = d := by
  obtain ⟨os, hos, ho⟩ := ho
  have at_ : ∀ cs ds, Components (cs ++ ds) → protoSet.config.dirPath = absPath cs →
      outputPathFor protoSet (absPath (cs ++ ds)) plugin =
        .ok (absPath (os ++ ds ++ [(cs ++ ds).getLast?.getD s%"default" ++ s%"." ++ plugin.fileSuffix])) ∧
      Component ((cs ++ ds).getLast?.getD s%"default" ++ s%"." ++ plugin.fileSuffix) := by
    intro cs ds hcd hc
    obtain ⟨hlast, hr⟩ := getRelOutputFilePath_eq (protoSet := protoSet) hcd hc hs hslash
    have he : ∃ o, outputPathFor protoSet (absPath (cs ++ ds)) plugin = .ok o := by
      unfold outputPathFor
      rw [if_pos hs, hr]
      exact ⟨_, rfl⟩
    obtain ⟨o, he⟩ := he
    rw [he, (outputPathFor_ok he).2 hs cs ds os hcd hos hc rfl ho hslash]
    exact ⟨rfl, hlast⟩
  obtain ⟨cs, ds, hcd, hc, rfl⟩ := hd
  obtain ⟨h1, hlast⟩ := at_ cs ds hcd hc
  have hfull : Components (os ++ (ds ++ [(cs ++ ds).getLast?.getD s%"default" ++ s%"." ++ plugin.fileSuffix])) := by
    rw [components_append, components_append]
    exact ⟨hos, (components_append.1 hcd).2, components_single.2 hlast⟩
  refine ⟨_, h1, ⟨os, _, hfull, by simp, ho, by rw [List.append_assoc os]⟩, ?_⟩
  intro d' hd' h2
  obtain ⟨cs', ds', hcd', hc', rfl⟩ := hd'
  have hcs : cs' = cs := absPath_inj (components_append.1 hcd').1 (components_append.1 hcd).1
    (hc'.symm.trans hc)
  subst hcs
  obtain ⟨h3, hlast'⟩ := at_ cs' ds' hcd' hc'
  rw [h3] at h2
  injection h2 with h2
  have hfull' : Components (os ++ (ds' ++ [(cs' ++ ds').getLast?.getD s%"default" ++ s%"." ++ plugin.fileSuffix])) := by
    rw [components_append, components_append]
    exact ⟨hos, (components_append.1 hcd').2, components_single.2 hlast'⟩
  rw [List.append_assoc os, List.append_assoc os] at h2
  have := absPath_inj hfull' hfull h2
  have := List.append_cancel_left this
  have h4 := congrArg List.dropLast this
  rw [List.dropLast_concat, List.dropLast_concat] at h4
  rw [h4]

/-- C74: before the plugins run, the directory of every output exists: the output directory of a
plugin, or the directory of its single file for every directory below the given one. Nothing else
is made, also on an error, and everything is in an output directory. -/
theorem C74_directories {env : Env} {protoSet : ProtoSet} {made : List Str} {err : Option Err}
    (h : makeGenDirs env protoSet = (made, err))
    (hd : ∀ d ∈ protoSet.dirPathToFiles, Within d.1 protoSet.config.dirPath)
    (hp : ∀ p ∈ protoSet.config.gen.plugins, IsAbsPath p.outputPath.absPath ∧ '/' ∉ p.fileSuffix) :
    (∀ x ∈ made, ∃ p ∈ protoSet.config.gen.plugins, Within x p.outputPath.absPath) ∧
    (err = none → ∀ p ∈ protoSet.config.gen.plugins,
      (p.fileSuffix = [] → p.outputPath.absPath ∈ made) ∧
      (p.fileSuffix ≠ [] → ∀ d ∈ protoSet.dirPathToFiles, Within d.1 protoSet.dirPath →
        ∃ output, outputPathFor protoSet d.1 p = .ok output ∧
          ∃ parent ∈ made, EntryOf output parent)) := by
  -- the file of a plugin for a directory, and its parent
  have file : ∀ p ∈ protoSet.config.gen.plugins, p.fileSuffix ≠ [] →
      ∀ d ∈ protoSet.dirPathToFiles, ∃ r, getRelOutputFilePath protoSet d.1 p.fileSuffix = .ok r ∧
        outputPathFor protoSet d.1 p = .ok (joinPath [p.outputPath.absPath, r]) ∧
        EntryOf (joinPath [p.outputPath.absPath, r]) (dir (joinPath [p.outputPath.absPath, r])) ∧
        Within (dir (joinPath [p.outputPath.absPath, r])) p.outputPath.absPath := by
    intro p hpm hs d hdm
    obtain ⟨⟨os, hos, ho⟩, hslash⟩ := hp p hpm
    obtain ⟨cs, ds, hcd, hc, hde⟩ := hd d hdm
    obtain ⟨hlast, hr⟩ := getRelOutputFilePath_eq (protoSet := protoSet) hcd hc hs hslash
    rw [hde]
    refine ⟨_, hr, by unfold outputPathFor; rw [if_pos hs, hr], ?_⟩
    have hfull : Components (os ++ (ds ++ [(cs ++ ds).getLast?.getD s%"default" ++ s%"." ++ p.fileSuffix])) := by
      rw [components_append, components_append]
      exact ⟨hos, (components_append.1 hcd).2, components_single.2 hlast⟩
    rw [ho, joinPath_join hfull, ← List.append_assoc] at *
    rw [dir_snoc hfull]
    exact ⟨⟨_, _, hfull, rfl, rfl⟩, ⟨os, ds, (components_append.1 hfull).1, rfl, rfl⟩⟩
  unfold makeGenDirs at h
  cases hg : genDirs env.order protoSet 0 protoSet.config.gen.plugins [] with
  | error e =>
    rw [hg] at h
    injection h with h1 h2
    subst h1 h2
    exact ⟨by simp, fun h => by cases h⟩
  | ok dirs =>
    rw [hg] at h
    dsimp only at h
    have hmem := mem_genDirs hg
    have hperm := env.order.perm [s%"makeGenDirs"] dirs
    constructor
    · intro x hx
      have : x ∈ dirs := by
        refine hperm.mem_iff.1 (mkdirs_sub (mk := env.mkdirAll) x ?_)
        rw [h]
        exact hx
      rcases (hmem x).1 this with h1 | ⟨p, hpm, hn⟩
      · cases h1
      · refine ⟨p, hpm, ?_⟩
        rcases hn with ⟨_, rfl⟩ | ⟨hs, d, hdm, _, r, hr, rfl⟩
        · exact within_refl (hp p hpm).1
        · obtain ⟨r', hr', _, _, hw⟩ := file p hpm hs d hdm
          rw [hr] at hr'
          injection hr' with hr'
          subst hr'
          exact hw
    · intro he
      subst he
      obtain ⟨e, _⟩ := mkdirs_ok h
      subst e
      intro p hpm
      constructor
      · intro hs
        exact hperm.mem_iff.2 ((hmem _).2 (Or.inr ⟨p, hpm, Or.inl ⟨hs, rfl⟩⟩))
      · intro hs d hdm hw
        obtain ⟨r, hr, ho, hent, _⟩ := file p hpm hs d hdm
        refine ⟨_, ho, _, ?_, hent⟩
        refine hperm.mem_iff.2 ((hmem _).2 (Or.inr ⟨p, hpm, Or.inr ⟨hs, d, hdm, ?_, r, hr, rfl⟩⟩))
        rw [hasPrefix_prefix]
        obtain ⟨cs, ds, _, e1, e2⟩ := hw
        rw [e1, e2]
        rcases Classical.em (cs = []) with e | e
        · subst e
          rw [absPath_eq, absPath_eq]
          exact ⟨_, rfl⟩
        · rw [absPath_ne_nil e, absPath_ne_nil (by simp [e]), List.flatMap_append]
          exact ⟨_, rfl⟩

/-- Non-vacuity for C74: the directories for the sample. -/
example : makeGenDirs Sample.env Sample.protoSet =
    ([s%"/w/gen/go", s%"/w/gen/set/a", s%"/w/gen/set/b", s%"/w/gen/set"], none) ∧
    outputPathFor Sample.protoSet s%"/w/a" Sample.setPlugin = .ok s%"/w/gen/set/a/a.bin" ∧
    outputPathFor Sample.protoSet s%"/w" Sample.setPlugin = .ok s%"/w/gen/set/w.bin" := by
  refine ⟨by decide +kernel, rfl, rfl⟩

end Verif.Props
