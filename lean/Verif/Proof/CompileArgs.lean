import Verif.Spec.CompileArgs
import Verif.Proof.Path
import Verif.Proof.Map
import Verif.Proof.Desc

/-!
# Lemmas about the arguments of protoc
-/

namespace Verif.Protoc

open Verif Str Path File Settings Spec

/-! ## Relative paths -/

theorem join_ne_nil {cs : List Str} (h : Components cs) (hne : cs ≠ []) : join s%"/" cs ≠ [] := by
  intro e
  have := splitChar_join '/' hne (noSlash h)
  rw [show (['/'] : Str) = s%"/" from rfl] at this
  rw [e] at this
  have hs : splitChar '/' ([] : Str) = [[]] := rfl
  rw [hs] at this
  cases cs with
  | nil => exact hne rfl
  | cons c cs =>
    injection this with h1 h2
    exact (h c (by simp)).1 h1.symm

theorem split_join {cs : List Str} (h : Components cs) (hne : cs ≠ []) :
    splitChar '/' (join s%"/" cs) = cs := splitChar_join '/' hne (noSlash h)

theorem join_snoc {cs : List Str} (c : Str) (hne : cs ≠ []) :
    join s%"/" (cs ++ [c]) = join s%"/" cs ++ s%"/" ++ c := by
  induction cs with
  | nil => exact absurd rfl hne
  | cons a cs ih =>
    cases cs with
    | nil => rfl
    | cons b cs =>
      have := ih (by simp)
      simp only [List.cons_append, join] at this ⊢
      rw [this]
      simp

theorem isAbs_join {cs : List Str} (h : Components cs) : isAbs (join s%"/" cs) = false := by
  cases cs with
  | nil => rfl
  | cons c cs =>
    have hc := h c (by simp)
    have : ∃ x xs, c = x :: xs ∧ x ≠ '/' := by
      cases c with
      | nil => exact absurd rfl hc.1
      | cons x xs => exact ⟨x, xs, rfl, fun e => hc.2.1 (by simp [e])⟩
    obtain ⟨x, xs, rfl, hx⟩ := this
    have hj : ∃ r, join s%"/" ((x :: xs) :: cs) = x :: r := by
      cases cs with
      | nil => exact ⟨xs, rfl⟩
      | cons b cs => exact ⟨_, rfl⟩
    obtain ⟨r, hr⟩ := hj
    rw [hr]
    have hx' : ¬ '/' = x := fun e => hx e.symm
    simp [isAbs, hasPrefix, List.isPrefixOf, hx']

theorem clean_join {cs : List Str} (h : Components cs) (hne : cs ≠ []) :
    clean (join s%"/" cs) = join s%"/" cs := by
  unfold clean cleanComps
  simp only [isAbs_join h, split_join h hne, foldl_cleanStep h]
  simp [hne]

theorem base_join {cs : List Str} {c : Str} (h : Components (cs ++ [c])) :
    base (join s%"/" (cs ++ [c])) = c := by
  by_cases hne : cs = []
  · subst hne
    have hc := h c (by simp)
    simp only [List.nil_append, join]
    unfold base
    rw [if_neg hc.1]
    have h1 : c.reverse.dropWhile (· = '/') = c.reverse := by
      cases hr : c.reverse with
      | nil => rfl
      | cons x xs =>
        have : x ∈ c := by
          have : x ∈ c.reverse := by rw [hr]; simp
          simpa using this
        have hx : ¬ x = '/' := fun e => hc.2.1 (e ▸ this)
        simp [hx]
    have h2 : c.reverse.takeWhile (· ≠ '/') = c.reverse := by
      have := takeWhile_append_of_all (p := fun x => decide (x ≠ '/')) (a := c.reverse) (b := []) (by
        intro x hx
        have : x ≠ '/' := fun e => hc.2.1 (e ▸ (by simpa using hx))
        simpa using this)
      simpa using this
    simp only [h1, h2, List.reverse_reverse]
    rw [if_neg hc.1]
  · have h1 : base (absPath (cs ++ [c])) = c := base_snoc h
    have hj := join_snoc c hne
    have hab : absPath (cs ++ [c]) = '/' :: join s%"/" (cs ++ [c]) := absPath_eq _
    have hc := h c (by simp)
    rw [hj]
    unfold base
    rw [if_neg (by simp)]
    have h2 : (join s%"/" cs ++ s%"/" ++ c).reverse = c.reverse ++ ('/' :: (join s%"/" cs).reverse) := by
      simp
    have h3 : (c.reverse ++ ('/' :: (join s%"/" cs).reverse)).dropWhile (· = '/') =
        c.reverse ++ ('/' :: (join s%"/" cs).reverse) := by
      cases hr : c.reverse with
      | nil => exact absurd (List.reverse_eq_nil_iff.1 hr) hc.1
      | cons x xs =>
        have : x ∈ c := by
          have : x ∈ c.reverse := by rw [hr]; simp
          simpa using this
        have hx : ¬ x = '/' := fun e => hc.2.1 (e ▸ this)
        simp [hx]
    have h4 : (c.reverse ++ ('/' :: (join s%"/" cs).reverse)).takeWhile (· ≠ '/') = c.reverse := by
      rw [takeWhile_append_of_all]
      · simp
      · intro x hx
        have : x ≠ '/' := fun e => hc.2.1 (e ▸ (by simpa using hx))
        simpa using this
    simp only [h2, h3, h4, List.reverse_reverse]
    rw [if_neg hc.1]

theorem dir_join {cs : List Str} {c : Str} (h : Components (cs ++ [c])) :
    dir (join s%"/" (cs ++ [c])) = if cs = [] then s%"." else join s%"/" cs := by
  have hc := h c (by simp)
  have hall : ∀ x ∈ c.reverse, (decide (x ≠ '/')) = true := by
    intro x hx
    have : x ≠ '/' := fun e => hc.2.1 (e ▸ (by simpa using hx))
    simpa using this
  by_cases hne : cs = []
  · subst hne
    rw [if_pos rfl]
    unfold dir
    have : (join s%"/" ([] ++ [c])).reverse.dropWhile (· ≠ '/') = [] := by
      show c.reverse.dropWhile (· ≠ '/') = []
      have := dropWhile_append_of_all (b := []) hall
      simpa using this
    rw [this]
    rfl
  · rw [if_neg hne, join_snoc c hne]
    unfold dir
    have h2 : (join s%"/" cs ++ s%"/" ++ c).reverse = c.reverse ++ ('/' :: (join s%"/" cs).reverse) := by
      simp
    rw [h2, dropWhile_append_of_all hall]
    have h3 : (('/' :: (join s%"/" cs).reverse).dropWhile (· ≠ '/')).reverse = join s%"/" cs ++ s%"/" := by
      simp
    rw [h3]
    have hcs := (components_append.1 h).1
    unfold clean cleanComps
    have h4 : isAbs (join s%"/" cs ++ s%"/") = false := by
      have := isAbs_join hcs
      cases hj : join s%"/" cs with
      | nil => exact absurd hj (join_ne_nil hcs hne)
      | cons x xs => rw [hj] at this; simpa [isAbs, hasPrefix, List.isPrefixOf] using this
    have h5 : splitChar '/' (join s%"/" cs ++ s%"/") = cs ++ [[]] := by
      have := splitChar_append_last '/' (join s%"/" cs) (w := []) (by simp)
      rw [split_join hcs hne] at this
      exact this
    simp only [h4, h5, List.foldl_append, foldl_cleanStep hcs]
    simp [cleanStep_nil, hne]

/-- Joining below an absolute path. -/
theorem joinPath_join {cs ds : List Str} (h : Components (cs ++ ds)) :
    joinPath [absPath cs, join s%"/" ds] = absPath (cs ++ ds) := by
  obtain ⟨hc, hd⟩ := components_append.1 h
  rw [joinPath_absPath hc]
  by_cases hne : ds = []
  · subst hne
    have : splitChar '/' (join s%"/" ([] : List Str)) = [[]] := rfl
    rw [this]
    simp [cleanStep_nil]
  · rw [split_join hd hne, foldl_cleanStep hd]
    simp

/-! ## Include directories -/

theorem hasPrefix_prefix {s p : Str} : hasPrefix s p = true ↔ p <+: s := List.isPrefixOf_iff_prefix

theorem includeFlags_from {dirPath configDirPath : Str} {l : List Str} {acc : Bool × Bool} :
    l.foldl (fun acc includePath =>
      (if hasPrefix dirPath includePath then true else acc.1,
       if includePath = configDirPath then true else acc.2)) acc =
      (acc.1 || l.any (fun p => hasPrefix dirPath p), acc.2 || decide (configDirPath ∈ l)) := by
  induction l generalizing acc with
  | nil => simp
  | cons a l ih =>
    rw [List.foldl_cons, ih]
    refine Prod.ext ?_ ?_
    · cases h : hasPrefix dirPath a <;> simp [h]
    · by_cases h : a = configDirPath
      · simp [h]
      · have : ¬ configDirPath = a := fun e => h e.symm
        simp [h, this]

theorem includeFlags_eq {dirPath configDirPath : Str} {l : List Str} :
    includeFlags dirPath configDirPath l =
      (l.any (fun p => hasPrefix dirPath p), decide (configDirPath ∈ l)) := by
  unfold includeFlags
  rw [includeFlags_from]
  simp

theorem addsConfigDir_iff {config : CompileConfig} {wkt dirPath configDirPath : Str} :
    ((!(listed config wkt).any (fun p => hasPrefix dirPath p) &&
      !decide (configDirPath ∈ config.includePaths)) = true) ↔
      AddsConfigDir config wkt dirPath configDirPath := by
  unfold AddsConfigDir
  simp only [Bool.and_eq_true, Bool.not_eq_true', List.any_eq_false, decide_eq_false_iff_not,
    hasPrefix_prefix]
  exact And.comm

theorem getIncludes_eq {wkt : Except Err Str} {config : CompileConfig} {dirPath configDirPath : Str} :
    getIncludes wkt config dirPath configDirPath =
      if config.includeWellKnownTypes then
        match wkt with
        | .error e => .error e
        | .ok w =>
          if !(listed config w).any (fun p => hasPrefix dirPath p) &&
              !decide (configDirPath ∈ config.includePaths) then
            .ok (listed config w ++ [configDirPath])
          else .ok (listed config w)
      else if !(listed config []).any (fun p => hasPrefix dirPath p) &&
          !decide (configDirPath ∈ config.includePaths) then
        .ok (listed config [] ++ [configDirPath])
      else .ok (listed config []) := by
  unfold getIncludes listed
  dsimp only
  rw [includeFlags_eq]
  cases config.includeWellKnownTypes with
  | false => simp
  | true =>
    cases wkt with
    | error e => rfl
    | ok w =>
      simp only [if_true]
      have : (if hasPrefix dirPath w = true then true
          else config.includePaths.any fun p => hasPrefix dirPath p) =
          (config.includePaths ++ [w]).any fun p => hasPrefix dirPath p := by
        cases h : hasPrefix dirPath w <;> simp [h]
      rw [this]

theorem getIncludes_ok {wkt : Except Err Str} {config : CompileConfig} {dirPath configDirPath : Str}
    {includes : List Str} (h : getIncludes wkt config dirPath configDirPath = .ok includes) :
    ∃ w, (config.includeWellKnownTypes = true → wkt = .ok w) ∧
      IncludeList config w dirPath configDirPath includes := by
  rw [getIncludes_eq] at h
  have fin : ∀ w, (if (!(listed config w).any (fun p => hasPrefix dirPath p) &&
              !decide (configDirPath ∈ config.includePaths)) = true then
            (.ok (listed config w ++ [configDirPath]) : Except Err (List Str))
          else .ok (listed config w)) = .ok includes →
      IncludeList config w dirPath configDirPath includes := by
    intro w h
    by_cases ha : AddsConfigDir config w dirPath configDirPath
    · rw [if_pos (addsConfigDir_iff.2 ha)] at h
      injection h with h
      exact ⟨fun _ => h.symm, fun hn => absurd ha hn⟩
    · rw [if_neg (fun e => ha (addsConfigDir_iff.1 e))] at h
      injection h with h
      exact ⟨fun hn => absurd hn ha, fun _ => h.symm⟩
  cases hw : config.includeWellKnownTypes with
  | true =>
    rw [hw, if_pos rfl] at h
    cases wkt with
    | error e => cases h
    | ok w => exact ⟨w, fun _ => rfl, fin w h⟩
  | false =>
    rw [hw, if_neg (by simp)] at h
    exact ⟨[], fun e => Bool.noConfusion e, fin [] h⟩

theorem getIncludes_error {wkt : Except Err Str} {config : CompileConfig} {dirPath configDirPath : Str}
    {e : Err} (h : getIncludes wkt config dirPath configDirPath = .error e) :
    config.includeWellKnownTypes = true ∧ wkt = .error e := by
  rw [getIncludes_eq] at h
  cases hw : config.includeWellKnownTypes with
  | true =>
    rw [hw, if_pos rfl] at h
    cases wkt with
    | error e' => injection h with h; exact ⟨rfl, by rw [h]⟩
    | ok w => dsimp only at h; split at h <;> cases h
  | false =>
    rw [hw, if_neg (by simp)] at h
    split at h <;> cases h

/-! ## Outputs of plugins -/

theorem getRelOutputFilePath_eq {protoSet : ProtoSet} {suffix : Str} {cs ds : List Str}
    (h : Components (cs ++ ds)) (hc : protoSet.config.dirPath = absPath cs)
    (hs : suffix ≠ []) (hslash : '/' ∉ suffix) :
    Component ((cs ++ ds).getLast?.getD s%"default" ++ s%"." ++ suffix) ∧
    getRelOutputFilePath protoSet (absPath (cs ++ ds)) suffix =
      .ok (join s%"/" (ds ++ [(cs ++ ds).getLast?.getD s%"default" ++ s%"." ++ suffix])) := by
  have comp : ∀ n : Str, n ≠ [] → '/' ∉ n → Component (n ++ s%"." ++ suffix) := by
    intro n hn hns
    refine ⟨by simp [hn], by simp [hns, hslash], fun e => ?_, fun e => ?_⟩
    · have := congrArg List.length e
      have h1 : 0 < n.length := List.length_pos_iff.2 hn
      have h2 : 0 < suffix.length := List.length_pos_iff.2 hs
      simp at this
      omega
    · have := congrArg List.length e
      have h1 : 0 < n.length := List.length_pos_iff.2 hn
      have h2 : 0 < suffix.length := List.length_pos_iff.2 hs
      simp at this
      omega
  have hlast : Component ((cs ++ ds).getLast?.getD s%"default" ++ s%"." ++ suffix) := by
    cases hl : (cs ++ ds).getLast? with
    | none => exact comp _ (by decide) (by decide)
    | some c =>
      have := h c (List.mem_of_getLast? hl)
      exact comp c this.1 this.2.1
  refine ⟨hlast, ?_⟩
  unfold getRelOutputFilePath
  rw [hc]
  by_cases hds : ds = []
  · subst hds
    simp only [List.append_nil, List.nil_append] at h hlast ⊢
    have hr : rel (absPath cs) (absPath cs) = some s%"." := by
      rw [rel_absPath h h, if_pos rfl]
    rw [hr]
    dsimp only
    rw [if_pos (Or.inr rfl)]
    have hb : (if absPath cs = s%"/" then s%"default" else base (absPath cs)) =
        cs.getLast?.getD s%"default" := by
      rcases List.eq_nil_or_concat cs with e | ⟨as, c, e⟩
      · subst e; rfl
      · rw [List.concat_eq_append] at e
        subst e
        have hne : absPath (as ++ [c]) ≠ s%"/" := by
          intro e
          have : absPath (as ++ [c]) = absPath [] := e
          have := absPath_inj h components_nil this
          simp at this
        rw [if_neg hne, base_snoc h]
        simp
    rw [hb]
    have := joinPath_two (a := s%".") (by decide) (cs.getLast?.getD s%"default" ++ s%"." ++ suffix)
    rw [this]
    generalize cs.getLast?.getD s%"default" ++ s%"." ++ suffix = x at hlast
    have h1 : splitChar '/' (s%"." ++ s%"/" ++ x) = [s%".", x] := by
      have := splitChar_append '/' (w := s%".") (by decide) x
      rw [splitChar_of_not_mem hlast.2.1] at this
      exact this
    have h2 : isAbs (s%"." ++ s%"/" ++ x) = false := by
      simp [isAbs, hasPrefix, List.isPrefixOf]
    unfold clean cleanComps
    simp only [h1, h2, List.foldl_cons, List.foldl_nil, cleanStep_component hlast]
    simp [cleanStep, join]
  · have hr := rel_within h hds
    rw [hr]
    dsimp only
    have hd := (components_append.1 h).2
    have hn : ¬ (join s%"/" ds = [] ∨ join s%"/" ds = s%".") := by
      rintro (e | e)
      · exact join_ne_nil hd hds e
      · have := split_join hd hds
        rw [e] at this
        have h1 : splitChar '/' s%"." = [s%"."] := rfl
        rw [h1] at this
        subst this
        exact (hd s%"." (by simp)).2.2.1 rfl
    rw [if_neg hn]
    obtain ⟨as, c, rfl⟩ : ∃ as c, ds = as ++ [c] := by
      rcases List.eq_nil_or_concat ds with e | ⟨as, c, e⟩
      · exact absurd e hds
      · exact ⟨as, c, by rw [e, List.concat_eq_append]⟩
    rw [base_join hd]
    have hg : (cs ++ (as ++ [c])).getLast?.getD s%"default" = c := by
      rw [← List.append_assoc]; simp
    rw [hg] at hlast ⊢
    rw [joinPath_two (join_ne_nil hd hds), ← join_snoc _ hds,
      clean_join (by rw [components_append]; exact ⟨hd, components_single.2 hlast⟩) (by simp)]

theorem outputPathFor_ok {protoSet : ProtoSet} {dirPath output : Str} {plugin : GenPlugin}
    (h : outputPathFor protoSet dirPath plugin = .ok output) :
    OutputOf protoSet.config dirPath plugin output := by
  unfold outputPathFor at h
  refine ⟨fun e => ?_, fun e => ?_⟩
  · rw [if_neg (by simpa using e)] at h
    injection h with h
    exact h.symm
  · rw [if_pos e] at h
    intro cs ds os hcd hos hc hd ho hslash
    obtain ⟨hlast, hr⟩ := getRelOutputFilePath_eq (protoSet := protoSet) hcd hc e hslash
    rw [hd, hr] at h
    dsimp only at h
    injection h with h
    rw [← h, ho, joinPath_join]
    · rw [← List.append_assoc os]
    · rw [components_append, components_append]
      exact ⟨hos, (components_append.1 hcd).2, components_single.2 hlast⟩

theorem getPluginFlagSet_ok {env : Env} {site : Site} {protoSet : ProtoSet} {dirPath : Str}
    {plugin : GenPlugin} {out : List Str}
    (h : getPluginFlagSet env site protoSet dirPath plugin = .ok out) :
    ∃ binary flags output, env.pluginPath plugin = .ok binary ∧
      getPluginFlagSetProtoFlags env.order site protoSet dirPath plugin = .ok flags ∧
      outputPathFor protoSet dirPath plugin = .ok output ∧
      out = pluginArgs plugin binary flags output := by
  unfold getPluginFlagSet at h
  cases h1 : getPluginFlagSetProtoFlags env.order site protoSet dirPath plugin with
  | error e => rw [h1] at h; cases h
  | ok flags =>
    rw [h1] at h
    dsimp only at h
    cases h2 : outputPathFor protoSet dirPath plugin with
    | error e => rw [h2] at h; cases h
    | ok output =>
      rw [h2] at h
      dsimp only at h
      cases h3 : env.pluginPath plugin with
      | error e => rw [h3] at h; cases h
      | ok binary =>
        rw [h3] at h
        dsimp only at h
        injection h with h
        refine ⟨binary, flags, output, rfl, rfl, rfl, ?_⟩
        rw [← h]
        unfold pluginArgs
        cases flags <;> cases binary <;> cases plugin.includeImports <;>
          cases plugin.includeSourceInfo <;> simp

/-! ## The commands -/

theorem pointwise_append {α β : Type} {R : α → β → Prop} {a a' : List α} {b b' : List β}
    (h : Pointwise R a b) (h' : Pointwise R a' b') : Pointwise R (a ++ a') (b ++ b') := by
  induction h with
  | nil => exact h'
  | cons h _ ih => exact .cons h ih

theorem pointwise_map {α β α' β' : Type} {R : α → β → Prop} {S : α' → β' → Prop} (f : α → α')
    (g : β → β') (hRS : ∀ x y, R x y → S (f x) (g y)) {a : List α} {b : List β}
    (h : Pointwise R a b) : Pointwise S (a.map f) (b.map g) := by
  induction h with
  | nil => exact .nil
  | cons h _ ih => exact .cons (hRS _ _ h) ih

theorem pluginFlagSetsFrom_ok {env : Env} {site : Site} {protoSet : ProtoSet} {dirPath : Str}
    {i : Nat} {plugins : List GenPlugin} {sets : List (List Str)}
    (h : pluginFlagSetsFrom env site protoSet dirPath i plugins = .ok sets) :
    Pointwise (fun p out => ∃ site, getPluginFlagSet env site protoSet dirPath p = .ok out)
      plugins sets := by
  induction plugins generalizing i sets with
  | nil => injection h with h; subst h; exact .nil
  | cons p ps ih =>
    unfold pluginFlagSetsFrom at h
    cases h1 : getPluginFlagSet env (site ++ [natStr i]) protoSet dirPath p with
    | error e => rw [h1] at h; cases h
    | ok out =>
      rw [h1] at h
      dsimp only at h
      cases h2 : pluginFlagSetsFrom env site protoSet dirPath (i + 1) ps with
      | error e => rw [h2] at h; cases h
      | ok outs =>
        rw [h2] at h
        injection h with h
        subst h
        exact .cons ⟨_, h1⟩ (ih h2)

theorem getPluginFlagSets_ok {env : Env} {c : Options} {protoSet : ProtoSet} {dirPath : Str}
    {sets : List (List Str)} (h : getPluginFlagSets env c protoSet dirPath = .ok sets) :
    Pointwise (fun p out => ∃ site, getPluginFlagSet env site protoSet dirPath p = .ok out)
      (if c.doGen then protoSet.config.gen.plugins else []) sets := by
  unfold getPluginFlagSets at h
  cases hg : c.doGen with
  | false =>
    rw [hg] at h
    injection h with h
    subst h
    exact .nil
  | true =>
    rw [hg] at h
    by_cases hp : protoSet.config.gen.plugins.length = 0
    · rw [if_pos (by simp [hp])] at h
      injection h with h
      subst h
      rw [List.length_eq_zero_iff.1 hp]
      exact .nil
    · rw [if_neg (by simpa using hp)] at h
      exact pluginFlagSetsFrom_ok h

/-- What `cmdMetasForDir` gives when it ends without an error. -/
theorem cmdMetasForDir_ok {env : Env} {c : Options} {protoSet : ProtoSet} {live live' : List Str}
    {d : Str × List ProtoFile} {cmds : List CmdMeta}
    (h : cmdMetasForDir env c protoSet live d.1 d.2 = (live', cmds, none)) :
    Pointwise (CommandFor env c protoSet d) (jobs c protoSet.config.gen.plugins) cmds := by
  unfold cmdMetasForDir at h
  dsimp only at h
  cases hi : getIncludes (env.wktPath d.1) protoSet.config.compile d.1
      (if protoSet.config.dirPath = [] then protoSet.workDirPath else protoSet.config.dirPath) with
  | error e => rw [hi] at h; cases h
  | ok includes =>
  rw [hi] at h
  dsimp only at h
  obtain ⟨w, hw, hinc⟩ := getIncludes_ok hi
  cases hpp : env.protocPath d.1 with
  | error e => rw [hpp] at h; cases h
  | ok protoc =>
  rw [hpp] at h
  dsimp only at h
  have mk : ∀ (j : Job) (out : List Str) (temp : Str), JobArgs env c protoSet.config d.1 temp out j →
      CommandFor env c protoSet d j
        ⟨protoc, includeArgs includes ++ out ++ d.2.map (·.path), protoSet, d.1, d.2, temp⟩ :=
    fun j out temp hj => ⟨rfl, rfl, rfl, hpp, w, includes, out, hw, hinc, hj, rfl⟩
  have plug : ∀ flagSets, getPluginFlagSets env c protoSet d.1 = .ok flagSets →
      Pointwise (CommandFor env c protoSet d)
        (if c.doGen then protoSet.config.gen.plugins.map .plugin else [])
        (flagSets.map fun flagSet => ⟨protoc, includeArgs includes ++ flagSet ++ d.2.map (·.path),
          protoSet, d.1, d.2, []⟩) := by
    intro flagSets hf
    have := getPluginFlagSets_ok hf
    have h2 := pointwise_map (S := CommandFor env c protoSet d) Job.plugin (fun flagSet =>
      (⟨protoc, includeArgs includes ++ flagSet ++ d.2.map (·.path), protoSet, d.1, d.2, []⟩ : CmdMeta))
      (by
        rintro p out ⟨site, hp⟩
        obtain ⟨binary, flags, output, h1, h2, h3, h4⟩ := getPluginFlagSet_ok hp
        refine mk (.plugin p) out [] ⟨rfl, binary, flags, output, h1, fun hg hgg => ?_,
          outputPathFor_ok h3, h4⟩
        unfold getPluginFlagSetProtoFlags at h2
        rw [if_pos (by simp [hg, hgg])] at h2
        injection h2 with h2
        exact h2.symm) this
    cases hg : c.doGen with
    | false => rw [hg] at h2; exact h2
    | true => rw [hg] at h2; exact h2
  have fin : ∀ (live1 : List Str) (first : List CmdMeta) (js : List Job),
      Pointwise (CommandFor env c protoSet d) js first →
      js ++ (if c.doGen then protoSet.config.gen.plugins.map .plugin else []) =
        jobs c protoSet.config.gen.plugins →
      (match getPluginFlagSets env c protoSet d.1 with
        | .error e => (live1, first, some e)
        | .ok flagSets =>
          (live1, first ++ flagSets.map fun flagSet =>
            (⟨protoc, includeArgs includes ++ flagSet ++ d.2.map (·.path), protoSet, d.1, d.2, []⟩ : CmdMeta),
            none)) = ((live', cmds, none) : Made) →
      Pointwise (CommandFor env c protoSet d) (jobs c protoSet.config.gen.plugins) cmds := by
    intro live1 first js hjs hj h
    cases hf : getPluginFlagSets env c protoSet d.1 with
    | error e => rw [hf] at h; injection h with _ h; injection h with _ h; cases h
    | ok flagSets =>
      rw [hf] at h
      injection h with _ h
      injection h with h _
      rw [← hj, ← h]
      exact pointwise_append hjs (plug flagSets hf)
  cases hs : c.doFileDescriptorSet with
  | true =>
    rw [hs, if_pos rfl] at h
    cases ht : env.tempFile live with
    | error e => rw [ht] at h; injection h with _ h; injection h with _ h; cases h
    | ok temp =>
      rw [ht] at h
      dsimp only at h
      refine fin _ _ [.descriptorSet] (.cons ?_ .nil) (by simp [jobs, hs]) h
      have := mk .descriptorSet ([s%"-o", temp] ++ setArgs c) temp (by
        unfold JobArgs setArgs
        cases c.fileDescriptorSetFullControl <;> cases c.fileDescriptorSetIncludeImports <;>
          cases c.fileDescriptorSetIncludeSourceInfo <;> rfl)
      simpa [List.append_assoc] using this
  | false =>
    rw [hs, if_neg (by simp)] at h
    by_cases hg : (c.doGen && decide (protoSet.config.gen.plugins.length > 0)) = true
    · rw [if_pos hg] at h
      refine fin _ _ [] .nil ?_ h
      simp only [Bool.and_eq_true, decide_eq_true_eq] at hg
      obtain ⟨hg1, hg2⟩ := hg
      have hne : protoSet.config.gen.plugins ≠ [] := List.length_pos_iff.1 hg2
      simp [jobs, hs, hg1, hne]
    · rw [if_neg hg] at h
      cases hn : devNull env.goos with
      | error e => rw [hn] at h; injection h with _ h; injection h with _ h; cases h
      | ok out =>
        rw [hn] at h
        dsimp only at h
        have hnone : (if c.doGen then protoSet.config.gen.plugins.map Job.plugin else []) = [] := by
          cases hd : c.doGen with
          | false => rfl
          | true =>
            simp only [hd, Bool.true_and, decide_eq_true_eq, Nat.not_lt, Nat.le_zero,
              List.length_eq_zero_iff] at hg
            simp [hg]
        refine fin _ _ [.check] (.cons (mk .check _ [] ⟨rfl, ?_⟩) .nil) ?_ h
        · unfold devNull at hn
          split at hn
          · injection hn with hn; subst hn; exact Or.inl rfl
          · split at hn
            · injection hn with hn; subst hn; exact Or.inr rfl
            · cases hn
        · simp [jobs, hs, hnone]

theorem cmdMetasLoop_ok {env : Env} {c : Options} {protoSet : ProtoSet}
    {ds : List (Str × List ProtoFile)} {live live' : List Str} {cmds0 cmds : List CmdMeta}
    (h : cmdMetasLoop env c protoSet ds live cmds0 = (live', cmds, none)) :
    ∃ added, cmds = cmds0 ++ added ∧
      Pointwise (fun (x : (Str × List ProtoFile) × Job) m => CommandFor env c protoSet x.1 x.2 m)
        ((ds.filter fun d => hasPrefix d.1 protoSet.dirPath).flatMap fun d =>
          (jobs c protoSet.config.gen.plugins).map fun j => (d, j)) added := by
  induction ds generalizing live cmds0 with
  | nil =>
    injection h with _ h
    injection h with h _
    exact ⟨[], by simp [h], .nil⟩
  | cons d ds ih =>
    unfold cmdMetasLoop at h
    cases hp : hasPrefix d.1 protoSet.dirPath with
    | false =>
      rw [hp] at h
      rw [List.filter_cons_of_neg (by simp [hp])]
      exact ih h
    | true =>
      rw [hp, if_neg (by simp)] at h
      rw [List.filter_cons_of_pos (by simpa using hp), List.flatMap_cons]
      cases hd : cmdMetasForDir env c protoSet live d.1 d.2 with
      | mk live1 r =>
        obtain ⟨added1, e⟩ := r
        rw [hd] at h
        cases e with
        | some e => injection h with _ h; injection h with _ h; cases h
        | none =>
          dsimp only at h
          obtain ⟨added2, h1, h2⟩ := ih h
          refine ⟨added1 ++ added2, by rw [h1, List.append_assoc], pointwise_append ?_ h2⟩
          have := pointwise_map (S := fun (x : (Str × List ProtoFile) × Job) m =>
            CommandFor env c protoSet x.1 x.2 m) (fun j => (d, j)) id (fun _ _ h => h)
            (cmdMetasForDir_ok hd)
          simpa using this

/-! ## Modifiers -/

theorem set_new {m : GoMap Str Str} {k v : Str} (h : k ∉ m.map (·.1)) : m.set k v = m ++ [(k, v)] := by
  induction m with
  | nil => rfl
  | cons p m ih =>
    rw [List.map_cons, List.mem_cons, not_or] at h
    show (if p.1 = k then _ else _) = _
    rw [if_neg (fun e => h.1 e.symm), ih h.2]
    rfl

theorem foldl_set_new {kvs m : GoMap Str Str} (h : ((m ++ kvs).map (·.1)).Nodup) :
    kvs.foldl (fun m kv => GoMap.set m kv.1 kv.2) m = m ++ kvs := by
  induction kvs generalizing m with
  | nil => simp
  | cons kv kvs ih =>
    rw [List.foldl_cons, set_new, ih]
    · simp
    · simpa using h
    · rw [List.map_append, List.map_cons, List.nodup_append] at h
      exact fun hm => h.2.2 _ hm _ (by simp) rfl

/-- The modifiers in the order of the loops. -/
def modifierList (protoSet : ProtoSet) (dirPath : Str) (plugin : GenPlugin)
    (ds : List (Str × List ProtoFile)) : List (Str × Str) :=
  (ds.filter fun d => d.1 ≠ dirPath).flatMap fun d => d.2.map (modifierOf protoSet.config plugin)

theorem modifiersFor_fold {o : Order} {site : Site} {protoSet : ProtoSet} {dirPath : Str}
    {plugin : GenPlugin} :
    modifiersFor o site protoSet dirPath plugin =
      (modifierList protoSet dirPath plugin
        (o.ord (site ++ [s%"DirPathToFiles"]) protoSet.dirPathToFiles)).foldl
        (fun m kv => GoMap.set m kv.1 kv.2) [] := by
  unfold modifiersFor modifierList
  generalize o.ord (site ++ [s%"DirPathToFiles"]) protoSet.dirPathToFiles = ds
  have : ∀ m : GoMap Str Str, ds.foldl (fun modifiers sub =>
      if sub.1 ≠ dirPath then
        sub.2.foldl (fun modifiers f =>
          let kv := modifierOf protoSet.config plugin f
          modifiers.set kv.1 kv.2) modifiers
      else modifiers) m =
      ((ds.filter fun d => d.1 ≠ dirPath).flatMap fun d =>
        d.2.map (modifierOf protoSet.config plugin)).foldl
        (fun m kv => GoMap.set m kv.1 kv.2) m := by
    induction ds with
    | nil => intro m; rfl
    | cons d ds ih =>
      intro m
      rw [List.foldl_cons, ih]
      by_cases h : d.1 ≠ dirPath
      · rw [List.filter_cons_of_pos (by simpa using h), List.flatMap_cons, List.foldl_append,
          if_pos h, List.foldl_map]
      · rw [List.filter_cons_of_neg (by simpa using h), if_neg h]
  exact this []

theorem modifierOf_spec {config : Config} {plugin : GenPlugin} {f : ProtoFile}
    (h : Below f.path config.dirPath) :
    ModifierOf config plugin f.path (modifierOf config plugin f) := by
  obtain ⟨cs, ds, hcd, hne, hc, hf⟩ := h
  obtain ⟨as, name, rfl⟩ : ∃ as c, ds = as ++ [c] := by
    rcases List.eq_nil_or_concat ds with e | ⟨as, c, e⟩
    · exact absurd e hne
    · exact ⟨as, c, by rw [e, List.concat_eq_append]⟩
  have hr : rel config.dirPath f.path = some (join s%"/" (as ++ [name])) := by
    rw [hc, hf]; exact rel_within hcd hne
  refine ⟨cs, as, name, by rwa [List.append_assoc], hc, by rw [hf, List.append_assoc], ?_, ?_⟩
  · unfold modifierOf; rw [hr]; rfl
  · unfold modifierOf
    rw [hr]
    dsimp only [Option.getD_some]
    rw [dir_join (components_append.1 hcd).2]

/-- The file of a modifier tells the file. -/
theorem modifierOf_inj {config : Config} {plugin : GenPlugin} {p q : Str} {kv kv' : Str × Str}
    (h : ModifierOf config plugin p kv) (h' : ModifierOf config plugin q kv') (e : kv.1 = kv'.1) :
    p = q := by
  obtain ⟨cs, ds, n, hc, h1, h2, h3, _⟩ := h
  obtain ⟨cs', ds', n', hc', h1', h2', h3', _⟩ := h'
  have hcs : cs = cs' := by
    have a := (components_append.1 (components_append.1 hc).1).1
    have b := (components_append.1 (components_append.1 hc').1).1
    exact absPath_inj a b (h1.symm.trans h1')
  subst hcs
  rw [h3, h3'] at e
  rw [List.append_assoc, components_append] at hc hc'
  have := congrArg (splitChar '/') e
  rw [split_join hc.2 (by simp), split_join hc'.2 (by simp)] at this
  rw [h2, h2', List.append_assoc, List.append_assoc, this]

theorem nodup_keys {config : Config} {plugin : GenPlugin} {fs : List ProtoFile}
    (h : ∀ f ∈ fs, Below f.path config.dirPath) (hn : (fs.map (·.path)).Nodup) :
    ((fs.map (modifierOf config plugin)).map (·.1)).Nodup := by
  rw [List.map_map]
  induction fs with
  | nil => simp
  | cons f fs ih =>
    rw [List.map_cons, List.nodup_cons] at hn ⊢
    refine ⟨fun hm => ?_, ih (fun f hf => h f (by simp [hf])) hn.2⟩
    rw [List.mem_map] at hm
    obtain ⟨g, hg, e⟩ := hm
    have := modifierOf_inj (modifierOf_spec (plugin := plugin) (h g (by simp [hg])))
      (modifierOf_spec (plugin := plugin) (h f (by simp))) e
    exact hn.1 (this ▸ List.mem_map_of_mem hg)

theorem modifierList_eq {protoSet : ProtoSet} {dirPath : Str} {plugin : GenPlugin}
    {ds : List (Str × List ProtoFile)} :
    modifierList protoSet dirPath plugin ds =
      ((ds.filter fun d => d.1 ≠ dirPath).flatMap (·.2)).map (modifierOf protoSet.config plugin) := by
  unfold modifierList
  rw [List.map_flatMap]

theorem map_flatMap_path {ds : List (Str × List ProtoFile)} :
    (ds.flatMap fun d => d.2.map (·.path)) = (ds.flatMap (·.2)).map (·.path) := by
  rw [List.map_flatMap]

/-- The files outside the directory, in the order of the set. -/
def outside (protoSet : ProtoSet) (dirPath : Str) : List ProtoFile :=
  (protoSet.dirPathToFiles.filter fun d => d.1 ≠ dirPath).flatMap (·.2)

theorem outside_below {protoSet : ProtoSet} {dirPath : Str} (h : FilesBelow protoSet) :
    ∀ f ∈ outside protoSet dirPath, Below f.path protoSet.config.dirPath := by
  intro f hf
  obtain ⟨d, hd, hf⟩ := List.mem_flatMap.1 hf
  exact h.files d (List.mem_filter.1 hd).1 f hf

theorem outside_nodup {protoSet : ProtoSet} {dirPath : Str} (h : FilesBelow protoSet) :
    ((outside protoSet dirPath).map (·.path)).Nodup := by
  have := h.once
  rw [map_flatMap_path] at this
  refine this.sublist (List.Sublist.map _ ?_)
  unfold outside
  generalize protoSet.dirPathToFiles = ds
  induction ds with
  | nil => exact List.Sublist.refl _
  | cons d ds ih =>
    rw [List.flatMap_cons, List.filter_cons]
    split
    · rw [List.flatMap_cons]; exact List.Sublist.append (List.Sublist.refl _) ih
    · exact ih.trans (List.sublist_append_right _ _)

theorem modifiersFor_perm {o : Order} {site : Site} {protoSet : ProtoSet} {dirPath : Str}
    {plugin : GenPlugin} (h : FilesBelow protoSet) :
    (modifiersFor o site protoSet dirPath plugin).Perm
      ((outside protoSet dirPath).map (modifierOf protoSet.config plugin)) := by
  have hp := ((((o.perm (site ++ [s%"DirPathToFiles"]) protoSet.dirPathToFiles).filter
    (fun d => decide (d.1 ≠ dirPath))).flatMap_right (·.2)).map (modifierOf protoSet.config plugin))
  rw [modifiersFor_fold, modifierList_eq]
  have hn := nodup_keys (plugin := plugin) (outside_below (dirPath := dirPath) h) (outside_nodup h)
  have hn' := (hp.map (·.1)).nodup_iff.2 hn
  rw [foldl_set_new (by simpa using hn')]
  exact hp

theorem wktModifiers_eq {t : GenPluginType} (hb : ¬(t.isGo = true ∧ t.isGogo = true))
    (h : t.isGo = true ∨ t.isGogo = true) : wktModifiers t = wellKnownTypes t.isGogo := by
  cases t <;> first | decide +kernel | (rcases h with h | h <;> cases h) | exact absurd ⟨rfl, rfl⟩ hb

/-! ## The directories for the output -/

theorem mem_genDirsFor {protoSet : ProtoSet} {plugin : GenPlugin} {ds : List (Str × List ProtoFile)}
    {acc dirs : List Str} (h : genDirsFor protoSet plugin ds acc = .ok dirs) (x : Str) :
    x ∈ dirs ↔ x ∈ acc ∨ ∃ d ∈ ds, hasPrefix d.1 protoSet.dirPath = true ∧
      ∃ r, getRelOutputFilePath protoSet d.1 plugin.fileSuffix = .ok r ∧
        x = dir (joinPath [plugin.outputPath.absPath, r]) := by
  induction ds generalizing acc with
  | nil => injection h with h; subst h; simp
  | cons d ds ih =>
    unfold genDirsFor at h
    cases hp : hasPrefix d.1 protoSet.dirPath with
    | false =>
      rw [hp] at h
      rw [ih h]
      simp [hp]
    | true =>
      rw [hp, if_neg (by simp)] at h
      cases hr : getRelOutputFilePath protoSet d.1 plugin.fileSuffix with
      | error e => rw [hr] at h; cases h
      | ok r =>
        rw [hr] at h
        rw [ih h, mem_setInsert]
        constructor
        · rintro ((hx | hx) | ⟨d', hd', h1, h2⟩)
          · exact Or.inl hx
          · exact Or.inr ⟨d, by simp, hp, r, hr, hx⟩
          · exact Or.inr ⟨d', by simp [hd'], h1, h2⟩
        · rintro (hx | ⟨d', hd', h1, r', h2, h3⟩)
          · exact Or.inl (Or.inl hx)
          · rcases List.mem_cons.1 hd' with e | hd'
            · subst e
              rw [hr] at h2
              injection h2 with h2
              subst h2
              exact Or.inl (Or.inr h3)
            · exact Or.inr ⟨d', hd', h1, r', h2, h3⟩

/-- The directories `makeGenDirs` needs. -/
def NeedsDir (protoSet : ProtoSet) (plugin : GenPlugin) (x : Str) : Prop :=
  (plugin.fileSuffix = [] ∧ x = plugin.outputPath.absPath) ∨
  (plugin.fileSuffix ≠ [] ∧ ∃ d ∈ protoSet.dirPathToFiles, hasPrefix d.1 protoSet.dirPath = true ∧
    ∃ r, getRelOutputFilePath protoSet d.1 plugin.fileSuffix = .ok r ∧
      x = dir (joinPath [plugin.outputPath.absPath, r]))

theorem mem_genDirs {o : Order} {protoSet : ProtoSet} {i : Nat} {plugins : List GenPlugin}
    {acc dirs : List Str} (h : genDirs o protoSet i plugins acc = .ok dirs) (x : Str) :
    x ∈ dirs ↔ x ∈ acc ∨ ∃ p ∈ plugins, NeedsDir protoSet p x := by
  induction plugins generalizing i acc with
  | nil => injection h with h; subst h; simp
  | cons p ps ih =>
    unfold genDirs at h
    by_cases hs : p.fileSuffix = []
    · rw [if_pos hs] at h
      rw [ih h, mem_setInsert]
      have : NeedsDir protoSet p x ↔ x = p.outputPath.absPath := by
        unfold NeedsDir; simp [hs]
      simp only [List.mem_cons, exists_eq_or_imp, this, or_assoc]
    · rw [if_neg hs] at h
      cases hf : genDirsFor protoSet p (o.ord [s%"makeGenDirs", natStr i] protoSet.dirPathToFiles) acc with
      | error e => rw [hf] at h; cases h
      | ok dirs1 =>
        rw [hf] at h
        rw [ih h, mem_genDirsFor hf]
        have : NeedsDir protoSet p x ↔ ∃ d ∈ o.ord [s%"makeGenDirs", natStr i] protoSet.dirPathToFiles,
            hasPrefix d.1 protoSet.dirPath = true ∧
            ∃ r, getRelOutputFilePath protoSet d.1 p.fileSuffix = .ok r ∧
              x = dir (joinPath [p.outputPath.absPath, r]) := by
          unfold NeedsDir
          simp only [hs, false_and, false_or, ne_eq, not_false_eq_true, true_and,
            (o.perm [s%"makeGenDirs", natStr i] protoSet.dirPathToFiles).mem_iff]
        simp only [List.mem_cons, exists_eq_or_imp, this, or_assoc]

theorem mkdirs_ok {mk : Str → Except Err Unit} {l made : List Str} (h : mkdirs mk l = (made, none)) :
    made = l ∧ ∀ d ∈ l, mk d = .ok () := by
  induction l generalizing made with
  | nil => injection h with h; exact ⟨h.symm, by simp⟩
  | cons d ds ih =>
    unfold mkdirs at h
    cases hd : mk d with
    | error e => rw [hd] at h; injection h with _ h; cases h
    | ok u =>
      rw [hd] at h
      dsimp only at h
      injection h with h1 h2
      have := ih (made := (mkdirs mk ds).1) (Prod.ext rfl h2)
      refine ⟨by rw [← h1, this.1], fun x hx => ?_⟩
      rcases List.mem_cons.1 hx with e | hx
      · rw [e, hd]
      · exact this.2 x hx

theorem mkdirs_sub {mk : Str → Except Err Unit} {l : List Str} : ∀ x ∈ (mkdirs mk l).1, x ∈ l := by
  induction l with
  | nil => simp [mkdirs]
  | cons d ds ih =>
    unfold mkdirs
    cases hd : mk d with
    | error e => simp
    | ok u =>
      intro x hx
      dsimp only at hx
      rcases List.mem_cons.1 hx with e | hx
      · simp [e]
      · simp [ih x hx]

end Verif.Protoc
