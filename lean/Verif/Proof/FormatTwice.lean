import Verif.Proof.FormatFix

/-!
# Lemmas about `format --fix` run twice
-/

namespace Verif.Format

open Verif Str Proto Spec

/-! ## Sorting -/

theorem inj_of_nodup {α : Type} {key : α → Str} {l : List α} (h : (l.map key).Nodup) {a b : α}
    (ha : a ∈ l) (hb : b ∈ l) (he : key a = key b) : a = b := by
  induction l with
  | nil => cases ha
  | cons x l ih =>
    rw [List.map_cons, List.nodup_cons] at h
    rcases List.mem_cons.1 ha with ha' | ha <;> rcases List.mem_cons.1 hb with hb' | hb
    · rw [ha', hb']
    · exact absurd (List.mem_map.2 ⟨b, hb, by rw [← he, ha']⟩) h.1
    · exact absurd (List.mem_map.2 ⟨a, ha, by rw [he, hb']⟩) h.1
    · exact ih h.2 ha hb

/-- With distinct keys the order is determined. -/
theorem sort_determined {α : Type} (srt : SortSlice) (key : α → Str) {l l' : List α} (hp : l'.Perm l)
    (h : (l.map key).Nodup) :
    srt.run (fun a b => lt (key a) (key b)) l' = srt.run (fun a b => lt (key a) (key b)) l := by
  have hswo : SWO (fun a b => lt (key a) (key b)) := SWO.str.on key
  refine List.Perm.eq_of_pairwise (le := fun a b => lt (key b) (key a) = false) ?_
    (srt.sorted _ _ hswo) (srt.sorted _ _ hswo) ((srt.perm _ _).trans (hp.trans (srt.perm _ _).symm))
  intro a b ha hb h1 h2
  have ha := hp.mem_iff.1 ((srt.perm _ _).mem_iff.1 ha)
  have hb := (srt.perm _ _).mem_iff.1 hb
  exact inj_of_nodup h ha hb (Str.le_antisymm (by unfold Str.le; rw [h1]; rfl) (by unfold Str.le; rw [h2]; rfl))

/-! ## The managed options again -/

theorem managed_names {q : Params} {package : Str} {os : List Opt} :
    (managedOptions q package os).map (·.name) =
      [s%"go_package", s%"java_multiple_files", s%"java_outer_classname", s%"java_package"] ++
      if q.fix = fixV2 then [s%"csharp_namespace", s%"objc_class_prefix", s%"php_namespace"] else [] := by
  unfold managedOptions
  rw [List.map_append]
  simp only [List.map_cons, List.map_nil, withValue_name]
  split
  · simp only [List.map_cons, List.map_nil, withValue_name]
  · rfl

theorem managed_mem {q : Params} {package : Str} {os : List Opt} {o : Opt}
    (h : o ∈ managedOptions q package os) : o.name ∈ managedNames := by
  have : o.name ∈ (managedOptions q package os).map (·.name) := List.mem_map.2 ⟨o, h, rfl⟩
  rw [managed_names] at this
  revert this
  generalize o.name = n
  intro h
  split at h
  all_goals
    simp only [List.mem_append, List.mem_cons, List.not_mem_nil, or_false] at h
    rcases h with h
    simp only [managedNames, List.mem_cons, List.not_mem_nil, or_false]
    grind

theorem managed_nodup {q : Params} {package : Str} {os : List Opt} :
    ((managedOptions q package os).map (·.name)).Nodup := by
  rw [managed_names]
  split <;> decide

/-- The names of the options printed are distinct if those of the options that are kept are. -/
theorem optionsOf_nodup {q : Params} {es : List Element} (hq : q.fix ≠ fixNone)
    (h : (((optionsAmong es).filter fun o => o.name ∉ managedNames).map (·.name)).Nodup) :
    ((optionsOf q es).map (·.name)).Nodup := by
  unfold optionsOf
  rw [if_neg hq]
  split
  · rwa [List.append_nil]
  · rw [List.map_append, List.nodup_append]
    refine ⟨h, managed_nodup, ?_⟩
    intro a ha b hb e
    obtain ⟨x, hx, rfl⟩ := List.mem_map.1 ha
    obtain ⟨y, hy, rfl⟩ := List.mem_map.1 hb
    refine of_decide_eq_true (List.mem_filter.1 hx).2 ?_
    rw [e]
    exact managed_mem hy

theorem kept_again {q : Params} {es : List Element} (hq : q.fix ≠ fixNone) :
    (optionsOf q es).filter (fun o => o.name ∉ managedNames) =
      (optionsAmong es).filter (fun o => o.name ∉ managedNames) := by
  unfold optionsOf
  rw [if_neg hq, List.filter_append, List.filter_filter]
  refine (congrArg (_ ++ ·) (List.filter_eq_nil_iff.2 fun o ho h => ?_)).trans (by simp)
  refine of_decide_eq_true h ?_
  split at ho
  · cases ho
  · exact managed_mem ho

theorem single_of_mem {l : List Opt} (hn : (l.map (·.name)).Nodup) {o : Opt} (ho : o ∈ l) :
    l.filter (fun x => x.name = o.name) = [o] := by
  induction l with
  | nil => cases ho
  | cons x l ih =>
    rw [List.map_cons, List.nodup_cons] at hn
    rcases List.mem_cons.1 ho with rfl | ho
    · rw [List.filter_cons_of_pos (by simp)]
      refine congrArg (_ :: ·) (List.filter_eq_nil_iff.2 fun y hy h => hn.1 ?_)
      exact of_decide_eq_true h ▸ List.mem_map.2 ⟨y, hy, rfl⟩
    · rw [List.filter_cons_of_neg, ih hn.2 ho]
      intro h
      exact hn.1 (of_decide_eq_true h ▸ List.mem_map.2 ⟨o, ho, rfl⟩)

/-- A managed option that is there is given the value it has. -/
theorem withValue_again {q : Params} {es : List Element} (hq : q.fix ≠ fixNone)
    {p : Package} {ps : List Package} (hp : packagesAmong es = p :: ps) {os : List Opt}
    (hos : os.Perm (optionsOf q es)) {name : Str} {value : Literal} (hn : name ∈ managedNames)
    (hm : withValue name (optionsAmong es) value ∈ managedOptions q p.name (optionsAmong es)) :
    withValue name os value = withValue name (optionsAmong es) value := by
  have h1 : (os.filter fun o => o.name = name) = [withValue name (optionsAmong es) value] := by
    have := hos.filter fun o => decide (o.name = name)
    rw [managed_filter q es hq hp hn] at this
    have hs := single_of_mem managed_nodup hm
    rw [withValue_name] at hs
    rw [hs] at this
    exact List.perm_singleton.1 this
  have hc := withValue_constant name (optionsAmong es) value
  generalize withValue name (optionsAmong es) value = w at h1 hc
  unfold withValue lastOption
  rw [h1]
  show { w with constant := value } = w
  rw [← hc]

theorem managed_again {q : Params} {es : List Element} (hq : q.fix ≠ fixNone)
    {p : Package} {ps : List Package} (hp : packagesAmong es = p :: ps) {os : List Opt}
    (hos : os.Perm (optionsOf q es)) :
    managedOptions q p.name os = managedOptions q p.name (optionsAmong es) := by
  have h : ∀ {name : Str} {value : Literal}, name ∈ managedNames →
      withValue name (optionsAmong es) value ∈ managedOptions q p.name (optionsAmong es) →
      withValue name os value = withValue name (optionsAmong es) value :=
    fun hn hm => withValue_again hq hp hos hn hm
  unfold managedOptions
  rw [h (by decide) (by unfold managedOptions; simp), h (by decide) (by unfold managedOptions; simp),
    h (by decide) (by unfold managedOptions; simp), h (by decide) (by unfold managedOptions; simp)]
  by_cases h2 : q.fix = fixV2
  · simp only [if_pos h2]
    rw [h (by decide) (by unfold managedOptions; simp [h2]), h (by decide) (by unfold managedOptions; simp [h2]),
      h (by decide) (by unfold managedOptions; simp [h2])]
  · simp only [if_neg h2]

/-- The options printed are the options printed, with `--fix` again. -/
theorem optionsOf_again {q : Params} {es es' : List Element} (hq : q.fix ≠ fixNone)
    (hp : packagesAmong es ≠ []) (hps : packagesAmong es' = packagesAmong es)
    (hos : (optionsAmong es').Perm (optionsOf q es)) : (optionsOf q es').Perm (optionsOf q es) := by
  cases hh : packagesAmong es with
  | nil => exact absurd hh hp
  | cons p ps =>
    have hm := managed_again hq hh hos
    have hk := hos.filter fun o => decide (o.name ∉ managedNames)
    rw [kept_again hq] at hk
    unfold optionsOf
    rw [if_neg hq, if_neg hq, hps, hh]
    show (_ ++ managedOptions q p.name (optionsAmong es')).Perm (_ ++ managedOptions q p.name (optionsAmong es))
    rw [hm]
    exact hk.append_right _

theorem fixed_lists {q : Params} {es : List Element} {l : List Opt} (h : l ∈ optionListsAll (fixedFile q es)) :
    l ∈ optionListsAll es := by
  obtain ⟨e, he, hl⟩ := lists_mem.1 h
  rw [fixedFile_eq] at he
  rcases List.mem_append.1 he with he | he
  · exact lists_mem.2 ⟨e, (List.takeWhile_prefix _).subset he, hl⟩
  rcases List.mem_append.1 he with he | he
  · obtain ⟨o, _, rfl⟩ := List.mem_map.1 he
    unfold optionLists at hl
    cases hl
  · exact lists_mem.2 ⟨e, (List.dropWhile_suffix _).subset (List.mem_filter.1 he).1, hl⟩

theorem fixed_rest (sort : List Opt → List Opt) {q : Params} {es : List Element} (b : Bool) (ho : optionsOf q es ≠ []) :
    ((fixedFile q es).dropWhile isComment).flatMap (elementItems sort b .none) =
      (es.dropWhile isComment).flatMap (elementItems sort b .none) := by
  rw [(fixed_split ho).2, List.flatMap_append, rest_noOption]
  have : ((optionsOf q es).map Element.option).flatMap (elementItems sort b .none) = [] := by
    rw [List.flatMap_eq_nil_iff]
    intro x hx
    obtain ⟨a, _, rfl⟩ := List.mem_map.1 hx
    unfold elementItems innerOptionItems
    rfl
  rw [this]
  rfl

/-- Two files printed from the same parts. -/
theorem transform_parts (srt : SortSlice) {q : Params} (hk : KnownFix q) (es es' : List Element)
    (hs : syntaxesAmong es' = syntaxesAmong es) (hp : packagesAmong es' = packagesAmong es)
    (ht : topItems q es' = topItems q es)
    (ho : sortOpts srt (optionsOf q es') = sortOpts srt (optionsOf q es))
    (hi : sortImps srt (importsAmong es') = sortImps srt (importsAmong es))
    (hr : ∀ b, (es'.dropWhile isComment).flatMap (elementItems (sortOpts srt) b .none) =
      (es.dropWhile isComment).flatMap (elementItems (sortOpts srt) b .none))
    (hcanon : ∀ l l' : List Text.Failure, l.Perm l' → Text.sortFailures l = Text.sortFailures l') :
    transform srt q es' = transform srt q es := by
  have h2 : proto2Of es' = proto2Of es := by unfold proto2Of; rw [hs]
  rcases transform_eq srt q hk es with ⟨s, hn, hh, he⟩ | ⟨b, hb, he⟩ <;>
  rcases transform_eq srt q hk es' with ⟨s', hn', hh', he'⟩ | ⟨b', hb', he'⟩
  · rw [hs, hh] at hh'
    cases hh'
    rw [he, he']
  · rw [h2, hn] at hb'; cases hb'
  · rw [h2, hb] at hn'; cases hn'
  · rw [h2, hb] at hb'
    cases hb'
    rw [he, he']
    have parts : ∀ es, layout srt q b es =
        duplicateItems es ++ (topItems q es ++ (syntaxItems (syntaxesAmong es).head? ++
          (packageItems (packagesAmong es).head? ++ (fileOptionItems (sortOpts srt (optionsOf q es)) ++
          (fileImportItems (sortImps srt (importsAmong es)) ++
          (es.dropWhile isComment).flatMap (elementItems (sortOpts srt) b .none)))))) := by
      intro es
      unfold layout fileItems
      simp only [List.append_assoc]
    rw [parts es, parts es', hs, hp, ht, ho, hi, hr]
    generalize topItems q es ++ _ = c
    have : finish (duplicateItems es' ++ c) = finish (duplicateItems es ++ c) := by
      unfold finish
      rw [textOf_append, textOf_append, duplicates_text, duplicates_text]
    rw [this, hcanon _ (problemsOf (duplicateItems es ++ c))]
    rw [problemsOf_append, problemsOf_append]
    exact ((duplicates_perm hs hp).filterMap _).append_right _

/-- Formatting with `--fix` the file in order with the managed options replaced is formatting the
file with `--fix`. -/
theorem transform_fix_twice (srt : SortSlice) {q : Params} (hk : KnownFix q) (hq : q.fix ≠ fixNone)
    (es : List Element) (hp : packagesAmong es ≠ [])
    (hn : (((optionsAmong es).filter fun o => o.name ∉ managedNames).map (·.name)).Nodup)
    (ho : ∀ l ∈ optionListsAll es, sortOpts srt (sortOpts srt l) = sortOpts srt l)
    (hi : sortImps srt (sortImps srt (importsAmong es)) = sortImps srt (importsAmong es))
    (hcanon : ∀ l l' : List Text.Failure, l.Perm l' → Text.sortFailures l = Text.sortFailures l') :
    transform srt q (tidyFile (sortOpts srt) (sortImps srt) (fixedFile q es)) = transform srt q es := by
  have hpo : ∀ l, (sortOpts srt l).Perm l := fun l => srt.perm _ l
  have hpi : ∀ l, (sortImps srt l).Perm l := fun l => srt.perm _ l
  have hne := optionsOf_ne_nil hq hp
  obtain ⟨h1, h2⟩ := tidyFile_split hpo hpi (fixedFile q es)
  have hps := (tidyFile_packages (sortOpts srt) (sortImps srt) (fixedFile q es)).trans (fixed_packages q es)
  refine transform_parts srt hk es _ ?_ hps ?_ ?_ ?_ ?_ hcanon
  · rw [tidyFile_syntaxes, fixed_syntaxes]
  · unfold topItems
    rw [h1, (fixed_split hne).1]
  · refine sort_determined srt Opt.name (optionsOf_again hq hp hps ?_) (optionsOf_nodup hq hn)
    rw [tidyFile_options, fixed_options]
    exact hpo _
  · rw [tidyFile_imports, fixed_imports, hi]
  · intro b
    rw [h2, tidyRest_items hpo b _ fun l hl => ho l (fixed_lists hl), fixed_rest _ b hne]

/-- With a header the comments at the top do not matter. -/
theorem transform_top (srt : SortSlice) {q : Params} (hk : KnownFix q) (hq : q.fix ≠ fixNone)
    (hh : q.fileHeader ≠ []) (cs es : List Element) (hc : ∀ e ∈ cs, isComment e = true)
    (hcanon : ∀ l l' : List Text.Failure, l.Perm l' → Text.sortFailures l = Text.sortFailures l') :
    transform srt q (cs ++ es) = transform srt q es := by
  have none : ∀ {α : Type} (f : Element → Option α), (∀ e, isComment e = true → f e = none) →
      (cs ++ es).filterMap f = es.filterMap f := by
    intro α f hf
    rw [List.filterMap_append, List.filterMap_eq_nil_iff.2 fun e he => hf e (hc e he), List.nil_append]
  have ho : optionsAmong (cs ++ es) = optionsAmong es := none _ fun e h => by cases e <;> first | rfl | cases h
  have hp : packagesAmong (cs ++ es) = packagesAmong es := none _ fun e h => by cases e <;> first | rfl | cases h
  refine transform_parts srt hk es _ ?_ hp ?_ ?_ ?_ ?_ hcanon
  · exact none _ fun e h => by cases e <;> first | rfl | cases h
  · unfold topItems
    rw [if_pos ⟨hq, hh⟩, if_pos ⟨hq, hh⟩]
  · unfold optionsOf
    rw [ho, hp]
  · exact congrArg _ (none _ fun e h => by cases e <;> first | rfl | cases h)
  · intro b
    have : (cs ++ es).dropWhile isComment = es.dropWhile isComment := by
      clear none ho hp
      induction cs with
      | nil => rfl
      | cons c cs ih =>
        rw [List.cons_append, List.dropWhile_cons_of_pos (hc c List.mem_cons_self)]
        exact ih fun e he => hc e (List.mem_cons_of_mem _ he)
    rw [this]

end Verif.Format
