import Verif.Proof.FormatFile
import Verif.Proof.Walks
import Verif.Spec.Managed

/-!
# Lemmas about `format --fix`
-/

namespace Verif.Format

open Verif Str Proto Spec

/-! ## The declarations of a file -/

theorem inside_nothing (d : Lint.FileDescriptor) : inside nothing d = d.elements.map fun e => ⟨[], e⟩ := by
  unfold inside fileNodes
  generalize d.elements = es
  induction es with
  | nil => rfl
  | cons e es ih =>
    unfold nodesAll
    rw [List.filter_append, ih, Lint.nodes_eq, List.filter_cons_of_pos (by rfl)]
    have : (nodesAll [e] (Lint.children e)).filter (fun n => n.around.all nothing) = [] := by
      rw [List.filter_eq_nil_iff]
      intro n hn h
      have := Lint.around_memAll hn e (by simp)
      have := List.all_eq_true.1 h e this
      cases this
    rw [this]
    rfl

theorem fileOptions_eq (d : Lint.FileDescriptor) : fileOptions d = optionsAmong d.elements := by
  unfold fileOptions optionsAmong
  rw [inside_nothing, List.filterMap_map]
  refine congrFun (congrArg _ (funext fun e => ?_)) _
  cases e <;> rfl

theorem packages_eq (d : Lint.FileDescriptor) : packages d = packagesAmong d.elements := by
  unfold packages packagesAmong
  rw [inside_nothing, List.filterMap_map]
  refine congrFun (congrArg _ (funext fun e => ?_)) _
  cases e <;> rfl

/-! ## The file with the managed options replaced -/

/-- Whether the declaration is no option. -/
def noOption : Element → Bool
  | .option _ => false
  | _ => true

theorem fixedFile_eq (q : Params) (es : List Element) :
    fixedFile q es = es.takeWhile isComment ++ ((optionsOf q es).map .option ++
      (es.dropWhile isComment).filter noOption) := by
  unfold fixedFile
  rw [List.append_assoc]
  congr 2

theorem filterMap_noOption {α : Type} {f : Element → Option α} (h : ∀ o, f (.option o) = none)
    (es : List Element) : (es.filter noOption).filterMap f = es.filterMap f := by
  induction es with
  | nil => rfl
  | cons e es ih =>
    cases e with
    | option o =>
      rw [List.filter_cons_of_neg (by simp [noOption]), ih, List.filterMap_cons, h]
    | _ =>
      rw [List.filter_cons_of_pos rfl, List.filterMap_cons, List.filterMap_cons, ih]

theorem fixed_among {α : Type} {f : Element → Option α} (hf : Picks f) (h : ∀ o, f (.option o) = none)
    (q : Params) (es : List Element) : (fixedFile q es).filterMap f = es.filterMap f := by
  rw [fixedFile_eq, List.filterMap_append, List.filterMap_append, hf.lead,
    filterMap_map_none f _ h, filterMap_noOption h, hf.lead_drop es]
  rfl

theorem fixed_syntaxes (q : Params) (es : List Element) :
    syntaxesAmong (fixedFile q es) = syntaxesAmong es :=
  fixed_among ⟨fun e h => by cases e <;> first | rfl | cases h⟩ (fun _ => rfl) q es

theorem fixed_packages (q : Params) (es : List Element) :
    packagesAmong (fixedFile q es) = packagesAmong es :=
  fixed_among ⟨fun e h => by cases e <;> first | rfl | cases h⟩ (fun _ => rfl) q es

theorem fixed_imports (q : Params) (es : List Element) :
    importsAmong (fixedFile q es) = importsAmong es :=
  fixed_among ⟨fun e h => by cases e <;> first | rfl | cases h⟩ (fun _ => rfl) q es

theorem fixed_options_go {f : Element → Option Opt} (hf : Picks f) (hs : ∀ o, f (.option o) = some o)
    (hn : ∀ e, noOption e = true → f e = none) (q : Params) (es : List Element) :
    (fixedFile q es).filterMap f = optionsOf q es := by
  rw [fixedFile_eq, List.filterMap_append, List.filterMap_append, hf.lead,
    filterMap_map_some f _ hs, List.filterMap_eq_nil_iff.2 fun e he => hn e (List.mem_filter.1 he).2]
  simp

theorem fixed_options (q : Params) (es : List Element) :
    optionsAmong (fixedFile q es) = optionsOf q es :=
  fixed_options_go ⟨fun e h => by cases e <;> first | rfl | cases h⟩ (fun _ => rfl)
    (fun e h => by cases e <;> first | rfl | cases h) q es

theorem optionsOf_ne_nil {q : Params} {es : List Element} (hq : q.fix ≠ fixNone)
    (hp : packagesAmong es ≠ []) : optionsOf q es ≠ [] := by
  unfold optionsOf
  rw [if_neg hq]
  cases h : packagesAmong es with
  | nil => exact absurd h hp
  | cons p ps => simp [managedOptions]

theorem fixed_split {q : Params} {es : List Element} (ho : optionsOf q es ≠ []) :
    (fixedFile q es).takeWhile isComment = es.takeWhile isComment ∧
    (fixedFile q es).dropWhile isComment =
      (optionsOf q es).map .option ++ (es.dropWhile isComment).filter noOption := by
  rw [fixedFile_eq]
  refine takeWhile_append_stop (fun x hx => Picks.lead.mem_takeWhile' hx) ?_
  intro x hx
  cases h : optionsOf q es with
  | nil => exact absurd h ho
  | cons o os =>
    rw [h] at hx
    cases hx
    rfl

theorem rest_noOption (sort : List Opt → List Opt) (isProto2 : Bool) (es : List Element) :
    (es.filter noOption).flatMap (elementItems sort isProto2 .none) =
      es.flatMap (elementItems sort isProto2 .none) := by
  induction es with
  | nil => rfl
  | cons e es ih =>
    cases e with
    | option o =>
      rw [List.filter_cons_of_neg (by simp [noOption]), ih, List.flatMap_cons]
      unfold elementItems innerOptionItems
      rfl
    | _ => rw [List.filter_cons_of_pos rfl, List.flatMap_cons, List.flatMap_cons, ih]

/-- With `--fix` and no header the file is printed as the file with the managed options replaced
is printed without. -/
theorem transform_fixed (srt : SortSlice) {q : Params} (hk : KnownFix q) (hq : q.fix ≠ fixNone)
    (hh : q.fileHeader = []) (es : List Element) (hp : packagesAmong es ≠ [])
    (hcanon : ∀ l l' : List Text.Failure, l.Perm l' → Text.sortFailures l = Text.sortFailures l') :
    transform srt q es = transform srt { q with fix := fixNone } (fixedFile q es) := by
  have hs := fixed_syntaxes q es
  have h2 : proto2Of (fixedFile q es) = proto2Of es := by unfold proto2Of; rw [hs]
  obtain ⟨ht, hd⟩ := fixed_split (optionsOf_ne_nil hq hp)
  rcases transform_eq srt q hk es with ⟨s, hn, hh', he⟩ | ⟨b, hb, he⟩ <;>
  rcases transform_eq srt { q with fix := fixNone } (.inl rfl) (fixedFile q es) with
    ⟨s', hn', hh'', he'⟩ | ⟨b', hb', he'⟩
  · rw [hs, hh'] at hh''
    cases hh''
    rw [he, he']
  · rw [h2, hn] at hb'; cases hb'
  · rw [h2, hb] at hn'; cases hn'
  · rw [h2, hb] at hb'
    cases hb'
    rw [he, he']
    have htop : topItems { q with fix := fixNone } (fixedFile q es) = topItems q es := by
      unfold topItems
      rw [if_neg (fun h => h.1 rfl), if_neg (fun h => h.2 hh), ht]
    have hopt : optionsOf { q with fix := fixNone } (fixedFile q es) = optionsOf q es := by
      conv => lhs; unfold optionsOf
      rw [if_pos rfl, fixed_options]
    have hrest : ((fixedFile q es).dropWhile isComment).flatMap (elementItems (sortOpts srt) b .none) =
        (es.dropWhile isComment).flatMap (elementItems (sortOpts srt) b .none) := by
      rw [hd, List.flatMap_append, rest_noOption]
      have : ((optionsOf q es).map Element.option).flatMap (elementItems (sortOpts srt) b .none) = [] := by
        rw [List.flatMap_eq_nil_iff]
        intro x hx
        obtain ⟨a, _, rfl⟩ := List.mem_map.1 hx
        unfold elementItems innerOptionItems
        rfl
      rw [this]
      rfl
    have e2 : layout srt { q with fix := fixNone } b (fixedFile q es) =
        duplicateItems (fixedFile q es) ++ (topItems q es ++ (syntaxItems (syntaxesAmong es).head? ++
          (packageItems (packagesAmong es).head? ++ (fileOptionItems (sortOpts srt (optionsOf q es)) ++
          (fileImportItems (sortImps srt (importsAmong es)) ++
          (es.dropWhile isComment).flatMap (elementItems (sortOpts srt) b .none)))))) := by
      unfold layout fileItems
      rw [htop, hopt, fixed_imports, fixed_packages, hs, hrest]
      simp only [List.append_assoc]
    have e1 : layout srt q b es =
        duplicateItems es ++ (topItems q es ++ (syntaxItems (syntaxesAmong es).head? ++
          (packageItems (packagesAmong es).head? ++ (fileOptionItems (sortOpts srt (optionsOf q es)) ++
          (fileImportItems (sortImps srt (importsAmong es)) ++
          (es.dropWhile isComment).flatMap (elementItems (sortOpts srt) b .none)))))) := by
      unfold layout fileItems
      simp only [List.append_assoc]
    rw [e1, e2]
    generalize topItems q es ++ _ = c
    have : finish (duplicateItems (fixedFile q es) ++ c) = finish (duplicateItems es ++ c) := by
      unfold finish
      rw [textOf_append, textOf_append, duplicates_text, duplicates_text]
    rw [this, hcanon _ (problemsOf (duplicateItems (fixedFile q es) ++ c))]
    rw [problemsOf_append, problemsOf_append]
    exact ((duplicates_perm hs.symm (fixed_packages q es).symm).filterMap _).append_right _

/-! ## The managed options -/

theorem withValue_name (name : Str) (options : List Opt) (value : Literal) :
    (withValue name options value).name = name := by
  unfold withValue lastOption
  cases h : (options.filter fun o => o.name = name).getLast? with
  | none => rfl
  | some o => exact of_decide_eq_true (List.mem_filter.1 (List.mem_of_getLast? h)).2

theorem withValue_constant (name : Str) (options : List Opt) (value : Literal) :
    (withValue name options value).constant = value := by
  unfold withValue
  cases lastOption name options <;> rfl

theorem managed_filter (q : Params) (es : List Element) (hq : q.fix ≠ fixNone) {p : Package} {ps : List Package}
    (hp : packagesAmong es = p :: ps) {name : Str} (hn : name ∈ managedNames) :
    (optionsOf q es).filter (fun o => o.name = name) =
      (managedOptions q p.name (optionsAmong es)).filter fun o => o.name = name := by
  unfold optionsOf
  rw [if_neg hq, hp, List.filter_append]
  have : ((optionsAmong es).filter fun o => o.name ∉ managedNames).filter (fun o => o.name = name) = [] := by
    rw [List.filter_eq_nil_iff]
    intro o ho h
    exact absurd (of_decide_eq_true h ▸ hn) (of_decide_eq_true (List.mem_filter.1 ho).2)
  rw [this]
  rfl

end Verif.Format
