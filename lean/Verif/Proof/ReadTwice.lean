import Verif.Proof.ReadFix

/-! # Declarations without comments stay so when they are put in order -/

namespace Verif.Format

open Verif Str Proto Spec

theorem bareAll_length (es : List Element) : (bareAll es).length ≤ es.length := by
  induction es with
  | nil => unfold bareAll; exact Nat.le_refl _
  | cons e es ih =>
    cases h : isComment e with
    | true =>
      cases e <;> first | cases h | skip
      rw [bareAll, List.length_cons]
      omega
    | false => rw [bareAll_cons h, List.length_cons, List.length_cons]; omega

theorem bareAll_eq_iff {es : List Element} :
    bareAll es = es ↔ ∀ e ∈ es, isComment e = false ∧ bare e = e := by
  induction es with
  | nil => unfold bareAll; simp
  | cons e es ih =>
    cases h : isComment e with
    | true =>
      constructor
      · intro hb
        cases e <;> first | cases h | skip
        rw [bareAll] at hb
        have := bareAll_length es
        rw [hb, List.length_cons] at this
        omega
      · intro hb
        have := (hb e (List.mem_cons_self ..)).1
        rw [h] at this; cases this
    | false =>
      rw [bareAll_cons h]
      constructor
      · intro hb
        obtain ⟨h1, h2⟩ := List.cons.inj hb
        intro d hd
        rcases List.mem_cons.1 hd with rfl | hd
        · exact ⟨h, h1⟩
        · exact ih.1 h2 d hd
      · intro hb
        rw [(hb e (List.mem_cons_self ..)).2, ih.2 fun d hd => hb d (List.mem_cons_of_mem _ hd)]

theorem map_eq_self_iff {α : Type} {f : α → α} {l : List α} : l.map f = l ↔ ∀ a ∈ l, f a = a := by
  induction l with
  | nil => simp
  | cons a l ih => simp [ih]

theorem bareField_sort {sort : List Opt → List Opt} (hsort : ∀ l, (sort l).Perm l) {f : Field}
    (h : bareField f = f) : bareField { f with options := sort f.options } = { f with options := sort f.options } := by
  have h7 : f.options.map bareOption = f.options := congrArg Field.options h
  have hs : (sort f.options).map bareOption = sort f.options :=
    map_eq_self_iff.2 fun o ho => map_eq_self_iff.1 h7 o ((hsort _).mem_iff.1 ho)
  rw [show bareField { f with options := sort f.options } =
    { bareField f with options := (sort f.options).map bareOption } from rfl, hs, h]

theorem bare_options {sort : List Opt → List Opt} (hsort : ∀ l, (sort l).Perm l) {es : List Element}
    (h : bareAll es = es) :
    bareAll ((sort (optionsAmong es)).map .option) = (sort (optionsAmong es)).map .option := by
  refine bareAll_eq_iff.2 fun e he => ?_
  obtain ⟨o, ho, rfl⟩ := List.mem_map.1 he
  exact bareAll_eq_iff.1 h _ (mem_options ((hsort _).mem_iff.1 ho))

mutual

theorem bare_tidy {sort : List Opt → List Opt} (hsort : ∀ l, (sort l).Perm l) :
    ∀ e : Element, bare e = e → bare (tidy sort e) = tidy sort e
  | .comment c, h => by unfold tidy; exact h
  | .syntax c, h => by unfold tidy; exact h
  | .package c, h => by unfold tidy; exact h
  | .import c, h => by unfold tidy; exact h
  | .option c, h => by unfold tidy; exact h
  | .reserved c, h => by unfold tidy; exact h
  | .extensions c, h => by unfold tidy; exact h
  | .message m es, h => by
    unfold bare at h
    injection h with h1 h2
    unfold tidy bare
    rw [h1, bareAll_tidyAll hsort es h2]
  | .enum m es, h => by
    unfold bare at h
    injection h with h1 h2
    unfold tidy bare
    rw [h1, bareAll_tidyAll hsort es h2]
  | .service m es, h => by
    unfold bare at h
    injection h with h1 h2
    unfold tidy bare
    rw [h1, bareAll_tidyAll hsort es h2]
  | .oneof m es, h => by
    unfold bare at h
    injection h with h1 h2
    unfold tidy bare
    rw [h1, bareAll_tidyAll hsort es h2]
  | .group m es, h => by
    unfold bare at h
    injection h with h1 h2
    unfold tidy bare
    rw [h1, bareAll_tidyAll hsort es h2]
  | .enumField f es, h => by
    unfold bare at h
    injection h with h1 h2
    unfold tidy bare
    rw [h1, bare_options hsort h2]
  | .rpc f es, h => by
    unfold bare at h
    injection h with h1 h2
    unfold tidy bare
    rw [h1, bare_options hsort h2]
  | .normalField f, h => by
    unfold bare at h
    injection h with h1
    have h2 : bareField f.field = f.field := congrArg NormalField.field h1
    unfold tidy bare
    dsimp only
    rw [bareField_sort hsort h2]
  | .mapField f, h => by
    unfold bare at h
    injection h with h1
    have h2 : bareField f.field = f.field := congrArg MapField.field h1
    unfold tidy bare
    dsimp only
    rw [bareField_sort hsort h2]
  | .oneofField f, h => by
    unfold bare at h
    injection h with h1
    unfold tidy bare
    rw [bareField_sort hsort h1]

theorem bareAll_tidyAll {sort : List Opt → List Opt} (hsort : ∀ l, (sort l).Perm l) :
    ∀ es : List Element, bareAll es = es → bareAll (tidyAll sort es) = tidyAll sort es
  | [], _ => by unfold tidyAll bareAll; rfl
  | e :: es, h => by
    obtain ⟨h1, h2⟩ := bareAll_eq_iff.1 h e (List.mem_cons_self ..)
    have h3 : bareAll es = es := bareAll_eq_iff.2 fun d hd => bareAll_eq_iff.1 h d (List.mem_cons_of_mem _ hd)
    unfold tidyAll
    rw [bareAll_cons (by rw [isComment_tidy, h1]), bare_tidy hsort e h2, bareAll_tidyAll hsort es h3]

end

theorem bare_tidyFile {sort : List Opt → List Opt} (hsort : ∀ l, (sort l).Perm l)
    {sortImports : List Import → List Import} (himp : ∀ l, (sortImports l).Perm l) {es : List Element}
    (h : bareAll es = es) : bareAll (tidyFile sort sortImports es) = tidyFile sort sortImports es := by
  have hb := bareAll_eq_iff.1 h
  have part : ∀ {l : List Element}, (∀ e ∈ l, e ∈ es) → bareAll l = l := fun hl =>
    bareAll_eq_iff.2 fun e he => hb e (hl e he)
  unfold tidyFile
  simp only [bareAll_append]
  rw [part (l := es.takeWhile isComment) fun e he => (List.takeWhile_sublist _).subset he,
    part (l := (syntaxesAmong es).map .syntax) fun e he => by
      obtain ⟨s, hs, rfl⟩ := List.mem_map.1 he; exact mem_syntaxes hs,
    part (l := (packagesAmong es).map .package) fun e he => by
      obtain ⟨s, hs, rfl⟩ := List.mem_map.1 he; exact mem_packages hs,
    bare_options hsort h,
    part (l := (sortImports (importsAmong es)).map .import) fun e he => by
      obtain ⟨s, hs, rfl⟩ := List.mem_map.1 he; exact mem_imports ((himp _).mem_iff.1 hs),
    bareAll_tidyAll hsort _ (part fun e he => (List.dropWhile_sublist _).subset (List.mem_filter.1 he).1)]

/-! ## What is among the declarations without comments -/

theorem bare_among {α : Type} (f : Element → Option α) (g : α → α)
    (hc : ∀ c, f (.comment c) = none) (hb : ∀ e, f (bare e) = (f e).map g) (es : List Element) :
    (bareAll es).filterMap f = (es.filterMap f).map g := by
  induction es with
  | nil => unfold bareAll; rfl
  | cons e es ih =>
    cases h : isComment e with
    | true =>
      cases e <;> first | cases h | skip
      rw [bareAll, ih, List.filterMap_cons, hc]
    | false =>
      rw [bareAll_cons h, List.filterMap_cons, List.filterMap_cons, hb]
      cases f e with
      | none => exact ih
      | some a => dsimp only [Option.map_some]; rw [ih]; rfl

theorem isComment_bare (e : Element) : isComment (bare e) = isComment e := by
  cases e <;> (unfold bare; rfl)

theorem staysPut_bare (e : Element) : staysPut (bare e) = staysPut e := by
  cases e <;> (unfold bare; rfl)

theorem bare_filter_kept (es : List Element) : (bareAll es).filter staysPut = bareAll (es.filter staysPut) := by
  induction es with
  | nil => unfold bareAll; rfl
  | cons e es ih =>
    cases h : isComment e with
    | true =>
      cases e <;> first | cases h | skip
      rw [bareAll, List.filter_cons_of_pos rfl, bareAll, ih]
    | false =>
      rw [bareAll_cons h]
      cases hs : staysPut e with
      | true =>
        rw [List.filter_cons_of_pos (by rw [staysPut_bare, hs]), List.filter_cons_of_pos hs, bareAll_cons h, ih]
      | false =>
        rw [List.filter_cons_of_neg (by rw [staysPut_bare, hs]; decide), List.filter_cons_of_neg (by simp [hs]), ih]

end Verif.Format
