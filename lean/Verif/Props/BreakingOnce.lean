import Verif.Proof.OnceRun
import Verif.Props.Breaking

/-!
# Break check: no check reports an element twice (C06)
-/

namespace Verif.Props

open Verif Reflect Breaking Spec Text Proof.Breaking Proof.Extract BreakExample

theorem exists_mono {P P' Q Q' : PackageSet} (hP : ∀ p ∈ P, p ∈ P') (hQ : ∀ q ∈ Q, q ∈ Q')
    {e : Affected} (h : e.Exists P Q) : e.Exists P' Q' := by
  unfold Affected.Exists at *
  split at h
  all_goals
    first
    | obtain ⟨p, hp, h⟩ := h; exact ⟨p, hP p hp, h⟩
    | obtain ⟨hs, p, hp, h⟩ := h; exact ⟨hs, p, hP p hp, h⟩
    | obtain ⟨hs, p, hp, h⟩ := h; exact ⟨hs, p, hQ p hp, h⟩

/-- C06: the failures correspond one to one to pairs of a check and an element of the
schemas that the failure names, so no check reports an element twice. With
`C06_reports`, each documented change of an element gives one failure. The reflection
step lists a dependency of a package once. -/
theorem C06_once (o : Order) (config : BreakConfig) (old new : PackageSet) (ho : SchemaOK old)
    (hn : SchemaOK new) (hd : ∀ q ∈ new, q.dependencyNames.Nodup) (fs : List Failure)
    (h : breakCheck o config old new = .ok fs) : EachOnce old new fs := by
  rw [breakCheck_eq o ho hn] at h
  have R := ready_checked ho hn config
  have hsub : ∀ ps : PackageSet, ∀ p ∈ checked config ps, p ∈ ps := fun ps p hp => (mem_checked.1 hp).1
  obtain ⟨es, h1, h2, h3⟩ := eachOnce_run o
    ⟨ho.names.sublist ((List.filter_sublist).map _), R.left⟩ R.names
    (fun q hq => hd q (hsub _ q hq)) config h
  exact ⟨es, h1, fun e he => exists_mono (hsub old) (hsub new) (h2 e he), h3⟩

example : ∃ fs, breakCheck Order.id ⟨false, false⟩ v1 broken = .ok fs ∧ fs.length = 2 ∧
    EachOnce v1 broken fs :=
  ⟨_, rfl, rfl, C06_once Order.id ⟨false, false⟩ v1 broken v1_ok broken_ok (by decide) _ rfl⟩

/-- The start of a failure tells which element it is about. -/
theorem named_unique {old new : PackageSet} (hu : UniqueNames old) {e e' : Affected} {s : Str}
    (he : e.Exists old new) (he' : e'.Exists old new) (h : e.named <+: s) (h' : e'.named <+: s) : e = e' := by
  obtain ⟨r, h⟩ := h
  obtain ⟨r', h'⟩ := h'
  have hs : e.named ++ r = e'.named ++ r' := h.trans h'.symm
  clear h h'
  obtain ⟨pk, scope, item⟩ := e
  obtain ⟨pk', scope', item'⟩ := e'
  cases item <;> cases item' <;>
    simp [Affected.named, Proof.quote_append_iff, Proof.quotedNumber_append_iff,
      Proof.quote_append_cons, fun (a x y : Str) (c : Char) (hc : c ≠ '"') =>
        (Proof.quote_append_cons (a := a) (x := x) (y := y) hc).symm] at hs
  all_goals simp only [Affected.Exists] at he he'
  · rw [he.1, he'.1, hs.1]
  · rw [he.1, he'.1, hs.1, hs.2.1]
  · obtain ⟨p, hp, rfl, m, hm⟩ := he
    obtain ⟨q, hq, rfl, m', hm'⟩ := he'
    obtain ⟨h1, h2⟩ := hu.messages p hp q hq _ _ _ _ hm hm' hs.1
    have := List.append_inj' h2 rfl
    simp only [List.cons.injEq, and_true] at this
    rw [h1, this.1, this.2]
  · obtain ⟨p, hp, rfl, m, hm, _⟩ := he
    obtain ⟨q, hq, rfl, m', hm', _⟩ := he'
    obtain ⟨h1, h2⟩ := hu.messages p hp q hq _ _ _ _ hm hm' hs.2.1
    rw [h1, h2, hs.1]
  · obtain ⟨p, hp, rfl, m, hm, _⟩ := he
    obtain ⟨q, hq, rfl, m', hm', _⟩ := he'
    obtain ⟨h1, h2⟩ := hu.messages p hp q hq _ _ _ _ hm hm' hs.2.1
    rw [h1, h2, hs.1]
  · obtain ⟨p, hp, rfl, m, hm, _⟩ := he
    obtain ⟨q, hq, rfl, m', hm', _⟩ := he'
    obtain ⟨h1, h2⟩ := hu.messages p hp q hq _ _ _ _ hm hm' hs.2.1
    rw [h1, h2, hs.1, hs.2.2.1]
  · obtain ⟨p, hp, rfl, x, hx, rfl⟩ := he
    obtain ⟨q, hq, rfl, x', hx', rfl⟩ := he'
    obtain ⟨h1, h2, h3⟩ := hu.enums p hp q hq _ _ _ _ hx hx' hs.1
    rw [h1, h2, h3]
  · obtain ⟨p, hp, rfl, x, hx, rfl, _⟩ := he
    obtain ⟨q, hq, rfl, x', hx', rfl, _⟩ := he'
    obtain ⟨h1, h2, h3⟩ := hu.enums p hp q hq _ _ _ _ hx hx' hs.2.1
    rw [h1, h2, h3, hs.1]
  · obtain ⟨rfl, p, hp, rfl, x, hx, rfl⟩ := he
    obtain ⟨rfl, q, hq, rfl, x', hx', rfl⟩ := he'
    obtain ⟨h1, h2⟩ := hu.services p hp q hq _ hx _ hx' hs.1
    rw [h1, h2]
  · obtain ⟨rfl, p, hp, rfl, x, hx, rfl, _⟩ := he
    obtain ⟨rfl, q, hq, rfl, x', hx', rfl, _⟩ := he'
    obtain ⟨h1, h2⟩ := hu.services p hp q hq _ hx _ hx' hs.2.1
    rw [h1, h2, hs.1]

theorem nodup_of_pointwise {α β : Type} {R : α → β → Prop} {es : List α} {fs : List β}
    (h : Pointwise R es fs) (hn : es.Nodup) (hR : ∀ a ∈ es, ∀ b ∈ es, ∀ f, R a f → R b f → a = b) :
    fs.Nodup := by
  have hmem : ∀ {es : List α} {fs : List β}, Pointwise R es fs → ∀ f ∈ fs, ∃ e ∈ es, R e f := by
    intro es fs h
    induction h with
    | nil => simp
    | cons hr _ ih =>
      intro f hf
      rcases List.mem_cons.1 hf with rfl | hf
      · exact ⟨_, by simp, hr⟩
      · obtain ⟨e, he, h⟩ := ih f hf
        exact ⟨e, by simp [he], h⟩
  induction h with
  | nil => exact List.nodup_nil
  | cons hr ht ih =>
    rw [List.nodup_cons] at hn ⊢
    refine ⟨?_, ih hn.2 fun a ha b hb => hR a (by simp [ha]) b (by simp [hb])⟩
    intro hf
    obtain ⟨e, he, h⟩ := hmem ht _ hf
    have := hR _ (by simp) e (by simp [he]) _ hr h
    exact hn.1 (this ▸ he)

/-- C06: no failure is given twice if full names identify the messages, enums and
services of the old schema, as protoc requires of files that are used together. -/
theorem C06_nodup (o : Order) (config : BreakConfig) (old new : PackageSet) (ho : SchemaOK old)
    (hn : SchemaOK new) (hd : ∀ q ∈ new, q.dependencyNames.Nodup) (hu : UniqueNames old)
    (fs : List Failure) (h : breakCheck o config old new = .ok fs) : fs.Nodup := by
  obtain ⟨es, h1, h2, h3⟩ := C06_once o config old new ho hn hd fs h
  refine nodup_of_pointwise h3 h1 ?_
  rintro ⟨id, e⟩ he ⟨id', e'⟩ he' f ⟨h1, h1'⟩ ⟨h2', h2''⟩
  have := named_unique hu (h2 _ he) (h2 _ he') h1' h2''
  simp only at this h1 h2'
  rw [this, ← h1, ← h2']

mutual
/-- The paths of a message and of the messages in it, with their enums. -/
def pathsOf : Message → List (List Str × List Enum)
  | .mk name nested enums _ _ => ([name], enums) :: (allPaths nested).map fun x => (name :: x.1, x.2)
/-- The paths of messages and of the messages in them. -/
def allPaths : List Message → List (List Str × List Enum)
  | [] => []
  | m :: ms => pathsOf m ++ allPaths ms
end

theorem mem_allPaths {ms : List Message} {m : Message} (hm : m ∈ ms) {x : List Str × List Enum}
    (h : x ∈ pathsOf m) : x ∈ allPaths ms := by
  induction ms with
  | nil => cases hm
  | cons a ms ih =>
    rw [allPaths]
    rcases List.mem_cons.1 hm with rfl | hm
    · exact List.mem_append_left _ h
    · exact List.mem_append_right _ (ih hm)

theorem messageAt_paths {ms : List Message} {path : List Str} {m : Message} (h : MessageAt ms path m) :
    (path, m.nestedEnums) ∈ allPaths ms := by
  induction h with
  | here hm =>
    refine mem_allPaths hm ?_
    rename_i m
    cases m
    simp [pathsOf, Message.name, Message.nestedEnums]
  | inside hm _ ih =>
    refine mem_allPaths hm ?_
    rename_i m _ _ _
    cases m
    rw [pathsOf]
    exact List.mem_cons_of_mem _ (List.mem_map.2 ⟨_, ih, rfl⟩)

/-- The scopes and names of the enums of a package. -/
def enumPaths (p : Package) : List (List Str × Str) :=
  p.enums.map (fun e => ([], e.name)) ++
    (allPaths p.messages).flatMap fun x => x.2.map fun e => (x.1, e.name)

theorem enumAt_paths {p : Package} {scope : List Str} {e : Enum} (h : EnumAt p scope e) :
    (scope, e.name) ∈ enumPaths p := by
  unfold enumPaths
  cases h with
  | top he => exact List.mem_append_left _ (List.mem_map.2 ⟨e, he, rfl⟩)
  | nested hm he =>
    exact List.mem_append_right _ (List.mem_flatMap.2 ⟨_, messageAt_paths hm, List.mem_map.2 ⟨e, he, rfl⟩⟩)

example : UniqueNames v1 where
  messages p hp q hq path m path' m' hm hm' := by
    have key : ∀ p ∈ v1, ∀ q ∈ v1, ∀ x ∈ allPaths p.messages, ∀ y ∈ allPaths q.messages,
        fullName p.name x.1 = fullName q.name y.1 → p.name = q.name ∧ x.1 = y.1 := by decide +kernel
    exact key p hp q hq _ (messageAt_paths hm) _ (messageAt_paths hm')
  enums p hp q hq scope e scope' e' he he' := by
    have key : ∀ p ∈ v1, ∀ q ∈ v1, ∀ x ∈ enumPaths p, ∀ y ∈ enumPaths q,
        fullName p.name (x.1 ++ [x.2]) = fullName q.name (y.1 ++ [y.2]) →
        p.name = q.name ∧ x.1 = y.1 ∧ x.2 = y.2 := by decide +kernel
    exact key p hp q hq _ (enumAt_paths he) _ (enumAt_paths he')
  services := by decide +kernel

end Verif.Props
