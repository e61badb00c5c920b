import Verif.Spec.Grpc
import Verif.Proof.Desc
import Verif.Proof.Split
import Verif.Proof.Map
import Verif.Proof.Exec

/-!
# Helper lemmas: the grpc command
-/

namespace Verif.Grpc

open Verif Str Descriptor Exec Spec

/-! ## First separator -/

theorem cut_some {sep : Str} (hsep : sep ≠ []) {s a b : Str} :
    cut sep s = some (a, b) ↔ FirstCut sep s a b := by
  have hdir : ∀ {s a b : Str}, cut sep s = some (a, b) → FirstCut sep s a b := by
    intro s
    induction s with
    | nil =>
      intro a b h
      unfold cut at h
      rw [if_neg (by simpa using hsep)] at h
      cases h
    | cons x xs ih =>
      intro a b h
      unfold cut at h
      by_cases hp : sep.isPrefixOf (x :: xs) = true
      · rw [if_pos hp] at h
        obtain ⟨t, ht⟩ := List.isPrefixOf_iff_prefix.1 hp
        injection h with h
        injection h with h1 h2
        subst h1
        refine ⟨?_, fun _ _ _ => Nat.zero_le _⟩
        rw [← h2, ← ht]
        simp
      · rw [if_neg hp] at h
        cases hc : cut sep xs with
        | none => rw [hc] at h; cases h
        | some p =>
          obtain ⟨a0, b0⟩ := p
          rw [hc] at h
          injection h with h
          injection h with h1 h2
          subst h1; subst h2
          obtain ⟨e, hmin⟩ := ih hc
          refine ⟨by rw [e]; simp, ?_⟩
          intro a' b' e'
          cases a' with
          | nil =>
            exfalso
            apply hp
            rw [List.isPrefixOf_iff_prefix]
            exact ⟨b', by rw [e']; simp⟩
          | cons y a' =>
            simp only [List.cons_append, List.cons.injEq] at e'
            have := hmin a' b' e'.2
            simpa using this
  constructor
  · exact hdir
  · rintro ⟨e, hmin⟩
    have hex : ∃ p, cut sep s = some p := by
      subst e
      clear hmin
      induction a with
      | nil =>
        cases hs : ([] ++ sep ++ b) with
        | nil => simp at hs; exact absurd hs.1 hsep
        | cons x xs =>
          unfold cut
          rw [if_pos (by rw [List.isPrefixOf_iff_prefix, ← hs]; exact ⟨b, by simp⟩)]
          exact ⟨_, rfl⟩
      | cons x a ih =>
        obtain ⟨p, hp⟩ := ih
        rw [List.cons_append, List.cons_append]
        unfold cut
        split
        · exact ⟨_, rfl⟩
        · rw [hp]; exact ⟨_, rfl⟩
    obtain ⟨⟨a0, b0⟩, hp⟩ := hex
    obtain ⟨e0, hmin0⟩ := hdir hp
    have hl : a.length = a0.length := Nat.le_antisymm (hmin a0 b0 e0) (hmin0 a b e)
    have e2 : a ++ (sep ++ b) = a0 ++ (sep ++ b0) := by
      rw [← List.append_assoc, ← List.append_assoc, ← e, ← e0]
    obtain ⟨h1, h2⟩ := List.append_inj e2 hl
    have h3 := List.append_cancel_left h2
    rw [hp, h1, h3]

theorem cut_none {sep : Str} (hsep : sep ≠ []) {s : Str} : cut sep s = none ↔ NotIn sep s := by
  constructor
  · intro h a b e
    have hex : ∃ a b, FirstCut sep s a b := by
      have : ∀ n, (∃ a b, s = a ++ sep ++ b ∧ a.length = n) → ∃ a b, FirstCut sep s a b := by
        intro n
        induction n using Nat.strongRecOn with
        | ind n ih =>
          rintro ⟨a, b, e, hn⟩
          rcases Classical.em (∃ a' b', s = a' ++ sep ++ b' ∧ a'.length < n) with ⟨a', b', e', hl⟩ | hno
          · exact ih _ hl ⟨a', b', e', rfl⟩
          · refine ⟨a, b, e, fun a' b' e' => ?_⟩
            rw [hn]
            exact Nat.not_lt.1 fun hl => hno ⟨a', b', e', hl⟩
      exact this _ ⟨a, b, e, rfl⟩
    obtain ⟨a0, b0, h0⟩ := hex
    rw [(cut_some hsep).2 h0] at h
    cases h
  · intro h
    cases hc : cut sep s with
    | none => rfl
    | some p => exact absurd ((cut_some hsep (a := p.1) (b := p.2)).1 hc).1 (h _ _)

theorem firstCut_unique {sep s a b a' b' : Str} (h : FirstCut sep s a b) (h' : FirstCut sep s a' b') :
    a = a' ∧ b = b' := by
  have hl : a.length = a'.length := Nat.le_antisymm (h.2 _ _ h'.1) (h'.2 _ _ h.1)
  have e : a ++ (sep ++ b) = a' ++ (sep ++ b') := by
    rw [← List.append_assoc, ← List.append_assoc, ← h.1, ← h'.1]
  obtain ⟨h1, h2⟩ := List.append_inj e hl
  exact ⟨h1, List.append_cancel_left h2⟩

/-! ## Services -/

/-- The services of a file with a full name. -/
def named (file : FileDesc) (name : Str) : List ServiceDesc :=
  file.services.filter fun s => file.package ++ s%"." ++ s.name = name

theorem servicesOf_cons (file : FileDesc) (set : FileSet) (name : Str) :
    servicesOf (file :: set) name = (named file name).map (fun s => (s, file)) ++ servicesOf set name := by
  unfold servicesOf named
  rw [List.flatMap_cons, List.filter_append, List.filter_map]
  rfl

/-- At most one may be found. -/
def atMostOne {α : Type} (err : Err) (found : Option α) : List α → Except Err (Option α)
  | [] => .ok found
  | [x] => match found with
    | none => .ok (some x)
    | some _ => .error err
  | _ => .error err

theorem findService_eq (path package : Str) (services : List ServiceDesc) (found : Option ServiceDesc) :
    findService path package services found =
      atMostOne (s%"duplicate services for path " ++ path) found
        (services.filter fun s => package ++ s%"." ++ s.name = path) := by
  induction services generalizing found with
  | nil => cases found <;> rfl
  | cons s services ih =>
    unfold findService
    by_cases h : package ++ s%"." ++ s.name = path
    · rw [if_pos h, List.filter_cons_of_pos (by simpa using h)]
      cases found with
      | some f => cases services.filter fun s => package ++ s%"." ++ s.name = path <;> rfl
      | none =>
        dsimp only
        rw [ih]
        cases services.filter fun s => package ++ s%"." ++ s.name = path with
        | nil => rfl
        | cons a l => cases l <;> rfl
    · rw [if_neg h, List.filter_cons_of_neg (by simpa using h), ih]

theorem findServiceDescriptorProto_eq {path : Str} {file : FileDesc} (h : file.package ≠ []) :
    findServiceDescriptorProto path file =
      atMostOne (s%"duplicate services for path " ++ path) none (named file path) := by
  unfold findServiceDescriptorProto
  rw [if_neg h]
  by_cases hp : hasPrefix path file.package = true
  · rw [hp]
    simp only [Bool.not_true, Bool.false_eq_true, if_false]
    rw [findService_eq]
    rfl
  · have hno : named file path = [] := by
      unfold named
      rw [List.filter_eq_nil_iff]
      intro s _ e
      simp only [decide_eq_true_eq] at e
      apply hp
      rw [hasPrefix_iff]
      exact ⟨s%"." ++ s.name, by rw [← e]; simp⟩
    have hp' : hasPrefix path file.package = false := by simpa using hp
    rw [hno, hp']
    rfl

theorem findInFiles_eq {path : Str} {set : FileSet} {found : Option (ServiceDesc × FileDesc)}
    (h : ∀ f ∈ set, f.package ≠ []) :
    findInFiles path set found =
      atMostOne (s%"duplicate services for path " ++ path) found (servicesOf set path) := by
  induction set generalizing found with
  | nil => cases found <;> rfl
  | cons file set ih =>
    have ih := fun found => ih (found := found) fun f hf => h f (by simp [hf])
    unfold findInFiles
    rw [findServiceDescriptorProto_eq (h file (by simp)), servicesOf_cons]
    cases hn : named file path with
    | nil =>
      show findInFiles path set found = _
      rw [ih]
      rfl
    | cons s l =>
      cases l with
      | nil =>
        cases found with
        | some p => cases servicesOf set path <;> rfl
        | none =>
          show findInFiles path set (some (s, file)) = _
          rw [ih]
          cases servicesOf set path with
          | nil => rfl
          | cons a l => cases l <;> rfl
      | cons s' l => rfl

/-- A file without package is an error. -/
theorem findInFiles_package {path : Str} {set : FileSet} {found : Option (ServiceDesc × FileDesc)}
    (h : ∃ f ∈ set, f.package = []) : ∃ e, findInFiles path set found = .error e := by
  induction set generalizing found with
  | nil => obtain ⟨f, hf, _⟩ := h; cases hf
  | cons file set ih =>
    unfold findInFiles
    by_cases hp : file.package = []
    · unfold findServiceDescriptorProto
      rw [if_pos hp]
      exact ⟨_, rfl⟩
    · have h' : ∃ f ∈ set, f.package = [] := by
        obtain ⟨f, hf, e⟩ := h
        rcases List.mem_cons.1 hf with rfl | hf
        · exact absurd e hp
        · exact ⟨f, hf, e⟩
      cases findServiceDescriptorProto path file with
      | error e => exact ⟨e, rfl⟩
      | ok o =>
        cases o with
        | none => exact ih h'
        | some s =>
          cases found with
          | some _ => exact ⟨_, rfl⟩
          | none => exact ih h'

theorem findInFiles_ok {path : Str} {set : FileSet} {r : Option (ServiceDesc × FileDesc)} :
    findInFiles path set none = .ok r ↔
      (∀ f ∈ set, f.package ≠ []) ∧
        ((r = none ∧ servicesOf set path = []) ∨ ∃ p, r = some p ∧ servicesOf set path = [p]) := by
  by_cases h : ∀ f ∈ set, f.package ≠ []
  · rw [findInFiles_eq h]
    cases hs : servicesOf set path with
    | nil => simp [Eq.comm, atMostOne]; exact fun _ => h
    | cons p l =>
      cases l with
      | nil => simp [Eq.comm, atMostOne]; exact fun _ => h
      | cons p' l => simp [atMostOne]
  · have h' : ∃ f ∈ set, f.package = [] := by
      apply Classical.byContradiction
      intro hno
      exact h fun f hf e => hno ⟨f, hf, e⟩
    obtain ⟨e, he⟩ := findInFiles_package (path := path) (found := none) h'
    rw [he]
    simp [h]

theorem findInSets_ok {path : Str} {sets : List FileSet} {info : ServiceInfo} :
    findInSets path sets = .ok info ↔ ServiceFor sets path info := by
  induction sets with
  | nil =>
    constructor
    · intro h; cases h
    · rintro ⟨before, after, e, _⟩; simp at e
  | cons set sets ih =>
    unfold findInSets
    constructor
    · intro h
      cases hf : findInFiles path set none with
      | error e => rw [hf] at h; cases h
      | ok r =>
        rw [hf] at h
        obtain ⟨hp, hr⟩ := findInFiles_ok.1 hf
        cases r with
        | some p =>
          obtain ⟨s, file⟩ := p
          injection h with h
          subst h
          refine ⟨[], sets, rfl, ?_, by simp, ?_⟩
          · intro set' hs'; simp only [List.nil_append, List.mem_singleton] at hs'; subst hs'; exact hp
          · rcases hr with ⟨e, _⟩ | ⟨p, e, hs⟩
            · cases e
            · injection e with e; rw [hs, ← e]
        | none =>
          obtain ⟨before, after, e, h1, h2, h3⟩ := ih.1 h
          have hs : servicesOf set path = [] := by
            rcases hr with ⟨_, hs⟩ | ⟨p, e, _⟩
            · exact hs
            · cases e
          refine ⟨set :: before, after, by rw [e]; rfl, ?_, ?_, h3⟩
          · intro s' hs'
            rcases List.mem_cons.1 hs' with rfl | hs'
            · exact hp
            · exact h1 s' hs'
          · intro s' hs'
            rcases List.mem_cons.1 hs' with rfl | hs'
            · exact hs
            · exact h2 s' hs'
    · rintro ⟨before, after, e, h1, h2, h3⟩
      cases before with
      | nil =>
        simp only [List.nil_append, List.cons.injEq] at e
        obtain ⟨rfl, rfl⟩ := e
        rw [findInFiles_ok.2 ⟨h1 _ (by simp), Or.inr ⟨_, rfl, h3⟩⟩]
      | cons b before =>
        simp only [List.cons_append, List.cons.injEq] at e
        obtain ⟨rfl, rfl⟩ := e
        rw [findInFiles_ok.2 ⟨h1 set (by simp), Or.inl ⟨rfl, h2 set (by simp)⟩⟩]
        exact ih.2 ⟨before, after, rfl, fun s hs => h1 s (List.mem_cons_of_mem _ hs), fun s hs => h2 s (by simp [hs]), h3⟩

/-! ## Headers -/

theorem parseHeaders_ok {headers : List Str} {m r : GoMap Str Str} (hn : (m.map (·.1)).Nodup) :
    parseHeaders headers m = .ok r →
      (∀ h ∈ headers, ∃ k v, FirstCut s%":" h k v) ∧ (r.map (·.1)).Nodup ∧
      ∀ k v, (k, v) ∈ r ↔ LastHeader headers k v ∨
        ((k, v) ∈ m ∧ ∀ h ∈ headers, ∀ v, ¬ FirstCut s%":" h k v) := by
  induction headers generalizing m with
  | nil =>
    intro h
    injection h with h
    subst h
    refine ⟨by simp, hn, fun k v => ?_⟩
    constructor
    · intro h; exact Or.inr ⟨h, by simp⟩
    · rintro (⟨b, h, a, e, _⟩ | h)
      · simp at e
      · exact h.1
  | cons header rest ih =>
    intro h
    unfold parseHeaders at h
    cases hc : cut s%":" header with
    | none => rw [hc] at h; cases h
    | some p =>
      obtain ⟨k0, v0⟩ := p
      rw [hc] at h
      dsimp only at h
      have hcut := (cut_some (by decide)).1 hc
      obtain ⟨h1, h2, h3⟩ := ih (GoMap.set_keys_nodup hn k0 v0) h
      refine ⟨?_, h2, ?_⟩
      · intro x hx
        rcases List.mem_cons.1 hx with rfl | hx
        · exact ⟨_, _, hcut⟩
        · exact h1 x hx
      · intro k v
        rw [h3]
        have hset : (k, v) ∈ m.set k0 v0 ↔ if k = k0 then v = v0 else (k, v) ∈ m := by
          have hn' := GoMap.set_keys_nodup hn k0 v0
          constructor
          · intro hm
            have := GoMap.get?_of_mem hn' hm
            rw [GoMap.get?_set] at this
            by_cases e : k = k0
            · rw [if_pos e]
              rw [e] at this
              simpa using this.symm
            · rw [if_neg e]
              rw [if_neg (by first | exact fun h => e h.symm | exact e)] at this
              exact GoMap.get?_some_mem this
          · intro hm
            apply GoMap.get?_some_mem
            rw [GoMap.get?_set]
            by_cases e : k = k0
            · rw [if_pos e] at hm
              rw [hm, e]
              simp
            · rw [if_neg e] at hm
              rw [if_neg (by first | exact fun h => e h.symm | exact e)]
              exact GoMap.get?_of_mem hn hm
        rw [hset]
        constructor
        · rintro (⟨b, x, a, e, hx, hl⟩ | ⟨hm, hno⟩)
          · exact Or.inl ⟨header :: b, x, a, by rw [e]; rfl, hx, hl⟩
          · by_cases e : k = k0
            · rw [if_pos e] at hm
              subst e hm
              exact Or.inl ⟨[], header, rest, rfl, hcut, hno⟩
            · rw [if_neg e] at hm
              refine Or.inr ⟨hm, ?_⟩
              intro x hx v' hv'
              rcases List.mem_cons.1 hx with rfl | hx
              · exact e (firstCut_unique hv' hcut).1
              · exact hno x hx v' hv'
        · rintro (⟨b, x, a, e, hx, hl⟩ | ⟨hm, hno⟩)
          · cases b with
            | nil =>
              simp only [List.nil_append, List.cons.injEq] at e
              obtain ⟨rfl, rfl⟩ := e
              obtain ⟨rfl, rfl⟩ := firstCut_unique hx hcut
              exact Or.inr ⟨by rw [if_pos rfl], hl⟩
            | cons y b =>
              simp only [List.cons_append, List.cons.injEq] at e
              exact Or.inl ⟨b, x, a, e.2, hx, hl⟩
          · have e : k ≠ k0 := by
              rintro rfl
              exact hno header (by simp) v0 hcut
            exact Or.inr ⟨by rw [if_neg e]; exact hm, fun x hx => hno x (by simp [hx])⟩

theorem parseHeaders_fails {headers : List Str} {m : GoMap Str Str} :
    (∃ e, parseHeaders headers m = .error e) ↔ ∃ h ∈ headers, NotIn s%":" h := by
  induction headers generalizing m with
  | nil => simp [parseHeaders]
  | cons header rest ih =>
    unfold parseHeaders
    cases hc : cut s%":" header with
    | none =>
      simp only [Except.error.injEq, exists_eq', true_iff]
      exact ⟨header, by simp, (cut_none (by decide)).1 hc⟩
    | some p =>
      dsimp only
      rw [ih]
      have : ¬ NotIn s%":" header := by
        rw [← cut_none (by decide), hc]; simp
      simp [this]

end Verif.Grpc
