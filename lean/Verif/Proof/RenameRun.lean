import Verif.Proof.RenameAll
import Verif.Proof.GenIgnores

/-! # Runs on the same files under other names -/

namespace Verif.Lint

open Verif Proto Spec Props

variable {ρ : Str → Str}

/-! ## Failures in any order -/

theorem pointwise_perm {α β : Type} {R : α → β → Prop} {a a' : List α} (hp : a.Perm a') :
    ∀ {b : List β}, Pointwise R a b → ∃ b', b'.Perm b ∧ Pointwise R a' b' := by
  induction hp with
  | nil => exact fun h => ⟨_, .refl _, h⟩
  | cons x _ ih =>
    intro b h
    cases h with
    | cons h1 h2 =>
      obtain ⟨b', h3, h4⟩ := ih h2
      exact ⟨_, h3.cons _, .cons h1 h4⟩
  | swap x y l =>
    intro b h
    cases h with
    | cons h1 h2 =>
      cases h2 with
      | cons h3 h4 => exact ⟨_, .swap _ _ _, .cons h3 (.cons h1 h4)⟩
  | trans _ _ ih ih' =>
    intro b h
    obtain ⟨b', h1, h2⟩ := ih h
    obtain ⟨b'', h3, h4⟩ := ih' h2
    exact ⟨b'', h3.trans h1, h4⟩

theorem FailsSim.append {a b a' b' : List Text.Failure} (h : FailsSim ρ a a')
    (h' : FailsSim ρ b b') : FailsSim ρ (a ++ b) (a' ++ b') := by
  obtain ⟨c, h1, h2⟩ := h
  obtain ⟨c', h1', h2'⟩ := h'
  exact ⟨c ++ c', h1.append h1', Protoc.pointwise_append h2 h2'⟩

theorem FailsSim.flatMap {α : Type} (xs : List α) {f g : α → List Text.Failure}
    (h : ∀ x ∈ xs, FailsSim ρ (f x) (g x)) : FailsSim ρ (xs.flatMap f) (xs.flatMap g) := by
  induction xs with
  | nil => exact ⟨[], .refl _, .nil⟩
  | cons x xs ih =>
    rw [List.flatMap_cons, List.flatMap_cons]
    exact (h x List.mem_cons_self).append (ih fun y hy => h y (List.mem_cons_of_mem _ hy))

theorem FailsSim.perm {a b a' b' : List Text.Failure} (h : FailsSim ρ a b) (ha : a.Perm a')
    (hb : b.Perm b') : FailsSim ρ a' b' := by
  obtain ⟨c, h1, h2⟩ := h
  obtain ⟨c', h3, h4⟩ := pointwise_perm ha h2
  exact ⟨c', h3.trans (h1.trans hb), h4⟩

/-! ## The renaming -/

/-- The name in the other run of the file with this name. -/
def otherName (a b : Bool) (fs : List File.ProtoFile) (n : Str) : Str :=
  match fs.find? fun f => nameIn a f = n with
  | some f => nameIn b f
  | none => n

theorem _root_.Verif.Spec.Displayed.nameIn_inj {host : Host} {ps : File.ProtoSet} (hd : Displayed host ps) (a b : Bool)
    {f g : File.ProtoFile} (hf : f ∈ allFiles ps) (hg : g ∈ allFiles ps)
    (h : nameIn a f = nameIn a g) : nameIn b f = nameIn b g := by
  have := hd.unique f hf g hg
  cases a <;> cases b
  · exact h
  · exact this.2 h
  · exact this.1 h
  · exact h

theorem _root_.Verif.Spec.Displayed.other {host : Host} {ps : File.ProtoSet} (hd : Displayed host ps) (a b : Bool)
    {f : File.ProtoFile} (hf : f ∈ allFiles ps) :
    otherName a b (allFiles ps) (nameIn a f) = nameIn b f := by
  unfold otherName
  cases h : (allFiles ps).find? fun g => nameIn a g = nameIn a f with
  | none =>
    have := List.find?_eq_none.1 h f hf
    simp at this
  | some g =>
    have h1 := List.find?_some h
    have h2 := List.mem_of_find?_eq_some h
    exact hd.nameIn_inj a b h2 hf (by simpa using h1)

theorem sound_nonempty {host : Host} {ps : File.ProtoSet} {a : Bool} (hs : Sound host ps a)
    {f : File.ProtoFile} (hf : f ∈ allFiles ps) : nameIn a f ≠ [] := by
  obtain ⟨p, hp, hf⟩ := List.mem_flatMap.1 hf
  have := (hs.files p hp f hf).1
  intro h
  rw [h] at this
  exact absurd this (by decide)

theorem _root_.Verif.Spec.Displayed.renaming {host : Host} {ps : File.ProtoSet} (hd : Displayed host ps) {a b : Bool}
    (hs : Sound host ps a) (hs' : Sound host ps b) :
    Renaming (otherName a b (allFiles ps)) := by
  have key : ∀ n, otherName a b (allFiles ps) n = n ∨
      ∃ f ∈ allFiles ps, nameIn a f = n ∧ otherName a b (allFiles ps) n = nameIn b f := by
    intro n
    unfold otherName
    cases h : (allFiles ps).find? fun g => nameIn a g = n with
    | none => exact .inl rfl
    | some g =>
      exact .inr ⟨g, List.mem_of_find?_eq_some h, by simpa using List.find?_some h, rfl⟩
  refine ⟨?_, fun n hn => ?_, fun n => ?_⟩
  · rcases key [] with h | ⟨f, hf, h1, _⟩
    · exact h
    · exact absurd h1 (sound_nonempty hs hf)
  · rcases key n with h | ⟨f, hf, _, h2⟩
    · rw [h]; exact hn
    · rw [h2]; exact sound_nonempty hs' hf
  · rcases key n with h | ⟨f, hf, h1, h2⟩
    · rw [h]
    · rw [h2, ← h1]
      have := hd.base f hf
      cases a <;> cases b
      · rfl
      · exact this.symm
      · exact this
      · rfl

theorem _root_.Verif.Spec.Displayed.liesAt {host : Host} {ps : File.ProtoSet} (hd : Displayed host ps) (a : Bool)
    {f : File.ProtoFile} (hf : f ∈ allFiles ps) : LiesAt host (nameIn a f) f.path := by
  cases a with
  | false => exact hd.lies f hf
  | true =>
    show LiesAt host f.path f.path
    unfold LiesAt
    rw [if_pos (hd.absolute f hf)]

theorem _root_.Verif.Spec.Displayed.kept_eq {host : Host} {ps : File.ProtoSet} (hd : Displayed host ps) (a b : Bool)
    {f : File.ProtoFile} (hf : f ∈ allFiles ps) (m : GoMap Str (List Str)) (id : Str) :
    kept host ps.config.dirPath m id (nameIn b f) = kept host ps.config.dirPath m id (nameIn a f) := by
  have h : ∀ a, IgnoredFor host ps.config.dirPath m id (nameIn a f) ↔
      ∃ paths, GoMap.get? m id = some paths ∧ ExcludedBy f.path ps.config.dirPath paths := by
    intro a
    constructor
    · rintro ⟨paths, path, h1, h2, h3⟩
      rw [liesAt_unique h2 (hd.liesAt a hf)] at h3
      exact ⟨paths, h1, h3⟩
    · rintro ⟨paths, h1, h3⟩
      exact ⟨paths, f.path, h1, hd.liesAt a hf, h3⟩
  unfold kept
  exact decide_eq_decide.2 (not_congr ((h b).trans (h a).symm))

/-! ## Runs -/

theorem descriptorsOf_rename {host : Host} {ps : File.ProtoSet} (hd : Displayed host ps)
    (hc : ParsesByContent host) {a b : Bool} {fs : List File.ProtoFile}
    (hfs : ∀ f ∈ fs, f ∈ allFiles ps) {ds : List FileDescriptor}
    (h : descriptorsOf host ps a fs = .ok ds) :
    descriptorsOf host ps b fs = .ok (ds.map (·.rename (otherName a b (allFiles ps)))) ∧
      ∀ d ∈ ds, ∃ f ∈ allFiles ps, d.filename = nameIn a f := by
  induction fs generalizing ds with
  | nil => cases h; exact ⟨rfl, fun _ h => nomatch h⟩
  | cons f fs ih =>
    have hf := hfs f List.mem_cons_self
    unfold descriptorsOf at h
    cases hx : descriptorOf host ps a f with
    | error e => rw [hx] at h; cases h
    | ok d =>
      rw [hx] at h
      dsimp only at h
      cases hr : descriptorsOf host ps a fs with
      | error e => rw [hr] at h; cases h
      | ok ds' =>
        rw [hr] at h
        cases h
        obtain ⟨h1, h2⟩ := ih (fun f h => hfs f (List.mem_cons_of_mem _ h)) hr
        unfold descriptorOf at hx
        dsimp only at hx
        cases hparse : host.parse f.path (if a then f.path else f.displayPath) with
        | error e => rw [hparse] at hx; cases hx
        | ok x =>
          obtain ⟨els, data⟩ := x
          rw [hparse] at hx
          cases hx
          have hp := hc _ _ _ _ hparse (otherName a b (allFiles ps))
          have hn : otherName a b (allFiles ps) (if a then f.path else f.displayPath) =
              (if b then f.path else f.displayPath) := hd.other a b hf
          rw [hn] at hp
          constructor
          · unfold descriptorsOf descriptorOf
            dsimp only
            rw [hp]
            dsimp only
            rw [h1]
            unfold FileDescriptor.rename
            rw [List.map_cons]
            dsimp only
            rw [hn]
          · intro d hd'
            rcases List.mem_cons.1 hd' with rfl | hd'
            · exact ⟨f, hf, rfl⟩
            · exact h2 d hd'

theorem dirResults_rename {host : Host} {ps : File.ProtoSet} (hd : Displayed host ps)
    (hc : ParsesByContent host) {a b : Bool} {dirs : List (Str × List FileDescriptor)}
    (h : dirResults host ps a = dirs.map .ok) :
    dirResults host ps b =
      (dirs.map fun p => (p.1, p.2.map (·.rename (otherName a b (allFiles ps))))).map .ok ∧
    ∀ p ∈ dirs, ∀ d ∈ p.2, ∃ f ∈ allFiles ps, d.filename = nameIn a f := by
  unfold dirResults at *
  have hin : ∀ p ∈ ps.dirPathToFiles.filter fun p => Str.hasPrefix p.1 ps.dirPath,
      ∀ f ∈ p.2, f ∈ allFiles ps := fun p hp f hf =>
    List.mem_flatMap.2 ⟨p, (List.mem_filter.1 hp).1, hf⟩
  generalize ps.dirPathToFiles.filter (fun p => Str.hasPrefix p.1 ps.dirPath) = entries at h hin ⊢
  induction entries generalizing dirs with
  | nil =>
    cases dirs with
    | nil => exact ⟨rfl, fun _ h => nomatch h⟩
    | cons _ _ => cases h
  | cons p entries ih =>
    cases dirs with
    | nil => cases h
    | cons q dirs =>
      rw [List.map_cons, List.map_cons, List.cons.injEq] at h
      obtain ⟨h1, h2⟩ := h
      obtain ⟨i1, i2⟩ := ih h2 fun p hp => hin p (List.mem_cons_of_mem _ hp)
      cases hr : descriptorsOf host ps a p.2 with
      | error e => rw [hr] at h1; cases h1
      | ok ds =>
        rw [hr] at h1
        cases h1
        obtain ⟨j1, j2⟩ := descriptorsOf_rename (b := b) hd hc (hin p List.mem_cons_self) hr
        constructor
        · rw [List.map_cons, List.map_cons, List.map_cons, j1, i1]
        · intro x hx
          rcases List.mem_cons.1 hx with rfl | hx
          · exact j2
          · exact i2 x hx

/-- What a rule reports is in one of the files. -/
theorem check_lands {env : Env} {l : Linter} (hl : l ∈ allLinters env) {dirPath : Str}
    {ds : List FileDescriptor} (hp : ∀ d ∈ ds, Parsed d) {fs : List Text.Failure}
    (h : l.check dirPath ds = some (.ok fs)) : ∀ f ∈ fs, ∃ d ∈ ds, f.filename = d.filename := by
  intro f hf
  rcases rule_cases env l hl with ⟨_, hs⟩ | hs
  · obtain ⟨g, h1, h2, _⟩ := hs dirPath ds fs hp h
    rw [h1] at hf
    obtain ⟨d, hd, hf⟩ := List.mem_flatMap.1 hf
    exact ⟨d, hd, (h2 d hd f hf).1⟩
  · obtain ⟨fs', h1, h2⟩ := hs.lands dirPath ds hp
    rw [h] at h1
    cases h1
    exact (h2 f hf).2

theorem pointwise_mono {α β : Type} {R R' : α → β → Prop} {a : List α} {b : List β}
    (h : Pointwise R a b) (hR : ∀ x ∈ a, ∀ y, R x y → R' x y) : Pointwise R' a b := by
  induction h with
  | nil => exact .nil
  | cons h _ ih =>
    exact .cons (hR _ List.mem_cons_self _ h) (ih fun x hx => hR x (List.mem_cons_of_mem _ hx))

/-- The run under other names reports the same. -/
theorem run_rename {env : Env} {host : Host} {ps : File.ProtoSet} {a b : Bool}
    (hs : Sound host ps a) (hs' : Sound host ps b) (hc : ParsesByContent host)
    (hd : Displayed host ps) {m : GoMap Str (List Str)} {fs : List Text.Failure}
    (h : run env host (ignoring m ps) a = some (.ok fs)) :
    ∃ gs, run env host (ignoring m ps) b = some (.ok gs) ∧
      ∃ gs', gs'.Perm gs ∧ Pointwise (SamePlace ps a b) fs gs' := by
  obtain ⟨ls, hl, dirs, hdirs, hok, rfl⟩ := (run_ignoring_iff hs).1 h
  have hall : ∀ l ∈ ls, l ∈ allLinters env := by
    rcases getLinters_spec env (ignoring m ps).config.lint with ⟨_, ls', h1, h2, _⟩ | ⟨_, e, h1⟩
    · rw [hl] at h1; cases h1; exact h2
    · rw [hl] at h1; cases h1
  obtain ⟨hdirs', hfile⟩ := dirResults_rename (b := b) hd hc hdirs
  have hgood := dirResults_good hs hdirs
  have hρ := hd.renaming hs hs'
  generalize hr : otherName a b (allFiles ps) = ρ at hρ hdirs'
  have hkept : ∀ p ∈ dirs, ∀ l : Linter,
      ((p.2.map (·.rename ρ)).filter fun d => kept host ps.config.dirPath m l.id d.filename) =
        (p.2.filter fun d => kept host ps.config.dirPath m l.id d.filename).map (·.rename ρ) := by
    intro p hp l
    rw [List.filter_map]
    congr 1
    refine List.filter_congr fun d hdm => ?_
    obtain ⟨f, hf, hn⟩ := hfile p hp d hdm
    show kept host ps.config.dirPath m l.id (ρ d.filename) = _
    rw [hn, ← hr, hd.other a b hf]
    exact hd.kept_eq a b hf m l.id
  have hsim : ∀ p ∈ dirs, ∀ l ∈ ls, ∃ x y,
      l.check p.1 (p.2.filter fun d => kept host ps.config.dirPath m l.id d.filename) =
        some (.ok x) ∧
      l.check p.1 ((p.2.map (·.rename ρ)).filter fun d =>
        kept host ps.config.dirPath m l.id d.filename) = some (.ok y) ∧ FailsSim ρ x y := by
    intro p hp l hlm
    obtain ⟨x, hx⟩ := hok p hp l hlm
    have := labels_all hρ env l (hall l hlm) p.1
      (p.2.filter fun d => kept host ps.config.dirPath m l.id d.filename)
    rw [hkept p hp l]
    rw [hx] at this
    cases hy : l.check p.1 ((p.2.filter fun d =>
        kept host ps.config.dirPath m l.id d.filename).map (·.rename ρ)) with
    | none => rw [hy] at this; cases this
    | some r =>
      rw [hy] at this
      cases this with
      | ok h => exact ⟨x, _, hx, rfl, h⟩
  refine ⟨_, (run_ignoring_iff hs').2 ⟨ls, hl, _, hdirs', ?_, rfl⟩, ?_⟩
  · intro q hq l hlm
    obtain ⟨p, hp, rfl⟩ := List.mem_map.1 hq
    obtain ⟨x, y, _, h2, _⟩ := hsim p hp l hlm
    exact ⟨y, h2⟩
  · rw [List.flatMap_map]
    have hflat : FailsSim ρ
        (dirs.flatMap fun p => ls.flatMap fun l => okOf (l.check p.1
          (p.2.filter fun d => kept host ps.config.dirPath m l.id d.filename)))
        (dirs.flatMap fun p => ls.flatMap fun l => okOf (l.check p.1
          ((p.2.map (·.rename ρ)).filter fun d =>
            kept host ps.config.dirPath m l.id d.filename))) := by
      refine .flatMap _ fun p hp => .flatMap _ fun l hlm => ?_
      obtain ⟨x, y, h1, h2, h3⟩ := hsim p hp l hlm
      rw [h1, h2]
      exact h3
    obtain ⟨gs', hp, hpw⟩ := hflat.perm (C18_sorted _).1.symm (C18_sorted _).1.symm
    refine ⟨gs', hp, pointwise_mono hpw fun f hf g hfg => ?_⟩
    obtain ⟨h1, h2, h3, h4⟩ := hfg
    rw [(C18_sorted _).1.mem_iff] at hf
    obtain ⟨p, hpm, hf⟩ := List.mem_flatMap.1 hf
    obtain ⟨l, hlm, hf⟩ := List.mem_flatMap.1 hf
    obtain ⟨x, y, hx, _, _⟩ := hsim p hpm l hlm
    rw [hx] at hf
    obtain ⟨d, hdm, he⟩ := check_lands (hall l hlm)
      (fun d hd => (hgood p hpm d (List.mem_filter.1 hd).1).parsed) hx f hf
    obtain ⟨file, hfm, hn⟩ := hfile p hpm d (List.mem_filter.1 hdm).1
    refine ⟨h1, h2, h3, file, hfm, he.trans hn, ?_⟩
    rw [h4, he, hn, ← hr, hd.other a b hfm]

end Verif.Lint
