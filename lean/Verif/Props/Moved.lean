import Verif.Proof.MovedSet
import Verif.Props.ExecFiles

/-!
# Moving the tree (C104)
-/

namespace Verif.Props

open Verif Verif.Spec Str Path Settings File

/-- C104: discovery in a tree that is moved finds the same files, displayed in the same way, with the
same settings, or fails at both places. The configuration of the command line, if any, is portable
too. -/
theorem C104_discovery (r r' : List Str) (c c' : Provider) (h : MovedProvider r r' c c') (o o' : Order)
    (w w' d d' : Str) (hw : MovedPath r r' (absClean c.wd w) (absClean c'.wd w'))
    (hd : MovedPath r r' (absClean c.wd d) (absClean c'.wd d'))
    (hdata : ∀ x e, Components x → absClean c.wd w = absPath (r ++ x) →
      jsonUnmarshalStrict c.configData = .ok e → Portable x.length e) :
    SameResult (MovedSet r r') (getForDirOf c o w d) (getForDirOf c' o' w' d') := by
  obtain ⟨x, hx, e1, e3⟩ := hw
  obtain ⟨y, hy, e2, e4⟩ := hd
  have hx' : Proof.Moved.DataPortable c x := fun e => hdata x e hx e1
  cases hg : getForDirOf c o w d with
  | ok ps =>
    obtain ⟨ps', h', hs⟩ := Proof.Moved.discovery h o o' hx hy hx' e1 e2 e3 e4 hg
    rw [h']
    exact hs
  | error e =>
    cases hg' : getForDirOf c' o' w' d' with
    | error e' => trivial
    | ok ps' =>
      have hx'' : Proof.Moved.DataPortable c' x := by
        unfold Proof.Moved.DataPortable
        rw [h.configData]
        exact hx'
      obtain ⟨ps, h2, _⟩ := Proof.Moved.discovery (Proof.Moved.providerSymm h) o' o hx hy hx'' e3 e4 e1 e2 hg'
      rw [hg] at h2
      cases h2

/-! ## A tree at two places -/

instance (c : Str) : Decidable (Component c) := inferInstanceAs (Decidable (_ ∧ _))

instance (cs : List Str) : Decidable (Components cs) := inferInstanceAs (Decidable (∀ _ ∈ _, _))

/-- The configuration of the example. -/
def movedConfig : ExternalConfig :=
  { excludes := [s%"b"], includes := [s%"a/../inc"], ignores := [(s%"MESSAGE_NAMES_CAMEL_CASE", [s%"a/x.proto"])],
    createPackages := [(s%"a", s%"foo.v1")], importPath := s%"m",
    plugins := [{ name := s%"go", type := s%"go", output := s%"./gen" }] }

/-- The tree of the example: a configuration at the root, which excludes `b`. -/
def movedTree : File.Node := .dir [(s%"a", .dir [(s%"x.proto", .file), (s%"z.proto", .file)]),
  (s%"b", .dir [(s%"y.proto", .file)]), (s%"b.proto", .file), (s%"prototool.yaml", .file)]

/-- The provider that sees it at a place. -/
def movedProvider (root : Str) : Provider :=
  { host :=
      { stat := fun p => decide (p = root ++ s%"/prototool.yaml")
        readFile := fun p => if p = root ++ s%"/prototool.yaml" then .ok s%"excludes" else .error p
        parseYAML := fun _ => .ok movedConfig }
    sort := SortSlice.stable
    develMode := false
    configData := []
    wd := root ++ s%"/a"
    tree := fun p => if p = root ++ s%"/a" then .dir [(s%"x.proto", .file), (s%"z.proto", .file)]
      else if p = root ++ s%"/b" then .dir [(s%"y.proto", .file)] else movedTree }

theorem movedProvider_moved : MovedProvider [s%"w"] [s%"home", s%"me"] (movedProvider s%"/w")
    (movedProvider s%"/home/me") := by
  have hr : Components [s%"w"] := by decide
  have hr' : Components [s%"home", s%"me"] := by decide
  have hat : ∀ (cs : List Str), Components cs → ∀ p p', MovedPath [s%"w"] [s%"home", s%"me"] p p' →
      (p' = absPath ([s%"home", s%"me"] ++ cs) ↔ p = absPath ([s%"w"] ++ cs)) :=
    fun cs hcs p p' k => (Proof.Moved.eq_iff hr hr' k (Proof.Moved.of cs hcs)).symm
  have hy := hat [s%"prototool.yaml"] (by decide)
  have ha := hat [s%"a"] (by decide)
  have hb := hat [s%"b"] (by decide)
  refine ⟨⟨hr, hr', ?_, ?_, rfl, ?_, ?_, ?_⟩, rfl, rfl, ?_, ?_, ⟨_, rfl⟩⟩
  · intro p p' k
    exact decide_eq_decide.2 (hy p p' k)
  · intro p p' k
    show SameResult _ (if p = absPath ([s%"w"] ++ [s%"prototool.yaml"]) then _ else _)
      (if p' = absPath ([s%"home", s%"me"] ++ [s%"prototool.yaml"]) then _ else _)
    by_cases e : p = absPath ([s%"w"] ++ [s%"prototool.yaml"])
    · rw [if_pos e, if_pos ((hy p p' k).2 e)]
      exact rfl
    · rw [if_neg e, if_neg (fun e' => e ((hy p p' k).1 e'))]
      trivial
  · exact Or.inl ⟨_, [s%"w"], s%"prototool.yaml", hr, Or.inl rfl, rfl, rfl, rfl⟩
  · exact Or.inl ⟨_, [s%"home", s%"me"], s%"prototool.yaml", hr', Or.inl rfl, rfl, rfl, rfl⟩
  · intro x name e hc he
    have hp : absPath ([s%"w"] ++ (x ++ [name])) = absPath ([s%"w"] ++ [s%"prototool.yaml"]) := by
      rw [← List.append_assoc]
      unfold getExternalConfig at he
      split at he
      · cases he
      · rename_i data hd
        have hd' : (if absPath ([s%"w"] ++ x ++ [name]) = absPath ([s%"w"] ++ [s%"prototool.yaml"]) then
          Except.ok s%"excludes" else Except.error (absPath ([s%"w"] ++ x ++ [name]))) = Except.ok data := hd
        split at hd'
        · assumption
        · cases hd'
    have := Proof.Moved.rel_inj hr hc (by decide) hp
    have := List.append_inj' (s₁ := x) (t₁ := [name]) (s₂ := []) (t₂ := [s%"prototool.yaml"]) this rfl
    obtain ⟨rfl, e2⟩ := this
    injection e2 with e2
    subst e2
    have he' : Except.ok movedConfig = (Except.ok e : Except Err ExternalConfig) := he
    injection he' with he'
    subst he'
    constructor <;> unfold InTree <;> decide
  · intro p p' k
    show (if p' = absPath ([s%"home", s%"me"] ++ [s%"a"]) then _ else
        if p' = absPath ([s%"home", s%"me"] ++ [s%"b"]) then _ else _) =
      (if p = absPath ([s%"w"] ++ [s%"a"]) then _ else if p = absPath ([s%"w"] ++ [s%"b"]) then _ else _)
    simp only [ha p p' k, hb p p' k]
  · intro p p' _
    have hx : ∀ name, Component name → TreeOK (.dir [(name, .file)]) := fun name hn =>
      treeOK_dir (by simp) (by simp [hn, treeOK_file])
    have h2 : TreeOK (.dir [(s%"x.proto", .file), (s%"z.proto", .file)]) := by
      refine treeOK_dir (by decide) fun e he => ?_
      simp only [List.mem_cons, List.not_mem_nil, or_false] at he
      rcases he with rfl | rfl
      · exact ⟨by decide, treeOK_file⟩
      · exact ⟨by decide, treeOK_file⟩
    show TreeOK (if p = _ then _ else if p = _ then _ else _)
    split
    · exact h2
    · split
      · exact hx _ (by decide)
      · refine treeOK_dir (by decide) fun e he => ?_
        simp only [List.mem_cons, List.not_mem_nil, or_false] at he
        rcases he with rfl | rfl | rfl | rfl
        · exact ⟨by decide, h2⟩
        · exact ⟨by decide, hx _ (by decide)⟩
        · exact ⟨by decide, treeOK_file⟩
        · exact ⟨by decide, treeOK_file⟩

/-- Non-vacuity: discovery in the subdirectory `a` of the tree, at both places. -/
example : SameResult (MovedSet [s%"w"] [s%"home", s%"me"])
    (getForDirOf (movedProvider s%"/w") Order.id s%"." s%".")
    (getForDirOf (movedProvider s%"/home/me") Order.rev s%"." s%".") ∧
    (getForDirOf (movedProvider s%"/w") Order.id s%"." s%".").toOption.map (fun ps =>
      ps.dirPathToFiles.map fun x => (x.1, x.2.map (·.displayPath))) =
        some [(s%"/w/a", [s%"x.proto", s%"z.proto"]), (s%"/w", [s%"../b.proto"])] ∧
    (getForDirOf (movedProvider s%"/home/me") Order.rev s%"." s%".").toOption.map (fun ps =>
      ps.dirPathToFiles.map fun x => (x.1, x.2.map (·.displayPath))) =
        some [(s%"/home/me", [s%"../b.proto"]), (s%"/home/me/a", [s%"x.proto", s%"z.proto"])] := by
  refine ⟨?_, by decide +kernel, by decide +kernel⟩
  have hp : MovedPath [s%"w"] [s%"home", s%"me"] (absClean (movedProvider s%"/w").wd s%".")
      (absClean (movedProvider s%"/home/me").wd s%".") :=
    ⟨[s%"a"], by decide, by decide +kernel, by decide +kernel⟩
  refine C104_discovery _ _ _ _ movedProvider_moved Order.id Order.rev s%"." s%"." s%"." s%"." hp hp ?_
  intro x e _ _ h
  have : (jsonUnmarshalStrict []).toOption.isNone = true := by decide +kernel
  rw [show jsonUnmarshalStrict [] = .ok e from h] at this
  cases this

end Verif.Props
