import Verif.Spec.ExecMore
import Verif.Proof.ExecLint
import Verif.Proof.ExecPrint
import Verif.Props.Reflect

/-!
# Helper lemmas about Verif.Model.ExecMore
-/

namespace Verif.Exec

open Verif Str Descriptor Extract Spec

/-! ## Links between packages are listed once -/

theorem linkDependency_nodup {b : Bool} {name d : Str} {ps ps' : List XPackage}
    (h : linkDependency b name ps d = .ok ps')
    (hn : ∀ p ∈ ps, p.dependencies.Nodup ∧ p.importers.Nodup) :
    ∀ p ∈ ps', p.dependencies.Nodup ∧ p.importers.Nodup := by
  unfold linkDependency at h
  split at h
  · split at h
    · cases h; exact hn
    · cases h
  · cases h
    intro p hp
    obtain ⟨q, hq, rfl⟩ := List.mem_map.1 hp
    obtain ⟨r, hr, rfl⟩ := List.mem_map.1 hq
    obtain ⟨h1, h2⟩ := hn r hr
    split <;> split <;> exact ⟨by first | exact h1 | exact setInsert_nodup h1 _,
      by first | exact h2 | exact setInsert_nodup h2 _⟩

theorem linkDependencies_nodup {b : Bool} {name : Str} {ds : List Str} {ps ps' : List XPackage}
    (h : linkDependencies b name ds ps = .ok ps')
    (hn : ∀ p ∈ ps, p.dependencies.Nodup ∧ p.importers.Nodup) :
    ∀ p ∈ ps', p.dependencies.Nodup ∧ p.importers.Nodup := by
  induction ds generalizing ps with
  | nil => cases h; exact hn
  | cons d ds ih =>
    rw [linkDependencies] at h
    split at h
    · cases h
    · rename_i h1
      exact ih h (linkDependency_nodup h1 hn)

theorem linkPackages_nodup {b : Bool} {l ps ps' : List XPackage} (h : linkPackages b l ps = .ok ps')
    (hn : ∀ p ∈ ps, p.dependencies.Nodup ∧ p.importers.Nodup) :
    ∀ p ∈ ps', p.dependencies.Nodup ∧ p.importers.Nodup := by
  induction l generalizing ps with
  | nil => cases h; exact hn
  | cons p l ih =>
    rw [linkPackages] at h
    split at h
    · cases h
    · rename_i h1
      exact ih h (linkDependencies_nodup h1 hn)

theorem newPackageSet_nodup {o : Order} {ps : Reflect.PackageSet} {b : Bool} {x : XPackageSet}
    (h : newPackageSet o ps b = .ok x) :
    ∀ p ∈ x.packages, p.dependencies.Nodup ∧ p.importers.Nodup := by
  unfold newPackageSet at h
  dsimp only at h
  split at h
  · cases h
  · rename_i linked hl
    split at h
    · cases h
    · rename_i packages hf
      cases h
      have hfill := Proof.Extract.fill_protos (Proof.Extract.mapLoop_inv hf)
      have hn := linkPackages_nodup hl (by
        intro p hp
        have := List.mem_of_getLast? (mem_kmap hp)
        obtain ⟨q, _, rfl⟩ := List.mem_map.1 (List.mem_filter.1 this).1
        exact ⟨List.nodup_nil, List.nodup_nil⟩)
      intro p hp
      have : (p.proto, p.dependencies, p.importers) ∈
          linked.map (fun p => (p.proto, p.dependencies, p.importers)) :=
        hfill ▸ List.mem_map_of_mem (f := fun p => (p.proto, p.dependencies, p.importers)) hp
      obtain ⟨q, hq, e⟩ := List.mem_map.1 this
      have := hn q hq
      simp only [Prod.mk.injEq] at e
      rw [← e.2.1, ← e.2.2]
      exact this

/-! ## The package set of an argument -/

/-- The package set of descriptor sets that protoc produces. -/
theorem packageSetOf_ok {s : SortSlice} {o : Order} {marshal : FileDesc → Except Err Str}
    {sets : List FileSet} (hf : FaithfulOn marshal fun f => f ∈ sets.flatten)
    (hv : DescriptorsOK sets.flatten) :
    ∃ ps x, Reflect.newPackageSet s o marshal sets = .ok ps ∧ DescribesSet sets.flatten ps ∧
      newPackageSet o ps false = .ok x ∧ Breaking.packageSetOf s o marshal sets = .ok x := by
  obtain ⟨ps, h1, hok⟩ := Props.C12_schemaOK s o marshal sets hf hv
  obtain ⟨x, h2⟩ := Proof.Extract.newPackageSet_isOk o hok.names hok.packages false
    fun p hp _ d hd _ => hok.dependencies p hp d hd
  refine ⟨ps, x, h1, Props.C12_describes s o marshal sets hf ps h1, h2, ?_⟩
  unfold Breaking.packageSetOf
  rw [h1]
  exact h2

theorem getPackageSetAndConfig_of {h : Host} (hp : Prints h) {t : Tools} {site : Str} {args : List Str}
    {m : Meta} {sets : List FileSet} {x : XPackageSet} {w : World}
    (hc : CompilesTo h args { doFileDescriptorSet := true } w.disk m sets)
    (hx : Breaking.packageSetOf t.srt (t.order.sub site) t.marshal sets = .ok x) :
    getPackageSetAndConfig h t site args w = (w, .ok (x, m.protoSet.config)) := by
  unfold getPackageSetAndConfig
  rw [bind_of_ok (getMeta_ok.2 ⟨rfl, hc.1⟩),
    bind_of_ok ((compile_ok hp).2 ⟨hc.2.1, hc.2.2, rfl⟩), hx]
  rfl

theorem getPackageSetAndConfig_error {h : Host} (hp : Prints h) {t : Tools} {site : Str} {args : List Str}
    {m : Meta} {sets : List FileSet} {e : Err} {w : World}
    (hc : CompilesTo h args { doFileDescriptorSet := true } w.disk m sets)
    (hx : Breaking.packageSetOf t.srt (t.order.sub site) t.marshal sets = .error e) :
    getPackageSetAndConfig h t site args w = (w, .error (.other e)) := by
  unfold getPackageSetAndConfig
  rw [bind_of_ok (getMeta_ok.2 ⟨rfl, hc.1⟩),
    bind_of_ok ((compile_ok hp).2 ⟨hc.2.1, hc.2.2, rfl⟩), hx]
  rfl

theorem quiet_getPackageSetAndConfig (h : Host) (t : Tools) (site : Str) (args : List Str) :
    Quiet (getPackageSetAndConfig h t site args) :=
  quiet_bind (quiet_getMeta h args) fun _ => quiet_bind (quiet_compile _ _ _ _) fun _ =>
    quiet_bind (quiet_lift _) fun _ => quiet_pure _

theorem quiet_getPackage (h : Host) (t : Tools) (args : List Str) (name : Str) :
    Quiet (getPackage h t args name) := by
  unfold getPackage
  split
  · exact quiet_exit _
  · refine quiet_bind (quiet_getPackageSetAndConfig h t _ args) fun r => ?_
    split
    · exact quiet_fail _
    · exact quiet_pure _

theorem quiet_breakReport (h : Host) (t : Tools) (c : Settings.Config) (frm to : XPackageSet) :
    Quiet (breakReport h t c frm to) := by
  unfold breakReport
  refine quiet_bind (quiet_lift _) fun fs => ?_
  split
  · exact quiet_bind (quiet_printFailuresFor _ _ _ _ _) fun _ => quiet_exit _
  · exact quiet_pure _

/-! ## Listings -/

theorem extractSort_listing (o : Order) {names : List Str} (hn : names.Nodup) (he : [] ∉ names) :
    Listing (extractSortPackageNames o names) fun n => n ∈ names := by
  have hf : (o.ord [s%"extractSortPackageNames"] names).filter (fun n => decide (n ≠ [])) =
      o.ord [s%"extractSortPackageNames"] names := by
    rw [List.filter_eq_self]
    intro n hm
    have := (o.perm _ _).mem_iff.1 hm
    simp only [ne_eq, decide_not, Bool.not_eq_true', decide_eq_false_iff_not]
    rintro rfl
    exact he this
  unfold extractSortPackageNames
  rw [hf]
  refine ⟨sortStrs_strict ((o.perm _ _).nodup_iff.2 hn), fun n => ?_⟩
  rw [mem_sortStrs]
  exact (o.perm _ _).mem_iff

theorem printPackageNames_ok {h : Host} (hp : Prints h) (t : Tools) {names : List Str} (hn : names.Nodup)
    (he : [] ∉ names) (w : World) :
    ∃ l, printPackageNames h t names w = ({ w with out := w.out ++ nameLines l }, .ok ()) ∧
      Listing l fun n => n ∈ names := by
  have hl := extractSort_listing t.order hn he
  refine ⟨_, ?_, hl⟩
  unfold printPackageNames
  rw [printAll_ok' hp]
  · rfl
  · rintro s hs rfl
    exact he ((hl.2 _).1 hs)

/-! ## Reports of break check -/

theorem fprintln_message (f : Text.Failure) :
    Text.fprintln f [Text.fieldMessage] = (if f.message = [] then [] else f.message ++ s%"\n", true) := by
  unfold Text.fprintln Text.fprintGo Text.fieldOutput
  have h1 : Text.fieldMessage ≠ Text.fieldFilename := by decide
  have h2 : Text.fieldMessage ≠ Text.fieldLine := by decide
  have h3 : Text.fieldMessage ≠ Text.fieldColumn := by decide
  have h4 : Text.fieldMessage ≠ Text.fieldID := by decide
  simp only [List.length_cons, List.length_nil, Nat.zero_add, Nat.one_ne_zero, if_false, h1, h2, h3, h4,
    if_true]
  by_cases h : f.message = []
  · simp [h, Text.fprintGo]
  · simp [h, Text.fprintGo]

theorem failureLines_message {h : Host} (hj : h.json = true → ∀ f, ∃ t, h.toJSON f = .ok t)
    (l : List Text.Failure) (out : Str) :
    failureLines h none [Text.fieldMessage] l out = (out ++ l.flatMap (breakLine h), none) := by
  induction l generalizing out with
  | nil => simp [failureLines]
  | cons f l ih =>
    unfold failureLines
    have hs : shouldPrint h none f = true := rfl
    rw [if_pos hs]
    have hl : failureLine h [Text.fieldMessage] f = .ok (breakLine h f) := by
      unfold failureLine breakLine
      by_cases hb : h.json = true
      · obtain ⟨t, e⟩ := hj hb f
        simp [hb, e]
      · rw [if_neg hb, if_neg hb, fprintln_message]
    rw [hl]
    show failureLines h none _ l (out ++ breakLine h f) = _
    rw [ih, List.flatMap_cons, List.append_assoc]

theorem printFailures_message {h : Host} (hp : Prints h) (hj : h.json = true → ∀ f, ∃ t, h.toJSON f = .ok t)
    (fs : List Text.Failure) (w : World) :
    printFailuresFor h s%"message" [] none fs w = ({ w with out := w.out ++ breakLines h fs }, .ok ()) := by
  have hm : Text.parseColonSeparatedFailureFields s%"message" = some [Text.fieldMessage] := by decide
  unfold printFailuresFor
  rw [hm]
  simp only [if_true]
  rw [failureLines_message hj]
  show write h _ w = _
  rw [write_of_prints hp]
  rfl

theorem breakReport_ok {h : Host} (hp : Prints h) (hj : h.json = true → ∀ f, ∃ t, h.toJSON f = .ok t)
    {t : Tools} {c : Settings.Config} {frm to : XPackageSet} {fs : List Text.Failure}
    (hr : Breaking.run t.order c.break_ frm to = .ok fs) (w : World) :
    breakReport h t c frm to w = ({ w with out := w.out ++ breakLines h fs }, breakOutcome fs) := by
  unfold breakReport
  rw [hr, bind_of_ok (show Run.lift (.ok fs) w = (w, .ok fs) from rfl)]
  cases fs with
  | nil =>
    rw [if_neg (by simp)]
    show (w, Outcome.ok ()) = ({ w with out := w.out ++ [] }, Outcome.ok ())
    rw [List.append_nil]
  | cons f fs =>
    rw [if_pos (by simp), bind_of_ok (printFailures_message hp hj _ w)]
    rfl

end Verif.Exec
