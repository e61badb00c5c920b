import Verif.Props.DescriptorSet
import Verif.Props.Init
import Verif.Props.Interrupt
import Verif.Props.RoundTrip

/-!
# Stopped commands that write one file: C101, continued
-/

namespace Verif.Props

open Verif Str Descriptor Spec Exec

/-- There is only one way to merge sets. -/
theorem _root_.Verif.Spec.IsMerged.unique {sets : List FileSet} {a b : FileSet} (ha : IsMerged sets a) (hb : IsMerged sets b) : a = b := by
  have hne : ∀ {l : FileSet}, (l.Pairwise fun a b => Str.lt a.name b.name = true) → l.Nodup := by
    intro l hl
    refine hl.imp ?_
    rintro a b hab rfl
    rw [Str.lt_irrefl] at hab
    cases hab
  have hp : a.Perm b := by
    refine (List.perm_ext_iff_of_nodup (hne ha.1) (hne hb.1)).2 fun f => ?_
    rw [ha.2, hb.2]
  refine List.Perm.eq_of_pairwise (fun x y _ _ hxy hyx => ?_) ha.1 hb.1 hp
  rw [Str.lt_asymm hxy] at hyx
  cases hyx

/-- C101: **`descriptor-set -o` that is stopped at any moment, in its write too, touches only its output, and started
again it ends well and leaves what it would have left**, as long as protoc does not read the output. -/
theorem C101_descriptor_set_again (h : Host) (hp : Prints h) (t : Tools) (args : List Str) (imports info : Bool)
    (m : Meta) (sets : List FileSet) (w : World) (path : Str) (hpath : path ≠ [])
    (hc : CompilesTo h args { fullControl := true, includeImports := imports, includeSourceInfo := info } w.disk m sets)
    (hs : FaithfulOn t.sum fun f => f ∈ sets.flatten) (hnames : ∀ f ∈ sets.flatten, f.name ≠ [])
    (hone : ∀ f ∈ sets.flatten, ∀ g ∈ sets.flatten, f.name = g.name → f = g)
    (henc : ∀ set, ∃ data, (if h.json then t.encodeJSON set else t.encodeProto set) = .ok data)
    (hcreate : t.create path = .ok ()) (hwrite : ∀ data, t.writeTo path data = .ok ()) (hclose : t.close path = none)
    (apart : ∀ flags text, h.compile flags (Disk.set w.disk path text) m.protoSet = h.compile flags w.disk m.protoSet) :
    ∃ data, (descriptorSetCmd h t args imports info path false w).2 = .ok () ∧
      (descriptorSetCmd h t args imports info path false w).1.writes = w.writes ++ [(path, data)] ∧
      (descriptorSetCmd h t args imports info path false w).1.disk = Disk.set w.disk path (some data) ∧
      ∀ w' : World, (StoppedBetween w.disk [(path, data)] w'.disk ∨ StoppedIn w.disk [(path, data)] w'.disk path data) →
        (∀ q, q ≠ path → w'.disk q = w.disk q) ∧
        (descriptorSetCmd h t args imports info path false w').2 = .ok () ∧
        (descriptorSetCmd h t args imports info path false w').1.disk =
          (descriptorSetCmd h t args imports info path false w).1.disk := by
  obtain ⟨set, hset, hall⟩ := C67_written h hp t args imports info m sets w hc hs hnames hone
  obtain ⟨data, hdata⟩ := henc set
  have hrun := (hall data hdata).2.1 path hpath hcreate (hwrite data) hclose
  refine ⟨data, by rw [hrun], by rw [hrun], by rw [hrun], ?_⟩
  have again : ∀ w' : World, (w'.disk = w.disk ∨ ∃ text, w'.disk = Disk.set w.disk path (some text)) →
      (∀ q, q ≠ path → w'.disk q = w.disk q) ∧
        (descriptorSetCmd h t args imports info path false w').2 = .ok () ∧
        (descriptorSetCmd h t args imports info path false w').1.disk =
          (descriptorSetCmd h t args imports info path false w).1.disk := by
    intro w' hw'
    have hc' : CompilesTo h args
        { fullControl := true, includeImports := imports, includeSourceInfo := info } w'.disk m sets := by
      refine ⟨hc.1, hc.2.1, ?_⟩
      rcases hw' with e | ⟨text, e⟩
      · rw [e]; exact hc.2.2
      · rw [e, apart]; exact hc.2.2
    obtain ⟨set', hset', hall'⟩ := C67_written h hp t args imports info m sets w' hc' hs hnames hone
    have e := hset'.unique hset
    subst e
    have hrun' := (hall' data hdata).2.1 path hpath hcreate (hwrite data) hclose
    refine ⟨?_, by rw [hrun'], ?_⟩
    · intro q hq
      rcases hw' with e | ⟨text, e⟩
      · rw [e]
      · rw [e]; exact if_neg hq
    · rw [hrun', hrun]
      dsimp only
      rcases hw' with e | ⟨text, e⟩
      · rw [e]
      · rw [e]
        funext q
        unfold Disk.set
        split <;> rfl
  intro w' hl
  refine again w' ?_
  rcases hl with ⟨done, rest, h1, h2⟩ | ⟨done, rest, begun, h1, h2, h3⟩
  · cases done with
    | nil => exact .inl h2
    | cons x done =>
      rw [List.cons_append, List.cons.injEq] at h1
      obtain ⟨rfl, h1⟩ := h1
      have hd : done = [] := (List.append_eq_nil_iff.1 h1.symm).1
      subst hd
      exact .inr ⟨_, h2⟩
  · cases done with
    | nil => exact .inr ⟨begun, h3⟩
    | cons x done =>
      rw [List.cons_append, List.cons.injEq] at h1
      have := (List.append_eq_nil_iff.1 h1.2.symm).2
      cases this

/-- C101: `config init` that is stopped between its steps leaves the disk as it was or as it would have left it, and
started again in the first case it ends well and leaves the same. Missing: the moments in its write
(`C101_init_refused`). -/
theorem C101_init_resumed_partial (h : Host) (t : Tools) (args : List Str) (uncomment document : Bool) (w w1 : World)
    (hok : initCmd h t args uncomment document w = (w1, .ok ())) (new : List (Str × Str))
    (hn : w1.writes = w.writes ++ new) (w' : World) (hl : StoppedBetween w.disk new w'.disk) :
    w'.disk = w1.disk ∨ w'.disk = w.disk ∧ (initCmd h t args uncomment document w').2 = .ok () ∧
      (initCmd h t args uncomment document w').1.disk = w1.disk := by
  obtain ⟨hnone, data, hcfg, hdisk, hwr, hout⟩ := C71_written h t args uncomment document w w1 hok
  have hnew : new = [(configPath h args, data)] := List.append_cancel_left (hn.symm.trans hwr)
  have ha : args.length ≤ 1 := by
    refine Decidable.byContradiction fun hc => ?_
    unfold initCmd at hok
    rw [if_pos (by omega)] at hok
    cases hok
  have hfinal : w1.disk = Disk.set w.disk (configPath h args) (some data) := by
    funext q
    unfold Disk.set
    split
    · next e => rw [e, hdisk]
    · next e =>
      have := C71_only h t args uncomment document w q e
      rw [hok] at this
      exact this
  have shape : ∀ v : World, v.disk = w.disk → (initCmd h t args uncomment document v).2 =
      (initCmd h t args uncomment document w).2 ∧
      (initCmd h t args uncomment document v).1.disk = (initCmd h t args uncomment document w).1.disk := by
    intro v hv
    unfold initCmd
    rw [if_neg (by omega)]
    have step : ∀ dirPath : Str, ∀ u : World, u.disk = w.disk →
        ((if (u.disk (Path.joinPath [dirPath, defaultConfigFilename])).isSome then
            (u, Outcome.error (RunErr.other (Path.joinPath [dirPath, defaultConfigFilename] ++ s%" already exists")))
          else (Run.bind (Run.lift (t.config uncomment document)) fun data =>
            writeFile h (Path.joinPath [dirPath, defaultConfigFilename]) data) u).2 =
        (if (w.disk (Path.joinPath [dirPath, defaultConfigFilename])).isSome then
            (w, Outcome.error (RunErr.other (Path.joinPath [dirPath, defaultConfigFilename] ++ s%" already exists")))
          else (Run.bind (Run.lift (t.config uncomment document)) fun data =>
            writeFile h (Path.joinPath [dirPath, defaultConfigFilename]) data) w).2) ∧
        ((if (u.disk (Path.joinPath [dirPath, defaultConfigFilename])).isSome then
            (u, Outcome.error (RunErr.other (Path.joinPath [dirPath, defaultConfigFilename] ++ s%" already exists")))
          else (Run.bind (Run.lift (t.config uncomment document)) fun data =>
            writeFile h (Path.joinPath [dirPath, defaultConfigFilename]) data) u).1.disk =
        (if (w.disk (Path.joinPath [dirPath, defaultConfigFilename])).isSome then
            (w, Outcome.error (RunErr.other (Path.joinPath [dirPath, defaultConfigFilename] ++ s%" already exists")))
          else (Run.bind (Run.lift (t.config uncomment document)) fun data =>
            writeFile h (Path.joinPath [dirPath, defaultConfigFilename]) data) w).1.disk) := by
      intro dirPath u hu
      rw [hu]
      split
      · exact ⟨rfl, hu⟩
      · cases t.config uncomment document with
        | error e => exact ⟨rfl, hu⟩
        | ok data =>
          show (writeFile h _ data u).2 = (writeFile h _ data w).2 ∧
            (writeFile h _ data u).1.disk = (writeFile h _ data w).1.disk
          unfold writeFile
          dsimp only
          rw [hu]
          cases h.writeFile (Path.joinPath [dirPath, defaultConfigFilename]) data <;> exact ⟨rfl, rfl⟩
    clear hok hn hl hnone hdisk hwr hfinal hnew
    match args, ha with
    | [], _ => exact step h.workDirPath v hv
    | [a], _ =>
      dsimp only
      cases t.mkdirAll a with
      | error e => exact ⟨rfl, hv⟩
      | ok _ => exact step a v hv
  obtain ⟨done, rest, h1, h2⟩ := hl
  rw [hnew] at h1
  cases done with
  | nil =>
    obtain ⟨s1, s2⟩ := shape w' h2
    rw [hok] at s1 s2
    exact .inr ⟨h2, s1, s2⟩
  | cons x done =>
    rw [List.cons_append, List.cons.injEq] at h1
    obtain ⟨rfl, h1⟩ := h1
    have hd : done = [] := (List.append_eq_nil_iff.1 h1.symm).1
    subst hd
    left
    rw [h2, hfinal]
    rfl

/-- C101 is false of `config init` that is stopped in its write: **whatever part of the configuration is there, even
none, the same command is refused from then on** and leaves it as it is. -/
theorem C101_init_refused (h : Host) (t : Tools) (args : List Str) (uncomment document : Bool) (w w1 : World)
    (hok : initCmd h t args uncomment document w = (w1, .ok ())) (new : List (Str × Str))
    (hn : w1.writes = w.writes ++ new) (w' : World) (path text : Str) (hl : StoppedIn w.disk new w'.disk path text) :
    path = configPath h args ∧ (∃ begun, begun <+: text ∧ w'.disk path = some begun) ∧
      ∀ uncomment' document', ∃ e, initCmd h t args uncomment' document' w' = (w', .error (.other e)) := by
  obtain ⟨_, data, _, _, hwr, _⟩ := C71_written h t args uncomment document w w1 hok
  have hnew : new = [(configPath h args, data)] := List.append_cancel_left (hn.symm.trans hwr)
  obtain ⟨done, rest, begun, h1, h2, h3⟩ := hl
  rw [hnew] at h1
  cases done with
  | cons x done =>
    rw [List.cons_append, List.cons.injEq] at h1
    have := (List.append_eq_nil_iff.1 h1.2.symm).2
    cases this
  | nil =>
    rw [List.nil_append, List.cons.injEq, Prod.mk.injEq] at h1
    obtain ⟨⟨rfl, rfl⟩, _⟩ := h1
    have hd : w'.disk (configPath h args) = some begun := by
      rw [h3]
      exact if_pos rfl
    exact ⟨rfl, ⟨begun, h2, hd⟩, fun u d => C71_kept h t args u d w' begun hd⟩

section Example

open Exec.Sample ReflectExample

/-- `C101_init_refused` and `C101_init_resumed_partial` at work. -/
example : ∃ w1, initCmd repoHost tools [s%"a/b"] false false world = (w1, .ok ()) ∧
    w1.writes = world.writes ++ [(s%"a/b/prototool.yaml", s%"protoc:\n")] ∧
    StoppedBetween world.disk [(s%"a/b/prototool.yaml", s%"protoc:\n")] world.disk ∧
    StoppedIn world.disk [(s%"a/b/prototool.yaml", s%"protoc:\n")]
      (Disk.set world.disk s%"a/b/prototool.yaml" (some s%"pro")) s%"a/b/prototool.yaml" s%"protoc:\n" :=
  ⟨_, rfl, rfl, ⟨[], _, rfl, rfl⟩, ⟨[], [], s%"pro", rfl, ⟨s%"toc:\n", rfl⟩, rfl⟩⟩

/-- `C101_descriptor_set_again` at work: an output that is empty, or half there. -/
example (path : Str) (hpath : path ≠ []) (begun : Str) (hb : begun <+: s%"base.proto\nuser.proto\n") :
    (descriptorSetCmd oldHost roundTools [s%"a"] true false path false
      { world with disk := Disk.set world.disk path (some begun) }).1.disk path =
        some s%"base.proto\nuser.proto\n" := by
  have hc : CompilesTo oldHost [s%"a"] { fullControl := true, includeImports := true } world.disk dir old :=
    ⟨⟨s%"a", .inl rfl, .inl ⟨rfl, rfl, rfl⟩⟩, ⟨_, rfl⟩, rfl⟩
  have hnames : ∀ f ∈ old.flatten, f.name ≠ [] := by
    intro f hf
    rcases mem_old.1 hf with rfl | rfl <;> decide
  obtain ⟨data, _, h2, h3, h4⟩ := C101_descriptor_set_again oldHost (fun _ _ => rfl) roundTools [s%"a"] true false dir old
    world path hpath hc old_faithful hnames old_reflectable.one_copy (fun _ => ⟨_, rfl⟩) rfl (fun _ => rfl) rfl
    (fun _ _ => rfl)
  obtain ⟨set, hs, hall⟩ := C67_written oldHost (fun _ _ => rfl) roundTools [s%"a"] true false dir old world
    hc old_faithful hnames old_reflectable.one_copy
  have hrun := (hall _ rfl).2.1 path hpath rfl rfl rfl
  rw [merged_old hs] at hrun
  rw [hrun] at h2
  have hdata := List.append_cancel_left h2
  injection hdata with hdata _
  injection hdata with _ hdata
  have hdata : data = s%"base.proto\nuser.proto\n" := hdata.symm
  obtain ⟨_, _, h5⟩ := h4 { world with disk := Disk.set world.disk path (some begun) }
    (.inr ⟨[], [], begun, rfl, hdata ▸ hb, rfl⟩)
  rw [h5, h3, hdata]
  exact if_pos rfl

end Example

end Verif.Props
