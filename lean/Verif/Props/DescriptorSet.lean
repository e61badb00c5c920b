import Verif.Proof.ExecMore
import Verif.Props.Desc
import Verif.Props.ExecMoreSample

/-!
# What descriptor-set writes and where (C67)
-/

namespace Verif.Props

open Verif Str Descriptor Spec Exec

/-- C67: both places for the output at once are refused. -/
theorem C67_flags (h : Host) (t : Tools) (args : List Str) (imports info : Bool) (path : Str)
    (hp : path ≠ []) (w : World) :
    descriptorSetCmd h t args imports info path true w =
      (w, .error (.exit 255 s%"can only set one of output-path, tmp")) := by
  unfold descriptorSetCmd
  rw [if_pos ⟨hp, rfl⟩]
  rfl

/-- The place the output is written to: the given path or the name of the temporary file. -/
def IsTarget (t : Tools) (outputPath : Str) (tmp : Bool) (p : Str) : Prop :=
  outputPath ≠ [] ∧ p = outputPath ∨ outputPath = [] ∧ tmp = true ∧ t.tempFile = .ok p

theorem openOutput_cases (t : Tools) (outputPath : Str) (tmp : Bool) (ht : outputPath ≠ [] ∨ tmp = true)
    (w : World) :
    (∃ e, openOutput t outputPath w = (w, .error e)) ∨
      ∃ p, IsTarget t outputPath tmp p ∧
        openOutput t outputPath w = ({ w with disk := Disk.set w.disk p (some []) }, .ok p) := by
  unfold openOutput IsTarget
  dsimp only
  by_cases hp : outputPath = []
  · rw [if_neg (by simp [hp])]
    have ht : tmp = true := ht.resolve_left (by simp [hp])
    cases hf : t.tempFile with
    | error e => exact .inl ⟨_, rfl⟩
    | ok p => exact .inr ⟨p, .inr ⟨hp, ht, rfl⟩, rfl⟩
  · rw [if_pos hp]
    cases t.create outputPath with
    | error e => exact .inl ⟨_, rfl⟩
    | ok _ => exact .inr ⟨_, .inl ⟨hp, rfl⟩, rfl⟩

theorem closing_world (t : Tools) (p : Str) (r : Run Unit) (w : World) :
    (closing t p r w).1 = (r w).1 := by
  unfold closing
  rcases r w with ⟨w', a | e | _⟩ <;> cases t.close p <;> rfl

theorem writeTo_disk (t : Tools) (p data : Str) (w : World) (q : Str) (hq : q ≠ p) :
    (writeTo t p data w).1.disk q = w.disk q := by
  unfold writeTo
  dsimp only
  rcases t.writeTo p data with ⟨e, left⟩ | _ <;> exact if_neg hq

/-- C67: however it ends, the only file that may differ afterwards is the output. -/
theorem C67_only (h : Host) (t : Tools) (args : List Str) (imports info : Bool) (outputPath : Str)
    (tmp : Bool) (w : World) (q : Str) (hq : ¬IsTarget t outputPath tmp q) :
    (descriptorSetCmd h t args imports info outputPath tmp w).1.disk q = w.disk q := by
  unfold descriptorSetCmd
  split
  · rfl
  have step : ∀ {α β : Type} {m : Run α} {f : α → Run β}, Quiet m →
      (∀ a w, (f a w).1.disk q = w.disk q) → ∀ w, (Run.bind m f w).1.disk q = w.disk q := by
    intro α β m f hm hf w
    have := (hm w).1
    unfold Run.bind
    revert this
    rcases m w with ⟨w1, a | e | _⟩
    · intro hd
      exact (hf a w1).trans (congrFun hd q)
    · exact fun hd => congrFun hd q
    · exact fun hd => congrFun hd q
  refine step (quiet_getMeta h args) (fun m => ?_) w
  refine step (quiet_doCompile h _ rfl m) fun sets => ?_
  refine step (quiet_lift _) fun set => ?_
  refine step (quiet_lift _) fun data w => ?_
  split
  · exact congrFun (quiet_write h data w).1 q
  · rename_i hn
    have ht : outputPath ≠ [] ∨ tmp = true := by
      by_cases hp : outputPath = []
      · right
        cases tmp
        · exact absurd ⟨hp, rfl⟩ hn
        · rfl
      · exact .inl hp
    rcases openOutput_cases t outputPath tmp ht w with ⟨e, he⟩ | ⟨p, hp, he⟩
    · unfold Run.bind
      rw [he]
    · have hqp : q ≠ p := fun e => hq (e ▸ hp)
      rw [bind_of_ok he, closing_world]
      have hset : (Disk.set w.disk p (some [])) q = w.disk q := if_neg hqp
      have hw := writeTo_disk t p data { w with disk := Disk.set w.disk p (some []) } q hqp
      unfold Run.bind
      revert hw
      rcases writeTo t p data { w with disk := Disk.set w.disk p (some []) } with ⟨w1, a | e | _⟩
      · intro hw
        dsimp only
        split
        · exact ((congrFun (quiet_println h p w1).1 q).trans hw).trans hset
        · exact hw.trans hset
      · exact fun hw => hw.trans hset
      · exact fun hw => hw.trans hset

/-- C67: unless the files compile, nothing is created or emptied. -/
theorem C67_compiles_first (h : Host) (hp : Prints h) (t : Tools) (args : List Str) (imports info : Bool)
    (outputPath : Str) (tmp : Bool) (w : World)
    (hno : ∀ m sets, ¬CompilesTo h args
      { fullControl := true, includeImports := imports, includeSourceInfo := info } w.disk m sets) :
    (descriptorSetCmd h t args imports info outputPath tmp w).1.disk = w.disk ∧
      (descriptorSetCmd h t args imports info outputPath tmp w).1.writes = w.writes := by
  unfold descriptorSetCmd
  split
  · exact ⟨rfl, rfl⟩
  rcases hm : getMeta h args w with ⟨w1, m | e | _⟩
  · obtain ⟨rfl, hm'⟩ := getMeta_ok.1 hm
    rw [bind_of_ok hm]
    have hq := quiet_doCompile h
      { fullControl := true, includeImports := imports, includeSourceInfo := info } rfl m w1
    rcases hc : doCompile h
      { fullControl := true, includeImports := imports, includeSourceInfo := info } m w1 with
      ⟨w2, sets | e | _⟩
    · obtain ⟨h1, h2, _⟩ := (doCompile_ok hp).1 hc
      exact absurd ⟨hm', h1, h2⟩ (hno m sets)
    · rw [hc] at hq
      unfold Run.bind
      rw [hc]
      exact hq
    · rw [hc] at hq
      unfold Run.bind
      rw [hc]
      exact hq
  · have hq := quiet_getMeta h args w
    rw [hm] at hq
    unfold Run.bind
    rw [hm]
    exact hq
  · have hq := quiet_getMeta h args w
    rw [hm] at hq
    unfold Run.bind
    rw [hm]
    exact hq

theorem inSets_iff {sets : List FileSet} {f : FileDesc} :
    InSets (sets.map fun s => some (s.map some)) f ↔ f ∈ sets.flatten := by
  unfold InSets
  rw [List.mem_flatten]
  constructor
  · rintro ⟨set, h1, h2⟩
    obtain ⟨s, hs, e⟩ := List.mem_map.1 h1
    cases e
    obtain ⟨g, hg, e⟩ := List.mem_map.1 h2
    cases e
    exact ⟨s, hs, hg⟩
  · rintro ⟨s, hs, hf⟩
    exact ⟨s.map some, List.mem_map.2 ⟨s, hs, rfl⟩, List.mem_map.2 ⟨f, hf, rfl⟩⟩

/-- C67: the output is the encoding of one set with all compiled files, each once and in order of
names: on standard output, in the file of the given path, or in a new file whose name is
printed. -/
theorem C67_written (h : Host) (hp : Prints h) (t : Tools) (args : List Str) (imports info : Bool)
    (m : Meta) (sets : List FileSet) (w : World)
    (hc : CompilesTo h args
      { fullControl := true, includeImports := imports, includeSourceInfo := info } w.disk m sets)
    (hs : FaithfulOn t.sum fun f => f ∈ sets.flatten) (hnames : ∀ f ∈ sets.flatten, f.name ≠ [])
    (hone : ∀ f ∈ sets.flatten, ∀ g ∈ sets.flatten, f.name = g.name → f = g) :
    ∃ set, IsMerged sets set ∧
      ∀ data, (if h.json then t.encodeJSON set else t.encodeProto set) = .ok data →
        descriptorSetCmd h t args imports info [] false w = ({ w with out := w.out ++ data }, .ok ()) ∧
        (∀ path, path ≠ [] → t.create path = .ok () → t.writeTo path data = .ok () → t.close path = none →
          descriptorSetCmd h t args imports info path false w =
            ({ w with disk := Disk.set w.disk path (some data), writes := w.writes ++ [(path, data)] },
              .ok ())) ∧
        (∀ path, path ≠ [] → t.tempFile = .ok path → t.writeTo path data = .ok () → t.close path = none →
          descriptorSetCmd h t args imports info [] true w =
            ({ disk := Disk.set w.disk path (some data), out := w.out ++ path ++ s%"\n",
               writes := w.writes ++ [(path, data)] }, .ok ())) := by
  have hs' : FaithfulOn t.sum (InSets (sets.map fun s => some (s.map some))) :=
    ⟨fun f hf => hs.total f (inSets_iff.1 hf),
      fun f g x hf hg => hs.injective f g x (inSets_iff.1 hf) (inSets_iff.1 hg)⟩
  obtain ⟨set, hset⟩ := (C10_succeeds_iff t.srt t.sum _ hs').2 ⟨⟨by simp, by
      intro s hmem
      obtain ⟨s', _, e⟩ := List.mem_map.1 hmem
      cases e
      simp⟩, fun f hf => hnames f (inSets_iff.1 hf),
    fun f g hf hg => hone f (inSets_iff.1 hf) g (inSets_iff.1 hg)⟩
  have hu := C10_union t.srt t.sum _ hs' set hset
  refine ⟨set, ⟨hu.1, fun f => (hu.2 f).trans inSets_iff⟩, ?_⟩
  intro data hdata
  have hdd : ∀ d : Disk, ∀ p a b, Disk.set (Disk.set d p a) p b = Disk.set d p b := by
    intro d p a b
    funext q
    unfold Disk.set
    split <;> rfl
  have hcomp := (doCompile_ok hp (m := m) (w := w) (w' := w) (sets := sets)
    (flags := { fullControl := true, includeImports := imports, includeSourceInfo := info })).2
      ⟨hc.2.1, hc.2.2, rfl⟩
  have hmeta := (getMeta_ok (w := w) (w' := w)).2 ⟨rfl, hc.1⟩
  have hl1 : Run.lift (.ok set : Except Err FileSet) w = (w, .ok set) := rfl
  have hl2 : Run.lift (.ok data : Except Err Str) w = (w, .ok data) := rfl
  refine ⟨?_, ?_, ?_⟩
  · unfold descriptorSetCmd
    rw [if_neg (by simp), bind_of_ok hmeta, bind_of_ok hcomp, hset, bind_of_ok hl1, hdata, bind_of_ok hl2,
      if_pos ⟨rfl, rfl⟩]
    exact write_of_prints hp data w
  · intro path hpath hcreate hwrite hclose
    unfold descriptorSetCmd
    rw [if_neg (by simp), bind_of_ok hmeta, bind_of_ok hcomp, hset, bind_of_ok hl1, hdata, bind_of_ok hl2,
      if_neg (by simp [hpath])]
    have ho : openOutput t path w = ({ w with disk := Disk.set w.disk path (some []) }, .ok path) := by
      unfold openOutput
      simp only [hpath, ne_eq, not_false_eq_true, if_true]
      rw [hcreate]
    have hwr : writeTo t path data { w with disk := Disk.set w.disk path (some []) } =
        ({ w with disk := Disk.set w.disk path (some data), writes := w.writes ++ [(path, data)] }, .ok ()) := by
      unfold writeTo
      dsimp only
      rw [hwrite]
      dsimp only
      rw [hdd]
    rw [bind_of_ok ho]
    unfold closing
    rw [bind_of_ok hwr, hclose]
    rfl
  · intro path hpath htemp hwrite hclose
    unfold descriptorSetCmd
    rw [if_neg (by simp), bind_of_ok hmeta, bind_of_ok hcomp, hset, bind_of_ok hl1, hdata, bind_of_ok hl2,
      if_neg (by simp)]
    have ho : openOutput t [] w = ({ w with disk := Disk.set w.disk path (some []) }, .ok path) := by
      unfold openOutput
      simp only [ne_eq, not_true_eq_false, if_false]
      rw [htemp]
    have hwr : writeTo t path data { w with disk := Disk.set w.disk path (some []) } =
        ({ w with disk := Disk.set w.disk path (some data), writes := w.writes ++ [(path, data)] }, .ok ()) := by
      unfold writeTo
      dsimp only
      rw [hwrite]
      dsimp only
      rw [hdd]
    rw [bind_of_ok ho]
    unfold closing
    rw [bind_of_ok hwr, hclose, if_pos rfl]
    unfold println
    rw [if_neg hpath, write_of_prints hp]
    dsimp only
    rw [List.append_assoc]

/-- C67: with an output path or `--tmp`, the command only ends well if everything was written to
that file and closing it worked. -/
theorem C67_success (h : Host) (t : Tools) (args : List Str) (imports info : Bool) (outputPath : Str)
    (tmp : Bool) (ht : outputPath ≠ [] ∨ tmp = true) (w w' : World)
    (hrun : descriptorSetCmd h t args imports info outputPath tmp w = (w', .ok ())) :
    ∃ p data, IsTarget t outputPath tmp p ∧ t.writeTo p data = .ok () ∧ t.close p = none ∧
      w'.disk p = some data := by
  unfold descriptorSetCmd at hrun
  split at hrun
  · cases hrun
  obtain ⟨w1, m, _, hrun⟩ := bind_ok.1 hrun
  obtain ⟨w2, sets, _, hrun⟩ := bind_ok.1 hrun
  obtain ⟨w3, set, _, hrun⟩ := bind_ok.1 hrun
  obtain ⟨w4, data, _, hrun⟩ := bind_ok.1 hrun
  rw [if_neg (by rcases ht with h | h <;> simp [h])] at hrun
  obtain ⟨w5, p, ho, hrun⟩ := bind_ok.1 hrun
  rcases openOutput_cases t outputPath tmp ht w4 with ⟨e, he⟩ | ⟨p', hp', he⟩
  · rw [he] at ho
    cases ho
  rw [he] at ho
  cases ho
  refine ⟨p, data, hp', ?_⟩
  have hworld := closing_world t p (Run.bind (writeTo t p data) fun _ =>
    if tmp = true then println h p else Run.pure ()) { w4 with disk := Disk.set w4.disk p (some []) }
  rw [hrun] at hworld
  unfold closing at hrun
  have hok : t.close p = none ∧ ∃ w6, (Run.bind (writeTo t p data) fun _ =>
      if tmp = true then println h p else Run.pure ()) { w4 with disk := Disk.set w4.disk p (some []) } =
        (w6, .ok ()) := by
    revert hrun
    rcases (Run.bind (writeTo t p data) fun _ =>
      if tmp = true then println h p else Run.pure ()) { w4 with disk := Disk.set w4.disk p (some []) } with
      ⟨w6, u | e | _⟩ <;> cases t.close p <;> intro hrun <;> first | exact ⟨rfl, w6, rfl⟩ | cases hrun
  obtain ⟨hclose, w6, hw6⟩ := hok
  rw [hw6] at hworld
  change w' = w6 at hworld
  subst hworld
  obtain ⟨w7, _, hwr, hpr⟩ := bind_ok.1 hw6
  have hdisk : w'.disk = w7.disk := by
    have := quiet_println h p w7
    revert hpr
    split
    · intro hpr
      rw [hpr] at this
      exact this.1
    · intro hpr
      cases hpr
      rfl
  unfold writeTo at hwr
  dsimp only at hwr
  revert hwr
  rcases t.writeTo p data with ⟨e, left⟩ | _
  · intro hwr
    cases hwr
  · intro hwr
    cases hwr
    refine ⟨rfl, hclose, ?_⟩
    rw [hdisk]
    exact if_pos rfl

/-- C67: `break descriptor-set` always includes the imports and insists on a path. -/
theorem C67_break_descriptor_set (h : Host) (t : Tools) (args : List Str) (w : World) :
    breakDescriptorSetCmd h t args [] w = (w, .error (.exit 255 s%"must set output-path")) ∧
    ∀ path, path ≠ [] → breakDescriptorSetCmd h t args path = descriptorSetCmd h t args true false path false := by
  refine ⟨rfl, fun path hp => ?_⟩
  unfold breakDescriptorSetCmd
  rw [if_neg hp]

open Exec.Sample ReflectExample

example : (descriptorSetCmd repoHost tools [s%"a"] true false [] true world).1.out =
    s%"/tmp/prototool1\n" := by decide +kernel
example : (descriptorSetCmd repoHost tools [s%"a"] true false [] true world).1.disk s%"/tmp/prototool1" =
    some s%"base.proto\nuser1.proto\nuser2.proto\n" := by decide +kernel
example : FaithfulOn tools.sum fun f => f ∈ new.flatten := new_faithful

end Verif.Props
