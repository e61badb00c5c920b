import Verif.Props.Additions
import Verif.Spec.Says

/-!
# C123: break check passes exactly if the files still say all that was said
-/

namespace Verif.Props

open Verif Str Reflect Breaking Descriptor Spec Proof.Reflect Proof.Breaking

/-- The reflected messages are at the places of the declared ones. -/
theorem descAt_of_messageAt {s : SortSlice} {ms : List Message} {path : List Str} {m : Message}
    (h : MessageAt ms path m) : ∀ ds, Reflects s ds ms → MessagesValid ds →
      ∃ d, DescAt ds path d ∧ reflectMessage s d = some m ∧ MessageValid d := by
  induction h with
  | here hm =>
    intro ds hr hv
    obtain ⟨d, hd, hdm⟩ := Matches.mem_right hr _ hm
    refine ⟨d, ?_, hdm, messagesValid_mem hv hd⟩
    rw [reflectMessage_name hdm]
    exact .here hd
  | inside hm _ ih =>
    intro ds hr hv
    obtain ⟨d, hd, hdm⟩ := Matches.mem_right hr _ hm
    obtain ⟨n, h1, h2, h3⟩ := ih _ (reflects_nested hdm) (messageValid_nested (messagesValid_mem hv hd))
    refine ⟨n, ?_, h2, h3⟩
    rw [reflectMessage_name hdm]
    exact .inside hd h1

theorem messageAt_of_descAt {s : SortSlice} {ds : List MessageDesc} {path : List Str} {d : MessageDesc}
    (h : DescAt ds path d) : ∀ ms, Reflects s ds ms → MessagesValid ds →
      ∃ m, MessageAt ms path m ∧ reflectMessage s d = some m ∧ MessageValid d := by
  induction h with
  | here hd =>
    intro ms hr hv
    obtain ⟨m, hm, hdm⟩ := Matches.mem_left hr _ hd
    refine ⟨m, ?_, hdm, messagesValid_mem hv hd⟩
    rw [← reflectMessage_name hdm]
    exact .here hm
  | inside hd _ ih =>
    intro ms hr hv
    obtain ⟨m, hm, hdm⟩ := Matches.mem_left hr _ hd
    obtain ⟨n, h1, h2, h3⟩ := ih _ (reflects_nested hdm) (messageValid_nested (messagesValid_mem hv hd))
    refine ⟨n, ?_, h2, h3⟩
    rw [← reflectMessage_name hdm]
    exact .inside hm h1

theorem descAt_mono {ds ds' : List MessageDesc} {path : List Str} {d : MessageDesc} (h : DescAt ds path d)
    (hs : ∀ x ∈ ds, x ∈ ds') : DescAt ds' path d := by
  cases h with
  | here hd => exact .here (hs _ hd)
  | inside hd h => exact .inside (hs _ hd) h

/-- A place in a package is a place in one of its files. -/
theorem descAt_files {files : List FileDesc} {path : List Str} {d : MessageDesc} :
    DescAt (files.flatMap (·.messages)) path d ↔ ∃ f ∈ files, DescAt f.messages path d := by
  constructor
  · intro h
    cases h with
    | here hd =>
      obtain ⟨f, hf, hd⟩ := List.mem_flatMap.1 hd
      exact ⟨f, hf, .here hd⟩
    | inside hd h =>
      obtain ⟨f, hf, hd⟩ := List.mem_flatMap.1 hd
      exact ⟨f, hf, .inside hd h⟩
  · rintro ⟨f, hf, h⟩
    exact descAt_mono h fun x hx => List.mem_flatMap.2 ⟨f, hf, hx⟩

/-- Without aliases a number is known under the name of its value. -/
theorem knownAs_value {s : SortSlice} {e : Enum} (hn : (e.values.map (·.number)).Nodup) {number : Int} {name : Str} :
    knownAs (newEnum s e) number = some name ↔ ∃ v ∈ e.values, v.number = number ∧ v.name = name := by
  constructor
  · intro h
    obtain ⟨v, hv, rfl⟩ := Option.map_eq_some_iff.1 h
    obtain ⟨h1, h2⟩ := List.mem_filter.1 (List.mem_of_getLast? hv)
    exact ⟨v, mem_newEnum.1 h1, by simpa using h2, rfl⟩
  · rintro ⟨v, hv, rfl, rfl⟩
    have hn' : ((newEnum s e).values.map (·.number)).Nodup := (((newEnum_describes s e).values.map _).nodup_iff).2 hn
    have hv' := (mem_newEnum (s := s)).2 hv
    have hmem : v ∈ (newEnum s e).values.filter fun u => decide (u.number = v.number) :=
      List.mem_filter.2 ⟨hv', by simp⟩
    unfold knownAs
    cases hl : ((newEnum s e).values.filter fun u => decide (u.number = v.number)).getLast? with
    | none =>
      rw [List.getLast?_eq_none_iff.1 hl] at hmem
      cases hmem
    | some u =>
      obtain ⟨h4, h5⟩ := List.mem_filter.1 (List.mem_of_getLast? hl)
      rw [eq_of_key_eq hn' h4 hv' (by simpa using h5)]
      rfl

/-- The schema states what the files say. -/
theorem states_iff_says {s : SortSlice} {all : List FileDesc} {ps : PackageSet} (hb : Built s all ps)
    (hv : DescriptorsOK all) (fact : Fact) (ha : IsValue fact → NoAliasesIn all) :
    States ps fact ↔ FilesSay all fact := by
  have key : ∀ p ∈ ps, p.name = fact.about → (fact.trueOf p ↔ ∃ f ∈ all, f.package = fact.about ∧ fact.saidBy f) := by
    intro p hp hname
    obtain ⟨files, hfiles, hbp⟩ := hb.packages p hp
    have hR := reflects_built hbp
    have hV := valid_files hfiles hv.messages
    have hmem : ∀ f, f ∈ files ↔ f ∈ all ∧ f.package = fact.about := fun f => by rw [hfiles.2 f, hname]
    have hM : ∀ path m, MessageAt p.messages path m → ∃ f, (f ∈ all ∧ f.package = fact.about) ∧
        ∃ d, DescAt f.messages path d ∧ reflectMessage s d = some m ∧ MessageValid d := by
      intro path m h
      obtain ⟨d, h1, h2, h3⟩ := descAt_of_messageAt h _ hR hV
      obtain ⟨f, hf, h4⟩ := descAt_files.1 h1
      exact ⟨f, (hmem f).1 hf, d, h4, h2, h3⟩
    have hD : ∀ f, f ∈ all → f.package = fact.about → ∀ path d, DescAt f.messages path d →
        ∃ m, MessageAt p.messages path m ∧ reflectMessage s d = some m ∧ MessageValid d := by
      intro f hf hfp path d h
      exact messageAt_of_descAt (descAt_files.2 ⟨f, (hmem f).2 ⟨hf, hfp⟩, h⟩) _ hR hV
    have hE : ∀ path e, EnumAt p path e → ∃ f, (f ∈ all ∧ f.package = fact.about) ∧
        ∃ x, EnumDescAt f path x ∧ newEnum s x = e := by
      intro path e h
      cases h with
      | top he =>
        obtain ⟨x, hx, rfl⟩ := List.mem_map.1 (hbp.enums.mem_iff.1 he)
        obtain ⟨f, hf, hx⟩ := List.mem_flatMap.1 hx
        exact ⟨f, (hmem f).1 hf, x, .top hx, rfl⟩
      | nested hm he =>
        obtain ⟨f, hf, d, h1, h2, _⟩ := hM _ _ hm
        obtain ⟨x, hx, rfl⟩ := (reflects_enums h2 e).1 he
        exact ⟨f, hf, x, .nested h1 hx, rfl⟩
    have hX : ∀ f, f ∈ all → f.package = fact.about → ∀ path x, EnumDescAt f path x → EnumAt p path (newEnum s x) := by
      intro f hf hfp path x h
      cases h with
      | top hx =>
        exact .top (hbp.enums.mem_iff.2 (List.mem_map.2 ⟨x, List.mem_flatMap.2 ⟨f, (hmem f).2 ⟨hf, hfp⟩, hx⟩, rfl⟩))
      | nested hd hx =>
        obtain ⟨m, h1, h2, _⟩ := hD f hf hfp _ _ hd
        exact .nested h1 ((reflects_enums h2 _).2 ⟨x, hx, rfl⟩)
    have hS : ∀ x ∈ p.services, ∃ f, (f ∈ all ∧ f.package = fact.about) ∧ ∃ d ∈ f.services, builtService s d = x := by
      intro x hx
      obtain ⟨d, hd, rfl⟩ := List.mem_map.1 (hbp.services.mem_iff.1 hx)
      obtain ⟨f, hf, hd⟩ := List.mem_flatMap.1 hd
      exact ⟨f, (hmem f).1 hf, d, hd, rfl⟩
    have hS' : ∀ f, f ∈ all → f.package = fact.about → ∀ d ∈ f.services, builtService s d ∈ p.services :=
      fun f hf hfp d hd =>
        hbp.services.mem_iff.2 (List.mem_map.2 ⟨d, List.mem_flatMap.2 ⟨f, (hmem f).2 ⟨hf, hfp⟩, hd⟩, rfl⟩)
    cases fact with
    | package k =>
      refine ⟨fun _ => ?_, fun _ => trivial⟩
      obtain ⟨f, hf, hfp⟩ := (hb.names p.name).1 ⟨p, hp, rfl⟩
      exact ⟨f, hf, hfp.trans hname, trivial⟩
    | message k path =>
      constructor
      · rintro ⟨m, h⟩
        obtain ⟨f, ⟨hf, hfp⟩, d, h1, _⟩ := hM _ _ h
        exact ⟨f, hf, hfp, d, h1⟩
      · rintro ⟨f, hf, hfp, d, h⟩
        obtain ⟨m, h1, _⟩ := hD f hf hfp _ _ h
        exact ⟨m, h1⟩
    | field k path number name label type refersTo inOneof =>
      constructor
      · rintro ⟨m, h, h2, x, h3, h4, h5, h6, h7, h8⟩
        obtain ⟨f, ⟨hf, hfp⟩, d, e1, e2, e3⟩ := hM _ _ h
        have D := reflectMessage_describes s d m e2
        have ho := fun f hf => oneofOf_described D e3 (f := f) hf
        refine ⟨f, hf, hfp, d, e1, ?_⟩
        cases D with
        | mk _ _ _ _ p1 _ _ =>
          obtain ⟨y, hy, rfl⟩ := List.mem_map.1 (p1.mem_iff.1 h3)
          have a := ho y hy
          simp only [fieldOf] at h4 h5 h6 h7 h8
          exact ⟨y, hy, h4, h5, h6, h7, h8, by rw [← a, h4, h2]⟩
      · rintro ⟨f, hf, hfp, d, h, y, hy, h4, h5, h6, h7, h8, h9⟩
        obtain ⟨m, e1, e2, e3⟩ := hD f hf hfp _ _ h
        have D := reflectMessage_describes s d m e2
        have a := oneofOf_described D e3 hy
        refine ⟨m, e1, by rw [← h4, a, h9], ?_⟩
        cases D with
        | mk _ _ _ _ p1 _ _ =>
          exact ⟨fieldOf y, p1.mem_iff.2 (List.mem_map.2 ⟨y, hy, rfl⟩), h4, h5, h6, h7, h8⟩
    | oneof k path name =>
      constructor
      · rintro ⟨m, h, w, hw, hwn⟩
        obtain ⟨f, ⟨hf, hfp⟩, d, e1, e2, _⟩ := hM _ _ h
        have D := reflectMessage_describes s d m e2
        refine ⟨f, hf, hfp, d, e1, ?_⟩
        cases D with
        | mk _ _ _ _ _ _ p1 => exact (p1.names name).1 (List.mem_map.2 ⟨w, hw, hwn⟩)
      · rintro ⟨f, hf, hfp, d, h, hn⟩
        obtain ⟨m, e1, e2, _⟩ := hD f hf hfp _ _ h
        have D := reflectMessage_describes s d m e2
        refine ⟨m, e1, ?_⟩
        cases D with
        | mk _ _ _ _ _ _ p1 => exact List.mem_map.1 ((p1.names name).2 hn)
    | enum k scope name =>
      constructor
      · rintro ⟨e, h, hn⟩
        obtain ⟨f, ⟨hf, hfp⟩, x, h1, rfl⟩ := hE _ _ h
        exact ⟨f, hf, hfp, x, h1, hn⟩
      · rintro ⟨f, hf, hfp, x, h, hn⟩
        exact ⟨_, hX f hf hfp _ _ h, hn⟩
    | value k scope inEnum number name =>
      constructor
      · rintro ⟨e, h, hn, hk⟩
        obtain ⟨f, ⟨hf, hfp⟩, x, h1, rfl⟩ := hE _ _ h
        exact ⟨f, hf, hfp, x, h1, hn, (knownAs_value (ha trivial f hf _ _ h1)).1 hk⟩
      · rintro ⟨f, hf, hfp, x, h, hn, hk⟩
        exact ⟨_, hX f hf hfp _ _ h, hn, (knownAs_value (ha trivial f hf _ _ h)).2 hk⟩
    | service k name =>
      constructor
      · rintro ⟨x, hx, hn⟩
        obtain ⟨f, ⟨hf, hfp⟩, d, hd, rfl⟩ := hS x hx
        exact ⟨f, hf, hfp, d, hd, (builtService_describes s d).name.symm.trans hn⟩
      · rintro ⟨f, hf, hfp, d, hd, hn⟩
        exact ⟨_, hS' f hf hfp d hd, (builtService_describes s d).name.trans hn⟩
    | method k inService m =>
      constructor
      · rintro ⟨x, hx, hn, hm⟩
        obtain ⟨f, ⟨hf, hfp⟩, d, hd, rfl⟩ := hS x hx
        obtain ⟨y, hy, rfl⟩ := List.mem_map.1 ((builtService_describes s d).methods.mem_iff.1 hm)
        exact ⟨f, hf, hfp, d, hd, (builtService_describes s d).name.symm.trans hn, y, hy, rfl⟩
      · rintro ⟨f, hf, hfp, d, hd, hn, y, hy, rfl⟩
        exact ⟨_, hS' f hf hfp d hd, (builtService_describes s d).name.trans hn,
          (builtService_describes s d).methods.mem_iff.2 (List.mem_map.2 ⟨y, hy, rfl⟩)⟩
  constructor
  · rintro ⟨p, hp, hname, ht⟩
    exact (key p hp hname).1 ht
  · rintro ⟨f, hf, hfp, hs⟩
    obtain ⟨p, hp, hpn⟩ := (hb.names fact.about).2 ⟨f, hf, hfp⟩
    exact ⟨p, hp, hpn, (key p hp hpn).2 ⟨f, hf, hfp, hs⟩⟩

/-- C123: **the check of two descriptor sets is clean exactly if the files of the second say all that the files of the
first say** about the packages that are checked, and no stable package imports a beta package, which is not asked with
`include_beta` or `allow_beta_deps`. -/
theorem C123_sets (s : SortSlice) (o : Order) (marshal : FileDesc → Except Err Str) (config : BreakConfig)
    (frm to : List FileSet) (hff : FaithfulOn marshal fun f => f ∈ frm.flatten)
    (hft : FaithfulOn marshal fun f => f ∈ to.flatten) (hf : DescriptorsOK frm.flatten) (ht : DescriptorsOK to.flatten)
    (ha : NoAliasesIn frm.flatten) (ha' : NoAliasesIn to.flatten) :
    breakCheckSets s o marshal config frm to = .ok [] ↔
      (∀ fact : Fact, Checked config.includeBeta fact.about → FilesSay frm.flatten fact → FilesSay to.flatten fact) ∧
      (config.includeBeta = false → config.allowBetaDeps = false → StableOnStable to.flatten) := by
  obtain ⟨old, ho, hos⟩ := C12_schemaOK s (o.sub (s%"from")) marshal frm hff hf
  obtain ⟨new, hn, hns⟩ := C12_schemaOK s (o.sub (s%"to")) marshal to hft ht
  have bo := (newPackageSet_ok hff ho).2
  have bn := (newPackageSet_ok hft hn).2
  rw [breakCheckSets_eq s o marshal config frm to old new ho hn, C112_clean_iff_stated o config old new hos hns]
  have key : NoBetaDependencies new ↔ StableOnStable to.flatten := by
    constructor
    · intro hx k q hne himp hk
      obtain ⟨f, hfm, hfk, _⟩ := id himp
      obtain ⟨p, hp, rfl⟩ := (bn.names k).2 ⟨f, hfm, hfk⟩
      exact hx p hp hk q ((bn.imports hp q).2 ⟨hne, himp⟩)
    · intro hx p hp hpb d hd
      obtain ⟨hne, himp⟩ := (bn.imports hp d).1 hd
      exact hx p.name d hne himp hpb
  rw [key]
  refine and_congr_left fun _ => forall_congr' fun fact => forall_congr' fun _ => ?_
  rw [states_iff_says bo hf _ fun _ => ha, states_iff_says bn ht _ fun _ => ha']

/-- C123: a clean check keeps all statements but those about enum values, also where enums have aliases. -/
theorem C123_kept (s : SortSlice) (o : Order) (marshal : FileDesc → Except Err Str) (config : BreakConfig)
    (frm to : List FileSet) (hff : FaithfulOn marshal fun f => f ∈ frm.flatten)
    (hft : FaithfulOn marshal fun f => f ∈ to.flatten) (hf : DescriptorsOK frm.flatten) (ht : DescriptorsOK to.flatten)
    (h : breakCheckSets s o marshal config frm to = .ok []) (fact : Fact) (hv : ¬ IsValue fact)
    (hc : Checked config.includeBeta fact.about) (hs : FilesSay frm.flatten fact) : FilesSay to.flatten fact := by
  obtain ⟨old, ho, hos⟩ := C12_schemaOK s (o.sub (s%"from")) marshal frm hff hf
  obtain ⟨new, hn, hns⟩ := C12_schemaOK s (o.sub (s%"to")) marshal to hft ht
  rw [breakCheckSets_eq s o marshal config frm to old new ho hn, C112_clean_iff_stated o config old new hos hns] at h
  rw [← states_iff_says (newPackageSet_ok hft hn).2 ht fact fun e => absurd e hv]
  exact h.1 fact hc ((states_iff_says (newPackageSet_ok hff ho).2 hf fact fun e => absurd e hv).2 hs)

section Commands

open Exec

/-- C123 for the command, against a descriptor set: it ends well exactly if the files say all that the set says about
the packages that are checked. Otherwise it ends with code 255. -/
theorem C123_descriptor_set (h : Exec.Host) (hp : Prints h) (hj : h.json = true → ∀ f, ∃ t, h.toJSON f = .ok t)
    (t : Tools) (args : List Str) (path : Str) (hpath : path ≠ []) (m : Meta) (sets : List FileSet)
    (w : World) (hc : CompilesTo h args { doFileDescriptorSet := true } w.disk m sets)
    (data : Str) (hd : w.disk path = some data) (set : FileSet) (hdec : t.decode data = .ok set)
    (hff : FaithfulOn t.marshal fun f => f ∈ set) (hft : FaithfulOn t.marshal fun f => f ∈ sets.flatten)
    (hf : DescriptorsOK set) (hto : DescriptorsOK sets.flatten) (ha : NoAliasesIn set) (ha' : NoAliasesIn sets.flatten) :
    ((breakCheckCmd h t args [] path w).2 = .ok () ↔
      (∀ fact : Fact, Checked m.protoSet.config.break_.includeBeta fact.about → FilesSay set fact →
        FilesSay sets.flatten fact) ∧
      (m.protoSet.config.break_.includeBeta = false → m.protoSet.config.break_.allowBetaDeps = false →
        StableOnStable sets.flatten)) ∧
    ((breakCheckCmd h t args [] path w).2 ≠ .ok () →
      (breakCheckCmd h t args [] path w).2 = .error (.exit 255 [])) := by
  have he : [set].flatten = set := by simp
  have hs := C123_sets t.srt t.order t.marshal m.protoSet.config.break_ [set] sets (by rwa [he]) hft (by rwa [he]) hto
    (by rwa [he]) ha'
  rw [he] at hs
  obtain ⟨old, ho, hos⟩ := C12_schemaOK t.srt (t.order.sub (s%"from")) t.marshal [set] (by rwa [he]) (by rwa [he])
  obtain ⟨new, hn, hns⟩ := C12_schemaOK t.srt (t.order.sub (s%"to")) t.marshal sets hft hto
  have heq := breakCheckSets_eq t.srt t.order t.marshal m.protoSet.config.break_ [set] sets old new ho hn
  obtain ⟨fs, hfs, _⟩ := C06_reports t.order m.protoSet.config.break_ old new hos hns
  have hrun := C66_descriptor_set h hp hj t args path hpath m sets w hc data hd set hdec fs (heq.trans hfs)
  rw [hrun]
  refine ⟨?_, ?_⟩
  · rw [← hs, heq.trans hfs]
    show breakOutcome fs = .ok () ↔ _
    rw [(C66_exit fs).1]
    exact ⟨fun e => by rw [e], fun e => by cases e; rfl⟩
  · show breakOutcome fs ≠ .ok () → breakOutcome fs = _
    rw [Ne, (C66_exit fs).1, (C66_exit fs).2]
    exact id

/-- C123 for the command, against a branch of the repository. -/
theorem C123_git (h : Exec.Host) (hp : Prints h) (hj : h.json = true → ∀ f, ∃ t, h.toJSON f = .ok t)
    (t : Tools) (args : List Str) (branch : Str) (m m' : Meta) (sets sets' : List FileSet)
    (w : World) (ht : TempDirsOK t w.disk)
    (hc : CompilesTo h args { doFileDescriptorSet := true } w.disk m sets)
    (hrel : Path.isAbs (fileOrDir args) = false)
    (hin : File.absClean h.wd h.workDirPath <+: File.absClean h.wd (fileOrDir args))
    (dir : Str) (disk' : Disk) (hclone : Clones h t branch w.disk dir disk')
    (hc' : CompilesTo { h with workDirPath := dir, stat := t.treeStat, getForDir := t.treeForDir }
      [cloneDirFor dir (fileOrDir args)] { doFileDescriptorSet := true } disk' m' sets')
    (hff : FaithfulOn t.marshal fun f => f ∈ sets'.flatten) (hft : FaithfulOn t.marshal fun f => f ∈ sets.flatten)
    (hf : DescriptorsOK sets'.flatten) (hto : DescriptorsOK sets.flatten) (ha : NoAliasesIn sets'.flatten)
    (ha' : NoAliasesIn sets.flatten) :
    ((breakCheckCmd h t args branch [] w).2 = .ok () ↔
      (∀ fact : Fact, Checked m.protoSet.config.break_.includeBeta fact.about → FilesSay sets'.flatten fact →
        FilesSay sets.flatten fact) ∧
      (m.protoSet.config.break_.includeBeta = false → m.protoSet.config.break_.allowBetaDeps = false →
        StableOnStable sets.flatten)) ∧
    ((breakCheckCmd h t args branch [] w).2 ≠ .ok () →
      (breakCheckCmd h t args branch [] w).2 = .error (.exit 255 [])) := by
  have hs := C123_sets t.srt t.order t.marshal m.protoSet.config.break_ sets' sets hff hft hf hto ha ha'
  obtain ⟨old, ho, hos⟩ := C12_schemaOK t.srt (t.order.sub (s%"from")) t.marshal sets' hff hf
  obtain ⟨new, hn, hns⟩ := C12_schemaOK t.srt (t.order.sub (s%"to")) t.marshal sets hft hto
  have heq := breakCheckSets_eq t.srt t.order t.marshal m.protoSet.config.break_ sets' sets old new ho hn
  obtain ⟨fs, hfs, _⟩ := C06_reports t.order m.protoSet.config.break_ old new hos hns
  have hrun := C66_git h hp hj t args branch m m' sets sets' w ht hc hrel hin dir disk' hclone hc' fs (heq.trans hfs)
  rw [hrun]
  refine ⟨?_, ?_⟩
  · rw [← hs, heq.trans hfs]
    show breakOutcome fs = .ok () ↔ _
    rw [(C66_exit fs).1]
    exact ⟨fun e => by rw [e], fun e => by cases e; rfl⟩
  · show breakOutcome fs ≠ .ok () → breakOutcome fs = _
    rw [Ne, (C66_exit fs).1, (C66_exit fs).2]
    exact id

end Commands

/-! ## The hypotheses can be met -/

namespace SaysExample

open ReflectExample Exec Exec.Sample BreakExample

/-- Enough for files whose messages have no enums and no messages in them. -/
theorem noAliases_of {all : List FileDesc} (he : ∀ f ∈ all, ∀ e ∈ f.enums, (e.values.map (·.number)).Nodup)
    (hm : ∀ f ∈ all, ∀ d ∈ f.messages, d.nested = [] ∧ d.enums = []) : NoAliasesIn all := by
  intro f hf scope e h
  cases h with
  | top h => exact he f hf e h
  | nested hd hx =>
    cases hd with
    | here hd =>
      rw [(hm f hf _ hd).2] at hx
      cases hx
    | inside hd hn =>
      rw [(hm f hf _ hd).1] at hn
      cases hn with
      | here h => cases h
      | inside h => cases h

theorem old_noAliases : NoAliasesIn old.flatten := by
  refine noAliases_of (fun f hf => ?_) fun f hf => ?_
  · rcases mem_old.1 hf with rfl | rfl <;> decide
  · rcases mem_old.1 hf with rfl | rfl <;> simp [base, user, MessageDesc.nested, MessageDesc.enums]

theorem new_noAliases : NoAliasesIn new.flatten := by
  refine noAliases_of (fun f hf => ?_) fun f hf => ?_
  · rcases mem_new.1 hf with rfl | rfl | rfl <;> decide
  · rcases mem_new.1 hf with rfl | rfl | rfl <;> simp [base, user1, user2, MessageDesc.nested, MessageDesc.enums]

theorem before_noAliases : NoAliasesIn AdditionsExample.before.flatten := by
  refine noAliases_of (fun f hf => ?_) fun f hf => ?_
  · rcases AdditionsExample.mem_before.1 hf with rfl | rfl <;> decide
  · rcases AdditionsExample.mem_before.1 hf with rfl | rfl <;> simp [base, user1, MessageDesc.nested, MessageDesc.enums]

/-- Without `user2.proto` nobody says any more that there is a service `S`, so the check is not clean. -/
example : breakCheckSets .stable Order.id byName ⟨true, false⟩ old AdditionsExample.before ≠ .ok [] := by
  intro h
  have := ((C123_sets _ _ _ _ _ _ old_faithful AdditionsExample.before_faithful old_valid AdditionsExample.before_valid
    old_noAliases before_noAliases).1 h).1 (.service s%"foo.v1" s%"S") (.inl rfl)
    ⟨user, mem_old.2 (.inr rfl), rfl, _, .head _, rfl⟩
  obtain ⟨f, hf, _, s, hs, _⟩ := this
  rcases AdditionsExample.mem_before.1 hf with rfl | rfl <;> cases hs

/-- The check of `new` against the descriptor set of `old` is clean, so `new` says all that `old` says. -/
example (fact : Fact) (hc : ¬ IsBetaPackage fact.about) (h : FilesSay old.flatten fact) : FilesSay new.flatten fact :=
  ((C123_descriptor_set repoHost repo_prints (by intro _ f; exact ⟨_, rfl⟩) FactsExample.tools [s%"a"] s%"/tmp/set"
    (by decide) dir new FactsExample.files ⟨⟨s%"a", .inl rfl, .inl ⟨rfl, rfl, rfl⟩⟩, ⟨_, rfl⟩, rfl⟩ s%"set"
    (by decide +kernel) old.flatten rfl old_faithful new_faithful old_valid new_valid old_noAliases new_noAliases).1.1
    (by decide +kernel)).1 fact (.inr hc) h

/-- And so it is against the branch that holds `old`. -/
example (fact : Fact) (hc : ¬ IsBetaPackage fact.about) (h : FilesSay old.flatten fact) : FilesSay new.flatten fact :=
  ((C123_git repoHost repo_prints (by intro _ f; exact ⟨_, rfl⟩) Exec.Sample.tools [s%"a"] [] dir
    { protoSet := cloneSet } new old world tools_ok ⟨⟨s%"a", .inl rfl, .inl ⟨rfl, rfl, rfl⟩⟩, ⟨_, rfl⟩, by rfl⟩ rfl
    (by decide) s%"/tmp/clone" _ ⟨by rfl, rfl, by rfl⟩ (clone_compiles _) old_faithful new_faithful old_valid new_valid
    old_noAliases new_noAliases).1.1 (by decide +kernel)).1 fact (.inr hc) h

end SaysExample

end Verif.Props
