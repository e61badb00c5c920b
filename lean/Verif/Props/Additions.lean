import Verif.Props.Facts
import Verif.Props.Releases
import Verif.Spec.Additions

/-!
# C120: adding is never a breaking change
-/

namespace Verif.Props

open Verif Str Reflect Breaking Descriptor Spec Proof.Reflect Proof.Breaking

mutual
theorem messageGrown_refl : ∀ d : MessageDesc, MessageGrown d d
  | .mk _ ns _ _ _ => .mk id (fun _ h => h) (messagesGrown_refl ns) (fun e he => ⟨e, he, .same⟩)
      (fun f hf => ⟨f, hf, rfl, rfl, rfl, rfl, rfl, rfl⟩) fun _ h => h
theorem messagesGrown_refl : ∀ ds : List MessageDesc, ∀ d ∈ ds, MessageGrown d d
  | [], _, h => by cases h
  | a :: ds, d, h => by
    rcases List.mem_cons.1 h with h | h
    · rw [h]; exact messageGrown_refl a
    · exact messagesGrown_refl ds d h
end

/-- Files that keep the definitions as they were are a case of files that add to them. -/
theorem grown_of_keeps {all all' : List FileDesc} (h : KeepsDefinitions all all') : Grown all all' where
  packages := h.packages
  messages f hf x hx :=
    have ⟨g, h1, h2, h3⟩ := h.messages f hf x hx
    ⟨g, h1, h2, x, h3, messageGrown_refl x⟩
  enums f hf x hx :=
    have ⟨g, h1, h2, h3⟩ := h.enums f hf x hx
    ⟨g, h1, h2, x, h3, .same⟩
  services f hf x hx :=
    have ⟨g, h1, h2, h3⟩ := h.services f hf x hx
    ⟨g, h1, h2, x, h3, rfl, fun _ h => h⟩

theorem enumGrown_name {e e' : Enum} (h : EnumGrown e e') : e'.name = e.name := by
  cases h <;> rfl

theorem mem_newEnum {s : SortSlice} {e : Enum} {v : EnumValue} : v ∈ (newEnum s e).values ↔ v ∈ e.values :=
  (newEnum_describes s e).values.mem_iff

/-- A number of a grown enum is known under the same name. -/
theorem knownAs_grown {s : SortSlice} {e e' : Enum} (h : EnumGrown e e') {number : Int} {name : Str}
    (hk : knownAs (newEnum s e) number = some name) : knownAs (newEnum s e') number = some name := by
  cases h with
  | same => exact hk
  | @values n vs vs' hn hsub =>
    unfold knownAs at hk ⊢
    obtain ⟨v, hv, rfl⟩ := Option.map_eq_some_iff.1 hk
    obtain ⟨h1, h2⟩ := List.mem_filter.1 (List.mem_of_getLast? hv)
    have h2 : v.number = number := by simpa using h2
    have h3 : v ∈ (newEnum s ⟨n, vs'⟩).values := mem_newEnum.2 (hsub v (mem_newEnum.1 h1))
    have hn' : ((newEnum s ⟨n, vs'⟩).values.map (·.number)).Nodup :=
      (((newEnum_describes s ⟨n, vs'⟩).values.map _).nodup_iff).2 hn
    have hmem : v ∈ (newEnum s ⟨n, vs'⟩).values.filter fun v => decide (v.number = number) :=
      List.mem_filter.2 ⟨h3, by simpa using h2⟩
    cases hl : ((newEnum s ⟨n, vs'⟩).values.filter fun v => decide (v.number = number)).getLast? with
    | none =>
      rw [List.getLast?_eq_none_iff.1 hl] at hmem
      cases hmem
    | some u =>
      obtain ⟨h4, h5⟩ := List.mem_filter.1 (List.mem_of_getLast? hl)
      have h5 : u.number = number := by simpa using h5
      rw [eq_of_key_eq hn' h4 h3 (h5.trans h2.symm)]
      rfl

/-- The messages are reflected from the descriptors. -/
abbrev Reflects (s : SortSlice) (ds : List MessageDesc) (ms : List Message) : Prop :=
  Matches (fun d m => reflectMessage s d = some m) ds ms

theorem reflects_nested {s : SortSlice} {d : MessageDesc} {m : Message} (h : reflectMessage s d = some m) :
    Reflects s d.nested m.nestedMessages := by
  cases d
  obtain ⟨_, ns, hns, rfl⟩ := reflectMessage_mk.1 h
  exact .perm (matches_of_map hns fun _ _ _ h => h) (s.perm _ _).symm

theorem reflects_enums {s : SortSlice} {d : MessageDesc} {m : Message} (h : reflectMessage s d = some m) (e : Enum) :
    e ∈ m.nestedEnums ↔ ∃ x ∈ d.enums, newEnum s x = e := by
  cases d
  obtain ⟨_, ns, hns, rfl⟩ := reflectMessage_mk.1 h
  exact (getEnums_perm s _).mem_iff.trans List.mem_map

theorem messageGrown_name {d d' : MessageDesc} (h : MessageGrown d d') : d'.name = d.name := by
  cases h; rfl

theorem messageGrown_nested {d d' : MessageDesc} (h : MessageGrown d d') :
    ∀ n ∈ d.nested, ∃ n' ∈ d'.nested, MessageGrown n n' := by
  cases h with
  | mk grown h1 h2 => exact fun n hn => ⟨grown n, h1 n hn, h2 n hn⟩

theorem messageGrown_enums {d d' : MessageDesc} (h : MessageGrown d d') :
    ∀ e ∈ d.enums, ∃ e' ∈ d'.enums, EnumGrown e e' := by
  cases h; assumption

theorem messageValid_nested {d : MessageDesc} (h : MessageValid d) : MessagesValid d.nested := by
  cases d
  rw [MessageValid] at h
  exact h.2.2.2.2

/-- Every message, at any depth, is in the grown messages under the same path, grown itself. -/
theorem at_grown {s : SortSlice} {ms : List Message} {path : List Str} {m : Message} (h : MessageAt ms path m) :
    ∀ ds ds' ms', Reflects s ds ms → Reflects s ds' ms' → (∀ d ∈ ds, ∃ d' ∈ ds', MessageGrown d d') →
      MessagesValid ds → MessagesValid ds' →
      ∃ d d' m', reflectMessage s d = some m ∧ reflectMessage s d' = some m' ∧ MessageGrown d d' ∧
        MessageValid d ∧ MessageValid d' ∧ MessageAt ms' path m' := by
  induction h with
  | here hm =>
    intro ds ds' ms' hr hr' hg hv hv'
    obtain ⟨d, hd, hdm⟩ := Matches.mem_right hr _ hm
    obtain ⟨d', hd', hgd⟩ := hg d hd
    obtain ⟨m', hm', hdm'⟩ := Matches.mem_left hr' d' hd'
    refine ⟨d, d', m', hdm, hdm', hgd, messagesValid_mem hv hd, messagesValid_mem hv' hd', ?_⟩
    rw [reflectMessage_name hdm, ← messageGrown_name hgd, ← reflectMessage_name hdm']
    exact .here hm'
  | inside hm _ ih =>
    intro ds ds' ms' hr hr' hg hv hv'
    obtain ⟨d, hd, hdm⟩ := Matches.mem_right hr _ hm
    obtain ⟨d', hd', hgd⟩ := hg d hd
    obtain ⟨m', hm', hdm'⟩ := Matches.mem_left hr' d' hd'
    obtain ⟨x, x', n', h1, h2, h3, h4, h5, h6⟩ := ih _ _ _ (reflects_nested hdm) (reflects_nested hdm')
      (messageGrown_nested hgd) (messageValid_nested (messagesValid_mem hv hd))
      (messageValid_nested (messagesValid_mem hv' hd'))
    refine ⟨x, x', n', h1, h2, h3, h4, h5, ?_⟩
    rw [reflectMessage_name hdm, ← messageGrown_name hgd, ← reflectMessage_name hdm']
    exact .inside hm' h6

/-- The oneof of a reflected field is the one it is declared in. -/
theorem oneofOf_described {d : MessageDesc} {m : Message} (h : Describes d m) (hv : MessageValid d) {f : FieldDesc}
    (hf : f ∈ d.fields) : oneofOf m f.number = oneofName d.oneofs f := by
  have ok := describes_ok h hv
  cases h with
  | @mk name nested enums fields oneofs nm ne fs ws h1 _ h2 _ h3 _ h4 =>
    rw [MessageValid] at hv
    simp only [MessageDesc.fields] at hf
    simp only [MessageDesc.oneofs]
    cases hn : oneofName oneofs f with
    | some n =>
      have hmem : n ∈ oneofs := by
        obtain ⟨i, _, hi⟩ := Option.bind_eq_some_iff.1 hn
        exact List.mem_of_getElem? hi
      obtain ⟨w, hw, rfl⟩ := List.mem_map.1 ((h4.names n).2 hmem)
      refine oneofOf_some ok hw ?_
      rw [(h4.numbers w hw).mem_iff]
      exact List.mem_map.2 ⟨f, List.mem_filter.2 ⟨hf, by simpa using hn⟩, rfl⟩
    | none =>
      cases ho : oneofOf (.mk name nm ne fs ws) f.number with
      | none => rfl
      | some n =>
        obtain ⟨w, hw, hwn, _⟩ := mem_of_oneofOf ho
        rw [(h4.numbers w hw).mem_iff] at hwn
        obtain ⟨g, hg, hgn⟩ := List.mem_map.1 hwn
        obtain ⟨hg1, hg2⟩ := List.mem_filter.1 hg
        rw [eq_of_key_eq hv.2.2.1 hg1 hf hgn, hn] at hg2
        simp at hg2

theorem mem_filesOf {all all' : List FileDesc} {k : Str} {files files' : List FileDesc} (hf : FilesOf all k files)
    (hf' : FilesOf all' k files') {α : Type} (defs : FileDesc → List α) {R : α → α → Prop}
    (h : ∀ f ∈ all, ∀ x ∈ defs f, ∃ g ∈ all', g.package = f.package ∧ ∃ y ∈ defs g, R x y) :
    ∀ x ∈ files.flatMap defs, ∃ y ∈ files'.flatMap defs, R x y := by
  intro x hx
  obtain ⟨f, h1, h2⟩ := List.mem_flatMap.1 hx
  obtain ⟨h3, rfl⟩ := (hf.2 f).1 h1
  obtain ⟨g, h4, h5, y, h6, h7⟩ := h f h3 x h2
  exact ⟨y, List.mem_flatMap.2 ⟨g, (hf'.2 g).2 ⟨h4, h5⟩, h6⟩, h7⟩

theorem reflects_built {s : SortSlice} {files : List FileDesc} {p : Package} (h : BuiltPackage s files p) :
    Reflects s (files.flatMap (·.messages)) p.messages := by
  obtain ⟨ms, h1, h2⟩ := h.messages
  exact .perm (matches_of_map h1 fun _ _ _ h => h) h2.symm

theorem valid_files {all files : List FileDesc} {k : Str} (hf : FilesOf all k files)
    (hv : ∀ f ∈ all, MessagesValid f.messages) : MessagesValid (files.flatMap (·.messages)) := by
  refine messagesValid_of_mem fun d hd => ?_
  obtain ⟨f, h1, h2⟩ := List.mem_flatMap.1 hd
  exact messagesValid_mem (hv f ((hf.2 f).1 h1).1) h2

/-- The schema of files that add to earlier ones states what the schema of the earlier files states. -/
theorem states_of_grown {s : SortSlice} {all all' : List FileDesc} {old new : PackageSet} (ho : Built s all old)
    (hn : Built s all' new) (hv : DescriptorsOK all) (hv' : DescriptorsOK all') (h : Grown all all')
    (scope : Str → Prop) : StatesAll scope old new := by
  rintro fact _ ⟨p, hp, hname, htrue⟩
  obtain ⟨f, hf, hfp⟩ := (ho.names p.name).1 ⟨p, hp, rfl⟩
  obtain ⟨g, hg, hgp⟩ := h.packages f hf
  obtain ⟨q, hq, hqn⟩ := (hn.names p.name).2 ⟨g, hg, hgp.trans hfp⟩
  obtain ⟨files, hfiles, hb⟩ := ho.packages p hp
  obtain ⟨files', hfiles', hb'⟩ := hn.packages q hq
  rw [hqn] at hfiles'
  have hat : ∀ path m, MessageAt p.messages path m → ∃ d d' m', reflectMessage s d = some m ∧
      reflectMessage s d' = some m' ∧ MessageGrown d d' ∧ MessageValid d ∧ MessageValid d' ∧
      MessageAt q.messages path m' := fun path m hm =>
    at_grown hm _ _ _ (reflects_built hb) (reflects_built hb') (mem_filesOf hfiles hfiles' _ h.messages)
      (valid_files hfiles hv.messages) (valid_files hfiles' hv'.messages)
  have hen : ∀ path e, EnumAt p path e → ∃ x y, newEnum s x = e ∧ EnumGrown x y ∧ EnumAt q path (newEnum s y) := by
    intro path e he
    cases he with
    | top he =>
      obtain ⟨x, hx, rfl⟩ := List.mem_map.1 (hb.enums.mem_iff.1 he)
      obtain ⟨y, hy, hxy⟩ := mem_filesOf hfiles hfiles' _ h.enums x hx
      exact ⟨x, y, rfl, hxy, .top (hb'.enums.mem_iff.2 (List.mem_map.2 ⟨y, hy, rfl⟩))⟩
    | nested hm he =>
      obtain ⟨d, d', m', h1, h2, h3, _, _, h4⟩ := hat _ _ hm
      obtain ⟨x, hx, rfl⟩ := (reflects_enums h1 e).1 he
      obtain ⟨y, hy, hxy⟩ := messageGrown_enums h3 x hx
      exact ⟨x, y, rfl, hxy, .nested h4 ((reflects_enums h2 _).2 ⟨y, hy, rfl⟩)⟩
  have hsv : ∀ x ∈ p.services, ∃ y ∈ q.services, y.name = x.name ∧ ∀ m ∈ x.methods, m ∈ y.methods := by
    intro x hx
    obtain ⟨d, hd, rfl⟩ := List.mem_map.1 (hb.services.mem_iff.1 hx)
    obtain ⟨d', hd', hg⟩ := mem_filesOf hfiles hfiles' _ h.services d hd
    refine ⟨builtService s d', hb'.services.mem_iff.2 (List.mem_map.2 ⟨d', hd', rfl⟩), ?_, ?_⟩
    · rw [(builtService_describes s d').name, (builtService_describes s d).name, hg.name]
    · intro m hm
      obtain ⟨x, hx, rfl⟩ := List.mem_map.1 ((builtService_describes s d).methods.mem_iff.1 hm)
      exact (builtService_describes s d').methods.mem_iff.2 (List.mem_map.2 ⟨x, hg.methods x hx, rfl⟩)
  refine ⟨q, hq, hqn.trans hname, ?_⟩
  cases fact with
  | package => trivial
  | message =>
    obtain ⟨m, h1⟩ := htrue
    obtain ⟨_, _, m', _, _, _, _, _, h2⟩ := hat _ _ h1
    exact ⟨m', h2⟩
  | field k path number name label type refersTo oneof =>
    obtain ⟨m, h1, h2, x, h3, h4, h5, h6, h7, h8⟩ := htrue
    obtain ⟨d, d', m', e1, e2, e3, e4, e5, e6⟩ := hat _ _ h1
    have D := reflectMessage_describes s d m e1
    have D' := reflectMessage_describes s d' m' e2
    have ho := fun f hf => oneofOf_described D e4 (f := f) hf
    have ho' := fun f hf => oneofOf_described D' e5 (f := f) hf
    refine ⟨m', e6, ?_⟩
    cases e3 with
    | @mk _ _ _ _ _ fs fs' os os' _ _ _ _ hfs _ =>
      cases D with
      | mk _ _ _ _ p1 _ _ =>
        cases D' with
        | mk _ _ _ _ p2 _ _ =>
          obtain ⟨y, hy, rfl⟩ := List.mem_map.1 (p1.mem_iff.1 h3)
          obtain ⟨z, hz, st⟩ := hfs y hy
          have a := ho y hy
          have b := ho' z hz
          simp only [fieldOf] at h4 h5 h6 h7 h8
          refine ⟨?_, fieldOf z, p2.mem_iff.2 (List.mem_map.2 ⟨z, hz, rfl⟩), st.number.trans h4, st.name.trans h5,
            st.label.trans h6, st.type.trans h7, fun ht => ?_⟩
          · rw [← h2, ← h4, a, ← st.number, b]
            exact st.oneof
          · rw [← h8 ht]
            simp only [fieldOf, st.typeName]
  | oneof k path name =>
    obtain ⟨m, h1, w, hw, hwn⟩ := htrue
    obtain ⟨d, d', m', e1, e2, e3, _, _, e6⟩ := hat _ _ h1
    have D := reflectMessage_describes s d m e1
    have D' := reflectMessage_describes s d' m' e2
    refine ⟨m', e6, ?_⟩
    cases e3 with
    | mk _ _ _ _ _ hos =>
      cases D with
      | mk _ _ _ _ _ _ p1 =>
        cases D' with
        | mk _ _ _ _ _ _ p2 =>
          have hin := (p2.names name).2 (hos name ((p1.names name).1 (List.mem_map.2 ⟨w, hw, hwn⟩)))
          exact List.mem_map.1 hin
  | enum =>
    obtain ⟨e, h1, h2⟩ := htrue
    obtain ⟨x, y, rfl, h3, h4⟩ := hen _ _ h1
    exact ⟨_, h4, (enumGrown_name h3).trans h2⟩
  | value =>
    obtain ⟨e, h1, h2, h5⟩ := htrue
    obtain ⟨x, y, rfl, h3, h4⟩ := hen _ _ h1
    exact ⟨_, h4, (enumGrown_name h3).trans h2, knownAs_grown h3 h5⟩
  | service =>
    obtain ⟨x, h1, h2⟩ := htrue
    obtain ⟨y, h3, h4, _⟩ := hsv x h1
    exact ⟨y, h3, h4.trans h2⟩
  | method =>
    obtain ⟨x, h1, h2, h5⟩ := htrue
    obtain ⟨y, h3, h4, h6⟩ := hsv x h1
    exact ⟨y, h3, h4.trans h2, h6 _ h5⟩

/-- C120: **files that only add to the earlier ones pass the check against them**, whatever was added or moved, exactly if no stable package imports a beta package, which is not asked with `include_beta` or
`allow_beta_deps`. -/
theorem C120_sets (s : SortSlice) (o : Order) (marshal : FileDesc → Except Err Str) (config : BreakConfig)
    (frm to : List FileSet) (hff : FaithfulOn marshal fun f => f ∈ frm.flatten)
    (hft : FaithfulOn marshal fun f => f ∈ to.flatten) (hf : DescriptorsOK frm.flatten) (ht : DescriptorsOK to.flatten)
    (h : Grown frm.flatten to.flatten) :
    breakCheckSets s o marshal config frm to = .ok [] ↔
      (config.includeBeta = false → config.allowBetaDeps = false → StableOnStable to.flatten) := by
  obtain ⟨old, ho, hos⟩ := C12_schemaOK s (o.sub (s%"from")) marshal frm hff hf
  obtain ⟨new, hn, hns⟩ := C12_schemaOK s (o.sub (s%"to")) marshal to hft ht
  have bo := (newPackageSet_ok hff ho).2
  have bn := (newPackageSet_ok hft hn).2
  rw [breakCheckSets_eq s o marshal config frm to old new ho hn, C112_clean_iff_stated o config old new hos hns]
  have key : NoBetaDependencies new ↔ StableOnStable to.flatten := by
    constructor
    · intro hx k q hne himp hk
      obtain ⟨f, hfm, hfk, _⟩ := id himp
      obtain ⟨p, hp, rfl⟩ := (bn.names k).2 ⟨f, hfm, hfk⟩
      exact hx p hp hk q ((bn.imports hp q).2 ⟨hne, himp⟩)
    · intro hx p hp hpb d hd
      obtain ⟨hne, himp⟩ := (bn.imports hp d).1 hd
      exact hx p.name d hne himp hpb
  rw [key]
  exact ⟨fun k => k.2, fun k => ⟨states_of_grown bo bn hf ht h _, k⟩⟩

section Commands

open Exec

/-- C120 for the command, against a descriptor set: it ends well, prints nothing and changes nothing. -/
theorem C120_descriptor_set (h : Exec.Host) (hp : Prints h) (hj : h.json = true → ∀ f, ∃ t, h.toJSON f = .ok t)
    (t : Tools) (args : List Str) (path : Str) (hpath : path ≠ []) (m : Meta) (sets : List FileSet)
    (w : World) (hc : CompilesTo h args { doFileDescriptorSet := true } w.disk m sets)
    (data : Str) (hd : w.disk path = some data) (set : FileSet) (hdec : t.decode data = .ok set)
    (hff : FaithfulOn t.marshal fun f => f ∈ set) (hft : FaithfulOn t.marshal fun f => f ∈ sets.flatten)
    (hf : DescriptorsOK set) (hto : DescriptorsOK sets.flatten) (hgrown : Grown set sets.flatten)
    (hb : m.protoSet.config.break_.includeBeta = false → m.protoSet.config.break_.allowBetaDeps = false →
      StableOnStable sets.flatten) :
    breakCheckCmd h t args [] path w = (w, .ok ()) := by
  have he : [set].flatten = set := by simp
  have := (C120_sets t.srt t.order t.marshal m.protoSet.config.break_ [set] sets (by rwa [he]) hft (by rwa [he]) hto
    (by rwa [he])).2 hb
  rw [C66_descriptor_set h hp hj t args path hpath m sets w hc data hd set hdec [] this]
  have hn : breakLines h [] = [] := by rfl
  simp [hn, breakOutcome]

/-- C120 for the command, against a branch of the repository. -/
theorem C120_git (h : Exec.Host) (hp : Prints h) (hj : h.json = true → ∀ f, ∃ t, h.toJSON f = .ok t)
    (t : Tools) (args : List Str) (branch : Str) (m m' : Meta) (sets sets' : List FileSet)
    (w : World) (ht : TempDirsOK t w.disk)
    (hc : CompilesTo h args { doFileDescriptorSet := true } w.disk m sets)
    (hrel : Path.isAbs (fileOrDir args) = false)
    (hin : File.absClean h.wd h.workDirPath <+: File.absClean h.wd (fileOrDir args))
    (dir : Str) (disk' : Disk) (hclone : Clones h t branch w.disk dir disk')
    (hc' : CompilesTo { h with workDirPath := dir, stat := t.treeStat, getForDir := t.treeForDir }
      [cloneDirFor dir (fileOrDir args)] { doFileDescriptorSet := true } disk' m' sets')
    (hff : FaithfulOn t.marshal fun f => f ∈ sets'.flatten) (hft : FaithfulOn t.marshal fun f => f ∈ sets.flatten)
    (hf : DescriptorsOK sets'.flatten) (hto : DescriptorsOK sets.flatten)
    (hgrown : Grown sets'.flatten sets.flatten)
    (hb : m.protoSet.config.break_.includeBeta = false → m.protoSet.config.break_.allowBetaDeps = false →
      StableOnStable sets.flatten) :
    breakCheckCmd h t args branch [] w = (w, .ok ()) := by
  rw [C66_git h hp hj t args branch m m' sets sets' w ht hc hrel hin dir disk' hclone hc' []
    ((C120_sets t.srt t.order t.marshal m.protoSet.config.break_ sets' sets hff hft hf hto hgrown).2 hb)]
  have hn : breakLines h [] = [] := by rfl
  simp [hn, breakOutcome]

end Commands

/-! ## The hypotheses can be met -/

namespace AdditionsExample

open ReflectExample

/-- Before `user2.proto` was added to the package `foo.v1`, with an enum and a service. -/
def before : List FileSet := [[base], [base, user1]]

theorem mem_before {f : FileDesc} : f ∈ before.flatten ↔ f = base ∨ f = user1 := by
  simp only [before, List.flatten_cons, List.flatten_nil, List.append_nil, List.mem_append, List.mem_cons,
    List.not_mem_nil, or_false]
  exact ⟨fun h => h.elim .inl id, .inr⟩

theorem before_in_new {f : FileDesc} (h : f ∈ before.flatten) : f ∈ new.flatten := by
  rw [mem_before] at h
  rw [mem_new]
  rcases h with h | h
  · exact .inl h
  · exact .inr (.inl h)

theorem before_faithful : FaithfulOn byName fun f => f ∈ before.flatten :=
  ⟨fun f hf => new_faithful.1 f (before_in_new hf),
    fun f g x hf hg => new_faithful.2 f g x (before_in_new hf) (before_in_new hg)⟩

/-- The schema of `before`. -/
def beforeReflected : PackageSet :=
  [⟨s%"base.v1", [], [], [.mk (s%"Id") [] [] [⟨s%"value", 1, 1, 9, []⟩] []], []⟩,
   ⟨s%"foo.v1", [s%"base.v1"], [],
    [.mk (s%"User") [] [] [⟨s%"n", 1, 1, 5, []⟩, ⟨s%"id", 2, 1, 11, s%"base.v1.Id"⟩] [⟨s%"w", [1, 2]⟩]], []⟩]

theorem before_reflected : Reflect.newPackageSet SortSlice.stable Order.id byName before = .ok beforeReflected := by rfl

theorem before_valid : DescriptorsOK before.flatten := by
  have hn := new_valid.names
  refine ⟨(newPackageSet_ok before_faithful before_reflected).1, ⟨?_, ?_, ?_, ?_, ?_, ?_⟩, ?_, ?_⟩
  · exact fun f hf => hn.enums f (before_in_new hf)
  · exact fun f hf => hn.messages f (before_in_new hf)
  · exact fun f hf => hn.services f (before_in_new hf)
  · exact fun f hf g hg => hn.across_enums f (before_in_new hf) g (before_in_new hg)
  · exact fun f hf g hg => hn.across_messages f (before_in_new hf) g (before_in_new hg)
  · exact fun f hf g hg => hn.across_services f (before_in_new hf) g (before_in_new hg)
  · exact fun f hf => new_valid.messages f (before_in_new hf)
  · exact fun f hf => new_valid.methods f (before_in_new hf)

theorem before_kept : KeepsDefinitions before.flatten new.flatten :=
  ⟨fun f hf => ⟨f, before_in_new hf, rfl⟩, fun f hf _ hx => ⟨f, before_in_new hf, rfl, hx⟩,
    fun f hf _ hx => ⟨f, before_in_new hf, rfl, hx⟩, fun f hf _ hx => ⟨f, before_in_new hf, rfl, hx⟩⟩

/-- Adding `user2.proto` passes with beta packages included; taking it away again does not. -/
example : breakCheckSets .stable Order.id byName ⟨true, false⟩ before new = .ok [] ∧
    ∃ f fs, breakCheckSets .stable Order.id byName ⟨true, false⟩ new before = .ok (f :: fs) := by
  refine ⟨(C120_sets _ _ _ _ _ _ before_faithful new_faithful before_valid new_valid (grown_of_keeps before_kept)).2 (by simp), ?_⟩
  rw [breakCheckSets_eq _ _ _ _ _ _ reflected beforeReflected (by rfl) (by rfl)]
  exact ⟨_, _, rfl⟩

/-- `user.proto` with a oneof `v` before `w`, two fields, a nested message and enum, an enum value and a method added. -/
def more : FileDesc :=
  ⟨s%"more.proto", s%"foo.v1", [s%"base.proto"],
    [.mk (s%"User") [.mk (s%"In") [] [] [] []] [⟨s%"F", [⟨s%"Z", 0⟩]⟩]
      [⟨s%"id", 2, 1, 11, s%".base.v1.Id", some 1⟩, ⟨s%"x", 4, 1, 5, [], some 0⟩, ⟨s%"n", 1, 1, 5, [], some 1⟩,
        ⟨s%"y", 3, 3, 9, [], none⟩] [s%"v", s%"w"]],
    [⟨s%"E", [⟨s%"C", 2⟩, ⟨s%"B", 1⟩, ⟨s%"A", 0⟩]⟩],
    [⟨s%"S", [⟨s%"L", s%".foo.v1.User", s%".foo.v1.User", true, false⟩,
      ⟨s%"M", s%".foo.v1.User", s%".base.v1.Id", false, false⟩]⟩], []⟩

def later : List FileSet := [[base, more]]

theorem mem_later {f : FileDesc} : f ∈ later.flatten ↔ f = base ∨ f = more := by
  simp [later]

theorem later_faithful : FaithfulOn byName fun f => f ∈ later.flatten := by
  refine ⟨fun f _ => ⟨_, rfl⟩, ?_⟩
  intro f g x hf hg hx hx'
  rw [mem_later] at hf hg
  rw [← hx'] at hx
  rcases hf with rfl | rfl <;> rcases hg with rfl | rfl <;> first | rfl | cases hx

theorem later_valid : DescriptorsOK later.flatten := by
  refine ⟨(newPackageSet_ok (s := .stable) (o := Order.id) (ps := _) later_faithful rfl).1, ⟨?_, ?_, ?_, ?_, ?_, ?_⟩, ?_, ?_⟩
  · intro f hf; rcases mem_later.1 hf with rfl | rfl <;> decide
  · intro f hf; rcases mem_later.1 hf with rfl | rfl <;> decide
  · intro f hf; rcases mem_later.1 hf with rfl | rfl <;> decide
  iterate 3
    intro f hf g hg hp
    rcases mem_later.1 hf with rfl | rfl <;> rcases mem_later.1 hg with rfl | rfl <;>
      first | (intros; rfl) | cases hp
  · intro f hf
    rcases mem_later.1 hf with rfl | rfl
    · simp [base, MessagesValid, MessageValid, NamesType]
    · simp [more, MessagesValid, MessageValid, NamesType]
  · intro f hf
    rcases mem_later.1 hf with rfl | rfl
    · simp [base]
    · simp [more]

theorem grown : Grown old.flatten later.flatten := by
  have hb : base ∈ later.flatten := mem_later.2 (.inl rfl)
  have hm : more ∈ later.flatten := mem_later.2 (.inr rfl)
  refine ⟨?_, ?_, ?_, ?_⟩
  · intro f hf
    rcases mem_old.1 hf with rfl | rfl
    · exact ⟨_, hb, rfl⟩
    · exact ⟨_, hm, rfl⟩
  · intro f hf x hx
    rcases mem_old.1 hf with rfl | rfl
    · exact ⟨_, hb, rfl, x, hx, messageGrown_refl x⟩
    · obtain rfl := List.mem_singleton.1 hx
      refine ⟨_, hm, rfl, _, List.mem_singleton.2 rfl, .mk id (by simp) (by simp) (by simp) ?_ (by simp)⟩
      intro f hf
      simp only [List.mem_cons, List.not_mem_nil, or_false] at hf
      rcases hf with rfl | rfl
      · exact ⟨_, .head _, rfl, rfl, rfl, rfl, rfl, rfl⟩
      · exact ⟨_, .tail _ (.tail _ (.head _)), rfl, rfl, rfl, rfl, rfl, rfl⟩
  · intro f hf x hx
    rcases mem_old.1 hf with rfl | rfl
    · cases hx
    · obtain rfl := List.mem_singleton.1 hx
      exact ⟨_, hm, rfl, _, List.mem_singleton.2 rfl, .values (by decide) (by simp)⟩
  · intro f hf x hx
    rcases mem_old.1 hf with rfl | rfl
    · cases hx
    · obtain rfl := List.mem_singleton.1 hx
      exact ⟨_, hm, rfl, _, List.mem_singleton.2 rfl, rfl, by simp⟩

/-- Adding inside a message, an enum and a service passes. -/
example : breakCheckSets .stable Order.id byName ⟨true, false⟩ old later = .ok [] :=
  (C120_sets _ _ _ _ _ _ old_faithful later_faithful old_valid later_valid grown).2 (by simp)

/-- A value that takes the number of another one changes the name of the number. -/
example : ¬ EnumGrown ⟨s%"E", [⟨s%"A", 0⟩]⟩ ⟨s%"E", [⟨s%"A", 0⟩, ⟨s%"B", 0⟩]⟩ := by
  intro h
  cases h with
  | values hn _ => exact absurd hn (by decide)

open Exec Exec.Sample BreakExample

/-- Tools that read `before` from a file. -/
def tools : Tools := { Exec.Sample.tools with decode := fun _ => .ok before.flatten }

/-- The check of the files with `user2.proto` against the descriptor set of those without. -/
example : breakCheckCmd repoHost tools [s%"a"] [] s%"/tmp/set" FactsExample.files = (FactsExample.files, .ok ()) := by
  refine C120_descriptor_set repoHost repo_prints (by intro _ f; exact ⟨_, rfl⟩) tools [s%"a"] s%"/tmp/set" (by decide) dir
    new FactsExample.files ⟨⟨s%"a", .inl rfl, .inl ⟨rfl, rfl, rfl⟩⟩, ⟨_, rfl⟩, rfl⟩ s%"set" (by decide +kernel)
    before.flatten rfl before_faithful new_faithful before_valid new_valid (grown_of_keeps before_kept) ?_
  intro _ _ k q _ himp _
  obtain ⟨f, _, _, d, _, g, hg, _, rfl⟩ := himp
  rcases mem_new.1 hg with rfl | rfl | rfl <;> exact fun h => absurd (Proof.Extract.ignorePackage_true.2 h) (by decide)

/-- The working directory is a repository whose branch holds `old`, and its files hold `later`. -/
def laterHost : Exec.Host :=
  { repoHost with compile := fun _ _ ps => .ok ([], if ps.workDirPath = s%"/tmp/clone" then old else later) }

/-- The check of the files with additions inside definitions against the branch. -/
example : breakCheckCmd laterHost Exec.Sample.tools [s%"a"] [] [] world = (world, .ok ()) := by
  refine C120_git laterHost (fun _ _ => rfl) (by intro _ f; exact ⟨_, rfl⟩) Exec.Sample.tools [s%"a"] [] dir
    { protoSet := cloneSet } later old world tools_ok ⟨⟨s%"a", .inl rfl, .inl ⟨rfl, rfl, rfl⟩⟩, ⟨_, rfl⟩, by rfl⟩ rfl
    (by decide) s%"/tmp/clone" _ ⟨by rfl, rfl, by rfl⟩ ⟨⟨_, .inl rfl, .inl ⟨by rfl, by rfl, rfl⟩⟩, ⟨_, rfl⟩, by rfl⟩
    old_faithful later_faithful old_valid later_valid grown ?_
  intro _ _ k q _ himp _
  obtain ⟨f, _, _, d, _, g, hg, _, rfl⟩ := himp
  rcases mem_later.1 hg with rfl | rfl <;> exact fun h => absurd (Proof.Extract.ignorePackage_true.2 h) (by decide)

end AdditionsExample

end Verif.Props
