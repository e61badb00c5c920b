import Verif.Proof.Reflect
import Verif.Spec.Redistribution

/-! # The reflected packages are determined by the definitions -/

namespace Verif.Proof.Reflect

open Verif Descriptor Verif.Reflect Spec

theorem byName_unique {α : Type} {name : α → Str} {l l' : List α} (h : ByName name l) (h' : ByName name l')
    (hp : l.Perm l') (hn : (l.map name).Nodup) : l = l' := by
  refine sorted_perm_eq (le := fun a b => !Str.lt (name b) (name a)) ?_
    (h.imp fun h => by simpa using h) (h'.imp fun h => by simpa using h) hp
  intro a b ha hb h1 h2
  simp only [Bool.not_eq_true'] at h1 h2
  exact eq_of_key_eq hn ha hb (Str.eq_of_not_lt h2 h1)

theorem strict_unique {l l' : List Package} (h : l.Pairwise fun a b => Str.lt a.name b.name = true)
    (h' : l'.Pairwise fun a b => Str.lt a.name b.name = true)
    (hn : ∀ n, (∃ p ∈ l, p.name = n) ↔ ∃ p ∈ l', p.name = n)
    (he : ∀ p ∈ l, ∀ p' ∈ l', p.name = p'.name → p = p') : l = l' := by
  have nd : ∀ {l : List Package}, (l.Pairwise fun a b => Str.lt a.name b.name = true) → (l.map (·.name)).Nodup := by
    intro l h
    rw [List.Nodup, List.pairwise_map]
    refine h.imp fun hlt he => ?_
    rw [he, Str.lt_irrefl] at hlt
    cases hlt
  have nd' : ∀ {l : List Package}, (l.Pairwise fun a b => Str.lt a.name b.name = true) → l.Nodup := fun h =>
    List.Pairwise.of_map _ (fun _ _ hne he => hne (congrArg _ he)) (nd h)
  have sorted : ∀ {l : List Package}, (l.Pairwise fun a b => Str.lt a.name b.name = true) →
      ByName (·.name) l := fun h => h.imp fun h => Str.lt_asymm h
  refine byName_unique (sorted h) (sorted h') ?_ (nd h)
  refine (List.perm_ext_iff_of_nodup (nd' h) (nd' h')).2 fun p => ?_
  constructor
  · intro hp
    obtain ⟨q, hq, hqn⟩ := (hn p.name).1 ⟨p, hp, rfl⟩
    rw [he p hp q hq hqn.symm]; exact hq
  · intro hp
    obtain ⟨q, hq, hqn⟩ := (hn p.name).2 ⟨p, hp, rfl⟩
    rw [← he q hq p hp hqn]; exact hq

theorem messages_names {s : SortSlice} {ds : List MessageDesc} {ms : List Message}
    (h : ds.map (reflectMessage s) = ms.map some) : ms.map Message.name = ds.map MessageDesc.name := by
  induction ds generalizing ms with
  | nil =>
    cases ms with
    | nil => rfl
    | cons m ms => cases h
  | cons d ds ih =>
    cases ms with
    | nil => cases h
    | cons m ms =>
      rw [List.map_cons, List.map_cons, List.cons.injEq] at h
      rw [List.map_cons, List.map_cons, ih h.2, reflectMessage_name h.1]

theorem built_eq {s : SortSlice} {files files' : List FileDesc} {p p' : Package}
    (h : BuiltPackage s files p) (h' : BuiltPackage s files' p')
    (he : ((files.flatMap (·.enums)).map (newEnum s)).Perm ((files'.flatMap (·.enums)).map (newEnum s)))
    (hm : ((files.flatMap (·.messages)).map (reflectMessage s)).Perm
      ((files'.flatMap (·.messages)).map (reflectMessage s)))
    (hs : ((files.flatMap (·.services)).map (builtService s)).Perm
      ((files'.flatMap (·.services)).map (builtService s)))
    (ne : ((files.flatMap (·.enums)).map (·.name)).Nodup)
    (nm : ((files.flatMap (·.messages)).map MessageDesc.name).Nodup)
    (ns : ((files.flatMap (·.services)).map (·.name)).Nodup) :
    p.enums = p'.enums ∧ p.messages = p'.messages ∧ p.services = p'.services := by
  refine ⟨?_, ?_, ?_⟩
  · refine byName_unique h.enums_sorted h'.enums_sorted (h.enums.trans (he.trans h'.enums.symm)) ?_
    rw [(h.enums.map _).nodup_iff, List.map_map]
    exact ne
  · obtain ⟨ms, h1, h2⟩ := h.messages
    obtain ⟨ms', h1', h2'⟩ := h'.messages
    rw [h1, h1'] at hm
    refine byName_unique h.messages_sorted h'.messages_sorted (h2.trans ((perm_map_some hm).trans h2'.symm)) ?_
    rw [(h2.map _).nodup_iff, messages_names h1]
    exact nm
  · refine byName_unique h.services_sorted h'.services_sorted (h.services.trans (hs.trans h'.services.symm)) ?_
    rw [(h.services.map _).nodup_iff, List.map_map]
    exact ns

/-! ## Distinct names -/

theorem flatMap_names_nodup {all files : List FileDesc} {k : Str} (hf : FilesOf all k files) {α : Type}
    {defs : FileDesc → List α} {name : α → Str} (h1 : ∀ f ∈ all, ((defs f).map name).Nodup)
    (h2 : ∀ f ∈ all, ∀ g ∈ all, f.package = g.package → ∀ a ∈ defs f, ∀ b ∈ defs g, name a = name b → f = g) :
    ((files.flatMap defs).map name).Nodup := by
  obtain ⟨hn, hm⟩ := hf
  have hall : ∀ f ∈ files, f ∈ all ∧ f.package = k := fun f hf => (hm f).1 hf
  clear hm
  induction files with
  | nil => simp
  | cons f files ih =>
    rw [List.nodup_cons] at hn
    rw [List.flatMap_cons, List.map_append, List.nodup_append]
    refine ⟨h1 f (hall f (by simp)).1, ih hn.2 fun g hg => hall g (by simp [hg]), ?_⟩
    rintro x hx y hy rfl
    obtain ⟨a, ha, rfl⟩ := List.mem_map.1 hx
    obtain ⟨b, hb, hab⟩ := List.mem_map.1 hy
    obtain ⟨g, hg, hbg⟩ := List.mem_flatMap.1 hb
    have hgm := hall g (by simp [hg])
    have hfm := hall f (by simp)
    have := h2 f hfm.1 g hgm.1 (hfm.2.trans hgm.2.symm) a ha b hbg hab.symm
    exact hn.1 (this ▸ hg)

theorem filesOf_perm {all files files' : List FileDesc} {k : Str} (h : FilesOf all k files)
    (h' : FilesOf all k files') : files.Perm files' :=
  (List.perm_ext_iff_of_nodup h.1 h'.1).2 fun f => by rw [h.2, h'.2]

theorem flatMap_perm {α β : Type} {l l' : List α} (h : l.Perm l') (g : α → List β) :
    (l.flatMap g).Perm (l'.flatMap g) := by
  rw [List.flatMap_def, List.flatMap_def]
  exact (h.map g).flatten

/-! ## Reordering -/

theorem getEnums_eq_run (s : SortSlice) (es : List Enum) :
    getEnums s es = s.run (fun a b => Str.lt a.name b.name) (es.map (newEnum s)) := by
  unfold getEnums
  split
  · rename_i h
    rw [List.eq_nil_of_length_eq_zero h]
    exact (List.perm_nil.1 (s.perm _ _)).symm
  · rfl

theorem newEnum_reordered (s : SortSlice) {a b : Enum} (h : EnumReordered a b) : newEnum s a = newEnum s b := by
  cases h with
  | values hn hp =>
    unfold newEnum
    dsimp only
    rw [SortSlice.byNumber_eq s s (number := fun v : EnumValue => v.number) hp hn]

theorem builtService_reordered (s : SortSlice) {a b : ServiceDesc} (h : ServiceReordered a b) :
    builtService s a = builtService s b := by
  cases h with
  | methods hn hp =>
    unfold builtService
    dsimp only
    rw [SortSlice.byName_eq s s (name := fun m : Method => m.name) (hp.map methodOf)]
    rw [List.map_map]
    exact hn

theorem option_ext {α : Type} {a b : Option α} (h : ∀ x, a = some x ↔ b = some x) : a = b := by
  cases a with
  | none =>
    cases b with
    | none => rfl
    | some y => exact absurd ((h y).2 rfl) (by simp)
  | some x => exact ((h x).1 rfl).symm

theorem sortNumbers_congr (s : SortSlice) {n : Str} {a b : List Int} (h : a.Perm b) :
    sortNumbers s ⟨n, a⟩ = sortNumbers s ⟨n, b⟩ := by
  unfold sortNumbers
  dsimp only
  rw [SortSlice.eq_of_perm s s SWO.int h]
  intro x _ y _ h1 h2
  simp at h1 h2
  omega

theorem map_some_perm {α β : Type} {f : α → Option β} {l l' : List α} {ys : List β} (hp : l.Perm l')
    (h : l.map f = ys.map some) : ∃ ys', l'.map f = ys'.map some ∧ ys.Perm ys' := by
  have hp' := hp.map f
  rw [h] at hp'
  refine ⟨(l'.map f).filterMap id, ?_, ?_⟩
  · have hall : ∀ x ∈ l'.map f, ∃ y, x = some y := by
      intro x hx
      obtain ⟨y, _, hy⟩ := List.mem_map.1 (hp'.mem_iff.2 hx)
      exact ⟨y, hy.symm⟩
    clear hp' hp h
    induction l' with
    | nil => rfl
    | cons a l ih =>
      rw [List.map_cons]
      obtain ⟨y, hy⟩ := hall (f a) (by simp)
      rw [hy, List.filterMap_cons]
      show _ = some y :: _
      rw [← ih fun x hx => hall x (by rw [List.map_cons]; exact List.mem_cons_of_mem _ hx)]
  · have := hp'.filterMap id
    simpa [List.filterMap_map] using this

theorem builtMessage_fields (s : SortSlice) (site : Site) (name : Str) (nested : List Message)
    (enums : List Enum) {fs fs' : List FieldDesc} (decls : List Str) (hn : (fs.map (·.number)).Nodup)
    (hp : fs.Perm fs') :
    builtMessage s Order.id site name nested enums fs decls =
      builtMessage s Order.id site name nested enums fs' decls := by
  unfold builtMessage
  rw [SortSlice.byNumber_eq s s (number := fun f : Field => f.number) (hp.map fieldOf)
    (by rw [List.map_map]; exact hn)]
  congr 2
  unfold withNumbers
  show (List.map _ _).map _ = (List.map _ _).map _
  rw [List.map_map, List.map_map]
  refine List.map_congr_left fun w _ => ?_
  refine sortNumbers_congr s ?_
  exact List.Perm.append_left _ ((hp.filter _).map _)

theorem oneofName_reindex {os os' : List Str} {place : Nat → Nat} (hi : ∀ i : Nat, os'[place i]? = os[i]?)
    (f : FieldDesc) : oneofName os' (reindex place f) = oneofName os f := by
  unfold oneofName reindex
  dsimp only
  cases f.oneofIndex with
  | none => rfl
  | some i => exact hi i

theorem fieldQualified_reindex {os os' : List Str} {place : Nat → Nat} (hi : ∀ i : Nat, os'[place i]? = os[i]?)
    (f : FieldDesc) : FieldQualified os' (reindex place f) ↔ FieldQualified os f := by
  unfold FieldQualified reindex
  dsimp only
  refine and_congr Iff.rfl ?_
  cases f.oneofIndex with
  | none => simp
  | some i =>
    simp only [Option.map_some, Option.some.injEq, forall_eq']
    have h := hi i
    constructor
    · intro hl
      refine Classical.byContradiction fun hc => ?_
      rw [List.getElem?_eq_none (Nat.le_of_not_lt hc), List.getElem?_eq_none_iff] at h
      omega
    · intro hl
      refine Classical.byContradiction fun hc => ?_
      rw [List.getElem?_eq_none (Nat.le_of_not_lt hc)] at h
      have := List.getElem?_eq_none_iff.1 h.symm
      omega

theorem builtMessage_oneofs (s : SortSlice) (site : Site) (name : Str) (nested : List Message)
    (enums : List Enum) (fs : List FieldDesc) {os os' : List Str} {place : Nat → Nat} (hp : os.Perm os')
    (hi : ∀ i : Nat, os'[place i]? = os[i]?) :
    builtMessage s Order.id site name nested enums fs os =
      builtMessage s Order.id site name nested enums (fs.map (reindex place)) os' := by
  unfold builtMessage
  have hf : (fs.map (reindex place)).map fieldOf = fs.map fieldOf := by
    rw [List.map_map]; rfl
  rw [hf]
  congr 1
  have hw : withNumbers os' (fs.map (reindex place)) (emptyOneofs os') = withNumbers os fs (emptyOneofs os') := by
    unfold withNumbers
    refine List.map_congr_left fun w _ => ?_
    rw [List.filter_map, List.map_map]
    simp only [Function.comp_def, oneofName_reindex hi]
    rfl
  rw [hw]
  have hpe : (emptyOneofs os).Perm (emptyOneofs os') := by
    refine (List.perm_ext_iff_of_nodup ?_ ?_).2 fun w => ?_
    · exact List.Pairwise.of_map _ (fun _ _ hne he => hne (congrArg _ he)) (emptyOneofs_nodup os)
    · exact List.Pairwise.of_map _ (fun _ _ hne he => hne (congrArg _ he)) (emptyOneofs_nodup os')
    · rw [emptyOneofs_mem, emptyOneofs_mem, hp.mem_iff]
  refine SortSlice.byName_eq s s (name := fun w : Oneof => w.name) ?_ ?_
  · show (List.map _ _).Perm (List.map _ _)
    unfold withNumbers
    exact (hpe.map _).map _
  · rw [List.map_map]
    show ((withNumbers os fs (emptyOneofs os)).map (·.name)).Nodup
    rw [names_withNumbers]
    exact emptyOneofs_nodup os

/-- Reordering the inside of a message does not change its reflection. -/
theorem reflectMessage_reordered (s : SortSlice) {a b : MessageDesc} (h : MessageReordered a b) :
    reflectMessage s a = reflectMessage s b := by
  induction h with
  | refl => rfl
  | trans _ _ ih1 ih2 => exact ih1.trans ih2
  | @nested name ns ns' es fs os hn hp =>
    have aux : ∀ {ns ns' : List MessageDesc}, (ns.map MessageDesc.name).Nodup → ns.Perm ns' → ∀ x,
        reflectMessage s (.mk name ns es fs os) = some x → reflectMessage s (.mk name ns' es fs os) = some x := by
      intro ns ns' hn hp x hx
      obtain ⟨h1, ys, hys, rfl⟩ := reflectMessage_mk.1 hx
      obtain ⟨ys', hys', hpy⟩ := map_some_perm hp hys
      refine reflectMessage_mk.2 ⟨h1, ys', hys', ?_⟩
      rw [SortSlice.byName_eq s s hpy (by rw [messages_names hys]; exact hn)]
    exact option_ext fun x => ⟨aux hn hp x, aux ((hp.map _).nodup_iff.1 hn) hp.symm x⟩
  | enums hn hp =>
    refine option_ext fun x => ?_
    rw [reflectMessage_mk, reflectMessage_mk, getEnums_eq_run, getEnums_eq_run,
      SortSlice.byName_eq s s (name := fun e : Enum => e.name) (hp.map (newEnum s))
        (by rw [List.map_map]; exact hn)]
  | fields hn hp =>
    refine option_ext fun x => ?_
    rw [reflectMessage_mk, reflectMessage_mk]
    have hq : ∀ P : FieldDesc → Prop, (∀ f ∈ _, P f) ↔ (∀ f ∈ _, P f) := fun P =>
      ⟨fun h f hf => h f (hp.mem_iff.2 hf), fun h f hf => h f (hp.mem_iff.1 hf)⟩
    rw [hq]
    simp only [builtMessage_fields s _ _ _ _ _ hn hp]
  | oneofs place hp hi =>
    refine option_ext fun x => ?_
    rw [reflectMessage_mk, reflectMessage_mk]
    simp only [← builtMessage_oneofs s _ _ _ _ _ hp hi, List.mem_map, forall_exists_index, and_imp,
      forall_apply_eq_imp_iff₂, fieldQualified_reindex hi]
  | in_nested _ ih =>
    refine option_ext fun x => ?_
    rw [reflectMessage_mk, reflectMessage_mk, List.map_append, List.map_append, List.map_cons, List.map_cons, ih]
  | in_enum h =>
    refine option_ext fun x => ?_
    rw [reflectMessage_mk, reflectMessage_mk, getEnums_eq_run, getEnums_eq_run, List.map_append, List.map_append,
      List.map_cons, List.map_cons, newEnum_reordered s h]

theorem rearranged_map {α β : Type} {R : α → α → Prop} {f : α → β} (hR : ∀ a b, R a b → f a = f b)
    {l l' : List α} (h : Rearranged R l l') : (l.map f).Perm (l'.map f) := by
  induction h with
  | perm hp => exact hp.map f
  | edit hab =>
    rw [List.map_append, List.map_append, List.map_cons, List.map_cons, hR _ _ hab]
  | trans _ _ ih1 ih2 => exact ih1.trans ih2

/-! ## Uniqueness -/

theorem Built.imports {s : SortSlice} {all : List FileDesc} {ps : PackageSet} (h : Built s all ps)
    {p : Package} (hp : p ∈ ps) (q : Str) : q ∈ p.dependencyNames ↔ q ≠ p.name ∧ Imports all p.name q :=
  h.dependencies p hp q

theorem package_ext {p q : Package} (h1 : p.name = q.name) (h2 : p.dependencyNames = q.dependencyNames)
    (h3 : p.enums = q.enums ∧ p.messages = q.messages ∧ p.services = q.services) : p = q := by
  cases p; cases q
  dsimp only at *
  obtain ⟨a, b, c⟩ := h3
  rw [h1, h2, a, b, c]

/-- Redistributed files give the same packages. -/
theorem built_redistributed {s : SortSlice} {all all' : List FileDesc} {ps ps' : PackageSet}
    (h : Built s all ps) (h' : Built s all' ps') (hn : DistinctNames all) (hr : Redistributed all all') :
    ps = ps' := by
  refine strict_unique h.sorted h'.sorted ?_ ?_
  · intro n
    rw [h.names, h'.names, hr.packages]
  · intro p hp p' hp' he
    obtain ⟨files, hf, hb⟩ := h.packages p hp
    obtain ⟨files', hf', hb'⟩ := h'.packages p' hp'
    rw [← he] at hf'
    refine package_ext he ?_ ?_
    · refine strictSorted_ext (h.dependencies_sorted p hp) (h'.dependencies_sorted p' hp') fun q => ?_
      rw [h.imports hp, h'.imports hp', ← he]
      constructor
      · rintro ⟨a, b⟩; exact ⟨a, (hr.imports _ _ a).1 b⟩
      · rintro ⟨a, b⟩; exact ⟨a, (hr.imports _ _ a).2 b⟩
    · exact built_eq hb hb'
        (rearranged_map (f := newEnum s) (fun _ _ => newEnum_reordered s) (hr.enums _ _ _ hf hf'))
        (rearranged_map (f := reflectMessage s) (fun _ _ => reflectMessage_reordered s) (hr.messages _ _ _ hf hf'))
        (rearranged_map (f := builtService s) (fun _ _ => builtService_reordered s) (hr.services _ _ _ hf hf'))
        (flatMap_names_nodup hf hn.enums hn.across_enums)
        (flatMap_names_nodup hf hn.messages hn.across_messages)
        (flatMap_names_nodup hf hn.services hn.across_services)

theorem redistributed_of_mem {all all' : List FileDesc} (h : ∀ f, f ∈ all ↔ f ∈ all') :
    Redistributed all all' := by
  have hfo : ∀ {k files files'}, FilesOf all k files → FilesOf all' k files' → files.Perm files' := by
    intro k files files' hf hf'
    refine (List.perm_ext_iff_of_nodup hf.1 hf'.1).2 fun f => by rw [hf.2, hf'.2, h]
  refine ⟨?_, ?_, ?_, ?_, ?_⟩
  · intro k; simp only [h]
  · intro k q _; unfold Imports; simp only [h]
  · exact fun k files files' hf hf' => .perm (flatMap_perm (hfo hf hf') _)
  · exact fun k files files' hf hf' => .perm (flatMap_perm (hfo hf hf') _)
  · exact fun k files files' hf hf' => .perm (flatMap_perm (hfo hf hf') _)

/-! ## What is built is what is declared -/

theorem built_describes {s : SortSlice} {all : List FileDesc} {ps : PackageSet} (h : Built s all ps) :
    DescribesSet all ps := by
  refine ⟨h.sorted, h.names, ?_⟩
  intro p hp files hf
  obtain ⟨files', hf', hb⟩ := h.packages p hp
  have hperm := filesOf_perm hf' hf
  refine ⟨?_, hb.enums_sorted, ?_, hb.messages_sorted, ?_, hb.services_sorted, ?_, h.dependencies_sorted p hp⟩
  · refine .perm (Matches.map (f := newEnum s) fun e _ => newEnum_describes s e) ?_
    exact ((flatMap_perm hperm.symm _).map _).trans hb.enums.symm
  · obtain ⟨ms, h1, h2⟩ := hb.messages
    obtain ⟨ms', h1', h2'⟩ := map_some_perm (flatMap_perm hperm _) h1
    exact .perm (matches_of_map h1' fun d _ m => reflectMessage_describes s d m) (h2'.symm.trans h2.symm)
  · refine .perm (Matches.map (f := builtService s) fun e _ => builtService_describes s e) ?_
    exact ((flatMap_perm hperm.symm _).map _).trans hb.services.symm
  · intro q
    rw [h.dependencies p hp]
    refine and_congr Iff.rfl ?_
    constructor
    · rintro ⟨f, hfm, hk, rest⟩
      exact ⟨f, (hf.2 f).2 ⟨hfm, hk⟩, rest⟩
    · rintro ⟨f, hfm, rest⟩
      obtain ⟨h1, h2⟩ := (hf.2 f).1 hfm
      exact ⟨f, h1, h2, rest⟩

/-! ## What is built is a well-formed schema -/

theorem messagesValid_mem {ds : List MessageDesc} (h : MessagesValid ds) {d : MessageDesc} (hd : d ∈ ds) :
    MessageValid d := by
  induction ds with
  | nil => cases hd
  | cons a ds ih =>
    rw [MessagesValid] at h
    rcases List.mem_cons.1 hd with rfl | hd
    · exact h.1
    · exact ih h.2 hd

theorem messagesValid_of_mem {ds : List MessageDesc} (h : ∀ d ∈ ds, MessageValid d) : MessagesValid ds := by
  induction ds with
  | nil => rw [MessagesValid]; trivial
  | cons a ds ih =>
    rw [MessagesValid]
    exact ⟨h a (by simp), ih fun d hd => h d (by simp [hd])⟩

theorem describes_name {d : MessageDesc} {m : Message} (h : Describes d m) : m.name = d.name := by
  cases h; rfl

theorem describes_ok {d : MessageDesc} {m : Message} (h : Describes d m) (hv : MessageValid d) : MessageOK m := by
  cases h with
  | @mk name nested enums fields oneofs nm ne fs ws h1 _ h2 _ h3 _ h4 =>
    rw [MessageValid] at hv
    obtain ⟨v1, v2, v3, v4, _⟩ := hv
    have hfn : (fs.map (·.number)).Nodup := by
      rw [(h3.map _).nodup_iff, List.map_map]
      exact v3
    have hfield : ∀ f ∈ fs, ∃ g ∈ fields, f = fieldOf g := by
      intro f hf
      obtain ⟨g, hg, rfl⟩ := List.mem_map.1 (h3.mem_iff.1 hf)
      exact ⟨g, hg, rfl⟩
    have hnum : ∀ w ∈ ws, ∀ n ∈ w.fieldNumbers, ∃ g ∈ fields, oneofName oneofs g = some w.name ∧ g.number = n := by
      intro w hw n hn
      rw [(h4.numbers w hw).mem_iff, List.mem_map] at hn
      obtain ⟨g, hg, rfl⟩ := hn
      rw [List.mem_filter] at hg
      exact ⟨g, hg.1, by simpa using hg.2, rfl⟩
    refine ⟨?_, ?_, hfn, h4.nodup, ?_, ?_, ?_, ?_, ?_⟩
    · exact ((Matches.keys (k := MessageDesc.name) (k' := Message.name) h1 fun _ _ => describes_name).nodup_iff).2 v1
    · exact ((Matches.keys (k := fun e : Enum => e.name) (k' := fun e : Enum => e.name) h2 fun _ _ h => h.name).nodup_iff).2 v2
    · intro w hw n hn
      obtain ⟨g, hg, _, rfl⟩ := hnum w hw n hn
      exact ⟨fieldOf g, h3.mem_iff.2 (List.mem_map_of_mem hg), rfl⟩
    · intro w hw w' hw' n hn hn'
      obtain ⟨g, hg, ho, rfl⟩ := hnum w hw n hn
      obtain ⟨g', hg', ho', he⟩ := hnum w' hw' _ hn'
      have : g' = g := eq_of_key_eq v3 hg' hg he
      subst this
      rw [ho] at ho'
      exact eq_of_key_eq (key := fun w : Oneof => w.name) h4.nodup hw hw' (Option.some.inj ho')
    · intro f hf
      obtain ⟨g, hg, rfl⟩ := hfield f hf
      exact (v4 g hg).1
    · intro f hf
      obtain ⟨g, hg, rfl⟩ := hfield f hf
      exact (v4 g hg).2.1
    · intro f hf
      obtain ⟨g, hg, rfl⟩ := hfield f hf
      exact (v4 g hg).2.2

theorem describes_at {ms : List Message} {path : List Str} {m : Message} (h : MessageAt ms path m) :
    ∀ ds, Matches Describes ds ms → MessagesValid ds → ∃ d, Describes d m ∧ MessageValid d := by
  induction h with
  | here hm =>
    intro ds hd hv
    obtain ⟨d, hdm, hdd⟩ := Matches.mem_right hd _ hm
    exact ⟨d, hdd, messagesValid_mem hv hdm⟩
  | inside hm _ ih =>
    intro ds hd hv
    obtain ⟨d, hdm, hdd⟩ := Matches.mem_right hd _ hm
    have hv' := messagesValid_mem hv hdm
    cases hdd with
    | mk h1 =>
      rw [MessageValid] at hv'
      exact ih _ h1 hv'.2.2.2.2

/-- Reflecting valid descriptors yields a well-formed schema. -/
theorem built_schemaOK {s : SortSlice} {all : List FileDesc} {ps : PackageSet} (h : Built s all ps)
    (hv : DescriptorsOK all) : SchemaOK ps := by
  have hd := built_describes h
  refine ⟨?_, ?_, ?_⟩
  · rw [List.Nodup, List.pairwise_map]
    refine h.sorted.imp fun hlt he => ?_
    rw [he, Str.lt_irrefl] at hlt
    cases hlt
  · intro p hp
    obtain ⟨files, hf, hb⟩ := h.packages p hp
    have hdp := hd.packages p hp files hf
    have hall : ∀ f ∈ files, f ∈ all := fun f hfm => ((hf.2 f).1 hfm).1
    refine ⟨?_, ?_, ?_, ?_, ?_, ?_⟩
    · obtain ⟨f, hfm, hfn⟩ := (h.names p.name).1 ⟨p, hp, rfl⟩
      rw [← hfn]
      exact (hv.reflectable.packages f hfm).1
    · exact ((Matches.keys (k := MessageDesc.name) (k' := Message.name) hdp.messages
        fun _ _ => describes_name).nodup_iff).2 (flatMap_names_nodup hf hv.names.messages hv.names.across_messages)
    · intro path m hm
      obtain ⟨d, h1, h2⟩ := describes_at hm _ hdp.messages (messagesValid_of_mem (by
        intro d hd
        obtain ⟨f, hfm, hdf⟩ := List.mem_flatMap.1 hd
        exact messagesValid_mem (hv.messages f (hall f hfm)) hdf))
      exact describes_ok h1 h2
    · exact ((Matches.keys (k := fun e : Enum => e.name) (k' := fun e : Enum => e.name) hdp.enums
        fun _ _ h => h.name).nodup_iff).2 (flatMap_names_nodup hf hv.names.enums hv.names.across_enums)
    · exact ((Matches.keys (k := fun e : ServiceDesc => e.name) (k' := fun e : Service => e.name) hdp.services
        fun _ _ h => h.name).nodup_iff).2 (flatMap_names_nodup hf hv.names.services hv.names.across_services)
    · intro sv hsv
      obtain ⟨d, hdm, hds⟩ := Matches.mem_right hdp.services sv hsv
      obtain ⟨f, hfm, hdf⟩ := List.mem_flatMap.1 hdm
      rw [(hds.methods.map _).nodup_iff, List.map_map]
      exact hv.methods f (hall f hfm) d hdf
  · intro p hp d hd
    obtain ⟨_, f, _, _, n, _, g, hg, _, rfl⟩ := (h.dependencies p hp d).1 hd
    exact (h.names _).2 ⟨g, hg, rfl⟩

end Verif.Proof.Reflect
