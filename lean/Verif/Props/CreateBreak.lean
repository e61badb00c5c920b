import Verif.Props.Additions
import Verif.Props.CreateFormat
import Verif.Props.Described
import Verif.Spec.CreateBreak

/-!
# C121: a new file breaks nothing
-/

namespace Verif.Props

open Verif Str Proto Reflect Breaking Descriptor Spec Exec Create

/-- A new file declares no names and no definitions, and imports nothing. -/
theorem new_declares {es : List Element} {uber2 : Bool} {path package javaPrefix : Str}
    (h : bareAll es = newFile [] uber2 path package javaPrefix) :
    (∀ scope, namesAll scope es = []) ∧ importsAmong es = [] := by
  have hb : ∀ e ∈ bareAll es, (∃ s, e = .syntax s) ∨ (∃ p, e = .package p) ∨ ∃ o, e = .option o := by
    intro e he
    rw [h] at he
    unfold newFile at he
    simp only [List.map_nil, List.nil_append, List.mem_cons, List.mem_map] at he
    rcases he with rfl | rfl | ⟨o, _, rfl⟩
    · exact .inl ⟨_, rfl⟩
    · exact .inr (.inl ⟨_, rfl⟩)
    · exact .inr (.inr ⟨_, rfl⟩)
  refine ⟨fun scope => ?_, ?_⟩
  · rw [← namesAll_bare, namesAll_eq]
    refine List.flatMap_eq_nil_iff.2 fun e he => ?_
    rcases hb e he with ⟨_, rfl⟩ | ⟨_, rfl⟩ | ⟨_, rfl⟩ <;> (unfold namesIn; rfl)
  · have hi : importsAmong (bareAll es) = (importsAmong es).map fun s => { filename := s.filename, kind := s.kind } :=
      Format.bare_among _ _ (fun _ => rfl) (fun e => by cases e <;> (unfold bare; rfl)) _
    have hn : importsAmong (bareAll es) = [] := by
      refine List.filterMap_eq_nil_iff.2 fun e he => ?_
      rcases hb e he with ⟨_, rfl⟩ | ⟨_, rfl⟩ | ⟨_, rfl⟩ <;> rfl
    rw [hn] at hi
    exact List.map_eq_nil_iff.1 hi.symm

/-- C121: **protoc makes of the other files what it made of them before**, and a new file imports nothing. -/
theorem C121_described (ch : Create.Handler) (h : Host) (hwd : IsAbsPath h.wd) (paths : List Str) (w w' : World)
    (hcr : createCmd ch h paths w = (w', .ok ())) (hfind : FindsNew ch h paths) (P : Protoc)
    (files made : List (Str × Str)) (hm : MadeAmong h paths w.disk files made) (all all' : List FileDesc)
    (hall : Described P h files w.disk all) (hall' : Described P h (files ++ made) w'.disk all') :
    (∀ f ∈ all, f ∈ all') ∧ ∀ f ∈ all', f ∈ all ∨ f.dependency = [] := by
  obtain ⟨es, h1, h2⟩ := hall
  obtain ⟨es', h1', h2'⟩ := hall'
  have same : ∀ x ∈ files, es' x = es x := by
    intro x hx
    obtain ⟨c, hc, hp⟩ := h1 x hx
    obtain ⟨c', hc', hp'⟩ := h1' x (List.mem_append_left _ hx)
    have hk := C39_kept ch h w paths x.2 c hc (fun e => hm.before x hx (by rw [hc, e]))
    rw [hcr] at hk
    rw [show w'.disk x.2 = some c from hk] at hc'
    cases hc'
    rw [hp] at hp'
    injection hp' with e
    exact e.symm
  have fresh : ∀ x ∈ made, (∀ scope, namesAll scope (es' x) = []) ∧ importsAmong (es' x) = [] := by
    intro x hx
    obtain ⟨p, hp, hxp⟩ := hm.made x hx
    obtain ⟨c', hc', hp'⟩ := h1' x (List.mem_append_right _ hx)
    obtain ⟨q, hq, hloc, c, package, hgc, hpk, hd⟩ := C39_written ch h hwd w w' paths hcr p hp
    rw [hxp, hd] at hc'
    cases hc'
    rw [hxp, ← hloc] at hp'
    exact new_declares (hfind q hq c package _ hgc hpk hp')
  have names : ((files ++ made).flatMap fun y => namesAll (topScope (es' y)) (es' y)) =
      files.flatMap fun y => namesAll (topScope (es y)) (es y) := by
    rw [List.flatMap_append, List.flatMap_eq_nil_iff.2 fun x hx => (fresh x hx).1 _, List.append_nil]
    have : ∀ l : List (Str × Str), (∀ x ∈ l, x ∈ files) → (l.flatMap fun y => namesAll (topScope (es' y)) (es' y)) =
        l.flatMap fun y => namesAll (topScope (es y)) (es y) := by
      intro l
      induction l with
      | nil => intro _; rfl
      | cons x l ih =>
        intro hl
        rw [List.flatMap_cons, List.flatMap_cons, same x (hl x (by simp)), ih fun y hy => hl y (by simp [hy])]
    exact this files fun _ h => h
  rw [names] at h2'
  refine ⟨fun f hf => ?_, fun f hf => ?_⟩
  · obtain ⟨x, hx, rfl⟩ := (h2 f).1 hf
    exact (h2' _).2 ⟨x, List.mem_append_left _ hx, by rw [same x hx]⟩
  · obtain ⟨x, hx, rfl⟩ := (h2' f).1 hf
    rcases List.mem_append.1 hx with hx | hx
    · left
      rw [same x hx]
      exact (h2 _).2 ⟨x, hx, rfl⟩
    · right
      unfold describe
      dsimp only
      rw [(fresh x hx).2]
      rfl

/-- Files that import nothing and leave the others as they are. -/
theorem stable_kept {all all' : List FileDesc} (hsub : ∀ f ∈ all, f ∈ all')
    (hnew : ∀ f ∈ all', f ∈ all ∨ f.dependency = []) (hr : Reflectable all) (hr' : Reflectable all')
    (h : StableOnStable all) : StableOnStable all' := by
  rintro k q hne ⟨f, hf, hfk, d, hd, g, hg, hgn, hgq⟩ hk
  rcases hnew f hf with hf' | hf'
  · obtain ⟨g', hg', hgn'⟩ := hr.imports f hf' d hd
    have : g = g' := hr'.one_copy g hg g' (hsub g' hg') (hgn.trans hgn'.symm)
    subst this
    exact h k q hne ⟨f, hf', hfk, d, hd, g, hg', hgn, hgq⟩ hk
  · rw [hf'] at hd
    cases hd

/-- C121: **a check of the files with the new ones against the files before finds nothing**, if no stable package
imported a beta package before. -/
theorem C121_sets (ch : Create.Handler) (h : Host) (hwd : IsAbsPath h.wd) (paths : List Str) (w w' : World)
    (hcr : createCmd ch h paths w = (w', .ok ())) (hfind : FindsNew ch h paths) (P : Protoc)
    (files made : List (Str × Str)) (hm : MadeAmong h paths w.disk files made) (frm to : List FileSet)
    (hall : Described P h files w.disk frm.flatten) (hall' : Described P h (files ++ made) w'.disk to.flatten)
    (s : SortSlice) (o : Order) (marshal : FileDesc → Except Err Str) (config : BreakConfig)
    (hff : FaithfulOn marshal fun f => f ∈ frm.flatten) (hft : FaithfulOn marshal fun f => f ∈ to.flatten)
    (hf : DescriptorsOK frm.flatten) (ht : DescriptorsOK to.flatten)
    (hb : config.includeBeta = false → config.allowBetaDeps = false → StableOnStable frm.flatten) :
    breakCheckSets s o marshal config frm to = .ok [] := by
  obtain ⟨h1, h2⟩ := C121_described ch h hwd paths w w' hcr hfind P files made hm _ _ hall hall'
  refine (C120_sets s o marshal config frm to hff hft hf ht (grown_of_keeps
    ⟨fun f hf => ⟨f, h1 f hf, rfl⟩, fun f hf _ hx => ⟨f, h1 f hf, rfl, hx⟩, fun f hf _ hx => ⟨f, h1 f hf, rfl, hx⟩,
      fun f hf _ hx => ⟨f, h1 f hf, rfl, hx⟩⟩)).2 fun a b => ?_
  exact stable_kept h1 h2 hf.reflectable ht.reflectable (hb a b)

/-- C121 for the command: after `create`, break check against a descriptor set of the files before ends well, prints
nothing and changes nothing. The host may see other files than at the time of `create`. -/
theorem C121_command (ch : Create.Handler) (h : Host) (hwd : IsAbsPath h.wd) (paths : List Str) (w w' : World)
    (hcr : createCmd ch h paths w = (w', .ok ())) (hfind : FindsNew ch h paths) (P : Protoc)
    (files made : List (Str × Str)) (hm : MadeAmong h paths w.disk files made)
    (h' : Host) (hp : Prints h') (hj : h'.json = true → ∀ f, ∃ t, h'.toJSON f = .ok t)
    (t : Tools) (args : List Str) (path : Str) (hpath : path ≠ []) (m : Meta) (sets : List FileSet)
    (hc : CompilesTo h' args { doFileDescriptorSet := true } w'.disk m sets)
    (data : Str) (hd : w'.disk path = some data) (set : FileSet) (hdec : t.decode data = .ok set)
    (hall : Described P h files w.disk set) (hall' : Described P h (files ++ made) w'.disk sets.flatten)
    (hff : FaithfulOn t.marshal fun f => f ∈ set) (hft : FaithfulOn t.marshal fun f => f ∈ sets.flatten)
    (hf : DescriptorsOK set) (hto : DescriptorsOK sets.flatten)
    (hb : m.protoSet.config.break_.includeBeta = false → m.protoSet.config.break_.allowBetaDeps = false →
      StableOnStable set) :
    breakCheckCmd h' t args [] path w' = (w', .ok ()) := by
  obtain ⟨h1, h2⟩ := C121_described ch h hwd paths w w' hcr hfind P files made hm _ _ hall hall'
  refine C120_descriptor_set h' hp hj t args path hpath m sets w' hc data hd set hdec hff hft hf hto (grown_of_keeps
    ⟨fun f hf => ⟨f, h1 f hf, rfl⟩, fun f hf _ hx => ⟨f, h1 f hf, rfl, hx⟩, fun f hf _ hx => ⟨f, h1 f hf, rfl, hx⟩,
      fun f hf _ hx => ⟨f, h1 f hf, rfl, hx⟩⟩) fun a b => ?_
  exact stable_kept h1 h2 hf.reflectable hto.reflectable (hb a b)

/-! ## The hypotheses can be met -/

namespace CreateBreakExample

open NewFileExample
open DescribedExample (P elements desc desc_valid)

/-- The host of the examples of `create`, which can also read a file that is there already. -/
def host : Exec.Host :=
  { NewFileExample.host with
    parse := fun p c => if c = s%"U" then .ok elements else NewFileExample.host.parse p c }

/-- The file is there. -/
def start : World where
  disk p := if p = s%"/w/b/user.proto" then some s%"U" else if p = s%"/set" then some s%"S" else none

/-- The files after `create`. -/
def after : World := (createCmd createHandler host [name] start).1

theorem made : createCmd createHandler host [name] start = (after, .ok ()) :=
  Prod.ext rfl (by decide +kernel)

set_option maxRecDepth 100000 in
theorem after_disk : after.disk s%"/w/other/y/c.proto" = some text ∧ after.disk s%"/w/b/user.proto" = some s%"U" ∧
    after.disk s%"/set" = some s%"S" := by decide +kernel

theorem absolute : IsAbsPath host.wd := NewFileExample.abs

theorem configured' : getConfig createHandler host name = some (.ok config) := by rfl

theorem packaged' : getPkg createHandler host config name s%"uber.prototool.generated.v1" = .ok s%"other.y" := by rfl

theorem host_parse (p c : Str) : host.parse p c = if c = s%"U" then .ok elements else NewFileExample.host.parse p c :=
  rfl

theorem parse_new (path : Str) : host.parse path text = .ok found := by
  have hne : text ≠ s%"U" := by decide +kernel
  rw [host_parse, if_neg hne, parsed _ _ (.inl rfl)]

theorem parse_old (path : Str) : host.parse path s%"U" = .ok elements := by
  rw [host_parse, if_pos rfl]

theorem finds_new : FindsNew createHandler host [name] := by
  intro p hp c package es hc hpk hes
  cases List.mem_singleton.1 hp
  rw [configured'] at hc
  injection hc with hc
  injection hc with hc
  subst hc
  rw [header.2.1, if_pos rfl, packaged'] at hpk
  injection hpk with hpk
  subst hpk
  rw [← text_eq, parse_new] at hes
  injection hes with hes
  subst hes
  rw [header.2.1, header.2.2]
  rfl

def old : List (Str × Str) := [(s%"b/user.proto", s%"/w/b/user.proto")]
def fresh : List (Str × Str) := [(s%"other/y/c.proto", s%"/w/other/y/c.proto")]

theorem among : MadeAmong host [name] start.disk old fresh := by
  refine ⟨fun x hx => ?_, fun x hx => ?_⟩
  · obtain rfl := List.mem_singleton.1 hx
    exact ⟨name, List.mem_singleton.2 rfl, by decide +kernel⟩
  · obtain rfl := List.mem_singleton.1 hx
    decide

/-- The descriptor of the new file. -/
def newDesc : FileDesc := ⟨s%"other/y/c.proto", s%"other.y", [], [], [], [], P.rest found⟩

def frm : FileSet := [desc s%"rest....."]
def to : FileSet := [desc s%"rest.....", newDesc]

theorem before_described : Described P host old start.disk frm := by
  refine ⟨fun _ => elements, fun x hx => ?_, fun f => ?_⟩
  · obtain rfl := List.mem_singleton.1 hx
    exact ⟨s%"U", rfl, parse_old _⟩
  · simp only [frm, old, List.mem_singleton, exists_eq_left, ← DescribedExample.elements_described, List.flatMap_cons,
      List.flatMap_nil, List.append_nil]

theorem after_described : Described P host (old ++ fresh) after.disk to := by
  refine ⟨fun x => if x.2 = s%"/w/b/user.proto" then elements else found, fun x hx => ?_, fun f => ?_⟩
  · simp only [old, fresh, List.cons_append, List.nil_append, List.mem_cons, List.not_mem_nil, or_false] at hx
    rcases hx with rfl | rfl
    · exact ⟨s%"U", after_disk.2.1, parse_old _⟩
    · exact ⟨text, after_disk.1, parse_new _⟩
  · simp only [old, fresh, to, List.cons_append, List.nil_append, List.mem_cons, List.not_mem_nil, or_false,
      exists_eq_or_imp, exists_eq_left]
    rfl

theorem after_valid : DescriptorsOK to := by
  have hv := desc_valid s%"rest....."
  have hd := List.mem_singleton.2 (rfl : desc s%"rest....." = desc s%"rest.....")
  have two : ∀ f ∈ to, f = desc s%"rest....." ∨ f = newDesc := fun f hf => by simpa [to] using hf
  refine ⟨⟨?_, ?_, ?_, ?_, ?_⟩, ⟨?_, ?_, ?_, ?_, ?_, ?_⟩, ?_, ?_⟩
  · intro f hf
    rcases two f hf with rfl | rfl
    · exact hv.reflectable.packages _ hd
    · exact ⟨by simp [newDesc], by simp [newDesc, Qualified]⟩
  · intro f hf g hg
    rcases two f hf with rfl | rfl <;> rcases two g hg with rfl | rfl <;> intro h <;> first | rfl | cases h
  · intro f hf d hx
    rcases two f hf with rfl | rfl <;> cases hx
  · intro f hf
    rcases two f hf with rfl | rfl
    · exact hv.reflectable.messages _ hd
    · simp [newDesc, MessagesQualified]
  · intro f hf s hs
    rcases two f hf with rfl | rfl <;> cases hs
  · intro f hf
    rcases two f hf with rfl | rfl
    · exact hv.names.enums _ hd
    · simp [newDesc]
  · intro f hf
    rcases two f hf with rfl | rfl
    · exact hv.names.messages _ hd
    · simp [newDesc]
  · intro f hf
    rcases two f hf with rfl | rfl
    · exact hv.names.services _ hd
    · simp [newDesc]
  iterate 3
    intro f hf g hg hp
    rcases two f hf with rfl | rfl <;> rcases two g hg with rfl | rfl <;>
      first | (intros; rfl) | cases hp
  · intro f hf
    rcases two f hf with rfl | rfl
    · exact hv.messages _ hd
    · simp [newDesc, MessagesValid]
  · intro f hf s hs
    rcases two f hf with rfl | rfl <;> cases hs

theorem after_faithful : FaithfulOn ReflectExample.byName fun f => f ∈ to := by
  refine ⟨fun f _ => ⟨_, rfl⟩, ?_⟩
  intro f g x hf hg hx hx'
  have two : ∀ f ∈ to, f = desc s%"rest....." ∨ f = newDesc := fun f hf => by simpa [to] using hf
  rw [← hx'] at hx
  rcases two f hf with rfl | rfl <;> rcases two g hg with rfl | rfl <;> first | rfl | cases hx

theorem before_faithful : FaithfulOn ReflectExample.byName fun f => f ∈ frm :=
  have sub : ∀ f ∈ frm, f ∈ to := fun f hf => by
    rw [List.mem_singleton.1 hf]
    exact .head _
  ⟨fun f hf => after_faithful.1 f (sub f hf), fun f g x hf hg => after_faithful.2 f g x (sub f hf) (sub g hg)⟩

theorem before_stable : StableOnStable frm := by
  rintro k q _ ⟨f, hf, _, d, hd, _⟩
  obtain rfl := List.mem_singleton.1 hf
  cases hd

/-- A host on which protoc sees both files. -/
def seeing : Exec.Host := { host with compile := fun _ _ _ => .ok ([], [to]) }

/-- Tools that read the descriptors of the file before. -/
def tools : Tools := { Exec.Sample.tools with marshal := ReflectExample.byName, decode := fun _ => .ok frm }

/-- The check after `create` against the descriptor set from before. -/
example : breakCheckCmd seeing tools [s%"other/y"] [] s%"/set" after = (after, .ok ()) :=
  C121_command createHandler host absolute [name] start after made finds_new P old fresh among seeing
    (fun _ _ => rfl) (by intro _ f; exact ⟨_, rfl⟩) tools [s%"other/y"] s%"/set" (by decide) dirOf [to]
    ⟨⟨s%"other/y", .inl rfl, .inl ⟨rfl, rfl, rfl⟩⟩, ⟨_, rfl⟩, rfl⟩ s%"S" after_disk.2.2 frm rfl before_described
    after_described before_faithful after_faithful (desc_valid _) after_valid fun _ _ => before_stable

end CreateBreakExample

end Verif.Props
