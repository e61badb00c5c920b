import Verif.Proof.Reformat
import Verif.Spec.List
import Verif.Props.LintNames
import Verif.Props.LintEnums
import Verif.Props.LintFields
import Verif.Props.LintComments
import Verif.Props.LintOther
import Verif.Props.LintPackage
import Verif.Props.LintTypes
import Verif.Props.LintDir
import Verif.Props.LintOptions
import Verif.Props.LintSuppress

/-! # What the rules find in a file and in its formatted text -/

namespace Verif.Reform

open Verif Str Proto Spec Lint Props
open _root_.Verif.Format (optionsAmong)

variable {old new keep : Option Comment → Option Comment} {d d' : FileDescriptor}

/-! ## Collections -/

theorem collect {α : Type} {f : Node → Option α} {β : α → α} {p q : Node → Bool} {σ : Node → Node}
    (hq : ∀ n, q (σ n) = q n) (hf : ∀ n, f (σ n) = (f n).map β)
    (hp : ∀ n, (f n).isSome = true → p n = true) (l : List Node) :
    ((l.filter q).filterMap f).map β = (((l.filter p).map σ).filter q).filterMap f := by
  induction l with
  | nil => rfl
  | cons n l ih =>
    have h1 := hq n
    have h2 := hf n
    have h3 := hp n
    rw [List.filter_cons, List.filter_cons]
    cases hqn : q n with
    | false =>
      rw [if_neg (by simp), ih]
      cases p n with
      | false => rw [if_neg (by simp)]
      | true => rw [if_pos rfl, List.map_cons, List.filter_cons, if_neg (by rw [h1, hqn]; simp)]
    | true =>
      rw [if_pos rfl, List.filterMap_cons]
      cases hfn : f n with
      | none =>
        simp only
        rw [ih]
        cases p n with
        | false => rw [if_neg (by simp)]
        | true =>
          rw [if_pos rfl, List.map_cons, List.filter_cons, if_pos (by rw [h1, hqn]), List.filterMap_cons, h2, hfn]
          rfl
      | some a =>
        rw [if_pos (h3 (by rw [hfn]; rfl))]
        simp only [List.map_cons]
        rw [ih, List.filter_cons, if_pos (by rw [h1, hqn]), List.filterMap_cons, h2, hfn]
        rfl

/-- A kind of nodes that can be told by the heads. -/
def Told (kind : Element → Bool) : Prop := ∀ keep e, kind (head keep e) = kind e

theorem told_around {kind : Element → Bool} (hk : Told kind) (n : Node) :
    (shade keep n).around.all kind = n.around.all kind := by
  unfold shade
  rw [List.all_map]
  exact List.all_congr rfl fun e => hk keep e

theorem Twin.perm (T : Twin old new d d') {α : Type} {f : Node → Option α}
    {β : (Option Comment → Option Comment) → α → α} {kind : Element → Bool} (hk : Told kind)
    (hf : ∀ keep n, f (shade keep n) = (f n).map (β keep))
    (hp : ∀ n, (f n).isSome = true → notComment n.self = true) :
    (((inside kind d').filterMap f).map (β new)).Perm (((inside kind d).filterMap f).map (β old)) := by
  unfold inside
  rw [collect (fun n => told_around hk n) (hf new) hp, collect (fun n => told_around hk n) (hf old) hp]
  exact ((T.all false).filter _).filterMap _

theorem Twin.eq (T : Twin old new d d') {α : Type} {f : Node → Option α}
    {β : (Option Comment → Option Comment) → α → α} {kind : Element → Bool} (hk : Told kind)
    (hf : ∀ keep n, f (shade keep n) = (f n).map (β keep))
    (hp : ∀ n, (f n).isSome = true → solid n.self = true) :
    ((inside kind d').filterMap f).map (β new) = ((inside kind d).filterMap f).map (β old) := by
  unfold inside
  rw [collect (fun n => told_around hk n) (hf new) hp, collect (fun n => told_around hk n) (hf old) hp]
  exact congrArg (fun l : List Node => (l.filter fun n => n.around.all kind).filterMap f) (T.put false)

theorem told_message : Told isMessage := fun keep e => by cases e <;> rfl
theorem told_enum : Told isEnum := fun keep e => by cases e <;> rfl
theorem told_oneof : Told isOneof := fun keep e => by cases e <;> rfl
theorem told_service : Told isService := fun keep e => by cases e <;> rfl
theorem told_rpc : Told isRPC := fun keep e => by cases e <;> rfl
theorem told_nothing : Told nothing := fun _ _ => rfl

theorem Told.or {a b : Element → Bool} (ha : Told a) (hb : Told b) : Told fun e => a e || b e :=
  fun keep e => by simp only [ha keep e, hb keep e]

def headMessage (keep : Option Comment → Option Comment) (m : Message) : Message :=
  { comment := keep m.comment, name := m.name, isExtend := m.isExtend }

def headEnum (keep : Option Comment → Option Comment) (e : Enum) : Enum :=
  { comment := keep e.comment, name := e.name }

def headValue (keep : Option Comment → Option Comment) (f : EnumField) : EnumField :=
  { comment := keep f.comment, name := f.name, integer := f.integer
    inlineComment := keep f.inlineComment }

def headService (keep : Option Comment → Option Comment) (s : Service) : Service :=
  { comment := keep s.comment, name := s.name }

def headOneof (keep : Option Comment → Option Comment) (s : Oneof) : Oneof :=
  { comment := keep s.comment, name := s.name }

def headRPC (keep : Option Comment → Option Comment) (r : RPC) : RPC :=
  { comment := keep r.comment, name := r.name, requestType := r.requestType
    streamsRequest := r.streamsRequest, returnsType := r.returnsType
    streamsReturns := r.streamsReturns, inlineComment := keep r.inlineComment }

def headImport (keep : Option Comment → Option Comment) (i : Import) : Import :=
  { comment := keep i.comment, filename := i.filename, kind := i.kind
    inlineComment := keep i.inlineComment }

def headReserved (keep : Option Comment → Option Comment) (r : Reserved) : Reserved :=
  { comment := keep r.comment, ranges := r.ranges.map bareRange
    fieldNames := r.fieldNames, inlineComment := keep r.inlineComment }

def headNamed (keep : Option Comment → Option Comment) (m : NamedMessage) : NamedMessage :=
  { m with message := headMessage keep m.message }

theorem namesAround_head (around : List Element) : namesAround (around.map (head keep)) = namesAround around := by
  induction around with
  | nil => rfl
  | cons e around ih => cases e <;> simp only [List.map_cons, head, namesAround, ih]

macro "by_node" : tactic => `(tactic| (rintro keep ⟨around, self⟩; cases self <;> rfl))
macro "by_self" : tactic => `(tactic| (rintro ⟨around, self⟩ h; cases self <;> first | rfl | cases h))

theorem Twin.messages (T : Twin old new d d') :
    (messages d').map (headMessage new) = (messages d).map (headMessage old) :=
  T.eq (β := headMessage) told_message (by by_node) (by by_self)

theorem Twin.enums (T : Twin old new d d') : (enums d').map (headEnum new) = (enums d).map (headEnum old) :=
  T.eq (β := headEnum) told_message (by by_node) (by by_self)

theorem Twin.enumValues (T : Twin old new d d') :
    (enumValues d').map (headValue new) = (enumValues d).map (headValue old) :=
  T.eq (β := headValue) (told_message.or told_enum) (by by_node) (by by_self)

theorem Twin.namedValues (T : Twin old new d d') :
    (namedValues d').map (fun x => (x.1, headValue new x.2)) =
      (namedValues d).map (fun x => (x.1, headValue old x.2)) :=
  T.eq (β := fun keep (x : List Str × EnumField) => (x.1, headValue keep x.2)) (told_message.or told_enum)
    (by
      rintro keep ⟨around, self⟩
      cases self <;> first | rfl | simp [asNamedValue, shade, head, asEnumValue, namesAround_head, headValue])
    (by by_self)

theorem Twin.valuesOfEnums (T : Twin old new d d') :
    (valuesOfEnums d').map (fun x => (headEnum new x.1, headValue new x.2)) =
      (valuesOfEnums d).map (fun x => (headEnum old x.1, headValue old x.2)) :=
  T.eq (β := fun keep (x : Enum × EnumField) => (headEnum keep x.1, headValue keep x.2))
    (told_message.or told_enum)
    (by
      rintro keep ⟨around, self⟩
      cases around with
      | nil => cases self <;> rfl
      | cons a around => cases a <;> cases self <;> rfl)
    (by
      rintro ⟨around, self⟩ h
      cases self <;> first | rfl | (cases around with
        | nil => cases h
        | cons a around => cases a <;> cases h))

theorem Twin.enumOptions (T : Twin old new d d') :
    ((enumOptions d').map (keptOption new)).Perm ((enumOptions d).map (keptOption old)) :=
  T.perm (β := keptOption) (told_message.or told_enum)
    (by
      rintro keep ⟨around, self⟩
      cases around with
      | nil => cases self <;> rfl
      | cons a around => cases a <;> cases self <;> rfl)
    (by
      rintro ⟨around, self⟩ h
      cases self <;> first | rfl | (cases around with
        | nil => cases h
        | cons a around => cases a <;> cases h))

theorem Twin.rpcOptions (T : Twin old new d d') :
    ((rpcOptions d').map (fun x => (headRPC new x.1, keptOption new x.2))).Perm
      ((rpcOptions d).map (fun x => (headRPC old x.1, keptOption old x.2))) :=
  T.perm (β := fun keep (x : RPC × Opt) => (headRPC keep x.1, keptOption keep x.2))
    (told_service.or told_rpc)
    (by
      rintro keep ⟨around, self⟩
      cases around with
      | nil => cases self <;> rfl
      | cons a around => cases a <;> cases self <;> rfl)
    (by
      rintro ⟨around, self⟩ h
      cases self <;> first | rfl | (cases around with
        | nil => cases h
        | cons a around => cases a <;> cases h))

theorem Twin.reservedDecls (T : Twin old new d d') :
    (reservedDecls d').map (headReserved new) = (reservedDecls d).map (headReserved old) :=
  T.eq (β := headReserved) (told_message.or told_enum) (by by_node) (by by_self)

theorem Twin.fields (T : Twin old new d d') : (fields d').map (headField new) = (fields d).map (headField old) :=
  T.eq (β := headField) (told_message.or told_oneof) (by by_node) (by by_self)

theorem Twin.nonMapFields (T : Twin old new d d') :
    (nonMapFields d').map (headField new) = (nonMapFields d).map (headField old) :=
  T.eq (β := headField) (told_message.or told_oneof) (by by_node) (by by_self)

theorem Twin.oneofs (T : Twin old new d d') : (oneofs d').map (headOneof new) = (oneofs d).map (headOneof old) :=
  T.eq (β := headOneof) told_message (by by_node) (by by_self)

theorem Twin.services (T : Twin old new d d') :
    (services d').map (headService new) = (services d).map (headService old) :=
  T.eq (β := headService) told_nothing (by by_node) (by by_self)

theorem Twin.rpcs (T : Twin old new d d') : (rpcs d').map (headRPC new) = (rpcs d).map (headRPC old) :=
  T.eq (β := headRPC) told_service (by by_node) (by by_self)

theorem Twin.imports (T : Twin old new d d') :
    ((imports d').map (headImport new)).Perm ((imports d).map (headImport old)) :=
  T.perm (β := headImport) told_nothing (by by_node) (by by_self)

theorem Twin.fileOptions (T : Twin old new d d') :
    ((fileOptions d').map (keptOption new)).Perm ((fileOptions d).map (keptOption old)) :=
  T.perm (β := keptOption) told_nothing (by by_node) (by by_self)

theorem Twin.topMessages (T : Twin old new d d') :
    (topMessages d').map (headMessage new) = (topMessages d).map (headMessage old) :=
  T.eq (β := headMessage) told_nothing (by by_node) (by by_self)

theorem Twin.topEnums (T : Twin old new d d') :
    (topEnums d').map (headEnum new) = (topEnums d).map (headEnum old) :=
  T.eq (β := headEnum) told_nothing (by by_node) (by by_self)

theorem Twin.namedMessages (T : Twin old new d d') :
    (namedMessages d').map (headNamed new) = (namedMessages d).map (headNamed old) := by
  have hf : ∀ keep n, asNamedMessage (shade keep n) = (asNamedMessage n).map (headNamed keep) := by
    rintro keep ⟨around, self⟩
    cases self <;> first | rfl | skip
    simp [asNamedMessage, shade, head, namesAround_head, headNamed, headMessage, fieldCounts_dummies]
  have hp : ∀ n, (asNamedMessage n).isSome = true → solid n.self = true := by by_self
  unfold Spec.namedMessages
  rw [collect (fun n => told_around told_message n) (hf new) hp,
    collect (fun n => told_around told_message n) (hf old) hp]
  exact congrArg (fun l : List Node => (l.filter fun n => n.around.all isMessage).filterMap asNamedMessage)
    (T.put true)

/-! ## Counting -/

theorem filter_eq {α : Type} {X X' : List α} {βo βn : α → α} (h : (X'.map βn).Perm (X.map βo))
    {P P' : α → Prop} [DecidablePred P] [DecidablePred P'] (Q : α → Prop) {pos pos' : α → Position}
    (ho : ∀ x, P x ↔ Q (βo x)) (hn : ∀ x, P' x ↔ Q (βn x)) :
    ((X'.filter fun x => decide (P' x)).map pos').length = ((X.filter fun x => decide (P x)).map pos).length := by
  classical
  rw [List.length_map, List.length_map, ← List.countP_eq_length_filter, ← List.countP_eq_length_filter]
  have h1 : X'.countP (fun x => decide (P' x)) = (X'.map βn).countP fun x => decide (Q x) := by
    rw [List.countP_map]
    exact List.countP_congr fun x _ => by simp [hn]
  have h2 : X.countP (fun x => decide (P x)) = (X.map βo).countP fun x => decide (Q x) := by
    rw [List.countP_map]
    exact List.countP_congr fun x _ => by simp [ho]
  rw [h1, h2]
  exact h.countP_eq _

theorem filter_le {α : Type} {X X' : List α} {βo βn : α → α} (h : (X'.map βn).Perm (X.map βo))
    {P P' : α → Prop} [DecidablePred P] [DecidablePred P'] (Q : α → Prop) {pos pos' : α → Position}
    (ho : ∀ x, Q (βo x) → P x) (hn : ∀ x, P' x → Q (βn x)) :
    ((X'.filter fun x => decide (P' x)).map pos').length ≤ ((X.filter fun x => decide (P x)).map pos).length := by
  classical
  rw [List.length_map, List.length_map, ← List.countP_eq_length_filter, ← List.countP_eq_length_filter]
  have h1 : X'.countP (fun x => decide (P' x)) ≤ (X'.map βn).countP fun x => decide (Q x) := by
    rw [List.countP_map]
    exact List.countP_mono_left fun x _ => by simpa using hn x
  have h2 : (X.map βo).countP (fun x => decide (Q x)) ≤ X.countP (fun x => decide (P x)) := by
    rw [List.countP_map]
    exact List.countP_mono_left fun x _ => by simpa using ho x
  rw [h.countP_eq _] at h1
  exact Nat.le_trans h1 h2

theorem length_flatMap_sum {α γ : Type} (g : α → List γ) (l : List α) :
    (l.flatMap g).length = (l.map fun x => (g x).length).sum := by
  induction l with
  | nil => rfl
  | cons a l ih => simp [ih]

theorem flat_eq {α γ : Type} {X X' : List α} {βo βn : α → α} (h : (X'.map βn).Perm (X.map βo))
    {g g' : α → List γ} (k : α → Nat) (ho : ∀ x, (g x).length = k (βo x)) (hn : ∀ x, (g' x).length = k (βn x)) :
    (X'.flatMap g').length = (X.flatMap g).length := by
  rw [length_flatMap_sum, length_flatMap_sum]
  have h1 : X'.map (fun x => (g' x).length) = (X'.map βn).map k := by
    rw [List.map_map]; exact List.map_congr_left fun x _ => hn x
  have h2 : X.map (fun x => (g x).length) = (X.map βo).map k := by
    rw [List.map_map]; exact List.map_congr_left fun x _ => ho x
  rw [h1, h2]
  exact (h.map k).sum_nat

theorem sum_le_sum {α : Type} {a b : α → Nat} {l : List α} (h : ∀ x ∈ l, a x ≤ b x) :
    (l.map a).sum ≤ (l.map b).sum := by
  induction l with
  | nil => exact Nat.le_refl _
  | cons x l ih =>
    have h1 := h x List.mem_cons_self
    have h2 := ih fun y hy => h y (List.mem_cons_of_mem _ hy)
    simp only [List.map_cons, List.sum_cons]
    omega

theorem flat_le {α γ : Type} {X X' : List α} {βo βn : α → α} (h : (X'.map βn).Perm (X.map βo))
    {g g' : α → List γ} (k : α → Nat) (ho : ∀ x ∈ X, k (βo x) ≤ (g x).length)
    (hn : ∀ x ∈ X', (g' x).length ≤ k (βn x)) :
    (X'.flatMap g').length ≤ (X.flatMap g).length := by
  rw [length_flatMap_sum, length_flatMap_sum]
  have h1 : (X'.map fun x => (g' x).length).sum ≤ ((X'.map βn).map k).sum := by
    rw [List.map_map]; exact sum_le_sum hn
  have h2 : ((X.map βo).map k).sum ≤ (X.map fun x => (g x).length).sum := by
    rw [List.map_map]; exact sum_le_sum ho
  have h3 : ((X'.map βn).map k).sum = ((X.map βo).map k).sum := (h.map k).sum_nat
  omega

theorem lastBy_map {α κ : Type} [DecidableEq κ] {key : α → κ} {β : α → α} (h : ∀ a, key (β a) = key a)
    (l : List α) : lastBy key (l.map β) = (lastBy key l).map β := by
  induction l with
  | nil => rfl
  | cons a l ih =>
    rw [List.map_cons, lastBy, lastBy]
    have hc : (∃ b ∈ l.map β, key b = key (β a)) ↔ ∃ b ∈ l, key b = key a := by
      constructor
      · rintro ⟨b, hb, e⟩
        obtain ⟨b', hb', rfl⟩ := List.mem_map.1 hb
        exact ⟨b', hb', by rw [← h b', e, h a]⟩
      · rintro ⟨b, hb, e⟩
        exact ⟨β b, List.mem_map_of_mem hb, by rw [h, h, e]⟩
    by_cases hl : ∃ b ∈ l, key b = key a
    · rw [if_pos hl, if_pos (hc.2 hl), ih]
    · rw [if_neg hl, if_neg (fun x => hl (hc.1 x)), ih, List.map_cons]

theorem lastBy_twin {α κ : Type} [DecidableEq κ] {key : α → κ} {βo βn : α → α}
    (ho : ∀ a, key (βo a) = key a) (hn : ∀ a, key (βn a) = key a) {X X' : List α}
    (h : X'.map βn = X.map βo) : ((lastBy key X').map βn) = ((lastBy key X).map βo) := by
  rw [← lastBy_map hn, h, lastBy_map ho]

/-! ## Rules -/

/-- The rule finds as much in the rearranged files. -/
def Steady (l : Linter) : Prop :=
  ∀ old new dirPath ds ds', Pointwise (Twin old new) ds ds' → ∃ fs gs,
    l.check dirPath ds = some (.ok fs) ∧ l.check dirPath ds' = some (.ok gs) ∧ gs.length = fs.length

/-- The rule finds no more in the rearranged files. -/
def Declining (l : Linter) : Prop :=
  ∀ dirPath ds ds', Pointwise (Twin plainComment unplaced) ds ds' → ∃ fs gs,
    l.check dirPath ds = some (.ok fs) ∧ l.check dirPath ds' = some (.ok gs) ∧ gs.length ≤ fs.length

theorem pointwise_sum {R : FileDescriptor → FileDescriptor → Prop} {places : FileDescriptor → List Position}
    {ds ds' : List FileDescriptor} (h : Pointwise R ds ds')
    (hl : ∀ d d', R d d' → (places d').length = (places d).length) :
    (ds'.flatMap places).length = (ds.flatMap places).length := by
  induction h with
  | nil => rfl
  | cons hd _ ih => simp only [List.flatMap_cons, List.length_append, ih, hl _ _ hd]

theorem pointwise_sum_le {R : FileDescriptor → FileDescriptor → Prop} {places : FileDescriptor → List Position}
    {ds ds' : List FileDescriptor} (h : Pointwise R ds ds')
    (hl : ∀ d d', R d d' → (places d').length ≤ (places d).length) :
    (ds'.flatMap places).length ≤ (ds.flatMap places).length := by
  induction h with
  | nil => exact Nat.le_refl _
  | cons hd _ ih =>
    have := hl _ _ hd
    simp only [List.flatMap_cons, List.length_append]
    omega

theorem pointwise_left {R : FileDescriptor → FileDescriptor → Prop} {ok : FileDescriptor → Prop}
    {ds ds' : List FileDescriptor} (h : Pointwise R ds ds') (hl : ∀ d d', R d d' → ok d ∧ ok d') :
    (∀ d ∈ ds, ok d) ∧ ∀ d ∈ ds', ok d := by
  induction h with
  | nil => exact ⟨fun _ h => (nomatch h), fun _ h => (nomatch h)⟩
  | cons hd _ ih =>
    constructor
    · intro d h
      rcases List.mem_cons.1 h with rfl | h
      · exact (hl _ _ hd).1
      · exact ih.1 d h
    · intro d h
      rcases List.mem_cons.1 h with rfl | h
      · exact (hl _ _ hd).2
      · exact ih.2 d h

theorem steady_on {ok : FileDescriptor → Prop} {l : Linter} {places : FileDescriptor → List Position}
    (hr : ReportsOn ok l places) (hok : ∀ old new d d', Twin old new d d' → ok d ∧ ok d')
    (h : ∀ old new d d', Twin old new d d' → (places d').length = (places d).length) : Steady l := by
  intro old new dirPath ds ds' hp
  obtain ⟨h1, h2⟩ := pointwise_left hp (hok old new)
  obtain ⟨fs, hf, hfp, -⟩ := hr dirPath ds h1
  obtain ⟨gs, hg, hgp, -⟩ := hr dirPath ds' h2
  refine ⟨fs, gs, hf, hg, ?_⟩
  have a := hfp.length_eq
  have b := hgp.length_eq
  rw [List.length_map] at a b
  rw [a, b]
  exact pointwise_sum hp (h old new)

theorem declining_on {ok : FileDescriptor → Prop} {l : Linter} {places : FileDescriptor → List Position}
    (hr : ReportsOn ok l places) (hok : ∀ old new d d', Twin old new d d' → ok d ∧ ok d')
    (h : ∀ d d', Twin plainComment unplaced d d' → (places d').length ≤ (places d).length) : Declining l := by
  intro dirPath ds ds' hp
  obtain ⟨h1, h2⟩ := pointwise_left hp (hok _ _)
  obtain ⟨fs, hf, hfp, -⟩ := hr dirPath ds h1
  obtain ⟨gs, hg, hgp, -⟩ := hr dirPath ds' h2
  refine ⟨fs, gs, hf, hg, ?_⟩
  have a := hfp.length_eq
  have b := hgp.length_eq
  rw [List.length_map] at a b
  rw [a, b]
  exact pointwise_sum_le hp h

theorem steady_of {l : Linter} {places : FileDescriptor → List Position} (hr : Reports l places)
    (h : ∀ old new d d', Twin old new d d' → (places d').length = (places d).length) : Steady l :=
  steady_on hr (fun _ _ _ _ _ => ⟨trivial, trivial⟩) h

theorem declining_of {l : Linter} {places : FileDescriptor → List Position} (hr : Reports l places)
    (h : ∀ d d', Twin plainComment unplaced d d' → (places d').length ≤ (places d).length) : Declining l :=
  declining_on hr (fun _ _ _ _ _ => ⟨trivial, trivial⟩) h

theorem grammatical_twin : ∀ old new d d', Twin old new d d' → Grammatical d ∧ Grammatical d' :=
  fun _ _ _ _ T => ⟨T.well.grammatical, T.well'.grammatical⟩

theorem name_twin : ∀ old new d d', Twin old new d d' → s%".proto" <:+ d.filename ∧ s%".proto" <:+ d'.filename :=
  fun _ _ _ _ T => ⟨T.well.filename, T.well'.filename⟩

theorem named_twin : ∀ old new d d', Twin old new d d' → d.filename ≠ [] ∧ d'.filename ≠ [] := by
  have h : ∀ s : Str, s%".proto" <:+ s → s ≠ [] := by
    rintro s h rfl
    exact absurd h.length_le (by decide)
  exact fun _ _ _ _ T => ⟨h _ T.well.filename, h _ T.well'.filename⟩

theorem Twin.p {α : Type} {X X' : List α} (h : X = X') : X.Perm X' := .of_eq h

/-! ### Names -/

theorem steady_enumNamesCamelCase : Steady enumNamesCamelCaseLinter :=
  steady_of C29_enum_names_camel_case fun _ _ _ _ T =>
    filter_eq (.of_eq T.enums) (fun e => ¬ CamelCase e.name) (fun _ => .rfl) fun _ => .rfl

theorem steady_enumNamesCapitalized : Steady enumNamesCapitalizedLinter :=
  steady_of C29_enum_names_capitalized fun _ _ _ _ T =>
    filter_eq (.of_eq T.enums) (fun e => ¬ Capitalized e.name) (fun _ => .rfl) fun _ => .rfl

theorem steady_enumFieldNamesUpperSnakeCase : Steady enumFieldNamesUpperSnakeCaseLinter :=
  steady_of C29_enum_field_names_upper_snake_case fun _ _ _ _ T =>
    filter_eq (.of_eq T.enumValues) (fun e => ¬ UpperSnakeCase e.name) (fun _ => .rfl) fun _ => .rfl

theorem steady_enumFieldNamesUppercase : Steady enumFieldNamesUppercaseLinter :=
  steady_of C29_enum_field_names_uppercase fun _ _ _ _ T =>
    filter_eq (.of_eq T.enumValues) (fun e => ¬ Uppercase e.name) (fun _ => .rfl) fun _ => .rfl

theorem steady_messageFieldNamesLowerSnakeCase : Steady messageFieldNamesLowerSnakeCaseLinter :=
  steady_of C29_message_field_names_lower_snake_case fun _ _ _ _ T =>
    filter_eq (.of_eq T.fields) (fun e => ¬ LowerSnakeCase e.name) (fun _ => .rfl) fun _ => .rfl

theorem steady_messageFieldNamesLowercase : Steady messageFieldNamesLowercaseLinter :=
  steady_of C29_message_field_names_lowercase fun _ _ _ _ T =>
    filter_eq (.of_eq T.fields) (fun e => ¬ Lowercase e.name) (fun _ => .rfl) fun _ => .rfl

theorem steady_oneofNamesLowerSnakeCase : Steady oneofNamesLowerSnakeCaseLinter :=
  steady_of C29_oneof_names_lower_snake_case fun _ _ _ _ T =>
    filter_eq (.of_eq T.oneofs) (fun e => ¬ LowerSnakeCase e.name) (fun _ => .rfl) fun _ => .rfl

theorem steady_rpcNamesCamelCase : Steady rpcNamesCamelCaseLinter :=
  steady_of C29_rpc_names_camel_case fun _ _ _ _ T =>
    filter_eq (.of_eq T.rpcs) (fun e => ¬ CamelCase e.name) (fun _ => .rfl) fun _ => .rfl

theorem steady_rpcNamesCapitalized : Steady rpcNamesCapitalizedLinter :=
  steady_of C29_rpc_names_capitalized fun _ _ _ _ T =>
    filter_eq (.of_eq T.rpcs) (fun e => ¬ Capitalized e.name) (fun _ => .rfl) fun _ => .rfl

theorem steady_serviceNamesCamelCase : Steady serviceNamesCamelCaseLinter :=
  steady_of C29_service_names_camel_case fun _ _ _ _ T =>
    filter_eq (.of_eq T.services) (fun e => ¬ CamelCase e.name) (fun _ => .rfl) fun _ => .rfl

theorem steady_serviceNamesCapitalized : Steady serviceNamesCapitalizedLinter :=
  steady_of C29_service_names_capitalized fun _ _ _ _ T =>
    filter_eq (.of_eq T.services) (fun e => ¬ Capitalized e.name) (fun _ => .rfl) fun _ => .rfl

theorem steady_messageNamesCamelCase : Steady messageNamesCamelCaseLinter :=
  steady_of C29_message_names_camel_case fun _ _ _ _ T =>
    filter_eq (.of_eq T.messages) (fun e => e.isExtend = false ∧ ¬ CamelCase e.name) (fun _ => .rfl) fun _ => .rfl

theorem steady_messageNamesCapitalized : Steady messageNamesCapitalizedLinter :=
  steady_of C29_message_names_capitalized fun _ _ _ _ T =>
    filter_eq (.of_eq T.messages) (fun e => e.isExtend = false ∧ ¬ Capitalized e.name) (fun _ => .rfl) fun _ => .rfl

theorem steady_fileNamesLowerSnakeCase : Steady fileNamesLowerSnakeCaseLinter :=
  steady_on C29_file_names_lower_snake_case name_twin fun _ _ _ _ T => by
    rw [T.filename]

/-! ### Enum values -/

theorem steady_enumFieldPrefixes : Steady enumFieldPrefixesLinter :=
  steady_of C30_enum_field_prefixes fun _ _ _ _ T =>
    filter_eq (.of_eq T.namedValues)
      (fun x => ¬ join s%"_" (x.1.map Strs.toUpperSnakeCase) ++ s%"_" <+: x.2.name) (fun _ => .rfl) fun _ => .rfl

theorem steady_enumZeroValuesInvalid : Steady enumZeroValuesInvalidLinter :=
  steady_of C30_enum_zero_values_invalid fun _ _ _ _ T =>
    filter_eq (.of_eq T.namedValues)
      (fun x => x.2.integer = 0 ∧ x.2.name ≠ join s%"_" (x.1.map Strs.toUpperSnakeCase) ++ s%"_INVALID")
      (fun _ => .rfl) fun _ => .rfl

theorem steady_enumFieldPrefixesExceptMessage : Steady enumFieldPrefixesExceptMessageLinter :=
  steady_on C30_enum_field_prefixes_except_message grammatical_twin fun _ _ _ _ T =>
    filter_eq (.of_eq T.valuesOfEnums)
      (fun x => ¬ Strs.toUpperSnakeCase x.1.name ++ s%"_" <+: x.2.name) (fun _ => .rfl) fun _ => .rfl

theorem steady_enumZeroValuesInvalidExceptMessage : Steady enumZeroValuesInvalidExceptMessageLinter :=
  steady_on C30_enum_zero_values_invalid_except_message grammatical_twin fun _ _ _ _ T =>
    filter_eq (.of_eq T.valuesOfEnums)
      (fun x => x.2.integer = 0 ∧ x.2.name ≠ Strs.toUpperSnakeCase x.1.name ++ s%"_INVALID")
      (fun _ => .rfl) fun _ => .rfl

/-! ### Fields -/

theorem steady_messageFieldNamesFilename : Steady messageFieldNamesFilenameLinter :=
  steady_of C56_message_field_names_filename fun _ _ _ _ T =>
    filter_eq (.of_eq T.fields) (fun f => s%"file_name" <:+: f.name) (fun _ => .rfl) fun _ => .rfl

theorem steady_messageFieldNamesFilepath : Steady messageFieldNamesFilepathLinter :=
  steady_of C56_message_field_names_filepath fun _ _ _ _ T =>
    filter_eq (.of_eq T.fields) (fun f => s%"file_path" <:+: f.name) (fun _ => .rfl) fun _ => .rfl

theorem steady_messageFieldNamesNoDescriptor : Steady messageFieldNamesNoDescriptorLinter :=
  steady_of C56_message_field_names_no_descriptor fun _ _ _ _ T =>
    filter_eq (.of_eq T.fields) (fun f => Descriptorish f.name) (fun _ => .rfl) fun _ => .rfl

theorem steady_messageFieldsDuration : Steady messageFieldsDurationLinter :=
  steady_of C56_message_fields_duration fun _ _ _ _ T =>
    filter_eq (.of_eq T.nonMapFields) (fun f => s%"duration" <:+: f.name ∧ f.type ≠ s%"google.protobuf.Duration")
      (fun _ => .rfl) fun _ => .rfl

theorem steady_messageFieldsTime : Steady messageFieldsTimeLinter :=
  steady_of C56_message_fields_time fun _ _ _ _ T =>
    filter_eq (.of_eq T.nonMapFields) (fun f => s%"time" <:+: f.name ∧ f.type ≠ s%"google.protobuf.Timestamp")
      (fun _ => .rfl) fun _ => .rfl

theorem steady_wktDurationSuffix : Steady wktDurationSuffixLinter :=
  steady_of C56_wkt_duration_suffix fun _ _ _ _ T =>
    filter_eq (.of_eq T.nonMapFields) (fun f => f.type = s%"google.protobuf.Duration" ∧
      ¬ (f.name = s%"duration" ∨ s%"_duration" <:+ f.name)) (fun _ => .rfl) fun _ => .rfl

theorem steady_wktTimestampSuffix : Steady wktTimestampSuffixLinter :=
  steady_of C56_wkt_timestamp_suffix fun _ _ _ _ T =>
    filter_eq (.of_eq T.nonMapFields) (fun f => f.type = s%"google.protobuf.Timestamp" ∧
      ¬ (f.name = s%"time" ∨ s%"_time" <:+ f.name)) (fun _ => .rfl) fun _ => .rfl

theorem steady_messageFieldsNoJSONName : Steady messageFieldsNoJSONNameLinter :=
  steady_of C56_message_fields_no_json_name fun _ _ _ _ T => by
    have h : ∀ keep : Option Comment → Option Comment, ∀ f : Field,
        ((f.options.filter fun o => o.name = s%"json_name").map fun _ => f.position).length =
          jsonNames (headField keep f).options := by
      intro keep f
      unfold headField
      rw [jsonNames_replicate, List.length_map, ← List.countP_eq_length_filter]
      rfl
    exact flat_eq (.of_eq T.fields) (fun f => jsonNames f.options) (h _) (h _)

/-! ### Other rules -/

theorem steady_enumsNoAllowAlias : Steady enumsNoAllowAliasLinter :=
  steady_of C57_enums_no_allow_alias fun _ _ _ _ T =>
    filter_eq T.enumOptions (fun o => o.name = s%"allow_alias") (fun _ => .rfl) fun _ => .rfl

theorem steady_fieldsNotReserved : Steady fieldsNotReservedLinter :=
  steady_of C57_fields_not_reserved fun _ _ _ _ T => by
    have := congrArg List.length T.reservedDecls
    simpa using this

theorem steady_gogoNotImported : Steady gogoNotImportedLinter :=
  steady_of C57_gogo_not_imported fun _ _ _ _ T =>
    filter_eq T.imports (fun i => s%"gogo.proto" <:+ i.filename) (fun _ => .rfl) fun _ => .rfl

theorem steady_importsNotPublic : Steady importsNotPublicLinter :=
  steady_of C57_imports_not_public fun _ _ _ _ T =>
    filter_eq T.imports (fun i => i.kind = s%"public") (fun _ => .rfl) fun _ => .rfl

theorem steady_importsNotWeak : Steady importsNotWeakLinter :=
  steady_of C57_imports_not_weak fun _ _ _ _ T =>
    filter_eq T.imports (fun i => i.kind = s%"weak") (fun _ => .rfl) fun _ => .rfl

theorem steady_wktDirectlyImported (env : Env) : Steady (wktDirectlyImportedLinter env) :=
  steady_of (C57_wkt_directly_imported env) fun _ _ _ _ T =>
    filter_eq T.imports (fun i => ∃ w ∈ wellKnown, w <:+ i.filename ∧ i.filename ≠ w) (fun _ => .rfl) fun _ => .rfl

theorem steady_rpcsNoStreaming : Steady rpcsNoStreamingLinter :=
  steady_of C57_rpcs_no_streaming fun _ _ _ _ T =>
    filter_eq (.of_eq T.rpcs) (fun r => r.streamsRequest = true ∨ r.streamsReturns = true) (fun _ => .rfl)
      fun _ => .rfl

theorem steady_serviceNamesAPISuffix : Steady serviceNamesAPISuffixLinter :=
  steady_of C57_service_names_api_suffix fun _ _ _ _ T =>
    filter_eq (.of_eq T.services) (fun s => ¬ s%"API" <:+ s.name) (fun _ => .rfl) fun _ => .rfl

/-! ### Packages -/

theorem Twin.packageNames (T : Twin old new d d') :
    (Spec.packages d').map (·.name) = (Spec.packages d).map (·.name) := by
  have := congrArg (List.map (·.name)) T.packages
  rw [List.map_map, List.map_map] at this
  exact this

theorem Twin.syntaxValues (T : Twin old new d d') :
    (Spec.syntaxes d').map (·.value) = (Spec.syntaxes d).map (·.value) := by
  have := congrArg (List.map (·.value)) T.syntaxes
  rw [List.map_map, List.map_map] at this
  exact this

theorem Twin.serviceNames (T : Twin old new d d') :
    (Spec.services d').map (·.name) = (Spec.services d).map (·.name) := by
  have := congrArg (List.map (·.name)) T.services
  rw [List.map_map, List.map_map] at this
  exact this

theorem steady_packageLowerCase (env : Env) : Steady (packageLowerCaseLinter env) :=
  steady_of (C29_package_lower_case env) fun _ _ d d' T => by
    have h := T.packageNames
    revert h
    generalize packages d = ps
    generalize packages d' = ps'
    intro h
    cases ps <;> cases ps' <;> simp only [List.map_cons, List.map_nil, List.cons.injEq, reduceCtorEq] at h
    · rfl
    · have h2 := congrArg List.length h.2
      rw [List.length_map, List.length_map] at h2
      simp [List.filter_cons, h.1, h2]
      split <;> rfl

theorem steady_packageLowerSnakeCase (env : Env) : Steady (packageLowerSnakeCaseLinter env) :=
  steady_of (C29_package_lower_snake_case env) fun _ _ d d' T => by
    have h := T.packageNames
    revert h
    generalize packages d = ps
    generalize packages d' = ps'
    intro h
    cases ps <;> cases ps' <;> simp only [List.map_cons, List.map_nil, List.cons.injEq, reduceCtorEq] at h
    · rfl
    · have h2 := congrArg List.length h.2
      rw [List.length_map, List.length_map] at h2
      simp [List.filter_cons, h.1, h2]
      split <;> rfl

theorem steady_packageIsDeclared (env : Env) : Steady (packageIsDeclaredLinter env) :=
  steady_of (C59_package_is_declared env) fun _ _ d d' T => by
    have h := T.packageNames
    revert h
    generalize packages d = ps
    generalize packages d' = ps'
    intro h
    cases ps <;> cases ps' <;> simp only [List.map_cons, List.map_nil, List.cons.injEq, reduceCtorEq] at h
    · simp
    · have h2 := congrArg List.length h.2
      rw [List.length_map, List.length_map] at h2
      simp [h2]

theorem steady_packageMajorBetaVersioned (env : Env) : Steady (packageMajorBetaVersionedLinter env) :=
  steady_of (C59_package_versioned env) fun _ _ d d' T => by
    have h := T.packageNames
    revert h
    generalize packages d = ps
    generalize packages d' = ps'
    intro h
    cases ps <;> cases ps' <;> simp only [List.map_cons, List.map_nil, List.cons.injEq, reduceCtorEq] at h
    · simp
    · have h2 := congrArg List.length h.2
      rw [List.length_map, List.length_map] at h2
      simp only [List.tail_cons, List.length_append, List.length_map, h2, h.1]
      split <;> rfl

theorem steady_syntaxProto3 (env : Env) : Steady (syntaxProto3Linter env) :=
  steady_of (C59_syntax_proto3 env) fun _ _ d d' T => by
    have h := T.syntaxValues
    revert h
    generalize syntaxes d = ps
    generalize syntaxes d' = ps'
    intro h
    cases ps <;> cases ps' <;> simp only [List.map_cons, List.map_nil, List.cons.injEq, reduceCtorEq] at h
    · simp
    · have h2 := congrArg List.length h.2
      rw [List.length_map, List.length_map] at h2
      simp only [List.tail_cons, List.length_append, List.length_map, h2, h.1]
      split <;> rfl

theorem steady_serviceNamesMatchFileName : Steady serviceNamesMatchFileNameLinter :=
  steady_on C59_service_names_match_file_name name_twin fun _ _ d d' T => by
    have h := T.serviceNames
    rw [T.filename]
    revert h
    generalize services d = ps
    generalize services d' = ps'
    intro h
    match ps, ps', h with
    | [], [], _ => rfl
    | [s], [s'], h =>
      simp only [List.map_cons, List.map_nil, List.cons.injEq, and_true] at h
      simp only [h]
      split <;> rfl
    | s :: t :: ss, s' :: t' :: ss', h =>
      have h2 := congrArg List.length h
      rw [List.length_map, List.length_map] at h2
      simp only [List.length_map]
      exact h2
    | [], _ :: _, h => cases h
    | _ :: _, [], h => cases h
    | [_], _ :: _ :: _, h => simp at h
    | _ :: _ :: _, [_], h => simp at h

/-! ### Types -/

theorem Twin.usedTypes (T : Twin old new d d') : usedTypes d' = usedTypes d := by
  have h : ∀ (keep : Option Comment → Option Comment) (l : List RPC),
      (l.map (headRPC keep)).flatMap (fun r => [r.requestType, r.returnsType]) =
        l.flatMap fun r => [r.requestType, r.returnsType] := by
    intro keep l
    rw [List.flatMap_map]
    rfl
  unfold Spec.usedTypes
  rw [← h _ (Spec.rpcs d'), T.rpcs, h]

theorem repeats_length {us us' : List (Position × Str)} (h : us'.map (·.2) = us.map (·.2)) (before : List Str) :
    (repeats before us').length = (repeats before us).length := by
  induction us generalizing us' before with
  | nil => cases us' <;> first | rfl | cases h
  | cons u us ih =>
    cases us' with
    | nil => cases h
    | cons u' us' =>
      obtain ⟨p, t⟩ := u
      obtain ⟨p', t'⟩ := u'
      simp only [List.map_cons, List.cons.injEq] at h
      obtain ⟨rfl, h⟩ := h
      rw [repeats, repeats, List.length_append, List.length_append, ih h]
      split <;> rfl

theorem uses_types (d : FileDescriptor) : (uses d).map (·.2) = usedTypes d := by
  unfold uses usedTypes
  rw [List.map_flatMap]
  rfl

theorem steady_unique : Steady requestResponseTypesUniqueLinter :=
  steady_of C32_unique fun _ _ _ _ T => repeats_length (by rw [uses_types, uses_types, T.usedTypes]) _

theorem steady_requestResponseNamesMatchRPC : Steady requestResponseNamesMatchRPCLinter :=
  steady_of C32_names_match fun _ _ _ _ T =>
    flat_eq (.of_eq T.rpcs) (fun r =>
      ((if r.requestType ≠ r.name ++ s%"Request" then [r.position] else []) ++
      (if r.returnsType ≠ r.name ++ s%"Response" then [r.position] else [])).length)
      (fun r => by
        rw [List.length_append, List.length_append]
        show _ = (if r.requestType ≠ r.name ++ s%"Request" then _ else _ : List Position).length +
          (if r.returnsType ≠ r.name ++ s%"Response" then _ else _ : List Position).length
        congr 1 <;> split <;> rfl)
      (fun r => by
        rw [List.length_append, List.length_append]
        show _ = (if r.requestType ≠ r.name ++ s%"Request" then _ else _ : List Position).length +
          (if r.returnsType ≠ r.name ++ s%"Response" then _ else _ : List Position).length
        congr 1 <;> split <;> rfl)

theorem Twin.topNames (T : Twin old new d d') :
    (Spec.topMessages d').map (·.name) = (Spec.topMessages d).map (·.name) := by
  have := congrArg (List.map (·.name)) T.topMessages
  rw [List.map_map, List.map_map] at this
  exact this

theorem steady_sameFile : Steady requestResponseTypesInSameFileLinter :=
  steady_on C32_in_same_file grammatical_twin fun _ _ d d' T => by
    rw [T.topNames]
    have h : ∀ (keep : Option Comment → Option Comment) (r : RPC),
        ((if ¬(r.requestType ∈ (Spec.topMessages d).map (·.name) ∧ '.' ∉ r.requestType) then [r.position]
          else []) ++
        (if ¬(r.returnsType ∈ (Spec.topMessages d).map (·.name) ∧ '.' ∉ r.returnsType) then [r.position]
          else [])).length =
        (if ¬((headRPC keep r).requestType ∈ (Spec.topMessages d).map (·.name) ∧ '.' ∉ (headRPC keep r).requestType)
          then 1 else 0) +
        (if ¬((headRPC keep r).returnsType ∈ (Spec.topMessages d).map (·.name) ∧ '.' ∉ (headRPC keep r).returnsType)
          then 1 else 0) := by
      intro keep r
      rw [List.length_append]
      show _ = (if ¬(r.requestType ∈ (Spec.topMessages d).map (·.name) ∧ '.' ∉ r.requestType) then 1 else 0) +
        (if ¬(r.returnsType ∈ (Spec.topMessages d).map (·.name) ∧ '.' ∉ r.returnsType) then 1 else 0)
      congr 1 <;> split <;> rfl
    exact flat_eq (.of_eq T.rpcs) (fun r =>
      (if ¬(r.requestType ∈ (Spec.topMessages d).map (·.name) ∧ '.' ∉ r.requestType) then 1 else 0) +
      (if ¬(r.returnsType ∈ (Spec.topMessages d).map (·.name) ∧ '.' ∉ r.returnsType) then 1 else 0)) (h _) (h _)

theorem Twin.rpcs_nil (T : Twin old new d d') : Spec.rpcs d' = [] ↔ Spec.rpcs d = [] := by
  have := congrArg List.length T.rpcs
  rw [List.length_map, List.length_map] at this
  rw [← List.length_eq_zero_iff, this, List.length_eq_zero_iff]

theorem steady_only (env : Env) : Steady (requestResponseTypesOnlyInFileLinter env) :=
  steady_on (C32_only_in_file env) grammatical_twin fun _ _ d d' T => by
    by_cases h : rpcs d = []
    · rw [if_pos h, if_pos (T.rpcs_nil.2 h)]
    · rw [if_neg h, if_neg (fun x => h (T.rpcs_nil.1 x)), List.length_append, List.length_append, T.usedTypes]
      congr 1
      · have := congrArg List.length (lastBy_twin (key := Enum.name) (βo := headEnum _) (βn := headEnum _) (fun _ => rfl) (fun _ => rfl) T.topEnums)
        rw [List.length_map, List.length_map] at this
        rw [List.length_map, List.length_map]
        exact this
      · exact filter_eq (.of_eq (lastBy_twin (key := Message.name) (βo := headMessage _) (βn := headMessage _) (fun _ => rfl) (fun _ => rfl) T.topMessages))
          (fun m => m.name ∉ Spec.usedTypes d) (fun _ => .rfl) fun _ => .rfl

theorem Twin.lastNamed (T : Twin old new d d') :
    ((lastBy (·.name) (Spec.namedMessages d')).map (headNamed new)) =
      ((lastBy (·.name) (Spec.namedMessages d)).map (headNamed old)) :=
  lastBy_twin (key := NamedMessage.name) (βo := headNamed _) (βn := headNamed _) (fun _ => rfl) (fun _ => rfl) T.namedMessages

theorem steady_messagesNotEmpty (env : Env) : Steady (messagesNotEmptyExceptRequestResponseTypesLinter env) :=
  steady_on (C32_not_empty_except env) grammatical_twin fun _ _ d d' T => by
    rw [T.usedTypes]
    exact filter_eq (.of_eq T.lastNamed) (fun m => m.name ∉ Spec.usedTypes d ∧ m.fields = 0) (fun _ => .rfl)
      fun _ => .rfl

/-! ### File options -/

theorem bareValue_source {l : Literal} (h : PlainSource l) : (bareValue l).source = l.source := by
  obtain ⟨source, isString, quote, array, map⟩ := l
  cases array with
  | cons a as => exact (h (.inl (List.cons_ne_nil _ _))).symm
  | nil =>
    cases map with
    | cons a as => exact (h (.inr (List.cons_ne_nil _ _))).symm
    | nil => cases isString <;> rfl

theorem perm_short {α : Type} {l l' : List α} (h : l.Perm l') (hl : l'.length ≤ 1) : l = l' := by
  match l', hl, h with
  | [], _, h => exact h.eq_nil
  | [a], _, h => exact List.perm_singleton.1 h

theorem declared_short (hd : Lintable d) {name : Str} (hn : name.head? ≠ some '(') :
    (declared name d).length ≤ 1 := by
  have h := hd.once
  unfold declared
  revert h
  generalize Spec.fileOptions d = os
  intro h
  induction os with
  | nil => exact Nat.zero_le _
  | cons o os ih =>
    rw [List.map_cons, List.filter_cons] at h
    rw [List.filter_cons]
    by_cases ho : o.name = name
    · rw [if_pos (by simp [ho])]
      rw [if_pos (by simp only [ho]; exact decide_eq_true hn)] at h
      have h1 := (List.nodup_cons.1 h).1
      have : os.filter (fun o => decide (o.name = name)) = [] := by
        rw [List.filter_eq_nil_iff]
        intro x hx hxn
        refine h1 (List.mem_filter.2 ⟨?_, ?_⟩)
        · rw [ho, ← of_decide_eq_true hxn]
          exact List.mem_map_of_mem hx
        · simp only [ho]; exact decide_eq_true hn
      rw [this]
      exact Nat.le_refl _
    · rw [if_neg (by simp [ho])]
      refine ih ?_
      split at h
      · exact (List.nodup_cons.1 h).2
      · exact h

theorem Twin.declared (T : Twin old new d d') {name : Str} (hn : name.head? ≠ some '(') :
    (declared name d').map (·.constant.source) = (declared name d).map (·.constant.source) := by
  have h1 : ((Props.declared name d').map (keptOption new)).Perm ((Props.declared name d).map (keptOption old)) := by
    have e : ∀ keep d, (Props.declared name d).map (keptOption keep) =
        ((Spec.fileOptions d).map (keptOption keep)).filter fun o => o.name = name := by
      intro keep d
      unfold Props.declared
      rw [List.filter_map]
      rfl
    rw [e, e]
    exact T.fileOptions.filter _
  have h2 := perm_short h1 (by rw [List.length_map]; exact declared_short T.well hn)
  have h3 := congrArg (List.map fun o : Opt => o.constant.source) h2
  rw [List.map_map, List.map_map] at h3
  have e : ∀ keep d, Lintable d → (Props.declared name d).map ((fun o : Opt => o.constant.source) ∘ keptOption keep) =
      (Props.declared name d).map (·.constant.source) := by
    intro keep d hd
    refine List.map_congr_left fun o ho => ?_
    exact bareValue_source (hd.sources o (List.mem_filter.1 ho).1)
  rw [e _ _ T.well', e _ _ T.well] at h3
  exact h3

theorem steady_require : ∀ rule ∈ requiring, Steady rule.1 := by
  intro rule hr
  refine steady_of (C58_required rule hr) fun _ _ d d' T => ?_
  have hn : rule.2.head? ≠ some '(' := by
    simp only [requiring, List.mem_cons, List.not_mem_nil, or_false] at hr
    rcases hr with rfl | rfl | rfl | rfl | rfl | rfl | rfl | rfl <;> decide
  have h := congrArg List.length (T.declared hn)
  rw [List.length_map, List.length_map] at h
  rw [T.filename]
  by_cases hd : Props.declared rule.2 d = []
  · rw [if_pos hd, if_pos (by rw [← List.length_eq_zero_iff, h, hd]; rfl)]
  · rw [if_neg hd, if_neg (by rw [← List.length_eq_zero_iff, h, List.length_eq_zero_iff]; exact hd)]

theorem getLast_length {α γ δ : Type} {l l' : List α} {f : α → δ} {g : α → γ} (h : l'.map f = l.map f) :
    (l'.getLast?.toList.map g).length = (l.getLast?.toList.map g).length := by
  have := congrArg List.getLast? h
  rw [List.getLast?_map, List.getLast?_map] at this
  cases h1 : l'.getLast? <;> cases h2 : l.getLast? <;> rw [h1, h2] at this <;> first | rfl | cases this

theorem steady_unset : ∀ rule ∈ forbidding, Steady rule.1 := by
  intro rule hr
  refine steady_of (C58_unset rule hr) fun _ _ d d' T => ?_
  have hn : rule.2.head? ≠ some '(' := by
    simp only [forbidding, List.mem_cons, List.not_mem_nil, or_false] at hr
    rcases hr with rfl | rfl <;> decide
  exact getLast_length (T.declared hn)

theorem getLast_filter {α γ δ : Type} {l l' : List α} {f : α → δ} {g : α → γ} (h : l'.map f = l.map f)
    {P : δ → Bool} :
    ((l'.getLast?.toList.filter fun x => P (f x)).map g).length =
      ((l.getLast?.toList.filter fun x => P (f x)).map g).length := by
  have := congrArg List.getLast? h
  rw [List.getLast?_map, List.getLast?_map] at this
  cases h1 : l'.getLast? <;> cases h2 : l.getLast? <;> rw [h1, h2] at this <;> simp at this
  simp [List.filter_cons, this]
  split <;> rfl

theorem steady_goPackage : Steady fileOptionsGoPackageNotLongFormLinter :=
  steady_of C58_go_package_not_long_form fun _ _ d d' T =>
    getLast_filter (P := fun s => s%";" <:+: s) (T.declared (by decide))

theorem steady_prescribed : ∀ rule ∈ prescribing, Steady rule.1 := by
  intro rule hr
  refine steady_on (C58_prescribed rule hr) named_twin fun _ _ d d' T => ?_
  have hn : rule.2.1.head? ≠ some '(' ∧ ∀ p, rule.2.2 d' p = rule.2.2 d p := by
    simp only [prescribing, List.mem_cons, List.not_mem_nil, or_false] at hr
    have h1 := T.filename
    have h2 := T.config
    rcases hr with rfl | rfl | rfl | rfl | rfl | rfl | rfl | rfl | rfl <;>
      exact ⟨by decide, fun p => by simp only [h1, h2]⟩
  have hp := congrArg List.getLast? T.packageNames
  rw [List.getLast?_map, List.getLast?_map] at hp
  cases h1 : (packages d').getLast? <;> cases h2 : (packages d).getLast? <;> rw [h1, h2] at hp <;> simp at hp
  · simp only [hn.2, hp]
    exact getLast_filter (P := fun s => decide (s ≠ rule.2.2 d _)) (T.declared hn.1)

/-! ### Directories -/

theorem steady_dir {l : Linter} {name : FileDescriptor → Option Str} {count : FileDescriptor → List Position}
    (hr : ReportsDir l fun ds => ds.flatMap count ++
      if ¬ Agree name ds then ds.map fun d => { filename := d.filename } else [])
    (hn : ∀ old new d d', Twin old new d d' → name d' = name d)
    (hc : ∀ old new d d', Twin old new d d' → (count d').length = (count d).length) : Steady l := by
  intro old new dirPath ds ds' hp
  obtain ⟨fs, hf, hfp, -⟩ := hr dirPath ds
  obtain ⟨gs, hg, hgp, -⟩ := hr dirPath ds'
  refine ⟨fs, gs, hf, hg, ?_⟩
  have a := hfp.length_eq
  have b := hgp.length_eq
  rw [List.length_map] at a b
  rw [a, b]
  simp only [List.length_append]
  rw [pointwise_sum hp (hc old new)]
  congr 1
  have hlen : ds'.length = ds.length := by
    clear a b hf hg hfp hgp
    induction hp with
    | nil => rfl
    | cons _ _ ih => simp only [List.length_cons, ih]
  have hnames : ds'.map name = ds.map name := by
    clear a b hf hg hfp hgp hlen
    induction hp with
    | nil => rfl
    | cons h _ ih => rw [List.map_cons, List.map_cons, ih, hn _ _ _ _ h]
  have hagree : Agree name ds' ↔ Agree name ds := by
    have e : ∀ ds, Agree name ds ↔ ∀ a ∈ ds.map name, ∀ b ∈ ds.map name, ∀ v ∈ a, ∀ w ∈ b, v = w := by
      intro ds
      simp [Agree]
    rw [e, e, hnames]
  by_cases h : Agree name ds
  · rw [if_neg (not_not_intro h), if_neg (not_not_intro (hagree.2 h))]
  · rw [if_pos h, if_pos (fun x => h (hagree.1 x)), List.length_map, List.length_map, hlen]

theorem tail_length {α γ δ : Type} {l l' : List α} {f : α → δ} {g : α → γ} (h : l'.map f = l.map f) :
    (l'.tail.map g).length = (l.tail.map g).length := by
  have := congrArg List.length h
  rw [List.length_map, List.length_map] at this
  rw [List.length_map, List.length_map, List.length_tail, List.length_tail, this]

theorem steady_packagesSameInDir (env : Env) : Steady (packagesSameInDirLinter env) :=
  steady_dir (C31_packages_same_in_dir env)
    (fun _ _ d d' T => by
      unfold packageNameOf
      rw [← List.head?_map, ← List.head?_map, T.packageNames])
    (fun _ _ d d' T => tail_length T.packageNames)

theorem steady_optionsSameInDir (env : Env) : ∀ rule ∈ sameInDir env, Steady rule.1 := by
  intro rule hr
  have hn : rule.2.head? ≠ some '(' := by
    simp only [sameInDir, List.mem_cons, List.not_mem_nil, or_false] at hr
    rcases hr with rfl | rfl | rfl | rfl | rfl | rfl <;> simp
  refine steady_dir (C31_options_same_in_dir env rule hr) (fun _ _ d d' T => ?_) (fun _ _ d d' T => ?_)
  · have h := congrArg List.head? (T.declared hn)
    rw [List.head?_map, List.head?_map] at h
    unfold optionValueOf
    exact congrArg (fun x : Option Str => some (x.getD [])) h
  · exact tail_length (T.declared hn)

/-! ### Comments -/

theorem keeps_nothing : Keeps (fun _ => none) (fun _ => none) := ⟨fun _ => rfl, fun _ => rfl, rfl, rfl⟩

theorem keeps_plain : Keeps plainComment unplaced :=
  ⟨fun c => by cases c <;> rfl, fun c => by
    cases c with
    | none => rfl
    | some c => unfold plainComment; dsimp only; split <;> rfl, rfl, rfl⟩

theorem plain_some {c : Comment} {l : Str} (h : l ∈ c.lines) :
    plainComment (some c) = some { position := {}, lines := c.lines.map commentText } := by
  unfold plainComment
  exact if_neg fun e => by rw [e] at h; cases h

theorem names_unplaced (c : Option Comment) (name : Str) : CommentNames (unplaced c) name ↔ CommentNames c name := by
  cases c with
  | none => exact Iff.rfl
  | some c => simp [CommentNames, unplaced]

theorem names_plain {c : Option Comment} {name : Str} (hc : ∀ k, c = some k → ∀ l ∈ k.lines, trimRightBy isSpace l = l)
    (h : CommentNames c name) : CommentNames (plainComment c) name := by
  obtain ⟨c, first, rest, text, rfl, h2, rfl⟩ := h
  have hm : s%" " ++ name ++ s%" " ++ text ∈ c.lines := by rw [h2]; exact List.mem_cons_self
  refine ⟨_, _, rest.map commentText, text, plain_some hm, ?_, rfl⟩
  show c.lines.map commentText = _
  rw [h2, List.map_cons]
  congr 1
  exact hc c rfl _ hm

theorem sentence_unplaced (c : Option Comment) : CommentSentence (unplaced c) ↔ CommentSentence c := by
  cases c with
  | none => exact Iff.rfl
  | some c => simp [CommentSentence, unplaced]

theorem mem_dropWhile {x c : Char} {l : Str} (h : c ∈ l) (hc : c ≠ x) : c ∈ l.dropWhile (· == x) := by
  induction l with
  | nil => exact h
  | cons a l ih =>
    rw [List.dropWhile_cons]
    split
    · rename_i ha
      rcases List.mem_cons.1 h with rfl | h
      · exact absurd (of_decide_eq_true ha) hc
      · exact ih h
    · exact h

theorem mem_trimRight {c : Char} {l : Str} (h : c ∈ l) (hc : isSpace c = false) : c ∈ trimRightBy isSpace l := by
  have : ∀ l : Str, c ∈ l → c ∈ l.dropWhile isSpace := by
    intro l
    induction l with
    | nil => exact id
    | cons a l ih =>
      intro h
      rw [List.dropWhile_cons]
      split
      · rename_i ha
        rcases List.mem_cons.1 h with rfl | h
        · rw [hc] at ha; cases ha
        · exact ih h
      · exact h
  exact List.mem_reverse.2 (this _ (List.mem_reverse.2 h))

theorem trimRight_keep {ch : Char} (hc : isSpace ch = false) (a b : Str) :
    trimRightBy isSpace (a ++ ch :: b) = a ++ ch :: trimRightBy isSpace b := by
  have : ∀ l m : Str, (l ++ ch :: m).dropWhile isSpace = l.dropWhile isSpace ++ ch :: m := by
    intro l m
    induction l with
    | nil => exact List.dropWhile_cons_of_neg (by simp [hc])
    | cons x l ih =>
      rw [List.cons_append, List.dropWhile_cons, List.dropWhile_cons]
      split
      · exact ih
      · rfl
  unfold trimRightBy
  rw [List.reverse_append, List.reverse_cons, List.append_assoc, List.singleton_append, this]
  simp

theorem sentence_plain {c : Option Comment} (h : CommentSentence c) : CommentSentence (plainComment c) := by
  obtain ⟨c, first, rest, white, ch, text, rfl, h2, rfl, hw, hs, hb, line, hl, hd⟩ := h
  have hslash : isSpace '/' = false := by decide
  have hch : ch ≠ '/' := by
    rintro rfl
    rcases hb with hb | hb | hb
    · exact absurd hb (by decide)
    · exact absurd hb (by decide)
    · exact absurd hb.1 (by decide)
  have hfirst : (white ++ ch :: text).dropWhile (· == '/') = white ++ ch :: text := by
    cases white with
    | nil => exact List.dropWhile_cons_of_neg (by simp [hch])
    | cons w ws =>
      refine List.dropWhile_cons_of_neg ?_
      intro h
      have : w = '/' := by simpa using h
      have h1 := hw w List.mem_cons_self
      rw [this, hslash] at h1
      cases h1
  refine ⟨_, white ++ ch :: trimRightBy isSpace text, rest.map commentText, white, ch, trimRightBy isSpace text,
    plain_some hl, ?_, rfl, hw, hs, hb, commentText line, List.mem_map_of_mem hl, ?_⟩
  · show c.lines.map commentText = _
    rw [h2, List.map_cons]
    congr 1
    unfold commentText
    rw [hfirst, trimRight_keep hs]
  · exact mem_trimRight (mem_dropWhile hd (by decide)) (by decide)

theorem suppressed_unplaced (a : Str) (cfg : Settings.Config) (c : Option Comment) :
    Suppressed a cfg (unplaced c) ↔ Suppressed a cfg c := by
  cases c with
  | none => exact Iff.rfl
  | some c => simp [Suppressed, unplaced]

theorem infix_dropWhile {pat l : Str} {x : Char} (h : pat <:+: l) (hp : ∀ c, pat.head? = some c → c ≠ x)
    (hne : pat ≠ []) : pat <:+: l.dropWhile (· == x) := by
  obtain ⟨a, b, rfl⟩ := h
  induction a with
  | nil =>
    cases pat with
    | nil => exact absurd rfl hne
    | cons c pat =>
      have : c ≠ x := hp c rfl
      refine ⟨[], b, ?_⟩
      exact (List.dropWhile_cons_of_neg (by simp [this])).symm
  | cons y a ih =>
    rw [List.cons_append, List.cons_append, List.dropWhile_cons]
    split
    · exact ih
    · exact ⟨y :: a, b, rfl⟩

theorem infix_trimRight {pat l : Str} {x : Char} (hx : isSpace x = false) (h : pat ++ [x] <:+: l) :
    pat ++ [x] <:+: trimRightBy isSpace l := by
  obtain ⟨a, b, rfl⟩ := h
  have : a ++ (pat ++ [x]) ++ b = (a ++ pat) ++ x :: b := by simp
  rw [this, trimRight_keep hx]
  exact ⟨a, trimRightBy isSpace b, by simp⟩

theorem suppressed_plain {a : Str} {cfg : Settings.Config} {c : Option Comment} (ha : ∃ b x, a = b ++ [x] ∧ isSpace x = false)
    (h : Suppressed a cfg c) : Suppressed a cfg (plainComment c) := by
  obtain ⟨h1, c, rfl, line, hl, hi⟩ := h
  obtain ⟨b, x, rfl, hx⟩ := ha
  refine ⟨h1, _, plain_some hl, _, List.mem_map_of_mem hl, ?_⟩
  have := infix_dropWhile (x := '/') hi (fun ch h => by
    have : ch = '@' := by simpa using h.symm
    rw [this]
    decide) (fun h => by cases h)
  rw [← List.append_assoc] at this ⊢
  exact infix_trimRight hx this

theorem solidEnd (a : Str) (h : (a.getLast?.map isSpace) = some false) : ∃ b x, a = b ++ [x] ∧ isSpace x = false := by
  cases ha : a.getLast? with
  | none => rw [ha] at h; cases h
  | some x =>
    rw [ha] at h
    obtain ⟨b, hb⟩ := List.getLast?_eq_some_iff.1 ha
    exact ⟨b, x, hb, Option.some.inj h⟩

/-! ### Rules that look for the name -/

/-- The rule finds no more in the rearranged files, if no line of a comment ended in white space. -/
def Opening (l : Linter) : Prop :=
  ∀ dirPath ds ds', Pointwise (fun d d' => Twin plainComment unplaced d d' ∧ CleanEnds d) ds ds' → ∃ fs gs,
    l.check dirPath ds = some (.ok fs) ∧ l.check dirPath ds' = some (.ok gs) ∧ gs.length ≤ fs.length

theorem opening_on {ok : FileDescriptor → Prop} {l : Linter} {places : FileDescriptor → List Position}
    (hr : ReportsOn ok l places) (hok : ∀ old new d d', Twin old new d d' → ok d ∧ ok d')
    (h : ∀ d d', Twin plainComment unplaced d d' → CleanEnds d → (places d').length ≤ (places d).length) : Opening l := by
  intro dirPath ds ds' hp
  obtain ⟨h1, h2⟩ := pointwise_left hp (fun d d' h => hok _ _ d d' h.1)
  obtain ⟨fs, hf, hfp, -⟩ := hr dirPath ds h1
  obtain ⟨gs, hg, hgp, -⟩ := hr dirPath ds' h2
  refine ⟨fs, gs, hf, hg, ?_⟩
  have a := hfp.length_eq
  have b := hgp.length_eq
  rw [List.length_map] at a b
  rw [a, b]
  exact pointwise_sum_le hp fun d d' hd => h d d' hd.1 hd.2

theorem opening_of {l : Linter} {places : FileDescriptor → List Position} (hr : Reports l places)
    (h : ∀ d d', Twin plainComment unplaced d d' → CleanEnds d → (places d').length ≤ (places d).length) : Opening l :=
  opening_on hr (fun _ _ _ _ _ => ⟨trivial, trivial⟩) h

theorem filter_le_mem {α : Type} {X X' : List α} {βo βn : α → α} (h : (X'.map βn).Perm (X.map βo))
    {P P' : α → Prop} [DecidablePred P] [DecidablePred P'] (Q : α → Prop) {pos pos' : α → Position}
    (ho : ∀ x ∈ X, Q (βo x) → P x) (hn : ∀ x, P' x → Q (βn x)) :
    ((X'.filter fun x => decide (P' x)).map pos').length ≤ ((X.filter fun x => decide (P x)).map pos).length := by
  classical
  rw [List.length_map, List.length_map, ← List.countP_eq_length_filter, ← List.countP_eq_length_filter]
  have h1 : X'.countP (fun x => decide (P' x)) ≤ (X'.map βn).countP fun x => decide (Q x) := by
    rw [List.countP_map]
    exact List.countP_mono_left fun x _ => by simpa using hn x
  have h2 : (X.map βo).countP (fun x => decide (Q x)) ≤ X.countP (fun x => decide (P x)) := by
    rw [List.countP_map]
    exact List.countP_mono_left fun x hx => by simpa using ho x hx
  rw [h.countP_eq _] at h1
  exact Nat.le_trans h1 h2

theorem clean_pick {α : Type} {d : FileDescriptor} (hd : CleanEnds d) {descend : Element → Bool}
    {pick : Node → Option α} {com : α → Option Comment}
    (hp : ∀ n a, pick n = some a → com a = commentOf n.self) :
    ∀ x ∈ (inside descend d).filterMap pick, ∀ k, com x = some k → ∀ l ∈ k.lines, trimRightBy isSpace l = l := by
  intro x hx k hk
  obtain ⟨n, hn, h⟩ := List.mem_filterMap.1 hx
  exact hd n (List.mem_filter.1 hn).1 k ((hp n x h).symm.trans hk)

theorem clean_enums (h : CleanEnds d) : ∀ x ∈ enums d, ∀ k, x.comment = some k → ∀ l ∈ k.lines, trimRightBy isSpace l = l :=
  clean_pick h fun n a h => by unfold asEnum at h; split at h <;> cases h; simp_all [commentOf]

theorem clean_values (h : CleanEnds d) :
    ∀ x ∈ enumValues d, ∀ k, x.comment = some k → ∀ l ∈ k.lines, trimRightBy isSpace l = l :=
  clean_pick h fun n a h => by unfold asEnumValue at h; split at h <;> cases h; simp_all [commentOf]

theorem clean_messages (h : CleanEnds d) :
    ∀ x ∈ messages d, ∀ k, x.comment = some k → ∀ l ∈ k.lines, trimRightBy isSpace l = l :=
  clean_pick h fun n a h => by unfold asMessage at h; split at h <;> cases h; simp_all [commentOf]

theorem clean_fields (h : CleanEnds d) :
    ∀ x ∈ fields d, ∀ k, x.comment = some k → ∀ l ∈ k.lines, trimRightBy isSpace l = l :=
  clean_pick h fun n a h => by unfold asField at h; split at h <;> cases h <;> simp_all [commentOf]

theorem clean_services (h : CleanEnds d) :
    ∀ x ∈ services d, ∀ k, x.comment = some k → ∀ l ∈ k.lines, trimRightBy isSpace l = l :=
  clean_pick h fun n a h => by unfold asService at h; split at h <;> cases h; simp_all [commentOf]

theorem clean_rpcs (h : CleanEnds d) :
    ∀ x ∈ rpcs d, ∀ k, x.comment = some k → ∀ l ∈ k.lines, trimRightBy isSpace l = l :=
  clean_pick h fun n a h => by unfold asRPC at h; split at h <;> cases h; simp_all [commentOf]

theorem clean_named (hd : CleanEnds d) :
    ∀ x ∈ namedMessages d, ∀ k, x.message.comment = some k → ∀ l ∈ k.lines, trimRightBy isSpace l = l := by
  intro x hx k hk
  obtain ⟨n, hn, h⟩ := List.mem_filterMap.1 hx
  have hn' := (endingAll_perm d.elements []).mem_iff.1 (List.mem_filter.1 hn).1
  have : x.message.comment = commentOf n.self := by
    unfold asNamedMessage at h; split at h <;> cases h; simp_all [commentOf]
  exact hd n hn' k (this.symm.trans hk)

theorem opening_enumsHaveComments : Opening enumsHaveCommentsLinter :=
  opening_of C55_enums_have_comments fun _ _ T hc =>
    filter_le_mem (.of_eq T.enums) (fun e => ¬ CommentNames e.comment e.name) (fun x hx h hn => h (names_plain (clean_enums hc x hx) hn))
      fun _ h hc => h ((names_unplaced _ _).1 hc)

theorem opening_enumFieldsHaveComments : Opening enumFieldsHaveCommentsLinter :=
  opening_of C55_enum_fields_have_comments fun _ _ T hc =>
    filter_le_mem (.of_eq T.enumValues) (fun e => ¬ CommentNames e.comment e.name) (fun x hx h hn => h (names_plain (clean_values hc x hx) hn))
      fun _ h hc => h ((names_unplaced _ _).1 hc)

theorem opening_messagesHaveComments : Opening messagesHaveCommentsLinter :=
  opening_of C55_messages_have_comments fun _ _ T hc =>
    filter_le_mem (.of_eq T.messages) (fun e => e.isExtend = false ∧ ¬ CommentNames e.comment e.name)
      (fun x hx h => ⟨h.1, fun hn => h.2 (names_plain (clean_messages hc x hx) hn)⟩)
      fun _ h => ⟨h.1, fun hc => h.2 ((names_unplaced _ _).1 hc)⟩

theorem opening_messageFieldsHaveComments : Opening messageFieldsHaveCommentsLinter :=
  opening_of C55_message_fields_have_comments fun _ _ T hc =>
    filter_le_mem (.of_eq T.fields) (fun e => ¬ CommentNames e.comment e.name) (fun x hx h hn => h (names_plain (clean_fields hc x hx) hn))
      fun _ h hc => h ((names_unplaced _ _).1 hc)

theorem opening_servicesHaveComments : Opening servicesHaveCommentsLinter :=
  opening_of C55_services_have_comments fun _ _ T hc =>
    filter_le_mem (.of_eq T.services) (fun e => ¬ CommentNames e.comment e.name) (fun x hx h hn => h (names_plain (clean_services hc x hx) hn))
      fun _ h hc => h ((names_unplaced _ _).1 hc)

theorem opening_rpcsHaveComments : Opening rpcsHaveCommentsLinter :=
  opening_of C55_rpcs_have_comments fun _ _ T hc =>
    filter_le_mem (.of_eq T.rpcs) (fun e => ¬ CommentNames e.comment e.name) (fun x hx h hn => h (names_plain (clean_rpcs hc x hx) hn))
      fun _ h hc => h ((names_unplaced _ _).1 hc)

theorem declining_enumsHaveSentenceComments : Declining enumsHaveSentenceCommentsLinter :=
  declining_of C55_enums_have_sentence_comments fun _ _ T =>
    filter_le (.of_eq T.enums) (fun e => ¬ CommentSentence e.comment) (fun _ h hc => h (sentence_plain hc))
      fun _ h hc => h ((sentence_unplaced _).1 hc)

theorem declining_enumFieldsHaveSentenceComments : Declining enumFieldsHaveSentenceCommentsLinter :=
  declining_of C55_enum_fields_have_sentence_comments fun _ _ T =>
    filter_le (.of_eq T.enumValues) (fun e => ¬ CommentSentence e.comment) (fun _ h hc => h (sentence_plain hc))
      fun _ h hc => h ((sentence_unplaced _).1 hc)

theorem declining_messageFieldsHaveSentenceComments : Declining messageFieldsHaveSentenceCommentsLinter :=
  declining_of C55_message_fields_have_sentence_comments fun _ _ T =>
    filter_le (.of_eq T.fields) (fun e => ¬ CommentSentence e.comment) (fun _ h hc => h (sentence_plain hc))
      fun _ h hc => h ((sentence_unplaced _).1 hc)

theorem declining_servicesHaveSentenceComments : Declining servicesHaveSentenceCommentsLinter :=
  declining_of C55_services_have_sentence_comments fun _ _ T =>
    filter_le (.of_eq T.services) (fun e => ¬ CommentSentence e.comment) (fun _ h hc => h (sentence_plain hc))
      fun _ h hc => h ((sentence_unplaced _).1 hc)

theorem declining_rpcsHaveSentenceComments : Declining rpcsHaveSentenceCommentsLinter :=
  declining_of C55_rpcs_have_sentence_comments fun _ _ T =>
    filter_le (.of_eq T.rpcs) (fun e => ¬ CommentSentence e.comment) (fun _ h hc => h (sentence_plain hc))
      fun _ h hc => h ((sentence_unplaced _).1 hc)

theorem flat_filter_le {α : Type} {X X' : List α} {βo βn : α → α} (h : (X'.map βn).Perm (X.map βo))
    {P P' : α → Prop} [DecidablePred P] [DecidablePred P'] {C C' : α → Prop} [DecidablePred C] [DecidablePred C']
    (Q D : α → Prop) {pos pos' : α → Position} (ho : ∀ x, P x ↔ Q (βo x)) (hn : ∀ x, P' x ↔ Q (βn x))
    (co : ∀ x ∈ X, D (βo x) → C x) (cn : ∀ x, C' x → D (βn x)) :
    ((X'.filter fun x => decide (P' x)).flatMap fun x => if C' x then [pos' x] else []).length ≤
      ((X.filter fun x => decide (P x)).flatMap fun x => if C x then [pos x] else []).length := by
  classical
  have e : ∀ (X : List α) (P C : α → Prop) [DecidablePred P] [DecidablePred C] (pos : α → Position),
      ((X.filter fun x => decide (P x)).flatMap fun x => if C x then [pos x] else []) =
        (X.filter fun x => decide (P x ∧ C x)).map pos := by
    intro X P C _ _ pos
    induction X with
    | nil => rfl
    | cons x X ih =>
      rw [List.filter_cons, List.filter_cons]
      by_cases hp : P x <;> by_cases hc : C x <;> simp [hp, hc] <;> simpa using ih
  rw [e, e]
  exact filter_le_mem h (fun x => Q x ∧ D x) (fun x hm hx => ⟨(ho x).2 hx.1, co x hm hx.2⟩)
    fun x hx => ⟨(hn x).1 hx.1, cn x hx.2⟩

theorem opening_messagesHaveCommentsExcept (env : Env) :
    Opening (messagesHaveCommentsExceptRequestResponseTypesLinter env) :=
  opening_on (C32_comments_except env) grammatical_twin fun d _ T hc => by
    rw [T.usedTypes]
    exact flat_filter_le (.of_eq T.lastNamed)
      (fun m => m.message.isExtend = false ∧ m.name ∉ Spec.usedTypes d)
      (fun m => ¬ CommentNames m.message.comment m.message.name) (fun _ => .rfl) (fun _ => .rfl)
      (fun x hx h hn => h (names_plain (clean_named hc x (lastBy_mem hx)) hn)) fun _ h hn => h ((names_unplaced _ _).1 hn)

theorem declining_messagesHaveSentenceCommentsExcept (env : Env) :
    Declining (messagesHaveSentenceCommentsExceptRequestResponseTypesLinter env) :=
  declining_on (C32_sentence_comments_except env) grammatical_twin fun d _ T => by
    rw [T.usedTypes]
    exact flat_filter_le (.of_eq T.lastNamed)
      (fun m => m.message.isExtend = false ∧ m.name ∉ Spec.usedTypes d)
      (fun m => ¬ CommentSentence m.message.comment) (fun _ => .rfl) (fun _ => .rfl)
      (fun _ _ h hc => h (sentence_plain hc)) fun _ h hc => h ((sentence_unplaced _).1 hc)

/-! ### All nodes -/

theorem flatMap_notComment {γ : Type} {g : Node → List γ} (hg : ∀ n, notComment n.self = false → g n = [])
    (l : List Node) : l.flatMap g = (l.filter fun n => notComment n.self).flatMap g := by
  induction l with
  | nil => rfl
  | cons n l ih =>
    rw [List.flatMap_cons, List.filter_cons, ih]
    cases h : notComment n.self with
    | true => rw [if_pos rfl, List.flatMap_cons]
    | false => rw [if_neg (by simp), hg n h, List.nil_append]

theorem commentOf_head {e : Element} (h : notComment e = true) (hn : namesOf e ≠ []) :
    commentOf (head keep e) = keep (commentOf e) := by
  cases e <;> first | rfl | exact absurd rfl hn | cases h

theorem inlineCommentOf_head (hk : keep none = none) (e : Element) :
    inlineCommentOf (head keep e) = keep (inlineCommentOf e) := by
  cases e <;> first | rfl | exact hk.symm

theorem namesOf_head (e : Element) : namesOf (head keep e) = namesOf e := by
  cases e <;> rfl

theorem nodes_le (T : Twin old new d d') {g g' : Node → List Position} (k : Node → Nat)
    (hg : ∀ n, notComment n.self = false → g n = []) (hg' : ∀ n, notComment n.self = false → g' n = [])
    (ho : ∀ n, notComment n.self = true → k (shade old n) ≤ (g n).length)
    (hn : ∀ n, notComment n.self = true → (g' n).length ≤ k (shade new n)) :
    ((fileNodes d').flatMap g').length ≤ ((fileNodes d).flatMap g).length := by
  rw [flatMap_notComment hg, flatMap_notComment hg']
  exact flat_le (T.all false) k (fun n h => ho n (List.mem_filter.1 h).2) fun n h => hn n (List.mem_filter.1 h).2

theorem declining_commentsNoInline : Declining commentsNoInlineLinter :=
  declining_of C55_comments_no_inline fun _ _ T => by
    refine nodes_le T (fun n => (inlineCommentOf n.self).toList.length) ?_ ?_ ?_ ?_
    · rintro ⟨a, e⟩ h; cases e <;> first | rfl | cases h
    · rintro ⟨a, e⟩ h; cases e <;> first | rfl | cases h
    · intro n _
      unfold shade
      simp only [inlineCommentOf_head T.keeps.none_old, List.length_map]
      cases inlineCommentOf n.self with
      | none => exact Nat.le_refl _
      | some c =>
        unfold plainComment
        dsimp only
        split
        · exact Nat.zero_le _
        · exact Nat.le_refl _
    · intro n _
      unfold shade
      simp only [inlineCommentOf_head T.keeps.none_new, List.length_map]
      cases inlineCommentOf n.self <;> exact Nat.le_refl _

theorem count_le {α γ : Type} {l : List α} {P P' : α → Prop} [DecidablePred P] [DecidablePred P'] {pos : α → γ}
    (h : ∀ a, P a → P' a) : (l.filter fun a => decide (P a)).length ≤ ((l.filter fun a => decide (P' a)).map pos).length := by
  rw [List.length_map, ← List.countP_eq_length_filter, ← List.countP_eq_length_filter]
  exact List.countP_mono_left fun x _ => by simpa using h x

theorem count_le' {α γ : Type} {l : List α} {P P' : α → Prop} [DecidablePred P] [DecidablePred P'] {pos : α → γ}
    (h : ∀ a, P' a → P a) : ((l.filter fun a => decide (P' a)).map pos).length ≤ (l.filter fun a => decide (P a)).length := by
  rw [List.length_map, ← List.countP_eq_length_filter, ← List.countP_eq_length_filter]
  exact List.countP_mono_left fun x _ => by simpa using h x

theorem declining_names (word annotation : Str) (hend : (annotation.getLast?.map isSpace) = some false) {l : Linter} (hr : Reports l fun d =>
    (fileNodes d).flatMap fun n =>
      ((namesOf n.self).filter fun name => word <:+: toLower name ∧
        ¬ Suppressed annotation d.config (commentOf n.self)).map fun _ => positionOf n.self) : Declining l :=
  declining_of hr fun d d' T => by
    refine nodes_le T (fun n => ((namesOf n.self).filter fun name => word <:+: toLower name ∧
        ¬ Suppressed annotation d.config (commentOf n.self)).length) ?_ ?_ ?_ ?_
    · rintro ⟨a, e⟩ h; cases e <;> first | rfl | cases h
    · rintro ⟨a, e⟩ h; cases e <;> first | rfl | cases h
    · intro n h
      by_cases hn : namesOf n.self = []
      · simp only [shade, namesOf_head, hn]
        exact Nat.le_refl _
      simp only [shade, commentOf_head h hn, namesOf_head]
      exact count_le fun a ha => ⟨ha.1, fun hs => ha.2 (suppressed_plain (solidEnd _ hend) hs)⟩
    · intro n h
      by_cases hn : namesOf n.self = []
      · simp only [shade, namesOf_head, hn]
        exact Nat.le_refl _
      simp only [shade, commentOf_head h hn, namesOf_head, T.config]
      exact count_le' fun a ha => ⟨ha.1, fun hs => ha.2 ((suppressed_unplaced _ _ _).1 hs)⟩

theorem declining_messageFieldsNotFloats : Declining messageFieldsNotFloatsLinter :=
  declining_of C28_message_fields_not_floats fun d d' T => by
    rw [T.config]
    exact filter_le (.of_eq T.fields) (fun f => f.type = s%"float" ∧ ¬ Suppressed s%"floats" d.config f.comment)
      (fun _ h => ⟨h.1, fun hs => h.2 (suppressed_plain (solidEnd _ (by decide)) hs)⟩)
      fun _ h => ⟨h.1, fun hs => h.2 ((suppressed_unplaced _ _ _).1 hs)⟩

theorem declining_packageNoKeywords : Declining packageNoKeywordsLinter :=
  declining_of C28_package_no_keywords fun d d' T => by
    rw [T.config]
    refine flat_le (.of_eq T.packages) (fun p => ((splitChar '.' p.name).filter fun part =>
        toLower part ∈ [s%"internal", s%"public", s%"private", s%"protected", s%"std"] ∧
          ¬ Suppressed s%"keywords" d.config p.comment).length) (fun p _ => ?_) (fun p _ => ?_)
    · exact count_le fun a ha => ⟨ha.1, fun hs => ha.2 (suppressed_plain (solidEnd _ (by decide)) hs)⟩
    · exact count_le' fun a ha => ⟨ha.1, fun hs => ha.2 ((suppressed_unplaced _ _ _).1 hs)⟩

theorem declining_serviceNamesNoPlurals (env : Env) : Declining (serviceNamesNoPluralsLinter env) :=
  declining_of (C28_service_names_no_plurals env) fun d d' T => by
    rw [T.config]
    refine flat_le (.of_eq T.services) (fun s => ((Strs.splitCamelCaseWord s.name).filter fun word =>
          (env.singularize (toLower word) ≠ toLower word ∧ toUpper word ≠ word ∧
            toLower word ≠ s%"data") ∧ ¬ Suppressed s%"plurals" d.config s.comment).length)
      (fun p _ => ?_) (fun p _ => ?_)
    · exact count_le fun a ha => ⟨ha.1, fun hs => ha.2 (suppressed_plain (solidEnd _ (by decide)) hs)⟩
    · exact count_le' fun a ha => ⟨ha.1, fun hs => ha.2 ((suppressed_unplaced _ _ _).1 hs)⟩

theorem declining_http : Declining rpcOptionsNoGoogleAPIHTTPLinter :=
  declining_on C28_rpc_options_no_google_api_http
    (fun _ _ d d' T => ⟨⟨T.well.grammatical, T.well.http⟩, ⟨T.well'.grammatical, T.well'.http⟩⟩)
    fun d d' T => by
      rw [T.config]
      exact filter_le T.rpcOptions (fun p => HTTPName p.2.name ∧
          ¬ Suppressed s%"google-api-http" d.config p.1.comment)
        (fun _ h => ⟨h.1, fun hs => h.2 (suppressed_plain (solidEnd _ (by decide)) hs)⟩)
        fun _ h => ⟨h.1, fun hs => h.2 ((suppressed_unplaced _ _ _).1 hs)⟩

/-! ### Lines -/

/-- The rule finds as much in the rearranged files, if messages and RPCs are on lines of their own. -/
def Ordering (l : Linter) : Prop :=
  ∀ old new dirPath ds ds', Pointwise (fun d d' => Twin old new d d' ∧ Lined d ∧ Lined d') ds ds' → ∃ fs gs,
    l.check dirPath ds = some (.ok fs) ∧ l.check dirPath ds' = some (.ok gs) ∧ gs.length = fs.length

theorem pairs {α : Type} {f : Node → Option α} {R : Node → Node → Prop}
    (hf : ∀ n n', R n n' → (f n).isSome = (f n').isSome) {L L' : List Node} (h : Pointwise R L L') :
    ∃ Z : List (α × α), L.filterMap f = Z.map Prod.fst ∧ L'.filterMap f = Z.map Prod.snd ∧
      ∀ p ∈ Z, ∃ z ∈ L.zip L', R z.1 z.2 ∧ f z.1 = some p.1 ∧ f z.2 = some p.2 := by
  induction h with
  | nil => exact ⟨[], rfl, rfl, fun _ h => (nomatch h)⟩
  | @cons n n' L L' hn _ ih =>
    obtain ⟨Z, h1, h2, h3⟩ := ih
    have hs := hf n n' hn
    cases ha : f n with
    | none =>
      rw [ha] at hs
      have hb : f n' = none := by cases hb : f n' with | none => rfl | some _ => rw [hb] at hs; cases hs
      refine ⟨Z, by rw [List.filterMap_cons, ha]; exact h1, by rw [List.filterMap_cons, hb]; exact h2, fun p hp => ?_⟩
      obtain ⟨z, hz, h⟩ := h3 p hp
      exact ⟨z, List.mem_cons_of_mem _ hz, h⟩
    | some a =>
      rw [ha] at hs
      cases hb : f n' with
      | none => rw [hb] at hs; cases hs
      | some b =>
        refine ⟨(a, b) :: Z, by rw [List.filterMap_cons, ha, h1]; rfl, by rw [List.filterMap_cons, hb, h2]; rfl,
          fun p hp => ?_⟩
        rcases List.mem_cons.1 hp with rfl | hp
        · exact ⟨(n, n'), List.mem_cons_self, hn, ha, hb⟩
        · obtain ⟨z, hz, h⟩ := h3 p hp
          exact ⟨z, List.mem_cons_of_mem _ hz, h⟩

theorem same_order {α : Type} {line : α → Int} {L L' : List α} (h : L.Pairwise fun a b => line a < line b)
    (h' : L'.Pairwise fun a b => line a < line b) :
    ∀ z ∈ L.zip L', ∀ w ∈ L.zip L', (line z.1 < line w.1 ↔ line z.2 < line w.2) := by
  induction L generalizing L' with
  | nil => exact fun _ h => (nomatch h)
  | cons a L ih =>
    cases L' with
    | nil => exact fun _ h => (nomatch h)
    | cons a' L' =>
      rw [List.pairwise_cons] at h h'
      intro z hz w hw
      rw [List.zip_cons_cons] at hz hw
      rcases List.mem_cons.1 hz with rfl | hz <;> rcases List.mem_cons.1 hw with rfl | hw
      · exact ⟨fun h => absurd h (Int.lt_irrefl _), fun h => absurd h (Int.lt_irrefl _)⟩
      · exact ⟨fun _ => h'.1 _ (List.of_mem_zip hw).2, fun _ => h.1 _ (List.of_mem_zip hw).1⟩
      · have h1 := h.1 _ (List.of_mem_zip hz).1
        have h2 := h'.1 _ (List.of_mem_zip hz).2
        exact ⟨fun h => absurd (Int.lt_trans h h1) (Int.lt_irrefl _),
          fun h => absurd (Int.lt_trans h h2) (Int.lt_irrefl _)⟩
      · exact ih h.2 h'.2 z hz w hw

/-- What stands in the order of `Lined`. -/
def lined (n : Node) : Bool :=
  (n.around.all nothing && isMessage n.self) || (n.around.all isService && isRPC n.self)

theorem lined_shade (n : Node) : lined (shade keep n) = lined n := by
  unfold lined
  rw [told_around told_nothing, told_around told_service]
  obtain ⟨a, e⟩ := n
  cases e <;> rfl

theorem Twin.lined (T : Twin old new d d') :
    Pointwise (fun n n' => shade new n' = shade old n) ((fileNodes d).filter lined) ((fileNodes d').filter lined) := by
  have hput := T.put false
  have e : ∀ (keep) (d : FileDescriptor), (shades keep false solid [] d.elements).filter Reform.lined =
      ((fileNodes d).filter Reform.lined).map (shade keep) := by
    intro keep d
    unfold shades
    rw [List.filter_map, List.filter_filter]
    congr 1
    refine List.filter_congr fun n _ => ?_
    show (Reform.lined (shade keep n) && solid n.self) = Reform.lined n
    rw [lined_shade]
    obtain ⟨a, e⟩ := n
    cases e <;> simp [Reform.lined, solid, isMessage, isRPC, staysPut, notComment, isComment]
  have h := congrArg (List.filter Reform.lined) hput
  rw [e, e] at h
  generalize (fileNodes d).filter Reform.lined = L at h ⊢
  generalize (fileNodes d').filter Reform.lined = L' at h ⊢
  induction L generalizing L' with
  | nil => cases L' with
    | nil => exact .nil
    | cons _ _ => cases h
  | cons n L ih => cases L' with
    | nil => cases h
    | cons n' L' =>
      rw [List.map_cons, List.map_cons] at h
      injection h with h1 h2
      exact .cons h1 (ih L' h2)

theorem topMessages_lined (d : FileDescriptor) :
    topMessages d = ((fileNodes d).filter lined).filterMap asMessage := by
  unfold topMessages inside
  rw [List.filterMap_filter, List.filterMap_filter]
  congr 1
  funext n
  obtain ⟨a, e⟩ := n
  cases e <;> simp [lined, asMessage, isMessage, isRPC]

theorem rpcs_lined (d : FileDescriptor) : rpcs d = ((fileNodes d).filter lined).filterMap asRPC := by
  unfold rpcs inside
  rw [List.filterMap_filter, List.filterMap_filter]
  congr 1
  funext n
  obtain ⟨a, e⟩ := n
  cases e <;> simp [lined, asRPC, isMessage, isRPC]

theorem ordering_after : Ordering requestResponseTypesAfterServiceLinter := by
  intro old new dirPath ds ds' hp
  obtain ⟨h1, h2⟩ := pointwise_left (ok := Grammatical) hp
    (fun d d' h => ⟨h.1.well.grammatical, h.1.well'.grammatical⟩)
  obtain ⟨fs, hf, hfp, -⟩ := C32_after_service dirPath ds h1
  obtain ⟨gs, hg, hgp, -⟩ := C32_after_service dirPath ds' h2
  refine ⟨fs, gs, hf, hg, ?_⟩
  have a := hfp.length_eq
  have b := hgp.length_eq
  rw [List.length_map] at a b
  rw [a, b]
  refine pointwise_sum hp ?_
  rintro d d' ⟨T, hd, hd'⟩
  have hL := T.lined
  have horder := same_order (line := fun n : Node => (positionOf n.self).line) hd hd'
  obtain ⟨M, m1, m2, hm⟩ := pairs (f := asMessage) (fun n n' h => by
    obtain ⟨a, e⟩ := n
    obtain ⟨a', e'⟩ := n'
    unfold shade at h
    injection h with _ h
    cases e <;> cases e' <;> first | rfl | cases h) hL
  obtain ⟨S, s1, s2, hs⟩ := pairs (f := asRPC) (fun n n' h => by
    obtain ⟨a, e⟩ := n
    obtain ⟨a', e'⟩ := n'
    unfold shade at h
    injection h with _ h
    cases e <;> cases e' <;> first | rfl | cases h) hL
  rw [← topMessages_lined] at m1 m2
  rw [← rpcs_lined] at s1 s2
  have hM : ∀ p ∈ M, p.2.name = p.1.name ∧ ∃ z ∈ ((fileNodes d).filter lined).zip ((fileNodes d').filter lined),
      p.1.position = positionOf z.1.self ∧ p.2.position = positionOf z.2.self := by
    rintro ⟨p1, p2⟩ hp
    obtain ⟨⟨⟨a, e⟩, ⟨a', e'⟩⟩, hz, hR, h1, h2⟩ := hm _ hp
    unfold shade at hR
    injection hR with _ hR
    cases e <;> cases h1
    cases e' <;> cases h2
    simp only [head] at hR
    injection hR with hR
    injection hR with _ _ hR
    exact ⟨hR, _, hz, rfl, rfl⟩
  have hS : ∀ p ∈ S, p.2.requestType = p.1.requestType ∧ p.2.returnsType = p.1.returnsType ∧
      ∃ z ∈ ((fileNodes d).filter lined).zip ((fileNodes d').filter lined),
      p.1.position = positionOf z.1.self ∧ p.2.position = positionOf z.2.self := by
    rintro ⟨p1, p2⟩ hp
    obtain ⟨⟨⟨a, e⟩, ⟨a', e'⟩⟩, hz, hR, h1, h2⟩ := hs _ hp
    unfold shade at hR
    injection hR with _ hR
    cases e <;> cases h1
    cases e' <;> cases h2
    simp only [head] at hR
    injection hR with hR
    injection hR with _ _ _ hq _ hr
    exact ⟨hq, hr, _, hz, rfl, rfl⟩
  have hlast : ∀ name, ∃ o : Option (Message × Message), (∀ p, o = some p → p ∈ M) ∧
      lastNamed d name = o.map Prod.fst ∧ lastNamed d' name = o.map Prod.snd := by
    intro name
    refine ⟨(M.filter fun p => p.1.name = name).getLast?, fun p h => ?_, ?_, ?_⟩
    · exact (List.mem_filter.1 (List.mem_of_getLast? h)).1
    · unfold lastNamed
      rw [m1, List.filter_map, List.getLast?_map]
      rfl
    · unfold lastNamed
      rw [m2, List.filter_map, List.getLast?_map]
      congr 2
      exact List.filter_congr fun p hp => by simp only [Function.comp, (hM p hp).1]
  rw [s1, s2, length_flatMap_sum, length_flatMap_sum, List.map_map, List.map_map]
  congr 1
  refine List.map_congr_left fun p hp => ?_
  obtain ⟨hq, hr, z, hz, zp, zp'⟩ := hS p hp
  show (afterPlaces d' p.2).length = (afterPlaces d p.1).length
  unfold afterPlaces
  rw [hq, hr]
  obtain ⟨o, ho, e1, e2⟩ := hlast p.1.requestType
  obtain ⟨u, hu, f1, f2⟩ := hlast p.1.returnsType
  rw [e1, e2, f1, f2]
  have two : ∀ (c c' : Prop) [Decidable c] [Decidable c'] (x y : Position), (c' ↔ c) →
      (if c' then [x] else []).length = (if c then [y] else []).length := by
    intro c c' _ _ x y h
    by_cases hc : c
    · rw [if_pos hc, if_pos (h.2 hc)]; rfl
    · rw [if_neg hc, if_neg fun x => hc (h.1 x)]
  have cmp : ∀ q ∈ M, (q.2.position.line < p.2.position.line ↔ q.1.position.line < p.1.position.line) := by
    intro q hq
    obtain ⟨-, w, hw, wp, wp'⟩ := hM q hq
    rw [zp, zp', wp, wp']
    exact (horder w hw z hz).symm
  have cmp' : ∀ q ∈ M, ∀ r ∈ M, (q.2.position.line < r.2.position.line ↔ q.1.position.line < r.1.position.line) := by
    intro q hq r hr
    obtain ⟨-, w, hw, wp, wp'⟩ := hM q hq
    obtain ⟨-, v, hv, vp, vp'⟩ := hM r hr
    rw [vp, vp', wp, wp']
    exact (horder w hw v hv).symm
  simp only [List.length_append]
  congr 1
  · congr 1
    · cases o with
      | none => rfl
      | some q => exact two _ _ _ _ (cmp q (ho q rfl))
    · cases u with
      | none => rfl
      | some q => exact two _ _ _ _ (cmp q (hu q rfl))
  · cases o with
    | none => rfl
    | some q =>
      cases u with
      | none => rfl
      | some r => exact two _ _ _ _ (cmp' r (hu r rfl) q (ho q rfl))

/-! ### The list of rules -/

def Sorted3 (l : Linter) : Prop :=
  l.id ∈ styleRules ∨ (l.id = s%"REQUEST_RESPONSE_TYPES_AFTER_SERVICE" ∧ Ordering l) ∨ (l.id ∈ openingRules ∧ Opening l) ∨ (l.id ∈ commentRules ∧ Declining l) ∨ Steady l

theorem placed {l : Linter} (h : l.id ∈ styleRules) : Sorted3 l := .inl h
theorem commented {l : Linter} (h : l.id ∈ commentRules) (hd : Declining l) : Sorted3 l :=
  .inr (.inr (.inr (.inl ⟨h, hd⟩)))
theorem opened {l : Linter} (h : l.id ∈ openingRules) (hd : Opening l) : Sorted3 l :=
  .inr (.inr (.inl ⟨h, hd⟩))
theorem steadied {l : Linter} (hd : Steady l) : Sorted3 l := .inr (.inr (.inr (.inr hd)))

theorem required (i : Nat) (hi : i < requiring.length) : Sorted3 (requiring[i]).1 :=
  steadied (steady_require _ (List.getElem_mem hi))
theorem forbidden (i : Nat) (hi : i < forbidding.length) : Sorted3 (forbidding[i]).1 :=
  steadied (steady_unset _ (List.getElem_mem hi))
theorem prescribed (i : Nat) (hi : i < prescribing.length) : Sorted3 (prescribing[i]).1 :=
  steadied (steady_prescribed _ (List.getElem_mem hi))
theorem sameDir (env : Env) (i : Nat) (hi : i < (sameInDir env).length) : Sorted3 ((sameInDir env)[i]).1 :=
  steadied (steady_optionsSameInDir env _ (List.getElem_mem hi))

macro "listed" : tactic => `(tactic| (first | exact List.mem_of_elem_eq_true (by rfl)))

theorem sorted3_all (env : Env) : ∀ l ∈ allLinters env, Sorted3 l := by
  unfold allLinters
  simp only [List.forall_mem_cons]
  refine ⟨placed (by listed),
    commented (by listed) declining_commentsNoInline,
    steadied steady_enumFieldNamesUppercase,
    steadied steady_enumFieldNamesUpperSnakeCase,
    steadied steady_enumFieldPrefixes,
    steadied steady_enumFieldPrefixesExceptMessage,
    opened (by listed) opening_enumFieldsHaveComments,
    commented (by listed) declining_enumFieldsHaveSentenceComments,
    steadied steady_enumNamesCamelCase,
    steadied steady_enumNamesCapitalized,
    steadied steady_enumZeroValuesInvalid,
    steadied steady_enumZeroValuesInvalidExceptMessage,
    opened (by listed) opening_enumsHaveComments,
    commented (by listed) declining_enumsHaveSentenceComments,
    steadied steady_enumsNoAllowAlias,
    steadied steady_fieldsNotReserved,
    placed (by listed),
    steadied steady_fileNamesLowerSnakeCase,
    sameDir env 0 (by simp [sameInDir]),
    prescribed 0 (by decide),
    prescribed 1 (by decide),
    prescribed 2 (by decide),
    prescribed 3 (by decide),
    prescribed 4 (by decide),
    prescribed 5 (by decide),
    prescribed 6 (by decide),
    prescribed 7 (by decide),
    prescribed 8 (by decide),
    steadied steady_goPackage,
    sameDir env 1 (by simp [sameInDir]),
    sameDir env 2 (by simp [sameInDir]),
    sameDir env 3 (by simp [sameInDir]),
    sameDir env 4 (by simp [sameInDir]),
    sameDir env 5 (by simp [sameInDir]),
    required 0 (by decide),
    required 1 (by decide),
    required 2 (by decide),
    required 3 (by decide),
    required 4 (by decide),
    required 5 (by decide),
    required 6 (by decide),
    required 7 (by decide),
    forbidden 0 (by decide),
    forbidden 1 (by decide),
    steadied steady_gogoNotImported,
    steadied steady_importsNotPublic,
    steadied steady_importsNotWeak,
    steadied steady_messageFieldsDuration,
    opened (by listed) opening_messageFieldsHaveComments,
    commented (by listed) declining_messageFieldsHaveSentenceComments,
    commented (by listed) declining_messageFieldsNotFloats,
    steadied steady_messageFieldsNoJSONName,
    steadied steady_messageFieldsTime,
    steadied steady_messageFieldNamesFilename,
    steadied steady_messageFieldNamesFilepath,
    steadied steady_messageFieldNamesLowerSnakeCase,
    steadied steady_messageFieldNamesLowercase,
    steadied steady_messageFieldNamesNoDescriptor,
    steadied steady_messageNamesCamelCase,
    steadied steady_messageNamesCapitalized,
    opened (by listed) opening_messagesHaveComments,
    opened (by listed) (opening_messagesHaveCommentsExcept env),
    commented (by listed) (declining_messagesHaveSentenceCommentsExcept env),
    steadied (steady_messagesNotEmpty env),
    commented (by listed) (declining_names _ _ (by decide) C28_names_no_common),
    commented (by listed) (declining_names _ _ (by decide) C28_names_no_data),
    commented (by listed) (declining_names _ _ (by decide) C28_names_no_uuid),
    steadied steady_oneofNamesLowerSnakeCase,
    steadied (steady_packageIsDeclared env),
    steadied (steady_packageLowerCase env),
    steadied (steady_packageLowerSnakeCase env),
    steadied (steady_packageMajorBetaVersioned env),
    commented (by listed) declining_packageNoKeywords,
    steadied (steady_packagesSameInDir env),
    opened (by listed) opening_rpcsHaveComments,
    commented (by listed) declining_rpcsHaveSentenceComments,
    steadied steady_rpcsNoStreaming,
    steadied steady_rpcNamesCamelCase,
    steadied steady_rpcNamesCapitalized,
    commented (by listed) declining_http,
    .inr (.inl ⟨rfl, ordering_after⟩),
    steadied steady_sameFile,
    steadied (steady_only env),
    steadied steady_unique,
    steadied steady_requestResponseNamesMatchRPC,
    opened (by listed) opening_servicesHaveComments,
    commented (by listed) declining_servicesHaveSentenceComments,
    steadied steady_serviceNamesAPISuffix,
    steadied steady_serviceNamesCamelCase,
    steadied steady_serviceNamesCapitalized,
    steadied steady_serviceNamesMatchFileName,
    commented (by listed) (declining_serviceNamesNoPlurals env),
    steadied (steady_syntaxProto3 env),
    steadied (steady_wktDirectlyImported env),
    steadied steady_wktDurationSuffix,
    steadied steady_wktTimestampSuffix,
    fun _ h => (nomatch h)⟩

end Verif.Reform
