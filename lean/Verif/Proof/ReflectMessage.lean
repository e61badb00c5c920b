import Verif.Model.Reflect
import Verif.Spec.Reflection
import Verif.Proof.Keyed
import Verif.Proof.Map
import Verif.Proof.Order

/-! # Reflection of enums, messages and services -/

namespace Verif

/-- Two implementations of `sort.Slice` agree on rearrangements without ties. -/
theorem SortSlice.eq_of_perm (s s' : SortSlice) {α : Type} {less : α → α → Bool} (h : SWO less)
    {l l' : List α} (hp : l.Perm l')
    (anti : ∀ a ∈ l, ∀ b ∈ l, less a b = false → less b a = false → a = b) :
    s.run less l = s'.run less l' := by
  refine sorted_perm_eq (le := fun a b => !less b a) ?_
    ((s.sorted less l h).imp fun h => by simpa using h)
    ((s'.sorted less l' h).imp fun h => by simpa using h)
    ((s.perm less l).trans (hp.trans (s'.perm less l').symm))
  intro a b ha hb h1 h2
  simp only [Bool.not_eq_true'] at h1 h2
  exact anti a ((s.perm less l).mem_iff.1 ha) b ((s.perm less l).mem_iff.1 hb) h2 h1

theorem SortSlice.mem (s : SortSlice) {α : Type} {less : α → α → Bool} {l : List α} {a : α} :
    a ∈ s.run less l ↔ a ∈ l := (s.perm less l).mem_iff

theorem Str.eq_of_not_lt {a b : Str} (h1 : Str.lt a b = false) (h2 : Str.lt b a = false) : a = b := by
  rcases Str.lt_trichotomy a b with h | h | h
  · rw [h] at h1; cases h1
  · exact h
  · rw [h] at h2; cases h2

/-- Sorting by distinct names. -/
theorem SortSlice.byName_eq (s s' : SortSlice) {α : Type} {name : α → Str} {l l' : List α}
    (hp : l.Perm l') (hn : (l.map name).Nodup) :
    s.run (fun a b => Str.lt (name a) (name b)) l = s'.run (fun a b => Str.lt (name a) (name b)) l' :=
  SortSlice.eq_of_perm s s' (SWO.str.on _) hp fun _ ha _ hb h1 h2 =>
    eq_of_key_eq hn ha hb (Str.eq_of_not_lt h1 h2)

/-- Sorting by distinct numbers. -/
theorem SortSlice.byNumber_eq (s s' : SortSlice) {α : Type} {number : α → Int} {l l' : List α}
    (hp : l.Perm l') (hn : (l.map number).Nodup) :
    s.run (fun a b => decide (number a < number b)) l = s'.run (fun a b => decide (number a < number b)) l' :=
  SortSlice.eq_of_perm s s' (SWO.int.on _) hp fun a ha b hb h1 h2 =>
    eq_of_key_eq hn ha hb (by simp at h1 h2; omega)

namespace Proof.Reflect

open Verif Descriptor Verif.Reflect Spec

theorem byName_run (s : SortSlice) {α : Type} (name : α → Str) (l : List α) :
    ByName name (s.run (fun a b => Str.lt (name a) (name b)) l) :=
  s.sorted _ _ (SWO.str.on _)

theorem byNumber_run (s : SortSlice) {α : Type} (number : α → Int) (l : List α) :
    ByNumber number (s.run (fun a b => decide (number a < number b)) l) :=
  (s.sorted _ _ (SWO.int.on _)).imp fun h => by simp at h; omega

/-! ## Matches -/

theorem Matches.map {α β : Type} {R : α → β → Prop} {f : α → β} {l : List α} (h : ∀ a ∈ l, R a (f a)) :
    Matches R l (l.map f) := by
  induction l with
  | nil => exact .nil
  | cons a l ih => exact .cons (h a (by simp)) (ih fun b hb => h b (by simp [hb]))

theorem Matches.append {α β : Type} {R : α → β → Prop} {as as' : List α} {bs bs' : List β}
    (h : Matches R as bs) (h' : Matches R as' bs') : Matches R (as ++ as') (bs ++ bs') := by
  induction h with
  | nil => exact h'
  | cons hab _ ih => exact .cons hab ih
  | perm _ hp ih => exact .perm ih (hp.append_right _)

theorem Matches.mem_right {α β : Type} {R : α → β → Prop} {as : List α} {bs : List β}
    (h : Matches R as bs) : ∀ b ∈ bs, ∃ a ∈ as, R a b := by
  induction h with
  | nil => simp
  | cons hab _ ih =>
    intro b hb
    rcases List.mem_cons.1 hb with rfl | hb
    · exact ⟨_, List.mem_cons_self, hab⟩
    · obtain ⟨a, ha, h⟩ := ih b hb
      exact ⟨a, List.mem_cons_of_mem _ ha, h⟩
  | perm _ hp ih => exact fun b hb => ih b (hp.mem_iff.2 hb)

theorem Matches.mem_left {α β : Type} {R : α → β → Prop} {as : List α} {bs : List β}
    (h : Matches R as bs) : ∀ a ∈ as, ∃ b ∈ bs, R a b := by
  induction h with
  | nil => simp
  | cons hab _ ih =>
    intro a ha
    rcases List.mem_cons.1 ha with rfl | ha
    · exact ⟨_, List.mem_cons_self, hab⟩
    · obtain ⟨b, hb, h⟩ := ih a ha
      exact ⟨b, List.mem_cons_of_mem _ hb, h⟩
  | perm _ hp ih =>
    intro a ha
    obtain ⟨b, hb, h⟩ := ih a ha
    exact ⟨b, hp.mem_iff.1 hb, h⟩

/-- Keys are kept by a key-preserving correspondence. -/
theorem Matches.keys {α β κ : Type} {R : α → β → Prop} {k : α → κ} {k' : β → κ} {as : List α} {bs : List β}
    (h : Matches R as bs) (hk : ∀ a b, R a b → k' b = k a) : (bs.map k').Perm (as.map k) := by
  induction h with
  | nil => exact .refl _
  | cons hab _ ih => rw [List.map_cons, List.map_cons, hk _ _ hab]; exact ih.cons _
  | perm _ hp ih => exact (hp.map _).symm.trans ih

/-! ## Enums -/

theorem newEnum_describes (s : SortSlice) (e : Enum) : DescribesEnum e (newEnum s e) :=
  ⟨rfl, s.perm _ _, byNumber_run s _ _⟩

theorem getEnums_perm (s : SortSlice) (es : List Enum) : (getEnums s es).Perm (es.map (newEnum s)) := by
  unfold getEnums
  split
  · rename_i h
    rw [List.eq_nil_of_length_eq_zero h]
    exact .refl _
  · exact s.perm _ _

theorem getEnums_sorted (s : SortSlice) (es : List Enum) : ByName (·.name) (getEnums s es) := by
  unfold getEnums
  split
  · exact List.Pairwise.nil
  · exact byName_run s _ _

theorem getEnums_matches (s : SortSlice) (es : List Enum) : Matches DescribesEnum es (getEnums s es) :=
  .perm (Matches.map fun e _ => newEnum_describes s e) (getEnums_perm s es).symm

/-! ## Fields -/

theorem verifyAndStrip_ok {n r : Str} : verifyAndStrip n = .ok r ↔ Qualified n ∧ r = n.drop 1 := by
  cases n with
  | nil => simp [verifyAndStrip, Qualified]
  | cons c cs =>
    rw [verifyAndStrip]
    by_cases hc : c = '.'
    · subst hc
      rw [if_neg (by simp)]
      constructor
      · intro h; cases h; exact ⟨⟨_, rfl⟩, rfl⟩
      · rintro ⟨_, rfl⟩; rfl
    · rw [if_pos hc]
      constructor
      · intro h; cases h
      · rintro ⟨⟨r, hr⟩, _⟩
        cases hr
        exact absurd rfl hc

theorem fieldTypeName_ok {f : FieldDesc} {r : Str} :
    fieldTypeName f = .ok r ↔ (f.typeName = [] ∨ Qualified f.typeName) ∧ r = f.typeName.drop 1 := by
  unfold fieldTypeName
  split
  · rename_i h
    rw [h]
    simp only [true_or, true_and, List.drop_nil, Except.ok.injEq]
    exact eq_comm
  · rename_i h
    rw [verifyAndStrip_ok]
    simp [h]

/-- The oneofs with the numbers of their fields added. -/
def withNumbers (decls : List Str) (fs : List FieldDesc) (ws : List Oneof) : List Oneof :=
  ws.map fun w => ⟨w.name, w.fieldNumbers ++
    (fs.filter fun f => decide (oneofName decls f = some w.name)).map (·.number)⟩

theorem fieldLoop_ok {decls : List Str} {fs : List FieldDesc} {acc : List Field} {ws : List Oneof}
    {r : List Field × List Oneof} :
    fieldLoop decls fs acc ws = .ok r ↔
      (∀ f ∈ fs, FieldQualified decls f) ∧ r = (acc ++ fs.map fieldOf, withNumbers decls fs ws) := by
  induction fs generalizing acc ws with
  | nil =>
    simp only [fieldLoop, List.not_mem_nil, false_implies, implies_true, true_and, List.map_nil,
      List.append_nil, withNumbers, List.filter_nil, Except.ok.injEq]
    rw [List.map_id'']
    · exact eq_comm
    · intro w; rfl
  | cons f fs ih =>
    unfold fieldLoop
    cases htn : fieldTypeName f with
    | error e =>
      constructor
      · intro h; cases h
      · rintro ⟨h, _⟩
        have := fieldTypeName_ok.2 ⟨(h f (by simp)).1, rfl⟩
        rw [htn] at this; cases this
    | ok tn =>
      obtain ⟨hq, rfl⟩ := fieldTypeName_ok.1 htn
      dsimp only
      cases hoi : f.oneofIndex with
      | none =>
        dsimp only
        rw [ih]
        have hno : ∀ n, ¬ oneofName decls f = some n := by
          intro n; unfold oneofName; rw [hoi]; simp
        have hw : withNumbers decls (f :: fs) ws = withNumbers decls fs ws := by
          unfold withNumbers
          refine List.map_congr_left fun w _ => ?_
          rw [List.filter_cons_of_neg (by simpa using hno w.name)]
        rw [hw]
        simp only [List.mem_cons, forall_eq_or_imp, List.map_cons, List.append_assoc,
          List.singleton_append]
        constructor
        · rintro ⟨h, rfl⟩
          exact ⟨⟨⟨hq, by rw [hoi]; simp⟩, h⟩, rfl⟩
        · rintro ⟨⟨_, h⟩, rfl⟩
          exact ⟨h, rfl⟩
      | some i =>
        dsimp only
        cases hi : decls[i]? with
        | none =>
          constructor
          · intro h; cases h
          · rintro ⟨h, _⟩
            have := (h f (by simp)).2 i hoi
            rw [List.getElem?_eq_none_iff] at hi
            omega
        | some name =>
          dsimp only
          rw [ih]
          have hon : oneofName decls f = some name := by unfold oneofName; rw [hoi]; exact hi
          have hlt : i < decls.length := by
            rw [List.getElem?_eq_some_iff] at hi
            exact hi.1
          have hw : withNumbers decls (f :: fs) ws = withNumbers decls fs (addToOneof ws name f.number) := by
            unfold withNumbers addToOneof
            rw [List.map_map]
            refine List.map_congr_left fun w _ => ?_
            dsimp only [Function.comp]
            by_cases hwn : w.name = name
            · simp only [if_pos hwn]
              rw [List.filter_cons_of_pos (by simp [hon, hwn])]
              simp
            · simp only [if_neg hwn]
              rw [List.filter_cons_of_neg (by simp [hon]; exact fun h => hwn h.symm)]
          rw [hw]
          simp only [List.mem_cons, forall_eq_or_imp, List.map_cons, List.append_assoc,
            List.singleton_append]
          constructor
          · rintro ⟨h, rfl⟩
            refine ⟨⟨⟨hq, ?_⟩, h⟩, rfl⟩
            rw [hoi]
            intro j hj
            cases hj
            exact hlt
          · rintro ⟨⟨_, h⟩, rfl⟩
            exact ⟨h, rfl⟩

/-! ## Oneofs -/

/-- The oneof map before the fields are added. -/
def emptyOneofs (decls : List Str) : List Oneof := kmap (·.name) (decls.map fun n => (⟨n, []⟩ : Oneof))

theorem emptyOneofs_nodup (decls : List Str) : ((emptyOneofs decls).map (·.name)).Nodup := kmap_keys_nodup

theorem emptyOneofs_mem {decls : List Str} {w : Oneof} :
    w ∈ emptyOneofs decls ↔ w.name ∈ decls ∧ w.fieldNumbers = [] := by
  unfold emptyOneofs
  rw [mem_kmap_iff]
  have hall : ∀ x ∈ (decls.map fun n => (⟨n, []⟩ : Oneof)).filter (fun b => decide (b.name = w.name)),
      x = ⟨w.name, []⟩ := by
    intro x hx
    rw [List.mem_filter, List.mem_map] at hx
    obtain ⟨⟨n, _, rfl⟩, hn⟩ := hx
    simp at hn
    rw [hn]
  constructor
  · intro h
    have hm := List.mem_of_getLast? h
    have he := hall w hm
    rw [List.mem_filter, List.mem_map] at hm
    obtain ⟨⟨n, hn, rfl⟩, _⟩ := hm
    exact ⟨hn, rfl⟩
  · rintro ⟨hd, hf⟩
    have hw : w = ⟨w.name, []⟩ := by
      cases w
      simp at hf
      rw [hf]
    have hne : ((decls.map fun n => (⟨n, []⟩ : Oneof)).filter (fun b => decide (b.name = w.name))) ≠ [] := by
      intro hnil
      have : w ∈ ((decls.map fun n => (⟨n, []⟩ : Oneof)).filter (fun b => decide (b.name = w.name))) := by
        rw [List.mem_filter, List.mem_map]
        exact ⟨⟨w.name, hd, hw.symm⟩, by simp⟩
      rw [hnil] at this
      cases this
    obtain ⟨x, hx⟩ := List.getLast?_isSome.2 hne |> Option.isSome_iff_exists.1
    rw [hx, hall x (List.mem_of_getLast? hx), ← hw]

/-- The sorted numbers of every oneof. -/
def sortNumbers (s : SortSlice) (w : Oneof) : Oneof :=
  ⟨w.name, s.run (fun a b => decide (a < b)) w.fieldNumbers⟩

theorem names_withNumbers (decls : List Str) (fs : List FieldDesc) (ws : List Oneof) :
    (withNumbers decls fs ws).map (·.name) = ws.map (·.name) := by
  unfold withNumbers
  rw [List.map_map]
  rfl

theorem oneofs_eq (s : SortSlice) (o o' : Order) (site site' : Site) (decls : List Str) (fs : List FieldDesc) :
    s.run (fun a b => Str.lt a.name b.name)
      ((o.ord site (withNumbers decls fs (emptyOneofs decls))).map (sortNumbers s)) =
    s.run (fun a b => Str.lt a.name b.name)
      ((o'.ord site' (withNumbers decls fs (emptyOneofs decls))).map (sortNumbers s)) := by
  refine SortSlice.byName_eq s s (name := fun w : Oneof => w.name) ?_ ?_
  · exact ((o.perm _ _).trans (o'.perm _ _).symm).map _
  · rw [List.map_map]
    show ((o.ord site (withNumbers decls fs (emptyOneofs decls))).map (·.name)).Nodup
    rw [((o.perm site _).map _).nodup_iff, names_withNumbers]
    exact emptyOneofs_nodup decls

theorem oneofs_describe (s : SortSlice) (o : Order) (site : Site) (decls : List Str) (fs : List FieldDesc) :
    DescribesOneofs decls fs (s.run (fun a b => Str.lt a.name b.name)
      ((o.ord site (withNumbers decls fs (emptyOneofs decls))).map (sortNumbers s))) := by
  have hp : (s.run (fun a b => Str.lt a.name b.name)
      ((o.ord site (withNumbers decls fs (emptyOneofs decls))).map (sortNumbers s))).Perm
      ((withNumbers decls fs (emptyOneofs decls)).map (sortNumbers s)) :=
    (s.perm _ _).trans ((o.perm _ _).map _)
  have hn : ((withNumbers decls fs (emptyOneofs decls)).map (sortNumbers s)).map (·.name) =
      (emptyOneofs decls).map (·.name) := by
    rw [List.map_map, ← names_withNumbers decls fs]
    rfl
  have hw : ∀ w ∈ (withNumbers decls fs (emptyOneofs decls)).map (sortNumbers s), ∃ n ∈ decls, w =
      ⟨n, s.run (fun a b => decide (a < b))
        ((fs.filter fun f => decide (oneofName decls f = some n)).map (·.number))⟩ := by
    intro w hw
    obtain ⟨w1, hw1, rfl⟩ := List.mem_map.1 hw
    obtain ⟨w0, hw0, rfl⟩ := List.mem_map.1 hw1
    obtain ⟨h1, h2⟩ := emptyOneofs_mem.1 hw0
    refine ⟨w0.name, h1, ?_⟩
    unfold sortNumbers
    rw [h2]
    rfl
  refine ⟨?_, ?_, ?_, byName_run s _ _, ?_⟩
  · rw [(hp.map _).nodup_iff, hn]
    exact emptyOneofs_nodup decls
  · intro n
    rw [(hp.map _).mem_iff, hn, List.mem_map]
    constructor
    · rintro ⟨w, hw, rfl⟩
      exact (emptyOneofs_mem.1 hw).1
    · intro h
      exact ⟨⟨n, []⟩, emptyOneofs_mem.2 ⟨h, rfl⟩, rfl⟩
  · intro w h
    obtain ⟨n, _, rfl⟩ := hw w (hp.mem_iff.1 h)
    exact s.perm _ _
  · intro w h
    obtain ⟨n, _, rfl⟩ := hw w (hp.mem_iff.1 h)
    exact byNumber_run s id _

/-! ## Messages -/

/-- The message built from its parts. -/
def builtMessage (s : SortSlice) (o : Order) (site : Site) (name : Str) (nested : List Message)
    (enums : List Enum) (fields : List FieldDesc) (decls : List Str) : Message :=
  .mk name nested enums (s.run (fun a b => decide (a.number < b.number)) (fields.map fieldOf))
    (s.run (fun a b => Str.lt a.name b.name)
      ((o.ord site (withNumbers decls fields (emptyOneofs decls))).map (sortNumbers s)))

theorem finishMessage_ok {s : SortSlice} {o : Order} {site : Site} {name : Str} {nested : List Message}
    {enums : List Enum} {fields : List FieldDesc} {decls : List Str} {m : Message} :
    finishMessage s o site name nested enums fields decls = .ok m ↔
      (∀ f ∈ fields, FieldQualified decls f) ∧ m = builtMessage s o site name nested enums fields decls := by
  unfold finishMessage
  constructor
  · intro h
    split at h
    · cases h
    · rename_i fields' oneofs' hl
      obtain ⟨h1, h2⟩ := fieldLoop_ok.1 hl
      cases h2
      cases h
      exact ⟨h1, rfl⟩
  · rintro ⟨h, rfl⟩
    have := (fieldLoop_ok (acc := []) (ws := emptyOneofs decls)).2 ⟨h, rfl⟩
    unfold emptyOneofs at this
    rw [this]
    rfl

theorem finishMessage_order (s : SortSlice) (o o' : Order) (site site' : Site) (name : Str)
    (nested : List Message) (enums : List Enum) (fields : List FieldDesc) (decls : List Str) :
    finishMessage s o site name nested enums fields decls =
      finishMessage s o' site' name nested enums fields decls := by
  unfold finishMessage
  cases hl : fieldLoop decls fields [] (kmap (·.name) (decls.map fun n => (⟨n, []⟩ : Oneof))) with
  | error e => rfl
  | ok r =>
    obtain ⟨_, rfl⟩ := fieldLoop_ok.1 hl
    exact congrArg (fun ws => Except.ok (Message.mk name nested enums
      (s.run (fun a b => decide (a.number < b.number)) (fields.map fieldOf)) ws))
      (oneofs_eq s o o' site site' decls fields)

mutual
/-- Building a message does not depend on the iteration order. -/
theorem newMessage_order (s : SortSlice) (o o' : Order) (site site' : Site) :
    ∀ d, newMessage s o site d = newMessage s o' site' d
  | .mk name nested enums fields oneofs => by
    rw [newMessage, newMessage, newMessages_order s o o' (name :: site) (name :: site') nested]
    cases newMessages s o' (name :: site') nested with
    | error e => rfl
    | ok x => exact finishMessage_order ..
theorem newMessages_order (s : SortSlice) (o o' : Order) (site site' : Site) :
    ∀ ds, newMessages s o site ds = newMessages s o' site' ds
  | [] => rfl
  | d :: ds => by
    rw [newMessages, newMessages, newMessage_order s o o' site site' d,
      newMessages_order s o o' site site' ds]
end

/-- The reflection of one message. -/
def reflectMessage (s : SortSlice) (d : MessageDesc) : Option Message :=
  okOf (newMessage s Order.id [] d)

theorem okOf_some {β : Type} {r : Except Err β} {b : β} : okOf r = some b ↔ r = .ok b := by
  cases r with
  | error e => simp [okOf]
  | ok c => simp [okOf]

theorem newMessages_ok {s : SortSlice} {o : Order} {site : Site} {ds : List MessageDesc} {xs : List Message} :
    newMessages s o site ds = .ok xs ↔ ds.map (reflectMessage s) = xs.map some := by
  induction ds generalizing xs with
  | nil =>
    rw [newMessages]
    constructor
    · intro h; cases h; rfl
    · intro h
      cases xs with
      | nil => rfl
      | cons x xs => cases h
  | cons d ds ih =>
    rw [newMessages, newMessage_order s o Order.id site []]
    constructor
    · intro h
      split at h
      · cases h
      · rename_i x hx
        split at h
        · cases h
        · rename_i ys hys
          cases h
          rw [List.map_cons, List.map_cons, ih.1 hys, reflectMessage, hx]
          rfl
    · intro h
      cases xs with
      | nil => cases h
      | cons x xs =>
        rw [List.map_cons, List.map_cons, List.cons.injEq] at h
        rw [okOf_some.1 h.1]
        dsimp only
        rw [ih.2 h.2]

theorem newMessage_mk {s : SortSlice} {o : Order} {site : Site} {name : Str} {nested : List MessageDesc}
    {enums : List Enum} {fields : List FieldDesc} {oneofs : List Str} {m : Message} :
    newMessage s o site (.mk name nested enums fields oneofs) = .ok m ↔
      (∀ f ∈ fields, FieldQualified oneofs f) ∧ ∃ ns, nested.map (reflectMessage s) = ns.map some ∧
        m = builtMessage s o (name :: site) name (s.run (fun a b => Str.lt a.name b.name) ns)
          (getEnums s enums) fields oneofs := by
  rw [newMessage]
  constructor
  · intro h
    split at h
    · cases h
    · rename_i ns hns
      obtain ⟨h1, h2⟩ := finishMessage_ok.1 h
      exact ⟨h1, ns, newMessages_ok.1 hns, h2⟩
  · rintro ⟨h1, ns, hns, rfl⟩
    rw [newMessages_ok.2 hns]
    exact finishMessage_ok.2 ⟨h1, rfl⟩

theorem reflectMessage_mk {s : SortSlice} {name : Str} {nested : List MessageDesc}
    {enums : List Enum} {fields : List FieldDesc} {oneofs : List Str} {m : Message} :
    reflectMessage s (.mk name nested enums fields oneofs) = some m ↔
      (∀ f ∈ fields, FieldQualified oneofs f) ∧ ∃ ns, nested.map (reflectMessage s) = ns.map some ∧
        m = builtMessage s Order.id [name] name (s.run (fun a b => Str.lt a.name b.name) ns)
          (getEnums s enums) fields oneofs := by
  unfold reflectMessage
  rw [okOf_some, newMessage_mk]
  rfl

theorem reflectMessage_name {s : SortSlice} {d : MessageDesc} {m : Message}
    (h : reflectMessage s d = some m) : m.name = d.name := by
  cases d
  obtain ⟨_, ns, _, rfl⟩ := reflectMessage_mk.1 h
  rfl

theorem matches_of_map {α β : Type} {R : α → β → Prop} {f : α → Option β} {as : List α} {bs : List β}
    (h : as.map f = bs.map some) (hR : ∀ a ∈ as, ∀ b, f a = some b → R a b) : Matches R as bs := by
  induction as generalizing bs with
  | nil =>
    cases bs with
    | nil => exact .nil
    | cons b bs => cases h
  | cons a as ih =>
    cases bs with
    | nil => cases h
    | cons b bs =>
      rw [List.map_cons, List.map_cons, List.cons.injEq] at h
      exact .cons (hR a (by simp) b h.1) (ih h.2 fun x hx => hR x (by simp [hx]))

mutual
/-- What reflection builds is what is declared. -/
theorem reflectMessage_describes (s : SortSlice) :
    ∀ (d : MessageDesc) (m : Message), reflectMessage s d = some m → Describes d m
  | .mk name nested enums fields oneofs, m, h => by
    obtain ⟨_, ns, hns, rfl⟩ := reflectMessage_mk.1 h
    exact .mk
      (.perm (matches_of_map hns (reflectMessages_describe s nested)) (s.perm _ _).symm)
      (byName_run s _ _) (getEnums_matches s enums) (getEnums_sorted s enums) (s.perm _ _)
      (byNumber_run s _ _) (oneofs_describe s _ _ _ _)
theorem reflectMessages_describe (s : SortSlice) :
    ∀ (ds : List MessageDesc), ∀ d ∈ ds, ∀ m, reflectMessage s d = some m → Describes d m
  | [], _, hd, _, _ => by cases hd
  | d :: ds, x, hx, m, h => by
    rcases List.mem_cons.1 hx with hx | hx
    · rw [hx] at h ⊢; exact reflectMessage_describes s d m h
    · exact reflectMessages_describe s ds x hx m h
end

mutual
/-- Reflection succeeds exactly on qualified messages. -/
theorem reflectMessage_isSome (s : SortSlice) :
    ∀ (d : MessageDesc), (∃ m, reflectMessage s d = some m) ↔ MessageQualified d
  | .mk name nested enums fields oneofs => by
    rw [MessageQualified, ← reflectMessages_isSome s nested]
    constructor
    · rintro ⟨m, hm⟩
      obtain ⟨h1, ns, h2, _⟩ := reflectMessage_mk.1 hm
      exact ⟨⟨ns, h2⟩, h1⟩
    · rintro ⟨⟨ns, h2⟩, h1⟩
      exact ⟨_, reflectMessage_mk.2 ⟨h1, ns, h2, rfl⟩⟩
theorem reflectMessages_isSome (s : SortSlice) :
    ∀ (ds : List MessageDesc), (∃ ms : List Message, ds.map (reflectMessage s) = ms.map some) ↔ MessagesQualified ds
  | [] => by
    rw [MessagesQualified]
    exact ⟨fun _ => trivial, fun _ => ⟨[], rfl⟩⟩
  | d :: ds => by
    rw [MessagesQualified, ← reflectMessage_isSome s d, ← reflectMessages_isSome s ds]
    constructor
    · rintro ⟨ms, h⟩
      cases ms with
      | nil => cases h
      | cons m ms =>
        rw [List.map_cons, List.map_cons, List.cons.injEq] at h
        exact ⟨⟨m, h.1⟩, ms, h.2⟩
    · rintro ⟨⟨m, h⟩, ms, hs⟩
      exact ⟨m :: ms, by rw [List.map_cons, List.map_cons, h, hs]⟩
end

/-! ## Services -/

theorem mapErr_ok {α β : Type} {f : α → Except Err β} {l : List α} {ys : List β} :
    mapErr f l = .ok ys ↔ l.map (fun a => okOf (f a)) = ys.map some := by
  induction l generalizing ys with
  | nil =>
    rw [mapErr]
    constructor
    · intro h; cases h; rfl
    · intro h
      cases ys with
      | nil => rfl
      | cons x xs => cases h
  | cons a l ih =>
    rw [mapErr]
    constructor
    · intro h
      split at h
      · cases h
      · rename_i x hx
        split at h
        · cases h
        · rename_i zs hzs
          cases h
          rw [List.map_cons, List.map_cons, ih.1 hzs, hx]
          rfl
    · intro h
      cases ys with
      | nil => cases h
      | cons y ys =>
        rw [List.map_cons, List.map_cons, List.cons.injEq] at h
        rw [okOf_some.1 h.1]
        dsimp only
        rw [ih.2 h.2]

theorem newServiceMethod_ok {m : MethodDesc} {r : Method} :
    newServiceMethod m = .ok r ↔ (Qualified m.inputType ∧ Qualified m.outputType) ∧ r = methodOf m := by
  unfold newServiceMethod
  constructor
  · intro h
    split at h
    · cases h
    · rename_i a ha
      split at h
      · cases h
      · rename_i b hb
        obtain ⟨h1, rfl⟩ := verifyAndStrip_ok.1 ha
        obtain ⟨h2, rfl⟩ := verifyAndStrip_ok.1 hb
        cases h
        exact ⟨⟨h1, h2⟩, rfl⟩
  · rintro ⟨⟨h1, h2⟩, rfl⟩
    rw [verifyAndStrip_ok.2 ⟨h1, rfl⟩]
    dsimp only
    rw [verifyAndStrip_ok.2 ⟨h2, rfl⟩]
    rfl

theorem map_some_of_forall {α β : Type} {f : α → Option β} {g : α → β} {P : α → Prop}
    (h : ∀ a b, f a = some b ↔ P a ∧ b = g a) {l : List α} {ys : List β} :
    l.map f = ys.map some ↔ (∀ a ∈ l, P a) ∧ ys = l.map g := by
  induction l generalizing ys with
  | nil =>
    cases ys <;> simp
  | cons a l ih =>
    cases ys with
    | nil => simp
    | cons y ys =>
      rw [List.map_cons, List.map_cons, List.map_cons, List.cons.injEq, List.cons.injEq, h, ih]
      simp only [List.mem_cons, forall_eq_or_imp]
      constructor
      · rintro ⟨⟨h1, h2⟩, h3, h4⟩
        exact ⟨⟨h1, h3⟩, h2, h4⟩
      · rintro ⟨⟨h1, h3⟩, h2, h4⟩
        exact ⟨⟨h1, h2⟩, h3, h4⟩

/-- All methods have qualified types. -/
def ServiceQualified (d : ServiceDesc) : Prop :=
  ∀ m ∈ d.methods, Qualified m.inputType ∧ Qualified m.outputType

/-- The service built. -/
def builtService (s : SortSlice) (d : ServiceDesc) : Service :=
  ⟨d.name, s.run (fun a b => Str.lt a.name b.name) (d.methods.map methodOf)⟩

theorem newService_ok {s : SortSlice} {d : ServiceDesc} {r : Service} :
    newService s d = .ok r ↔ ServiceQualified d ∧ r = builtService s d := by
  unfold newService
  have hm : ∀ ms, mapErr newServiceMethod d.methods = .ok ms ↔
      ServiceQualified d ∧ ms = d.methods.map methodOf := by
    intro ms
    rw [mapErr_ok]
    exact map_some_of_forall fun a b => okOf_some.trans newServiceMethod_ok
  constructor
  · intro h
    split at h
    · cases h
    · rename_i ms hms
      obtain ⟨h1, rfl⟩ := (hm _).1 hms
      cases h
      exact ⟨h1, rfl⟩
  · rintro ⟨h1, rfl⟩
    rw [(hm _).2 ⟨h1, rfl⟩]
    rfl

theorem builtService_describes (s : SortSlice) (d : ServiceDesc) : DescribesService d (builtService s d) :=
  ⟨rfl, s.perm _ _, byName_run s _ _⟩

end Proof.Reflect

end Verif
