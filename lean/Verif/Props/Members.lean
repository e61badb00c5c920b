import Verif.Props.Removed
import Verif.Spec.Members

/-!
# What is removed from the sources is noticed, at any depth: C125
-/

namespace Verif.Props

open Verif Str Proto Reflect Breaking Descriptor Spec Exec

section

variable (P : Protoc) (names : List (Str × Int))

/-- The fields of the message that the declaration declares. -/
def fieldsFor (scope : List Str) (n : Str) : Element → List FieldDesc
  | .mapField f =>
    [fieldDesc P names scope s%"key" 1 1 f.keyType none, fieldDesc P names scope s%"value" 2 1 f.field.type none]
  | e => fieldDescs P names (scope ++ [n]) 0 (bodyOf e)

/-- The message that the declaration declares. -/
def descFor (scope : List Str) (n : Str) (e : Element) : MessageDesc :=
  .mk n (messagesDescs P names (scope ++ [n]) (bodyOf e)) ((bodyOf e).flatMap enumDescs) (fieldsFor P names scope n e)
    ((bodyOf e).flatMap oneofDescs)

mutual

theorem mem_messageDescs (scope : List Str) (e : Element) (d : MessageDesc) (hd : d ∈ messageDescs P names scope e) :
    ∃ x n, Among [e] x ∧ messageNamed P x = some n ∧ d = descFor P names scope n x := by
  match e with
  | .message m es =>
    rw [messageDescs] at hd
    split at hd
    · cases hd
    · rename_i hx
      exact ⟨_, m.name, .here (.head _), by simp [messageNamed, hx], List.mem_singleton.1 hd⟩
  | .group g es =>
    rw [messageDescs] at hd
    exact ⟨_, g.name, .here (.head _), rfl, List.mem_singleton.1 hd⟩
  | .mapField f =>
    rw [messageDescs] at hd
    refine ⟨_, P.entryName f.field.name, .here (.head _), rfl, ?_⟩
    rw [List.mem_singleton.1 hd]
    simp [entryDesc, descFor, bodyOf, fieldsFor, messagesDescs]
  | .oneof o es =>
    rw [messageDescs] at hd
    obtain ⟨x, n, h1, h2⟩ := mem_messagesDescs scope es d hd
    exact ⟨x, n, .oneof (.head _) h1, h2⟩
  | .comment _ | .syntax _ | .package _ | .option _ | .import _ | .enum _ _ | .enumField _ _ | .service _ _
  | .rpc _ _ | .normalField _ | .oneofField _ | .reserved _ | .extensions _ => unfold messageDescs at hd; cases hd

theorem mem_messagesDescs (scope : List Str) (es : List Element) (d : MessageDesc)
    (hd : d ∈ messagesDescs P names scope es) :
    ∃ x n, Among es x ∧ messageNamed P x = some n ∧ d = descFor P names scope n x := by
  match es with
  | [] => unfold messagesDescs at hd; cases hd
  | e :: es =>
    rw [messagesDescs] at hd
    rcases List.mem_append.1 hd with hd | hd
    · obtain ⟨x, n, h1, h2⟩ := mem_messageDescs scope e d hd
      refine ⟨x, n, ?_, h2⟩
      cases h1 with
      | here h => exact .here (List.mem_singleton.1 h ▸ .head _)
      | oneof h h' => exact .oneof (by rw [List.mem_singleton.1 h]; exact .head _) h'
    · obtain ⟨x, n, h1, h2⟩ := mem_messagesDescs scope es d hd
      refine ⟨x, n, ?_, h2⟩
      cases h1 with
      | here h => exact .here (.tail _ h)
      | oneof h h' => exact .oneof (.tail _ h) h'

end

theorem descFor_mem {scope : List Str} {es : List Element} {x : Element} {n : Str} (h : Among es x)
    (hn : messageNamed P x = some n) : descFor P names scope n x ∈ messagesDescs P names scope es := by
  induction h with
  | @here es e he =>
    rw [messagesDescs_eq]
    refine List.mem_flatMap.2 ⟨e, he, ?_⟩
    cases e with
    | message m sub =>
      cases hx : m.isExtend with
      | true => simp [messageNamed, hx] at hn
      | false =>
        simp only [messageNamed, hx, Bool.false_eq_true, if_false, Option.some.injEq] at hn
        subst hn
        rw [messageDescs, hx]
        exact .head _
    | group g sub =>
      cases hn
      rw [messageDescs]
      exact .head _
    | mapField f =>
      cases hn
      rw [messageDescs]
      refine List.mem_singleton.2 ?_
      simp [entryDesc, descFor, bodyOf, fieldsFor, messagesDescs]
    | _ => cases hn
  | oneof ho _ ih =>
    rw [messagesDescs_eq]
    refine List.mem_flatMap.2 ⟨_, ho, ?_⟩
    rw [messageDescs]
    exact ih hn

/-- The descriptors of messages and the declarations of messages have the same paths. -/
theorem descAt_of_messageIn {es : List Element} {path : List Str} {e : Element} (h : MessageIn P es path e) :
    ∀ scope, ∃ scope' n, DescAt (messagesDescs P names scope es) path (descFor P names scope' n e) := by
  induction h with
  | here ha hn => exact fun scope => ⟨scope, _, .here (d := descFor P names scope _ _) (descFor_mem P names ha hn)⟩
  | inside ha hn _ ih =>
    intro scope
    obtain ⟨scope', n', h⟩ := ih (scope ++ [_])
    exact ⟨scope', n', .inside (d := descFor P names scope _ _) (descFor_mem P names ha hn) h⟩

theorem messageIn_of_descAt {ds : List MessageDesc} {path : List Str} {d : MessageDesc} (h : DescAt ds path d) :
    ∀ scope es, ds = messagesDescs P names scope es → ∃ e scope' n, MessageIn P es path e ∧
      d = descFor P names scope' n e := by
  induction h with
  | here hd =>
    rintro scope es rfl
    obtain ⟨x, n, h1, h2, rfl⟩ := mem_messagesDescs P names scope es _ hd
    exact ⟨x, scope, n, .here h1 h2, rfl⟩
  | inside hd _ ih =>
    rintro scope es rfl
    obtain ⟨x, n, h1, h2, rfl⟩ := mem_messagesDescs P names scope es _ hd
    obtain ⟨e, scope', n', h3, h4⟩ := ih (scope ++ [n]) (bodyOf x) rfl
    exact ⟨e, scope', n', .inside h1 h2 h3, h4⟩

theorem exists_cons {α : Type} {a : α} {l : List α} {p : α → Prop} : (∃ x ∈ a :: l, p x) ↔ p a ∨ ∃ x ∈ l, p x := by
  simp

theorem fieldDescs_iff (scope : List Str) (k : Int) (n : Str) : ∀ (es : List Element) (i : Nat),
    (∃ x ∈ fieldDescs P names scope i es, x.number = k ∧ x.name = n) ↔ ∃ e ∈ es, FieldIs P k n e
  | [], i => by simp [fieldDescs]
  | e :: es, i => by
    have ih := fieldDescs_iff scope k n es
    rw [exists_cons]
    cases e with
    | normalField f =>
      rw [fieldDescs, exists_cons, ih]
      rfl
    | mapField f =>
      rw [fieldDescs, exists_cons, ih]
      rfl
    | group g sub =>
      rw [fieldDescs, exists_cons, ih]
      rfl
    | oneof o os =>
      rw [fieldDescs, ← ih (i + 1)]
      have : (∃ x ∈ os.flatMap (oneofFields P names scope i), x.number = k ∧ x.name = n) ↔ FieldIs P k n (.oneof o os) := by
        constructor
        · rintro ⟨x, hx, h1, h2⟩
          obtain ⟨e, he, hx⟩ := List.mem_flatMap.1 hx
          cases e with
          | oneofField f =>
            obtain rfl := List.mem_singleton.1 hx
            exact .inl ⟨f, he, h1, h2⟩
          | group g sub =>
            obtain rfl := List.mem_singleton.1 hx
            exact .inr ⟨g, sub, he, h1, h2⟩
          | _ => cases hx
        · rintro (⟨f, he, h1, h2⟩ | ⟨g, sub, he, h1, h2⟩)
          · exact ⟨_, List.mem_flatMap.2 ⟨_, he, .head _⟩, h1, h2⟩
          · exact ⟨_, List.mem_flatMap.2 ⟨_, he, .head _⟩, h1, h2⟩
      rw [← this]
      constructor
      · rintro ⟨x, hx, h⟩
        rcases List.mem_append.1 hx with hx | hx
        · exact .inl ⟨x, hx, h⟩
        · exact .inr ⟨x, hx, h⟩
      · rintro (⟨x, hx, h⟩ | ⟨x, hx, h⟩)
        · exact ⟨x, List.mem_append.2 (.inl hx), h⟩
        · exact ⟨x, List.mem_append.2 (.inr hx), h⟩
    | _ =>
      rw [fieldDescs, ih]
      · exact ⟨.inr, fun h => h.resolve_left id⟩
      all_goals (intros; rename_i h; cases h)

theorem fieldsFor_iff (scope : List Str) (m : Str) (e : Element) (k : Int) (n : Str) :
    (∃ x ∈ fieldsFor P names scope m e, x.number = k ∧ x.name = n) ↔ HasField P e k n := by
  unfold HasField
  cases e with
  | mapField f =>
    simp only [fieldsFor, bodyOf, List.mem_cons, List.not_mem_nil, or_false, exists_eq_or_imp, exists_eq_left, fieldDesc,
      false_and, exists_false, false_or]
    constructor
    · rintro (⟨rfl, rfl⟩ | ⟨rfl, rfl⟩)
      · exact ⟨f, rfl, .inl ⟨rfl, rfl⟩⟩
      · exact ⟨f, rfl, .inr ⟨rfl, rfl⟩⟩
    · rintro ⟨_, _, ⟨rfl, rfl⟩ | ⟨rfl, rfl⟩⟩
      · exact .inl ⟨rfl, rfl⟩
      · exact .inr ⟨rfl, rfl⟩
  | _ =>
    rw [fieldsFor, fieldDescs_iff]
    · exact ⟨.inl, fun h => h.resolve_right fun ⟨_, h, _⟩ => by cases h⟩
    all_goals (intro _ h; cases h)

theorem oneofs_iff (es : List Element) (n : Str) : n ∈ es.flatMap oneofDescs ↔ ∃ o os, .oneof o os ∈ es ∧ o.name = n := by
  constructor
  · intro h
    obtain ⟨e, he, h⟩ := List.mem_flatMap.1 h
    cases e with
    | oneof o os => exact ⟨o, os, he, (List.mem_singleton.1 h).symm⟩
    | _ => cases h
  · rintro ⟨o, os, he, rfl⟩
    exact List.mem_flatMap.2 ⟨_, he, .head _⟩

theorem methods_iff (scope : List Str) (es : List Element) (n : Str) :
    (∃ x ∈ es.flatMap (methodDescs P names scope), x.name = n) ↔ ∃ r rs, .rpc r rs ∈ es ∧ r.name = n := by
  constructor
  · rintro ⟨x, hx, rfl⟩
    obtain ⟨e, he, h⟩ := List.mem_flatMap.1 hx
    cases e with
    | rpc r rs =>
      obtain rfl := List.mem_singleton.1 h
      exact ⟨r, rs, he, rfl⟩
    | _ => cases h
  · rintro ⟨r, rs, he, rfl⟩
    exact ⟨_, List.mem_flatMap.2 ⟨_, he, .head _⟩, rfl⟩

end

/-- The file descriptor has such a member. -/
def HasMember (f : FileDesc) (path : List Str) (n : Str) : Member → Prop
  | .message => ∃ d, DescAt f.messages (path ++ [n]) d
  | .field k => ∃ d, DescAt f.messages path d ∧ ∃ x ∈ d.fields, x.number = k ∧ x.name = n
  | .oneof => ∃ d, DescAt f.messages path d ∧ n ∈ d.oneofs
  | .enum => ∃ e, EnumDescAt f path e ∧ e.name = n
  | .method => ∃ s ∈ f.services, path = [s.name] ∧ ∃ x ∈ s.methods, x.name = n

theorem hasMember_describe (P : Protoc) (names : List (Str × Int)) (file : Str) (es : List Element) (path : List Str)
    (n : Str) (member : Member) :
    HasMember (describe P names file es) path n member ↔ DeclaresAt P es path n member := by
  have fwd : ∀ path d, DescAt (describe P names file es).messages path d → ∃ e scope' m, MessageIn P es path e ∧
      d = descFor P names scope' m e := fun path d h =>
    messageIn_of_descAt P names h (topScope es) es rfl
  have bwd : ∀ path e, MessageIn P es path e → ∃ scope' m,
      DescAt (describe P names file es).messages path (descFor P names scope' m e) := fun path e h =>
    descAt_of_messageIn P names h (topScope es)
  cases member with
  | message =>
    constructor
    · rintro ⟨d, h⟩
      obtain ⟨e, _, _, h, _⟩ := fwd _ _ h
      exact ⟨e, h⟩
    · rintro ⟨e, h⟩
      obtain ⟨_, _, h⟩ := bwd _ _ h
      exact ⟨_, h⟩
  | field k =>
    constructor
    · rintro ⟨d, h, hx⟩
      obtain ⟨e, _, _, h', rfl⟩ := fwd _ _ h
      exact ⟨e, h', (fieldsFor_iff P names _ _ e k n).1 hx⟩
    · rintro ⟨e, h, hx⟩
      obtain ⟨s, m, h⟩ := bwd _ _ h
      exact ⟨_, h, (fieldsFor_iff P names s m e k n).2 hx⟩
  | oneof =>
    constructor
    · rintro ⟨d, h, hx⟩
      obtain ⟨e, _, _, h', rfl⟩ := fwd _ _ h
      exact ⟨e, h', (oneofs_iff _ n).1 hx⟩
    · rintro ⟨e, h, hx⟩
      obtain ⟨s, m, h⟩ := bwd _ _ h
      exact ⟨_, h, (oneofs_iff _ n).2 hx⟩
  | enum =>
    constructor
    · rintro ⟨x, h, hn⟩
      cases h with
      | top h => exact .inl ⟨rfl, (enums_top es n).1 ⟨x, h, hn⟩⟩
      | nested h hx =>
        obtain ⟨e, _, _, h', rfl⟩ := fwd _ _ h
        exact .inr ⟨e, h', (enums_top _ n).1 ⟨x, hx, hn⟩⟩
    · rintro (⟨rfl, h⟩ | ⟨e, h, hx⟩)
      · obtain ⟨x, hx, hn⟩ := (enums_top es n).2 h
        exact ⟨x, .top hx, hn⟩
      · obtain ⟨s, m, h⟩ := bwd _ _ h
        obtain ⟨x, hx, hn⟩ := (enums_top _ n).2 hx
        exact ⟨x, .nested h hx, hn⟩
  | method =>
    constructor
    · rintro ⟨s, hs, hp, hx⟩
      obtain ⟨e, he, hs⟩ := List.mem_flatMap.1 hs
      cases e with
      | service s' sub =>
        obtain rfl := List.mem_singleton.1 hs
        exact ⟨s', sub, he, hp, (methods_iff P names _ sub n).1 hx⟩
      | _ => cases hs
    · rintro ⟨s, sub, he, hp, hx⟩
      exact ⟨_, List.mem_flatMap.2 ⟨_, he, .head _⟩, hp, (methods_iff P names _ sub n).2 hx⟩

/-- C125: **the descriptors have a message, field, oneof, enum or method exactly if one of the sources declares it**. -/
theorem C125_declared (P : Protoc) (h : Host) (files : List (Str × Str)) (disk : Disk) (all : List FileDesc)
    (hall : Described P h files disk all) (package : Str) (path : List Str) (n : Str) (member : Member) :
    (∃ f ∈ all, f.package = package ∧ HasMember f path n member) ↔
      ProjectDeclaresAt P h files disk package path n member := by
  obtain ⟨es, h1, h2⟩ := hall
  constructor
  · rintro ⟨f, hf, hfp, hs⟩
    obtain ⟨x, hx, rfl⟩ := (h2 f).1 hf
    obtain ⟨c, hc, hp⟩ := h1 x hx
    exact ⟨x, hx, c, _, hc, hp, hfp, (hasMember_describe P _ _ _ path n member).1 hs⟩
  · rintro ⟨x, hx, c, es', hc, hp, hpk, hd⟩
    obtain ⟨c', hc', hp'⟩ := h1 x hx
    rw [hc] at hc'
    cases hc'
    rw [hp] at hp'
    injection hp' with e
    subst e
    exact ⟨_, (h2 _).2 ⟨x, hx, rfl⟩, hpk, (hasMember_describe P _ _ _ path n member).2 hd⟩

/-- A file with the member says something that only files with the member say. -/
theorem fact_of_hasMember {f : FileDesc} {path : List Str} {n : Str} {member : Member} (h : HasMember f path n member) :
    ∃ fact : Fact, fact.about = f.package ∧ ¬ IsValue fact ∧ fact.saidBy f ∧
      ∀ g, fact.saidBy g → HasMember g path n member := by
  cases member with
  | message => exact ⟨.message f.package (path ++ [n]), rfl, id, h, fun g hg => hg⟩
  | field k =>
    obtain ⟨d, hd, x, hx, h1, h2⟩ := h
    refine ⟨.field f.package path k n x.label x.type (x.typeName.drop 1) (oneofName d.oneofs x), rfl, id,
      ⟨d, hd, x, hx, h1, h2, rfl, rfl, fun _ => rfl, rfl⟩, fun g hg => ?_⟩
    obtain ⟨d, hd, x, hx, h1, h2, _⟩ := hg
    exact ⟨d, hd, x, hx, h1, h2⟩
  | oneof => exact ⟨.oneof f.package path n, rfl, id, h, fun g hg => hg⟩
  | enum => exact ⟨.enum f.package path n, rfl, id, h, fun g hg => hg⟩
  | method =>
    obtain ⟨s, hs, hp, x, hx, hn⟩ := h
    refine ⟨.method f.package s.name ⟨x.name, x.inputType.drop 1, x.outputType.drop 1, x.clientStreaming,
      x.serverStreaming⟩, rfl, id, ⟨s, hs, rfl, x, hx, rfl⟩, fun g hg => ?_⟩
    obtain ⟨s', hs', hn', x', hx', e⟩ := hg
    refine ⟨s', hs', by rw [hp, hn'], x', hx', ?_⟩
    injection e with e
    rw [e, hn]

/-- A clean check keeps the members. -/
theorem kept_members (P : Protoc) (h h' : Host) (s : SortSlice) (o : Order) (marshal : FileDesc → Except Err Str)
    (config : BreakConfig) (frm to : List FileSet) (disk disk' : Disk) (files files' : List (Str × Str))
    (hall : Described P h files disk frm.flatten) (hall' : Described P h' files' disk' to.flatten)
    (hff : FaithfulOn marshal fun f => f ∈ frm.flatten) (hft : FaithfulOn marshal fun f => f ∈ to.flatten)
    (hf : DescriptorsOK frm.flatten) (ht : DescriptorsOK to.flatten)
    (hok : breakCheckSets s o marshal config frm to = .ok []) (package : Str) (path : List Str) (n : Str) (member : Member)
    (hck : Checked config.includeBeta package) (hd : ProjectDeclaresAt P h files disk package path n member) :
    ProjectDeclaresAt P h' files' disk' package path n member := by
  obtain ⟨f, hmem, rfl, hm⟩ := (C125_declared P h files disk _ hall package path n member).2 hd
  obtain ⟨fact, h1, h2, h3, h4⟩ := fact_of_hasMember hm
  obtain ⟨g, hg, hgp, hs⟩ := C123_kept s o marshal config frm to hff hft hf ht hok fact h2 (by rwa [h1]) ⟨f, hmem, h1.symm, h3⟩
  exact (C125_declared P h' files' disk' _ hall' _ path n member).1 ⟨g, hg, hgp.trans h1, h4 g hs⟩

/-- C125: **a check that ends well means that every message, field (number and name), oneof, enum and method that the
sources declared, at any depth in a package that is checked, is still declared there**. Otherwise the check ends with
code 255. -/
theorem C125_removed (P : Protoc) (h h' : Host) (hp : Prints h') (hj : h'.json = true → ∀ f, ∃ t, h'.toJSON f = .ok t)
    (t : Tools) (args : List Str) (path : Str) (hpath : path ≠ []) (m : Meta) (sets : List FileSet)
    (disk : Disk) (w : World) (hc : CompilesTo h' args { doFileDescriptorSet := true } w.disk m sets)
    (data : Str) (hd : w.disk path = some data) (set : FileSet) (hdec : t.decode data = .ok set)
    (files files' : List (Str × Str)) (hall : Described P h files disk set)
    (hall' : Described P h' files' w.disk sets.flatten)
    (hff : FaithfulOn t.marshal fun f => f ∈ set) (hft : FaithfulOn t.marshal fun f => f ∈ sets.flatten)
    (hf : DescriptorsOK set) (hto : DescriptorsOK sets.flatten) :
    ((breakCheckCmd h' t args [] path w).2 = .ok () → ∀ package scope n member,
      Checked m.protoSet.config.break_.includeBeta package →
      ProjectDeclaresAt P h files disk package scope n member →
      ProjectDeclaresAt P h' files' w.disk package scope n member) ∧
    ((breakCheckCmd h' t args [] path w).2 ≠ .ok () →
      (breakCheckCmd h' t args [] path w).2 = .error (.exit 255 [])) := by
  have he : [set].flatten = set := by simp
  obtain ⟨old, ho, hos⟩ := C12_schemaOK t.srt (t.order.sub (s%"from")) t.marshal [set] (by rwa [he]) (by rwa [he])
  obtain ⟨new, hn, hns⟩ := C12_schemaOK t.srt (t.order.sub (s%"to")) t.marshal sets hft hto
  have heq := breakCheckSets_eq t.srt t.order t.marshal m.protoSet.config.break_ [set] sets old new ho hn
  obtain ⟨fs, hfs, _⟩ := C06_reports t.order m.protoSet.config.break_ old new hos hns
  have hrun := C66_descriptor_set h' hp hj t args path hpath m sets w hc data hd set hdec fs (heq.trans hfs)
  rw [hrun]
  refine ⟨fun hok package scope n member hck hdecl => ?_, ?_⟩
  · have hnil : fs = [] := (C66_exit fs).1.1 hok
    exact kept_members P h h' t.srt t.order t.marshal m.protoSet.config.break_ [set] sets disk w.disk files files'
      (by rwa [he]) hall' (by rwa [he]) hft (by rwa [he]) hto (by rw [heq, hfs, hnil]) package scope n member hck hdecl
  · show breakOutcome fs ≠ .ok () → breakOutcome fs = _
    rw [Ne, (C66_exit fs).1, (C66_exit fs).2]
    exact id

/-- C125 against a branch of the repository that holds the sources from before. -/
theorem C125_git (P : Protoc) (h h' : Host) (hp : Prints h') (hj : h'.json = true → ∀ f, ∃ t, h'.toJSON f = .ok t)
    (t : Tools) (args : List Str) (branch : Str) (m m' : Meta) (sets sets' : List FileSet)
    (disk : Disk) (w : World) (ht : TempDirsOK t w.disk)
    (hc : CompilesTo h' args { doFileDescriptorSet := true } w.disk m sets)
    (hrel : Path.isAbs (fileOrDir args) = false)
    (hin : File.absClean h'.wd h'.workDirPath <+: File.absClean h'.wd (fileOrDir args))
    (dir : Str) (disk' : Disk) (hclone : Clones h' t branch w.disk dir disk')
    (hc' : CompilesTo { h' with workDirPath := dir, stat := t.treeStat, getForDir := t.treeForDir }
      [cloneDirFor dir (fileOrDir args)] { doFileDescriptorSet := true } disk' m' sets')
    (files files' : List (Str × Str)) (hall : Described P h files disk sets'.flatten)
    (hall' : Described P h' files' w.disk sets.flatten)
    (hff : FaithfulOn t.marshal fun f => f ∈ sets'.flatten) (hft : FaithfulOn t.marshal fun f => f ∈ sets.flatten)
    (hf : DescriptorsOK sets'.flatten) (hto : DescriptorsOK sets.flatten) :
    ((breakCheckCmd h' t args branch [] w).2 = .ok () → ∀ package scope n member,
      Checked m.protoSet.config.break_.includeBeta package →
      ProjectDeclaresAt P h files disk package scope n member →
      ProjectDeclaresAt P h' files' w.disk package scope n member) ∧
    ((breakCheckCmd h' t args branch [] w).2 ≠ .ok () →
      (breakCheckCmd h' t args branch [] w).2 = .error (.exit 255 [])) := by
  obtain ⟨old, ho, hos⟩ := C12_schemaOK t.srt (t.order.sub (s%"from")) t.marshal sets' hff hf
  obtain ⟨new, hn, hns⟩ := C12_schemaOK t.srt (t.order.sub (s%"to")) t.marshal sets hft hto
  have heq := breakCheckSets_eq t.srt t.order t.marshal m.protoSet.config.break_ sets' sets old new ho hn
  obtain ⟨fs, hfs, _⟩ := C06_reports t.order m.protoSet.config.break_ old new hos hns
  have hrun := C66_git h' hp hj t args branch m m' sets sets' w ht hc hrel hin dir disk' hclone hc' fs (heq.trans hfs)
  rw [hrun]
  refine ⟨fun hok package scope n member hck hdecl => ?_, ?_⟩
  · have hnil : fs = [] := (C66_exit fs).1.1 hok
    exact kept_members P h h' t.srt t.order t.marshal m.protoSet.config.break_ sets' sets disk w.disk files files'
      hall hall' hff hft hf hto (by rw [heq, hfs, hnil]) package scope n member hck hdecl
  · show breakOutcome fs ≠ .ok () → breakOutcome fs = _
    rw [Ne, (C66_exit fs).1, (C66_exit fs).2]
    exact id

theorem values_iff (es : List Element) (inEnum : Str) (k : Int) (n : Str) :
    (∃ e ∈ es.flatMap enumDescs, e.name = inEnum ∧ ∃ v ∈ e.values, v.number = k ∧ v.name = n) ↔ HasValue es inEnum k n := by
  constructor
  · rintro ⟨e, he, h1, v, hv, h2, h3⟩
    obtain ⟨x, hx, he⟩ := List.mem_flatMap.1 he
    cases x with
    | enum x vs =>
      obtain rfl := List.mem_singleton.1 he
      obtain ⟨y, hy, hv⟩ := List.mem_flatMap.1 hv
      cases y with
      | enumField f sub =>
        obtain rfl := List.mem_singleton.1 hv
        exact ⟨x, vs, hx, h1, f, sub, hy, h2, h3⟩
      | _ => cases hv
    | _ => cases he
  · rintro ⟨x, vs, hx, h1, f, sub, hf, h2, h3⟩
    exact ⟨_, List.mem_flatMap.2 ⟨_, hx, .head _⟩, h1, _, List.mem_flatMap.2 ⟨_, hf, .head _⟩, h2, h3⟩

/-- C125: **the descriptors have an enum value exactly if one of the sources declares it**. -/
theorem C125_declared_value (P : Protoc) (h : Host) (files : List (Str × Str)) (disk : Disk) (all : List FileDesc)
    (hall : Described P h files disk all) (package : Str) (path : List Str) (inEnum : Str) (k : Int) (n : Str) :
    FilesSay all (.value package path inEnum k n) ↔ ProjectDeclaresValue P h files disk package path inEnum k n := by
  obtain ⟨es, h1, h2⟩ := hall
  have key : ∀ names file es, (Fact.value package path inEnum k n).saidBy (describe P names file es) ↔
      ((path = [] ∧ HasValue es inEnum k n) ∨ ∃ e, MessageIn P es path e ∧ HasValue (bodyOf e) inEnum k n) := by
    intro names file es
    constructor
    · rintro ⟨e, he, h1, hv⟩
      cases he with
      | top he => exact .inl ⟨rfl, (values_iff es inEnum k n).1 ⟨e, he, h1, hv⟩⟩
      | nested hd he =>
        obtain ⟨x, _, _, hx, rfl⟩ := messageIn_of_descAt P names hd (topScope es) es rfl
        exact .inr ⟨x, hx, (values_iff _ inEnum k n).1 ⟨e, he, h1, hv⟩⟩
    · rintro (⟨rfl, hv⟩ | ⟨x, hx, hv⟩)
      · obtain ⟨e, he, h⟩ := (values_iff es inEnum k n).2 hv
        exact ⟨e, .top he, h⟩
      · obtain ⟨_, _, hd⟩ := descAt_of_messageIn P names hx (topScope es)
        obtain ⟨e, he, h⟩ := (values_iff _ inEnum k n).2 hv
        exact ⟨e, .nested hd he, h⟩
  constructor
  · rintro ⟨f, hf, hfp, hs⟩
    obtain ⟨x, hx, rfl⟩ := (h2 f).1 hf
    obtain ⟨c, hc, hp⟩ := h1 x hx
    exact ⟨x, hx, c, _, hc, hp, hfp, (key _ _ _).1 hs⟩
  · rintro ⟨x, hx, c, es', hc, hp, hpk, hd⟩
    obtain ⟨c', hc', hp'⟩ := h1 x hx
    rw [hc] at hc'
    cases hc'
    rw [hp] at hp'
    injection hp' with e
    subst e
    exact ⟨_, (h2 _).2 ⟨x, hx, rfl⟩, hpk, (key _ _ _).2 hd⟩

/-- C125 for enum values: without aliases, **a value that is gone, renamed or renumbered is noticed**. -/
theorem C125_values (P : Protoc) (h h' : Host) (hp : Prints h') (hj : h'.json = true → ∀ f, ∃ t, h'.toJSON f = .ok t)
    (t : Tools) (args : List Str) (path : Str) (hpath : path ≠ []) (m : Meta) (sets : List FileSet)
    (disk : Disk) (w : World) (hc : CompilesTo h' args { doFileDescriptorSet := true } w.disk m sets)
    (data : Str) (hd : w.disk path = some data) (set : FileSet) (hdec : t.decode data = .ok set)
    (files files' : List (Str × Str)) (hall : Described P h files disk set)
    (hall' : Described P h' files' w.disk sets.flatten)
    (hff : FaithfulOn t.marshal fun f => f ∈ set) (hft : FaithfulOn t.marshal fun f => f ∈ sets.flatten)
    (hf : DescriptorsOK set) (hto : DescriptorsOK sets.flatten) (ha : NoAliasesIn set) (ha' : NoAliasesIn sets.flatten)
    (hok : (breakCheckCmd h' t args [] path w).2 = .ok ()) (package : Str) (scope : List Str) (inEnum : Str) (k : Int)
    (n : Str) (hck : Checked m.protoSet.config.break_.includeBeta package)
    (hv : ProjectDeclaresValue P h files disk package scope inEnum k n) :
    ProjectDeclaresValue P h' files' w.disk package scope inEnum k n := by
  have key := ((C123_descriptor_set h' hp hj t args path hpath m sets w hc data hd set hdec hff hft hf hto ha ha').1.1 hok).1
  exact (C125_declared_value P h' files' w.disk _ hall' package scope inEnum k n).1
    (key _ hck ((C125_declared_value P h files disk _ hall package scope inEnum k n).2 hv))

/-- C125 for enum values against a branch. -/
theorem C125_values_git (P : Protoc) (h h' : Host) (hp : Prints h')
    (hj : h'.json = true → ∀ f, ∃ t, h'.toJSON f = .ok t)
    (t : Tools) (args : List Str) (branch : Str) (m m' : Meta) (sets sets' : List FileSet)
    (disk : Disk) (w : World) (ht : TempDirsOK t w.disk)
    (hc : CompilesTo h' args { doFileDescriptorSet := true } w.disk m sets)
    (hrel : Path.isAbs (fileOrDir args) = false)
    (hin : File.absClean h'.wd h'.workDirPath <+: File.absClean h'.wd (fileOrDir args))
    (dir : Str) (disk' : Disk) (hclone : Clones h' t branch w.disk dir disk')
    (hc' : CompilesTo { h' with workDirPath := dir, stat := t.treeStat, getForDir := t.treeForDir }
      [cloneDirFor dir (fileOrDir args)] { doFileDescriptorSet := true } disk' m' sets')
    (files files' : List (Str × Str)) (hall : Described P h files disk sets'.flatten)
    (hall' : Described P h' files' w.disk sets.flatten)
    (hff : FaithfulOn t.marshal fun f => f ∈ sets'.flatten) (hft : FaithfulOn t.marshal fun f => f ∈ sets.flatten)
    (hf : DescriptorsOK sets'.flatten) (hto : DescriptorsOK sets.flatten) (ha : NoAliasesIn sets'.flatten)
    (ha' : NoAliasesIn sets.flatten)
    (hok : (breakCheckCmd h' t args branch [] w).2 = .ok ()) (package : Str) (scope : List Str) (inEnum : Str) (k : Int)
    (n : Str) (hck : Checked m.protoSet.config.break_.includeBeta package)
    (hv : ProjectDeclaresValue P h files disk package scope inEnum k n) :
    ProjectDeclaresValue P h' files' w.disk package scope inEnum k n := by
  have key := ((C123_git h' hp hj t args branch m m' sets sets' w ht hc hrel hin dir disk' hclone hc' hff hft hf hto ha
    ha').1.1 hok).1
  exact (C125_declared_value P h' files' w.disk _ hall' package scope inEnum k n).1
    (key _ hck ((C125_declared_value P h files disk _ hall package scope inEnum k n).2 hv))

/-! ## The hypotheses can be met -/

namespace MembersExample

open DescribedExample (P elements desc desc_valid)
open RemovedExample (after files tools before_described parse_before)

/-- The file of `DescribedExample` with another name for the field in the oneof. -/
def renamed : List Element :=
  [.syntax { value := s%"proto3" }, .package { name := s%"b.v1" },
   .option { name := s%"go_package", constant := .str s%"b" },
   .message { name := s%"User" }
     [.normalField { repeated := true, field := { name := s%"friends", type := s%"User", sequence := 2 } },
      .oneof { name := s%"x" } [.oneofField { name := s%"key", type := s%"string", sequence := 1 }]],
   .enum { name := s%"Kind" } [.enumField { name := s%"KIND_INVALID", integer := 0 } []]]

/-- Its descriptor. -/
def descRenamed : FileDesc :=
  { desc s%"rest....." with
    messages := [.mk s%"User" [] []
      [⟨s%"friends", 2, 3, 11, s%".b.v1.User", none⟩, ⟨s%"key", 1, 1, 9, [], some 0⟩] [s%"x"]] }

/-- The branch of the repository, and any descriptor set, hold the file from before. -/
def repo : Exec.Host :=
  { Exec.Sample.repoHost with
    parse := fun _ c => if c = s%"U" then .ok elements else .ok renamed
    compile := fun _ _ ps =>
      .ok ([], if ps.workDirPath = s%"/tmp/clone" then [[desc s%"rest....."]] else [[descRenamed]]) }

theorem parse_after (p : Str) : repo.parse p s%"V" = .ok renamed := rfl

theorem renamed_described : describe P (namesAll (topScope renamed) renamed) s%"b/user.proto" renamed = descRenamed := by
  rfl

theorem after_described : Described P repo files after.disk [descRenamed] := by
  refine ⟨fun _ => renamed, fun x hx => ?_, fun f => ?_⟩
  · obtain rfl := List.mem_singleton.1 hx
    exact ⟨s%"V", rfl, parse_after _⟩
  · simp only [files, List.mem_singleton, exists_eq_left, ← renamed_described, List.flatMap_cons,
      List.flatMap_nil, List.append_nil]

theorem after_valid : DescriptorsOK [descRenamed] := by
  have one : ∀ f ∈ [descRenamed], f = descRenamed := fun f hf => List.mem_singleton.1 hf
  refine ⟨⟨?_, ?_, ?_, ?_, ?_⟩, ⟨?_, ?_, ?_, ?_, ?_, ?_⟩, ?_, ?_⟩
  · intro f hf; rw [one f hf]; exact ⟨by simp [descRenamed, desc], by simp [descRenamed, desc, Qualified]⟩
  · intro f hf g hg _; rw [one f hf, one g hg]
  · intro f hf d hd; rw [one f hf] at hd; cases hd
  · intro f hf; rw [one f hf]; simp [descRenamed, desc, MessagesQualified, MessageQualified, FieldQualified, Qualified]
  · intro f hf s hs; rw [one f hf] at hs; cases hs
  · intro f hf; rw [one f hf]; simp [descRenamed, desc]
  · intro f hf; rw [one f hf]; simp [descRenamed, desc]
  · intro f hf; rw [one f hf]; simp [descRenamed, desc]
  · intro f hf g hg _ _ _ _ _ _; rw [one f hf, one g hg]
  · intro f hf g hg _ _ _ _ _ _; rw [one f hf, one g hg]
  · intro f hf g hg _ _ _ _ _ _; rw [one f hf, one g hg]
  · intro f hf; rw [one f hf]; simp [descRenamed, desc, MessagesValid, MessageValid, NamesType]
  · intro f hf s hs; rw [one f hf] at hs; cases hs

theorem declared : ProjectDeclaresAt P RemovedExample.host files RemovedExample.before s%"b.v1" [s%"User"] s%"id" (.field 1) :=
  ⟨_, .head _, s%"U", elements, rfl, parse_before _, rfl, _,
    .here (.here (.tail _ (.tail _ (.tail _ (.head _))))) rfl,
    .inl ⟨_, .tail _ (.head _), .inl ⟨_, .head _, rfl, rfl⟩⟩⟩

theorem not_declared : ¬ ProjectDeclaresAt P repo files after.disk s%"b.v1" [s%"User"] s%"id" (.field 1) := by
  intro h
  obtain ⟨f, hf, _, d, hd, x, hx, _, hn⟩ := (C125_declared P repo files after.disk _ after_described _ _ _ _).2 h
  obtain rfl := List.mem_singleton.1 hf
  generalize hp : [s%"User"] = path at hd
  cases hd with
  | here hd =>
    obtain rfl := List.mem_singleton.1 hd
    rcases List.mem_cons.1 hx with rfl | hx
    · revert hn; decide
    · obtain rfl := List.mem_singleton.1 hx
      revert hn; decide
  | inside _ hd =>
    injection hp with _ hp
    subst hp
    cases hd

/-- The field `id` of the oneof was renamed, so the check against the descriptor set from before ends with code 255. -/
example : (breakCheckCmd repo tools [s%"a"] [] s%"/set" after).2 = .error (.exit 255 []) := by
  obtain ⟨h1, h2⟩ := C125_removed P RemovedExample.host repo (fun _ _ => rfl) (by intro _ f; exact ⟨_, rfl⟩) tools [s%"a"]
    s%"/set" (by decide) Exec.Sample.dir [[descRenamed]] RemovedExample.before after
    ⟨⟨s%"a", .inl rfl, .inl ⟨rfl, rfl, rfl⟩⟩, ⟨_, rfl⟩, by rfl⟩
    s%"S" rfl [desc s%"rest....."] rfl files files before_described after_described
    (DescribedExample.desc_faithful _) (DescribedExample.desc_faithful _) (desc_valid _) after_valid
  refine h2 fun hok => not_declared (h1 hok s%"b.v1" _ _ _ (.inr fun hb => ?_) declared)
  exact absurd (Proof.Extract.ignorePackage_true.2 hb) (by decide)

open Exec.Sample in
/-- And so does the check against the branch. -/
example : (breakCheckCmd repo Exec.Sample.tools [s%"a"] [] [] after).2 = .error (.exit 255 []) := by
  obtain ⟨h1, h2⟩ := C125_git P RemovedExample.host repo (fun _ _ => rfl) (by intro _ f; exact ⟨_, rfl⟩) Exec.Sample.tools
    [s%"a"] [] Exec.Sample.dir { protoSet := cloneSet } [[descRenamed]] [[desc s%"rest....."]] RemovedExample.before after
    RemovedExample.repo_temp ⟨⟨s%"a", .inl rfl, .inl ⟨rfl, rfl, rfl⟩⟩, ⟨_, rfl⟩, by rfl⟩ rfl (by decide) s%"/tmp/clone" _
    ⟨by rfl, rfl, by rfl⟩ ⟨⟨_, .inl rfl, .inl ⟨by rfl, by rfl, rfl⟩⟩, ⟨_, rfl⟩, by rfl⟩ files files before_described
    after_described (DescribedExample.desc_faithful _) (DescribedExample.desc_faithful _) (desc_valid _) after_valid
  refine h2 fun hok => not_declared (h1 hok s%"b.v1" _ _ _ (.inr fun hb => ?_) declared)
  exact absurd (Proof.Extract.ignorePackage_true.2 hb) (by decide)

theorem value_declared :
    ProjectDeclaresValue P RemovedExample.host files RemovedExample.before s%"b.v1" [] s%"Kind" 0 s%"KIND_INVALID" :=
  ⟨_, .head _, s%"U", elements, rfl, parse_before _, rfl,
    .inl ⟨rfl, _, _, .tail _ (.tail _ (.tail _ (.tail _ (.head _)))), rfl, _, _, .head _, rfl, rfl⟩⟩

theorem value_gone (h : Exec.Host) (hd : Described P h files after.disk [RemovedExample.descFewer]) :
    ¬ ProjectDeclaresValue P h files after.disk s%"b.v1" [] s%"Kind" 0 s%"KIND_INVALID" := by
  intro hv
  obtain ⟨f, hf, _, e, he, _⟩ := (C125_declared_value P h files after.disk _ hd _ _ _ _ _).2 hv
  obtain rfl := List.mem_singleton.1 hf
  cases he with
  | top he => cases he
  | nested he => cases he

theorem before_noAliases : NoAliasesIn [desc s%"rest....."] := by
  refine SaysExample.noAliases_of (fun f hf => ?_) fun f hf => ?_
  · obtain rfl := List.mem_singleton.1 hf; decide
  · obtain rfl := List.mem_singleton.1 hf; simp [desc, MessageDesc.nested, MessageDesc.enums]

theorem fewer_noAliases : NoAliasesIn [RemovedExample.descFewer] := by
  refine SaysExample.noAliases_of (fun f hf => ?_) fun f hf => ?_
  · obtain rfl := List.mem_singleton.1 hf; decide
  · obtain rfl := List.mem_singleton.1 hf; simp [RemovedExample.descFewer, desc, MessageDesc.nested, MessageDesc.enums]

/-- In `RemovedExample` the value `KIND_INVALID` is gone. -/
example : (breakCheckCmd RemovedExample.host tools [s%"a"] [] s%"/set" after).2 ≠ .ok () := fun hok =>
  value_gone _ RemovedExample.after_described (C125_values P RemovedExample.host RemovedExample.host (fun _ _ => rfl)
    (by intro _ f; exact ⟨_, rfl⟩) tools [s%"a"] s%"/set" (by decide) Exec.Sample.dir [[RemovedExample.descFewer]]
    RemovedExample.before after ⟨⟨s%"a", .inl rfl, .inl ⟨rfl, rfl, rfl⟩⟩, ⟨_, rfl⟩, rfl⟩ s%"S" rfl [desc s%"rest....."] rfl
    files files before_described RemovedExample.after_described (DescribedExample.desc_faithful _)
    (DescribedExample.desc_faithful _) (desc_valid _) RemovedExample.after_valid before_noAliases fewer_noAliases hok _ _ _ _
    _ (.inr fun hb => absurd (Proof.Extract.ignorePackage_true.2 hb) (by decide)) value_declared)

open Exec.Sample in
example : (breakCheckCmd RemovedExample.repo Exec.Sample.tools [s%"a"] [] [] after).2 ≠ .ok () := fun hok =>
  value_gone _ RemovedExample.repo_described (C125_values_git P RemovedExample.host RemovedExample.repo (fun _ _ => rfl)
    (by intro _ f; exact ⟨_, rfl⟩) Exec.Sample.tools [s%"a"] [] Exec.Sample.dir { protoSet := cloneSet }
    [[RemovedExample.descFewer]] [[desc s%"rest....."]] RemovedExample.before after RemovedExample.repo_temp
    ⟨⟨s%"a", .inl rfl, .inl ⟨rfl, rfl, rfl⟩⟩, ⟨_, rfl⟩, by rfl⟩ rfl (by decide) s%"/tmp/clone" _
    ⟨by rfl, rfl, by rfl⟩ ⟨⟨_, .inl rfl, .inl ⟨by rfl, by rfl, rfl⟩⟩, ⟨_, rfl⟩, by rfl⟩ files files before_described
    RemovedExample.repo_described (DescribedExample.desc_faithful _) (DescribedExample.desc_faithful _) (desc_valid _)
    RemovedExample.after_valid before_noAliases fewer_noAliases hok _ _ _ _ _
    (.inr fun hb => absurd (Proof.Extract.ignorePackage_true.2 hb) (by decide)) value_declared)

end MembersExample

end Verif.Props
