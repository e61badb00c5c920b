import Verif.Proof.Reformat
import Verif.Proof.AttachedFile

/-!
# Proof: what is read with comments, and lint
-/

namespace Verif.Reform

open Verif Str Proto Spec Format Lint

theorem unplaced_plain (c : Option Comment) : unplaced (plainComment c) = plainComment c := by
  cases c with
  | none => rfl
  | some c => unfold plainComment; dsimp only; split <;> rfl

theorem unplaced_unplaced (c : Option Comment) : unplaced (unplaced c) = unplaced c := by
  cases c <;> rfl

theorem bareRanges_twice (rs : List Range) : (rs.map bareRange).map bareRange = rs.map bareRange := by
  rw [List.map_map]
  refine List.map_congr_left fun r _ => ?_
  unfold bareRange
  simp only [Function.comp]
  cases h : r.max <;> simp [h]

theorem keptOption_twice {old new : Option Comment → Option Comment} (h : ∀ c, new (old c) = old c) (o : Opt) :
    keptOption new (keptOption old o) = keptOption old o := by
  unfold keptOption
  simp only [h, bareValue_bareValue]

theorem keptField_twice {old new : Option Comment → Option Comment} (h : ∀ c, new (old c) = old c) (f : Field) :
    keptField new (keptField old f) = keptField old f := by
  unfold keptField
  simp only [h, List.map_map]
  congr 1
  exact List.map_congr_left fun o _ => keptOption_twice h o

mutual

theorem kept_shown : ∀ e : Element, notComment e = true → Spec.kept unplaced (shown e) = Spec.kept plainComment e
  | .comment _, h => by cases h
  | .syntax x, _ => by
    unfold shown Spec.kept
    simp only [unplaced_plain, keptOption_twice unplaced_plain, keptField_twice unplaced_plain, bareRanges_twice]
  | .package x, _ => by
    unfold shown Spec.kept
    simp only [unplaced_plain, keptOption_twice unplaced_plain, keptField_twice unplaced_plain, bareRanges_twice]
  | .option x, _ => by
    unfold shown Spec.kept
    simp only [unplaced_plain, keptOption_twice unplaced_plain, keptField_twice unplaced_plain, bareRanges_twice]
  | .import x, _ => by
    unfold shown Spec.kept
    simp only [unplaced_plain, keptOption_twice unplaced_plain, keptField_twice unplaced_plain, bareRanges_twice]
  | .message x es, _ => by
    unfold shown Spec.kept
    simp only [unplaced_plain, keptAll_shown es]
  | .enum x es, _ => by
    unfold shown Spec.kept
    simp only [unplaced_plain, keptAll_shown es]
  | .enumField x es, _ => by
    unfold shown Spec.kept
    simp only [unplaced_plain, keptAll_shown es]
  | .service x es, _ => by
    unfold shown Spec.kept
    simp only [unplaced_plain, keptAll_shown es]
  | .rpc x es, _ => by
    unfold shown Spec.kept
    simp only [unplaced_plain, keptAll_shown es]
  | .normalField x, _ => by
    unfold shown Spec.kept
    simp only [unplaced_plain, keptOption_twice unplaced_plain, keptField_twice unplaced_plain, bareRanges_twice]
  | .mapField x, _ => by
    unfold shown Spec.kept
    simp only [unplaced_plain, keptOption_twice unplaced_plain, keptField_twice unplaced_plain, bareRanges_twice]
  | .oneof x es, _ => by
    unfold shown Spec.kept
    simp only [unplaced_plain, keptAll_shown es]
  | .oneofField x, _ => by
    unfold shown Spec.kept
    simp only [unplaced_plain, keptOption_twice unplaced_plain, keptField_twice unplaced_plain, bareRanges_twice]
  | .reserved x, _ => by
    unfold shown Spec.kept
    simp only [unplaced_plain, keptOption_twice unplaced_plain, keptField_twice unplaced_plain, bareRanges_twice]
  | .extensions x, _ => by
    unfold shown Spec.kept
    simp only [unplaced_plain, keptOption_twice unplaced_plain, keptField_twice unplaced_plain, bareRanges_twice]
  | .group x es, _ => by
    unfold shown Spec.kept
    simp only [unplaced_plain, keptAll_shown es]

theorem keptAll_shown : ∀ es : List Element, keptAll unplaced (shownAll es) = keptAll plainComment es
  | [] => by unfold shownAll keptAll; rfl
  | e :: es => by
    have h2 := keptAll_shown es
    cases hc : notComment e with
    | true =>
      have h1 := kept_shown e hc
      rw [keptAll_eq, keptAll_eq] at h2 ⊢
      have hs : shownAll.silent e = false := by cases e <;> first | rfl | cases hc
      have hn : notComment (shown e) = true := by cases e <;> first | (unfold shown; rfl) | cases hc
      unfold shownAll
      rw [hs, if_neg (by simp), List.filter_append, List.map_append, h2, List.filter_cons_of_pos hn,
        List.filter_cons_of_pos hc, List.map_cons, h1]
      rfl
    | false =>
      rw [keptAll_eq, keptAll_eq] at h2 ⊢
      have hn : notComment (shown e) = false := by cases e <;> first | (unfold shown; rfl) | cases hc
      unfold shownAll
      rw [List.filter_append, List.map_append, h2, List.filter_cons_of_neg (by simp [hc])]
      split
      · rfl
      · rw [List.filter_cons_of_neg (by simp [hn])]; rfl

end

mutual

theorem kept_placeless : ∀ e : Element, notComment e = true → Spec.kept unplaced (placeless e) = Spec.kept unplaced e
  | .comment _, h => by cases h
  | .syntax x, _ => by
    unfold placeless Spec.kept
    simp only [unplaced_unplaced, keptOption_twice unplaced_unplaced, keptField_twice unplaced_unplaced, bareRanges_twice]
  | .package x, _ => by
    unfold placeless Spec.kept
    simp only [unplaced_unplaced, keptOption_twice unplaced_unplaced, keptField_twice unplaced_unplaced, bareRanges_twice]
  | .option x, _ => by
    unfold placeless Spec.kept
    simp only [unplaced_unplaced, keptOption_twice unplaced_unplaced, keptField_twice unplaced_unplaced, bareRanges_twice]
  | .import x, _ => by
    unfold placeless Spec.kept
    simp only [unplaced_unplaced, keptOption_twice unplaced_unplaced, keptField_twice unplaced_unplaced, bareRanges_twice]
  | .message x es, _ => by
    unfold placeless Spec.kept
    simp only [unplaced_unplaced, keptAll_placeless es]
  | .enum x es, _ => by
    unfold placeless Spec.kept
    simp only [unplaced_unplaced, keptAll_placeless es]
  | .enumField x es, _ => by
    unfold placeless Spec.kept
    simp only [unplaced_unplaced, keptAll_placeless es]
  | .service x es, _ => by
    unfold placeless Spec.kept
    simp only [unplaced_unplaced, keptAll_placeless es]
  | .rpc x es, _ => by
    unfold placeless Spec.kept
    simp only [unplaced_unplaced, keptAll_placeless es]
  | .normalField x, _ => by
    unfold placeless Spec.kept
    simp only [unplaced_unplaced, keptOption_twice unplaced_unplaced, keptField_twice unplaced_unplaced, bareRanges_twice]
  | .mapField x, _ => by
    unfold placeless Spec.kept
    simp only [unplaced_unplaced, keptOption_twice unplaced_unplaced, keptField_twice unplaced_unplaced, bareRanges_twice]
  | .oneof x es, _ => by
    unfold placeless Spec.kept
    simp only [unplaced_unplaced, keptAll_placeless es]
  | .oneofField x, _ => by
    unfold placeless Spec.kept
    simp only [unplaced_unplaced, keptOption_twice unplaced_unplaced, keptField_twice unplaced_unplaced, bareRanges_twice]
  | .reserved x, _ => by
    unfold placeless Spec.kept
    simp only [unplaced_unplaced, keptOption_twice unplaced_unplaced, keptField_twice unplaced_unplaced, bareRanges_twice]
  | .extensions x, _ => by
    unfold placeless Spec.kept
    simp only [unplaced_unplaced, keptOption_twice unplaced_unplaced, keptField_twice unplaced_unplaced, bareRanges_twice]
  | .group x es, _ => by
    unfold placeless Spec.kept
    simp only [unplaced_unplaced, keptAll_placeless es]

theorem keptAll_placeless : ∀ es : List Element, keptAll unplaced (placelessAll es) = keptAll unplaced es
  | [] => by unfold placelessAll keptAll; rfl
  | e :: es => by
    have h2 := keptAll_placeless es
    rw [keptAll_eq, keptAll_eq] at h2 ⊢
    cases hc : notComment e with
    | true =>
      have h1 := kept_placeless e hc
      have hn : notComment (placeless e) = true := by cases e <;> first | (unfold placeless; rfl) | cases hc
      unfold placelessAll
      rw [List.filter_cons_of_pos hn, List.filter_cons_of_pos hc, List.map_cons, List.map_cons, h1, h2]
    | false =>
      have hn : notComment (placeless e) = false := by cases e <;> first | (unfold placeless; rfl) | cases hc
      unfold placelessAll
      rw [List.filter_cons_of_neg (by simp [hn]), List.filter_cons_of_neg (by simp [hc]), h2]

end

theorem keptAll_setOff {keep : Option Comment → Option Comment} (es : List Element) :
    keptAll keep (setOff es) = keptAll keep es := by
  rw [keptAll_eq, keptAll_eq]
  induction es with
  | nil => rfl
  | cons e es ih =>
    cases e with
    | «syntax» s =>
      unfold setOff
      rw [List.filter_append, List.map_append, List.filter_cons_of_pos rfl, List.filter_cons_of_pos rfl,
        List.map_cons, List.map_cons, ih]
      have : (s.comment.toList.map Element.comment).filter notComment = [] := by
        cases s.comment <;> rfl
      rw [this]
      unfold Spec.kept
      rfl
    | _ =>
      unfold setOff
      first
      | rw [List.filter_cons_of_pos rfl, List.filter_cons_of_pos rfl, List.map_cons, List.map_cons, ih]
      | rw [List.filter_cons_of_neg (by simp [notComment, isComment]), List.filter_cons_of_neg (by simp [notComment, isComment]), ih]

/-- What is read from a formatted file is the file put in order. -/
theorem reprinted_back {srt : SortSlice} {q : Params} (hq : q.fix = fixNone) {d d' : FileDescriptor}
    (h : ReadBack srt q d d') : Reprinted plainComment unplaced d d' := by
  obtain ⟨text, ht, hr⟩ := h.text
  refine ⟨h.filename, h.config, h.wellBefore, h.wellAfter, sortOpts srt, sortImps srt (importsAmong d.elements),
    fun l => srt.perm _ l, srt.perm _ _, ?_⟩
  have := hr.symm.trans (shows_transform hq h.fits h.oneLine h.outside h.short ht)
  rw [← keptAll_placeless, Option.some.inj this, keptAll_shown, keptAll_setOff]

/-! ## Comments in the style of C -/

/-- No comment in the style of C. -/
def Slashed (c : Option Comment) : Prop := ∀ x, c = some x → x.cstyle = false

theorem slashed_plain (c : Option Comment) : Slashed (plainComment c) := by
  intro x hx
  cases c with
  | none => cases hx
  | some c =>
    unfold plainComment at hx
    dsimp only at hx
    split at hx
    · cases hx
    · cases hx; rfl

theorem slashed_unplaced {c : Option Comment} (h : Slashed (unplaced c)) : Slashed c := by
  intro x hx
  subst hx
  exact h { x with position := {} } rfl

/-- The comments of a node. -/
def SlashedNode (e : Element) : Prop := Slashed (commentOf e) ∧ Slashed (inlineCommentOf e)

mutual

theorem slashed_shown : ∀ (e : Element) (around : List Element), ∀ n ∈ nodes around (shown e), SlashedNode n.self
  | .comment c, around, n, hn => by
    unfold shown nodes at hn
    cases List.mem_singleton.1 hn
    exact ⟨fun x hx => by cases hx; rfl, fun x hx => (nomatch hx)⟩
  | .syntax x, around, n, hn => by
    unfold shown nodes at hn
    cases List.mem_singleton.1 hn
    exact ⟨slashed_plain _, slashed_plain _⟩
  | .package x, around, n, hn => by
    unfold shown nodes at hn
    cases List.mem_singleton.1 hn
    exact ⟨slashed_plain _, slashed_plain _⟩
  | .option x, around, n, hn => by
    unfold shown nodes at hn
    cases List.mem_singleton.1 hn
    exact ⟨slashed_plain _, slashed_plain _⟩
  | .import x, around, n, hn => by
    unfold shown nodes at hn
    cases List.mem_singleton.1 hn
    exact ⟨slashed_plain _, slashed_plain _⟩
  | .message x es, around, n, hn => by
    unfold shown nodes at hn
    rcases List.mem_cons.1 hn with rfl | hn
    · exact ⟨slashed_plain _, fun x hx => (nomatch hx)⟩
    · exact slashed_shownAll es _ n hn
  | .enum x es, around, n, hn => by
    unfold shown nodes at hn
    rcases List.mem_cons.1 hn with rfl | hn
    · exact ⟨slashed_plain _, fun x hx => (nomatch hx)⟩
    · exact slashed_shownAll es _ n hn
  | .enumField x es, around, n, hn => by
    unfold shown nodes at hn
    rcases List.mem_cons.1 hn with rfl | hn
    · exact ⟨slashed_plain _, slashed_plain _⟩
    · exact slashed_shownAll es _ n hn
  | .service x es, around, n, hn => by
    unfold shown nodes at hn
    rcases List.mem_cons.1 hn with rfl | hn
    · exact ⟨slashed_plain _, fun x hx => (nomatch hx)⟩
    · exact slashed_shownAll es _ n hn
  | .rpc x es, around, n, hn => by
    unfold shown nodes at hn
    rcases List.mem_cons.1 hn with rfl | hn
    · exact ⟨slashed_plain _, slashed_plain _⟩
    · exact slashed_shownAll es _ n hn
  | .normalField x, around, n, hn => by
    unfold shown nodes at hn
    rcases List.mem_cons.1 hn with rfl | hn
    · exact ⟨slashed_plain _, slashed_plain _⟩
    · obtain ⟨o, ho, rfl⟩ := List.mem_map.1 hn
      obtain ⟨p, _, rfl⟩ := List.mem_map.1 ho
      exact ⟨slashed_plain _, slashed_plain _⟩
  | .mapField x, around, n, hn => by
    unfold shown nodes at hn
    rcases List.mem_cons.1 hn with rfl | hn
    · exact ⟨slashed_plain _, slashed_plain _⟩
    · obtain ⟨o, ho, rfl⟩ := List.mem_map.1 hn
      obtain ⟨p, _, rfl⟩ := List.mem_map.1 ho
      exact ⟨slashed_plain _, slashed_plain _⟩
  | .oneof x es, around, n, hn => by
    unfold shown nodes at hn
    rcases List.mem_cons.1 hn with rfl | hn
    · exact ⟨slashed_plain _, fun x hx => (nomatch hx)⟩
    · exact slashed_shownAll es _ n hn
  | .oneofField x, around, n, hn => by
    unfold shown nodes at hn
    rcases List.mem_cons.1 hn with rfl | hn
    · exact ⟨slashed_plain _, slashed_plain _⟩
    · obtain ⟨o, ho, rfl⟩ := List.mem_map.1 hn
      obtain ⟨p, _, rfl⟩ := List.mem_map.1 ho
      exact ⟨slashed_plain _, slashed_plain _⟩
  | .reserved x, around, n, hn => by
    unfold shown nodes at hn
    cases List.mem_singleton.1 hn
    exact ⟨slashed_plain _, slashed_plain _⟩
  | .extensions x, around, n, hn => by
    unfold shown nodes at hn
    cases List.mem_singleton.1 hn
    exact ⟨slashed_plain _, slashed_plain _⟩
  | .group x es, around, n, hn => by
    unfold shown nodes at hn
    rcases List.mem_cons.1 hn with rfl | hn
    · exact ⟨slashed_plain _, fun x hx => (nomatch hx)⟩
    · exact slashed_shownAll es _ n hn

theorem slashed_shownAll : ∀ (es around : List Element), ∀ n ∈ nodesAll around (shownAll es), SlashedNode n.self
  | [], around, n, hn => by unfold shownAll nodesAll at hn; cases hn
  | e :: es, around, n, hn => by
    have h1 := slashed_shown e around n
    have h2 := slashed_shownAll es around n
    unfold shownAll at hn
    split at hn
    · exact h2 hn
    · rw [List.singleton_append] at hn
      unfold nodesAll at hn
      rcases List.mem_append.1 hn with hn | hn
      · exact h1 hn
      · exact h2 hn

end

mutual

theorem slashed_placeless : ∀ (e : Element) (a b : List Element), (∀ n ∈ nodes a (placeless e), SlashedNode n.self) →
    ∀ n ∈ nodes b e, SlashedNode n.self
  | .comment c, a, b, h, n, hn => by
    unfold placeless nodes at h
    unfold nodes at hn
    cases List.mem_singleton.1 hn
    exact ⟨fun x hx => by cases hx; exact (h _ (List.mem_singleton.2 rfl)).1 { c with position := {} } rfl, fun x hx => (nomatch hx)⟩
  | .syntax x, a, b, h, n, hn => by
    unfold placeless nodes at h
    unfold nodes at hn
    cases List.mem_singleton.1 hn
    exact ⟨slashed_unplaced (h _ (List.mem_singleton.2 rfl)).1, slashed_unplaced (h _ (List.mem_singleton.2 rfl)).2⟩
  | .package x, a, b, h, n, hn => by
    unfold placeless nodes at h
    unfold nodes at hn
    cases List.mem_singleton.1 hn
    exact ⟨slashed_unplaced (h _ (List.mem_singleton.2 rfl)).1, slashed_unplaced (h _ (List.mem_singleton.2 rfl)).2⟩
  | .option x, a, b, h, n, hn => by
    unfold placeless nodes at h
    unfold nodes at hn
    cases List.mem_singleton.1 hn
    exact ⟨slashed_unplaced (h _ (List.mem_singleton.2 rfl)).1, slashed_unplaced (h _ (List.mem_singleton.2 rfl)).2⟩
  | .import x, a, b, h, n, hn => by
    unfold placeless nodes at h
    unfold nodes at hn
    cases List.mem_singleton.1 hn
    exact ⟨slashed_unplaced (h _ (List.mem_singleton.2 rfl)).1, slashed_unplaced (h _ (List.mem_singleton.2 rfl)).2⟩
  | .message x es, a, b, h, n, hn => by
    unfold placeless nodes at h
    unfold nodes at hn
    rcases List.mem_cons.1 hn with rfl | hn
    · exact ⟨slashed_unplaced (h _ (List.mem_cons_self ..)).1, fun x hx => (nomatch hx)⟩
    · exact slashed_placelessAll es _ _ (fun n hn => h n (List.mem_cons_of_mem _ hn)) n hn
  | .enum x es, a, b, h, n, hn => by
    unfold placeless nodes at h
    unfold nodes at hn
    rcases List.mem_cons.1 hn with rfl | hn
    · exact ⟨slashed_unplaced (h _ (List.mem_cons_self ..)).1, fun x hx => (nomatch hx)⟩
    · exact slashed_placelessAll es _ _ (fun n hn => h n (List.mem_cons_of_mem _ hn)) n hn
  | .enumField x es, a, b, h, n, hn => by
    unfold placeless nodes at h
    unfold nodes at hn
    rcases List.mem_cons.1 hn with rfl | hn
    · exact ⟨slashed_unplaced (h _ (List.mem_cons_self ..)).1, slashed_unplaced (h _ (List.mem_cons_self ..)).2⟩
    · exact slashed_placelessAll es _ _ (fun n hn => h n (List.mem_cons_of_mem _ hn)) n hn
  | .service x es, a, b, h, n, hn => by
    unfold placeless nodes at h
    unfold nodes at hn
    rcases List.mem_cons.1 hn with rfl | hn
    · exact ⟨slashed_unplaced (h _ (List.mem_cons_self ..)).1, fun x hx => (nomatch hx)⟩
    · exact slashed_placelessAll es _ _ (fun n hn => h n (List.mem_cons_of_mem _ hn)) n hn
  | .rpc x es, a, b, h, n, hn => by
    unfold placeless nodes at h
    unfold nodes at hn
    rcases List.mem_cons.1 hn with rfl | hn
    · exact ⟨slashed_unplaced (h _ (List.mem_cons_self ..)).1, slashed_unplaced (h _ (List.mem_cons_self ..)).2⟩
    · exact slashed_placelessAll es _ _ (fun n hn => h n (List.mem_cons_of_mem _ hn)) n hn
  | .normalField x, a, b, h, n, hn => by
    unfold placeless nodes at h
    unfold nodes at hn
    rcases List.mem_cons.1 hn with rfl | hn
    · exact ⟨slashed_unplaced (h _ (List.mem_cons_self ..)).1, slashed_unplaced (h _ (List.mem_cons_self ..)).2⟩
    · obtain ⟨o, ho, rfl⟩ := List.mem_map.1 hn
      have := h _ (List.mem_cons_of_mem _ (List.mem_map.2 ⟨_, List.mem_map.2 ⟨o, ho, rfl⟩, rfl⟩))
      exact ⟨slashed_unplaced this.1, slashed_unplaced this.2⟩
  | .mapField x, a, b, h, n, hn => by
    unfold placeless nodes at h
    unfold nodes at hn
    rcases List.mem_cons.1 hn with rfl | hn
    · exact ⟨slashed_unplaced (h _ (List.mem_cons_self ..)).1, slashed_unplaced (h _ (List.mem_cons_self ..)).2⟩
    · obtain ⟨o, ho, rfl⟩ := List.mem_map.1 hn
      have := h _ (List.mem_cons_of_mem _ (List.mem_map.2 ⟨_, List.mem_map.2 ⟨o, ho, rfl⟩, rfl⟩))
      exact ⟨slashed_unplaced this.1, slashed_unplaced this.2⟩
  | .oneof x es, a, b, h, n, hn => by
    unfold placeless nodes at h
    unfold nodes at hn
    rcases List.mem_cons.1 hn with rfl | hn
    · exact ⟨slashed_unplaced (h _ (List.mem_cons_self ..)).1, fun x hx => (nomatch hx)⟩
    · exact slashed_placelessAll es _ _ (fun n hn => h n (List.mem_cons_of_mem _ hn)) n hn
  | .oneofField x, a, b, h, n, hn => by
    unfold placeless nodes at h
    unfold nodes at hn
    rcases List.mem_cons.1 hn with rfl | hn
    · exact ⟨slashed_unplaced (h _ (List.mem_cons_self ..)).1, slashed_unplaced (h _ (List.mem_cons_self ..)).2⟩
    · obtain ⟨o, ho, rfl⟩ := List.mem_map.1 hn
      have := h _ (List.mem_cons_of_mem _ (List.mem_map.2 ⟨_, List.mem_map.2 ⟨o, ho, rfl⟩, rfl⟩))
      exact ⟨slashed_unplaced this.1, slashed_unplaced this.2⟩
  | .reserved x, a, b, h, n, hn => by
    unfold placeless nodes at h
    unfold nodes at hn
    cases List.mem_singleton.1 hn
    exact ⟨slashed_unplaced (h _ (List.mem_singleton.2 rfl)).1, slashed_unplaced (h _ (List.mem_singleton.2 rfl)).2⟩
  | .extensions x, a, b, h, n, hn => by
    unfold placeless nodes at h
    unfold nodes at hn
    cases List.mem_singleton.1 hn
    exact ⟨slashed_unplaced (h _ (List.mem_singleton.2 rfl)).1, slashed_unplaced (h _ (List.mem_singleton.2 rfl)).2⟩
  | .group x es, a, b, h, n, hn => by
    unfold placeless nodes at h
    unfold nodes at hn
    rcases List.mem_cons.1 hn with rfl | hn
    · exact ⟨slashed_unplaced (h _ (List.mem_cons_self ..)).1, fun x hx => (nomatch hx)⟩
    · exact slashed_placelessAll es _ _ (fun n hn => h n (List.mem_cons_of_mem _ hn)) n hn

theorem slashed_placelessAll : ∀ (es a b : List Element), (∀ n ∈ nodesAll a (placelessAll es), SlashedNode n.self) →
    ∀ n ∈ nodesAll b es, SlashedNode n.self
  | [], a, b, h, n, hn => by unfold nodesAll at hn; cases hn
  | e :: es, a, b, h, n, hn => by
    unfold placelessAll nodesAll at h
    unfold nodesAll at hn
    rcases List.mem_append.1 hn with hn | hn
    · exact slashed_placeless e a b (fun n hn => h n (List.mem_append_left _ hn)) n hn
    · exact slashed_placelessAll es a b (fun n hn => h n (List.mem_append_right _ hn)) n hn

end

/-- In what is read there are no comments in the style of C. -/
theorem slashed_back {srt : SortSlice} {q : Params} (hq : q.fix = fixNone) {d d' : FileDescriptor}
    (h : ReadBack srt q d d') : ∀ n ∈ fileNodes d', SlashedNode n.self := by
  obtain ⟨text, ht, hr⟩ := h.text
  have := hr.symm.trans (shows_transform hq h.fits h.oneLine h.outside h.short ht)
  refine slashed_placelessAll _ [] [] ?_
  rw [Option.some.inj this]
  exact slashed_shownAll _ _

end Verif.Reform
