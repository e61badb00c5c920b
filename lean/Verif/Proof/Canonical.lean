import Verif.Proof.AttachedAgain
import Verif.Proof.AttachedHeader
import Verif.Proof.ReformatRead
import Verif.Spec.Canonical

/-!
# Proof: files that are formatted to the same text
-/

namespace Verif.Format

open Verif Str Proto Spec

/-! ## Reading away what is not shown -/

theorem plain_unplaced (c : Option Comment) : plainComment (unplaced c) = plainComment c := by
  cases c <;> rfl

theorem commentText_idem (l : Str) : commentText (commentText l) = commentText l := by
  show trimRightBy isSpace ((commentText l).dropWhile (· == '/')) = _
  rw [commentText_twice]
  exact trimRight_trim isSpace [] (l.dropWhile (· == '/'))

theorem commentTexts_idem (ls : List Str) : (ls.map commentText).map commentText = ls.map commentText := by
  rw [List.map_map]
  exact List.map_congr_left fun l _ => commentText_idem l

theorem plain_plain (c : Option Comment) : plainComment (plainComment c) = plainComment c := by
  match c with
  | none => rfl
  | some ⟨_, [], _⟩ => rfl
  | some ⟨_, l :: ls, _⟩ =>
    show some (remark ((commentText l :: ls.map commentText).map commentText)) = some (remark (commentText l :: ls.map commentText))
    have := commentTexts_idem (l :: ls)
    rw [List.map_cons] at this
    rw [this]

theorem bareRanges_idem (rs : List Range) : (rs.map bareRange).map bareRange = rs.map bareRange :=
  Reform.bareRanges_twice rs

theorem keptOption_of {old new : Option Comment → Option Comment} (h : ∀ c, new (old c) = new c) (o : Opt) :
    keptOption new (keptOption old o) = keptOption new o := by
  unfold keptOption
  simp only [h, Reform.bareValue_bareValue]

theorem keptField_of {old new : Option Comment → Option Comment} (h : ∀ c, new (old c) = new c) (f : Field) :
    keptField new (keptField old f) = keptField new f := by
  unfold keptField
  simp only [h, List.map_map]
  congr 1
  exact List.map_congr_left fun o _ => keptOption_of h o

mutual

theorem shown_placeless : ∀ e : Element, shown (placeless e) = shown e
  | .comment c => by unfold placeless shown; rfl
  | .syntax x => by
    unfold placeless
    simp only [shown, plain_unplaced, keptOption_of plain_unplaced, keptField_of plain_unplaced, bareRanges_idem]
  | .package x => by
    unfold placeless
    simp only [shown, plain_unplaced, keptOption_of plain_unplaced, keptField_of plain_unplaced, bareRanges_idem]
  | .option x => by
    unfold placeless
    simp only [shown, plain_unplaced, keptOption_of plain_unplaced, keptField_of plain_unplaced, bareRanges_idem]
  | .import x => by
    unfold placeless
    simp only [shown, plain_unplaced, keptOption_of plain_unplaced, keptField_of plain_unplaced, bareRanges_idem]
  | .reserved x => by
    unfold placeless
    simp only [shown, plain_unplaced, keptOption_of plain_unplaced, keptField_of plain_unplaced, bareRanges_idem]
  | .extensions x => by
    unfold placeless
    simp only [shown, plain_unplaced, keptOption_of plain_unplaced, keptField_of plain_unplaced, bareRanges_idem]
  | .normalField x => by
    unfold placeless
    simp only [shown, plain_unplaced, keptOption_of plain_unplaced, keptField_of plain_unplaced, bareRanges_idem]
  | .mapField x => by
    unfold placeless
    simp only [shown, plain_unplaced, keptOption_of plain_unplaced, keptField_of plain_unplaced, bareRanges_idem]
  | .oneofField x => by
    unfold placeless
    simp only [shown, plain_unplaced, keptOption_of plain_unplaced, keptField_of plain_unplaced, bareRanges_idem]
  | .message x es => by
    unfold placeless
    simp only [shown, plain_unplaced, shown_placelessAll es]
  | .enum x es => by
    unfold placeless
    simp only [shown, plain_unplaced, shown_placelessAll es]
  | .enumField x es => by
    unfold placeless
    simp only [shown, plain_unplaced, shown_placelessAll es]
  | .service x es => by
    unfold placeless
    simp only [shown, plain_unplaced, shown_placelessAll es]
  | .rpc x es => by
    unfold placeless
    simp only [shown, plain_unplaced, shown_placelessAll es]
  | .oneof x es => by
    unfold placeless
    simp only [shown, plain_unplaced, shown_placelessAll es]
  | .group x es => by
    unfold placeless
    simp only [shown, plain_unplaced, shown_placelessAll es]

theorem shown_placelessAll : ∀ es : List Element, shownAll (placelessAll es) = shownAll es
  | [] => by unfold placelessAll; rfl
  | e :: es => by
    have h1 := shown_placeless e
    have h2 := shown_placelessAll es
    have hs : shownAll.silent (placeless e) = shownAll.silent e := by cases e <;> (unfold placeless; rfl)
    unfold placelessAll shownAll
    rw [h1, h2, hs]

end

mutual

theorem shown_shown : ∀ e : Element, shown (shown e) = shown e
  | .comment c => by
    unfold shown
    show Element.comment (remark ((c.lines.map commentText).map commentText)) = _
    rw [commentTexts_idem]
  | .syntax x => by
    unfold shown
    simp only [shown, plain_plain, keptOption_of plain_plain, keptField_of plain_plain, bareRanges_idem]
  | .package x => by
    unfold shown
    simp only [shown, plain_plain, keptOption_of plain_plain, keptField_of plain_plain, bareRanges_idem]
  | .option x => by
    unfold shown
    simp only [shown, plain_plain, keptOption_of plain_plain, keptField_of plain_plain, bareRanges_idem]
  | .import x => by
    unfold shown
    simp only [shown, plain_plain, keptOption_of plain_plain, keptField_of plain_plain, bareRanges_idem]
  | .reserved x => by
    unfold shown
    simp only [shown, plain_plain, keptOption_of plain_plain, keptField_of plain_plain, bareRanges_idem]
  | .extensions x => by
    unfold shown
    simp only [shown, plain_plain, keptOption_of plain_plain, keptField_of plain_plain, bareRanges_idem]
  | .normalField x => by
    unfold shown
    simp only [shown, plain_plain, keptOption_of plain_plain, keptField_of plain_plain, bareRanges_idem]
  | .mapField x => by
    unfold shown
    simp only [shown, plain_plain, keptOption_of plain_plain, keptField_of plain_plain, bareRanges_idem]
  | .oneofField x => by
    unfold shown
    simp only [shown, plain_plain, keptOption_of plain_plain, keptField_of plain_plain, bareRanges_idem]
  | .message x es => by
    unfold shown
    simp only [shown, plain_plain, shown_shownAll es]
  | .enum x es => by
    unfold shown
    simp only [shown, plain_plain, shown_shownAll es]
  | .enumField x es => by
    unfold shown
    simp only [shown, plain_plain, shown_shownAll es]
  | .service x es => by
    unfold shown
    simp only [shown, plain_plain, shown_shownAll es]
  | .rpc x es => by
    unfold shown
    simp only [shown, plain_plain, shown_shownAll es]
  | .oneof x es => by
    unfold shown
    simp only [shown, plain_plain, shown_shownAll es]
  | .group x es => by
    unfold shown
    simp only [shown, plain_plain, shown_shownAll es]

theorem shown_shownAll : ∀ es : List Element, shownAll (shownAll es) = shownAll es
  | [] => by unfold shownAll; rfl
  | e :: es => by
    have h1 := shown_shown e
    have h2 := shown_shownAll es
    have hs : shownAll.silent (shown e) = shownAll.silent e := by
      cases e <;> first | (unfold shown; rfl) | skip
      rename_i c
      unfold shown
      show decide (c.lines.map commentText = []) = decide (c.lines = [])
      simp
    conv => lhs; rw [shownAll]
    conv => rhs; rw [shownAll]
    by_cases h : shownAll.silent e = true
    · simp only [if_pos h, List.nil_append, h2]
    · rw [if_neg h, List.singleton_append, shownAll, hs, if_neg h, h1, h2]; rfl

end

mutual

theorem spoken_shown : ∀ e : Element, shownAll.silent e = false → Spoken (shown e)
  | .comment c, h => by
    unfold shown Spoken
    have : c.lines ≠ [] := of_decide_eq_false h
    intro hn
    exact this (List.map_eq_nil_iff.1 hn)
  | .syntax s, _ => by
    unfold shown Spoken
    intro c hc
    cases hs : s.comment with
    | none => rw [hs] at hc; cases hc
    | some d =>
      rw [hs] at hc
      unfold plainComment at hc
      dsimp only at hc
      split at hc
      · cases hc
      · rename_i hne
        cases hc
        exact fun hn => hne (List.map_eq_nil_iff.1 hn)
  | .package x, _ => by unfold shown Spoken; trivial
  | .option x, _ => by unfold shown Spoken; trivial
  | .import x, _ => by unfold shown Spoken; trivial
  | .reserved x, _ => by unfold shown Spoken; trivial
  | .extensions x, _ => by unfold shown Spoken; trivial
  | .normalField x, _ => by unfold shown Spoken; trivial
  | .mapField x, _ => by unfold shown Spoken; trivial
  | .oneofField x, _ => by unfold shown Spoken; trivial
  | .message x es, _ => by unfold shown Spoken; exact spoken_shownAll es
  | .enum x es, _ => by unfold shown Spoken; exact spoken_shownAll es
  | .enumField x es, _ => by unfold shown Spoken; trivial
  | .service x es, _ => by unfold shown Spoken; exact spoken_shownAll es
  | .rpc x es, _ => by unfold shown Spoken; trivial
  | .oneof x es, _ => by unfold shown Spoken; exact spoken_shownAll es
  | .group x es, _ => by unfold shown Spoken; exact spoken_shownAll es

theorem spoken_shownAll : ∀ es : List Element, AllSpoken (shownAll es)
  | [] => by unfold shownAll AllSpoken; trivial
  | e :: es => by
    have h1 := spoken_shown e
    have h2 := spoken_shownAll es
    unfold shownAll
    by_cases h : shownAll.silent e = true
    · rw [if_pos h]; exact h2
    · rw [if_neg h, List.singleton_append]
      unfold AllSpoken
      exact ⟨h1 (by simpa using h), h2⟩

end

mutual

theorem spoken_placeless : ∀ e : Element, Spoken (placeless e) → Spoken e
  | .comment c, h => by unfold placeless Spoken at h; unfold Spoken; exact h
  | .syntax s, h => by
    unfold placeless Spoken at h
    unfold Spoken
    intro c hc
    exact h { c with position := {} } (by rw [hc]; rfl)
  | .package x, _ => by unfold Spoken; trivial
  | .option x, _ => by unfold Spoken; trivial
  | .import x, _ => by unfold Spoken; trivial
  | .reserved x, _ => by unfold Spoken; trivial
  | .extensions x, _ => by unfold Spoken; trivial
  | .normalField x, _ => by unfold Spoken; trivial
  | .mapField x, _ => by unfold Spoken; trivial
  | .oneofField x, _ => by unfold Spoken; trivial
  | .message x es, h => by unfold placeless Spoken at h; unfold Spoken; exact spoken_placelessAll es h
  | .enum x es, h => by unfold placeless Spoken at h; unfold Spoken; exact spoken_placelessAll es h
  | .enumField x es, _ => by unfold Spoken; trivial
  | .service x es, h => by unfold placeless Spoken at h; unfold Spoken; exact spoken_placelessAll es h
  | .rpc x es, _ => by unfold Spoken; trivial
  | .oneof x es, h => by unfold placeless Spoken at h; unfold Spoken; exact spoken_placelessAll es h
  | .group x es, h => by unfold placeless Spoken at h; unfold Spoken; exact spoken_placelessAll es h

theorem spoken_placelessAll : ∀ es : List Element, AllSpoken (placelessAll es) → AllSpoken es
  | [], _ => by unfold AllSpoken; trivial
  | e :: es, h => by
    unfold placelessAll AllSpoken at h
    unfold AllSpoken
    exact ⟨spoken_placeless e h.1, spoken_placelessAll es h.2⟩

end

/-! ## The names of options and imports -/

theorem names_kept (l : List Opt) : (l.map (keptOption plainComment)).map (·.name) = l.map (·.name) := by
  rw [List.map_map]; rfl

mutual

/-- The names of the options inside are the same. -/
theorem lists_shown : ∀ e : Element, (optionLists (shown e)).map (List.map (·.name)) = (optionLists e).map (List.map (·.name))
  | .comment c => by unfold shown optionLists; rfl
  | .syntax c => by unfold shown optionLists; rfl
  | .package x => by unfold shown optionLists; rfl
  | .option x => by unfold shown optionLists; rfl
  | .import x => by unfold shown optionLists; rfl
  | .reserved x => by unfold shown optionLists; rfl
  | .extensions x => by unfold shown optionLists; rfl
  | .normalField x => by
    unfold shown optionLists
    exact congrArg (· :: []) (names_kept x.field.options)
  | .mapField x => by
    unfold shown optionLists
    exact congrArg (· :: []) (names_kept x.field.options)
  | .oneofField x => by
    unfold shown optionLists
    exact congrArg (· :: []) (names_kept x.options)
  | .message x es => by unfold shown optionLists; exact lists_shownAll es
  | .enum x es => by unfold shown optionLists; exact lists_shownAll es
  | .enumField x es => by
    unfold shown optionLists
    rw [options_shown]
    exact congrArg (· :: []) (names_kept _)
  | .service x es => by unfold shown optionLists; exact lists_shownAll es
  | .rpc x es => by
    unfold shown optionLists
    rw [options_shown]
    exact congrArg (· :: []) (names_kept _)
  | .oneof x es => by unfold shown optionLists; exact lists_shownAll es
  | .group x es => by unfold shown optionLists; exact lists_shownAll es

theorem lists_shownAll : ∀ es : List Element,
    (optionListsAll (shownAll es)).map (List.map (·.name)) = (optionListsAll es).map (List.map (·.name))
  | [] => by unfold shownAll; rfl
  | e :: es => by
    have h1 := lists_shown e
    have h2 := lists_shownAll es
    unfold shownAll
    rw [optionLists_append, List.map_append, h2]
    show _ = (optionLists e ++ optionListsAll es).map _
    rw [List.map_append]
    congr 1
    by_cases h : shownAll.silent e = true
    · rw [if_pos h]
      cases e <;> first | rfl | cases h
    · rw [if_neg h, ← h1]
      show (optionLists (shown e) ++ []).map _ = _
      rw [List.append_nil]

end

theorem nodup_lists {a b : List (List Opt)} (h : a.map (List.map (·.name)) = b.map (List.map (·.name)))
    (hb : ∀ l ∈ b, (l.map (·.name)).Nodup) : ∀ l ∈ a, (l.map (·.name)).Nodup := by
  intro l hl
  have : l.map (·.name) ∈ a.map (List.map (·.name)) := List.mem_map.2 ⟨l, hl, rfl⟩
  rw [h] at this
  obtain ⟨k, hk, he⟩ := List.mem_map.1 this
  rw [← he]
  exact hb k hk

theorem imports_shownAll (es : List Element) : importsAmong (shownAll es) = (importsAmong es).map shownImport := by
  induction es with
  | nil => rfl
  | cons e es ih =>
    have hs : importsAmong (shownAll (e :: es)) =
        importsAmong (if shownAll.silent e then [] else [shown e]) ++ importsAmong (shownAll es) := by
      conv => lhs; rw [shownAll]
      exact List.filterMap_append ..
    have hc : importsAmong (e :: es) = importsAmong [e] ++ importsAmong es :=
      List.filterMap_append (l := [e]) (l' := es)
    rw [hs, hc, List.map_append, ih]
    congr 1
    cases e <;> first | (unfold shown; rfl) | skip
    rename_i c
    by_cases h : shownAll.silent (.comment c) = true
    · rw [if_pos h]; rfl
    · rw [if_neg h]; unfold shown; rfl

theorem distinguished_shown {es : List Element} : Distinguished (shownAll es) ↔ Distinguished es := by
  have h1 : (optionsAmong (shownAll es)).map (·.name) = (optionsAmong es).map (·.name) := by
    rw [options_shown, names_kept]
  have h2 : (importsAmong (shownAll es)).map (·.filename) = (importsAmong es).map (·.filename) := by
    rw [imports_shownAll, List.map_map]; rfl
  have h3 := lists_shownAll es
  exact ⟨fun h => ⟨h1 ▸ h.1, nodup_lists h3.symm h.2, h2 ▸ h.3⟩, fun h => ⟨h1 ▸ h.1, nodup_lists h3 h.2, h2 ▸ h.3⟩⟩

theorem distinguished_setOff {es : List Element} (h : Distinguished es) : Distinguished (setOff es) := by
  refine ⟨?_, ?_, ?_⟩
  · rw [show optionsAmong (setOff es) = optionsAmong es from among_setOff (fun _ => rfl) (fun _ => rfl) _]; exact h.1
  · rw [optionLists_setOff]; exact h.2
  · rw [show importsAmong (setOff es) = importsAmong es from among_setOff (fun _ => rfl) (fun _ => rfl) _]; exact h.3

theorem distinguished_tidy {sort : List Opt → List Opt} (hsort : ∀ l, (sort l).Perm l)
    {sortImports : List Import → List Import} {es : List Element}
    (himp : (sortImports (importsAmong es)).Perm (importsAmong es)) (h : Distinguished es) :
    Distinguished (tidyFile sort sortImports es) := by
  refine ⟨?_, nodup_tidyFile hsort _ h.2, ?_⟩
  · rw [tidyFile_options]; exact ((hsort _).map _).nodup_iff.2 h.1
  · rw [tidyFile_imports]; exact (himp.map _).nodup_iff.2 h.3

theorem distinguished_headed {lines : List Str} {es : List Element} (h : Distinguished es) :
    Distinguished (headed lines es) := by
  have hsub : ∀ {α : Type} (f : Element → Option α), (∀ c, f (.comment c) = none) →
      (headed lines es).filterMap f = es.filterMap f := by
    intro α f hf
    unfold headed
    rw [List.filterMap_cons_none (hf _)]
    conv => rhs; rw [← List.takeWhile_append_dropWhile (p := isComment) (l := es)]
    rw [among_comments hf fun e he => mem_takeWhile he]
  refine ⟨?_, ?_, ?_⟩
  · rw [show optionsAmong (headed lines es) = optionsAmong es from hsub _ fun _ => rfl]; exact h.1
  · intro l hl
    unfold headed optionListsAll at hl
    exact h.2 l (optionLists_sub (fun e he => (List.dropWhile_sublist _).subset he) hl)
  · rw [show importsAmong (headed lines es) = importsAmong es from hsub _ fun _ => rfl]; exact h.3

theorem optionsOf_distinct {q : Params} {es : List Element} (h : Distinguished es) :
    ((optionsOf q es).map (·.name)).Nodup := by
  by_cases hq : q.fix = fixNone
  · unfold optionsOf
    rw [if_pos hq]
    exact h.1
  · exact optionsOf_nodup hq (h.1.sublist ((List.filter_sublist).map _))

/-! ## What is not shown makes no difference -/

/-- Formatting what is shown of a file is formatting the file. -/
theorem transform_shown {srt : SortSlice} {q : Params} (hk : KnownFix q) (hq : q.fix = fixNone ∨ q.fileHeader = [])
    {es : List Element} (hsp : AllSpoken es) (hd : Distinguished es) (text : Str) :
    transform srt q (shownAll es) = .ok (text, []) ↔ transform srt q es = .ok (text, []) := by
  have hshown : shownAll es = es.map shown := shownAll_map fun e he => spoken_silent (allSpoken_iff.1 hsp e he)
  have h2 : proto2Of (shownAll es) = proto2Of es := by
    refine proto2_values ?_
    rw [hshown, syntaxes_shown, List.map_map]
    rfl
  have none_of : ∀ {l : List Text.Failure}, Text.sortFailures l = [] ↔ l = [] := by
    intro l
    have := (sortBy_perm (le := fun a b => !Text.lessFailure b a) l).length_eq
    unfold Text.sortFailures
    rw [← List.length_eq_zero_iff, this, List.length_eq_zero_iff]
  rcases transform_eq srt q hk es with ⟨s, hs, _, he⟩ | ⟨b, hb, he⟩
  · rcases transform_eq srt q hk (shownAll es) with ⟨s', _, _, he'⟩ | ⟨b', hb', _⟩
    · rw [he, he']; exact ⟨fun h => (nomatch h), fun h => (nomatch h)⟩
    · rw [h2, hs] at hb'; cases hb'
  · rcases transform_eq srt q hk (shownAll es) with ⟨s, hs, _, _⟩ | ⟨b', hb', he'⟩
    · rw [h2, hb] at hs; cases hs
    · rw [h2, hb] at hb'
      cases hb'
      have hf : faces (layout srt q b (shownAll es)) = faces (layout srt q b es) := by
        rw [hshown, faces_layout hq b hsp (optionsOf_distinct hd) hd.2 hd.3]
      have hp : problemsOf (layout srt q b (shownAll es)) = [] ↔ problemsOf (layout srt q b es) = [] := by
        rw [problems_faces, problems_faces, hf]
      rw [he, he', finish_faces hf]
      simp only [Except.ok.injEq, Prod.mk.injEq, none_of, hp]

/-- The header and the rest of what is shown. -/
theorem shown_headed {header : Str} {lines : List Str} (hl : IsHeader header lines) {es : List Element} (h : AllSpoken es) :
    shownAll (headed lines es) = headed lines (shownAll es) := by
  have hsp := allSpoken_iff.1 h
  have hsh : shown (.comment (remark lines)) = .comment (remark lines) := by
    have : lines.map commentText = lines := by
      conv => rhs; rw [← List.map_id lines]
      exact List.map_congr_left fun l hm => (hl.2.2 l hm).1
    unfold shown
    show Element.comment (remark (lines.map commentText)) = _
    rw [this]
  unfold headed
  rw [shownAll_map fun e he => spoken_silent (hsp e he), dropWhile_shown,
    ← shownAll_map fun e he => spoken_silent (hsp e ((List.dropWhile_sublist _).subset he))]
  conv => lhs; rw [shownAll]
  rw [hsh, if_neg (by
    show ¬ decide (lines = []) = true
    simpa using hl.1)]
  rfl

theorem spoken_with {header : Str} {lines : List Str} (hl : IsHeader header lines) {es : List Element} (h : AllSpoken es) :
    AllSpoken (headed lines es) := by
  unfold headed AllSpoken
  refine ⟨?_, allSpoken_iff.2 fun e he => allSpoken_iff.1 h e ((List.dropWhile_sublist _).subset he)⟩
  unfold Spoken
  exact hl.1

/-- Formatting what is shown of a file is formatting the file, also with a header. -/
theorem transform_shown_any {srt : SortSlice} {q : Params} (hk : KnownFix q)
    (hq : q.fix = fixNone ∨ q.fileHeader = [] ∨ ∃ lines, IsHeader q.fileHeader lines)
    {es : List Element} (hsp : AllSpoken es) (hd : Distinguished es) (text : Str) :
    transform srt q (shownAll es) = .ok (text, []) ↔ transform srt q es = .ok (text, []) := by
  by_cases hf : q.fix = fixNone
  · exact transform_shown hk (.inl hf) hsp hd text
  rcases hq with hq | hq | ⟨lines, hl⟩
  · exact absurd hq hf
  · exact transform_shown hk (.inr hq) hsp hd text
  · rw [transform_headed srt hk hf hl (shownAll es), transform_headed srt hk hf hl es]
    show transform srt { q with fileHeader := [] } (headed lines (shownAll es)) = _ ↔
      transform srt { q with fileHeader := [] } (headed lines es) = _
    rw [← shown_headed hl hsp]
    exact transform_shown (q := { q with fileHeader := [] }) hk (.inr rfl) (spoken_with hl hsp) (distinguished_headed hd) text

end Verif.Format
