import Verif.Proof.AttachedAgain
import Verif.Proof.CreateText

/-!
# Proof: a header is a comment at the top
-/

namespace Verif.Format

open Verif Str Proto Spec Create

theorem commentText_fixed {l : Str} (h : commentText l = l) :
    l.dropWhile (· == '/') = l ∧ ∀ c, l.getLast? = some c → isSpace c = false := by
  unfold commentText at h
  have h1 := (trimRightBy_prefix isSpace (l.dropWhile (· == '/'))).length_le
  rw [h] at h1
  refine ⟨(List.dropWhile_suffix _).eq_of_length_le h1, fun c hc => ?_⟩
  rw [← h] at hc
  exact getLast?_trimRightBy hc

theorem getLast?_join {α : Type} {f : α → Str} {l : List α} {x : α} (hl : l.getLast? = some x) (hf : f x ≠ []) :
    (join s%"\n" (l.map f)).getLast? = (f x).getLast? := by
  induction l with
  | nil => cases hl
  | cons a l ih =>
    cases l with
    | nil =>
      obtain rfl : a = x := by simpa using hl
      rw [List.map_cons, List.map_nil, join_one]
    | cons b l =>
      have := ih (by simpa using hl)
      rw [List.map_cons, List.map_cons, join_cons_cons, ← List.map_cons, List.getLast?_append,
        List.getLast?_append, this]
      cases h : (f x).getLast? with
      | none => exact absurd (List.getLast?_eq_none_iff.1 h) hf
      | some c => rfl

theorem textOf_header {header : Str} {lines : List Str} (h : IsHeader header lines) :
    textOf [flush header] = textOf (note (some (remark lines))) := by
  obtain ⟨hne, rfl, hl⟩ := h
  obtain ⟨a, ls, rfl⟩ := List.exists_cons_of_ne_nil hne
  have hlast : ∃ x ∈ a :: ls, (a :: ls).getLast? = some x := by
    cases hx : (a :: ls).getLast? with
    | none => cases List.getLast?_eq_none_iff.1 hx
    | some x => exact ⟨x, List.mem_of_getLast? hx, rfl⟩
  obtain ⟨x, hx, hlast⟩ := hlast
  have hj := getLast?_join (f := fun l => s%"//" ++ l) hlast (by simp)
  have ht : trimRightBy isSpace (join s%"\n" ((a :: ls).map (s%"//" ++ ·))) =
      join s%"\n" ((a :: ls).map (s%"//" ++ ·)) := by
    refine trimRightBy_eq_self fun c hc => ?_
    rw [hj] at hc
    have := (commentText_fixed (hl x hx).1).2
    cases hxl : x.getLast? with
    | none =>
      cases List.getLast?_eq_none_iff.1 hxl
      have : '/' = c := by simpa using hc
      rw [← this]; decide
    | some d =>
      rw [List.getLast?_append, hxl] at hc
      cases hc
      exact this c hxl
  have e : join s%"\n" ((a :: ls).map (s%"//" ++ ·)) ++ ['\n'] =
      (a :: ls).flatMap fun l => s%"//" ++ l ++ s%"\n" := by
    rw [join_lines (fun l => s%"//" ++ l)]
    have hne : ((a :: ls).flatMap fun l => s%"//" ++ l ++ s%"\n") ≠ [] := by simp
    have hlast : ((a :: ls).flatMap fun l => s%"//" ++ l ++ s%"\n").getLast hne = '\n' := by
      have : ((a :: ls).flatMap fun l => s%"//" ++ l ++ s%"\n").getLast? = some '\n' := by
        generalize a :: ls = m at hne ⊢
        clear hj ht hlast hx hl
        induction m with
        | nil => exact absurd rfl hne
        | cons b m ih =>
          rw [List.flatMap_cons, List.getLast?_append]
          cases m with
          | nil => rw [List.getLast?_append]; rfl
          | cons d m => rw [ih (by simp)]; rfl
      rw [List.getLast?_eq_some_getLast hne] at this
      exact Option.some.inj this
    have := List.dropLast_concat_getLast hne
    rw [hlast] at this
    exact this
  have step : ∀ ls : List Str, (∀ l ∈ ls, commentText l = l) → textOf (note (some (remark ls))) =
      ls.flatMap fun l => s%"//" ++ l ++ s%"\n" := by
    intro ls hls
    unfold note remark
    dsimp only
    unfold textOf
    rw [List.flatMap_map]
    clear hne hl hlast hj ht e hx
    induction ls with
    | nil => rfl
    | cons l ls ih =>
    rw [List.flatMap_cons, List.flatMap_cons, ih fun l hl => hls l (List.mem_cons_of_mem _ hl)]
    congr 1
    have hm := List.mem_cons_self (a := l) (l := ls)
    obtain ⟨h1, h2⟩ := commentText_fixed (hls l hm)
    show lineText 0 (s%"//" ++ l.dropWhile (· == '/')) = _
    rw [h1]
    unfold lineText
    rw [trimRightBy_eq_self]
    · rfl
    · intro c hc
      cases hxl : l.getLast? with
      | none =>
        cases List.getLast?_eq_none_iff.1 hxl
        have : '/' = c := by simpa using hc
        rw [← this]; decide
      | some d =>
        have hc : (s%"//" ++ l).getLast? = some c := hc
        rw [List.getLast?_append, hxl] at hc
        cases hc
        exact h2 c hxl
  rw [step _ fun l hm => (hl l hm).1, ← e]
  show lineText 0 _ ++ [] = _
  unfold lineText
  show trimRightBy isSpace (join s%"\n" ((a :: ls).map (s%"//" ++ ·))) ++ ['\n'] ++ [] = _
  rw [ht, List.append_nil]

/-- With a header a file is printed as without, with the header as a comment at the top in place of
the comments there are. -/
theorem transform_headed (srt : SortSlice) {q : Params} (hk : KnownFix q) (hq : q.fix ≠ fixNone) {lines : List Str}
    (hh : IsHeader q.fileHeader lines) (es : List Element) :
    transform srt q es =
      transform srt { q with fileHeader := [] } (.comment (remark lines) :: es.dropWhile isComment) := by
  have hc : ∀ e ∈ es.takeWhile isComment, isComment e = true := fun e he => mem_takeWhile he
  have hes : es = es.takeWhile isComment ++ es.dropWhile isComment := List.takeWhile_append_dropWhile.symm
  have hamong : ∀ {α : Type} (f : Element → Option α), (∀ c, f (.comment c) = none) →
      (Element.comment (remark lines) :: es.dropWhile isComment).filterMap f = es.filterMap f := by
    intro α f hf
    conv => rhs; rw [hes]
    rw [among_comments hf hc, List.filterMap_cons, hf]
  have hs : syntaxesAmong (.comment (remark lines) :: es.dropWhile isComment) = syntaxesAmong es := hamong _ fun _ => rfl
  have hp : packagesAmong (.comment (remark lines) :: es.dropWhile isComment) = packagesAmong es := hamong _ fun _ => rfl
  have ho : optionsAmong (.comment (remark lines) :: es.dropWhile isComment) = optionsAmong es := hamong _ fun _ => rfl
  have hi : importsAmong (.comment (remark lines) :: es.dropWhile isComment) = importsAmong es := hamong _ fun _ => rfl
  have hoo : optionsOf { q with fileHeader := [] } (.comment (remark lines) :: es.dropWhile isComment) = optionsOf q es := by
    have : ∀ es, optionsOf { q with fileHeader := [] } es = optionsOf q es := fun _ => rfl
    rw [this]
    unfold optionsOf
    rw [ho, hp]
  have hd : duplicateItems (.comment (remark lines) :: es.dropWhile isComment) = duplicateItems es := by
    unfold duplicateItems
    have h1 := duplicates_comments (cs := [.comment (remark lines)]) (fun e he => by cases List.mem_singleton.1 he; rfl) false false (es.dropWhile isComment)
    have h2 := duplicates_comments hc false false (es.dropWhile isComment)
    rw [← hes] at h2
    exact h1.trans h2.symm
  have hdd : (es.dropWhile isComment).dropWhile isComment = es.dropWhile isComment := by
    cases h : es.dropWhile isComment with
    | nil => rfl
    | cons e r => rw [List.dropWhile_cons_of_neg (by simpa using head_dropWhile (by rw [h]; rfl))]
  have hdt : (es.dropWhile isComment).takeWhile isComment = [] := by
    cases h : es.dropWhile isComment with
    | nil => rfl
    | cons e r => rw [List.takeWhile_cons_of_neg (by simpa using head_dropWhile (by rw [h]; rfl))]
  have h2 : proto2Of (.comment (remark lines) :: es.dropWhile isComment) = proto2Of es := by unfold proto2Of; rw [hs]
  have hk' : KnownFix { q with fileHeader := [] } := hk
  rcases transform_eq srt q hk es with ⟨s, hn, hh', he⟩ | ⟨b, hb, he⟩ <;>
  rcases transform_eq srt { q with fileHeader := [] } hk' (.comment (remark lines) :: es.dropWhile isComment) with
    ⟨s', hn', hh'', he'⟩ | ⟨b', hb', he'⟩
  · rw [hs, hh'] at hh''
    cases hh''
    rw [he, he']
  · rw [h2, hn] at hb'; cases hb'
  · rw [h2, hb] at hn'; cases hn'
  · rw [h2, hb] at hb'
    cases hb'
    rw [he, he']
    have hne : q.fileHeader ≠ [] := by
      obtain ⟨h1, h2, _⟩ := hh
      obtain ⟨a, ls, rfl⟩ := List.exists_cons_of_ne_nil h1
      rw [h2]
      cases ls with
      | nil => simp [join]
      | cons b ls => rw [List.map_cons, List.map_cons, join_cons_cons]; simp
    have ht : topItems q es = [flush q.fileHeader, blank] := by unfold topItems; rw [if_pos ⟨hq, hne⟩]
    have ht' : topItems { q with fileHeader := [] } (.comment (remark lines) :: es.dropWhile isComment) =
        note (some (remark lines)) ++ [blank] := by
      rw [topItems_comments (.inr rfl), List.takeWhile_cons_of_pos rfl, hdt]
      rw [List.flatMap_cons, List.flatMap_nil, List.append_nil, elementItems]
    have hl : layout srt q b es = duplicateItems es ++ ([flush q.fileHeader] ++ (blank ::
        (syntaxItems (syntaxesAmong es).head? ++ (packageItems (packagesAmong es).head? ++
        (fileOptionItems (sortOpts srt (optionsOf q es)) ++ (fileImportItems (sortImps srt (importsAmong es)) ++
          (es.dropWhile isComment).flatMap (elementItems (sortOpts srt) b .none))))))) := by
      unfold layout fileItems
      rw [ht]
      simp only [List.append_assoc, List.cons_append, List.nil_append]
    have hl' : layout srt { q with fileHeader := [] } b (.comment (remark lines) :: es.dropWhile isComment) =
        duplicateItems es ++ (note (some (remark lines)) ++ (blank ::
        (syntaxItems (syntaxesAmong es).head? ++ (packageItems (packagesAmong es).head? ++
        (fileOptionItems (sortOpts srt (optionsOf q es)) ++ (fileImportItems (sortImps srt (importsAmong es)) ++
          (es.dropWhile isComment).flatMap (elementItems (sortOpts srt) b .none))))))) := by
      unfold layout fileItems
      rw [ht', hs, hp, hoo, hi, hd, List.dropWhile_cons_of_pos rfl, hdd]
      simp only [List.append_assoc, List.cons_append, List.nil_append]
    rw [hl, hl']
    generalize (blank :: (syntaxItems _ ++ _) : List Item) = rest
    have hpn : problemsOf (note (some (remark lines))) = [] := by
      unfold note problemsOf
      refine List.filterMap_eq_nil_iff.2 fun i hi => ?_
      obtain ⟨l, _, rfl⟩ := List.mem_map.1 hi
      rfl
    unfold finish
    rw [textOf_append, textOf_append, textOf_append, textOf_append, textOf_header hh, problemsOf_append,
      problemsOf_append, problemsOf_append, problemsOf_append, hpn]
    rfl

end Verif.Format
