import Verif.Proof.Canonical
import Verif.Props.AttachedAgain

/-!
# C98: the formatted text is determined by the declarations and their comments
-/

namespace Verif.Props

open Verif Str Proto Spec Format

/-- **Layout makes no difference**: two files with the same declarations and comments, without regard
to positions and to how comments are written, are formatted to the same text. -/
theorem C98_layout (srt : SortSlice) (q : Params) (hk : q.fix = fixNone ∨ q.fix = fixV1 ∨ q.fix = fixV2)
    (hq : q.fix = fixNone ∨ q.fileHeader = [] ∨ ∃ lines, IsHeader q.fileHeader lines)
    (a b : List Element) (ha : AllSpoken a) (hb : AllSpoken b) (hd : Distinguished a)
    (h : shownAll a = shownAll b) (text : Str) :
    transform srt q a = .ok (text, []) ↔ transform srt q b = .ok (text, []) := by
  have hd' : Distinguished b := distinguished_shown.1 (h ▸ distinguished_shown.2 hd)
  rw [← transform_shown_any hk hq ha hd, ← transform_shown_any hk hq hb hd', h]

theorem sort_moved {α : Type} (srt : SortSlice) (key : α → Str) {l l' : List α} (h : l.Perm l')
    (hn : (l.map key).Nodup) :
    srt.run (fun a b => lt (key a) (key b)) l = srt.run (fun a b => lt (key a) (key b)) l' := by
  refine List.Perm.eq_of_pairwise (le := fun a b => lt (key b) (key a) = false) ?_
    (srt.sorted _ _ (SWO.str.on key)) (srt.sorted _ _ (SWO.str.on key)) ((srt.perm _ _).trans (h.trans (srt.perm _ _).symm))
  intro a b ha hb h1 h2
  have ha := (srt.perm _ _).mem_iff.1 ha
  have hb := h.mem_iff.2 ((srt.perm _ _).mem_iff.1 hb)
  exact inj_of_nodup hn ha hb 
    (Str.le_antisymm (by unfold Str.le; rw [h1]; rfl) (by unfold Str.le; rw [h2]; rfl))

/-- **The order of options and imports makes no difference.** -/
theorem C98_order (srt : SortSlice) (q : Params) (hq : q.fix = fixNone) (a b : List Element)
    (ha : Distinguished a) (hb : Distinguished b) (h : Moved a b) : transform srt q a = transform srt q b := by
  have h1 : tidyFile (sortOpts srt) (sortImps srt) a = tidyFile (sortOpts srt) (sortImps srt) b := by
    have e1 : sortOpts srt (optionsAmong a) = sortOpts srt (optionsAmong b) := sort_moved srt Opt.name h.options ha.1
    have e2 : sortImps srt (importsAmong a) = sortImps srt (importsAmong b) := sort_moved srt Import.filename h.imports ha.3
    unfold tidyFile
    rw [e1, e2, h.top, h.syntaxes, h.packages, h.rest]
  rw [← C36_distinct srt q hq a (List.forall_mem_cons.2 ⟨ha.1, ha.2⟩) ha.3, h1,
    C36_distinct srt q hq b (List.forall_mem_cons.2 ⟨hb.1, hb.2⟩) hb.3]

theorem plain_options {q : Params} (hq : q.fix = fixNone) {es : List Element} (h : Regular q es) :
    ((optionsAmong es).map (·.name)).Nodup := by
  have := h.options
  rwa [List.filter_eq_self.2 fun o _ => by simp [hq]] at this

theorem other_options {q : Params} (hq : q.fix ≠ fixNone) {es : List Element} (h : Regular q es) :
    (((optionsAmong es).filter fun o => o.name ∉ managedNames).map (·.name)).Nodup := by
  have := h.options
  simpa [hq] using this

theorem regular_distinguished {q : Params} (hq : q.fix = fixNone) {es : List Element} (h : Regular q es) :
    Distinguished es := ⟨plain_options hq h, h.inside, h.imports⟩

theorem fixed_distinguished {q : Params} (hq : q.fix ≠ fixNone) {es : List Element} (h : Regular q es) :
    Distinguished (fixedFile q es) where
  options := by rw [fixed_options]; exact optionsOf_nodup hq (other_options hq h)
  inside := fun l hl => h.inside l (fixed_lists hl)
  imports := by rw [fixed_imports]; exact h.imports

/-- What is read from the text of a regular file, and that it is formatted to the text. -/
theorem regular_read {srt : SortSlice} {q : Params} (hk : q.fix = fixNone ∨ q.fix = fixV1 ∨ q.fix = fixV2)
    {es : List Element} (h : Regular q es) {text : Str} (ht : transform srt q es = .ok (text, [])) :
    ∃ X, readWithComments text = some (shownAll X) ∧ Distinguished (shownAll X) ∧
      transform srt q (shownAll X) = .ok (text, []) := by
  rcases hk with hq | hq
  · obtain ⟨read, h1, h2⟩ := C97_again_partial srt q hq es h.fits h.oneLine h.outside h.short h.spoken
      (List.forall_mem_cons.2 ⟨plain_options hq h, h.inside⟩) h.imports text ht
    obtain ⟨sort, imports, h3, h4, -, h5⟩ := C97_attached_partial srt q hq es h.fits h.oneLine h.outside h.short text ht
    obtain rfl := Option.some.inj (h1.symm.trans h5)
    exact ⟨_, h1, distinguished_shown.2 (distinguished_setOff (distinguished_tidy (fun l => (h3 l).1) h4
      (regular_distinguished hq h))), h2⟩
  · have hn := fix_some hq
    obtain ⟨hf, hj⟩ := h.quotable hn
    rcases h.header hn with hh | ⟨⟨lines, hh⟩, hc⟩
    · obtain ⟨read, h1, h2⟩ := C97_again_fix_partial srt q hq hh hf hj es (h.package hn) h.fits h.oneLine h.outside
        h.short h.spoken (other_options hn h) h.inside h.imports text ht
      obtain ⟨sort, imports, h3, h4, -, h5⟩ := C97_fix_partial srt q hq hh hf hj es (h.package hn) h.fits h.oneLine
        h.outside h.short text ht
      obtain rfl := Option.some.inj (h1.symm.trans h5)
      exact ⟨_, h1, distinguished_shown.2 (distinguished_setOff (distinguished_tidy (fun l => (h3 l).1)
        (by rw [fixed_imports]; exact h4) (fixed_distinguished hn h))), h2⟩
    · obtain ⟨read, h1, h2⟩ := C97_again_headed_partial srt q hq lines hh hf hj es (h.package hn) h.fits h.oneLine
        h.outside h.short h.spoken hc (other_options hn h) h.inside h.imports text ht
      obtain ⟨sort, imports, h3, h4, -, h5⟩ := C97_headed_partial srt q hq lines hh hf hj es (h.package hn) h.fits
        h.oneLine h.outside h.short text ht
      obtain rfl := Option.some.inj (h1.symm.trans h5)
      have hi : importsAmong (headed lines es) = importsAmong es := among_headed (fun _ => rfl) ..
      refine ⟨_, h1, distinguished_shown.2 (distinguished_setOff (distinguished_tidy (fun l => (h3 l).1)
        (by rw [fixed_imports, hi]; exact h4) ⟨?_, ?_, ?_⟩)), h2⟩
      · rw [fixed_options]
        refine optionsOf_nodup hn ?_
        rw [show optionsAmong (headed lines es) = optionsAmong es from among_headed (fun _ => rfl) ..]
        exact other_options hn h
      · intro l hl
        have hl := fixed_lists hl
        unfold headed optionListsAll at hl
        exact h.inside l (optionLists_sub (fun e he => (List.dropWhile_sublist _).subset he) hl)
      · rw [fixed_imports, hi]
        exact h.imports

/-- **The formatted text is formatted to itself**, however the parser sets positions: if the text is
parsed into what is read from it with comments, formatting that gives the text again. -/
theorem C98_again_partial (srt : SortSlice) (q : Params) (hk : q.fix = fixNone ∨ q.fix = fixV1 ∨ q.fix = fixV2)
    (es : List Element) (h : Regular q es) (text : Str) (ht : transform srt q es = .ok (text, []))
    (parsed : List Element) (hp : readWithComments text = some (placelessAll parsed)) :
    transform srt q parsed = .ok (text, []) := by
  obtain ⟨X, h1, h2, h3⟩ := regular_read hk h ht
  have hX : placelessAll parsed = shownAll X := Option.some.inj (hp.symm.trans h1)
  have hsh : shownAll parsed = shownAll X := by
    rw [← shown_placelessAll, hX, shown_shownAll]
  have hsp : AllSpoken parsed := spoken_placelessAll _ (by rw [hX]; exact spoken_shownAll _)
  refine (transform_shown_any hk ?_ hsp (distinguished_shown.1 (by rw [hsh]; exact h2)) text).1 (by rw [hsh]; exact h3)
  by_cases hq : q.fix = fixNone
  · exact .inl hq
  · rcases h.header hq with hh | ⟨hh, _⟩
    · exact .inr (.inl hh)
    · exact .inr (.inr hh)

/-- **Two files have the same text exactly if they have the same declarations and comments**, in the
order in which the formatter prints them. -/
theorem C98_same_partial (srt : SortSlice) (q : Params) (hq : q.fix = fixNone) (a b : List Element)
    (ha : Regular q a) (hb : Regular q b) (s t : Str)
    (hs : transform srt q a = .ok (s, [])) (ht : transform srt q b = .ok (t, [])) :
    s = t ↔ inOrder srt a = inOrder srt b := by
  have h1 := shows_transform hq ha.fits ha.oneLine ha.outside ha.short hs
  have h2 := shows_transform hq hb.fits hb.oneLine hb.outside hb.short ht
  constructor
  · rintro rfl
    exact Option.some.inj (h1.symm.trans h2)
  · intro h
    obtain ⟨X, g1, -, g2⟩ := regular_read (.inl hq) ha hs
    obtain ⟨Y, g3, -, g4⟩ := regular_read (.inl hq) hb ht
    have e1 : shownAll X = inOrder srt a := Option.some.inj (g1.symm.trans h1)
    have e2 : shownAll Y = inOrder srt b := Option.some.inj (g3.symm.trans h2)
    rw [e1, h, ← e2, g4] at g2
    exact (Prod.mk.inj (Except.ok.inj g2)).1.symm

/-- With `--fix` and no header it is the declarations with the managed options replaced. -/
theorem C98_same_fix_partial (srt : SortSlice) (q : Params) (hq : q.fix = fixV1 ∨ q.fix = fixV2) (hh : q.fileHeader = [])
    (a b : List Element) (ha : Regular q a) (hb : Regular q b) (s t : Str)
    (hs : transform srt q a = .ok (s, [])) (ht : transform srt q b = .ok (t, [])) :
    s = t ↔ inOrder srt (fixedFile q a) = inOrder srt (fixedFile q b) := by
  have hn := fix_some hq
  obtain ⟨hf, hj⟩ := ha.quotable hn
  have key : ∀ es : List Element, ∀ u : Str, Regular q es → transform srt q es = .ok (u, []) →
      readWithComments u = some (inOrder srt (fixedFile q es)) := by
    intro es u h hu
    rw [C37_rewritten srt q hq hh es (h.package hn)] at hu
    exact shows_transform rfl (fits_fixed (fun _ => ⟨hf, hj⟩) h.fits) (oneLine_fixed (fun h => (hj _ h).2.2 rfl) h.oneLine)
      (outside_fixed h.outside) (short_fixed h.short) hu
  have h1 := key a s ha hs
  have h2 := key b t hb ht
  constructor
  · rintro rfl
    exact Option.some.inj (h1.symm.trans h2)
  · intro h
    obtain ⟨X, g1, -, g2⟩ := regular_read (.inr hq) ha hs
    obtain ⟨Y, g3, -, g4⟩ := regular_read (.inr hq) hb ht
    have e1 : shownAll X = inOrder srt (fixedFile q a) := Option.some.inj (g1.symm.trans h1)
    have e2 : shownAll Y = inOrder srt (fixedFile q b) := Option.some.inj (g3.symm.trans h2)
    rw [e1, h, ← e2, g4] at g2
    exact (Prod.mk.inj (Except.ok.inj g2)).1.symm

/-! ## The theorems are about something -/

theorem remarked_distinguished : Distinguished remarked :=
  ⟨by decide +kernel, by decide +kernel, by decide +kernel⟩

example : Regular plainly remarked where
  fits := remarked_fits
  oneLine := remarked_oneLine
  outside := remarked_outside
  short := remarked_short
  spoken := remarked_spoken
  imports := by decide +kernel
  options := by decide +kernel
  inside := by decide +kernel
  package := fun h => absurd rfl h
  quotable := fun h => absurd rfl h
  header := fun h => absurd rfl h

/-- With `--fix` and a header. -/
example : Regular headedParams titled := by
  obtain ⟨h1, h2, h3, h4, h5, h6, h7, h8, h9, h10, -⟩ := titled_fine
  exact ⟨h2, h3, h4, h5, h6, h10, by decide +kernel, h9, fun _ => h1, fun _ => by unfold Quotable; decide +kernel,
    fun _ => .inr ⟨⟨[s%" H."], by decide, by decide +kernel, by decide +kernel⟩, h7⟩⟩

/-- The same message with another position and another style of comment. -/
def messageAt (line : Int) (cstyle : Bool) : List Element :=
  [.syntax { value := s%"proto3" },
   .message { position := Sample.at_ line 1, name := s%"M"
              comment := some { position := Sample.at_ (line - 1) 1, lines := [s%" A message."], cstyle := cstyle } } []]

example : shownAll (messageAt 3 false) = shownAll (messageAt 9 true) := rfl

example : (transform .stable plainly (messageAt 3 false)).toOption =
    some (s%"syntax = \"proto3\";\n\n// A message.\nmessage M {}\n", []) := by decide +kernel

/-- Options and imports in any order. -/
def mixed (first second third : Element) : List Element :=
  [.syntax { value := s%"proto3" }, first, second, .package { name := s%"m" }, third, .message { name := s%"M" } []]

example : Moved
    (mixed (.import { filename := s%"b.proto" }) (.option { name := s%"go_package", constant := .str s%"m" })
      (.import { filename := s%"a.proto" }))
    (mixed (.option { name := s%"go_package", constant := .str s%"m" }) (.import { filename := s%"a.proto" })
      (.import { filename := s%"b.proto" })) :=
  ⟨rfl, rfl, rfl, .refl _, .swap .., rfl⟩

end Verif.Props
