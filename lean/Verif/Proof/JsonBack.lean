import Verif.Proof.JsonText

/-!
# The reader of JSON accepts only what the grammar allows
-/

namespace Verif.Spec

open Verif Str
open Verif.Json (Doc isBlank skipSpace hexDigit getu4 isSurrogate decodeRune shortEscape readDoc readItems
  readMembers readLiteral)
open Verif.Spec.Json (hexNumber hexValue escaped)

namespace JsonRead

theorem getu4_some {s : Str} {n : Nat} (h : getu4 s = some n) :
    ∃ a b c d rest, s = '\\' :: 'u' :: a :: b :: c :: d :: rest ∧ hexNumber a b c d = some n := by
  unfold getu4 at h
  split at h
  · rename_i a b c d rest
    refine ⟨a, b, c, d, rest, rfl, ?_⟩
    rw [← getu4_eq a b c d rest, ← h]
    rfl
  · cases h

theorem readEscape_some {s : Str} {c : Char} {rest : Str} (h : Verif.Json.readEscape s = some (c, rest)) :
    ∃ t, s = t ++ rest ∧ LooseText c t := by
  unfold Verif.Json.readEscape at h
  split at h
  · rename_i r
    cases hg : getu4 ('\\' :: 'u' :: r) with
    | none => rw [hg] at h; cases h
    | some n =>
      rw [hg] at h
      obtain ⟨a, b, c', d, tail, he, hn⟩ := getu4_some hg
      rw [he] at h
      simp only [List.drop_succ_cons, List.drop_zero] at h
      rw [he]
      split at h
      · rename_i hs
        unfold isSurrogate at hs
        simp only [Bool.and_eq_true, decide_eq_true_eq] at hs
        cases hg2 : getu4 tail with
        | none =>
          rw [hg2] at h
          injection h with h
          injection h with h1 h2
          subst h1 h2
          exact ⟨['\\', 'u', a, b, c', d], rfl, .half hn hs.1 (by omega)⟩
        | some m =>
          rw [hg2] at h
          rw [Option.bind_some] at h
          obtain ⟨e, f, g, i, tail', he2, hm⟩ := getu4_some hg2
          cases hd : decodeRune n m with
          | none =>
            rw [hd] at h
            injection h with h
            injection h with h1 h2
            subst h1 h2
            exact ⟨['\\', 'u', a, b, c', d], rfl, .half hn hs.1 (by omega)⟩
          | some k =>
            rw [hd] at h
            injection h with h
            injection h with h1 h2
            unfold decodeRune at hd
            split at hd
            · rename_i hcond
              simp only [Bool.and_eq_true, decide_eq_true_eq] at hcond
              injection hd with hd
              subst h1 h2 he2
              refine ⟨['\\', 'u', a, b, c', d, '\\', 'u', e, f, g, i], rfl, .char ?_⟩
              rw [← hd, show (n - 0xD800) * 0x400 + (m - 0xDC00) + 0x10000 = 0x10000 + (n - 0xD800) * 0x400 + (m - 0xDC00) by omega]
              exact .pair hn hm (by omega) (by omega) (by omega) (by omega)
            · cases hd
      · rename_i hs
        injection h with h
        injection h with h1 h2
        subst h1 h2
        unfold isSurrogate at hs
        simp only [Bool.and_eq_true, decide_eq_true_eq] at hs
        exact ⟨['\\', 'u', a, b, c', d], rfl, .char (.number hn (by omega))⟩
  · rename_i e r _
    rw [shortEscape_eq] at h
    cases he : escaped e with
    | none => rw [he] at h; cases h
    | some x =>
      rw [he] at h
      injection h with h
      injection h with h1 h2
      subst h1 h2
      exact ⟨['\\', e], rfl, .char (.short he)⟩
  · cases h

theorem readChars_some : ∀ {fuel : Nat} {s str rest : Str}, Verif.Json.readChars fuel s = some (str, rest) →
    ∃ t, s = t ++ '"' :: rest ∧ BodyText LooseText str t := by
  intro fuel
  induction fuel with
  | zero => intro s str rest h; cases h
  | succ fuel ih =>
    intro s str rest h
    match s with
    | [] => cases h
    | c :: s =>
      rw [Verif.Json.readChars] at h
      split at h
      · rename_i hc
        injection h with h
        injection h with h1 h2
        subst h1 h2 hc
        exact ⟨[], rfl, .nil⟩
      · rename_i hq
        split at h
        · rename_i hc
          cases he : Verif.Json.readEscape (c :: s) with
          | none => rw [he] at h; cases h
          | some r =>
            obtain ⟨x, r⟩ := r
            rw [he] at h
            obtain ⟨t, ht, hl⟩ := readEscape_some he
            simp only at h
            cases hr : Verif.Json.readChars fuel r with
            | none => rw [hr] at h; cases h
            | some p =>
              obtain ⟨str', rest'⟩ := p
              rw [hr] at h
              injection h with h
              injection h with h1 h2
              subst h1 h2
              obtain ⟨u, hu, hb⟩ := ih hr
              refine ⟨t ++ u, ?_, .cons hl hb⟩
              rw [ht, hu]
              simp
        · rename_i hb
          split at h
          · cases h
          · rename_i hc
            cases hr : Verif.Json.readChars fuel s with
            | none => rw [hr] at h; cases h
            | some p =>
              obtain ⟨str', rest'⟩ := p
              rw [hr] at h
              injection h with h
              injection h with h1 h2
              subst h1 h2
              obtain ⟨u, hu, hbt⟩ := ih hr
              refine ⟨[c] ++ u, ?_, .cons (.char (.plain (by omega) hq hb)) hbt⟩
              rw [hu]
              rfl

theorem readString_some {s str rest : Str} (h : Verif.Json.readString s = some (str, rest)) :
    ∃ t, s = t ++ rest ∧ StringText LooseText str t := by
  unfold Verif.Json.readString at h
  split at h
  · obtain ⟨t, ht, hb⟩ := readChars_some h
    refine ⟨_, ?_, .quoted hb⟩
    rw [ht]
    simp
  · cases h

/-! ## Numbers -/

theorem readDigits_some {s ds rest : Str} (h : Verif.Json.readDigits s = some (ds, rest)) :
    s = ds ++ rest ∧ Digits ds := by
  unfold Verif.Json.readDigits at h
  split at h
  · cases h
  · rename_i hne
    injection h with h
    injection h with h1 h2
    refine ⟨?_, ?_, ?_⟩
    · rw [← h1, ← h2, List.takeWhile_append_dropWhile]
    · rw [← h1]; exact hne
    · intro c hc
      rw [← h1] at hc
      exact (isDigit_iff c).1 (digit hc)
where
  digit {c : Char} : ∀ {l : Str}, c ∈ l.takeWhile isDigit → isDigit c = true
    | [], h => by cases h
    | x :: l, h => by
      rw [List.takeWhile_cons] at h
      split at h
      · rename_i hx
        rcases List.mem_cons.1 h with rfl | h
        · exact hx
        · exact digit h
      · cases h

theorem readInteger_some {s int rest : Str} (h : Verif.Json.readInteger s = some (int, rest)) :
    s = int ++ rest ∧ Digits int ∧ (int.head? = some '0' → int = s%"0") := by
  unfold Verif.Json.readInteger at h
  split at h
  · injection h with h
    injection h with h1 h2
    subst h1 h2
    exact ⟨rfl, ⟨by simp, by decide⟩, fun _ => rfl⟩
  · rename_i hz
    obtain ⟨h1, h2⟩ := readDigits_some h
    refine ⟨h1, h2, fun h0 => ?_⟩
    match int, h0 with
    | c :: cs, h0 =>
      injection h0 with h0
      subst h0
      exact absurd h1 (hz _)

theorem readFraction_some {s frac rest : Str} (h : Verif.Json.readFraction s = some (frac, rest)) :
    s = frac ++ rest ∧ (frac = [] ∨ ∃ ds, Digits ds ∧ frac = '.' :: ds) := by
  unfold Verif.Json.readFraction at h
  split at h
  · rename_i r
    cases hd : Verif.Json.readDigits r with
    | none => rw [hd] at h; cases h
    | some p =>
      obtain ⟨ds, r'⟩ := p
      rw [hd] at h
      injection h with h
      injection h with h1 h2
      subst h1 h2
      obtain ⟨h1, h2⟩ := readDigits_some hd
      exact ⟨by rw [h1]; rfl, .inr ⟨ds, h2, rfl⟩⟩
  · injection h with h
    injection h with h1 h2
    subst h1 h2
    exact ⟨rfl, .inl rfl⟩

theorem readSign_some (s : Str) : s = (Verif.Json.readSign s).1 ++ (Verif.Json.readSign s).2 ∧
    ((Verif.Json.readSign s).1 = [] ∨ (Verif.Json.readSign s).1 = s%"+" ∨ (Verif.Json.readSign s).1 = s%"-") := by
  unfold Verif.Json.readSign
  split
  · exact ⟨rfl, .inr (.inl rfl)⟩
  · exact ⟨rfl, .inr (.inr rfl)⟩
  · exact ⟨rfl, .inl rfl⟩

theorem readExponent_some {s exp rest : Str} (h : Verif.Json.readExponent s = some (exp, rest)) :
    s = exp ++ rest ∧ (exp = [] ∨ ∃ e s ds, (e = 'e' ∨ e = 'E') ∧ (s = [] ∨ s = s%"+" ∨ s = s%"-") ∧ Digits ds ∧
      exp = e :: s ++ ds) := by
  unfold Verif.Json.readExponent at h
  split at h
  · injection h with h
    injection h with h1 h2
    subst h1 h2
    exact ⟨rfl, .inl rfl⟩
  · rename_i c r
    obtain ⟨h3, h4⟩ := readSign_some r
    split at h
    · rename_i hc
      cases hd : Verif.Json.readDigits (Verif.Json.readSign r).2 with
      | none => rw [hd] at h; cases h
      | some p =>
        obtain ⟨ds, r'⟩ := p
        rw [hd] at h
        injection h with h
        injection h with h1 h2
        subst h1 h2
        obtain ⟨h5, h6⟩ := readDigits_some hd
        refine ⟨?_, .inr ⟨c, _, ds, by simpa using hc, h4, h6, rfl⟩⟩
        conv => lhs; rw [h3, h5]
        simp
    · injection h with h
      injection h with h1 h2
      subst h1 h2
      exact ⟨rfl, .inl rfl⟩

theorem readUnsigned_some {s t rest : Str} (h : Verif.Json.readUnsigned s = some (t, rest)) :
    s = t ++ rest ∧ NumberText t ∧ NumberText ('-' :: t) := by
  unfold Verif.Json.readUnsigned at h
  cases hi : Verif.Json.readInteger s with
  | none => rw [hi] at h; cases h
  | some p =>
    obtain ⟨int, s1⟩ := p
    rw [hi] at h
    simp only at h
    cases hf : Verif.Json.readFraction s1 with
    | none => rw [hf] at h; cases h
    | some p =>
      obtain ⟨frac, s2⟩ := p
      rw [hf] at h
      simp only at h
      cases he : Verif.Json.readExponent s2 with
      | none => rw [he] at h; cases h
      | some p =>
        obtain ⟨exp, s3⟩ := p
        rw [he] at h
        injection h with h
        injection h with h1 h2
        subst h1 h2
        obtain ⟨a1, a2, a3⟩ := readInteger_some hi
        obtain ⟨b1, b2⟩ := readFraction_some hf
        obtain ⟨c1, c2⟩ := readExponent_some he
        refine ⟨?_, ⟨[], int, frac, exp, by simp, .inl rfl, a2, a3, b2, c2⟩,
          ⟨s%"-", int, frac, exp, by simp, .inr rfl, a2, a3, b2, c2⟩⟩
        rw [a1, b1, c1]
        simp

theorem readNumber_some {s t rest : Str} (h : Verif.Json.readNumber s = some (t, rest)) :
    s = t ++ rest ∧ NumberText t := by
  unfold Verif.Json.readNumber at h
  split at h
  · rename_i r
    cases hu : Verif.Json.readUnsigned r with
    | none => rw [hu] at h; cases h
    | some p =>
      obtain ⟨t', r'⟩ := p
      rw [hu] at h
      injection h with h
      injection h with h1 h2
      subst h1 h2
      obtain ⟨h1, _, h2⟩ := readUnsigned_some hu
      exact ⟨by rw [h1]; rfl, h2⟩
  · obtain ⟨h1, h2, _⟩ := readUnsigned_some h
    exact ⟨h1, h2⟩

/-! ## Values -/

theorem readLiteral_some {s : Str} {d : Doc} {rest : Str} (h : readLiteral s = some (d, rest)) :
    ∃ t, s = t ++ rest ∧ DocText LooseText d t := by
  unfold readLiteral at h
  split at h
  · injection h with h; injection h with h1 h2; subst h1 h2; exact ⟨s%"null", rfl, .null⟩
  · injection h with h; injection h with h1 h2; subst h1 h2; exact ⟨s%"true", rfl, .yes⟩
  · injection h with h; injection h with h1 h2; subst h1 h2; exact ⟨s%"false", rfl, .no⟩
  · cases hn : Verif.Json.readNumber s with
    | none => rw [hn] at h; cases h
    | some p =>
      obtain ⟨t, r⟩ := p
      rw [hn] at h
      injection h with h
      injection h with h1 h2
      subst h1 h2
      obtain ⟨h1, h2⟩ := readNumber_some hn
      exact ⟨t, h1, .number h2⟩

theorem skipSpace_split (s : Str) : ∃ w, Blanks w ∧ s = w ++ skipSpace s := by
  refine ⟨s.takeWhile isBlank, ?_, (List.takeWhile_append_dropWhile).symm⟩
  intro c hc
  exact (isBlank_iff c).1 (blank hc)
where
  blank {c : Char} : ∀ {l : Str}, c ∈ l.takeWhile isBlank → isBlank c = true
    | [], h => by cases h
    | x :: l, h => by
      rw [List.takeWhile_cons] at h
      split at h
      · rename_i hx
        rcases List.mem_cons.1 h with rfl | h
        · exact hx
        · exact blank h
      · cases h

theorem items_blanks {v : Str} (hv : Blanks v) {ds : List Doc} {t : Str} (h : ItemsText LooseText ds t) :
    ItemsText LooseText ds (v ++ t) := by
  have app : ∀ {x : Str}, Blanks x → Blanks (v ++ x) := fun hx c hc => by
    rcases List.mem_append.1 hc with hc | hc
    · exact hv c hc
    · exact hx c hc
  cases h with
  | one h1 h2 h3 =>
    have := ItemsText.one (app h1) h2 h3
    simpa using this
  | more h1 h2 h3 h4 =>
    have := ItemsText.more (app h1) h2 h3 h4
    simpa using this

theorem members_blanks {v : Str} (hv : Blanks v) {ms : List (Str × Doc)} {t : Str}
    (h : MembersText LooseText ms t) : MembersText LooseText ms (v ++ t) := by
  have app : ∀ {x : Str}, Blanks x → Blanks (v ++ x) := fun hx c hc => by
    rcases List.mem_append.1 hc with hc | hc
    · exact hv c hc
    · exact hx c hc
  cases h with
  | one h1 h2 h3 h4 h5 h6 =>
    have := MembersText.one (app h1) h2 h3 h4 h5 h6
    simpa using this
  | more h1 h2 h3 h4 h5 h6 h7 =>
    have := MembersText.more (app h1) h2 h3 h4 h5 h6 h7
    simpa using this

theorem blanks_nil : Blanks [] := fun c hc => by cases hc

theorem read_some : ∀ fuel : Nat,
    (∀ s d rest, readDoc fuel s = some (d, rest) → ∃ t, s = t ++ rest ∧ DocText LooseText d t) ∧
    (∀ s ds rest, readItems fuel s = some (ds, rest) → ∃ t, s = t ++ ']' :: rest ∧ ItemsText LooseText ds t) ∧
    (∀ s ms rest, readMembers fuel s = some (ms, rest) → ∃ t, s = t ++ '}' :: rest ∧ MembersText LooseText ms t) := by
  intro fuel
  induction fuel with
  | zero => exact ⟨fun _ _ _ h => (nomatch h), fun _ _ _ h => (nomatch h), fun _ _ _ h => (nomatch h)⟩
  | succ fuel ih =>
    obtain ⟨ihd, ihi, ihm⟩ := ih
    refine ⟨?_, ?_, ?_⟩
    · intro s d rest h
      unfold readDoc at h
      split at h
      · rename_i r
        cases hs : Verif.Json.readString ('"' :: r) with
        | none => rw [hs] at h; cases h
        | some p =>
          obtain ⟨str, r'⟩ := p
          rw [hs] at h
          injection h with h
          injection h with h1 h2
          subst h1 h2
          obtain ⟨t, h1, h2⟩ := readString_some hs
          exact ⟨t, h1, .string h2⟩
      · rename_i r
        obtain ⟨w, hw, e⟩ := skipSpace_split r
        split at h
        · rename_i r' hr
          injection h with h
          injection h with h1 h2
          subst h1 h2
          rw [hr] at e
          exact ⟨'[' :: w ++ s%"]", by rw [e]; simp, .emptyArray hw⟩
        · cases hi : readItems fuel (skipSpace r) with
          | none => rw [hi] at h; cases h
          | some p =>
            obtain ⟨ds, r'⟩ := p
            rw [hi] at h
            injection h with h
            injection h with h1 h2
            subst h1 h2
            obtain ⟨t, h1, h2⟩ := ihi _ _ _ hi
            refine ⟨'[' :: (w ++ t) ++ s%"]", ?_, .array (items_blanks hw h2)⟩
            rw [e, h1]
            simp
      · rename_i r
        obtain ⟨w, hw, e⟩ := skipSpace_split r
        split at h
        · rename_i r' hr
          injection h with h
          injection h with h1 h2
          subst h1 h2
          rw [hr] at e
          exact ⟨'{' :: w ++ s%"}", by rw [e]; simp, .emptyObject hw⟩
        · cases hi : readMembers fuel (skipSpace r) with
          | none => rw [hi] at h; cases h
          | some p =>
            obtain ⟨ds, r'⟩ := p
            rw [hi] at h
            injection h with h
            injection h with h1 h2
            subst h1 h2
            obtain ⟨t, h1, h2⟩ := ihm _ _ _ hi
            refine ⟨'{' :: (w ++ t) ++ s%"}", ?_, .object (members_blanks hw h2)⟩
            rw [e, h1]
            simp
      · exact readLiteral_some h
    · intro s ds rest h
      unfold readItems at h
      cases hd : readDoc fuel s with
      | none => rw [hd] at h; cases h
      | some p =>
        obtain ⟨d, r⟩ := p
        rw [hd] at h
        simp only at h
        obtain ⟨t, h1, h2⟩ := ihd _ _ _ hd
        obtain ⟨w, hw, e⟩ := skipSpace_split r
        split at h
        · rename_i r' hr
          cases hi : readItems fuel (skipSpace r') with
          | none => rw [hi] at h; cases h
          | some p =>
            obtain ⟨ds', r''⟩ := p
            rw [hi] at h
            injection h with h
            injection h with h3 h4
            subst h3 h4
            obtain ⟨u, h3, h4⟩ := ihi _ _ _ hi
            obtain ⟨v, hv, e2⟩ := skipSpace_split r'
            refine ⟨[] ++ t ++ w ++ ',' :: (v ++ u), ?_, .more blanks_nil h2 hw (items_blanks hv h4)⟩
            rw [h1, e, hr, e2, h3]
            simp
        · rename_i r' hr
          injection h with h
          injection h with h3 h4
          subst h3 h4
          refine ⟨[] ++ t ++ w, ?_, .one blanks_nil h2 hw⟩
          rw [h1, e, hr]
          simp
        · cases h
    · intro s ms rest h
      unfold readMembers at h
      cases hn : Verif.Json.readString s with
      | none => rw [hn] at h; cases h
      | some p =>
        obtain ⟨k, r⟩ := p
        rw [hn] at h
        simp only at h
        obtain ⟨n, n1, n2⟩ := readString_some hn
        obtain ⟨w, hw, e⟩ := skipSpace_split r
        split at h
        · rename_i r1 hr1
          obtain ⟨x, hx, ex⟩ := skipSpace_split r1
          cases hd : readDoc fuel (skipSpace r1) with
          | none => rw [hd] at h; cases h
          | some p =>
            obtain ⟨d, r2⟩ := p
            rw [hd] at h
            simp only at h
            obtain ⟨t, h1, h2⟩ := ihd _ _ _ hd
            obtain ⟨y, hy, ey⟩ := skipSpace_split r2
            split at h
            · rename_i r' hr
              cases hi : readMembers fuel (skipSpace r') with
              | none => rw [hi] at h; cases h
              | some p =>
                obtain ⟨ms', r''⟩ := p
                rw [hi] at h
                injection h with h
                injection h with h3 h4
                subst h3 h4
                obtain ⟨u, h3, h4⟩ := ihm _ _ _ hi
                obtain ⟨v, hv, e2⟩ := skipSpace_split r'
                refine ⟨[] ++ n ++ w ++ ':' :: x ++ t ++ y ++ ',' :: (v ++ u), ?_,
                  .more blanks_nil n2 hw hx h2 hy (members_blanks hv h4)⟩
                rw [n1, e, hr1, ex, h1, ey, hr, e2, h3]
                simp
            · rename_i r' hr
              injection h with h
              injection h with h3 h4
              subst h3 h4
              refine ⟨[] ++ n ++ w ++ ':' :: x ++ t ++ y, ?_, .one blanks_nil n2 hw hx h2 hy⟩
              rw [n1, e, hr1, ex, h1, ey, hr]
              simp
            · cases h
        · cases h

end JsonRead

end Verif.Spec
