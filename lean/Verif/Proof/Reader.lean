import Verif.Proof.Tokens

/-! # Reading the tokens of declarations -/

namespace Verif.Format

open Verif Str Proto Spec

/-! ## Names and values -/

theorem nameUntil_tokens {stop : Char} (hstop : ¬ NameChar stop) (rest : List Token) : ∀ (s : Str),
    (∀ c ∈ s, NameChar c) → ∀ o : Option Str,
    nameUntil stop (nameTokens o s ++ .sym stop :: rest) = some (o.getD [] ++ s, rest)
  | [], _, none => by
    unfold nameTokens
    show nameUntil stop (.sym stop :: rest) = _
    unfold nameUntil
    rw [if_pos rfl]
    rfl
  | [], _, some w => by
    unfold nameTokens
    show nameUntil stop (.word w :: .sym stop :: rest) = _
    unfold nameUntil nameUntil
    rw [if_pos rfl]
    simp
  | c :: s, h, o => by
    have hs := fun d hd => h d (List.mem_cons_of_mem _ hd)
    have hc : c ≠ stop := fun e => hstop (e ▸ h c (List.mem_cons_self ..))
    have sym : nameUntil stop (.sym c :: (nameTokens none s ++ .sym stop :: rest)) = some (c :: s, rest) := by
      unfold nameUntil
      rw [if_neg hc, nameUntil_tokens hstop rest s hs none]
      rfl
    cases o with
    | none =>
      unfold nameTokens
      split
      · rw [nameUntil_tokens hstop rest s hs]
        rfl
      · exact sym
    | some w =>
      unfold nameTokens
      split
      · rw [nameUntil_tokens hstop rest s hs]
        simp
      · show nameUntil stop (.word w :: .sym c :: (nameTokens none s ++ .sym stop :: rest)) = _
        unfold nameUntil
        rw [sym]
        rfl

theorem nameUntil_name {stop : Char} (hstop : ¬ NameChar stop) (rest : List Token) {s : Str} (h : IsName s) :
    nameUntil stop (nameTokens none s ++ .sym stop :: rest) = some (s, rest) :=
  nameUntil_tokens hstop rest s h.2 none

theorem nameTokens_some (w s : Str) : nameTokens (some w) s ≠ [] := by
  induction s generalizing w with
  | nil => unfold nameTokens; simp
  | cons c s ih =>
    unfold nameTokens
    split
    · exact ih _
    · simp

theorem nameTokens_some_head (w s : Str) : ∃ u ts, nameTokens (some w) s = .word u :: ts := by
  induction s generalizing w with
  | nil => exact ⟨w, [], rfl⟩
  | cons c s ih =>
    unfold nameTokens
    split
    · exact ih _
    · exact ⟨w, _, rfl⟩

/-- A name begins with a word, a parenthesis or a bracket. -/
theorem name_head {s : Str} (h : IsName s) : ∃ t ts, nameTokens none s = t :: ts ∧
    ((∃ u, t = .word u) ∨ ∃ c, t = .sym c ∧ NameChar c) := by
  obtain ⟨hne, hs⟩ := h
  cases s with
  | nil => exact (hne rfl).elim
  | cons c s =>
    unfold nameTokens
    split
    · obtain ⟨u, ts, e⟩ := nameTokens_some_head [c] s
      exact ⟨_, _, e, .inl ⟨u, rfl⟩⟩
    · exact ⟨_, _, rfl, .inr ⟨c, rfl, hs c (List.mem_cons_self ..)⟩⟩

theorem name_length {s : Str} (h : IsName s) : 1 ≤ (nameTokens none s).length := by
  obtain ⟨t, ts, e, _⟩ := name_head h
  rw [e]
  simp

theorem brace_not_name : ¬ NameChar '}' := by unfold NameChar; decide
theorem colon_not_name : ¬ NameChar ':' := by unfold NameChar; decide
theorem equals_not_name : ¬ NameChar '=' := by unfold NameChar; decide

theorem symbol_sym (c d : Char) (rest : List Token) :
    symbol c (.sym d :: rest) = if d = c then some rest else none := rfl

theorem symbol_self (c : Char) (rest : List Token) : symbol c (.sym c :: rest) = some rest := by
  rw [symbol_sym, if_pos rfl]

theorem keyword_word (w u : Str) (rest : List Token) :
    keyword w (.word u :: rest) = if u = w then some rest else none := rfl

theorem keyword_self (w : Str) (rest : List Token) : keyword w (.word w :: rest) = some rest := by
  rw [keyword_word, if_pos rfl]

theorem ident_word (w : Str) (rest : List Token) : ident (.word w :: rest) = some (w, rest) := rfl

/-- A name does not begin with a brace. -/
theorem symbol_name {s : Str} (h : IsName s) (rest : List Token) :
    symbol '}' (nameTokens none s ++ rest) = none := by
  obtain ⟨t, ts, e, ht⟩ := name_head h
  rw [e]
  rcases ht with ⟨u, rfl⟩ | ⟨c, rfl, hc⟩
  · rfl
  · show symbol '}' (.sym c :: (ts ++ rest)) = none
    rw [symbol_sym, if_neg fun (e : c = '}') => brace_not_name (e ▸ hc)]

theorem value_length (l : Literal) : 1 ≤ (valueToks l).length := by
  obtain ⟨s, b, q, a, m⟩ := l
  unfold valueToks
  cases a with
  | nil =>
    cases m with
    | nil => dsimp only; split <;> simp
    | cons m ms => simp
  | cons a as => simp

mutual

theorem readValue_toks : ∀ (l : Literal) (n : Nat) (rest : List Token), ValueFits l →
    (valueToks l).length ≤ n → readValue n (valueToks l ++ rest) = some (bareValue l, rest)
  | l, 0, _, _, hn => absurd hn (by have := value_length l; omega)
  | .mk source isString quote [] [], n + 1, rest, h, _ => by
    unfold valueToks bareValue
    dsimp only
    cases isString with
    | true => unfold readValue; rfl
    | false => unfold readValue; rfl
  | .mk source isString quote (a :: as) map, n + 1, rest, h, hn => by
    have hl : ListFits (a :: as) := by unfold ValueFits at h; exact h
    unfold valueToks at hn ⊢
    unfold bareValue
    dsimp only at hn ⊢
    have := readList_toks (a :: as) n rest (by simp) hl (by simp at hn; omega)
    unfold readValue
    simp only [List.cons_append, List.append_assoc, List.nil_append, if_true]
    rw [this]
    rfl
  | .mk source isString quote [] (m :: ms), n + 1, rest, h, hn => by
    have hl : EntriesFit (m :: ms) := by unfold ValueFits at h; exact h
    unfold valueToks at hn ⊢
    unfold bareValue
    dsimp only at hn ⊢
    have := readEntries_toks (m :: ms) n rest hl (by simp at hn; omega)
    unfold readValue
    simp only [List.cons_append, List.append_assoc, List.nil_append]
    rw [if_neg (by decide), if_pos trivial, this]
    rfl

theorem readList_toks : ∀ (ls : List Literal) (n : Nat) (rest : List Token), ls ≠ [] → ListFits ls →
    (listToks ls).length + 1 ≤ n →
    readList n (listToks ls ++ .sym ']' :: rest) = some (bareList ls, rest)
  | _, 0, _, _, _, hn => absurd hn (by omega)
  | [], _ + 1, _, hne, _, _ => (hne rfl).elim
  | [l], n + 1, rest, _, h, hn => by
    have hl : ValueFits l ∧ ListFits [] := by unfold ListFits at h; exact h
    unfold listToks listToks at hn ⊢
    unfold bareList bareList readList
    rw [if_pos rfl] at hn ⊢
    simp only [List.append_nil] at hn ⊢
    rw [readValue_toks l n (.sym ']' :: rest) hl.1 (by omega)]
    rfl
  | l :: k :: ls, n + 1, rest, _, h, hn => by
    have hl : ValueFits l ∧ ListFits (k :: ls) := by unfold ListFits at h; exact h
    unfold listToks at hn ⊢
    unfold bareList readList
    rw [if_neg (by simp)] at hn ⊢
    simp only [List.length_append, List.length_cons, List.length_nil] at hn
    rw [List.append_assoc, List.append_assoc]
    rw [readValue_toks l n _ hl.1 (by omega)]
    dsimp only [Option.bind_some]
    rw [List.singleton_append, symbol_self]
    dsimp only
    rw [readList_toks (k :: ls) n rest (by simp) hl.2 (by omega)]
    rfl

theorem readEntries_toks : ∀ (ls : List (Str × Literal)) (n : Nat) (rest : List Token), EntriesFit ls →
    (entriesToks ls).length + 1 ≤ n →
    readEntries n (entriesToks ls ++ .sym '}' :: rest) = some (bareEntries ls, rest)
  | _, 0, _, _, hn => absurd hn (by omega)
  | [], n + 1, rest, _, _ => by
    unfold entriesToks bareEntries readEntries
    rfl
  | l :: ls, n + 1, rest, h, hn => by
    have hl : EntryFits l ∧ EntriesFit ls := by unfold EntriesFit at h; exact h
    unfold entriesToks at hn ⊢
    unfold bareEntries
    simp only [List.length_append] at hn
    rw [List.append_assoc]
    have := readEntry_toks l n (entriesToks ls ++ .sym '}' :: rest) hl.1 (by omega)
    obtain ⟨h1, k, h2, h3⟩ := this
    have hlen : 1 ≤ (entryToks l).length := by
      obtain ⟨name, v⟩ := l
      unfold entryToks
      simp
      omega
    unfold readEntries
    rw [h1]
    dsimp only
    rw [h2]
    dsimp only [Option.bind_some]
    rw [h3]
    dsimp only [Option.bind_some]
    rw [readEntries_toks ls n rest hl.2 (by omega)]
    rfl

theorem readEntry_toks : ∀ (l : Str × Literal) (n : Nat) (rest : List Token), EntryFits l →
    (entryToks l).length ≤ n →
    symbol '}' (entryToks l ++ rest) = none ∧
    ∃ k, nameUntil ':' (entryToks l ++ rest) = some ((bareEntry l).1, k) ∧
      readValue n k = some ((bareEntry l).2, rest)
  | (name, l), n, rest, h, hn => by
    have hl : IsName name ∧ ValueFits l := by unfold EntryFits at h; exact h
    unfold entryToks at hn ⊢
    unfold bareEntry
    simp only [List.length_append] at hn
    rw [List.append_assoc, List.append_assoc]
    refine ⟨symbol_name hl.1 _, _, nameUntil_name colon_not_name _ hl.1, readValue_toks l n rest hl.2 (by omega)⟩

end

/-! ## Options -/

theorem readOption_toks {o : Opt} (h : OptionFits o) {n : Nat} (hn : (optToks o).length ≤ n) (rest : List Token) :
    readOption n (optToks o ++ rest) = some (bareOption o, rest) := by
  unfold optToks at hn ⊢
  unfold readOption bareOption
  simp only [List.length_append] at hn
  rw [List.append_assoc, List.append_assoc, List.singleton_append, nameUntil_name equals_not_name _ h.name]
  dsimp only [Option.bind_some]
  rw [readValue_toks _ n rest h.value (by omega)]
  rfl

theorem readOptionStatement_toks {o : Opt} (h : OptionFits o) {n : Nat} (hn : (optionToks false o).length ≤ n + 1)
    (rest : List Token) :
    ∃ ts, optionToks false o ++ rest = .word s%"option" :: ts ∧ readOptionStatement n ts = some (bareOption o, rest) := by
  refine ⟨optToks o ++ .sym ';' :: rest, by simp [optionToks], ?_⟩
  unfold readOptionStatement
  unfold optionToks at hn
  rw [wrap_false] at hn
  rw [readOption_toks h (by simp at hn; omega)]
  rfl

theorem opt_length (o : Opt) : 1 ≤ (optToks o).length := by unfold optToks; simp; omega

theorem readBracketed_toks : ∀ (os : List Opt) (n : Nat) (rest : List Token), os ≠ [] →
    (∀ o ∈ os, OptionFits o) → (bracketToks os).length + 1 ≤ n →
    readBracketed n (bracketToks os ++ .sym ']' :: rest) = some (os.map bareOption, rest)
  | _, 0, _, _, _, hn => absurd hn (by omega)
  | [], _ + 1, _, hne, _, _ => (hne rfl).elim
  | [o], n + 1, rest, _, h, hn => by
    unfold bracketToks bracketToks at hn ⊢
    unfold readBracketed
    rw [if_pos rfl] at hn ⊢
    simp only [List.append_nil] at hn ⊢
    rw [readOption_toks (h o (List.mem_cons_self ..)) (by omega)]
    rfl
  | o :: p :: os, n + 1, rest, _, h, hn => by
    unfold bracketToks at hn ⊢
    unfold readBracketed
    rw [if_neg (by simp)] at hn ⊢
    simp only [List.length_append, List.length_cons, List.length_nil] at hn
    rw [List.append_assoc, List.append_assoc]
    rw [readOption_toks (h o (List.mem_cons_self ..)) (by omega)]
    dsimp only [Option.bind_some]
    rw [List.singleton_append, symbol_self]
    dsimp only
    rw [readBracketed_toks (p :: os) n rest (by simp) (fun q hq => h q (List.mem_cons_of_mem _ hq)) (by omega)]
    rfl

theorem number_itoa (i : Int) (rest : List Token) : number (.word (itoa i) :: rest) = some (i, rest) := by
  show (readInt (itoa i)).map _ = _
  rw [readInt_itoa]
  rfl

theorem readFieldEnd_toks {i : Int} {os : List Opt} (h : ∀ o ∈ os, OptionFits o) {n : Nat}
    (hn : (fieldEndToks i os).length ≤ n + 1) (rest : List Token) :
    readFieldEnd n (fieldEndToks i os ++ rest) = some ((i, os.map bareOption), rest) := by
  unfold fieldEndToks fieldOptionToks at hn ⊢
  unfold readFieldEnd
  simp only [List.cons_append, List.nil_append, symbol_self, Option.bind_some, number_itoa]
  by_cases ho : os = []
  · rw [if_pos ho, ho]
    rfl
  · rw [if_neg ho] at hn ⊢
    simp only [List.cons_append, List.append_assoc, List.nil_append, symbol_self]
    rw [readBracketed_toks os n _ ho h (by simp at hn; omega)]
    dsimp only [Option.bind_some]
    rw [symbol_self]
    rfl

theorem fieldEnd_length (i : Int) (os : List Opt) : 1 ≤ (fieldEndToks i os).length := by
  unfold fieldEndToks; simp

theorem readField_toks {f : Field} (h : FieldFits f) {n : Nat}
    (hn : (fieldEndToks f.sequence f.options).length ≤ n + 1) (rest : List Token) :
    readField n f.type (.word f.name :: (fieldEndToks f.sequence f.options ++ rest)) = some (bareField f, rest) := by
  unfold readField
  show ((ident (.word f.name :: _)).bind _) = _
  unfold ident
  dsimp only [Option.bind_some]
  rw [readFieldEnd_toks h.options hn]
  rfl

/-! ## Ranges and reserved names -/

theorem readRange_toks (r : Range) {rest : List Token} (h : keyword s%"to" rest = none) :
    readRange (rangeToks r ++ rest) = some (bareRange r, rest) := by
  unfold rangeToks bareRange readRange
  rw [List.cons_append, number_itoa]
  dsimp only [Option.bind_some]
  by_cases hm : r.max = true
  · rw [if_pos hm, if_pos hm]
    rfl
  · rw [if_neg hm, if_neg hm]
    have hm : r.max = false := by simpa using hm
    by_cases he : r.start = r.stop
    · rw [if_neg (fun h => h he), List.nil_append, h]
      dsimp only
      obtain ⟨a, b, m⟩ := r
      dsimp only at he hm ⊢
      rw [he, hm]
    · rw [if_pos he]
      have hk : keyword s%"max" ([.word (itoa r.stop)] ++ rest) = none := by
        rw [List.singleton_append, keyword_word, if_neg]
        intro e
        have := readInt_itoa r.stop
        rw [e] at this
        exact nomatch (rfl : readInt s%"max" = none).symm.trans this
      rw [List.cons_append, keyword_self]
      dsimp only
      rw [hk]
      dsimp only
      rw [List.singleton_append, number_itoa]
      obtain ⟨a, b, m⟩ := r
      dsimp only at hm ⊢
      rw [hm]
      rfl

theorem range_length (r : Range) : 1 ≤ (rangeToks r).length := by unfold rangeToks; simp

theorem readRanges_toks : ∀ (rs : List Range) (n : Nat) (rest : List Token), rs ≠ [] →
    (commaToks rangeToks rs).length + 1 ≤ n →
    readRanges n (commaToks rangeToks rs ++ .sym ';' :: rest) = some (rs.map bareRange, rest)
  | _, 0, _, _, hn => absurd hn (by omega)
  | [], _ + 1, _, hne, _ => (hne rfl).elim
  | [r], n + 1, rest, _, _ => by
    unfold commaToks readRanges
    rw [readRange_toks r rfl]
    rfl
  | r :: s :: rs, n + 1, rest, _, hn => by
    unfold commaToks at hn ⊢
    unfold readRanges
    simp only [List.length_append, List.length_cons, List.length_nil] at hn
    rw [List.append_assoc, List.append_assoc, readRange_toks r rfl]
    dsimp only [Option.bind_some]
    rw [List.singleton_append, symbol_self]
    dsimp only
    have := range_length r
    rw [readRanges_toks (s :: rs) n rest (by simp) (by omega)]
    rfl

theorem readStrings_toks : ∀ (ns : List Str) (n : Nat) (rest : List Token), ns ≠ [] →
    (commaToks (fun n => [Token.str '"' n]) ns).length + 1 ≤ n →
    readStrings n (commaToks (fun n => [Token.str '"' n]) ns ++ .sym ';' :: rest) = some (ns, rest)
  | _, 0, _, _, hn => absurd hn (by omega)
  | [], _ + 1, _, hne, _ => (hne rfl).elim
  | [r], n + 1, rest, _, _ => by
    unfold commaToks readStrings
    rfl
  | r :: s :: rs, n + 1, rest, _, hn => by
    unfold commaToks at hn ⊢
    unfold readStrings
    simp only [List.length_append, List.length_cons, List.length_nil] at hn
    rw [List.append_assoc, List.append_assoc]
    show ((quotedText (.str '"' r :: _)).bind _) = _
    unfold quotedText
    dsimp only [Option.bind_some]
    rw [show ∀ l : List Token, [].append l = l from fun _ => rfl, List.singleton_append, symbol_self]
    dsimp only
    rw [readStrings_toks (s :: rs) n rest (by simp) (by omega)]
    rfl

theorem quoted_strings {ns : List Str} (h : ns ≠ []) (rest : List Token) :
    ∃ k, quotedText (commaToks (fun n => [Token.str '"' n]) ns ++ rest) = some k := by
  match ns, h with
  | [a], _ => exact ⟨_, rfl⟩
  | a :: b :: ns, _ => exact ⟨_, rfl⟩

theorem quoted_ranges {rs : List Range} (h : rs ≠ []) (rest : List Token) :
    quotedText (commaToks rangeToks rs ++ rest) = none := by
  match rs, h with
  | [a], _ => rfl
  | a :: b :: ns, _ => rfl

theorem readReserved_toks {r : Reserved} (hx : r.ranges = [] ↔ r.fieldNames ≠ []) {n : Nat}
    (hn : (reservedToks false r).length ≤ n + 1) (rest : List Token) :
    ∃ ts, reservedToks false r ++ rest = .word s%"reserved" :: ts ∧
      readReserved n ts = some ({ ranges := r.ranges.map bareRange, fieldNames := r.fieldNames }, rest) := by
  unfold reservedToks at hn ⊢
  rw [wrap_false] at hn ⊢
  by_cases hr : r.ranges = []
  · rw [if_neg fun h => h hr] at hn ⊢
    refine ⟨commaToks (fun n => [.str '"' n]) r.fieldNames ++ .sym ';' :: rest, by simp, ?_⟩
    unfold readReserved
    obtain ⟨k, hk⟩ := quoted_strings (hx.1 hr) (.sym ';' :: rest)
    rw [hk]
    dsimp only
    rw [readStrings_toks _ n rest (hx.1 hr) (by simp at hn; omega), hr]
    rfl
  · rw [if_pos hr] at hn ⊢
    refine ⟨commaToks rangeToks r.ranges ++ .sym ';' :: rest, by simp, ?_⟩
    unfold readReserved
    rw [quoted_ranges hr]
    dsimp only
    rw [readRanges_toks _ n rest hr (by simp at hn; omega)]
    have : r.fieldNames = [] := Decidable.not_not.1 fun h => hr (hx.2 h)
    rw [this]
    rfl

/-! ## RPCs -/

theorem readStreamed_toks (streams : Bool) (type : Str) (rest : List Token) :
    readStreamed (streamToks streams type ++ rest) = some ((streams, type), rest) := by
  cases streams <;> rfl

theorem readOptions_toks : ∀ (os : List Opt) (n : Nat) (rest : List Token), (∀ o ∈ os, OptionFits o) →
    (os.flatMap (optionToks false)).length + 1 ≤ n →
    readOptions n (os.flatMap (optionToks false) ++ .sym '}' :: rest) = some (os.map bareOption, rest)
  | _, 0, _, _, hn => absurd hn (by omega)
  | [], n + 1, rest, _, _ => by unfold readOptions; rfl
  | o :: os, n + 1, rest, h, hn => by
    rw [List.flatMap_cons] at hn ⊢
    simp only [List.length_append] at hn
    rw [List.append_assoc]
    obtain ⟨ts, e, hr⟩ := readOptionStatement_toks (h o (List.mem_cons_self ..)) (n := n) (by omega)
      (os.flatMap (optionToks false) ++ .sym '}' :: rest)
    rw [e]
    unfold readOptions
    have hlen : 1 ≤ (optionToks false o).length := by unfold optionToks; simp
    show ((keyword s%"option" (.word s%"option" :: ts)).bind _) = _
    rw [keyword_self]
    dsimp only [Option.bind_some]
    rw [hr]
    dsimp only [Option.bind_some]
    rw [readOptions_toks os n rest (fun p hp => h p (List.mem_cons_of_mem _ hp)) (by omega)]
    rfl

/-- An RPC without comments. -/
def bareRPC (r : RPC) : RPC where
  name := r.name
  requestType := r.requestType
  streamsRequest := r.streamsRequest
  returnsType := r.returnsType
  streamsReturns := r.streamsReturns

/-- An RPC with these options in its body. -/
theorem readRPC_toks (r : RPC) {os : List Opt} (h : ∀ o ∈ os, OptionFits o) {n : Nat}
    (hn : (rpcToks false r os).length ≤ n + 1) (rest : List Token) :
    ∃ ts, rpcToks false r os ++ rest = .word s%"rpc" :: ts ∧
      readRPC n ts = some (.rpc (bareRPC r) ((os.map bareOption).map .option), rest) := by
  unfold rpcToks at hn ⊢
  rw [wrap_false] at hn ⊢
  refine ⟨.word r.name :: (streamToks r.streamsRequest r.requestType ++ (.word s%"returns" ::
    (streamToks r.streamsReturns r.returnsType ++
      ((if os = [] then [.sym ';'] else .sym '{' :: os.flatMap (optionToks false) ++ [.sym '}']) ++ rest)))), by simp, ?_⟩
  unfold readRPC
  show ((ident (.word r.name :: _)).bind _) = _
  rw [ident_word]
  dsimp only [Option.bind_some]
  rw [readStreamed_toks]
  dsimp only [Option.bind_some]
  rw [keyword_self]
  dsimp only [Option.bind_some]
  rw [readStreamed_toks]
  dsimp only [Option.bind_some]
  by_cases ho : os = []
  · rw [if_pos ho, ho]
    rfl
  · rw [if_neg ho] at hn ⊢
    have e1 : (Token.sym '{' :: os.flatMap (optionToks false) ++ [.sym '}']) ++ rest =
        .sym '{' :: (os.flatMap (optionToks false) ++ .sym '}' :: rest) := by simp
    rw [e1]
    have e2 : symbol ';' (.sym '{' :: (os.flatMap (optionToks false) ++ .sym '}' :: rest)) = none := by
      rw [symbol_sym, if_neg (by decide)]
    rw [e2]
    dsimp only
    rw [symbol_self]
    dsimp only [Option.bind_some]
    rw [readOptions_toks os n rest h (by
      simp only [List.length_append, List.length_cons, List.length_nil] at hn; omega)]
    rfl

/-! ## Declarations -/

theorem bareAll_options {es : List Element} (h : ∀ e ∈ es, OnlyOption e) :
    bareAll es = ((optionsAmong es).map bareOption).map .option := by
  induction es with
  | nil => unfold bareAll; rfl
  | cons e es ih =>
    have ih := ih fun d hd => h d (List.mem_cons_of_mem _ hd)
    have he := h e (List.mem_cons_self ..)
    cases e <;> first | exact he.elim | skip
    · unfold bareAll
      rw [ih]
      rfl
    · unfold bareAll bare
      rw [ih]
      rfl

theorem readHead_toks (name : Str) (rest : List Token) :
    readHead (.word name :: .sym '{' :: rest) = some (name, rest) := by
  unfold readHead
  rw [ident_word]
  dsimp only [Option.bind_some]
  rw [symbol_self]
  rfl

theorem readGroupHead_toks (name : Str) (i : Int) (rest : List Token) :
    readGroupHead (.word name :: .sym '=' :: .word (itoa i) :: .sym '{' :: rest) = some ((name, i), rest) := by
  unfold readGroupHead
  rw [ident_word]
  dsimp only [Option.bind_some]
  rw [symbol_self]
  dsimp only [Option.bind_some]
  rw [number_itoa]
  dsimp only [Option.bind_some]
  rw [symbol_self]
  rfl

/-- The declaration is a comment. -/
theorem bareAll_cons {e : Element} (h : isComment e = false) (es : List Element) :
    bareAll (e :: es) = bare e :: bareAll es := by
  cases e with
  | comment c => cases h
  | _ => rw [bareAll]; exact fun _ h => nomatch h

theorem holds_ne {around : Around} (h : holdsMessages around = true) :
    around ≠ .none ∧ around ≠ .service ∧ around ≠ .enum ∧ around ≠ .oneof := by
  cases around <;> first | exact absurd h (by decide) | exact ⟨by decide, by decide, by decide, by decide⟩

/-! ### Productions -/

/-- The words that begin a declaration everywhere, or begin one in the body of a message. -/
theorem not_words {w : Str} (h : w ∉ messageWords) :
    w ≠ s%"option" ∧ ¬ (w = s%"message" ∨ w = s%"extend") ∧ w ≠ s%"enum" ∧ w ≠ s%"reserved" ∧
    w ≠ s%"group" ∧ w ≠ s%"oneof" ∧ w ≠ s%"extensions" ∧ w ≠ s%"map" ∧
    ¬ (w = s%"optional" ∨ w = s%"required" ∨ w = s%"repeated") := by
  unfold messageWords at h
  simp only [List.mem_cons, List.not_mem_nil, or_false, not_or] at h
  obtain ⟨h1, h2, h3, h4, h5, h6, h7, h8, h9, h10, h11, h12⟩ := h
  exact ⟨h1, fun h => h.elim h2 h3, h4, h6, h12, h5, h7, h8, fun h => h.elim h9 fun h => h.elim h10 h11⟩

section productions

variable (around : Around) (n : Nat) (ts : List Token)

theorem read_option : readElement around (n + 1) (.word s%"option" :: ts) =
    (readOptionStatement n ts).map fun r => (.option r.1, r.2) := by
  unfold readElement
  rw [ident_word]
  dsimp only [Option.bind_some]
  rw [if_pos rfl]

variable {around}

theorem read_message (h : around = .none ∨ holdsMessages around) (extend : Bool) :
    readElement around (n + 1) (.word (if extend then s%"extend" else s%"message") :: ts) =
    (readHead ts).bind fun h => (readElements .message n h.2).map fun r =>
      (.message { name := h.1, isExtend := extend } r.1, r.2) := by
  unfold readElement
  rw [ident_word]
  dsimp only [Option.bind_some]
  cases extend
  · rw [if_neg (by decide), if_pos ⟨h, .inl rfl⟩]
    rfl
  · rw [if_neg (by decide), if_pos ⟨h, .inr rfl⟩]
    rfl

theorem read_enum (h : around = .none ∨ holdsMessages around) :
    readElement around (n + 1) (.word s%"enum" :: ts) =
    (readHead ts).bind fun h => (readElements .enum n h.2).map fun r => (.enum { name := h.1 } r.1, r.2) := by
  unfold readElement
  rw [ident_word]
  dsimp only [Option.bind_some]
  rw [if_neg (by decide), if_neg fun h => absurd h.2 (by decide), if_pos ⟨h, rfl⟩]

theorem read_service :
    readElement .none (n + 1) (.word s%"service" :: ts) =
    (readHead ts).bind fun h => (readElements .service n h.2).map fun r =>
      (.service { name := h.1 } r.1, r.2) := by
  unfold readElement
  rw [ident_word]
  dsimp only [Option.bind_some]
  rw [if_neg (by decide), if_neg fun h => absurd h.2 (by decide), if_neg fun h => absurd h.2 (by decide),
    if_pos ⟨rfl, rfl⟩]

theorem read_top {w : Str} (h : w ∈ [s%"syntax", s%"package", s%"import"]) :
    readElement .none (n + 1) (.word w :: ts) = readTop w ts := by
  unfold readElement
  rw [ident_word]
  dsimp only [Option.bind_some]
  have h1 : w ≠ s%"option" ∧ ¬ (w = s%"message" ∨ w = s%"extend") ∧ w ≠ s%"enum" ∧ w ≠ s%"service" := by
    simp only [List.mem_cons, List.not_mem_nil, or_false] at h
    rcases h with rfl | rfl | rfl <;> decide
  rw [if_neg h1.1, if_neg fun h => h1.2.1 h.2, if_neg fun h => h1.2.2.1 h.2, if_neg fun h => h1.2.2.2 h.2,
    if_pos rfl]

theorem read_rpc : readElement .service (n + 1) (.word s%"rpc" :: ts) = readRPC n ts := by
  unfold readElement
  rw [ident_word]
  dsimp only [Option.bind_some]
  rw [if_neg (by decide), if_neg fun h => absurd h.2 (by decide), if_neg fun h => absurd h.2 (by decide),
    if_neg fun h => absurd h.2 (by decide), if_neg (by decide), if_pos rfl, if_pos rfl]

theorem read_reserved (h : around = .enum ∨ holdsMessages around) :
    readElement around (n + 1) (.word s%"reserved" :: ts) =
    (readReserved n ts).map fun r => (.reserved r.1, r.2) := by
  have ha : around ≠ .none ∧ around ≠ .service := by
    rcases h with rfl | h
    · exact ⟨by decide, by decide⟩
    · exact ⟨(holds_ne h).1, (holds_ne h).2.1⟩
  unfold readElement
  rw [ident_word]
  dsimp only [Option.bind_some]
  rw [if_neg (by decide), if_neg fun h => absurd h.2 (by decide), if_neg fun h => absurd h.2 (by decide),
    if_neg fun h => absurd h.2 (by decide), if_neg ha.1, if_neg ha.2, if_pos ⟨h, rfl⟩]

theorem read_enumField {w : Str} (h : w ∉ [s%"option", s%"reserved"]) :
    readElement .enum (n + 1) (.word w :: ts) =
    (readFieldEnd n ts).map fun r =>
      (.enumField { name := w, integer := r.1.1 } (r.1.2.map .option), r.2) := by
  simp only [List.mem_cons, List.not_mem_nil, or_false, not_or] at h
  unfold readElement
  rw [ident_word]
  dsimp only [Option.bind_some]
  rw [if_neg h.1, if_neg fun h => absurd h.1 (by decide), if_neg fun h => absurd h.1 (by decide),
    if_neg fun h => absurd h.1 (by decide), if_neg (by decide), if_neg (by decide), if_neg fun k => h.2 k.2,
    if_pos rfl]

theorem read_group (h : around = .oneof ∨ holdsMessages around) :
    readElement around (n + 1) (.word s%"group" :: ts) = readGroup n false ts := by
  have ha : around ≠ .none ∧ around ≠ .service ∧ around ≠ .enum := by
    rcases h with rfl | h
    · exact ⟨by decide, by decide, by decide⟩
    · exact ⟨(holds_ne h).1, (holds_ne h).2.1, (holds_ne h).2.2.1⟩
  unfold readElement
  rw [ident_word]
  dsimp only [Option.bind_some]
  rw [if_neg (by decide), if_neg fun h => absurd h.2 (by decide), if_neg fun h => absurd h.2 (by decide),
    if_neg fun h => absurd h.2 (by decide), if_neg ha.1, if_neg ha.2.1, if_neg fun h => absurd h.2 (by decide),
    if_neg ha.2.2, if_pos rfl]

theorem read_oneofField {w : Str} (h : w ∉ [s%"option", s%"group"]) :
    readElement .oneof (n + 1) (.word w :: ts) = (readField n w ts).map fun r => (.oneofField r.1, r.2) := by
  simp only [List.mem_cons, List.not_mem_nil, or_false, not_or] at h
  unfold readElement
  rw [ident_word]
  dsimp only [Option.bind_some]
  rw [if_neg h.1, if_neg fun h => absurd h.1 (by decide), if_neg fun h => absurd h.1 (by decide),
    if_neg fun h => absurd h.1 (by decide), if_neg (by decide), if_neg (by decide),
    if_neg fun h => absurd h.1 (by decide), if_neg (by decide), if_neg h.2, if_pos rfl]

theorem read_oneof (h : holdsMessages around) :
    readElement around (n + 1) (.word s%"oneof" :: ts) =
    (readHead ts).bind fun h => (readElements .oneof n h.2).map fun r => (.oneof { name := h.1 } r.1, r.2) := by
  obtain ⟨h1, h2, h3, h4⟩ := holds_ne h
  unfold readElement
  rw [ident_word]
  dsimp only [Option.bind_some]
  rw [if_neg (by decide), if_neg fun h => absurd h.2 (by decide), if_neg fun h => absurd h.2 (by decide),
    if_neg fun h => absurd h.2 (by decide), if_neg h1, if_neg h2, if_neg fun h => absurd h.2 (by decide),
    if_neg h3, if_neg (by decide), if_neg h4, if_pos rfl]

theorem read_extensions (h : holdsMessages around) :
    readElement around (n + 1) (.word s%"extensions" :: ts) =
    (readRanges n ts).map fun r => (.extensions { ranges := r.1 }, r.2) := by
  obtain ⟨h1, h2, h3, h4⟩ := holds_ne h
  unfold readElement
  rw [ident_word]
  dsimp only [Option.bind_some]
  rw [if_neg (by decide), if_neg fun h => absurd h.2 (by decide), if_neg fun h => absurd h.2 (by decide),
    if_neg fun h => absurd h.2 (by decide), if_neg h1, if_neg h2, if_neg fun h => absurd h.2 (by decide),
    if_neg h3, if_neg (by decide), if_neg h4, if_neg (by decide), if_pos rfl]

theorem read_map (h : holdsMessages around) :
    readElement around (n + 1) (.word s%"map" :: ts) = readMap n ts := by
  obtain ⟨h1, h2, h3, h4⟩ := holds_ne h
  unfold readElement
  rw [ident_word]
  dsimp only [Option.bind_some]
  rw [if_neg (by decide), if_neg fun h => absurd h.2 (by decide), if_neg fun h => absurd h.2 (by decide),
    if_neg fun h => absurd h.2 (by decide), if_neg h1, if_neg h2, if_neg fun h => absurd h.2 (by decide),
    if_neg h3, if_neg (by decide), if_neg h4, if_neg (by decide), if_neg (by decide), if_pos rfl]

/-- A label. -/
theorem read_label (h : holdsMessages around) {w : Str}
    (hw : w = s%"optional" ∨ w = s%"required" ∨ w = s%"repeated") :
    readElement around (n + 1) (.word w :: ts) =
    match keyword s%"group" ts with
    | some ts => readGroup n (w = s%"optional") ts
    | none =>
      (ident ts).bind fun type =>
      (readField n type.1 type.2).map fun r =>
        (.normalField { field := r.1, optional := w = s%"optional", required := w = s%"required",
                        repeated := w = s%"repeated" }, r.2) := by
  obtain ⟨h1, h2, h3, h4⟩ := holds_ne h
  have e : w ≠ s%"option" ∧ ¬ (w = s%"message" ∨ w = s%"extend") ∧ w ≠ s%"enum" ∧ w ≠ s%"reserved" ∧
      w ≠ s%"group" ∧ w ≠ s%"oneof" ∧ w ≠ s%"extensions" ∧ w ≠ s%"map" := by
    rcases hw with rfl | rfl | rfl <;> decide
  obtain ⟨e1, e2, e3, e4, e5, e6, e7, e8⟩ := e
  unfold readElement
  rw [ident_word]
  dsimp only [Option.bind_some]
  rw [if_neg e1, if_neg fun h => e2 h.2, if_neg fun h => e3 h.2, if_neg fun h => h1 h.1, if_neg h1, if_neg h2,
    if_neg fun h => e4 h.2, if_neg h3, if_neg e5, if_neg h4, if_neg e6, if_neg e7, if_neg e8, if_pos hw]
  rfl

theorem read_field (h : holdsMessages around) {w : Str} (hw : w ∉ messageWords) :
    readElement around (n + 1) (.word w :: ts) =
    (readField n w ts).map fun r => (.normalField { field := r.1 }, r.2) := by
  obtain ⟨h1, h2, h3, h4⟩ := holds_ne h
  obtain ⟨e1, e2, e3, e4, e5, e6, e7, e8, e9⟩ := not_words hw
  unfold readElement
  rw [ident_word]
  dsimp only [Option.bind_some]
  rw [if_neg e1, if_neg fun h => e2 h.2, if_neg fun h => e3 h.2, if_neg fun h => h1 h.1, if_neg h1, if_neg h2,
    if_neg fun h => e4 h.2, if_neg h3, if_neg e5, if_neg h4, if_neg e6, if_neg e7, if_neg e8, if_neg e9]

end productions

/-- A declaration begins with a word. -/
theorem element_head (isProto2 : Bool) {e : Element} (h : isComment e = false) :
    ∃ w ts, elementToks false isProto2 e = .word w :: ts := by
  cases e with
  | comment c => cases h
  | normalField f =>
    unfold elementToks labelToks
    (repeat' split) <;> exact ⟨_, _, rfl⟩
  | group g es =>
    unfold elementToks
    split <;> exact ⟨_, _, rfl⟩
  | reserved r => unfold elementToks reservedToks; exact ⟨_, _, rfl⟩
  | option r => unfold elementToks optionToks; exact ⟨_, _, rfl⟩
  | rpc r => unfold elementToks rpcToks; exact ⟨_, _, rfl⟩
  | _ => unfold elementToks; exact ⟨_, _, rfl⟩

/-- The tokens of a field with its label. -/
theorem read_normalField {isProto2 : Bool} {around : Around} {f : NormalField} (ha : holdsMessages around)
    (hf : FieldFits f.field) (hl : LabelFits isProto2 f) {n : Nat} (rest : List Token)
    (hn : (elementToks false isProto2 (.normalField f)).length ≤ n + 1) :
    readElement around (n + 1) (elementToks false isProto2 (.normalField f) ++ rest) =
      some (bare (.normalField f), rest) := by
  unfold elementToks at hn ⊢
  rw [wrap_false] at hn ⊢
  unfold bare
  simp only [List.length_append, List.length_cons, List.length_nil] at hn
  have hlen := fieldEnd_length f.field.sequence f.field.options
  have hn' : (fieldEndToks f.field.sequence f.field.options).length ≤ n + 1 := by omega
  have labelled : ∀ w : Str, w = s%"optional" ∨ w = s%"required" ∨ w = s%"repeated" →
      readElement around (n + 1) (.word w :: .word f.field.type :: .word f.field.name ::
        (fieldEndToks f.field.sequence f.field.options ++ rest)) =
      some (.normalField { field := bareField f.field, optional := w = s%"optional",
                           required := w = s%"required", repeated := w = s%"repeated" }, rest) := by
    intro w hw
    rw [read_label _ _ ha hw, keyword_word, if_neg hl.1]
    dsimp only
    rw [ident_word]
    dsimp only [Option.bind_some]
    rw [readField_toks hf (by omega)]
    rfl
  have e : labelToks isProto2 f ++ [.word f.field.type, .word f.field.name] ++
      fieldEndToks f.field.sequence f.field.options ++ rest = labelToks isProto2 f ++
      (.word f.field.type :: .word f.field.name :: (fieldEndToks f.field.sequence f.field.options ++ rest)) := by
    simp
  rw [e]
  obtain ⟨field, repeated, optional, required⟩ := f
  obtain ⟨_, hl⟩ := hl
  cases isProto2 with
  | true =>
    rw [if_pos rfl] at hl
    simp only [List.mem_cons, List.not_mem_nil, or_false, Prod.mk.injEq] at hl
    rcases hl with ⟨rfl, rfl, rfl⟩ | ⟨rfl, rfl, rfl⟩ | ⟨rfl, rfl, rfl⟩
    · exact labelled s%"repeated" (.inr (.inr rfl))
    · exact labelled s%"optional" (.inl rfl)
    · exact labelled s%"required" (.inr (.inl rfl))
  | false =>
    rw [if_neg (by decide)] at hl
    dsimp only at hl
    obtain ⟨rfl, rfl, ht⟩ := hl
    cases repeated with
    | true => exact labelled s%"repeated" (.inr (.inr rfl))
    | false =>
      show readElement around (n + 1) (.word field.type :: .word field.name ::
        (fieldEndToks field.sequence field.options ++ rest)) = _
      rw [read_field _ _ ha (ht rfl), readField_toks hf hn']
      rfl

mutual

theorem readElement_toks (isProto2 : Bool) (around : Around) : ∀ (e : Element) (n : Nat) (rest : List Token),
    isComment e = false → ElementFits isProto2 around e → (elementToks false isProto2 e).length ≤ n →
    readElement around n (elementToks false isProto2 e ++ rest) = some (bare e, rest)
  | .comment c, _, _, h, _, _ => nomatch h
  | .syntax s, n, rest, _, h, hn => by
    unfold ElementFits at h
    obtain ⟨rfl, _⟩ := h
    unfold elementToks at hn ⊢
    rw [wrap_false] at hn ⊢
    obtain ⟨n, rfl⟩ : ∃ m, n = m + 1 := ⟨n - 1, by simp at hn; omega⟩
    unfold bare
    exact read_top n _ (by decide)
  | .package p, n, rest, _, h, hn => by
    unfold ElementFits at h
    obtain ⟨rfl, _⟩ := h
    unfold elementToks at hn ⊢
    rw [wrap_false] at hn ⊢
    obtain ⟨n, rfl⟩ : ∃ m, n = m + 1 := ⟨n - 1, by simp at hn; omega⟩
    unfold bare
    exact read_top n _ (by decide)
  | .import i, n, rest, _, h, hn => by
    unfold ElementFits at h
    obtain ⟨rfl, _, _, _, hk⟩ := h
    unfold elementToks at hn ⊢
    rw [wrap_false] at hn ⊢
    obtain ⟨n, rfl⟩ : ∃ m, n = m + 1 := ⟨n - 1, by simp at hn; omega⟩
    unfold bare
    rw [List.cons_append, List.cons_append, read_top n _ (by decide)]
    simp only [List.mem_cons, List.not_mem_nil, or_false] at hk
    obtain ⟨p, c, f, kind, i⟩ := i
    dsimp only at hk ⊢
    rcases hk with rfl | rfl | rfl <;> rfl
  | .option o, n, rest, _, h, hn => by
    unfold ElementFits at h
    unfold elementToks at hn ⊢
    obtain ⟨n, rfl⟩ : ∃ m, n = m + 1 := ⟨n - 1, by simp [optionToks] at hn; omega⟩
    obtain ⟨ts, e, hr⟩ := readOptionStatement_toks h hn rest
    unfold bare
    rw [e, read_option, hr]
    rfl
  | .message m es, n, rest, _, h, hn => by
    unfold ElementFits at h
    obtain ⟨ha, _, _, hes⟩ := h
    unfold elementToks at hn ⊢
    rw [wrap_false] at hn ⊢
    unfold bare
    simp only [List.length_append, List.length_cons, List.length_nil] at hn
    obtain ⟨n, rfl⟩ : ∃ m, n = m + 1 := ⟨n - 1, by omega⟩
    simp only [List.cons_append, List.append_assoc, List.nil_append]
    rw [read_message _ _ ha, readHead_toks]
    dsimp only [Option.bind_some]
    rw [readElements_toks isProto2 .message es n rest (by decide) hes (by omega)]
    rfl
  | .enum m es, n, rest, _, h, hn => by
    unfold ElementFits at h
    obtain ⟨ha, _, _, hes⟩ := h
    unfold elementToks at hn ⊢
    rw [wrap_false] at hn ⊢
    unfold bare
    simp only [List.length_append, List.length_cons, List.length_nil] at hn
    obtain ⟨n, rfl⟩ : ∃ m, n = m + 1 := ⟨n - 1, by omega⟩
    simp only [List.cons_append, List.append_assoc, List.nil_append]
    rw [read_enum _ _ ha, readHead_toks]
    dsimp only [Option.bind_some]
    rw [readElements_toks isProto2 .enum es n rest (by decide) hes (by omega)]
    rfl
  | .service m es, n, rest, _, h, hn => by
    unfold ElementFits at h
    obtain ⟨rfl, _, _, hes⟩ := h
    unfold elementToks at hn ⊢
    rw [wrap_false] at hn ⊢
    unfold bare
    simp only [List.length_append, List.length_cons, List.length_nil] at hn
    obtain ⟨n, rfl⟩ : ∃ m, n = m + 1 := ⟨n - 1, by omega⟩
    simp only [List.cons_append, List.append_assoc, List.nil_append]
    rw [read_service, readHead_toks]
    dsimp only [Option.bind_some]
    rw [readElements_toks isProto2 .service es n rest (by decide) hes (by omega)]
    rfl
  | .oneof m es, n, rest, _, h, hn => by
    unfold ElementFits at h
    obtain ⟨ha, _, _, hes⟩ := h
    unfold elementToks at hn ⊢
    rw [wrap_false] at hn ⊢
    unfold bare
    simp only [List.length_append, List.length_cons, List.length_nil] at hn
    obtain ⟨n, rfl⟩ : ∃ m, n = m + 1 := ⟨n - 1, by omega⟩
    simp only [List.cons_append, List.append_assoc, List.nil_append]
    rw [read_oneof _ _ ha, readHead_toks]
    dsimp only [Option.bind_some]
    rw [readElements_toks isProto2 .oneof es n rest (by decide) hes (by omega)]
    rfl
  | .group g es, n, rest, _, h, hn => by
    unfold ElementFits at h
    obtain ⟨ha, _, _, hes⟩ := h
    unfold elementToks at hn ⊢
    rw [wrap_false] at hn ⊢
    unfold bare
    have hbody : ∀ (m : Nat) (o : Bool), (elementsToks false isProto2 es).length + 1 ≤ m →
        readGroup (m + 1) o (.word g.name :: .sym '=' :: .word (itoa g.sequence) :: .sym '{' ::
          (elementsToks false isProto2 es ++ .sym '}' :: rest)) =
        some (.group { name := g.name, optional := o, sequence := g.sequence } (bareAll es), rest) := by
      intro m o hm
      unfold readGroup
      rw [readGroupHead_toks]
      dsimp only [Option.bind_some]
      rw [readElements_toks isProto2 .group es m rest (by decide) hes hm]
      rfl
    cases ho : g.optional with
    | false =>
      rw [ho, if_neg (by decide)] at hn
      simp only [List.length_append, List.length_cons, List.length_nil] at hn
      obtain ⟨n, rfl⟩ : ∃ m, n = m + 1 + 1 := ⟨n - 2, by omega⟩
      rw [if_neg (by decide)]
      simp only [List.cons_append, List.append_assoc, List.nil_append]
      rw [read_group _ _ (ha.imp_left (·.1)), hbody _ _ (by omega)]
    | true =>
      rw [ho, if_pos rfl] at hn
      simp only [List.length_append, List.length_cons, List.length_nil] at hn
      obtain ⟨n, rfl⟩ : ∃ m, n = m + 1 + 1 := ⟨n - 2, by omega⟩
      rw [if_pos rfl]
      simp only [List.cons_append, List.append_assoc, List.nil_append]
      have ha : holdsMessages around := ha.elim (fun h => nomatch ho.symm.trans h.2) id
      rw [read_label _ _ ha (.inl rfl), keyword_self]
      dsimp only
      rw [hbody _ _ (by omega)]
      rfl
  | .enumField f es, n, rest, _, h, hn => by
    unfold ElementFits at h
    obtain ⟨rfl, _, _, _, hw, hes⟩ := h
    unfold elementToks at hn ⊢
    rw [wrap_false] at hn ⊢
    unfold bare
    obtain ⟨n, rfl⟩ : ∃ m, n = m + 1 := ⟨n - 1, by simp at hn; omega⟩
    rw [List.cons_append, read_enumField _ _ hw,
      readFieldEnd_toks (optionsAmong_fit hes) (by simp at hn; omega), bareAll_options hes]
    rfl
  | .rpc r es, n, rest, _, h, hn => by
    unfold ElementFits at h
    obtain ⟨rfl, _, _, _, _, _, hes⟩ := h
    unfold elementToks at hn ⊢
    unfold bare
    obtain ⟨n, rfl⟩ : ∃ m, n = m + 1 := ⟨n - 1, by simp [rpcToks] at hn; omega⟩
    obtain ⟨ts, e, hr⟩ := readRPC_toks r (optionsAmong_fit hes) hn rest
    rw [e, read_rpc, hr, bareAll_options hes]
    rfl
  | .normalField f, n, rest, _, h, hn => by
    unfold ElementFits at h
    obtain ⟨ha, hf, hl⟩ := h
    obtain ⟨n, rfl⟩ : ∃ m, n = m + 1 := ⟨n - 1, by unfold elementToks at hn; simp at hn; omega⟩
    exact read_normalField ha hf hl rest hn
  | .mapField f, n, rest, _, h, hn => by
    unfold ElementFits at h
    obtain ⟨ha, hf, _⟩ := h
    unfold elementToks at hn ⊢
    rw [wrap_false] at hn ⊢
    unfold bare
    simp only [List.length_append, List.length_cons, List.length_nil] at hn
    obtain ⟨n, rfl⟩ : ∃ m, n = m + 1 := ⟨n - 1, by omega⟩
    simp only [List.cons_append, List.nil_append]
    rw [read_map _ _ ha]
    unfold readMap
    simp only [symbol_self, ident_word, Option.bind_some]
    rw [readField_toks hf (by omega)]
    rfl
  | .oneofField f, n, rest, _, h, hn => by
    unfold ElementFits at h
    obtain ⟨rfl, hf, hw⟩ := h
    unfold elementToks at hn ⊢
    rw [wrap_false] at hn ⊢
    unfold bare
    simp only [List.length_append, List.length_cons, List.length_nil] at hn
    obtain ⟨n, rfl⟩ : ∃ m, n = m + 1 := ⟨n - 1, by omega⟩
    simp only [List.cons_append, List.nil_append]
    rw [read_oneofField _ _ hw, readField_toks hf (by omega)]
    rfl
  | .reserved r, n, rest, _, h, hn => by
    unfold ElementFits at h
    obtain ⟨ha, _, _, hx, _⟩ := h
    unfold elementToks at hn ⊢
    unfold bare
    obtain ⟨n, rfl⟩ : ∃ m, n = m + 1 := ⟨n - 1, by simp [reservedToks] at hn; omega⟩
    obtain ⟨ts, e, hr⟩ := readReserved_toks hx hn rest
    rw [e, read_reserved _ _ ha, hr]
    rfl
  | .extensions x, n, rest, _, h, hn => by
    unfold ElementFits at h
    obtain ⟨ha, _, _, hx⟩ := h
    unfold elementToks at hn ⊢
    rw [wrap_false] at hn ⊢
    unfold bare
    simp only [List.length_append, List.length_cons, List.length_nil] at hn
    obtain ⟨n, rfl⟩ : ∃ m, n = m + 1 := ⟨n - 1, by omega⟩
    simp only [List.cons_append, List.append_assoc, List.nil_append]
    rw [read_extensions _ _ ha, readRanges_toks _ _ _ hx (by omega)]
    rfl

theorem readElements_toks (isProto2 : Bool) (around : Around) : ∀ (es : List Element) (n : Nat)
    (rest : List Token), around ≠ .none → ElementsFit isProto2 around es →
    (elementsToks false isProto2 es).length + 1 ≤ n →
    readElements around n (elementsToks false isProto2 es ++ .sym '}' :: rest) = some (bareAll es, rest)
  | [], n, rest, ha, _, hn => by
    obtain ⟨n, rfl⟩ : ∃ m, n = m + 1 := ⟨n - 1, by omega⟩
    unfold elementsToks readElements bareAll
    rw [if_neg fun h => ha h.1, if_neg ha]
    rfl
  | e :: es, n, rest, ha, h, hn => by
    have he : ElementFits isProto2 around e ∧ ElementsFit isProto2 around es := by
      unfold ElementsFit at h; exact h
    unfold elementsToks at hn ⊢
    cases hc : isComment e with
    | true =>
      cases e with
      | comment c =>
        unfold elementToks at hn ⊢
        unfold bareAll
        exact readElements_toks isProto2 around es n rest ha he.2 hn
      | _ => cases hc
    | false =>
      simp only [List.length_append] at hn
      obtain ⟨w, ts, hw⟩ := element_head isProto2 hc
      have hlen : 1 ≤ (elementToks false isProto2 e).length := by rw [hw]; simp
      obtain ⟨n, rfl⟩ : ∃ m, n = m + 1 := ⟨n - 1, by omega⟩
      rw [bareAll_cons hc, List.append_assoc]
      unfold readElements
      rw [if_neg fun h => ha h.1, if_neg ha]
      have hsym : symbol '}' (elementToks false isProto2 e ++ (elementsToks false isProto2 es ++ .sym '}' :: rest)) = none := by
        rw [hw]; rfl
      rw [hsym]
      dsimp only
      rw [readElement_toks isProto2 around e n _ hc he.1 (by omega)]
      dsimp only [Option.bind_some]
      rw [readElements_toks isProto2 around es n rest ha he.2 (by omega)]
      rfl

end

end Verif.Format
