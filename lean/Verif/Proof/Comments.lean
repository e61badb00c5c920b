import Verif.Spec.Comments
import Verif.Proof.ReadFix

/-! # The comments in the formatted text -/

namespace Verif.Format

open Verif Str Proto Spec


theorem comms_append (a b : List Token) : commentsAt (a ++ b) = commentsAt a ++ commentsAt b := List.filterMap_append ..

theorem comms_nil : commentsAt [] = [] := rfl

theorem comms_word (w : Str) (ts : List Token) : commentsAt (.word w :: ts) = commentsAt ts := rfl

theorem comms_sym (w : Char) (ts : List Token) : commentsAt (.sym w :: ts) = commentsAt ts := rfl

theorem comms_str (q : Char) (w : Str) (ts : List Token) : commentsAt (.str q w :: ts) = commentsAt ts := rfl

theorem comms_note (c : Option Comment) : commentsAt (noteToks true c) = commentsOn c := by
  cases c with
  | none => rfl
  | some c =>
    show (c.lines.map _).filterMap _ = c.lines.map commentText
    rw [List.filterMap_map]
    exact congrFun (List.filterMap_eq_map (f := commentText)) c.lines

theorem comms_wrap (c : Option Comment) (ts : List Token) (i : Option Comment) :
    commentsAt (wrap true c ts i) = commentsOn c ++ commentsAt ts ++ commentsOn i := by
  show commentsAt (noteToks true c ++ ts ++ noteToks true i) = _
  rw [comms_append, comms_append, comms_note, comms_note]

theorem comms_name : ∀ (s : Str) (w : Option Str), commentsAt (nameTokens w s) = []
  | [], none => rfl
  | [], some _ => rfl
  | c :: s, w => by
    unfold nameTokens
    cases w <;> dsimp only <;> split <;> simp [comms_append, comms_word, comms_sym, comms_nil, comms_name s]

mutual

theorem comms_value : ∀ (l : Literal), commentsAt (valueToks l) = []
  | .mk source isString quote [] [] => by
    unfold valueToks
    dsimp only
    split <;> rfl
  | .mk source isString quote (a :: as) map => by
    unfold valueToks
    simp [comms_append, comms_sym, comms_nil, comms_list (a :: as)]
  | .mk source isString quote [] (m :: ms) => by
    unfold valueToks
    simp [comms_append, comms_sym, comms_nil, comms_entries (m :: ms)]

theorem comms_list : ∀ (ls : List Literal), commentsAt (listToks ls) = []
  | [] => by unfold listToks; rfl
  | l :: ls => by
    unfold listToks
    rw [comms_append, comms_append, comms_value l, comms_list ls]
    split <;> rfl

theorem comms_entries : ∀ (ls : List (Str × Literal)), commentsAt (entriesToks ls) = []
  | [] => by unfold entriesToks; rfl
  | l :: ls => by
    unfold entriesToks
    rw [comms_append, comms_entry l, comms_entries ls]
    rfl

theorem comms_entry : ∀ (l : Str × Literal), commentsAt (entryToks l) = []
  | (name, l) => by
    unfold entryToks
    rw [comms_append, comms_append, comms_name, comms_value l]
    rfl

end

theorem comms_opt (o : Opt) : commentsAt (optToks o) = [] := by
  unfold optToks
  rw [comms_append, comms_append, comms_name, comms_value]
  rfl

theorem comms_option (o : Opt) : commentsAt (optionToks true o) = optionComments o := by
  unfold optionToks
  rw [comms_wrap]
  simp [comms_append, comms_word, comms_sym, comms_nil, comms_opt, optionComments]

theorem comms_bracket : ∀ (os : List Opt), commentsAt (bracketToks os) = []
  | [] => rfl
  | o :: os => by
    unfold bracketToks
    rw [comms_append, comms_append, comms_opt, comms_bracket os]
    split <;> rfl

theorem comms_fieldEnd (n : Int) (os : List Opt) : commentsAt (fieldEndToks n os) = [] := by
  unfold fieldEndToks fieldOptionToks
  rw [comms_append, comms_append]
  split
  · rfl
  · simp [comms_append, comms_word, comms_sym, comms_nil, comms_bracket]

theorem comms_range (r : Range) : commentsAt (rangeToks r) = [] := by
  unfold rangeToks
  (repeat' split) <;> rfl

theorem comms_comma {α : Type} {f : α → List Token} (h : ∀ a, commentsAt (f a) = []) : ∀ l : List α,
    commentsAt (commaToks f l) = []
  | [] => rfl
  | [a] => h a
  | a :: b :: l => by
    unfold commaToks
    rw [comms_append, comms_append, h, comms_comma h (b :: l)]
    rfl

theorem comms_label (b : Bool) (f : NormalField) : commentsAt (labelToks b f) = [] := by
  unfold labelToks
  (repeat' split) <;> rfl

theorem comms_stream (b : Bool) (s : Str) : commentsAt (streamToks b s) = [] := by
  unfold streamToks
  cases b <;> rfl

theorem comms_options (os : List Opt) :
    commentsAt (os.flatMap (optionToks true)) = commentsAmong (os.map .option) := by
  induction os with
  | nil => unfold commentsAmong; rfl
  | cons o os ih =>
    rw [List.flatMap_cons, comms_append, comms_option, ih, List.map_cons]
    conv => rhs; unfold commentsAmong commentsIn

theorem only_options {es : List Element} (h : ∀ e ∈ es, ∃ o, e = Element.option o) :
    es = (optionsAmong es).map .option := by
  induction es with
  | nil => rfl
  | cons e es ih =>
    obtain ⟨o, rfl⟩ := h e (List.mem_cons_self ..)
    have := ih fun d hd => h d (List.mem_cons_of_mem _ hd)
    conv => lhs; rw [this]
    rfl

theorem uncommented {o : Opt} (h : NoComments o) : optionComments o = [] := by
  unfold optionComments
  rw [h.1, h.2]
  rfl

theorem uncommented_all {os : List Opt} (h : ∀ o ∈ os, NoComments o) : os.flatMap optionComments = [] :=
  List.flatMap_eq_nil_iff.2 fun o ho => uncommented (h o ho)

theorem commentsAmong_options (os : List Opt) :
    commentsAmong (os.map .option) = os.flatMap optionComments := by
  induction os with
  | nil => unfold commentsAmong; rfl
  | cons o os ih =>
    rw [List.map_cons, List.flatMap_cons, ← ih]
    conv => lhs; unfold commentsAmong commentsIn

theorem enumField_comments {es : List Element} (h : ∀ e ∈ es, ∃ o, e = Element.option o ∧ NoComments o) :
    commentsAmong es = [] := by
  rw [only_options fun e he => (h e he).imp fun _ h => h.1, commentsAmong_options]
  refine uncommented_all fun o ho => ?_
  obtain ⟨e, he, hs⟩ := List.mem_filterMap.1 ho
  obtain ⟨o', rfl, hu⟩ := h e he
  cases hs
  exact hu

mutual

theorem comms_element (isProto2 : Bool) : ∀ (e : Element), CommentsOutside e →
    commentsAt (elementToks true isProto2 e) = commentsIn e
  | .comment c, _ => by unfold elementToks commentsIn; exact comms_note _
  | .syntax s, _ => by
    unfold elementToks commentsIn
    rw [comms_wrap]
    simp [comms_word, comms_sym, comms_str, comms_nil]
  | .package s, _ => by
    unfold elementToks commentsIn
    rw [comms_wrap]
    simp [comms_word, comms_sym, comms_str, comms_nil]
  | .option o, _ => by unfold elementToks commentsIn; exact comms_option o
  | .import i, _ => by
    unfold elementToks commentsIn
    rw [comms_wrap]
    split <;> simp [comms_word, comms_sym, comms_str, comms_nil]
  | .message m es, h => by
    unfold CommentsOutside at h
    unfold elementToks commentsIn
    rw [comms_wrap]
    simp [comms_append, comms_word, comms_sym, comms_nil, comms_elements isProto2 es h, commentsOn, commentStrings]
  | .enum m es, h => by
    unfold CommentsOutside at h
    unfold elementToks commentsIn
    rw [comms_wrap]
    simp [comms_append, comms_word, comms_sym, comms_nil, comms_elements isProto2 es h, commentsOn, commentStrings]
  | .service m es, h => by
    unfold CommentsOutside at h
    unfold elementToks commentsIn
    rw [comms_wrap]
    simp [comms_append, comms_word, comms_sym, comms_nil, comms_elements isProto2 es h, commentsOn, commentStrings]
  | .oneof m es, h => by
    unfold CommentsOutside at h
    unfold elementToks commentsIn
    rw [comms_wrap]
    simp [comms_append, comms_word, comms_sym, comms_nil, comms_elements isProto2 es h, commentsOn, commentStrings]
  | .group m es, h => by
    unfold CommentsOutside at h
    unfold elementToks commentsIn
    rw [comms_wrap]
    split <;>
    simp [comms_append, comms_word, comms_sym, comms_nil, comms_elements isProto2 es h, commentsOn, commentStrings]
  | .enumField f es, h => by
    unfold CommentsOutside at h
    unfold elementToks commentsIn
    rw [comms_wrap, comms_word, comms_fieldEnd, enumField_comments h]
  | .rpc r es, h => by
    unfold CommentsOutside at h
    unfold elementToks rpcToks commentsIn
    rw [comms_wrap]
    conv => rhs; rw [only_options h, ← comms_options]
    simp only [comms_append, comms_stream, comms_word, comms_nil]
    split
    · rename_i he
      rw [he]
      rfl
    · simp [comms_append, comms_sym, comms_nil]
  | .normalField f, h => by
    unfold CommentsOutside at h
    unfold elementToks commentsIn fieldComments
    rw [comms_wrap, uncommented_all h, comms_append, comms_append, comms_fieldEnd, comms_label]
    simp [comms_word, comms_nil]
  | .mapField f, h => by
    unfold CommentsOutside at h
    unfold elementToks commentsIn fieldComments
    rw [comms_wrap, uncommented_all h, comms_append, comms_fieldEnd]
    simp [comms_word, comms_sym, comms_nil]
  | .oneofField f, h => by
    unfold CommentsOutside at h
    unfold elementToks commentsIn fieldComments
    rw [comms_wrap, uncommented_all h, comms_append, comms_fieldEnd]
    simp [comms_word, comms_nil]
  | .reserved r, _ => by
    unfold elementToks reservedToks commentsIn
    rw [comms_wrap, comms_append, comms_word]
    split
    · rw [comms_comma comms_range]
      simp [comms_sym, comms_nil]
    · rw [comms_comma fun _ => rfl]
      simp [comms_sym, comms_nil]
  | .extensions r, _ => by
    unfold elementToks commentsIn
    rw [comms_wrap, comms_append, comms_word, comms_comma comms_range]
    simp [comms_sym, comms_nil]

theorem comms_elements (isProto2 : Bool) : ∀ (es : List Element), AllOutside es →
    commentsAt (elementsToks true isProto2 es) = commentsAmong es
  | [], _ => by unfold elementsToks commentsAmong; rfl
  | e :: es, h => by
    unfold AllOutside at h
    unfold elementsToks commentsAmong
    rw [comms_append, comms_element isProto2 e h.1, comms_elements isProto2 es h.2]

end

mutual

theorem quiet_outside : ∀ (e : Element), CommentsOutside e → QuietIn true e
  | .message _ es, h | .enum _ es, h | .service _ es, h | .oneof _ es, h | .group _ es, h => by
    unfold CommentsOutside at h; unfold QuietIn; exact quietAll_outside es h
  | .normalField _, h | .mapField _, h | .oneofField _, h => by
    unfold CommentsOutside at h; unfold QuietIn; exact fun o ho _ => h o ho
  | .enumField _ es, h => by
    unfold CommentsOutside at h; unfold QuietIn
    intro o ho _
    obtain ⟨e, he, hs⟩ := List.mem_filterMap.1 ho
    obtain ⟨o', rfl, hu⟩ := h e he
    cases hs
    exact hu
  | .comment _, _ | .syntax _, _ | .package _, _ | .option _, _ | .import _, _ | .rpc _ _, _ | .reserved _, _
  | .extensions _, _ => by
    unfold QuietIn; trivial

theorem quietAll_outside : ∀ (es : List Element), AllOutside es → QuietAll true es
  | [], _ => by unfold QuietAll; trivial
  | e :: es, h => by
    unfold AllOutside at h; unfold QuietAll
    exact ⟨quiet_outside e h.1, quietAll_outside es h.2⟩

end

theorem allOutside_iff {es : List Element} : AllOutside es ↔ ∀ e ∈ es, CommentsOutside e := by
  induction es with
  | nil => exact ⟨fun _ _ h => (List.not_mem_nil h).elim, fun _ => by unfold AllOutside; trivial⟩
  | cons e es ih => unfold AllOutside; rw [ih, List.forall_mem_cons]

mutual

/-- Putting options in order keeps the comments. -/
theorem comments_tidy {sort : List Opt → List Opt} (hs : ∀ l, (sort l).Perm l) : ∀ (e : Element),
    CommentsOutside e → CommentsOutside (tidy sort e) ∧ (commentsIn (tidy sort e)).Perm (commentsIn e)
  | .message _ es, h | .enum _ es, h | .service _ es, h | .oneof _ es, h | .group _ es, h => by
    unfold CommentsOutside at h
    obtain ⟨h1, h2⟩ := comments_tidyAll hs es h
    unfold tidy CommentsOutside commentsIn
    exact ⟨h1, h2.append_left _⟩
  | .normalField f, h => by
    unfold CommentsOutside at h
    have h' : ∀ o ∈ sort f.field.options, NoComments o := fun o ho => h o ((hs _).mem_iff.1 ho)
    unfold tidy CommentsOutside commentsIn fieldComments
    exact ⟨h', by rw [uncommented_all h, uncommented_all h']⟩
  | .mapField f, h => by
    unfold CommentsOutside at h
    have h' : ∀ o ∈ sort f.field.options, NoComments o := fun o ho => h o ((hs _).mem_iff.1 ho)
    unfold tidy CommentsOutside commentsIn fieldComments
    exact ⟨h', by rw [uncommented_all h, uncommented_all h']⟩
  | .oneofField f, h => by
    unfold CommentsOutside at h
    have h' : ∀ o ∈ sort f.options, NoComments o := fun o ho => h o ((hs _).mem_iff.1 ho)
    unfold tidy CommentsOutside commentsIn fieldComments
    exact ⟨h', by rw [uncommented_all h, uncommented_all h']⟩
  | .enumField f es, h => by
    unfold CommentsOutside at h
    have h' : ∀ e ∈ (sort (optionsAmong es)).map Element.option, ∃ o, e = .option o ∧ NoComments o := by
      intro e he
      obtain ⟨o, ho, rfl⟩ := List.mem_map.1 he
      have ho := (hs _).mem_iff.1 ho
      obtain ⟨e, he, hse⟩ := List.mem_filterMap.1 ho
      obtain ⟨o', rfl, hu⟩ := h e he
      cases hse
      exact ⟨_, rfl, hu⟩
    unfold tidy CommentsOutside commentsIn
    exact ⟨h', by rw [enumField_comments h, enumField_comments h']⟩
  | .rpc r es, h => by
    unfold CommentsOutside at h
    have he := only_options h
    unfold tidy CommentsOutside commentsIn
    refine ⟨fun e he => ?_, ?_⟩
    · obtain ⟨o, _, rfl⟩ := List.mem_map.1 he
      exact ⟨o, rfl⟩
    · refine .append_right _ (.append_left _ ?_)
      conv => rhs; rw [he]
      rw [commentsAmong_options, commentsAmong_options]
      exact (hs _).flatMap_right _
  | .comment _, _ | .syntax _, _ | .package _, _ | .option _, _ | .import _, _ | .reserved _, _
  | .extensions _, _ => by
    unfold tidy
    exact ⟨by unfold CommentsOutside; trivial, .refl _⟩

theorem comments_tidyAll {sort : List Opt → List Opt} (hs : ∀ l, (sort l).Perm l) : ∀ (es : List Element),
    AllOutside es → AllOutside (tidyAll sort es) ∧ (commentsAmong (tidyAll sort es)).Perm (commentsAmong es)
  | [], _ => by rw [tidyAll_nil]; exact ⟨by unfold AllOutside; trivial, .refl _⟩
  | e :: es, h => by
    unfold AllOutside at h
    obtain ⟨h1, h2⟩ := comments_tidy hs e h.1
    obtain ⟨i1, i2⟩ := comments_tidyAll hs es h.2
    unfold tidyAll AllOutside commentsAmong
    exact ⟨⟨h1, i1⟩, h2.append i2⟩

end

theorem commentsAmong_append (a b : List Element) :
    commentsAmong (a ++ b) = commentsAmong a ++ commentsAmong b := by
  induction a with
  | nil => unfold commentsAmong; rfl
  | cons e a ih =>
    rw [List.cons_append]
    conv => lhs; unfold commentsAmong
    conv => rhs; arg 1; unfold commentsAmong
    rw [ih, List.append_assoc]

theorem commentsAmong_flatMap (es : List Element) : commentsAmong es = es.flatMap commentsIn := by
  induction es with
  | nil => unfold commentsAmong; rfl
  | cons e es ih => unfold commentsAmong; rw [ih]; rfl

theorem commentsAmong_perm {a b : List Element} (h : a.Perm b) : (commentsAmong a).Perm (commentsAmong b) := by
  rw [commentsAmong_flatMap, commentsAmong_flatMap]
  exact h.flatMap_right _

/-- A file is its syntax, packages, options, imports and the rest. -/
theorem parts_perm : ∀ (es : List Element),
    ((syntaxesAmong es).map Element.syntax ++ (packagesAmong es).map Element.package ++ (optionsAmong es).map Element.option ++
      (importsAmong es).map Element.import ++ es.filter staysPut).Perm es
  | [] => .refl _
  | e :: es => by
    have ih := parts_perm es
    have hmid : ∀ (x : Element) (a b : List Element), (a ++ x :: b).Perm (x :: (a ++ b)) := fun x a b =>
      List.perm_middle
    cases e with
    | «syntax» s => exact ih.cons _
    | package s =>
      refine .trans ?_ (ih.cons _)
      simp only [List.append_assoc]
      exact hmid _ _ _
    | option s =>
      refine .trans ?_ (ih.cons _)
      have := hmid (.option s) ((syntaxesAmong es).map Element.syntax ++ (packagesAmong es).map Element.package)
        ((optionsAmong es).map Element.option ++ ((importsAmong es).map Element.import ++ es.filter staysPut))
      simp only [List.append_assoc] at this ⊢
      exact this
    | «import» s =>
      refine .trans ?_ (ih.cons _)
      have := hmid (.import s) ((syntaxesAmong es).map Element.syntax ++ (packagesAmong es).map Element.package ++
        (optionsAmong es).map Element.option) ((importsAmong es).map Element.import ++ es.filter staysPut)
      simp only [List.append_assoc] at this ⊢
      exact this
    | _ =>
      refine .trans ?_ (ih.cons _)
      exact hmid _ _ _

/-! ## Leaving out the comments -/

theorem uncomment_append (a b : List Token) : uncomment (a ++ b) = uncomment a ++ uncomment b := List.filter_append ..

theorem uncomment_word (w : Str) (ts : List Token) : uncomment (.word w :: ts) = .word w :: uncomment ts := rfl

theorem uncomment_sym (w : Char) (ts : List Token) : uncomment (.sym w :: ts) = .sym w :: uncomment ts := rfl

theorem uncomment_nil : uncomment [] = [] := rfl

theorem uncomment_self : ∀ {ts : List Token}, commentsAt ts = [] → uncomment ts = ts
  | [], _ => rfl
  | .comment s :: ts, h => nomatch h
  | .word s :: ts, h => congrArg _ (uncomment_self (ts := ts) h)
  | .sym s :: ts, h => congrArg _ (uncomment_self (ts := ts) h)
  | .str q s :: ts, h => congrArg _ (uncomment_self (ts := ts) h)

theorem uncomment_note (c : Option Comment) : uncomment (noteToks true c) = [] := by
  cases c with
  | none => rfl
  | some c =>
    refine List.filter_eq_nil_iff.2 fun t ht => ?_
    obtain ⟨l, _, rfl⟩ := List.mem_map.1 ht
    simp

theorem uncomment_wrap (c : Option Comment) (ts : List Token) (i : Option Comment) :
    uncomment (wrap true c ts i) = uncomment ts := by
  show uncomment (noteToks true c ++ ts ++ noteToks true i) = _
  rw [uncomment_append, uncomment_append, uncomment_note, uncomment_note, List.append_nil]
  rfl

theorem uncomment_option (o : Opt) : uncomment (optionToks true o) = optionToks false o := by
  unfold optionToks
  rw [uncomment_wrap, wrap_false]
  exact uncomment_self (by simp [comms_append, comms_word, comms_sym, comms_nil, comms_opt])

theorem uncomment_options (os : List Opt) :
    uncomment (os.flatMap (optionToks true)) = os.flatMap (optionToks false) := by
  induction os with
  | nil => rfl
  | cons o os ih => rw [List.flatMap_cons, List.flatMap_cons, uncomment_append, uncomment_option, ih]

mutual

theorem uncomment_element (isProto2 : Bool) : ∀ (e : Element),
    uncomment (elementToks true isProto2 e) = elementToks false isProto2 e
  | .comment c => by unfold elementToks; exact uncomment_note _
  | .syntax s => by
    unfold elementToks
    rw [uncomment_wrap, wrap_false]
    exact uncomment_self (by simp [comms_word, comms_sym, comms_str, comms_nil])
  | .package s => by
    unfold elementToks
    rw [uncomment_wrap, wrap_false]
    exact uncomment_self (by simp [comms_word, comms_sym, comms_str, comms_nil])
  | .option o => by unfold elementToks; exact uncomment_option o
  | .import i => by
    unfold elementToks
    rw [uncomment_wrap, wrap_false]
    refine uncomment_self ?_
    split <;> simp [comms_word, comms_sym, comms_str, comms_nil]
  | .message m es => by
    unfold elementToks
    rw [uncomment_wrap, wrap_false]
    simp [uncomment_append, uncomment_word, uncomment_sym, uncomment_nil, uncomment_elements isProto2 es]
  | .enum m es => by
    unfold elementToks
    rw [uncomment_wrap, wrap_false]
    simp [uncomment_append, uncomment_word, uncomment_sym, uncomment_nil, uncomment_elements isProto2 es]
  | .service m es => by
    unfold elementToks
    rw [uncomment_wrap, wrap_false]
    simp [uncomment_append, uncomment_word, uncomment_sym, uncomment_nil, uncomment_elements isProto2 es]
  | .oneof m es => by
    unfold elementToks
    rw [uncomment_wrap, wrap_false]
    simp [uncomment_append, uncomment_word, uncomment_sym, uncomment_nil, uncomment_elements isProto2 es]
  | .group m es => by
    unfold elementToks
    rw [uncomment_wrap, wrap_false]
    split <;>
    simp [uncomment_append, uncomment_word, uncomment_sym, uncomment_nil, uncomment_elements isProto2 es]
  | .enumField f es => by
    unfold elementToks
    rw [uncomment_wrap, wrap_false]
    exact uncomment_self (by rw [comms_word, comms_fieldEnd])
  | .rpc r es => by
    unfold elementToks rpcToks
    rw [uncomment_wrap, wrap_false]
    rw [uncomment_append, uncomment_self (ts := _ ++ streamToks r.streamsReturns r.returnsType)
      (by simp [comms_append, comms_stream, comms_word, comms_nil])]
    congr 1
    split
    · rfl
    · simp [uncomment_append, uncomment_sym, uncomment_nil, uncomment_options]
  | .normalField f => by
    unfold elementToks
    rw [uncomment_wrap, wrap_false]
    exact uncomment_self (by simp [comms_append, comms_fieldEnd, comms_label, comms_word, comms_nil])
  | .mapField f => by
    unfold elementToks
    rw [uncomment_wrap, wrap_false]
    exact uncomment_self (by simp [comms_append, comms_fieldEnd, comms_word, comms_sym, comms_nil])
  | .oneofField f => by
    unfold elementToks
    rw [uncomment_wrap, wrap_false]
    exact uncomment_self (by simp [comms_append, comms_fieldEnd, comms_word, comms_nil])
  | .reserved r => by
    unfold elementToks reservedToks
    rw [uncomment_wrap, wrap_false]
    refine uncomment_self ?_
    rw [comms_append, comms_word]
    split
    · rw [comms_comma comms_range]; rfl
    · rw [comms_comma fun _ => rfl]; rfl
  | .extensions r => by
    unfold elementToks
    rw [uncomment_wrap, wrap_false]
    refine uncomment_self ?_
    rw [comms_append, comms_word, comms_comma comms_range]
    rfl

theorem uncomment_elements (isProto2 : Bool) : ∀ (es : List Element),
    uncomment (elementsToks true isProto2 es) = elementsToks false isProto2 es
  | [] => by unfold elementsToks; rfl
  | e :: es => by
    unfold elementsToks
    rw [uncomment_append, uncomment_element isProto2 e, uncomment_elements isProto2 es]

end

theorem readTokens_elements {isProto2 : Bool} {es : List Element} (h : ElementsFit isProto2 .none es) :
    readTokens (elementsToks true isProto2 es) = some (bareAll es) := by
  unfold readTokens
  rw [uncomment_elements, readElements_file isProto2 es _ h (Nat.le_refl _)]
  rfl

end Verif.Format
