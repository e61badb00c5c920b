import Verif.Spec.FormatRename
import Verif.Spec.ExecOrder
import Verif.Proof.Sort

/-!
# Formatting under another name
-/

namespace Verif.Format

open Verif Str Proto Spec

/-- The visitors differ only in the names of files in failures. -/
def BaseSame (b b' : Base) : Prop :=
  b'.printer = b.printer ∧ b'.failures.map nameless = b.failures.map nameless

variable {ρ : Str → Str} {b b' : Base}

theorem same_p (h : BaseSame b b') (args : List Str) : BaseSame (b.p args) (b'.p args) := by
  refine ⟨?_, h.2⟩
  show b'.printer.p args = b.printer.p args
  rw [h.1]

theorem same_in (h : BaseSame b b') : BaseSame b.in_ b'.in_ := by
  refine ⟨?_, h.2⟩
  show b'.printer.in_ = b.printer.in_
  rw [h.1]

theorem same_out (h : BaseSame b b') : BaseSame b.out b'.out := by
  refine ⟨?_, h.2⟩
  show b'.printer.out = b.printer.out
  rw [h.1]

theorem same_fail (h : BaseSame b b') {p p' : Position} (hl : p'.line = p.line) (hc : p'.column = p.column)
    (m : Str) : BaseSame (b.addFailure p m) (b'.addFailure p' m) := by
  refine ⟨h.1, ?_⟩
  show (b'.failures ++ _).map nameless = (b.failures ++ _).map nameless
  rw [List.map_append, List.map_append, h.2, hl, hc]

theorem same_ite {c c' : Prop} [Decidable c] [Decidable c'] (hc : c' ↔ c) {d d' : Base}
    (h1 : c → BaseSame b b') (h2 : ¬ c → BaseSame d d') :
    BaseSame (if c then b else d) (if c' then b' else d') := by
  by_cases h : c
  · rw [if_pos h, if_pos (hc.2 h)]; exact h1 h
  · rw [if_neg h, if_neg (fun k => h (hc.1 k))]; exact h2 h

theorem same_lines (lines : List Str) : ∀ {b b' : Base}, BaseSame b b' →
    BaseSame (b.pCommentLines lines) (b'.pCommentLines lines) := by
  induction lines with
  | nil => intro b b' h; exact h
  | cons l ls ih => intro b b' h; exact ih (same_p h _)

theorem same_comment (h : BaseSame b b') (c : Option Comment) :
    BaseSame (b.pComment c) (b'.pComment (c.map (·.rename ρ))) := by
  cases c with
  | none => exact h
  | some c => exact same_lines _ h

theorem same_inline (h : BaseSame b b') (c : Option Comment) (args : List Str) :
    BaseSame (b.pWithInlineComment c args) (b'.pWithInlineComment (c.map (·.rename ρ)) args) := by
  cases c with
  | none => exact same_p h _
  | some c =>
    unfold Base.pWithInlineComment
    simp only [Option.map_some, Comment.rename]
    cases c.lines with
    | nil => exact same_p h _
    | cons l ls => exact same_lines _ (same_p h _)

mutual

theorem same_literal (name : Str) : ∀ (l : Literal) (suffix : Str) {b b' : Base}, BaseSame b b' →
    BaseSame (pInnerLiteral name l suffix b) (pInnerLiteral name l suffix b')
  | .mk source isString quoteRune array orderedMap, suffix, b, b', h => by
    rw [pInnerLiteral, pInnerLiteral]
    dsimp only
    split
    · split
      · exact same_p h _
      · exact h
    · split
      · exact same_p (same_out (same_array array (same_in (same_p h _)))) _
      · exact same_p (same_out (same_map orderedMap (same_in (same_p h _)))) _

theorem same_array : ∀ (ls : List Literal) {b b' : Base}, BaseSame b b' →
    BaseSame (pInnerArray ls b) (pInnerArray ls b')
  | [], b, b', h => by rw [pInnerArray, pInnerArray]; exact h
  | l :: ls, b, b', h => by
    rw [pInnerArray, pInnerArray]
    exact same_array ls (same_literal [] l _ h)

theorem same_map : ∀ (ls : List (Str × Literal)) {b b' : Base}, BaseSame b b' →
    BaseSame (pInnerMap ls b) (pInnerMap ls b')
  | [], b, b', h => by rw [pInnerMap, pInnerMap]; exact h
  | (name, l) :: ls, b, b', h => by
    rw [pInnerMap, pInnerMap, pInnerNamed, pInnerNamed]
    exact same_map ls (same_literal name l _ h)

end

theorem same_option (h : BaseSame b b') (pre suffix : Str) (o : Opt) :
    BaseSame (b.pOption pre suffix o) (b'.pOption pre suffix (o.rename ρ)) := by
  unfold Base.pOption
  have hc := same_comment (ρ := ρ) h o.comment
  dsimp only [Opt.rename]
  refine same_ite Iff.rfl (fun _ => same_ite Iff.rfl (fun _ => same_inline hc _ _) fun _ => hc) fun _ =>
    same_ite Iff.rfl (fun _ => ⟨hc.1, ?_⟩) fun _ =>
      same_inline (same_out (same_map _ (same_in (same_p hc _)))) _ _
  dsimp only
  rw [List.map_append, List.map_append, hc.2]
  rfl

theorem same_optionsLoop (f : Bool) (os : List Opt) : ∀ {b b' : Base}, BaseSame b b' →
    BaseSame (b.pOptionsLoop f os) (b'.pOptionsLoop f (os.map (·.rename ρ))) := by
  induction os with
  | nil => intro b b' h; exact h
  | cons o os ih =>
    intro b b' h
    rw [List.map_cons, Base.pOptionsLoop, Base.pOptionsLoop]
    rw [List.length_map]
    exact ih (same_option h _ _ o)

variable {srt : SortSlice} (hn : ByComparing srt)
include hn

theorem same_options (h : BaseSame b b') (f : Bool) (os : List Opt) :
    BaseSame (b.pOptions srt f os) (b'.pOptions srt f (os.map (·.rename ρ))) := by
  unfold Base.pOptions
  rw [hn]
  exact same_optionsLoop f _ h

theorem same_imports (h : BaseSame b b') (is : List Import) :
    BaseSame (b.pImports srt is) (b'.pImports srt (is.map (·.rename ρ))) := by
  unfold Base.pImports
  rw [hn]
  have e : (fun a c : Import => lt (a.rename ρ).filename (c.rename ρ).filename) =
      fun a c => lt a.filename c.filename := rfl
  rw [e]
  generalize srt.run (fun a c : Import => lt a.filename c.filename) is = l
  induction l generalizing b b' with
  | nil => exact h
  | cons i l ih =>
    rw [List.map_cons, List.foldl_cons, List.foldl_cons]
    exact ih (same_inline (same_comment h _) _ _)

theorem same_fieldLike (h : BaseSame b b') (pre name type : Str) (tag : Int) (c i : Option Comment)
    (os : List Opt) :
    BaseSame (b.pMessageOrEnumField srt pre name type tag c i os)
      (b'.pMessageOrEnumField srt pre name type tag (c.map (·.rename ρ)) (i.map (·.rename ρ))
        (os.map (·.rename ρ))) := by
  have hc := same_comment (ρ := ρ) h c
  have hm := fun args : List Str => same_inline (ρ := ρ)
    (same_out (same_options hn (ρ := ρ) (same_in (same_p hc args)) true os)) i [s%"];"]
  unfold Base.pMessageOrEnumField
  dsimp only
  match os, hm with
  | [], _ => exact same_inline hc _ _
  | [o], hm =>
    simp only [List.map_cons, List.map_nil, Opt.rename]
    split
    · exact same_inline hc _ _
    · exact hm _
  | o :: o2 :: os, hm => exact hm _

omit hn in
theorem optionsAmong_rename (es : List Element) :
    optionsAmong (renameAll ρ es) = (optionsAmong es).map (·.rename ρ) := by
  unfold optionsAmong
  induction es with
  | nil => rw [renameAll]; rfl
  | cons e es ih =>
    rw [renameAll]
    cases e <;> rw [Element.rename] <;> simp [ih]

/-- The visitors differ only in the names of files in failures. -/
def MainSame (v v' : Main) : Prop := BaseSame v.base v'.base ∧ v'.haveHitNonComment = v.haveHitNonComment

omit hn in
theorem renameAll_length (es : List Element) : (renameAll ρ es).length = es.length := by
  induction es with
  | nil => rw [renameAll]
  | cons e es ih => rw [renameAll, List.length_cons, List.length_cons, ih]

mutual

theorem same_visit (is2 : Bool) (parent : Around) : ∀ (e : Element) {v v' : Main}, MainSame v v' →
    MainSame (visit srt is2 parent e v) (visit srt is2 parent (e.rename ρ) v')
  | .comment c, v, v', h => by
    rw [Element.rename, visit, visit, h.2]
    split
    · exact ⟨same_p (same_comment (ρ := ρ) h.1 (some c)) _, h.2⟩
    · exact h
  | .syntax s, v, v', h => by
    rw [Element.rename, visit, visit]; exact ⟨h.1, rfl⟩
  | .package s, v, v', h => by
    rw [Element.rename, visit, visit]; exact ⟨h.1, rfl⟩
  | .import s, v, v', h => by
    rw [Element.rename, visit, visit]; exact ⟨h.1, rfl⟩
  | .option o, v, v', h => by
    rw [Element.rename, visit, visit]
    refine ⟨?_, rfl⟩
    show BaseSame (v.base.visitOption srt parent o) (v'.base.visitOption srt parent (o.rename ρ))
    unfold Base.visitOption
    cases parent with
    | none => exact h.1
    | group => exact same_fail h.1 rfl rfl _
    | enum => exact same_options hn h.1 false [o]
    | message => exact same_options hn h.1 false [o]
    | oneof => exact same_options hn h.1 false [o]
    | service => exact same_options hn h.1 false [o]
  | .message m es, v, v', h => by
    rw [Element.rename, visit, visit, renameAll_length]
    have hc : MainSame (v.hit fun b => b.pComment m.comment)
        (v'.hit fun b => b.pComment (m.rename ρ).comment) := ⟨same_comment h.1 _, rfl⟩
    dsimp only
    split
    · exact ⟨same_p (same_p hc.1 _) _, rfl⟩
    · have := same_visitAll is2 .message es (v := (v.hit fun b => b.pComment m.comment).on fun b =>
          (b.p [if m.isExtend then s%"extend " else s%"message ", m.name, s%" {"]).in_)
        (v' := (v'.hit fun b => b.pComment (m.rename ρ).comment).on fun b =>
          (b.p [if m.isExtend then s%"extend " else s%"message ", m.name, s%" {"]).in_) ⟨same_in (same_p hc.1 _), rfl⟩
      refine ⟨?_, this.2⟩
      show BaseSame (if _ then _ else _) (if _ then _ else _)
      split
      · exact same_p (same_p (same_out this.1) _) _
      · exact same_p (same_out this.1) _
  | .enum m es, v, v', h => by
    rw [Element.rename, visit, visit, renameAll_length]
    have hc : MainSame (v.hit fun b => b.pComment m.comment)
        (v'.hit fun b => b.pComment (m.rename ρ).comment) := ⟨same_comment h.1 _, rfl⟩
    dsimp only
    split
    · exact ⟨same_p (same_p hc.1 _) _, rfl⟩
    · have := same_visitAll is2 .enum es (v := (v.hit fun b => b.pComment m.comment).on fun b =>
          (b.p [s%"enum ", m.name, s%" {"]).in_)
        (v' := (v'.hit fun b => b.pComment (m.rename ρ).comment).on fun b =>
          (b.p [s%"enum ", m.name, s%" {"]).in_) ⟨same_in (same_p hc.1 _), rfl⟩
      refine ⟨?_, this.2⟩
      show BaseSame (if _ then _ else _) (if _ then _ else _)
      split
      · exact same_p (same_p (same_out this.1) _) _
      · exact same_p (same_out this.1) _
  | .enumField f es, v, v', h => by
    rw [Element.rename, visit, visit]
    refine ⟨?_, rfl⟩
    show BaseSame (v.base.pEnumField srt f es) (v'.base.pEnumField srt (f.rename ρ) (renameAll ρ es))
    unfold Base.pEnumField
    rw [optionsAmong_rename]
    exact same_fieldLike hn h.1 _ _ _ _ _ _ _
  | .service m es, v, v', h => by
    rw [Element.rename, visit, visit, renameAll_length]
    have hc : MainSame (v.hit fun b => b.pComment m.comment)
        (v'.hit fun b => b.pComment (m.rename ρ).comment) := ⟨same_comment h.1 _, rfl⟩
    dsimp only
    split
    · exact ⟨same_p (same_p hc.1 _) _, rfl⟩
    · have := same_visitAll is2 .service es (v := (v.hit fun b => b.pComment m.comment).on fun b =>
          (b.p [s%"service ", m.name, s%" {"]).in_)
        (v' := (v'.hit fun b => b.pComment (m.rename ρ).comment).on fun b =>
          (b.p [s%"service ", m.name, s%" {"]).in_) ⟨same_in (same_p hc.1 _), rfl⟩
      exact ⟨same_p (same_p (same_out this.1) _) _, this.2⟩
  | .rpc m es, v, v', h => by
    rw [Element.rename, visit, visit]
    refine ⟨?_, rfl⟩
    show BaseSame (v.base.visitRPC srt m es) (v'.base.visitRPC srt (m.rename ρ) (renameAll ρ es))
    unfold Base.visitRPC
    rw [optionsAmong_rename]
    dsimp only [RPC.rename]
    rw [List.length_map]
    have hc := same_comment (ρ := ρ) h.1 m.comment
    split
    · exact same_inline hc _ _
    · exact same_inline (same_out (same_options hn (same_in (same_p hc _)) false _)) _ _
  | .normalField f, v, v', h => by
    rw [Element.rename, visit, visit]
    exact ⟨same_fieldLike hn h.1 _ _ _ _ _ _ _, rfl⟩
  | .mapField f, v, v', h => by
    rw [Element.rename, visit, visit]
    exact ⟨same_fieldLike hn h.1 _ _ _ _ _ _ _, rfl⟩
  | .oneof m es, v, v', h => by
    rw [Element.rename, visit, visit, renameAll_length]
    have hc : MainSame (v.hit fun b => b.pComment m.comment)
        (v'.hit fun b => b.pComment (m.rename ρ).comment) := ⟨same_comment h.1 _, rfl⟩
    dsimp only
    split
    · exact ⟨same_p hc.1 _, rfl⟩
    · have := same_visitAll is2 .oneof es (v := (v.hit fun b => b.pComment m.comment).on fun b =>
          (b.p [s%"oneof ", m.name, s%" {"]).in_)
        (v' := (v'.hit fun b => b.pComment (m.rename ρ).comment).on fun b =>
          (b.p [s%"oneof ", m.name, s%" {"]).in_) ⟨same_in (same_p hc.1 _), rfl⟩
      exact ⟨same_p (same_out this.1) _, this.2⟩
  | .oneofField f, v, v', h => by
    rw [Element.rename, visit, visit]
    exact ⟨same_fieldLike hn h.1 _ _ _ _ _ _ _, rfl⟩
  | .reserved m, v, v', h => by
    rw [Element.rename, visit, visit]
    refine ⟨?_, rfl⟩
    show BaseSame (v.base.visitReserved m) (v'.base.visitReserved (m.rename ρ))
    unfold Base.visitReserved
    dsimp only [Reserved.rename]
    have hc := same_comment (ρ := ρ) h.1 m.comment
    exact same_ite Iff.rfl (fun _ => same_fail h.1 rfl rfl _) fun _ =>
      same_ite Iff.rfl (fun _ => same_inline hc _ _) fun _ =>
        same_ite Iff.rfl (fun _ => same_inline hc _ _) fun _ => hc
  | .extensions m, v, v', h => by
    rw [Element.rename, visit, visit]
    exact ⟨same_inline (same_comment h.1 _) _ _, rfl⟩
  | .group m es, v, v', h => by
    rw [Element.rename, visit, visit, renameAll_length]
    have hc : MainSame (v.hit fun b => b.pComment m.comment)
        (v'.hit fun b => b.pComment (m.rename ρ).comment) := ⟨same_comment h.1 _, rfl⟩
    dsimp only
    split
    · exact ⟨same_p hc.1 _, rfl⟩
    · have := same_visitAll is2 .group es (v := (v.hit fun b => b.pComment m.comment).on fun b =>
          (b.p ([if m.optional then s%"optional " else [], s%"group ", m.name, s%" = ", itoa m.sequence] ++ [s%" {"])).in_)
        (v' := (v'.hit fun b => b.pComment (m.rename ρ).comment).on fun b =>
          (b.p ([if m.optional then s%"optional " else [], s%"group ", m.name, s%" = ", itoa m.sequence] ++ [s%" {"])).in_)
        ⟨same_in (same_p hc.1 _), rfl⟩
      exact ⟨same_p (same_out this.1) _, this.2⟩

theorem same_visitAll (is2 : Bool) (parent : Around) : ∀ (es : List Element) {v v' : Main}, MainSame v v' →
    MainSame (visitAll srt is2 parent es v) (visitAll srt is2 parent (renameAll ρ es) v')
  | [], v, v', h => by rw [renameAll, visitAll, visitAll]; exact h
  | e :: es, v, v', h => by
    rw [renameAll, visitAll, visitAll]
    exact same_visitAll is2 parent es (same_visit is2 parent e h)

end

/-- The first pass in the renamed file. -/
structure FirstSame (ρ : Str → Str) (v v' : FirstPass) : Prop where
  base : BaseSame v.base v'.base
  rest : v' = { v with
    base := v'.base
    syntax_ := v.syntax_.map (·.rename ρ)
    package := v.package.map (·.rename ρ)
    options := v.options.map (·.rename ρ)
    imports := v.imports.map (·.rename ρ)
    goPackageOption := v.goPackageOption.map (·.rename ρ)
    javaMultipleFilesOption := v.javaMultipleFilesOption.map (·.rename ρ)
    javaOuterClassnameOption := v.javaOuterClassnameOption.map (·.rename ρ)
    javaPackageOption := v.javaPackageOption.map (·.rename ρ)
    csharpNamespaceOption := v.csharpNamespaceOption.map (·.rename ρ)
    objcClassPrefixOption := v.objcClassPrefixOption.map (·.rename ρ)
    phpNamespaceOption := v.phpNamespaceOption.map (·.rename ρ) }

omit hn in
theorem first_ite {c c' : Prop} [Decidable c] [Decidable c'] (hc : c' ↔ c) {u u' v v' : FirstPass}
    (h1 : c → FirstSame ρ u u') (h2 : ¬ c → FirstSame ρ v v') :
    FirstSame ρ (if c then u else v) (if c' then u' else v') := by
  by_cases h : c
  · rw [if_pos h, if_pos (hc.2 h)]; exact h1 h
  · rw [if_neg h, if_neg (fun k => h (hc.1 k))]; exact h2 h

omit hn in
theorem opt_rename_rename (ρ ρ' : Str → Str) (o : Opt) :
    (o.rename ρ).rename (fun _ => []) = o.rename (fun _ => []) := by
  have hc : ∀ c : Option Comment, (c.map (·.rename ρ)).map (·.rename fun _ => []) = c.map (·.rename fun _ => []) := by
    intro c; cases c <;> rfl
  unfold Opt.rename
  rw [hc, hc]
  rfl

/-- Options that differ only in positions print the same. -/
theorem same_options_bare {os os' : List Opt} (h : BaseSame b b') (f : Bool)
    (ho : os'.map (·.rename fun _ => []) = os.map (·.rename fun _ => [])) :
    BaseSame (b.pOptions srt f os) (b'.pOptions srt f os') := by
  have h1 := same_options hn (ρ := fun _ => []) (b := b) (b' := b) ⟨rfl, rfl⟩ f os
  have h2 := same_options hn (ρ := fun _ => []) (b := b') (b' := b) ⟨h.1.symm, h.2.symm⟩ f os'
  rw [ho] at h2
  exact ⟨h2.1.symm.trans h1.1, h2.2.symm.trans h1.2⟩

omit hn in
theorem same_firstVisit {q q' : Params} (hq : q' = { q with filename := q'.filename }) {v v' : FirstPass}
    (h : FirstSame ρ v v') (e : Element) : FirstSame ρ (v.visit q e) (v'.visit q' (e.rename ρ)) := by
  obtain ⟨hb, hr⟩ := h
  have h1 : q'.fix = q.fix := by rw [hq]
  have h2 : q'.fileHeader = q.fileHeader := by rw [hq]
  revert hr hb
  generalize hv : v'.base = b0
  intro hb hr
  subst hr
  cases e with
  | comment c =>
    rw [Element.rename]
    unfold FirstPass.visit
    rw [h1, h2]
    dsimp only
    split
    · exact ⟨same_p (same_comment (ρ := ρ) hb (some c)) _, rfl⟩
    · exact ⟨hb, rfl⟩
  | «syntax» s =>
    rw [Element.rename]
    unfold FirstPass.visit
    dsimp only
    cases hs : v.syntax_ with
    | none => exact ⟨hb, by simp [hs]⟩
    | some s0 => exact ⟨same_fail hb rfl rfl _, by simp [hs]⟩
  | package s =>
    rw [Element.rename]
    unfold FirstPass.visit
    dsimp only
    cases hs : v.package with
    | none => exact ⟨hb, by simp [hs]⟩
    | some s0 => exact ⟨same_fail hb rfl rfl _, by simp [hs]⟩
  | option o =>
    rw [Element.rename]
    show FirstSame ρ (v.visitOption q o) (FirstPass.visitOption q' (o.rename ρ) _)
    unfold FirstPass.visitOption
    rw [h1]
    refine first_ite Iff.rfl (fun _ => ?_) fun _ => ⟨hb, by simp⟩
    refine first_ite Iff.rfl (fun _ => ⟨hb, rfl⟩) fun _ => ?_
    refine first_ite Iff.rfl (fun _ => ⟨hb, rfl⟩) fun _ => ?_
    refine first_ite Iff.rfl (fun _ => ⟨hb, rfl⟩) fun _ => ?_
    refine first_ite Iff.rfl (fun _ => ⟨hb, rfl⟩) fun _ => ?_
    refine first_ite Iff.rfl (fun _ => ⟨hb, rfl⟩) fun _ => ?_
    refine first_ite Iff.rfl (fun _ => ⟨hb, rfl⟩) fun _ => ?_
    exact first_ite Iff.rfl (fun _ => ⟨hb, rfl⟩) fun _ => ⟨hb, by simp⟩
  | «import» i =>
    rw [Element.rename]
    exact ⟨hb, by simp [FirstPass.visit]⟩
  | _ =>
    rw [Element.rename]
    exact ⟨hb, rfl⟩

theorem same_do {q q' : Params} (hq : q' = { q with filename := q'.filename })
    (hj : Protostrs.javaOuterClassname q'.filename = Protostrs.javaOuterClassname q.filename) {v v' : FirstPass}
    (h : FirstSame ρ v v') : BaseSame (v.do_ srt q) (v'.do_ srt q') := by
  obtain ⟨hb, hr⟩ := h
  have h1 : q'.fix = q.fix := by rw [hq]
  have h2 : q'.fileHeader = q.fileHeader := by rw [hq]
  have h3 : q'.javaPackagePrefix = q.javaPackagePrefix := by rw [hq]
  revert hr hb
  generalize hv : v'.base = b0
  intro hb hr
  have hopt : (v'.allOptions q').map (·.rename fun _ => []) = (v.allOptions q).map (·.rename fun _ => []) := by
    subst hr
    have hm : ∀ os : List Opt, (os.map (·.rename ρ)).map (·.rename fun _ => []) =
        os.map (·.rename fun _ => []) := by
      intro os
      rw [List.map_map]
      exact List.map_congr_left fun o _ => opt_rename_rename ρ id o
    unfold FirstPass.allOptions
    dsimp only
    rw [h1]
    cases v.package with
    | none => exact hm _
    | some p =>
      dsimp only [Option.map_some, Package.rename]
      split
      · rw [List.map_append, List.map_append, hm]
        congr 1
        unfold FirstPass.managed
        rw [h1, h3, hj]
        have hu : ∀ (o : Option Opt) (name : Str) (c : Literal),
            (updated (o.map (·.rename ρ)) name c).rename (fun _ => []) =
              (updated o name c).rename fun _ => [] := by
          intro o name c
          cases o with
          | none => rfl
          | some o => exact opt_rename_rename ρ id { o with constant := c }
        simp only [List.map_append, List.map_cons, List.map_nil, hu]
        split
        · simp only [List.map_cons, List.map_nil, hu]
        · rfl
      · exact hm _
  unfold FirstPass.do_
  rw [h1, h2]
  dsimp only
  have hlen : (v'.allOptions q').length = (v.allOptions q).length := by
    have := congrArg List.length hopt
    rwa [List.length_map, List.length_map] at this
  have hi : v'.imports = v.imports.map (·.rename ρ) := by rw [hr]
  have hs : v'.syntax_ = v.syntax_.map (·.rename ρ) := by rw [hr]
  have hp : v'.package = v.package.map (·.rename ρ) := by rw [hr]
  rw [hv, hlen, hi, hs, hp, List.length_map]
  have s1 : BaseSame (if q.fix ≠ fixNone ∧ q.fileHeader ≠ [] then (v.base.p [q.fileHeader]).p [] else v.base)
      (if q.fix ≠ fixNone ∧ q.fileHeader ≠ [] then (b0.p [q.fileHeader]).p [] else b0) :=
    same_ite Iff.rfl (fun _ => same_p (same_p hb _) _) fun _ => hb
  have s2 : ∀ {b b' : Base}, BaseSame b b' →
      BaseSame (b.pSyntax v.syntax_) (b'.pSyntax (v.syntax_.map (·.rename ρ))) := by
    intro b b' h
    cases v.syntax_ with
    | none => exact h
    | some s =>
      unfold Base.pSyntax
      dsimp only [Option.map_some, Syntax.rename]
      refine same_p (same_inline (same_ite (by rw [Option.isSome_map]) (fun _ => same_p ?_ _) fun _ => ?_) _ _) _
      · exact same_comment h _
      · exact same_comment h _
  have s3 : ∀ {b b' : Base}, BaseSame b b' →
      BaseSame (b.pPackage v.package) (b'.pPackage (v.package.map (·.rename ρ))) := by
    intro b b' h
    cases v.package with
    | none => exact h
    | some s => exact same_p (same_inline (same_comment h _) _ _) _
  have s4 := same_ite (c := (v.allOptions q).length > 0) (c' := (v.allOptions q).length > 0) Iff.rfl
    (fun _ => same_p (same_options_bare hn (s3 (s2 s1)) false hopt) []) fun _ => s3 (s2 s1)
  exact same_ite Iff.rfl (fun _ => same_p (same_imports hn s4 _) _) fun _ => s4

/-- The text is the same, and so are the failures but for the names of files. -/
theorem transform_rename {q q' : Params} (hq : q' = { q with filename := q'.filename })
    (hj : Protostrs.javaOuterClassname q'.filename = Protostrs.javaOuterClassname q.filename)
    (es : List Element) :
    SameResult (fun a a' => a'.1 = a.1 ∧ (a'.2.map nameless).Perm (a.2.map nameless))
      (transform srt q es) (transform srt q' (renameAll ρ es)) := by
  have h1 : q'.fix = q.fix := by rw [hq]
  unfold transform
  rw [h1]
  split
  · exact trivial
  · have hf : ∀ (es : List Element) (v v' : FirstPass), FirstSame ρ v v' →
        FirstSame ρ (es.foldl (fun v e => v.visit q e) v)
          ((renameAll ρ es).foldl (fun v e => v.visit q' e) v') := by
      intro es
      induction es with
      | nil => intro v v' h; rw [renameAll]; exact h
      | cons e es ih => intro v v' h; rw [renameAll]; exact ih _ _ (same_firstVisit hq h e)
    have h0 := hf es {} {} ⟨⟨rfl, rfl⟩, rfl⟩
    generalize es.foldl (fun (v : FirstPass) e => v.visit q e) {} = v at h0 ⊢
    generalize (renameAll ρ es).foldl (fun (v : FirstPass) e => v.visit q' e) {} = v' at h0 ⊢
    have hd := same_do hn hq hj h0
    have hs : isProto2Of v'.syntax_ = isProto2Of v.syntax_ := by
      rw [h0.rest]
      cases v.syntax_ with
      | none => rfl
      | some s => rfl
    dsimp only
    rw [hs]
    cases isProto2Of v.syntax_ with
    | error e => exact trivial
    | ok is2 =>
      have hm := same_visitAll hn (ρ := ρ) is2 .none es (v := {}) (v' := {}) ⟨⟨rfl, rfl⟩, rfl⟩
      dsimp only
      rw [hd.1, hm.1.1]
      have hp : ((Text.sortFailures ((v'.do_ srt q').failures ++
            (visitAll srt is2 .none (renameAll ρ es) {}).base.failures)).map nameless).Perm
          ((Text.sortFailures ((v.do_ srt q).failures ++
            (visitAll srt is2 .none es {}).base.failures)).map nameless) := by
        refine ((sortBy_perm _).map _).trans (List.Perm.trans ?_ ((sortBy_perm _).map _).symm)
        rw [List.map_append, List.map_append, hd.2, hm.1.2]
      split
      · exact ⟨rfl, hp⟩
      · exact ⟨rfl, hp⟩

omit hn in
theorem insertBy_map {α β : Type} (f : α → β) (le : β → β → Bool) (a : α) (l : List α) :
    insertBy le (f a) (l.map f) = (insertBy (fun a b => le (f a) (f b)) a l).map f := by
  induction l with
  | nil => rfl
  | cons b l ih =>
    rw [List.map_cons, insertBy, insertBy, ih]
    split <;> rfl

omit hn in
/-- The stable sort only compares. -/
theorem stable_byComparing : ByComparing SortSlice.stable := by
  intro α β f less l
  show sortBy _ (l.map f) = (sortBy _ l).map f
  induction l with
  | nil => rfl
  | cons a l ih => rw [List.map_cons, sortBy, sortBy, ih, insertBy_map]

end Verif.Format
