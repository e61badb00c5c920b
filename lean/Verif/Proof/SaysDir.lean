import Verif.Proof.SaysTypes
import Verif.Proof.ReportsDir

/-! # The texts of rules for the files of a directory

As in Verif/Proof/ReportsDir.lean, with the texts. -/

namespace Verif.Lint

open Verif Proto Spec Str


/-- A run that collects something in its state. -/
theorem runVisitor_says {S A : Type} {v : Visitor S} {l : Linter} {get : S → A}
    {upd : FileDescriptor → A → A} {ps : FileDescriptor → List (Position × Str)}
    (h : ∀ d s, ∃ s' evs, fileRun v d s = (s', evs, none) ∧ get s' = upd d (get s) ∧ Said l evs (ps d))
    (ds : List FileDescriptor) (s : S) :
    ∃ s' evs, runVisitor v ds s = (s', evs, none) ∧
      get s' = ds.foldl (fun a d => upd d a) (get s) ∧ Said l evs (ds.flatMap ps) := by
  induction ds generalizing s with
  | nil => exact ⟨s, [], rfl, rfl, .nil⟩
  | cons d ds ih =>
    obtain ⟨s1, e1, h1, g1, a1⟩ := h d s
    obtain ⟨s2, e2, h2, g2, a2⟩ := ih s1
    refine ⟨s2, e1 ++ e2, ?_, ?_, ?_⟩
    · rw [runVisitor_cons, h1]
      dsimp only
      rw [h2]
    · rw [g2, g1]; rfl
    · rw [List.flatMap_cons]; exact a1.append a2

/-- From events to the reports of a directory. -/
theorem saysDir_of {l : Linter} {value : FileDescriptor → Option Str}
    {said : List FileDescriptor → List Str → List (Position × Str)}
    (h : ∀ dirPath ds, ∃ evs vs, Listing value ds vs ∧ l.addCheck dirPath ds = (evs, none) ∧
      Said l evs (said ds vs)) : SaysDir l value said := by
  intro dirPath ds
  obtain ⟨evs, vs, h0, h1, h2⟩ := h dirPath ds
  refine ⟨evs.filterMap l.report, vs, h0, ?_, .of_eq h2.said, ?_⟩
  · unfold Linter.check
    dsimp only
    rw [h1]
    dsimp only
    rw [if_neg]
    rw [Bool.not_eq_true, List.any_eq_false]
    intro ev hev
    simp [h2.noPanic ev hev]
  · intro f hf
    obtain ⟨ev, _, hev⟩ := List.mem_filterMap.1 hf
    unfold Linter.report at hev
    cases ev with
    | panic => cases hev
    | add a b c =>
      dsimp only at hev
      split at hev
      · cases hev
      · cases hev; rfl

theorem said_files {l : Linter} (ds : List FileDescriptor) (msg : List Str) :
    Said l (ds.flatMap fun d => addFailure { filename := d.filename } msg)
      (ds.map fun d => ({ filename := d.filename }, text msg)) := by
  rw [← flatMap_one]
  exact .flatMap _ fun d _ => .fail _ _

theorem listing_sorted (o : Order) (site : List Str) (value : FileDescriptor → Option Str)
    (ds : List FileDescriptor) : Listing value ds (sortStrs (o.ord site (valueSet value ds))) := by
  obtain ⟨h1, h2⟩ := valueSet_spec value ds
  refine ⟨sortStrs_strict ((o.perm site _).nodup_iff.2 h1), fun x => ?_⟩
  rw [mem_sortStrs, (o.perm site _).mem_iff]
  exact h2 x

theorem said_seePackageDir (env : Env) (f : List Str) (ps : List Package) (l : Linter) :
    Said l (acts (seePackageDir env) ps ⟨f, none⟩).2 (ps.tail.map fun p => (p.position,
      text [s%"multiple package declarations, first was ",
        ps.head?.elim [] fun first => env.showPackage first])) := by
  cases ps with
  | nil => exact .nil
  | cons p ps =>
    have h : acts (seePackageDir env) (p :: ps) ⟨f, none⟩ = acts (seePackageDir env) ps ⟨f, some p⟩ := rfl
    rw [h, acts_seePackageDir_some]
    rw [List.tail_cons, ← flatMap_one]
    exact .flatMap _ fun p _ => .fail _ _

theorem says_packagesSameInDir (env : Env) :
    SaysDir (packagesSameInDirLinter env) packageNameOf fun ds vs =>
    (ds.flatMap fun d => (packages d).tail.map fun p => (p.position,
      text [s%"multiple package declarations, first was ",
        (packages d).head?.elim [] fun first => env.showPackage first])) ++
      if ¬ Agree packageNameOf ds then ds.map fun d => ({ filename := d.filename },
        text [s%"Multiple packages in directory: ", join s%", " vs, s%"."]) else [] := by
  refine saysDir_of fun dirPath ds => ?_
  have hsteps : Steps (packagesSameInDirVisitor env) (onPick asPackage (seePackageDir env)) nothing := by
    intro around e k; cases e <;> rfl
  obtain ⟨s', evs, h1, h2, h3⟩ := runVisitor_says (v := packagesSameInDirVisitor env)
    (l := packagesSameInDirLinter env) (get := (·.pkgs))
    (upd := fun d a => match packageNameOf d with
      | some v => setInsert a v
      | none => a) (ps := fun d => (packages d).tail.map fun p => (p.position,
      text [s%"multiple package declarations, first was ",
        (packages d).head?.elim [] fun first => env.showPackage first])) (by
      intro d s
      rw [fileRun_acts hsteps]
      have g2 := said_seePackageDir env s.pkgs ((inside nothing d).filterMap asPackage)
      obtain ⟨g1, _⟩ := acts_seePackageDir env s.pkgs ((inside nothing d).filterMap asPackage)
      refine ⟨_, _, rfl, ?_, ?_⟩
      · show ((packagesSameInDirVisitor env).finally_ (acts (seePackageDir env) _ ⟨s.pkgs, none⟩).1).1.pkgs = _
        rw [g1]
        show _ = match ((inside nothing d).filterMap asPackage).head?.map (·.name) with
          | some v => setInsert s.pkgs v
          | none => s.pkgs
        cases ((inside nothing d).filterMap asPackage).head? <;> rfl
      · show Said _ ([] ++ (acts (seePackageDir env) _ ⟨s.pkgs, none⟩).2 ++ []) _
        rw [List.nil_append, List.append_nil]
        exact g2 _) ds {}
  have hs : s'.pkgs = valueSet packageNameOf ds := h2
  show ∃ evs vs, _ ∧ packagesSameInDir env dirPath ds = _ ∧ _
  unfold packagesSameInDir
  rw [h1]
  dsimp only
  have hL := listing_sorted env.order [s%"PACKAGES_SAME_IN_DIR", dirPath] packageNameOf ds
  rw [← hs] at hL
  by_cases hA : s'.pkgs.length > 1
  · rw [if_pos hA]
    refine ⟨_, _, hL, rfl, ?_⟩
    rw [if_pos ((agree_iff _ _).1 (hs ▸ hA))]
    exact h3.append (said_files _ _)
  · rw [if_neg hA]
    refine ⟨_, _, hL, rfl, ?_⟩
    rw [if_neg fun h => hA (hs ▸ (agree_iff _ _).2 h), List.append_nil]
    exact h3

theorem said_seeOptionDir (env : Env) (name : Str) (f : List Str) (os : List Opt) (l : Linter) :
    Said l (acts (seeOptionDir env name) os ⟨f, none⟩).2
      ((os.filter fun o => o.name = name).tail.map fun o => (o.position,
        text [s%"multiple option declarations for ", name, s%", first was ",
          (os.filter fun o => o.name = name).head?.elim [] fun first => env.showOption first])) := by
  have later : ∀ (os : List Opt) (first : Opt),
      (acts (seeOptionDir env name) os ⟨f, some first⟩).1 = ⟨f, some first⟩ ∧
      Said l (acts (seeOptionDir env name) os ⟨f, some first⟩).2
        ((os.filter fun o => o.name = name).map fun o => (o.position,
          text [s%"multiple option declarations for ", name, s%", first was ", env.showOption first])) := by
    intro os first
    induction os with
    | nil => exact ⟨rfl, .nil⟩
    | cons o os ih =>
      rw [acts]
      by_cases h : o.name = name
      · have e : seeOptionDir env name o ⟨f, some first⟩ = (⟨f, some first⟩,
            addFailure o.position [s%"multiple option declarations for ",
              name, s%", first was ", env.showOption first]) := by
          unfold seeOptionDir; rw [if_pos h]
        unfold Act.seq
        rw [e]
        dsimp only
        refine ⟨ih.1, ?_⟩
        rw [List.filter_cons_of_pos (by simpa using h), List.map_cons]
        exact (Said.fail _ _).append ih.2
      · have e : seeOptionDir env name o ⟨f, some first⟩ = (⟨f, some first⟩, []) := by
          unfold seeOptionDir; rw [if_neg h]
        unfold Act.seq
        rw [e]
        dsimp only
        rw [List.filter_cons_of_neg (by simpa using h)]
        exact ⟨ih.1, ih.2⟩
  induction os with
  | nil => exact .nil
  | cons o os ih =>
    rw [acts]
    by_cases h : o.name = name
    · have e : seeOptionDir env name o ⟨f, none⟩ = (⟨f, some o⟩, []) := by
        unfold seeOptionDir; rw [if_pos h]
      unfold Act.seq
      rw [e]
      dsimp only
      rw [List.filter_cons_of_pos (by simpa using h)]
      exact (later os o).2
    · have e : seeOptionDir env name o ⟨f, none⟩ = (⟨f, none⟩, []) := by
        unfold seeOptionDir; rw [if_neg h]
      unfold Act.seq
      rw [e]
      dsimp only
      rw [List.filter_cons_of_neg (by simpa using h)]
      exact ih

theorem says_optionSameInDir (env : Env) (id name : Str) :
    SaysDir (newLinter id purpose (fileOptionsSameInDir env name)) (optionValueOf name) fun ds vs =>
    (ds.flatMap fun d => (optionsNamed name d).tail.map fun o => (o.position,
      text [s%"multiple option declarations for ", name, s%", first was ",
        (optionsNamed name d).head?.elim [] fun first => env.showOption first])) ++
      if ¬ Agree (optionValueOf name) ds then ds.map fun d => ({ filename := d.filename },
        if [] ∈ vs then text [s%"File option ", quote name, s%" set in some files in directory but not in others."]
        else text [s%"Multiple values for file option ", quote name, s%" in directory: ",
          join s%", " vs, s%"."]) else [] := by
  refine saysDir_of fun dirPath ds => ?_
  have hsteps : Steps (fileOptionsSameInDirVisitor env name)
      (onPick asOption (seeOptionDir env name)) nothing := by
    intro around e k; cases e <;> rfl
  obtain ⟨s', evs, h1, h2, h3⟩ := runVisitor_says (v := fileOptionsSameInDirVisitor env name)
    (l := newLinter id purpose (fileOptionsSameInDir env name)) (get := (·.values))
    (upd := fun d a => match optionValueOf name d with
      | some v => setInsert a v
      | none => a) (ps := fun d => (optionsNamed name d).tail.map fun o => (o.position,
      text [s%"multiple option declarations for ", name, s%", first was ",
        (optionsNamed name d).head?.elim [] fun first => env.showOption first])) (by
      intro d s
      rw [fileRun_acts hsteps]
      have g2 := said_seeOptionDir env name s.values ((inside nothing d).filterMap asOption)
      obtain ⟨g1, _⟩ := acts_seeOptionDir env name s.values ((inside nothing d).filterMap asOption)
      refine ⟨_, _, rfl, ?_, ?_⟩
      · show ((fileOptionsSameInDirVisitor env name).finally_
          (acts (seeOptionDir env name) _ ⟨s.values, none⟩).1).1.values = _
        rw [g1]
        show _ = setInsert s.values ((Option.map _ (List.filter _
          ((inside nothing d).filterMap asOption)).head?).getD [])
        cases (((inside nothing d).filterMap asOption).filter fun o => o.name = name).head? <;> rfl
      · show Said _ ([] ++ (acts (seeOptionDir env name) _ ⟨s.values, none⟩).2 ++ []) _
        rw [List.nil_append, List.append_nil]
        exact g2 _) ds {}
  have hs : s'.values = valueSet (optionValueOf name) ds := h2
  show ∃ evs vs, _ ∧ fileOptionsSameInDir env name dirPath ds = _ ∧ _
  unfold fileOptionsSameInDir
  rw [h1]
  dsimp only
  have hL := listing_sorted env.order [s%"FILE_OPTIONS_SAME_IN_DIR", dirPath, name] (optionValueOf name) ds
  rw [← hs] at hL
  have hM : [] ∈ sortStrs (env.order.ord [s%"FILE_OPTIONS_SAME_IN_DIR", dirPath, name] s'.values) ↔ [] ∈ s'.values := by
    rw [mem_sortStrs, (env.order.perm _ _).mem_iff]
  by_cases hA : s'.values.length > 1
  · rw [if_pos hA]
    by_cases hE : [] ∈ s'.values
    · rw [if_pos hE]
      refine ⟨_, _, hL, rfl, ?_⟩
      rw [if_pos ((agree_iff _ _).1 (hs ▸ hA))]
      simp only [hM, hE, if_true]
      exact h3.append (said_files _ _)
    · rw [if_neg hE]
      refine ⟨_, _, hL, rfl, ?_⟩
      rw [if_pos ((agree_iff _ _).1 (hs ▸ hA))]
      simp only [hM, hE, if_false]
      exact h3.append (said_files _ _)
  · rw [if_neg hA]
    refine ⟨_, _, hL, rfl, ?_⟩
    rw [if_neg fun h => hA (hs ▸ (agree_iff _ _).2 h), List.append_nil]
    exact h3

/-! ## The options of RPCs -/

theorem says_readerOn {S : Type} {good : Node → Prop} {l : Linter} {v : Visitor S} {s0 : S}
    {ok : FileDescriptor → Prop} (hl : l.addCheck = visitWith v s0)
    {I : S → Prop} {st : FileDescriptor → List Element → S}
    {own : FileDescriptor → Node → List Event} {start fin : FileDescriptor → List Event}
    {descend : Element → Bool} (h : ∀ d, ReaderOn good v (st d) (own d) descend)
    (hgood : ∀ d, ok d → ∀ n ∈ fileNodes d, good n)
    (h0 : I s0) (hstart : ∀ d s, I s → v.onStart d s = (st d [], start d))
    (hfin : ∀ d, ok d → ∃ s', v.finally_ (st d []) = (s', fin d, none) ∧ I s')
    {at_ : FileDescriptor → Node → List (Position × Str)} {ps pf : FileDescriptor → List (Position × Str)}
    (has : ∀ d, ok d → Said l (start d) (ps d)) (haf : ∀ d, ok d → Said l (fin d) (pf d))
    (ha : ∀ d, ok d → ∀ n ∈ inside descend d, Said l (own d n) (at_ d n)) :
    SaysOn ok l fun d => ps d ++ (inside descend d).flatMap (at_ d) ++ pf d := by
  have key : ∀ d, ok d → Said l (start d ++ (inside descend d).flatMap (own d) ++ fin d)
      (ps d ++ (inside descend d).flatMap (at_ d) ++ pf d) := fun d hd =>
    ((has d hd).append (.flatMap _ fun n hn => ha d hd n hn)).append
      (haf d hd)
  refine says_of (fun dirPath ds hok => ?_) (fun d hd => (key d hd).noPanic)
    fun d hd => .of_eq (key d hd).said
  rw [hl]
  exact ReaderOn.run hgood h hstart hfin ds hok s0 h0

theorem says_http : SaysOn
    (fun d => Grammatical d ∧ ∀ o ∈ outerOptions d, ¬ s%"(.google.api.http)" <+: o.name)
    rpcOptionsNoGoogleAPIHTTPLinter fun d =>
      ((rpcOptions d).filter fun p => HTTPName p.2.name ∧
        ¬ Suppressed s%"google-api-http" d.config p.1.comment).map fun p => (p.2.position, withHint s%"google-api-http" d.config [s%"Option \"google.api.http\" is not allowed. This option signifies HTTP/REST usage, use the RPC framework instead."]) := by
  have := says_readerOn (l := rpcOptionsNoGoogleAPIHTTPLinter) (v := rpcOptionsNoGoogleAPIHTTP)
    (s0 := {}) rfl (I := fun _ => True) (st := httpState) (own := httpOwn)
    (start := fun _ => []) (fin := fun _ => []) (descend := fun e => isService e || isRPC e)
    (at_ := fun d => saidOf asRPCOption (fun p => HTTPName p.2.name ∧
        ¬ Suppressed s%"google-api-http" d.config p.1.comment) fun p => (p.2.position, withHint s%"google-api-http" d.config [s%"Option \"google.api.http\" is not allowed. This option signifies HTTP/REST usage, use the RPC framework instead."]))
    (ps := fun _ => []) (pf := fun _ => []) reader_http
    (ok := fun d => Grammatical d ∧ ∀ o ∈ outerOptions d, ¬ s%"(.google.api.http)" <+: o.name)
    (fun d hd n hn => hd.1 n hn) trivial (fun d s _ => rfl)
    (fun d _ => ⟨_, rfl, trivial⟩) (fun _ _ => .nil) (fun _ _ => .nil)
    (fun d hd n hn => by
      obtain ⟨hmem, hall⟩ := List.mem_filter.1 hn
      have houter : ∀ o ∈ asOuterOption n, ¬ s%"(.google.api.http)" <+: o.name := fun o ho =>
        hd.2 o (List.mem_filterMap.2 ⟨n, hmem, ho⟩)
      obtain ⟨around, e⟩ := n
      cases e with
      | option o =>
        have hout : ∀ s : HTTPState, s.rpc = none → ¬ s%"(.google.api.http)" <+: o.name →
            (rpcOptionsNoGoogleAPIHTTP.option .file o s).2 = [] := by
          intro s hs hn
          have hn' : hasPrefix o.name s%"(.google.api.http)" = false :=
            Bool.of_not_eq_true fun h => hn (hasPrefix_prefix.1 h)
          show (if (s.rpc.isSome && hasPrefix o.name s%"(google.api.http)") ||
              hasPrefix o.name s%"(.google.api.http)" then _ else []) = []
          rw [hs, hn']
          rfl
        cases around with
        | nil =>
          have : httpOwn d ⟨[], .option o⟩ = [] := hout _ rfl (houter o rfl)
          rw [this]; exact .nil
        | cons a around =>
          cases a with
          | service s es =>
            have : httpOwn d ⟨.service s es :: around, .option o⟩ = [] := hout _ rfl (houter o rfl)
            rw [this]; exact .nil
          | rpc r es =>
            refine .suppressableIf (l := rpcOptionsNoGoogleAPIHTTPLinter) rfl (by decide) _ _ _ _ (by intro h; cases h) ?_
            simp only [Option.isSome_some, Bool.true_and]
            exact or_bool hasPrefix_prefix hasPrefix_prefix
          | _ => exact absurd hall Bool.false_ne_true
      | _ =>
        have : ∀ e, (∀ o, e ≠ .option o) → asRPCOption ⟨around, e⟩ = none := by
          intro e he
          unfold asRPCOption
          split
          · rename_i hh; cases hh; exact absurd rfl (he _)
          · rfl
        unfold saidOf
        rw [this _ (by intro _ h; cases h)]
        exact .nil)
  simp only [List.nil_append, List.append_nil, flatMap_saidOf] at this
  exact this

/-! ## Imports of well-known files -/

theorem said_wkt {l : Linter} (env : Env) (e : Import) :
    Said l ((wktDirectlyImported env).import_ e ()).2
      (if ∃ w ∈ wellKnown, w <:+ e.filename ∧ e.filename ≠ w then [(e.position, text [s%"Import ", quote e.filename, s%" is a Well-Known Type import but should be imported using google/protobuf as the base."])] else []) := by
  rw [← wkt_wellKnown]
  let bad : Str → Bool := fun w => hasSuffix e.filename w && decide (e.filename ≠ w)
  have hbad : ∀ w, bad w = true ↔ w <:+ e.filename ∧ e.filename ≠ w := fun w =>
    and_bool hasSuffix_suffix decide_eq_true_iff
  have key : ∀ (msg : List Str) (ws : List Str), ws.Nodup → (∀ a ∈ ws, a ∈ wktFilenames) →
      Said l (ws.flatMap fun w => if bad w = true then addFailure e.position msg else [])
        (if ∃ w ∈ ws, w <:+ e.filename ∧ e.filename ≠ w then [(e.position, text msg)] else []) := by
    intro msg ws hnd hsub
    induction ws with
    | nil => rw [if_neg (by rintro ⟨w, hw, _⟩; cases hw)]; exact .nil
    | cons w ws ih =>
      have hnd' := List.nodup_cons.1 hnd
      have hsub' : ∀ a ∈ ws, a ∈ wktFilenames := fun a ha => hsub a (List.mem_cons_of_mem _ ha)
      rw [List.flatMap_cons]
      by_cases hb : bad w = true
      · have hrest : ∀ w' ∈ ws, bad w' = false := by
          intro w' hw'
          refine Bool.of_not_eq_true fun hb' => ?_
          have h1 := ((hbad w).1 hb).1
          have h2 := ((hbad w').1 hb').1
          have hw1 := hsub w List.mem_cons_self
          have hw2 := hsub' w' hw'
          have : w = w' := by
            rcases List.suffix_or_suffix_of_suffix h1 h2 with h | h
            · exact wkt_suffix w hw1 w' hw2 h
            · exact (wkt_suffix w' hw2 w hw1 h).symm
          exact hnd'.1 (this ▸ hw')
        have hz : (ws.flatMap fun w => if bad w = true then addFailure e.position msg else []) = [] := by
          rw [List.flatMap_eq_nil_iff]
          intro w' hw'
          rw [hrest w' hw']; rfl
        rw [if_pos hb, hz, List.append_nil, if_pos ⟨w, List.mem_cons_self, (hbad w).1 hb⟩]
        exact .fail _ _
      · rw [if_neg hb, List.nil_append]
        have : (∃ w' ∈ w :: ws, w' <:+ e.filename ∧ e.filename ≠ w') ↔
            ∃ w' ∈ ws, w' <:+ e.filename ∧ e.filename ≠ w' := by
          constructor
          · rintro ⟨w', hw', h⟩
            rcases List.mem_cons.1 hw' with rfl | hw'
            · exact absurd ((hbad w').2 h) hb
            · exact ⟨w', hw', h⟩
          · rintro ⟨w', hw', h⟩
            exact ⟨w', List.mem_cons_of_mem _ hw', h⟩
        simp only [this]
        exact ih hnd'.2 hsub'
  have hp := env.order.perm [s%"WKT_DIRECTLY_IMPORTED", e.position.filename, itoa e.position.line,
       itoa e.position.column, e.filename] wktFilenames
  have := key [s%"Import ", quote e.filename, s%" is a Well-Known Type import but should be imported using google/protobuf as the base."]
    _ (hp.nodup_iff.2 wkt_nodup) fun a ha => hp.mem_iff.1 ha
  simp only [hp.mem_iff] at this
  exact this

end Verif.Lint
