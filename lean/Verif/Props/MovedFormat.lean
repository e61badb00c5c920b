import Verif.Proof.FormatRename
import Verif.Props.MovedRun
import Verif.Props.FormatFix

/-!
# Moving the tree: format and all (C104)
-/

namespace Verif.Props

open Verif Verif.Spec Str Path Settings File Exec

/-- C104: what `format` makes of a file does not depend on the directory the file is in: a file with the
same elements and the same base name has the same formatted text, and the same failures but for the name
of the file. -/
theorem C104_transform (srt : SortSlice) (hs : ByComparing srt) (q q' : Format.Params)
    (hq : q' = { q with filename := q'.filename }) (hn : q.filename ≠ []) (hn' : q'.filename ≠ [])
    (hb : Path.base q'.filename = Path.base q.filename) (ρ : Str → Str) (es : List Proto.Element) :
    SameResult (fun a a' => a'.1 = a.1 ∧ (a'.2.map nameless).Perm (a.2.map nameless))
      (Format.transform srt q es) (Format.transform srt q' (Proto.renameAll ρ es)) :=
  Format.transform_rename hs hq (outer_eq hn' hn hb) es

/-- Non-vacuity: with --fix the text names the file by its base name, and an array as an option is a failure at
a place of the file. -/
example :
    let es (p : Str) : List Proto.Element :=
      [.package { name := s%"foo", position := ⟨p, 1, 1⟩ }, .option { name := s%"o", position := ⟨p, 3, 4⟩, constant := .mk [] false '"' [.plain s%"1"] [] }]
    let q (p : Str) : Format.Params := ⟨p, Format.fixV1, [], []⟩
    Proto.renameAll (fun _ => s%"/y/a.proto") (es s%"/x/a.proto") = es s%"/y/a.proto" ∧
    Path.base s%"/x/a.proto" = Path.base s%"/y/a.proto" ∧
    ((Format.transform SortSlice.stable (q s%"/x/a.proto") (es s%"/x/a.proto")).toOption.map fun a =>
      (contains a.1 s%"AProto", a.2.map fun f => (f.filename, f.line))) = some (true, [(s%"/x/a.proto", 3)]) ∧
    ((Format.transform SortSlice.stable (q s%"/y/a.proto") (es s%"/y/a.proto")).toOption.map fun a =>
      (contains a.1 s%"AProto", a.2.map fun f => (f.filename, f.line))) = some (true, [(s%"/y/a.proto", 3)]) :=
  ⟨rfl, by decide +kernel, by decide +kernel, by decide +kernel⟩

section
variable {r r' x : List Str} {h h' : Exec.Host} {c c' : Provider} {o o' : Order}
  (s : MovedSystem r r' x h h' c c' o o')
include s

theorem MovedSystem.readFile {p p' : Str} (hp : MovedPath r r' p p') :
    MovedRun r r' (fun a b => b = a) (Exec.readFile h p) (Exec.readFile h' p') := by
  intro w w' hw
  unfold Exec.readFile
  rw [hw.disk p p' hp]
  cases w.disk p with
  | none => exact ⟨hw, trivial⟩
  | some d => exact ⟨hw, rfl⟩

theorem MovedSystem.writeFile (hwr : ∀ p p' data, MovedPath r r' p p' →
      SameWrite (h.writeFile p data) (h'.writeFile p' data)) {p p' : Str} (hp : MovedPath r r' p p') (t : Str) :
    MovedRun r r' (fun _ _ => True) (Exec.writeFile h p t) (Exec.writeFile h' p' t) := by
  intro w w' hw
  have key := hwr p p' t hp
  have hset : ∀ content, MovedDisk r r' (Disk.set w.disk p content) (Disk.set w'.disk p' content) := by
    intro content q q' hq
    unfold Disk.set
    have := Proof.Moved.eq_iff s.provider.host.root s.provider.host.root' hq hp
    by_cases e : q = p
    · rw [if_pos e, if_pos (this.1 e)]
    · rw [if_neg e, if_neg fun k => e (this.2 k), hw.disk q q' hq]
  have hws : Pointwise (fun a b => MovedPath r r' a.1 b.1 ∧ b.2 = a.2) (w.writes ++ [(p, t)])
      (w'.writes ++ [(p', t)]) := Proof.Moved.pw_append hw.writes (.cons ⟨hp, rfl⟩ .nil)
  unfold Exec.writeFile
  dsimp only
  rcases h1 : h.writeFile p t with ⟨e, left⟩ | ⟨⟩ <;> rcases h2 : h'.writeFile p' t with ⟨e', left'⟩ | ⟨⟩ <;>
    rw [h1, h2] at key
  · have key := show left' = left from key
    subst key
    exact ⟨⟨hset _, hw.out, hws⟩, trivial⟩
  · exact key.elim
  · exact key.elim
  · exact ⟨⟨hset _, hw.out, hws⟩, trivial⟩

theorem MovedSystem.transform {srt : SortSlice} (hc : ByComparing srt) {args : List Str} {m m' : Meta}
    (hm : MovedMeta r r' h h' args m m') (fix : Bool) {p p' : Str} (hp : p ≠ []) (hp' : p' ≠ [])
    (hb : Path.base p' = Path.base p) (input : Str) :
    SameResult (fun a a' => a'.1 = a.1 ∧ (a'.2.map nameless).Perm (a.2.map nameless))
      (Exec.transform h srt (formatParams fix m p) input) (Exec.transform h' srt (formatParams fix m' p') input) := by
  have hq : formatParams fix m' p' = { formatParams fix m p with filename := (formatParams fix m' p').filename } := by
    unfold formatParams
    rw [hm.set.config.lint]
  unfold Exec.transform
  rw [s.parse]
  show SameResult _ (match h.parse p input with | .error e => _ | .ok es => _)
    (match h.parse p' input with | .error e => _ | .ok es => _)
  cases h1 : h.parse p input with
  | error e =>
    cases h2 : h.parse p' input with
    | error e' => trivial
    | ok es =>
      have := s.parser.names _ _ _ h2 fun _ => p
      rw [h1] at this
      cases this
  | ok es =>
    have := s.parser.names _ _ _ h1 fun _ => p'
    rw [this]
    exact C104_transform srt hc _ _ hq hp hp' hb _ es

theorem MovedSystem.formatFile {srt : SortSlice} (hc : ByComparing srt)
    (hwr : ∀ p p' data, MovedPath r r' p p' → SameWrite (h.writeFile p data) (h'.writeFile p' data))
    {args : List Str} {m m' : Meta} (hm : MovedMeta r r' h h' args m m') (flags : FormatFlags) {f f' : ProtoFile}
    (hf : f ∈ allFiles m.protoSet) (hf' : f' ∈ allFiles m'.protoSet) (hff : MovedFile r r' f f') :
    MovedRun r r' (fun a b => b = a) (Exec.formatFile h srt flags m f) (Exec.formatFile h' srt flags m' f') := by
  have hr := s.provider.host.root
  have hr' := s.provider.host.root'
  obtain ⟨_, hd, _⟩ := C82_discovered h c o s.discovers args m hm.finds (s.runs _ _ hm.finds) s.parser
    fun _ => none
  have hparser' : ParserOK h' := ⟨by rw [s.parse]; exact s.parser.tree, by rw [s.parse]; exact s.parser.names⟩
  obtain ⟨_, hd', _⟩ := C82_discovered h' c' o' s.discovers' args m' hm.finds' (s.runs' _ _ hm.finds') hparser'
    fun _ => none
  have hne : ∀ {p : Str}, Path.isAbs p = true → p ≠ [] := by
    rintro p h1 rfl
    cases h1
  have hp := hne (hd.absolute f hf)
  have hp' := hne (hd'.absolute f' hf')
  have hb : Path.base f'.path = Path.base f.path := by
    rw [← hd'.base f' hf', ← hd.base f hf, hff.displayPath]
  have l1 := Proof.Moved.lies_absClean (hd.lies f hf) (Proof.Moved.isAbsPath hr hff.path)
  have l2 := Proof.Moved.lies_absClean (hd'.lies f' hf') (Proof.Moved.isAbsPath hr' (Proof.Moved.symm hff.path))
  rw [hff.displayPath] at l2
  have hshown : f.displayPath ≠ [] := by
    intro e
    rw [e] at l1
    exact hp l1.symm
  have hnamed : MovedPath r r' (absClean h.wd f.displayPath) (absClean h'.wd f.displayPath) := by
    rw [l1, l2]; exact hff.path
  have hskip : (m.singleFilename ≠ [] ∧ f.path ≠ absClean h.wd m.singleFilename) ↔
      (m'.singleFilename ≠ [] ∧ f'.path ≠ absClean h'.wd m'.singleFilename) := by
    rw [hm.name]
    refine and_congr_right fun h0 => not_congr ?_
    exact Proof.Moved.eq_iff hr hr' hff.path (hm.single.resolve_left h0)
  unfold Exec.formatFile
  by_cases hs : m.singleFilename ≠ [] ∧ f.path ≠ absClean h.wd m.singleFilename
  · rw [if_pos hs, if_pos (hskip.1 hs)]
    exact Proof.Moved.moved_pure rfl
  · rw [if_neg hs, if_neg fun k => hs (hskip.2 k)]
    refine Proof.Moved.moved_bind (s.readFile hff.path) ?_
    rintro _ input rfl
    refine Proof.Moved.moved_bind (Proof.Moved.moved_lift (s.transform hc hm flags.fix hp hp' hb input)) ?_
    rintro ⟨_, fs⟩ ⟨t, fs'⟩ ⟨rfl, hfs⟩
    dsimp only at hfs ⊢
    have hlen : fs'.length = fs.length := by simpa using hfs.length_eq
    rw [hlen, hff.displayPath]
    have hw := s.written
    have hdiff : h'.diff = h.diff := by rw [s.same]
    split
    · refine Proof.Moved.moved_bind (R := fun _ _ => True) ?_ fun _ _ _ => Proof.Moved.moved_pure rfl
      have key : ∀ (h : Exec.Host) (m : Meta) (fs : List Text.Failure), Exec.printFailures h f.displayPath m fs =
          Exec.printFailures h [] m (fs.map fun g => { g with filename := f.displayPath }) := by
        intro h m fs
        unfold Exec.printFailures Exec.printFailuresFor
        rw [if_neg hshown]
        rfl
      have hperm : Exec.printFailures h' [] m' (fs'.map fun g => { g with filename := f.displayPath }) =
          Exec.printFailures h' [] m' (fs.map fun g => { g with filename := f.displayPath }) := by
        unfold Exec.printFailures Exec.printFailuresFor
        simp only [if_true]
        have : (fs'.map fun g => { g with filename := f.displayPath }).Perm
            (fs.map fun g => { g with filename := f.displayPath }) := by
          have := hfs.map fun g : Text.Failure => { g with filename := f.displayPath }
          rw [List.map_map, List.map_map] at this
          exact this
        rw [C18_canonical _ _ this]
      rw [key, key, hperm]
      refine s.printFailures hm ?_
      intro g hg
      obtain ⟨g0, _, rfl⟩ := List.mem_map.1 hg
      exact .inr hnamed
    · split
      · split
        · exact Proof.Moved.moved_bind (R := fun _ _ => True) (s.writeFile hwr hff.path t)
            fun _ _ _ => Proof.Moved.moved_pure rfl
        · split
          · refine Proof.Moved.moved_bind (R := fun _ _ => True) (s.printFailures hm ?_)
              fun _ _ _ => Proof.Moved.moved_pure rfl
            intro g hg
            rw [List.mem_singleton] at hg
            subst hg
            exact .inr hnamed
          · split
            · rw [hdiff]
              refine Proof.Moved.moved_bind (R := fun a b => b = a) (Proof.Moved.moved_lift ?_) ?_
              · cases h.diff input t f.displayPath with
                | error e => trivial
                | ok d => exact rfl
              · rintro d _ rfl
                exact Proof.Moved.moved_bind (R := fun _ _ => True) (Proof.Moved.moved_write hw.2.2.2.1 _)
                  fun _ _ _ => Proof.Moved.moved_pure rfl
            · exact Proof.Moved.moved_bind (R := fun _ _ => True) (Proof.Moved.moved_write hw.2.2.2.1 _)
                fun _ _ _ => Proof.Moved.moved_pure rfl
      · split
        · exact Proof.Moved.moved_bind (R := fun _ _ => True) (Proof.Moved.moved_write hw.2.2.2.1 _)
            fun _ _ _ => Proof.Moved.moved_pure rfl
        · exact Proof.Moved.moved_pure rfl

theorem MovedSystem.formatFiles {srt : SortSlice} (hc : ByComparing srt)
    (hwr : ∀ p p' data, MovedPath r r' p p' → SameWrite (h.writeFile p data) (h'.writeFile p' data))
    {args : List Str} {m m' : Meta} (hm : MovedMeta r r' h h' args m m') (flags : FormatFlags)
    {fs fs' : List ProtoFile} (hfs : ∀ f ∈ fs, f ∈ allFiles m.protoSet) (hfs' : ∀ f ∈ fs', f ∈ allFiles m'.protoSet)
    (hff : Pointwise (MovedFile r r') fs fs') (ok : Bool) :
    MovedRun r r' (fun a b => b = a) (Exec.formatFiles h srt flags m fs ok)
      (Exec.formatFiles h' srt flags m' fs' ok) := by
  induction hff generalizing ok with
  | nil => exact Proof.Moved.moved_pure rfl
  | cons h1 _ ih =>
    rw [Exec.formatFiles, Exec.formatFiles]
    refine Proof.Moved.moved_bind (s.formatFile hc hwr hm flags (hfs _ List.mem_cons_self)
      (hfs' _ List.mem_cons_self) h1) ?_
    rintro b _ rfl
    exact ih (fun f hf => hfs f (List.mem_cons_of_mem _ hf)) (fun f hf => hfs' f (List.mem_cons_of_mem _ hf)) _

theorem MovedSystem.format {srt : SortSlice} (hc : ByComparing srt)
    (hwr : ∀ p p' data, MovedPath r r' p p' → SameWrite (h.writeFile p data) (h'.writeFile p' data))
    {args : List Str} {m m' : Meta} (hm : MovedMeta r r' h h' args m m') (flags : FormatFlags) {o1 o2 : Order}
    (ho : SameOrder r r' o1 o2 s%"format" m.protoSet m'.protoSet) :
    SameMoved r r' (Exec.format h o1 srt flags m) (Exec.format h' o2 srt flags m') := by
  unfold Exec.format
  have hall : ∀ (o : Order) (ps : ProtoSet), ∀ f ∈ (dirsUnder o s%"format" ps).flatMap (·.2), f ∈ allFiles ps := by
    intro o ps f hf
    obtain ⟨d, hd, hfd⟩ := List.mem_flatMap.1 hf
    unfold dirsUnder at hd
    exact List.mem_flatMap.2 ⟨d, (o.perm _ _).mem_iff.1 (List.mem_filter.1 hd).1, hfd⟩
  have hpw : Pointwise (MovedFile r r') ((dirsUnder o1 s%"format" m.protoSet).flatMap (·.2))
      ((dirsUnder o2 s%"format" m'.protoSet).flatMap (·.2)) := by
    unfold SameOrder at ho
    generalize dirsUnder o1 s%"format" m.protoSet = l1 at ho ⊢
    generalize dirsUnder o2 s%"format" m'.protoSet = l2 at ho ⊢
    induction ho with
    | nil => exact .nil
    | cons h1 _ ih =>
      rw [List.flatMap_cons, List.flatMap_cons]
      exact Proof.Moved.pw_append h1.files ih
  refine Proof.Moved.moved_bind (s.formatFiles hc hwr hm flags (hall _ _) (hall _ _) hpw true) ?_
  rintro b _ rfl
  split
  · exact Proof.Moved.moved_fail _
  · exact Proof.Moved.moved_pure trivial

end

/-- C104: `format` writes the same to the same files, prints the same and ends alike wherever the tree is,
if the directories are taken in the same order. -/
theorem C104_format (r r' x : List Str) (h h' : Exec.Host) (c c' : Provider) (o o' : Order)
    (s : MovedSystem r r' x h h' c c' o o')
    (hw : ∀ p p' data, MovedPath r r' p p' → SameWrite (h.writeFile p data) (h'.writeFile p' data))
    (srt : SortSlice) (hs : ByComparing srt) (flags : FormatFlags) (o1 o2 : Order) (args : List Str)
    (ha : ArgsInTree x.length args)
    (ho : ∀ m m', Finds h args m → Finds h' args m' → SameOrder r r' o1 o2 s%"format" m.protoSet m'.protoSet) :
    SameMoved r r' (formatCmd h o1 srt args flags) (formatCmd h' o2 srt args flags) := by
  unfold formatCmd
  split
  · exact Proof.Moved.moved_fail _
  · exact Proof.Moved.moved_bind (s.meta ha) fun m m' hm =>
      Proof.Moved.moved_bind (s.compile hm false false) fun _ _ _ =>
        s.format hs hw hm flags (ho m m' hm.finds hm.finds')

/-- C104: `all` does the same wherever the tree is. -/
theorem C104_all (r r' x : List Str) (h h' : Exec.Host) (c c' : Provider) (o o' : Order)
    (s : MovedSystem r r' x h h' c c' o o')
    (hw : ∀ p p' data, MovedPath r r' p p' → SameWrite (h.writeFile p data) (h'.writeFile p' data))
    (env : Lint.Env) (o'' : Order) (srt : SortSlice) (hs : ByComparing srt) (args : List Str)
    (disableFormat disableLint fix : Bool) (ha : ArgsInTree x.length args)
    (ho : ∀ m m', Finds h args m → Finds h' args m' →
      SameOrder r r' env.order o'' s%"format" m.protoSet m'.protoSet) :
    SameMoved r r' (allCmd h env srt args disableFormat disableLint fix)
      (allCmd h' { env with order := o'' } srt args disableFormat disableLint fix) := by
  unfold allCmd
  refine Proof.Moved.moved_bind (s.meta ha) fun m m' hm =>
    Proof.Moved.moved_bind (s.compile hm false false) fun _ _ _ =>
    Proof.Moved.moved_bind (R := fun _ _ => True) ?_ fun _ _ _ =>
    Proof.Moved.moved_bind (s.compile hm true false) fun _ _ _ => ?_
  · split
    · exact s.format hs hw hm _ (ho m m' hm.finds hm.finds')
    · exact Proof.Moved.moved_pure trivial
  · split
    · exact s.lint hm env o''
    · exact Proof.Moved.moved_pure trivial

/-- Non-vacuity: `format -w` rewrites both files of the directory at both places. The hypotheses of
`C104_format` and `C104_all` hold of this system. -/
example : ByComparing SortSlice.stable ∧
    (∀ p p' data, MovedPath [s%"w"] [s%"home", s%"me"] p p' →
      SameWrite ((movedHost s%"/w" Order.id).writeFile p data)
        ((movedHost s%"/home/me" Order.rev).writeFile p' data)) ∧
    (∀ m m', Finds (movedHost s%"/w" Order.id) [s%"."] m → Finds (movedHost s%"/home/me" Order.rev) [s%"."] m' →
      SameOrder [s%"w"] [s%"home", s%"me"] Order.id Order.rev s%"format" m.protoSet m'.protoSet) ∧
    (formatCmd (movedHost s%"/w" Order.id) Order.id SortSlice.stable [s%"."] { overwrite := true }
      (movedWorld s%"/w")).1.writes =
        [(s%"/w/a/x.proto", s%"syntax = \"proto3\";\n"), (s%"/w/a/z.proto", s%"syntax = \"proto2\";\n")] ∧
    (formatCmd (movedHost s%"/home/me" Order.rev) Order.rev SortSlice.stable [s%"."] { overwrite := true }
      (movedWorld s%"/home/me")).1.writes =
        [(s%"/home/me/a/x.proto", s%"syntax = \"proto3\";\n"),
         (s%"/home/me/a/z.proto", s%"syntax = \"proto2\";\n")] := by
  refine ⟨Format.stable_byComparing, fun _ _ _ _ => trivial, fun m m' hm hm' => ?_, by decide +kernel, by decide +kernel⟩
  have h1 : (getForDirOf (movedProvider s%"/w") Order.id s%"." s%".").toOption.map
      (dirsUnder Order.id s%"format") = some [(s%"/w/a", [⟨s%"/w/a/x.proto", s%"x.proto"⟩,
        ⟨s%"/w/a/z.proto", s%"z.proto"⟩])] := by decide +kernel
  have h2 : (getForDirOf (movedProvider s%"/home/me") Order.rev s%"." s%".").toOption.map
      (dirsUnder Order.rev s%"format") = some [(s%"/home/me/a", [⟨s%"/home/me/a/x.proto", s%"x.proto"⟩,
        ⟨s%"/home/me/a/z.proto", s%"z.proto"⟩])] := by decide +kernel
  rw [movedHost_finds hm] at h1
  rw [movedHost_finds hm'] at h2
  unfold SameOrder
  rw [Option.some.inj h1, Option.some.inj h2]
  refine .cons ⟨Proof.Moved.of [s%"a"] (by decide), .cons ⟨?_, rfl⟩ (.cons ⟨?_, rfl⟩ .nil)⟩ .nil
  · exact Proof.Moved.of [s%"a", s%"x.proto"] (by decide)
  · exact Proof.Moved.of [s%"a", s%"z.proto"] (by decide)

end Verif.Props
