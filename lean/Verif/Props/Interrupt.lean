import Verif.Proof.Interrupt
import Verif.Props.Create
import Verif.Spec.ExecSample

/-!
# C101: commands that are stopped in the middle

The theorems are about a run that writes, in this order, `new`. If it is killed, the disk is as it is between two of
these writes (`StoppedBetween`) or in one of them (`StoppedIn`).
-/

namespace Verif.Props

open Verif Str Exec Spec

/-- C101: the writes are all that `format` does to the disk, so the moments between and in them are all there is. -/
theorem C101_log (h : Host) (hw : Writes h) (o : Order) (srt : SortSlice) (args : List Str) (flags : FormatFlags)
    (w : World) : ∃ new, (formatCmd h o srt args flags w).1.writes = w.writes ++ new ∧
      (formatCmd h o srt args flags w).1.disk = afterWrites w.disk new :=
  logged_formatCmd hw o srt args flags w

/-- C101: `format` that is stopped between two writes leaves every file either as it was or formatted. Missing: the
moments in a write, for which this is false (`C101_not_whole`). -/
theorem C101_between_partial (h : Host) (o : Order) (srt : SortSlice) (args : List Str) (flags : FormatFlags)
    (m : Meta) (hm : Finds h args m) (hd : Distinct m) (w : World) (new : List (Str × Str))
    (hn : (formatCmd h o srt args flags w).1.writes = w.writes ++ new) (left : Disk)
    (hl : StoppedBetween w.disk new left) (path : Str) :
    left path = w.disk path ∨ ∃ f content text, Concerns h m f ∧ f.path = path ∧ w.disk path = some content ∧
      Formats h srt flags.fix m path content text ∧ left path = some text := by
  obtain ⟨new', h1, _, h3⟩ := C38_written h o srt args flags m hm hd w
  obtain rfl : new' = new := List.append_cancel_left (h1.symm.trans hn)
  obtain ⟨done, rest, rfl, rfl⟩ := hl
  rcases afterWrites_at (disk := w.disk) (writes := done) path with h | ⟨text, hmem, h⟩
  · exact .inl h
  · obtain ⟨_, f, content, hc, hp, hdisk, hF, _⟩ := h3 path text (List.mem_append_left _ hmem)
    exact .inr ⟨f, content, text, hc, hp, hdisk, hF, h⟩

/-- C101: `format` that is stopped in a write leaves a beginning of the formatted text in one of its files, and every
other file either as it was or formatted. -/
theorem C101_in (h : Host) (o : Order) (srt : SortSlice) (args : List Str) (flags : FormatFlags)
    (m : Meta) (hm : Finds h args m) (hd : Distinct m) (w : World) (new : List (Str × Str))
    (hn : (formatCmd h o srt args flags w).1.writes = w.writes ++ new) (left : Disk) (path text : Str)
    (hl : StoppedIn w.disk new left path text) :
    (∃ f content begun, Concerns h m f ∧ f.path = path ∧ w.disk path = some content ∧
      Formats h srt flags.fix m path content text ∧ begun <+: text ∧ left path = some begun) ∧
    ∀ other, other ≠ path → left other = w.disk other ∨ ∃ f content text, Concerns h m f ∧ f.path = other ∧
      w.disk other = some content ∧ Formats h srt flags.fix m other content text ∧ left other = some text := by
  obtain ⟨done, rest, begun, hnew, hb, rfl⟩ := hl
  constructor
  · obtain ⟨new', h1, _, h3⟩ := C38_written h o srt args flags m hm hd w
    obtain rfl : new' = new := List.append_cancel_left (h1.symm.trans hn)
    obtain ⟨_, f, content, hc, hp, hdisk, hF, _⟩ := h3 path text (by rw [hnew]; simp)
    exact ⟨f, content, begun, hc, hp, hdisk, hF, hb, by unfold Disk.set; rw [if_pos rfl]⟩
  · intro other ho
    have : Disk.set (afterWrites w.disk done) path (some begun) other = afterWrites w.disk done other := by
      unfold Disk.set; rw [if_neg ho]
    rw [this]
    exact C101_between_partial h o srt args flags m hm hd w new hn _ ⟨done, _, hnew, rfl⟩ other

theorem formats_unique {h : Host} {srt : SortSlice} {fix : Bool} {m : Meta} {path content t t' : Str}
    (h1 : Formats h srt fix m path content t) (h2 : Formats h srt fix m path content t') : t = t' := by
  obtain ⟨es, e1, e2⟩ := h1
  obtain ⟨es', e1', e2'⟩ := h2
  rw [e1] at e1'
  cases e1'
  rw [e2] at e2'
  cases e2'
  rfl

/-- `format` that was stopped between two writes and is started again, if formatting formatted text changes nothing. -/
theorem resumed_of_stable (h : Host) (hp : Prints h) (hw : Writes h) (o o' : Order) (srt : SortSlice)
    (args : List Str) (flags : FormatFlags) (hf : flags.overwrite = true) (m : Meta) (hm : Finds h args m)
    (hd : Distinct m) (w : World) (hok : (formatCmd h o srt args flags w).2 = .ok ())
    (stable : ∀ f content text, Concerns h m f → w.disk f.path = some content →
      Formats h srt flags.fix m f.path content text → Formats h srt flags.fix m f.path text text)
    (new : List (Str × Str)) (hn : (formatCmd h o srt args flags w).1.writes = w.writes ++ new)
    (w' : World) (hl : StoppedBetween w.disk new w'.disk) (hc : Compiles h {} m w'.disk) :
    (formatCmd h o' srt args flags w').2 = .ok () ∧
      (formatCmd h o' srt args flags w').1.disk = (formatCmd h o srt args flags w).1.disk := by
  obtain ⟨h1, h2, _, h4⟩ := (C38_exit_zero h hp o srt args flags m hm hd w).1 hok
  have mid := C101_between_partial h o srt args flags m hm hd w new hn w'.disk hl
  -- every file, at the moment of the stop
  have key : ∀ f, Concerns h m f → ∃ content text, w'.disk f.path = some content ∧
      Formats h srt flags.fix m f.path content text ∧
      (formatCmd h o srt args flags w).1.disk f.path = some text := by
    intro f hcon
    obtain ⟨c, t, e1, e2, e3⟩ := C38_overwritten h hp o srt args flags hf m hm hd w hok f hcon
    rcases mid f.path with he | ⟨_, c', t', _, _, e4, e5, e6⟩
    · exact ⟨c, t, by rw [he, e1], e2, e3⟩
    · rw [e1] at e4
      cases e4
      obtain rfl := formats_unique e2 e5
      exact ⟨t, t, e6, stable f c t hcon e1 e2, e3⟩
  have hok' : (formatCmd h o' srt args flags w').2 = .ok () := by
    refine (C38_exit_zero h hp o' srt args flags m hm hd w').2 ⟨h1, h2, hc, fun f hcon => ?_⟩
    obtain ⟨c, t, e1, e2, _⟩ := key f hcon
    exact ⟨c, t, e1, e2, .inr ⟨hf, hw _ _⟩⟩
  refine ⟨hok', funext fun path => ?_⟩
  by_cases hex : ∃ f, Concerns h m f ∧ f.path = path
  · obtain ⟨f, hcon, rfl⟩ := hex
    obtain ⟨c, t, e1, e2, e3⟩ := key f hcon
    obtain ⟨c', t', e1', e2', e3'⟩ := C38_overwritten h hp o' srt args flags hf m hm hd w' hok' f hcon
    rw [e1] at e1'
    cases e1'
    rw [e3, e3', formats_unique e2 e2']
  · have un : ∀ (o : Order) (v : World), (formatCmd h o srt args flags v).1.disk path = v.disk path := by
      intro o v
      refine Classical.byContradiction fun hne => ?_
      obtain ⟨_, f, _, _, hcon, hpath, _⟩ := C38_changed h o srt args flags m hm hd v path hne
      exact hex ⟨f, hcon, hpath⟩
    rw [un, un]
    rcases mid path with he | ⟨f, _, _, hcon, hpath, _⟩
    · exact he
    · exact absurd ⟨f, hcon, hpath⟩ hex

/-- C101: **`format` that was stopped between two writes and is started again ends well and leaves what it would have
left without the interruption**, for files whose comments the formatter keeps where they are, if they compile.
Missing: a stop in a write, after which this is false (`C101_not_again`). -/
theorem C101_resumed_partial (h : Host) (hp : Prints h) (hw : Writes h) (o o' : Order) (srt : SortSlice)
    (args : List Str) (flags : FormatFlags) (hf : flags.overwrite = true) (m : Meta) (hm : Finds h args m)
    (hd : Distinct m) (w : World) (hok : (formatCmd h o srt args flags w).2 = .ok ())
    (regular : ∀ f content, Concerns h m f → w.disk f.path = some content →
      ∃ es, h.parse f.path content = .ok es ∧ Regular (formatsAs flags.fix m.protoSet.config.lint f.path) es)
    (back : ∀ f content text, Concerns h m f → w.disk f.path = some content →
      Formats h srt flags.fix m f.path content text → ParsesBack h f.path text)
    (new : List (Str × Str)) (hn : (formatCmd h o srt args flags w).1.writes = w.writes ++ new)
    (w' : World) (hl : StoppedBetween w.disk new w'.disk) (hc : Compiles h {} m w'.disk) :
    (formatCmd h o' srt args flags w').2 = .ok () ∧
      (formatCmd h o' srt args flags w').1.disk = (formatCmd h o srt args flags w).1.disk :=
  resumed_of_stable h hp hw o o' srt args flags hf m hm hd w hok (fun f c t hcon hc ht => by
    obtain ⟨es, he, hr⟩ := regular f c hcon hc
    exact formats_again he hr ht (back f c t hcon hc ht)) new hn w' hl hc

/-! ## `create` -/

open Verif.Create in
/-- C101: at no moment of `create` does a file that has content lose it or part of it, and at no moment is another
file changed than those it is given. -/
theorem C101_create_kept (h : Create.Handler) (host : Host) (paths : List Str) (w : World) (new : List (Str × Str))
    (hn : (createCmd h host paths w).1.writes = w.writes ++ new) (left : Disk)
    (hl : StoppedBetween w.disk new left ∨ ∃ path text, StoppedIn w.disk new left path text) (q : Str) :
    (∀ data, w.disk q = some data → data ≠ [] → left q = some data) ∧
    ((∀ p ∈ paths, q ≠ located host p) → left q = w.disk q) := by
  -- the paths that are written
  have names : ∀ x ∈ new, ∃ p ∈ paths, x.1 = located host p := by
    obtain ⟨_, ⟨ws, h1, h2⟩, _⟩ := C39_only h host w paths
    obtain rfl : ws = new := List.append_cancel_left (h1.symm.trans hn)
    exact h2
  have same : q ∉ new.map Prod.fst → left q = w.disk q := by
    intro hq
    rcases hl with ⟨done, rest, rfl, rfl⟩ | ⟨path, text, done, rest, begun, rfl, _, rfl⟩
    · exact afterWrites_other fun hm => hq (by rw [List.map_append]; exact List.mem_append_left _ hm)
    · unfold Disk.set
      rw [if_neg (by rintro rfl; exact hq (by simp))]
      exact afterWrites_other fun hm => hq (by rw [List.map_append]; exact List.mem_append_left _ hm)
  constructor
  · intro data hd hne
    rw [same ?_, hd]
    intro hm
    obtain ⟨x, hx, rfl⟩ := List.mem_map.1 hm
    obtain ⟨p, hp, he⟩ := names x hx
    obtain ⟨e, hr⟩ := C39_refused h host w paths ⟨p, hp, .inr (.inr ⟨data, he ▸ hd, hne⟩)⟩
    rw [hr] at hn
    have : new = [] := List.append_cancel_left (hn.symm.trans (List.append_nil _).symm)
    rw [this] at hx
    cases hx
  · intro hq
    refine same fun hm => ?_
    obtain ⟨x, hx, rfl⟩ := List.mem_map.1 hm
    obtain ⟨p, hp, he⟩ := names x hx
    exact hq p hp he

open Verif.Create in
/-- C101: if `create` is stopped between two writes, the paths it was given fall into those whose files are there and
whole, and the rest. **`create` for the rest ends well and leaves what it would have left without the interruption.** -/
theorem C101_create_resumed (h : Create.Handler) (host : Host) (hw : Writes host) (paths : List Str)
    (hd : (paths.map (located host)).Nodup) (w : World) (hok : (createCmd h host paths w).2 = .ok ())
    (new : List (Str × Str)) (hn : (createCmd h host paths w).1.writes = w.writes ++ new)
    (w' : World) (hl : StoppedBetween w.disk new w'.disk) :
    ∃ made rest, paths = made ++ rest ∧
      (∀ p ∈ made, w'.disk (located host p) = (createCmd h host paths w).1.disk (located host p)) ∧
      (createCmd h host rest w').2 = .ok () ∧
      (createCmd h host rest w').1.disk = (createCmd h host paths w).1.disk := by
  obtain ⟨done, todo, rfl, hleft⟩ := hl
  rcases hr : createCmd h host paths w with ⟨w1, r⟩
  rw [hr] at hok hn
  dsimp only at hok hn
  subst hok
  unfold createCmd at hr
  obtain ⟨w0, u, h1, h2⟩ := bind_ok.1 hr
  rcases checks_cases host w paths with ⟨e, he⟩ | ⟨he, _⟩
  · rw [he] at h1; cases h1
  rw [he] at h1
  cases h1
  have hall := (checks_iff host paths w).1 he
  obtain ⟨new', e1, e2, e3⟩ := creates_writes hw h2
  obtain rfl : new' = done ++ todo := List.append_cancel_left (e2.symm.trans hn)
  -- the two parts of the list
  have hsplit : paths = paths.take done.length ++ paths.drop done.length := (List.take_append_drop _ _).symm
  have hlen : (paths.take done.length).length = done.length := by
    have := congrArg List.length e1
    simp at this
    rw [List.length_take]
    omega
  have hparts : done.map Prod.fst = (paths.take done.length).map (located host) ∧
      todo.map Prod.fst = (paths.drop done.length).map (located host) := by
    rw [hsplit, List.map_append, List.map_append] at e1
    exact List.append_inj e1 (by rw [List.length_map, List.length_map, hlen])
  have hh := h2
  rw [hsplit, forEach_append] at hh
  obtain ⟨wm, u, p1, p2⟩ := bind_ok.1 hh
  obtain ⟨n1, a1, a2, a3⟩ := creates_writes hw p1
  obtain ⟨n2, b1, b2, b3⟩ := creates_writes hw p2
  have hnn : done ++ todo = n1 ++ n2 := by
    apply List.append_cancel_left (as := w.writes)
    rw [← hn, b2, a2, List.append_assoc]
  have hn12 := List.append_inj hnn (by
    have := congrArg List.length a1
    simp only [List.length_map, hlen] at this
    exact this.symm)
  obtain ⟨rfl, rfl⟩ := hn12
  have hnd : ∀ q, q ∈ done.map Prod.fst → q ∈ todo.map Prod.fst → False := by
    intro q hq1 hq2
    have := hd
    rw [hsplit, List.map_append, ← hparts.1, ← hparts.2, List.nodup_append] at this
    exact this.2.2 q hq1 q hq2 rfl
  have hfinal : w1.disk = afterWrites w.disk (done ++ todo) := by
    obtain ⟨v, hv, hvd⟩ := e3 w
    rw [h2] at hv
    cases hv
    exact hvd
  have hrest : ∃ v, createCmd h host (paths.drop done.length) w' = (v, .ok ()) ∧ v.disk = afterWrites w'.disk todo := by
    obtain ⟨v, hv, hvd⟩ := b3 w'
    refine ⟨v, ?_, hvd⟩
    refine bind_ok.2 ⟨w', (), ?_, hv⟩
    refine (checks_iff host _ w').2 fun p hp => check_same host p ?_ (hall p (List.mem_of_mem_drop hp))
    rw [hleft]
    refine afterWrites_other fun hm => hnd _ hm ?_
    rw [hparts.2]
    exact List.mem_map_of_mem hp
  obtain ⟨v, hv, hvd⟩ := hrest
  refine ⟨_, _, hsplit, fun p hp => ?_, by rw [hv], by rw [hv, hvd, hfinal, hleft, afterWrites_append]⟩
  dsimp only
  rw [hfinal, hleft, afterWrites_append]
  refine (afterWrites_other fun hm => hnd _ ?_ hm).symm
  rw [hparts.1]
  exact List.mem_map_of_mem hp

open Verif.Create in
/-- C101: after `create` has been stopped, the same command either finds only empty files in its places or is refused
and changes nothing: what is there is never overwritten. -/
theorem C101_create_refused (h : Create.Handler) (host : Host) (paths : List Str) (w' : World)
    (p data : Str) (hp : p ∈ paths) (hd : w'.disk (located host p) = some data) (hne : data ≠ []) :
    ∃ e, createCmd h host paths w' = (w', .error e) :=
  C39_refused h host w' paths ⟨p, hp, .inr (.inr ⟨data, hd, hne⟩)⟩

/-! ## Violations and examples -/

section Example

open Exec.Sample

/-- The writes of `format --overwrite a` in the example. -/
example : (formatCmd host .id .stable [s%"a"] { overwrite := true } world).1.writes =
    [(s%"/w/a/two.proto", s%"syntax = \"proto3\";\n"), (s%"/w/ab/next.proto", s%"syntax = \"proto3\";\n")] := rfl

/-- The hypotheses of `C101_resumed_partial` that are about the run hold of the example, with a stop between the
two writes. -/
example : Prints host ∧ Writes host ∧ (formatCmd host .id .stable [s%"a"] { overwrite := true } world).2 = .ok () ∧
    StoppedBetween world.disk
      [(s%"/w/a/two.proto", s%"syntax = \"proto3\";\n"), (s%"/w/ab/next.proto", s%"syntax = \"proto3\";\n")]
      (Disk.set world.disk s%"/w/a/two.proto" (some s%"syntax = \"proto3\";\n")) :=
  ⟨fun _ _ => rfl, fun _ _ => rfl, rfl, [(s%"/w/a/two.proto", s%"syntax = \"proto3\";\n")], _, rfl, rfl⟩

/-- C101 is false of a stop in a write: the content is lost, and the text is not there yet. -/
theorem C101_not_whole : ∃ (h : Host) (o : Order) (srt : SortSlice) (args : List Str) (flags : FormatFlags) (m : Meta)
    (w : World) (new : List (Str × Str)) (left : Disk) (path text content : Str),
    Prints h ∧ Writes h ∧ Finds h args m ∧ Distinct m ∧ (formatCmd h o srt args flags w).2 = .ok () ∧
      (formatCmd h o srt args flags w).1.writes = w.writes ++ new ∧ StoppedIn w.disk new left path text ∧
      w.disk path = some content ∧ left path ≠ some content ∧ left path ≠ some text := by
  refine ⟨host, .id, .stable, [s%"a"], { overwrite := true }, dir, world, _,
    Disk.set world.disk s%"/w/a/two.proto" (some []), s%"/w/a/two.proto", s%"syntax = \"proto3\";\n",
    s%"syntax=\"proto3\";", fun _ _ => rfl, fun _ _ => rfl,
    ⟨s%"a", .inl rfl, .inl ⟨rfl, rfl, rfl⟩⟩, by unfold Distinct; decide, rfl, rfl,
    ⟨[], _, [], rfl, List.nil_prefix, rfl⟩, rfl, ?_, ?_⟩
  · intro h; exact absurd (Option.some.inj h) (by decide)
  · intro h; exact absurd (Option.some.inj h) (by decide)

/-- C101 is false of a stop in a write: started again, `format` does not end as it would have. -/
theorem C101_not_again : ∃ (h : Host) (o : Order) (srt : SortSlice) (args : List Str) (flags : FormatFlags) (m : Meta)
    (w : World) (new : List (Str × Str)) (left : Disk) (path text : Str),
    Prints h ∧ Writes h ∧ Finds h args m ∧ Distinct m ∧ (formatCmd h o srt args flags w).2 = .ok () ∧
      (formatCmd h o srt args flags w).1.writes = w.writes ++ new ∧ StoppedIn w.disk new left path text ∧
      Compiles h {} m left ∧ (formatCmd h o srt args flags { w with disk := left }).2 ≠ .ok () ∧
      (formatCmd h o srt args flags { w with disk := left }).1.disk path ≠
        (formatCmd h o srt args flags w).1.disk path := by
  refine ⟨host, .id, .stable, [s%"a"], { overwrite := true }, dir, world, _,
    Disk.set world.disk s%"/w/a/two.proto" (some []), s%"/w/a/two.proto", s%"syntax = \"proto3\";\n",
    fun _ _ => rfl, fun _ _ => rfl,
    ⟨s%"a", .inl rfl, .inl ⟨rfl, rfl, rfl⟩⟩, by unfold Distinct; decide, rfl, rfl,
    ⟨[], _, [], rfl, List.nil_prefix, rfl⟩, ⟨[], rfl⟩, ?_, ?_⟩
  · intro h
    have : (formatCmd host .id .stable [s%"a"] { overwrite := true }
        { world with disk := Disk.set world.disk s%"/w/a/two.proto" (some []) }).2 =
      .error (.other s%"cannot be parsed") := rfl
    rw [this] at h
    cases h
  · intro h
    have e1 : (formatCmd host .id .stable [s%"a"] { overwrite := true }
        { world with disk := Disk.set world.disk s%"/w/a/two.proto" (some []) }).1.disk s%"/w/a/two.proto" =
      some [] := rfl
    have e2 : (formatCmd host .id .stable [s%"a"] { overwrite := true } world).1.disk s%"/w/a/two.proto" =
      some s%"syntax = \"proto3\";\n" := rfl
    rw [e1, e2] at h
    exact absurd (Option.some.inj h) (by decide)

/-- `create` writes two files in the example, which are in two places. -/
example : Writes createHost ∧
    ([s%"idl/code/x/a_b.proto", s%"other/y/c.proto"].map (located createHost)).Nodup ∧
    (Create.createCmd createHandler createHost [s%"idl/code/x/a_b.proto", s%"other/y/c.proto"] ⟨fun _ => none, [], []⟩).2 =
      .ok () ∧
    (Create.createCmd createHandler createHost [s%"idl/code/x/a_b.proto", s%"other/y/c.proto"]
      ⟨fun _ => none, [], []⟩).1.writes.length = 2 :=
  ⟨fun _ _ => rfl, by decide +kernel, by decide +kernel, by decide +kernel⟩

/-- C101 is false of `create` that is stopped in a write: the same command, started again, is refused and leaves the
beginning of a file. -/
theorem C101_create_not_again : ∃ (h : Create.Handler) (host : Host) (paths : List Str) (w : World)
    (new : List (Str × Str)) (left : Disk) (path text e : Str),
    Writes host ∧ (Create.createCmd h host paths w).2 = .ok () ∧
      (Create.createCmd h host paths w).1.writes = w.writes ++ new ∧ StoppedIn w.disk new left path text ∧
      left path ≠ some text ∧
      (Create.createCmd h host paths { w with disk := left }).2 = .error (.other e) ∧
      (Create.createCmd h host paths { w with disk := left }).1.disk = left := by
  have hw : ∃ text, (Create.createCmd createHandler createHost [s%"other/y/c.proto"] ⟨fun _ => none, [], []⟩).1.writes =
      [(s%"/w/other/y/c.proto", text)] ∧ s%"//" <+: text ∧ text ≠ s%"//" := by
    refine ⟨((Create.createCmd createHandler createHost [s%"other/y/c.proto"]
      ⟨fun _ => none, [], []⟩).1.writes.map Prod.snd).head!, ?_, ?_, ?_⟩ <;> decide +kernel
  obtain ⟨text, h1, h2, h3⟩ := hw
  have hr := C101_create_refused createHandler createHost [s%"other/y/c.proto"]
    ⟨Disk.set (fun _ => none) s%"/w/other/y/c.proto" (some s%"//"), [], []⟩ s%"other/y/c.proto" s%"//"
    (by simp) (by decide +kernel) (by decide)
  obtain ⟨e, he⟩ := hr
  have hrefl : ∃ x, (Create.createCmd createHandler createHost [s%"other/y/c.proto"]
      ⟨Disk.set (fun _ => none) s%"/w/other/y/c.proto" (some s%"//"), [], []⟩).2 = .error (.other x) :=
    ⟨s%"\"other/y/c.proto\" already exists", by decide +kernel⟩
  obtain ⟨x, hx⟩ := hrefl
  refine ⟨createHandler, createHost, [s%"other/y/c.proto"], ⟨fun _ => none, [], []⟩, _,
    Disk.set (fun _ => none) s%"/w/other/y/c.proto" (some s%"//"), s%"/w/other/y/c.proto", text, x,
    fun _ _ => rfl, by decide +kernel, h1, ⟨[], [], s%"//", rfl, h2, rfl⟩, ?_, hx, by rw [he]⟩
  unfold Disk.set
  rw [if_pos rfl]
  intro h
  exact h3 (Option.some.inj h).symm

end Example

end Verif.Props
