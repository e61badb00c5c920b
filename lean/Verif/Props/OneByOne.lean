import Verif.Props.Scope
import Verif.Spec.OneByOne

/-!
# C117: checking a directory is checking its files one by one

`arg` gives each file of the directory a name to ask for it, `mf` what that name stands for.
-/

namespace Verif.Props

open Verif Str Exec Spec File

theorem eq_of_paths {l : List ProtoFile} (h : (l.map fun f => f.path).Nodup) {x y : ProtoFile} (hx : x ∈ l) (hy : y ∈ l)
    (he : x.path = y.path) : x = y := by
  induction l with
  | nil => cases hx
  | cons z l ih =>
    rw [List.map_cons, List.nodup_cons] at h
    rcases List.mem_cons.1 hx with hx' | hx <;> rcases List.mem_cons.1 hy with hy' | hy
    · rw [hx', hy']
    · exact absurd (List.mem_map.2 ⟨y, hy, by rw [← he, hx']⟩) h.1
    · exact absurd (List.mem_map.2 ⟨x, hx, by rw [he, hy']⟩) h.1
    · exact ih h.2 hx hy

/-- The name of a file of the directory stands for that file and no other. -/
theorem concerns_one {h : Exec.Host} {c : File.Provider} {o : Order} (hd : Discovers h c o) (hwd : h.wd = c.wd) {a : Str}
    {m : Meta} (hm : Finds h [a] m) {da : Str} (ha : StandsFor h a da) {b : Str} {m' : Meta} {f : ProtoFile}
    (hf : Concerns h m f) (hb : NamesFile h b m' f) (hsame : SameConfiguration c da (Path.dir f.path)) :
    m'.protoSet = { m.protoSet with dirPath := Path.dir f.path } ∧ ∀ g, Concerns h m' g ↔ g = f := by
  obtain ⟨hps, _⟩ := same_files hd hwd hm hb.finds ha hb.dir hsame
  have hfiles : m'.protoSet.dirPathToFiles = m.protoSet.dirPathToFiles := by rw [hps]
  have hdp : m'.protoSet.dirPath = Path.dir f.path := by rw [hps]
  have hsingle : m'.singleFilename = b := by
    obtain ⟨y, hy, hfind⟩ := hb.finds
    have : y = b := by
      rcases hy with hy | ⟨hy, _⟩
      · cases hy; rfl
      · simp at hy
    subst this
    rcases hfind with ⟨h1, _⟩ | ⟨_, _, h3⟩
    · rw [hb.regular] at h1
      cases h1
    · exact h3
  have hbne : b ≠ [] := fun e => hd.stat .regular (e ▸ hb.regular)
  obtain ⟨d, hg, hne, _⟩ := hd.get hm
  have hdirs := listed_dirs hg
  obtain ⟨⟨dir, files, k1, k2, k3⟩, _⟩ := hf
  have hdist := C38_distinct h c o hd [a] m hm
  refine ⟨hps, fun g => ⟨?_, ?_⟩⟩
  · rintro ⟨⟨dir', files', j1, j2, j3⟩, j4⟩
    rw [hsingle] at j4
    have hp : g.path = f.path := by
      rcases j4 with j4 | j4
      · exact absurd j4 hbne
      · rw [j4, hb.path]
    rw [hfiles] at j1
    exact eq_of_paths hdist (List.mem_flatMap.2 ⟨_, j1, j3⟩) (List.mem_flatMap.2 ⟨_, k1, k3⟩) hp
  · rintro rfl
    exact ⟨⟨dir, files, by rw [hfiles]; exact k1, by rw [hdp, hdirs _ k1 _ k3]; exact List.prefix_rfl, k3⟩,
      .inr (by rw [hsingle]; exact hb.path.symm)⟩

/-- C117: **`format` in any mode ends well for a directory exactly if it ends well for each of its files**, if they
compile. -/
theorem C117_format (h : Exec.Host) (c : File.Provider) (o : Order) (hd : Discovers h c o) (hwd : h.wd = c.wd)
    (hp : Prints h) (he : ErrorFormatKnown h) (srt : SortSlice) (flags : FormatFlags) (hone : flags.AtMostOne) (a : Str)
    (m : Meta) (hm : Finds h [a] m) (da : Str) (ha : StandsFor h a da) (w : World) (hcomp : Compiles h {} m w.disk)
    (arg : ProtoFile → Str) (mf : ProtoFile → Meta)
    (hf : ∀ f, Concerns h m f → NamesFile h (arg f) (mf f) f ∧ SameConfiguration c da (Path.dir f.path) ∧
      Compiles h {} (mf f) w.disk) :
    (formatCmd h o srt [a] flags w).2 = .ok () ↔
      ∀ f, Concerns h m f → (formatCmd h o srt [arg f] flags w).2 = .ok () := by
  rw [C38_exit_zero h hp o srt [a] flags m hm (C38_distinct h c o hd [a] m hm) w]
  have one : ∀ f, Concerns h m f → ((formatCmd h o srt [arg f] flags w).2 = .ok () ↔
      ∃ content text, w.disk f.path = some content ∧ Formats h srt flags.fix m f.path content text ∧
        (content = text ∨ flags.overwrite = true ∧ h.writeFile f.path text = .ok ())) := by
    intro f hc
    obtain ⟨h1, h2, h3⟩ := hf f hc
    obtain ⟨hps, hiff⟩ := concerns_one hd hwd hm ha hc h1 h2
    have hcfg : (mf f).protoSet.config = m.protoSet.config := by rw [hps]
    rw [C38_exit_zero h hp o srt [arg f] flags (mf f) h1.finds (C38_distinct h c o hd [arg f] (mf f) h1.finds) w]
    unfold Formats
    rw [hcfg]
    constructor
    · exact fun hx => hx.2.2.2 f ((hiff f).2 rfl)
    · intro hx
      refine ⟨hone, he, h3, fun g hg => ?_⟩
      cases (hiff g).1 hg
      exact hx
  constructor
  · exact fun hx f hc => (one f hc).2 (hx.2.2.2 f hc)
  · exact fun hx => ⟨hone, he, hcomp, fun f hc => (one f hc).1 (hx f hc)⟩

/-- C117: **`lint` ends well for a directory exactly if it ends well for each of its files**, if they compile and can be
linted. -/
theorem C117_lint (h : Exec.Host) (c : File.Provider) (o : Order) (hd : Discovers h c o) (hparse : ParserOK h)
    (hp : Prints h) (hc : CanPrint h) (env : Lint.Env) (srt : SortSlice) (a : Str) (m : Meta) (hm : Finds h [a] m)
    (hdir : h.stat a = .ok .dir) (da : Str) (ha : StandsFor h a da) (hh : RunsHere h c m.protoSet) (w : World)
    (hcomp : Compiles h {} m w.disk) (fs : List Text.Failure)
    (hl : Lint.run env (lintHost h w.disk) m.protoSet false = some (.ok fs))
    (arg : ProtoFile → Str) (mf : ProtoFile → Meta)
    (hf : ∀ f, Concerns h m f → NamesFile h (arg f) (mf f) f ∧ SameConfiguration c da (Path.dir f.path) ∧
      Compiles h {} (mf f) w.disk) :
    (lintCmd h env srt [a] {} w).2 = .ok () ↔ ∀ f, Concerns h m f → (lintCmd h env srt [arg f] {} w).2 = .ok () := by
  have hsingle : m.singleFilename = [] := by
    obtain ⟨y, hy, hfind⟩ := hm
    have : y = a := by
      rcases hy with hy | ⟨hy, _⟩
      · cases hy; rfl
      · simp at hy
    subst this
    rcases hfind with ⟨_, _, h3⟩ | ⟨h1, _⟩
    · exact h3
    · rw [hdir] at h1
      cases h1
  obtain ⟨_, hdisp, hsound⟩ := C82_discovered h c o hd [a] m hm hh hparse w.disk
  have hown := own_names hd hm hdisp
  obtain ⟨d, hg, hne, _⟩ := hd.get hm
  have hdirs := listed_dirs hg
  have ended : ∀ {args : List Str} {m : Meta} {fs : List Text.Failure}, Finds h args m → Compiles h {} m w.disk →
      Lint.run env (lintHost h w.disk) m.protoSet false = some (.ok fs) →
      ((lintCmd h env srt args {} w).2 = .ok () ↔ fs = []) := by
    intro args m fs hm hcomp hl
    rw [C62_lint h hp hc env srt args m hm w hcomp fs hl]
    by_cases e : fs = [] <;> simp [e]
  -- the run for one file, and what it has in common with the run for the directory
  have one : ∀ f, Concerns h m f → ∃ fs', ((lintCmd h env srt [arg f] {} w).2 = .ok () ↔ fs' = []) ∧
      (∀ x ∈ fs', ∃ g ∈ allFiles m.protoSet, m.protoSet.dirPath <+: Path.dir g.path ∧
        Path.dir f.path <+: Path.dir g.path ∧ x.filename = g.displayPath) ∧
      ∀ g ∈ allFiles m.protoSet, Path.dir f.path <+: Path.dir g.path →
        about g.displayPath fs' = about g.displayPath fs := by
    intro f hcf
    obtain ⟨h1, h2, h3⟩ := hf f hcf
    obtain ⟨hps, _⟩ := concerns_one hd hh.wd hm ha hcf h1 h2
    have hall : allFiles (mf f).protoSet = allFiles m.protoSet := by unfold allFiles; rw [hps]
    have hh' : RunsHere h c (mf f).protoSet := ⟨hh.wd, hh.workDirPath, fun g hg => hh.files g (hall ▸ hg)⟩
    obtain ⟨_, hdisp', hsound'⟩ := C82_discovered h c o hd [arg f] (mf f) h1.finds hh' hparse w.disk
    have hown' := own_names hd h1.finds hdisp'
    have hpre : m.protoSet.dirPath <+: Path.dir f.path := by
      obtain ⟨⟨dir, files, k1, k2, k3⟩, _⟩ := hcf
      rw [hdirs _ k1 _ k3]
      exact k2
    obtain ⟨fs', hl'⟩ := C92_narrower env _ m.protoSet false (hsound false) (Path.dir f.path) hpre fs hl
    rw [← hps] at hl'
    refine ⟨fs', ended h1.finds h3 hl', fun x hx => ?_, fun g hgall hgd => ?_⟩
    · obtain ⟨_, g, hgf, e⟩ := C92_about env _ _ false (hsound' false) fs' hl' x hx
      obtain ⟨p, hpf, hgp⟩ := List.mem_flatMap.1 hgf
      obtain ⟨hpm, hpp⟩ := List.mem_filter.1 hpf
      have hpp := List.isPrefixOf_iff_prefix.1 hpp
      have hpm' : p ∈ m.protoSet.dirPathToFiles := by rw [hps] at hpm; exact hpm
      have hdp : (mf f).protoSet.dirPath = Path.dir f.path := by rw [hps]
      rw [hdp] at hpp
      refine ⟨g, List.mem_flatMap.2 ⟨p, hpm', hgp⟩, ?_, ?_, e⟩ <;> rw [hdirs p hpm' g hgp]
      · exact hpre.trans hpp
      · exact hpp
    · obtain ⟨p, hpm, hgp⟩ := List.mem_flatMap.1 hgall
      have hgd' := hgd
      rw [hdirs p hpm g hgp] at hgd
      exact C92_run env _ _ m.protoSet (mf f).protoSet false (hsound false) (hsound' false) hown hown' (by rw [hps]) rfl
        p.1 p.2 hpm (by rw [hps]; exact hpm) (hpre.trans hgd) (by rw [hps]; exact hgd) (fun _ _ => rfl) fs fs' hl hl' g hgp
  have mem_about : ∀ {x : Text.Failure} {l : List Text.Failure}, x ∈ l → x ∈ about x.filename l := fun hx =>
    List.mem_filter.2 ⟨hx, decide_eq_true rfl⟩
  rw [ended hm hcomp hl]
  constructor
  · rintro rfl f hcf
    obtain ⟨fs', h1, h2, h3⟩ := one f hcf
    rw [h1]
    cases fs' with
    | nil => rfl
    | cons x xs =>
      obtain ⟨g, k1, _, k3, k4⟩ := h2 x List.mem_cons_self
      have := mem_about (List.mem_cons_self (a := x) (l := xs))
      rw [k4, h3 g k1 k3] at this
      cases this
  · intro hall
    cases fs with
    | nil => rfl
    | cons x xs =>
      obtain ⟨_, g, hgf, e⟩ := C92_about env _ _ false (hsound false) _ hl x List.mem_cons_self
      obtain ⟨p, hpf, hgp⟩ := List.mem_flatMap.1 hgf
      obtain ⟨hpm, hpp⟩ := List.mem_filter.1 hpf
      have hcg : Concerns h m g := ⟨⟨p.1, p.2, hpm, List.isPrefixOf_iff_prefix.1 hpp, hgp⟩, .inl hsingle⟩
      obtain ⟨fs', h1, _, h3⟩ := one g hcg
      have hnil := h1.1 (hall g hcg)
      have := mem_about (List.mem_cons_self (a := x) (l := xs))
      have e' : x.filename = g.displayPath := e
      rw [e', ← h3 g (List.mem_flatMap.2 ⟨p, hpm, hgp⟩) List.prefix_rfl, hnil] at this
      cases this

/-- C117: **formatting the files of a directory one by one leaves the same files as formatting the directory**, in any
order, if every file keeps compiling while some of the others are formatted. -/
theorem C117_overwrite (h : Exec.Host) (c : File.Provider) (o : Order) (hd : Discovers h c o) (hwd : h.wd = c.wd)
    (hp : Prints h) (srt : SortSlice) (flags : FormatFlags) (ho : flags.overwrite = true) (a : Str) (m : Meta)
    (hm : Finds h [a] m) (da : Str) (ha : StandsFor h a da) (w : World)
    (hok : (formatCmd h o srt [a] flags w).2 = .ok ()) (arg : ProtoFile → Str) (mf : ProtoFile → Meta)
    (hf : ∀ f, Concerns h m f → NamesFile h (arg f) (mf f) f ∧ SameConfiguration c da (Path.dir f.path) ∧
      ∀ d : Disk, (∀ p, d p = w.disk p ∨ d p = (formatCmd h o srt [a] flags w).1.disk p) → Compiles h {} (mf f) d)
    (files : List ProtoFile) (hn : files.Nodup) (hall : ∀ f, f ∈ files ↔ Concerns h m f) :
    (oneByOne (fun args => formatCmd h o srt args flags) (files.map arg) w).2 = .ok () ∧
      (oneByOne (fun args => formatCmd h o srt args flags) (files.map arg) w).1.disk =
        (formatCmd h o srt [a] flags w).1.disk := by
  have hdist := C38_distinct h c o hd [a] m hm
  obtain ⟨hone, he, _, hzero⟩ := (C38_exit_zero h hp o srt [a] flags m hm hdist w).1 hok
  have paths : ∀ f g, Concerns h m f → Concerns h m g → f.path = g.path → f = g := by
    rintro f g ⟨⟨d1, l1, i1, _, i2⟩, _⟩ ⟨⟨d2, l2, j1, _, j2⟩, _⟩ e
    exact eq_of_paths hdist (List.mem_flatMap.2 ⟨_, i1, i2⟩) (List.mem_flatMap.2 ⟨_, j1, j2⟩) e
  suffices key : ∀ (rest : List ProtoFile) (v : World), rest.Nodup → (∀ f ∈ rest, Concerns h m f) →
      (∀ f ∈ rest, v.disk f.path = w.disk f.path) →
      (∀ p, (∀ f ∈ rest, f.path ≠ p) → v.disk p = (formatCmd h o srt [a] flags w).1.disk p) →
      (oneByOne (fun args => formatCmd h o srt args flags) (rest.map arg) v).2 = .ok () ∧
        (oneByOne (fun args => formatCmd h o srt args flags) (rest.map arg) v).1.disk =
          (formatCmd h o srt [a] flags w).1.disk by
    refine key files w hn (fun f => (hall f).1) (fun _ _ => rfl) fun p hnone => ?_
    refine Decidable.by_contra fun hne => ?_
    obtain ⟨_, f, _, _, k1, k2, _⟩ := C38_changed h o srt [a] flags m hm hdist w p (Ne.symm hne)
    exact hnone f ((hall f).2 k1) k2
  intro rest
  induction rest with
  | nil => exact fun v _ _ _ hdone => ⟨rfl, funext fun p => hdone p fun _ hx => nomatch hx⟩
  | cons f rest ih =>
    intro v hn hc hsame hdone
    have hcf := hc f List.mem_cons_self
    obtain ⟨h1, h2, h3⟩ := hf f hcf
    obtain ⟨hps, hiff⟩ := concerns_one hd hwd hm ha hcf h1 h2
    have hcfg : (mf f).protoSet.config = m.protoSet.config := by rw [hps]
    have hform : ∀ x t, Formats h srt flags.fix (mf f) f.path x t ↔ Formats h srt flags.fix m f.path x t := by
      intro x t
      unfold Formats
      rw [hcfg]
    have hdist' := C38_distinct h c o hd [arg f] (mf f) h1.finds
    have hcomp : Compiles h {} (mf f) v.disk := h3 v.disk fun p => by
      rcases Classical.em (∃ g ∈ f :: rest, g.path = p) with ⟨g, hg, rfl⟩ | hno
      · exact .inl (hsame g hg)
      · exact .inr (hdone p fun g hg e => hno ⟨g, hg, e⟩)
    have hok' : (formatCmd h o srt [arg f] flags v).2 = .ok () := by
      refine (C38_exit_zero h hp o srt [arg f] flags (mf f) h1.finds hdist' v).2 ⟨hone, he, hcomp, fun g hg => ?_⟩
      cases (hiff g).1 hg
      obtain ⟨x, t, k1, k2, k3⟩ := hzero _ hcf
      exact ⟨x, t, by rw [hsame _ List.mem_cons_self]; exact k1, (hform x t).2 k2, k3⟩
    have hnow : (formatCmd h o srt [arg f] flags v).1.disk f.path = (formatCmd h o srt [a] flags w).1.disk f.path :=
      C92_format h c o hd hwd hp srt a (arg f) m (mf f) hm h1.finds da (Path.dir f.path) ha h1.dir h2 flags ho w v hok hok'
        f hcf ((hiff f).2 rfl) (hsame f List.mem_cons_self)
    have hother : ∀ p, p ≠ f.path → (formatCmd h o srt [arg f] flags v).1.disk p = v.disk p := by
      intro p hp'
      refine Decidable.by_contra fun hne => ?_
      obtain ⟨_, g, _, _, k1, k2, _⟩ := C38_changed h o srt [arg f] flags (mf f) h1.finds hdist' v p hne
      rw [(hiff g).1 k1] at k2
      exact hp' k2.symm
    rw [List.nodup_cons] at hn
    have hstep : oneByOne (fun args => formatCmd h o srt args flags) ((f :: rest).map arg) v =
        oneByOne (fun args => formatCmd h o srt args flags) (rest.map arg) (formatCmd h o srt [arg f] flags v).1 :=
      bind_of_ok (Prod.ext rfl hok')
    rw [hstep]
    refine ih _ hn.2 (fun g hg => hc g (List.mem_cons_of_mem _ hg)) (fun g hg => ?_) fun p hnone => ?_
    · rw [hother g.path fun e => hn.1 (paths g f (hc g (List.mem_cons_of_mem _ hg)) hcf e ▸ hg)]
      exact hsame g (List.mem_cons_of_mem _ hg)
    · rcases Classical.em (p = f.path) with rfl | hpf
      · exact hnow
      · rw [hother p hpf]
        refine hdone p fun g hg => ?_
        rcases List.mem_cons.1 hg with rfl | hg
        · exact fun e => hpf e.symm
        · exact hnone g hg

/-! ## These theorems are about something -/

/-- The syntax that these files say they are in. -/
def oneSyntax (c : Str) : Str := if c = s%"syntax=\"proto2\";" then s%"proto2" else s%"proto3"

/-- The files of `C92`, where the directory above and all files can be asked for. -/
def oneHost : Exec.Host :=
  { besideHost with
    stat := fun p => if p = s%".." then .ok .dir
      else if p = s%"x.proto" ∨ p = s%"z.proto" ∨ p = s%"../b.proto" then .ok .regular else .error s%"no such file"
    parse := fun p c => .ok [.syntax { position := ⟨p, 1, 1⟩, value := oneSyntax c }] }

theorem one_discovers : Discovers oneHost besideProvider Order.id where
  getForDir := rfl
  wd := beside_discovers.wd
  workDirPath := beside_discovers.workDirPath
  stat := fun k h => by simp [oneHost] at h
  tree := beside_discovers.tree
  excludes := beside_discovers.excludes

/-- What is found for a directory. -/
def oneSet (dir : Str) : File.ProtoSet :=
  match getForDirOf besideProvider Order.id s%"/w/a" dir with
  | .ok ps => ps
  | .error _ => { workDirPath := [], dirPath := [], dirPathToFiles := [], config := Spec.Sample.config }

/-- What is found for `..` -/
def oneMeta : Meta := { protoSet := oneSet s%".." }

/-- What is found for the name of a file. -/
def oneMetaOf (f : ProtoFile) : Meta :=
  { protoSet := oneSet (Path.dir f.displayPath), singleFilename := f.displayPath }

theorem one_files : oneMeta.protoSet.dirPathToFiles =
    [(s%"/w/a", [⟨s%"/w/a/x.proto", s%"x.proto"⟩, ⟨s%"/w/a/z.proto", s%"z.proto"⟩]),
      (s%"/w", [⟨s%"/w/b.proto", s%"../b.proto"⟩])] := rfl

theorem one_concerns {f : ProtoFile} (hf : Concerns oneHost oneMeta f) :
    f = ⟨s%"/w/a/x.proto", s%"x.proto"⟩ ∨ f = ⟨s%"/w/a/z.proto", s%"z.proto"⟩ ∨ f = ⟨s%"/w/b.proto", s%"../b.proto"⟩ := by
  obtain ⟨⟨dir, files, h1, _, h2⟩, _⟩ := hf
  rw [one_files] at h1
  simp only [List.mem_cons, List.not_mem_nil, or_false, Prod.mk.injEq] at h1
  rcases h1 with ⟨_, rfl⟩ | ⟨_, rfl⟩ <;> simp only [List.mem_cons, List.not_mem_nil, or_false] at h2
  · rcases h2 with rfl | rfl
    · exact .inl rfl
    · exact .inr (.inl rfl)
  · exact .inr (.inr h2)

theorem one_names {f : ProtoFile} (hf : Concerns oneHost oneMeta f) :
    NamesFile oneHost f.displayPath (oneMetaOf f) f ∧ SameConfiguration besideProvider s%"/w" (Path.dir f.path) ∧
      ∀ d, Compiles oneHost {} (oneMetaOf f) d := by
  rcases one_concerns hf with rfl | rfl | rfl
  · exact ⟨⟨rfl, ⟨_, .inl rfl, .inr ⟨rfl, rfl, rfl⟩⟩, by decide, .inr ⟨rfl, by decide⟩⟩,
      .inr (.inr ⟨s%"/w", nested_nearest _ (.inl rfl), nested_nearest _ (.inr (by decide))⟩), fun d => ⟨_, rfl⟩⟩
  · exact ⟨⟨rfl, ⟨_, .inl rfl, .inr ⟨rfl, rfl, rfl⟩⟩, by decide, .inr ⟨rfl, by decide⟩⟩,
      .inr (.inr ⟨s%"/w", nested_nearest _ (.inl rfl), nested_nearest _ (.inr (by decide))⟩), fun d => ⟨_, rfl⟩⟩
  · exact ⟨⟨rfl, ⟨_, .inl rfl, .inr ⟨rfl, rfl, rfl⟩⟩, by decide, .inr ⟨rfl, by decide⟩⟩,
      .inr (.inr ⟨s%"/w", nested_nearest _ (.inl rfl), nested_nearest _ (.inl (by decide))⟩), fun d => ⟨_, rfl⟩⟩

/-- Nothing is formatted, and `z.proto` is in the older syntax. -/
def oneWorld : World :=
  { disk := fun p => if p = s%"/w/a/z.proto" then some s%"syntax=\"proto2\";" else some s%"syntax=\"proto3\";" }

/-- The hypotheses of the three theorems hold of `..` and its three files. `format --overwrite ..` ends well and changes
`z.proto`; `format --lint ..` does not end well, and `lint ..` has something to say. -/
example : Finds oneHost [s%".."] oneMeta ∧ StandsFor oneHost s%".." s%"/w" ∧ Prints oneHost ∧ ErrorFormatKnown oneHost ∧
    CanPrint oneHost ∧ ParserOK oneHost ∧ RunsHere oneHost besideProvider oneMeta.protoSet ∧
    (∀ d, Compiles oneHost {} oneMeta d) ∧
    (∃ fs, Lint.run sampleEnv (lintHost oneHost oneWorld.disk) oneMeta.protoSet false = some (.ok fs) ∧ fs ≠ []) ∧
    (formatCmd oneHost Order.id .stable [s%".."] { overwrite := true } oneWorld).2 = .ok () ∧
    (formatCmd oneHost Order.id .stable [s%".."] { overwrite := true } oneWorld).1.disk s%"/w/a/z.proto" =
      some s%"syntax = \"proto2\";\n" ∧
    (formatCmd oneHost Order.id .stable [s%".."] { lintMode := true } oneWorld).2 ≠ .ok () := by
  refine ⟨⟨_, .inl rfl, .inl ⟨rfl, rfl, rfl⟩⟩, .inl ⟨rfl, by decide⟩, fun _ _ => rfl, ⟨_, rfl⟩,
    ⟨⟨_, rfl⟩, fun h => nomatch h⟩, ⟨?_, ?_⟩, ⟨rfl, by decide, ?_⟩, fun d => ⟨_, rfl⟩, ⟨_, rfl, ?_⟩, by decide +kernel, by decide +kernel, by decide +kernel⟩
  · intro filename data elements h config
    cases h
    constructor <;> intro n hn <;> cases List.mem_singleton.1 hn
    · rfl
    · exact ⟨rfl, fun _ h => nomatch h⟩
  · intro filename data elements h ρ
    cases h
    rfl
  · unfold allFiles
    rw [one_files]
    simp only [← Exec.Sample.isWithin_iff]
    decide
  · exact fun e => nomatch e

end Verif.Props
