import Verif.Proof.ExecMore
import Verif.Props.ExecMoreSample

/-!
# What the inspections print (C68)
-/

namespace Verif.Props

open Verif Str Descriptor Extract Spec Exec

/-- C68: the inspections change no file. -/
theorem C68_read_only (h : Host) (t : Tools) (args : List Str) (name : Str) (w : World) :
    (∀ r ∈ [inspectPackagesCmd h t args, inspectPackageDepsCmd h t args name,
      inspectPackageImportersCmd h t args name], (r w).1.disk = w.disk ∧ (r w).1.writes = w.writes) := by
  have hq : ∀ names, Quiet (printPackageNames h t names) := fun _ => quiet_printAll h _
  intro r hr
  simp only [List.mem_cons, List.not_mem_nil, or_false] at hr
  rcases hr with rfl | rfl | rfl
  · exact quiet_bind (quiet_getPackageSetAndConfig h t _ args) (fun _ => hq _) w
  · exact quiet_bind (quiet_getPackage h t args name) (fun _ => hq _) w
  · exact quiet_bind (quiet_getPackage h t args name) (fun _ => hq _) w

/-- C68: all packages of the compiled files, sorted, one on each line. -/
theorem C68_packages (h : Host) (hp : Prints h) (t : Tools) (args : List Str) (m : Meta)
    (sets : List FileSet) (w : World)
    (hc : CompilesTo h args { doFileDescriptorSet := true } w.disk m sets)
    (hf : FaithfulOn t.marshal fun f => f ∈ sets.flatten) (hv : DescriptorsOK sets.flatten) :
    ∃ names, inspectPackagesCmd h t args w = ({ w with out := w.out ++ nameLines names }, .ok ()) ∧
      Listing names fun n => ∃ f ∈ sets.flatten, f.package = n := by
  obtain ⟨ps, x, h1, hd, h2, hx⟩ := packageSetOf_ok (s := t.srt) (o := t.order.sub s%"to") hf hv
  have hps : (ps.map (·.name)).Nodup := by
    rw [List.Nodup, List.pairwise_map]
    exact hd.sorted.imp fun hlt he => by rw [he, Str.lt_irrefl] at hlt; cases hlt
  have hmem : ∀ n, n ∈ x.packages.map (fun p => p.proto.name) ↔ ∃ f ∈ sets.flatten, f.package = n := by
    intro n
    rw [← hd.names]
    constructor
    · intro hn
      obtain ⟨q, hq, rfl⟩ := List.mem_map.1 hn
      exact ⟨q.proto, ((C09_packages _ ps hps false x h2 q.proto).1 ⟨q, hq, rfl⟩).1, rfl⟩
    · rintro ⟨p, hp, rfl⟩
      obtain ⟨q, hq, rfl⟩ := (C09_packages _ ps hps false x h2 p).2 ⟨hp, by simp⟩
      exact List.mem_map.2 ⟨q, hq, rfl⟩
  have hne : [] ∉ x.packages.map (fun p => p.proto.name) := by
    intro hn
    obtain ⟨f, hf, e⟩ := (hmem []).1 hn
    exact (hv.reflectable.packages f hf).1 e
  obtain ⟨l, e, hl⟩ := printPackageNames_ok hp t (Proof.Extract.newPackageSet_links h2).1 hne w
  refine ⟨l, ?_, hl.1, fun n => (hl.2 n).trans (hmem n)⟩
  unfold inspectPackagesCmd
  rw [bind_of_ok (getPackageSetAndConfig_of hp hc hx)]
  exact e

/-- The package that `getPackage` finds. -/
theorem getPackage_ok (h : Host) (hp : Prints h) (t : Tools) (args : List Str) (m : Meta)
    (sets : List FileSet) (w : World)
    (hc : CompilesTo h args { doFileDescriptorSet := true } w.disk m sets)
    (hf : FaithfulOn t.marshal fun f => f ∈ sets.flatten) (hv : DescriptorsOK sets.flatten)
    (name : Str) (hn : ∃ f ∈ sets.flatten, f.package = name) :
    ∃ p, getPackage h t args name w = (w, .ok p) ∧
      p.dependencies.Nodup ∧ p.importers.Nodup ∧
      (∀ q, q ∈ p.dependencies ↔ q ≠ name ∧ Imports sets.flatten name q) ∧
      (∀ k, k ∈ p.importers ↔ k ≠ name ∧ Imports sets.flatten k name) := by
  obtain ⟨ps, x, h1, hd, h2, hx⟩ := packageSetOf_ok (s := t.srt) (o := t.order.sub s%"to") hf hv
  have hb := (Proof.Reflect.newPackageSet_ok hf h1).2
  have hps : (ps.map (·.name)).Nodup := by
    rw [List.Nodup, List.pairwise_map]
    exact hd.sorted.imp fun hlt he => by rw [he, Str.lt_irrefl] at hlt; cases hlt
  obtain ⟨p0, hp0, rfl⟩ := (hd.names name).2 hn
  obtain ⟨p1, hp1, e1⟩ := (C09_packages _ ps hps false x h2 p0).2 ⟨hp0, by simp⟩
  have hne : p0.name ≠ [] := by
    obtain ⟨f, hf, e⟩ := hn
    exact e ▸ (hv.reflectable.packages f hf).1
  obtain ⟨hnd, _, hl, _⟩ := Proof.Extract.newPackageSet_links h2
  obtain ⟨hlink, _, hdep⟩ := C09_links _ ps false x h2
  have hfind : ∃ p, x.packages.find? (fun p => p.proto.name = p0.name) = some p := by
    rw [← Option.isSome_iff_exists, List.find?_isSome]
    exact ⟨p1, hp1, by simp [e1]⟩
  obtain ⟨p, hfind⟩ := hfind
  have hpm := List.mem_of_find?_eq_some hfind
  have hpn : p.proto.name = p0.name := by simpa using List.find?_some hfind
  have hproto : ∀ q ∈ x.packages, q.proto ∈ ps := fun q hq =>
    ((C09_packages _ ps hps false x h2 q.proto).1 ⟨q, hq, rfl⟩).1
  have hdn := newPackageSet_nodup h2 p hpm
  have hex : ∀ q ∈ ps, ∃ y ∈ x.packages, y.proto = q := fun q hq =>
    (C09_packages _ ps hps false x h2 q).2 ⟨hq, by simp⟩
  refine ⟨p, ?_, hdn.1, hdn.2, ?_, ?_⟩
  · unfold getPackage
    rw [if_neg hne, bind_of_ok (getPackageSetAndConfig_of hp hc hx)]
    dsimp only
    rw [hfind]
    rfl
  · intro q
    rw [(hl p hpm).1, hb.imports (hproto p hpm), hpn]
    constructor
    · exact fun a => a.1
    · intro a
      refine ⟨a, ?_⟩
      obtain ⟨f, _, _, d, _, g, hg, _, hgp⟩ := a.2
      obtain ⟨r, hr, e⟩ := (hd.names q).2 ⟨g, hg, hgp⟩
      obtain ⟨y, hy, e'⟩ := hex r hr
      exact List.mem_map.2 ⟨y, hy, by show y.proto.name = q; rw [e', e]⟩
  · intro k
    rw [(hl p hpm).2]
    constructor
    · rintro ⟨q, hq, rfl, hi⟩
      have := (hb.imports (hproto q hq) _).1 hi
      change p.proto.name ≠ q.proto.name ∧ Imports _ q.proto.name p.proto.name at this
      rw [hpn] at this
      exact ⟨fun e => this.1 e.symm, this.2⟩
    · rintro ⟨hk, hi⟩
      obtain ⟨f, hfm, hfp, d, hdm, g, hg, hgn, hgp⟩ := hi
      obtain ⟨r, hr, e⟩ := (hd.names k).2 ⟨f, hfm, hfp⟩
      obtain ⟨y, hy, e'⟩ := hex r hr
      have hyk : y.proto.name = k := by rw [e', e]
      refine ⟨y, hy, hyk, (hb.imports (hproto y hy) _).2 ?_⟩
      show p.proto.name ≠ y.proto.name ∧ Imports _ y.proto.name p.proto.name
      rw [hpn, hyk]
      exact ⟨fun e => hk e.symm, f, hfm, hfp, d, hdm, g, hg, hgn, hgp⟩

/-- C68: the dependencies of a package: the other packages whose files its files import. -/
theorem C68_deps (h : Host) (hp : Prints h) (t : Tools) (args : List Str) (m : Meta)
    (sets : List FileSet) (w : World)
    (hc : CompilesTo h args { doFileDescriptorSet := true } w.disk m sets)
    (hf : FaithfulOn t.marshal fun f => f ∈ sets.flatten) (hv : DescriptorsOK sets.flatten)
    (name : Str) (hn : ∃ f ∈ sets.flatten, f.package = name) :
    ∃ names, inspectPackageDepsCmd h t args name w =
        ({ w with out := w.out ++ nameLines names }, .ok ()) ∧
      Listing names fun q => q ≠ name ∧ Imports sets.flatten name q := by
  obtain ⟨p, e, hd, _, hdep, _⟩ := getPackage_ok h hp t args m sets w hc hf hv name hn
  obtain ⟨l, e', hl⟩ := printPackageNames_ok hp t hd (by
    intro hx
    obtain ⟨_, f, _, _, d, _, g, hg, _, hgp⟩ := (hdep []).1 hx
    exact (hv.reflectable.packages g hg).1 hgp) w
  refine ⟨l, ?_, hl.1, fun n => (hl.2 n).trans (hdep n)⟩
  unfold inspectPackageDepsCmd
  rw [bind_of_ok e]
  exact e'

/-- C68: the importers of a package: the other packages with a file that imports one of its
files. -/
theorem C68_importers (h : Host) (hp : Prints h) (t : Tools) (args : List Str) (m : Meta)
    (sets : List FileSet) (w : World)
    (hc : CompilesTo h args { doFileDescriptorSet := true } w.disk m sets)
    (hf : FaithfulOn t.marshal fun f => f ∈ sets.flatten) (hv : DescriptorsOK sets.flatten)
    (name : Str) (hn : ∃ f ∈ sets.flatten, f.package = name) :
    ∃ names, inspectPackageImportersCmd h t args name w =
        ({ w with out := w.out ++ nameLines names }, .ok ()) ∧
      Listing names fun k => k ≠ name ∧ Imports sets.flatten k name := by
  obtain ⟨p, e, _, hd, _, hdep⟩ := getPackage_ok h hp t args m sets w hc hf hv name hn
  obtain ⟨l, e', hl⟩ := printPackageNames_ok hp t hd (by
    intro hx
    obtain ⟨_, f, hfm, hfp, _⟩ := (hdep []).1 hx
    exact (hv.reflectable.packages f hfm).1 hfp) w
  refine ⟨l, ?_, hl.1, fun n => (hl.2 n).trans (hdep n)⟩
  unfold inspectPackageImportersCmd
  rw [bind_of_ok e]
  exact e'

/-- C68: a package no file is in is an error, and nothing is printed. -/
theorem C68_unknown (h : Host) (hp : Prints h) (t : Tools) (args : List Str) (m : Meta)
    (sets : List FileSet) (w : World)
    (hc : CompilesTo h args { doFileDescriptorSet := true } w.disk m sets)
    (hf : FaithfulOn t.marshal fun f => f ∈ sets.flatten) (hv : DescriptorsOK sets.flatten)
    (name : Str) (hn : name ≠ []) (hno : ∀ f ∈ sets.flatten, f.package ≠ name) :
    inspectPackageDepsCmd h t args name w = (w, .error (.other (s%"package not found: " ++ name))) ∧
    inspectPackageImportersCmd h t args name w =
      (w, .error (.other (s%"package not found: " ++ name))) := by
  obtain ⟨ps, x, h1, hd, h2, hx⟩ := packageSetOf_ok (s := t.srt) (o := t.order.sub s%"to") hf hv
  have hps : (ps.map (·.name)).Nodup := by
    rw [List.Nodup, List.pairwise_map]
    exact hd.sorted.imp fun hlt he => by rw [he, Str.lt_irrefl] at hlt; cases hlt
  have hfind : x.packages.find? (fun p => p.proto.name = name) = none := by
    rw [List.find?_eq_none]
    intro p hp
    simp only [decide_eq_true_eq]
    intro e
    have := ((C09_packages _ ps hps false x h2 p.proto).1 ⟨p, hp, rfl⟩).1
    obtain ⟨f, hf, e'⟩ := (hd.names name).1 ⟨p.proto, this, e⟩
    exact hno f hf e'
  have hg : getPackage h t args name w = (w, .error (.other (s%"package not found: " ++ name))) := by
    unfold getPackage
    rw [if_neg hn, bind_of_ok (getPackageSetAndConfig_of hp hc hx)]
    dsimp only
    rw [hfind]
    rfl
  unfold inspectPackageDepsCmd inspectPackageImportersCmd Run.bind
  rw [hg]
  exact ⟨rfl, rfl⟩

/-- C68: without a name nothing is looked at. -/
theorem C68_no_name (h : Host) (t : Tools) (args : List Str) (w : World) :
    inspectPackageDepsCmd h t args [] w = (w, .error (.exit 255 s%"must set name")) ∧
    inspectPackageImportersCmd h t args [] w = (w, .error (.exit 255 s%"must set name")) :=
  ⟨rfl, rfl⟩

open Exec.Sample ReflectExample

example : (inspectPackagesCmd repoHost tools [s%"a"] world).1.out = s%"base.v1\nfoo.v1\n" := by
  decide +kernel
example : (inspectPackageDepsCmd repoHost tools [s%"a"] s%"foo.v1" world).1.out = s%"base.v1\n" := by
  decide +kernel
example : (inspectPackageImportersCmd repoHost tools [s%"a"] s%"base.v1" world).1.out = s%"foo.v1\n" := by
  decide +kernel
example : CompilesTo repoHost [s%"a"] { doFileDescriptorSet := true } world.disk dir new ∧
    (FaithfulOn tools.marshal fun f => f ∈ new.flatten) ∧ DescriptorsOK new.flatten :=
  ⟨⟨⟨s%"a", .inl rfl, .inl ⟨by rfl, by rfl, rfl⟩⟩, ⟨_, rfl⟩, by rfl⟩, new_faithful, new_valid⟩

end Verif.Props
