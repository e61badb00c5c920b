import Verif.Proof.ReflectUnique
import Verif.Spec.BetaUse
import Verif.Spec.Wire
import Verif.Spec.Breaking

/-!
# Uses between files and between packages: lemmas
-/

namespace Verif.Proof.BetaUse

open Verif Descriptor Reflect Spec Spec.Encoded Proof.Reflect

theorem describes_path {ms : List Message} {path : List Str} {m : Message} (h : MessageAt ms path m) :
    ∀ {ds}, Matches Describes ds ms → ∃ d, DescAt ds path d ∧ Describes d m := by
  induction h with
  | here hm =>
    intro ds hds
    obtain ⟨d, hd, hdm⟩ := Matches.mem_right hds _ hm
    refine ⟨d, ?_, hdm⟩
    rw [describes_name hdm]
    exact .here hd
  | inside hm _ ih =>
    intro ds hds
    obtain ⟨d, hd, hdm⟩ := Matches.mem_right hds _ hm
    rw [describes_name hdm]
    cases hdm with
    | mk hn =>
      obtain ⟨e, he, hem⟩ := ih hn
      exact ⟨e, .inside (d := .mk _ _ _ _ _) hd he, hem⟩

theorem descAt_flatMap {files : List FileDesc} {path : List Str} {d : MessageDesc}
    (h : DescAt (files.flatMap (·.messages)) path d) : ∃ f ∈ files, DescAt f.messages path d := by
  cases h with
  | here hd =>
    obtain ⟨f, hf, hd⟩ := List.mem_flatMap.1 hd
    exact ⟨f, hf, .here hd⟩
  | inside hd h =>
    obtain ⟨f, hf, hd⟩ := List.mem_flatMap.1 hd
    exact ⟨f, hf, .inside hd h⟩

/-- The file that declares a message of the schema. -/
theorem message_file {s : SortSlice} {all : List FileDesc} {ps : PackageSet} (hb : Built s all ps)
    {package name : Str} {m : Message} (h : DeclaresMessage ps package name m) :
    ∃ f ∈ all, f.package = package ∧ ∃ path d, DescAt f.messages path d ∧ Describes d m ∧
      fullName f.package path = name := by
  obtain ⟨p, hp, rfl, path, hm, hn⟩ := h
  obtain ⟨files, hf, _⟩ := hb.packages p hp
  obtain ⟨d, hd, hdm⟩ := describes_path hm ((built_describes hb).packages p hp files hf).messages
  obtain ⟨f, hff, hd⟩ := descAt_flatMap hd
  obtain ⟨hfa, hfp⟩ := (hf.2 f).1 hff
  exact ⟨f, hfa, hfp, path, d, hd, hdm, by rw [hfp]; exact hn⟩

theorem declares_message {s : SortSlice} {all : List FileDesc} {ps : PackageSet} (hb : Built s all ps)
    {package name : Str} {m : Message} (h : DeclaresMessage ps package name m) :
    ∃ f ∈ all, f.package = package ∧ DeclaresName f ('.' :: name) := by
  obtain ⟨f, hf, hp, path, d, hd, _, rfl⟩ := message_file hb h
  exact ⟨f, hf, hp, .message hd⟩

theorem declares_enum {s : SortSlice} {all : List FileDesc} {ps : PackageSet} (hb : Built s all ps)
    {package name : Str} {e : Enum} (h : DeclaresEnum ps package name e) :
    ∃ f ∈ all, f.package = package ∧ DeclaresName f ('.' :: name) := by
  obtain ⟨p, hp, rfl, path, he, hn⟩ := h
  obtain ⟨files, hf, _⟩ := hb.packages p hp
  have hdp := (built_describes hb).packages p hp files hf
  cases he with
  | top he =>
    obtain ⟨e', he', hee⟩ := Matches.mem_right hdp.enums _ he
    obtain ⟨f, hff, he'⟩ := List.mem_flatMap.1 he'
    obtain ⟨hfa, hfp⟩ := (hf.2 f).1 hff
    refine ⟨f, hfa, hfp, ?_⟩
    rw [← hn, hee.name, ← hfp]
    exact .enum he'
  | nested hm he =>
    obtain ⟨d, hd, hdm⟩ := describes_path hm hdp.messages
    obtain ⟨f, hff, hd⟩ := descAt_flatMap hd
    obtain ⟨hfa, hfp⟩ := (hf.2 f).1 hff
    refine ⟨f, hfa, hfp, ?_⟩
    cases hdm with
    | mk _ _ hen =>
      obtain ⟨e', he', hee⟩ := Matches.mem_right hen _ he
      rw [← hn, hee.name, ← hfp]
      exact .nested hd he'

/-- The field of the file that gives the field of the schema. -/
theorem field_file {d : MessageDesc} {m : Message} (h : Describes d m) {f : Field} (hf : f ∈ m.fields) :
    ∃ x ∈ d.fields, f = fieldOf x := by
  cases h with
  | mk _ _ _ _ hp =>
    obtain ⟨x, hx, rfl⟩ := List.mem_map.1 (hp.mem_iff.1 hf)
    exact ⟨x, hx, rfl⟩

/-- Files of stable packages reach only files of stable packages. -/
theorem reaches_stable {s : SortSlice} {all : List FileDesc} {ps : PackageSet} (hb : Built s all ps)
    (hn : NoBetaDependencies ps) {f g : FileDesc} (h : Reaches all f g) :
    f ∈ all → ¬ IsBetaPackage f.package → g ∈ all ∧ ¬ IsBetaPackage g.package := by
  induction h with
  | refl => exact fun h1 h2 => ⟨h1, h2⟩
  | @step f g _ hg hd _ ih =>
    intro hf hs
    refine ih hg ?_
    obtain ⟨p, hp, hpn⟩ := (hb.names f.package).2 ⟨f, hf, rfl⟩
    rcases Classical.em (g.package = f.package) with he | he
    · rw [he]; exact hs
    · exact hn p hp (by rw [hpn]; exact hs) g.package ((hb.dependencies p hp _).2
        ⟨by rw [hpn]; exact he, f, hf, hpn.symm, _, hd, g, hg, rfl, rfl⟩)

/-- Stable packages of the schema refer only to stable packages. -/
theorem closed_of_noBeta {s : SortSlice} {all : List FileDesc} {ps : PackageSet} (hb : Built s all ps)
    (hq : ∀ f ∈ all, ∀ path d, DescAt f.messages path d → ∀ x ∈ d.fields, NamesType x.type → Qualified x.typeName)
    (hn : NoBetaDependencies ps) (hu : UsesImported all) : Closed (Checked false) ps := by
  have key : ∀ {package name m}, DeclaresMessage ps package name m → Checked false package →
      ∀ f ∈ m.fields, NamesType f.type → ∀ g ∈ all, DeclaresName g ('.' :: f.typeName) →
        Checked false g.package := by
    intro package name m hm hs f hf ht g hg hd
    obtain ⟨file, hfile, hfp, path, d, hda, hdm, _⟩ := message_file hb hm
    obtain ⟨x, hx, rfl⟩ := field_file hdm hf
    obtain ⟨rest, hrest⟩ := hq file hfile path d hda x hx ht
    have hr : Refers file ('.' :: (fieldOf x).typeName) := by
      have : '.' :: (fieldOf x).typeName = x.typeName := by
        show '.' :: x.typeName.drop 1 = x.typeName
        rw [hrest]
        rfl
      rw [this]
      exact .field hda hx ht
    have hreach := hu file hfile g hg ⟨_, hr, hd⟩
    rcases hs with hs | hs
    · cases hs
    · exact .inr (reaches_stable hb hn hreach hfile (by rw [hfp]; exact hs)).2
  constructor
  · intro package name m hm hs f hf ht package' m' hm'
    obtain ⟨g, hg, rfl, hd⟩ := declares_message hb hm'
    exact key hm hs f hf ht g hg hd
  · intro package name m hm hs f hf ht package' e he
    obtain ⟨g, hg, rfl, hd⟩ := declares_enum hb he
    exact key hm hs f hf ht g hg hd

theorem qualified_mem {ds : List MessageDesc} (h : MessagesQualified ds) {d : MessageDesc} (hd : d ∈ ds) :
    MessageQualified d := by
  induction ds with
  | nil => cases hd
  | cons a ds ih =>
    unfold MessagesQualified at h
    rcases List.mem_cons.1 hd with rfl | hd
    · exact h.1
    · exact ih h.2 hd

theorem qualified_at {ds : List MessageDesc} {path : List Str} {d : MessageDesc} (h : DescAt ds path d) :
    MessagesQualified ds → MessageQualified d := by
  induction h with
  | here hd => exact fun hq => qualified_mem hq hd
  | @inside ds d path e hd _ ih =>
    intro hq
    have := qualified_mem hq hd
    cases d
    unfold MessageQualified at this
    exact ih this.1

theorem valid_at {ds : List MessageDesc} {path : List Str} {d : MessageDesc} (h : DescAt ds path d) :
    MessagesValid ds → MessageValid d := by
  induction h with
  | here hd => exact fun hq => messagesValid_mem hq hd
  | @inside ds d path e hd _ ih =>
    intro hq
    have := messagesValid_mem hq hd
    cases d
    unfold MessageValid at this
    exact ih this.2.2.2.2

/-- Fields with a named type have a qualified type name. -/
theorem field_qualified {all : List FileDesc} (h : DescriptorsOK all) :
    ∀ f ∈ all, ∀ path d, DescAt f.messages path d → ∀ x ∈ d.fields, NamesType x.type → Qualified x.typeName := by
  intro f hf path d hd x hx ht
  have hq := qualified_at hd (h.reflectable.messages f hf)
  have hv := valid_at hd (h.messages f hf)
  cases d
  unfold MessageQualified at hq
  unfold MessageValid at hv
  rcases (hq.2 x hx).1 with he | hq
  · have := (hv.2.2.2.1 x hx).2.2 ht
    rw [he] at this
    exact absurd rfl this
  · exact hq

end Verif.Proof.BetaUse
