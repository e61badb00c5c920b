import Verif.Proof.FormatTwice
import Verif.Props.Readable

/-!
# C36: `format --fix` changes nothing the second time

The first run prints the file in the order of the formatter with the managed options replaced:
`tidyFile (sortOpts srt) (sortImps srt) (fixedFile q es)` (C87_read_fix). The second run prints that
file as the first run printed the file there was.
-/

namespace Verif.Props

open Verif Str Proto Spec Format Create

theorem fix_some {q : Params} (hq : q.fix = fixV1 ∨ q.fix = fixV2) : q.fix ≠ fixNone := fun h => by
  rcases hq with h' | h' <;> rw [h] at h' <;> cases h'

/-- **With `--fix` the second run prints what the first run printed**, if the options that are kept,
the options of each field, enum value and RPC, and the imports have distinct names. Managed options
may be there any number of times. -/
theorem C36_fix_distinct (srt : SortSlice) (q : Params) (hq : q.fix = fixV1 ∨ q.fix = fixV2)
    (es : List Element) (hp : packagesAmong es ≠ [])
    (hn : (((optionsAmong es).filter fun o => o.name ∉ managedNames).map (·.name)).Nodup)
    (ho : ∀ l ∈ optionListsAll es, (l.map (·.name)).Nodup)
    (hi : ((importsAmong es).map (·.filename)).Nodup) :
    transform srt q (tidyFile (sortOpts srt) (sortImps srt) (fixedFile q es)) = transform srt q es :=
  transform_fix_twice srt (.inr hq) (fix_some hq) es hp hn
    (fun l hl => sort_twice srt Opt.name l (ho l hl)) (sort_twice srt Import.filename _ hi) C18_canonical

/-- With a header, whatever comments are put at the top are replaced: the header of the first run
is not printed twice. -/
theorem C36_fix_top (srt : SortSlice) (q : Params) (hq : q.fix = fixV1 ∨ q.fix = fixV2)
    (hh : q.fileHeader ≠ []) (comments es : List Element) (hc : ∀ e ∈ comments, isComment e = true) :
    transform srt q (comments ++ es) = transform srt q es :=
  transform_top srt (.inr hq) (fix_some hq) hh comments es hc C18_canonical

/-- And `format` without `--fix` prints it so too. -/
theorem C36_fix_plain (srt : SortSlice) (q : Params) (hq : q.fix = fixV1 ∨ q.fix = fixV2)
    (es : List Element) (hp : packagesAmong es ≠ []) (hh : q.fileHeader = [])
    (hn : (((optionsAmong es).filter fun o => o.name ∉ managedNames).map (·.name)).Nodup)
    (ho : ∀ l ∈ optionListsAll es, (l.map (·.name)).Nodup)
    (hi : ((importsAmong es).map (·.filename)).Nodup) :
    transform srt { q with fix := fixNone } (tidyFile (sortOpts srt) (sortImps srt) (fixedFile q es)) =
      transform srt q es := by
  rw [C36_distinct srt _ rfl (fixedFile q es), ← C37_rewritten srt q hq hh es hp]
  · intro l hl
    rcases List.mem_cons.1 hl with rfl | hl
    · rw [fixed_options]
      exact optionsOf_nodup (fix_some hq) hn
    · exact ho l (fixed_lists hl)
  · rw [fixed_imports]
    exact hi

theorem bare_withValue {name : Str} {os : List Opt} {value : Literal} (hos : ∀ o ∈ os, bareOption o = o)
    (hv : bareValue value = value) : bareOption (withValue name os value) = withValue name os value := by
  unfold withValue lastOption
  cases h : (os.filter fun o => o.name = name).getLast? with
  | none => show ({ name := name, constant := bareValue value } : Opt) = _; rw [hv]
  | some o =>
    have := hos o (List.mem_filter.1 (List.mem_of_getLast? h)).1
    show ({ name := o.name, constant := bareValue value } : Opt) = { o with constant := value }
    rw [hv, ← this]
    rfl

theorem bare_fixed {q : Params} {es : List Element} (h : bareAll es = es) :
    bareAll (fixedFile q es) = fixedFile q es := by
  have hb := bareAll_eq_iff.1 h
  have hos : ∀ o ∈ optionsAmong es, bareOption o = o := by
    intro o ho
    have := (hb _ (mem_options ho)).2
    unfold bare at this
    injection this
  have hm : ∀ package, ∀ o ∈ managedOptions q package (optionsAmong es), bareOption o = o := by
    intro package o ho
    unfold managedOptions at ho
    simp only [List.mem_append, List.mem_cons, List.not_mem_nil, or_false] at ho
    rcases ho with (rfl | rfl | rfl | rfl) | ho
    · exact bare_withValue hos (by simp [Literal.str, bareValue, bareList, bareEntries])
    · exact bare_withValue hos (by simp [Literal.plain, bareValue, bareList, bareEntries])
    · exact bare_withValue hos (by simp [Literal.str, bareValue, bareList, bareEntries])
    · exact bare_withValue hos (by simp [Literal.str, bareValue, bareList, bareEntries])
    · split at ho
      · simp only [List.mem_cons, List.not_mem_nil, or_false] at ho
        rcases ho with rfl | rfl | rfl <;>
          exact bare_withValue hos (by simp [Literal.str, bareValue, bareList, bareEntries])
      · cases ho
  refine bareAll_eq_iff.2 fun e he => ?_
  rw [fixedFile_eq] at he
  rcases List.mem_append.1 he with he | he
  · exact hb e ((List.takeWhile_prefix _).subset he)
  rcases List.mem_append.1 he with he | he
  · obtain ⟨o, ho, rfl⟩ := List.mem_map.1 he
    refine ⟨rfl, ?_⟩
    have : bareOption o = o := by
      unfold optionsOf at ho
      split at ho
      · exact hos o ho
      · rcases List.mem_append.1 ho with ho | ho
        · exact hos o (List.mem_filter.1 ho).1
        · split at ho
          · cases ho
          · exact hm _ o ho
    unfold bare
    rw [this]
  · exact hb e ((List.dropWhile_suffix _).subset (List.mem_filter.1 he).1)

/-- With `--fix` too, formatting what was read from a formatted text without other comments than the
header gives that text again. -/
theorem C87_fixed_point_fix (srt : SortSlice) (q : Params) (hq : q.fix = fixV1 ∨ q.fix = fixV2)
    (hh : tokensOf q.fileHeader = some []) (hname : Quotable q.filename) (hj : Quotable q.javaPackagePrefix)
    (es : List Element) (hf : FileFits es) (hb : bareAll es = es) (hp : packagesAmong es ≠ [])
    (hn : (((optionsAmong es).filter fun o => o.name ∉ managedNames).map (·.name)).Nodup)
    (ho : ∀ l ∈ optionListsAll es, (l.map (·.name)).Nodup)
    (hi : ((importsAmong es).map (·.filename)).Nodup)
    (text : Str) (h : transform srt q es = .ok (text, [])) :
    ∃ read, readFile text = some read ∧ transform srt q read = .ok (text, []) := by
  refine ⟨tidyFile (sortOpts srt) (sortImps srt) (fixedFile q es), ?_, ?_⟩
  · rw [read_transform (.inr hq) h hf fun _ => ⟨hh, hname, hj⟩,
      bare_tidyFile (sort := sortOpts srt) (fun l => srt.perm _ l)
        (sortImports := sortImps srt) (fun l => srt.perm _ l) (bare_fixed hb)]
  · rw [C36_fix_distinct srt q hq es hp hn ho hi, h]

/-! ## The theorems are about something -/

/-- `--fix` with a header. -/
def fixingHeader : Params := ⟨s%"/a/foo_bar.proto", fixV2, s%"// H", s%"org"⟩

/-- A file with a managed option twice and one that is kept. -/
def again : List Element :=
  [.syntax { value := s%"proto3" }, .import { filename := s%"b.proto" }, .import { filename := s%"a.proto" },
   .option { name := s%"java_package", constant := .str s%"x" },
   .option { name := s%"optimize_for", constant := .plain s%"SPEED" },
   .option { name := s%"java_package", constant := .str s%"y" },
   .package { name := s%"foo.v1" }, .message { name := s%"M" } []]

example : packagesAmong again ≠ [] ∧
    (((optionsAmong again).filter fun o => o.name ∉ managedNames).map (·.name)).Nodup ∧
    (∀ l ∈ optionListsAll again, (l.map (·.name)).Nodup) ∧
    ((importsAmong again).map (·.filename)).Nodup := by decide +kernel

example : (transform .stable fixingHeader again).toOption.map (·.2) = some [] := by decide +kernel

example : (transform .stable fixingHeader again).toOption ≠
    (transform .stable plainly again).toOption := by decide +kernel

example : tokensOf fixingHeader.fileHeader = some [] ∧ Quotable fixingHeader.filename ∧
    Quotable fixingHeader.javaPackagePrefix := by
  refine ⟨rfl, ?_, ?_⟩ <;> (unfold Quotable; decide)

example : (optionsAmong (tidyFile (sortOpts .stable) (sortImps .stable) (fixedFile fixingHeader again))).length = 8 := by
  decide +kernel

end Verif.Props
