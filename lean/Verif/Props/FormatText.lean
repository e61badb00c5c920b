import Verif.Proof.FormatHeader
import Verif.Proof.FormatText
import Verif.Spec.Sample

/-!
# C34: formatted text is canonical

`transform` is what the formatter makes of a parsed file: the text and the failures. The strings
of a parsed file do not contain newlines (`OneLine`); the file header and the Java package prefix
come from the configuration.
-/

namespace Verif.Props

open Verif Str Proto Spec Format

theorem known_of_ok {srt : SortSlice} {q : Params} {es : List Element} {r : Str × List Text.Failure}
    (h : transform srt q es = .ok r) : KnownFix q := by
  by_cases hq : q.fix ≠ fixNone ∧ q.fix ≠ fixV1 ∧ q.fix ≠ fixV2
  · unfold transform at h
    rw [if_pos hq] at h
    cases h
  · unfold KnownFix
    by_cases h0 : q.fix = fixNone
    · exact .inl h0
    by_cases h1 : q.fix = fixV1
    · exact .inr (.inl h1)
    by_cases h2 : q.fix = fixV2
    · exact .inr (.inr h2)
    exact absurd ⟨h0, h1, h2⟩ hq

/-- The text is empty, or it begins with no white space and ends with exactly one newline. -/
theorem C34_ends (srt : SortSlice) (q : Params) (es : List Element) (text : Str)
    (failures : List Text.Failure) (h : transform srt q es = .ok (text, failures)) :
    CanonicalEnds text := by
  rcases transform_eq srt q (known_of_ok h) es with ⟨s, _, _, he⟩ | ⟨b, _, he⟩
  · rw [he] at h; cases h
  · rw [he] at h
    cases h
    exact finish_ends _

/-- No line of the text ends with white space. -/
theorem C34_clean (srt : SortSlice) (q : Params) (es : List Element) (text : Str)
    (failures : List Text.Failure) (h : transform srt q es = .ok (text, failures))
    (hes : OneLine es) (hprefix : '\n' ∉ q.javaPackagePrefix) (hheader : CleanLines q.fileHeader) :
    CleanLines text := by
  rcases transform_eq srt q (known_of_ok h) es with ⟨s, _, _, he⟩ | ⟨b, _, he⟩
  · rw [he] at h; cases h
  · rw [he] at h
    cases h
    exact finish_clean (neat_layout srt hprefix hheader b hes)

/-- Every file header that comes out of a configuration is as `C34_clean` needs it. -/
theorem C34_header (h : Settings.Host) (e : Settings.ExternalConfig) (dirPath header : Str)
    (hh : Settings.fileHeaderOf h e dirPath = .ok header) : CleanLines header ∧ Trimmed header :=
  Settings.fileHeaderOf_clean hh

/-- After any number of declarations of the file nothing is indented any more. -/
theorem C34_indentation (srt : SortSlice) (isProto2 : Bool) (es : List Element) :
    (visitAll srt isProto2 .none es {}).base.printer.indentCount = 0 := by
  rw [visitAll_top]
  rfl

/-- Each declaration of a file prints what it prints alone, one after the other. -/
theorem C34_one_by_one (srt : SortSlice) (isProto2 : Bool) (e : Element) (he : isComment e = false)
    (es : List Element) :
    (visitAll srt isProto2 .none (e :: es) {}).base.printer.buffer =
      (visitAll srt isProto2 .none [e] {}).base.printer.buffer ++
        es.flatMap fun e => (visitAll srt isProto2 .none [e] ⟨newBaseVisitor, true⟩).base.printer.buffer := by
  have one : ∀ e, (visitAll srt isProto2 .none [e] ⟨newBaseVisitor, true⟩).base.printer.buffer =
      textOf (elementItems (sortOpts srt) isProto2 .none e) := by
    intro e
    rw [visitAll_eq _ _ _ _ _ two_new rfl]
    show ([] : Str) ++ textOf (shift 0 _) = _
    rw [shift_zero, elementsItems_eq]
    simp
  rw [visitAll_top, visitAll_top, List.dropWhile_cons, List.dropWhile_cons, he]
  show ([] : Str) ++ textOf (shift 0 _) = ([] ++ textOf (shift 0 _)) ++ _
  simp only [one, shift_zero, List.nil_append]
  rw [if_neg (by decide), if_neg (by decide), show e :: es = [e] ++ es from rfl, List.flatMap_append, textOf_append]
  congr 1
  unfold textOf
  rw [List.flatMap_assoc]

/-! ## The theorems are about something -/

/-- ```
// A trip.
syntax = "proto3";
option go_package = "b";
import "b.proto";
import "a.proto";
package foo;
message M { string id = 1 [deprecated = true, json_name = "x"]; }
``` -/
def unformatted : List Element :=
  [.comment { position := Sample.at_ 1 1, lines := [s%" A trip.  "] },
   .syntax { value := s%"proto3" },
   .option { name := s%"go_package", constant := .str s%"b" },
   .import { filename := s%"b.proto" },
   .import { filename := s%"a.proto" },
   .package { name := s%"foo" },
   .message { name := s%"M" }
     [.normalField { field := { name := s%"id", type := s%"string", sequence := 1, options :=
         [{ name := s%"json_name", constant := .str s%"x" },
          { name := s%"deprecated", constant := .plain s%"true" }] } }]]

def plainly : Params := ⟨s%"a.proto", fixNone, [], []⟩

example : (transform .stable plainly unformatted).toOption = some
    (s%"// A trip.\n\nsyntax = \"proto3\";\n\npackage foo;\n\noption go_package = \"b\";\n\nimport \"a.proto\";\nimport \"b.proto\";\n\nmessage M {\n  string id = 1 [\n    deprecated = true,\n    json_name = \"x\"\n  ];\n}\n", []) := by
  decide +kernel

example : OneLine unformatted := by unfold OneLine; decide +kernel
example : '\n' ∉ plainly.javaPackagePrefix ∧ CleanLines plainly.fileHeader := by
  refine ⟨by decide, fun l hl c hc => ?_⟩
  rw [List.mem_singleton.1 (show l ∈ [[]] from hl)] at hc
  cases hc
example (h : Settings.Host) : ∃ e : Settings.ExternalConfig,
    Settings.fileHeaderOf h e s%"/a" = .ok s%"// One\n//\n// two" :=
  ⟨{ fileHeaderContent := s%"  One  \n\n two\n" }, rfl⟩
example : isComment (.message { name := s%"M" } []) = false := rfl

end Verif.Props
