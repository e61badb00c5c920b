import Verif.Proof.ProtocLines
import Verif.Props.Compile

/-!
# C46: what the failures for the lines of protoc say
-/

namespace Verif.Props

open Verif Str File Text Protoc Spec

/-- C46: a failure says what its line means. Lines about plugins come first. A line
`file:line:column:message` gives that file, place and message. Any other line is read as the first
kind it is of. What is not understood, or has a place that is no number, is kept as it is. -/
theorem C46_reading (m : CmdMeta) (line : Str) (h : '\n' ∉ line)
    (hd : ∀ f ∈ m.protoFiles, f.displayPath ≠ []) (f : Failure) (hf : parseProtocLine m line = some f) :
    FirstReading m.protoFiles pluginKinds line f ∨
    (∀ k ∈ pluginKinds, ¬ IsKind line k) ∧
      ((∃ file l c message, splitChar ':' line = [file, l, c, message] ∧
          f = if trimSpace message = [] then unread line
            else failureAt m.protoFiles line (some file) (some (l, c)) (trimSpace message)) ∨
        (splitChar ':' line).length ≠ 4 ∧
          (FirstReading m.protoFiles lineKinds line f ∨
            (∀ k ∈ lineKinds, ¬ IsKind line k) ∧ f = unread line)) := by
  unfold parseProtocLine at hf
  cases hp : firstRule m line pluginRules with
  | some r =>
    rw [hp] at hf
    dsimp only at hf
    subst hf
    exact .inl (firstRule_reading h hd pluginRules_kinds hp)
  | none =>
    refine .inr ⟨firstRule_no_kind h hd pluginRules_kinds hp, ?_⟩
    rw [hp] at hf
    dsimp only at hf
    split at hf
    next file l c message hs =>
      refine .inl ⟨file, l, c, message, hs, ?_⟩
      by_cases he : trimSpace message = []
      · rw [if_pos he] at hf ⊢
        injection hf with hf
        exact hf.symm
      · rw [if_neg he] at hf ⊢
        injection hf with hf
        rw [failureAt_located hd]
        exact hf.symm
    next hne =>
      refine .inr ⟨?_, ?_⟩
      · intro hl
        match hs : splitChar ':' line, hl with
        | [a, b, c, d], _ => exact hne a b c d hs
      · cases hr : firstRule m line lineRules with
        | some r =>
          rw [hr] at hf
          dsimp only at hf
          subst hf
          exact .inl (firstRule_reading h hd lineRules_kinds hr)
        | none =>
          rw [hr] at hf
          injection hf with hf
          exact .inr ⟨firstRule_no_kind h hd lineRules_kinds hr, hf.symm⟩

/-! ## These theorems are about something -/

example : parseProtocLine oneTwo s%"two.proto: \"Foo\" is not defined." =
    some ⟨s%"a/two.proto", 0, 0, [], s%"\"Foo\" is not defined."⟩ := by decide +kernel

example : IsKind s%"two.proto: \"Foo\" is not defined." .notDefined :=
  ⟨_, _, _, .notDefined s%"two.proto" s%"\"Foo\"" '.'⟩

/-- A place that is too large keeps the line. -/
example : parseProtocLine oneTwo s%"two.proto:99999999999999999999:1: Expected \";\"." =
    some (unread s%"two.proto:99999999999999999999:1: Expected \";\".") := by decide +kernel

example : parseProtocLine oneTwo s%"one.proto:3:1: File recursively imports itself: one.proto -> two.proto" =
    some ⟨s%"a/one.proto", 3, 1, [], s%"File recursively imports itself one.proto -> two.proto."⟩ := by
  decide +kernel

end Verif.Props
