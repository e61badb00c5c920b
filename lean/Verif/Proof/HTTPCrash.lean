import Verif.Proof.ReportsSuppress
import Verif.Proof.PerFile
import Verif.Spec.LintRun

/-! # When the rule about `google.api.http` crashes -/

namespace Verif.Lint

open Verif Proto Spec Str

/-- The options of the file and of services are in services only. -/
theorem outer_around {d : FileDescriptor} (hg : Grammatical d) {n : Node} (hn : n ∈ fileNodes d)
    (hr : (asOuterOption n).isSome = true) :
    n.around.all (fun e => isService e || isRPC e) = true := by
  refine around_kind (d := d) (kind := fun e => isService e || isRPC e)
    (ok := fun n => (asOuterOption n).isSome = true ∨ (isService n.self || isRPC n.self) = true) ?_
    (fun _ _ h => .inr h) n hn (.inl hr)
  intro n hn c hc hp
  have hm := hg _ hc
  obtain ⟨around, e⟩ := n
  cases e <;> first | rfl | skip
  all_goals
    cases c <;> first
      | exact absurd hm Bool.false_ne_true
      | exact absurd (hp.elim id id) Bool.false_ne_true

theorem mem_inside_outer {d : FileDescriptor} (hd : Grammatical d) {around : List Element} {o : Opt}
    {opt : Opt} (hn : (⟨around, .option o⟩ : Node) ∈ fileNodes d)
    (ho : asOuterOption ⟨around, .option o⟩ = some opt) :
    opt = o ∧ (httpState d around).rpc = none ∧
      (⟨around, .option o⟩ : Node) ∈ inside (fun e => isService e || isRPC e) d := by
  have hin : (⟨around, .option o⟩ : Node) ∈ inside (fun e => isService e || isRPC e) d :=
    List.mem_filter.2 ⟨hn, outer_around hd hn (by rw [ho]; rfl)⟩
  cases around with
  | nil => cases ho; exact ⟨rfl, rfl, hin⟩
  | cons a rest =>
    cases a with
    | service s es => cases ho; exact ⟨rfl, rfl, hin⟩
    | _ => cases ho

theorem http_crash {dirPath : Str} {ds : List FileDescriptor} (hg : ∀ d ∈ ds, Grammatical d) :
    rpcOptionsNoGoogleAPIHTTPLinter.check dirPath ds = none ↔ ∃ d ∈ ds, ¬ NoOuterHTTP d := by
  constructor
  · intro h
    refine Classical.byContradiction fun hn => ?_
    have hn' : ∀ d ∈ ds, NoOuterHTTP d := fun d hd => Classical.byContradiction fun h => hn ⟨d, hd, h⟩
    obtain ⟨fs, hf, _⟩ := reports_http dirPath ds fun d hd => ⟨hg d hd, hn' d hd⟩
    rw [hf] at h; cases h
  · rintro ⟨d, hd, hn⟩
    obtain ⟨evs, h1, h2⟩ := ReaderOn.run (v := rpcOptionsNoGoogleAPIHTTP) (ok := Grammatical)
      (I := fun _ => True) (st := httpState) (own := httpOwn) (start := fun _ => [])
      (fin := fun _ => []) (fun d hd n hn => hd n hn) reader_http (fun d s _ => rfl)
      (fun d _ => ⟨_, rfl, trivial⟩) ds hg {} trivial
    unfold NoOuterHTTP at hn
    simp only [Classical.not_forall, Classical.not_not] at hn
    obtain ⟨opt, ho, hpre⟩ := hn
    obtain ⟨⟨around, e⟩, hnode, hopt⟩ := List.mem_filterMap.1 ho
    have he : ∃ o, e = .option o := by
      unfold asOuterOption at hopt
      split at hopt
      · rename_i hh; cases hh; exact ⟨_, rfl⟩
      · rename_i hh; cases hh; exact ⟨_, rfl⟩
      · cases hopt
    obtain ⟨o, rfl⟩ := he
    obtain ⟨rfl, hrpc, hin⟩ := mem_inside_outer (hg d hd) hnode hopt
    have hown : httpOwn d ⟨around, .option opt⟩ = [.panic] := by
      show (if ((httpState d around).rpc.isSome && hasPrefix opt.name s%"(google.api.http)") ||
          hasPrefix opt.name s%"(.google.api.http)" then
          match (httpState d around).config, (httpState d around).rpc with
          | some c, some r => _
          | _, _ => [Event.panic] else []) = [Event.panic]
      rw [hrpc, hasPrefix_prefix.2 hpre]
      rfl
    have hmem : Event.panic ∈ evs := by
      rw [h2.mem_iff]
      refine List.mem_flatMap.2 ⟨d, hd, ?_⟩
      rw [List.nil_append, List.append_nil]
      exact List.mem_flatMap.2 ⟨_, hin, by rw [hown]; exact List.mem_singleton.2 rfl⟩
    unfold Linter.check
    have h1' : rpcOptionsNoGoogleAPIHTTPLinter.addCheck dirPath ds = (evs, none) := h1
    dsimp only
    rw [h1', if_pos (List.any_eq_true.2 ⟨_, hmem, rfl⟩)]

end Verif.Lint
