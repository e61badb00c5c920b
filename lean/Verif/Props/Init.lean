import Verif.Proof.ExecMore
import Verif.Props.ExecMoreSample

/-!
# What `config init` writes (C71)
-/

namespace Verif.Props

open Verif Str Exec

/-- The configuration file of the directory given, or of the working directory. -/
def configPath (h : Host) (args : List Str) : Str :=
  Path.joinPath [args.headD h.workDirPath, s%"prototool.yaml"]

theorem initCmd_eq {h : Host} {t : Tools} {args : List Str} {uncomment document : Bool} (ha : args.length ≤ 1)
    (w : World) :
    (∃ e, initCmd h t args uncomment document w = (w, .error (.other e))) ∨
      initCmd h t args uncomment document w =
        if (w.disk (configPath h args)).isSome then
          (w, .error (.other (configPath h args ++ s%" already exists")))
        else (Run.bind (Run.lift (t.config uncomment document)) fun data =>
          writeFile h (configPath h args) data) w := by
  unfold initCmd
  rw [if_neg (by omega)]
  rcases args with _ | ⟨a, _ | ⟨b, l⟩⟩
  · exact .inr rfl
  · dsimp only
    cases hm : t.mkdirAll a with
    | error e => exact .inl ⟨e, rfl⟩
    | ok _ => exact .inr rfl
  · simp at ha

/-- C71: a configuration file that exists is not changed: the command ends with an error and
changes no file. -/
theorem C71_kept (h : Host) (t : Tools) (args : List Str) (uncomment document : Bool) (w : World)
    (content : Str) (hex : w.disk (configPath h args) = some content) :
    ∃ e, initCmd h t args uncomment document w = (w, .error (.other e)) := by
  by_cases ha : args.length ≤ 1
  · rcases initCmd_eq (h := h) (t := t) (uncomment := uncomment) (document := document) ha w with he | he
    · exact he
    · rw [hex] at he
      exact ⟨_, he⟩
  · refine ⟨s%"must provide one arg dirPath", ?_⟩
    unfold initCmd
    rw [if_pos (by omega)]
    rfl

/-- C71: no other file is changed, however the command ends. -/
theorem C71_only (h : Host) (t : Tools) (args : List Str) (uncomment document : Bool) (w : World) (p : Str)
    (hp : p ≠ configPath h args) :
    (initCmd h t args uncomment document w).1.disk p = w.disk p := by
  by_cases ha : args.length ≤ 1
  · rcases initCmd_eq (h := h) (t := t) (uncomment := uncomment) (document := document) ha w with ⟨e, he⟩ | he
    · rw [he]
    · rw [he]
      split
      · rfl
      · cases t.config uncomment document with
        | error e => rfl
        | ok data =>
          show (writeFile h (configPath h args) data w).1.disk p = _
          unfold writeFile
          dsimp only
          rcases h.writeFile (configPath h args) data with ⟨e, left⟩ | _ <;> exact if_neg hp
  · unfold initCmd
    rw [if_pos (by omega)]
    rfl

/-- C71: if it ends well, the file was not there and now has the generated configuration. -/
theorem C71_written (h : Host) (t : Tools) (args : List Str) (uncomment document : Bool) (w w' : World)
    (hok : initCmd h t args uncomment document w = (w', .ok ())) :
    w.disk (configPath h args) = none ∧
      ∃ data, t.config uncomment document = .ok data ∧ w'.disk (configPath h args) = some data ∧
        w'.writes = w.writes ++ [(configPath h args, data)] ∧ w'.out = w.out := by
  by_cases ha : args.length ≤ 1
  · rcases initCmd_eq (h := h) (t := t) (uncomment := uncomment) (document := document) ha w with ⟨e, he⟩ | he
    · rw [he] at hok; cases hok
    · rw [he] at hok
      split at hok
      · cases hok
      · rename_i hn
        refine ⟨by simpa using hn, ?_⟩
        revert hok
        cases t.config uncomment document with
        | error e => intro hok; cases hok
        | ok data =>
          intro hok
          have hok : writeFile h (configPath h args) data w = (w', .ok ()) := hok
          refine ⟨data, rfl, ?_⟩
          unfold writeFile at hok
          dsimp only at hok
          revert hok
          rcases h.writeFile (configPath h args) data with ⟨e, left⟩ | _
          · intro hok; cases hok
          · intro hok
            cases hok
            exact ⟨if_pos rfl, rfl, rfl⟩
  · unfold initCmd at hok
    rw [if_pos (by omega)] at hok
    cases hok

section Example

open Exec.Sample

example : (initCmd repoHost tools [s%"a/b"] false false world).2 = .ok () ∧
    (initCmd repoHost tools [s%"a/b"] false false world).1.disk s%"a/b/prototool.yaml" =
      some s%"protoc:\n" := by decide +kernel

example : (initCmd repoHost tools [] false false
    { world with disk := Disk.set world.disk s%"/w/prototool.yaml" (some s%"lint:\n") }).2 =
      .error (.other s%"/w/prototool.yaml already exists") := by decide +kernel

end Example

end Verif.Props
