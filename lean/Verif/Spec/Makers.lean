import Verif.Model.CreateSteps
import Verif.Spec.Apart
import Verif.Spec.Create

/-!
# Specification: commands that make files, among other programs
-/

namespace Verif.Spec

open Verif Exec

/-- A run of `create` or of `config init`. -/
inductive Maker where
  | create (handler : Create.Handler) (paths : List Str)
  | init (tools : Tools) (args : List Str) (uncomment document : Bool)

/-- What it does. With `whole`, the text of a file appears at once. -/
def Maker.steps (host : Host) (whole : Bool) : Maker → Prog Unit
  | .create h paths => createCmdSteps h host whole paths
  | .init t args uncomment document => initCmdSteps host t whole args uncomment document

/-- The file is one of those to make. -/
def Maker.Names (host : Host) (q : Str) : Maker → Prop
  | .create _ paths => ∃ p ∈ paths, located host p = q
  | .init _ args _ _ => q = Path.joinPath [args.headD host.workDirPath, s%"prototool.yaml"]

/-- The file is one of those to make, and this is the text for it. -/
def Maker.Makes (host : Host) (q text : Str) : Maker → Prop
  | .create h paths => ∃ p ∈ paths, located host p = q ∧ ∃ c package,
      Create.getConfig h host p = some (.ok c) ∧
      Create.getPkg h host c p (if c.lint.group = s%"uber2" then s%"uber.prototool.generated.v1"
        else s%"uber.prototool.generated") = .ok package ∧
      text = newText c.lint.fileHeader (c.lint.group = s%"uber2") p package c.lint.javaPackagePrefix
  | .init t args uncomment document => q = Path.joinPath [args.headD host.workDirPath, s%"prototool.yaml"] ∧
      t.config uncomment document = .ok text

/-- One of the runs has made the file. -/
def Made (host : Host) (makers : List Maker) (q : Str) (disk : Disk) : Prop :=
  ∃ m ∈ makers, ∃ text, m.Makes host q text ∧ disk q = some text

end Verif.Spec
