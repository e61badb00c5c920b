import Verif.Spec.Exec
import Verif.Spec.Sample

/-!
# A small world to run commands in
-/

namespace Verif.Exec.Sample

open Verif Str

/-- Two files in the directory asked for, one in a directory next to it and one in a directory
whose name merely starts the same. -/
def protoSet : File.ProtoSet where
  workDirPath := s%"/w"
  dirPath := s%"/w/a"
  dirPathToFiles := [
    (s%"/w/a", [⟨s%"/w/a/one.proto", s%"a/one.proto"⟩, ⟨s%"/w/a/two.proto", s%"a/two.proto"⟩]),
    (s%"/w/ab", [⟨s%"/w/ab/next.proto", s%"ab/next.proto"⟩]),
    (s%"/w/c", [⟨s%"/w/c/other.proto", s%"c/other.proto"⟩])]
  config := Spec.Sample.config

/-- The working directory has a directory and a file that the commands can be given. -/
def host : Host where
  wd := s%"/w"
  workDirPath := s%"/w"
  errorFormat := []
  json := false
  stat p := if p = s%"a" then .ok .dir else if p = s%"a/two.proto" then .ok .regular
    else .error s%"no such file"
  getForDir _ p := if p = s%"a" then .ok protoSet else .error s%"no such directory"
  missing p := s%"missing: " ++ p
  writeFile _ _ := .ok ()
  write out t := (out ++ t, none)
  flushed _ := []
  parse _ c :=
    if c = s%"syntax=\"proto3\";" ∨ c = s%"syntax = \"proto3\";\n" then
      .ok [.syntax { value := s%"proto3" }]
    else .error s%"cannot be parsed"
  compile _ _ _ := .ok ([], [])
  protocCommands _ _ _ := .ok [s%"protoc"]
  generate d _ := d
  diff _ _ name := .ok (s%"--- " ++ name ++ s%"\n")
  toJSON _ := .ok s%"{}"
  toYAML _ := .ok s%"{}"

/-- Only the first file is formatted already. -/
def world : World where
  disk p :=
    if p = s%"/w/a/one.proto" then some s%"syntax = \"proto3\";\n"
    else if p = s%"/w/a/two.proto" ∨ p = s%"/w/ab/next.proto" ∨ p = s%"/w/c/other.proto" then
      some s%"syntax=\"proto3\";"
    else none

/-- What a command does to the directory. -/
def dir : Meta := { protoSet := protoSet }

end Verif.Exec.Sample
