import Verif.Spec.Compile
import Verif.Spec.ExecSample

/-!
# A small set of files to compile
-/

namespace Verif.Protoc.Sample

open Verif Str File Settings

/-- A Go plugin. -/
def goPlugin : GenPlugin :=
  { name := s%"go", path := [], type := .go, flags := s%"plugins=grpc"
    outputPath := ⟨s%"gen/go", s%"/w/gen/go"⟩, fileSuffix := [], includeImports := false
    includeSourceInfo := false }

/-- A plugin that makes one file for a directory. -/
def setPlugin : GenPlugin :=
  { name := s%"descriptor_set", path := [], type := .none, flags := []
    outputPath := ⟨s%"gen/set", s%"/w/gen/set"⟩, fileSuffix := s%"bin", includeImports := true
    includeSourceInfo := false }

/-- The configuration in `/w`. -/
def config : Config :=
  { Spec.Sample.config with
    dirPath := s%"/w"
    compile := ⟨s%"3.8.0", [s%"/inc"], true, true⟩
    gen := ⟨s%"example.com/foo", [(s%"x/y.proto", s%"example.com/y")], [goPlugin, setPlugin]⟩ }

/-- Three directories. -/
def protoSet : ProtoSet where
  workDirPath := s%"/w"
  dirPath := s%"/w"
  dirPathToFiles := [
    (s%"/w/a", [⟨s%"/w/a/one.proto", s%"a/one.proto"⟩, ⟨s%"/w/a/two.proto", s%"a/two.proto"⟩]),
    (s%"/w/b", [⟨s%"/w/b/three.proto", s%"b/three.proto"⟩]),
    (s%"/w", [⟨s%"/w/four.proto", s%"four.proto"⟩])]
  config := config

/-- A system where everything works. The name of a temporary file is longer than the names
of all others together. -/
def env : Env where
  order := .id
  goos := s%"linux"
  numCPU := 2
  download := .ok ()
  wktPath _ := .ok s%"/cache/include"
  protocPath _ := .ok s%"/cache/bin/protoc"
  tempFile live := .ok (s%"/tmp/" ++ live.flatten)
  pluginPath p := .ok p.path
  mkdirAll _ := .ok ()
  readSet _ := .ok []

theorem env_fresh : Spec.FreshTemp env := by
  intro live p hp
  cases hp
  refine ⟨by simp, fun h => ?_⟩
  have : ∀ (l : List Str) (q : Str), q ∈ l → q.length ≤ l.flatten.length := by
    intro l q hq
    obtain ⟨a, b, rfl⟩ := List.append_of_mem hq
    simp; omega
  have := this _ _ h
  simp at this
  omega

end Verif.Protoc.Sample
