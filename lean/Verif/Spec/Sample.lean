import Verif.Spec.Grammar

/-!
# A sample file

Used to show that the theorems about rules are about something.

```
package foo.Bar;
message m {
  enum e { a = 0; }
  message N { int32 Field = 1; oneof o { int32 g = 2; } }
}
service s { rpc r(m) returns (m); }
```
-/

namespace Verif.Spec.Sample

open Verif Proto Lint

/-- The configuration a directory without configuration file has. -/
def config : Settings.Config where
  dirPath := s%"/a"
  excludePrefixes := []
  compile := ⟨[], [], true, false⟩
  dirPathToBasePackage := []
  lint := ⟨[], false, [], [], [], [], [], false⟩
  break_ := ⟨false, false⟩
  gen := ⟨[], [], []⟩

/-- A file with the given elements. -/
def file (filename : Str) (elements : List Element) : FileDescriptor :=
  { filename := filename, fileData := [], config := config, elements := elements }

def at_ (line column : Int) : Position := ⟨[], line, column⟩

/-- The file above. -/
def names : FileDescriptor := file s%"a/Names.proto"
  [.package { name := s%"foo.Bar", position := at_ 1 1 },
   .message { name := s%"m", position := at_ 2 1 }
     [.enum { name := s%"e", position := at_ 3 3 }
        [.enumField { name := s%"a", integer := 0, position := at_ 3 12 } []],
      .message { name := s%"N", position := at_ 4 3 }
        [.normalField { field :=
            { name := s%"Field", type := s%"int32", sequence := 1, position := at_ 4 15 } },
         .oneof { name := s%"o", position := at_ 4 32 }
           [.oneofField
             { name := s%"g", type := s%"int32", sequence := 2, position := at_ 4 42 }]]],
   .service { name := s%"s", position := at_ 6 1 }
     [.rpc { name := s%"r", requestType := s%"m", returnsType := s%"m", position := at_ 6 13 } []]]

/-- `message M { optional group G = 1 { enum a_b {} } }` -/
def group : FileDescriptor := file s%"a.proto"
  [.message { name := s%"M" }
    [.group { name := s%"G", sequence := 1, optional := true } [.enum { name := s%"a_b" } []]]]

end Verif.Spec.Sample
