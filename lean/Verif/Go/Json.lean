import Verif.Go.Strconv

/-!
# The parts of Go's `encoding/json` used by the code

Strings are lists of characters here, so the branch for invalid UTF-8 is left out.
-/

namespace Verif.Json

open Verif

/-- One character in `encodeState.string` of encoding/json, with the escapes for HTML that
`json.Marshal` and `Encoder.Encode` ask for by default. -/
def encodeChar (c : Char) : Str :=
  if c = '"' then s%"\\\""
  else if c = '\\' then s%"\\\\"
  else if c = '\n' then s%"\\n"
  else if c = '\r' then s%"\\r"
  else if c = '\t' then s%"\\t"
  else if c.toNat < 32 || c = '<' || c = '>' || c = '&' then
    s%"\\u00" ++ [hexChar (c.toNat / 16), hexChar (c.toNat % 16)]
  else if c.toNat = 0x2028 || c.toNat = 0x2029 then s%"\\u202" ++ [hexChar (c.toNat % 16)]
  else [c]

/-- `encodeState.string` of encoding/json. -/
def encodeString (s : Str) : Str := s%"\"" ++ s.flatMap encodeChar ++ s%"\""

/-- The member of a string field with the option `omitempty`: none if the string is empty. -/
def stringMember (name value : Str) : List (Str × Str) :=
  if value = [] then [] else [(name, encodeString value)]

/-- The member of an integer field with the option `omitempty`: none if it is 0. -/
def intMember (name : Str) (value : Int) : List (Str × Str) :=
  if value = 0 then [] else [(name, itoa value)]

/-- `structEncoder.encode` of encoding/json: the members have names and encoded values. -/
def encodeStruct (members : List (Str × Str)) : Str :=
  s%"{" ++ Str.join s%"," (members.map fun m => encodeString m.1 ++ s%":" ++ m.2) ++ s%"}"

/-- `Encoder.Encode` of encoding/json after `SetIndent("", "  ")`, for a struct without structs in
it. The library indents the text of `encodeStruct` afterwards; here the blanks are put in at once. -/
def encodeIndented (members : List (Str × Str)) : Str :=
  if members = [] then s%"{}\n"
  else s%"{\n  " ++ Str.join s%",\n  " (members.map fun m => encodeString m.1 ++ s%": " ++ m.2) ++ s%"\n}\n"

end Verif.Json
