import Verif.Model.Strs
import Verif.Go.Strconv
import Verif.Go.Path

/-!
# Model of internal/protostrs/protostrs.go
-/

namespace Verif.Protostrs

open Verif Str

/-- The version part of `MajorBetaVersion` after the leading `v`,
internal/protostrs/protostrs.go:194-226. `none` is the result `(0, 0, false)`. -/
def versionOf (versionString : Str) : Option (Nat × Nat) :=
  match splitStr s%"beta" versionString with
  | [_] =>
    match parseUint64 versionString with
    | none => none
    | some version => if version = 0 then none else some (version, 0)
  | [majorVersionString, betaVersionString] =>
    if majorVersionString = [] ∨ betaVersionString = [] then none
    else
      match parseUint64 majorVersionString, parseUint64 betaVersionString with
      | some majorVersion, some betaVersion =>
        if majorVersion = 0 ∨ betaVersion = 0 then none else some (majorVersion, betaVersion)
      | _, _ => none
  | _ => none

/-- `MajorBetaVersion`, internal/protostrs/protostrs.go:174-227. `none` is the
result `(0, 0, false)`. The length test in bytes (:187) is the same as the match
on one further character: `v` is one byte. -/
def majorBetaVersion (packageName : Str) : Option (Nat × Nat) :=
  if packageName = [] then none
  else
    let split := splitChar '.' packageName
    if split.length < 2 then none
    else
      match split.getLast? with
      | some ('v' :: c :: cs) => versionOf (c :: cs)
      | _ => none

/-- `CSharpNamespace`, internal/protostrs/protostrs.go:39-51. The conversion
`int(majorVersion)` wraps for values of 2^63 and above. -/
def csharpNamespace (packageName : Str) : Str :=
  if packageName = [] then []
  else
    match majorBetaVersion packageName with
    | some (major, beta + 1) =>
      title (join s%"." (splitChar '.' packageName).dropLast) ++ s%".V" ++ itoa (wrapInt64 major)
        ++ s%"Beta" ++ itoa (wrapInt64 (beta + 1))
    | _ => title packageName

/-- `PHPNamespace`, internal/protostrs/protostrs.go:56-58. The replacement is a raw
string literal of two backslashes. -/
def phpNamespace (packageName : Str) : Str :=
  replaceChar '.' s%"\\\\" (csharpNamespace packageName)

/-- `GoPackage`, internal/protostrs/protostrs.go:64-70. The default of `getLastD` is never
used: a split has at least one element. -/
def goPackage (packageName : Str) : Str :=
  if packageName = [] then []
  else (splitChar '.' packageName).getLastD [] ++ s%"pb"

/-- `GoPackageV2`, internal/protostrs/protostrs.go:75-84. -/
def goPackageV2 (packageName : Str) : Str :=
  if packageName = [] then []
  else
    match majorBetaVersion packageName with
    | none => goPackage packageName
    | some _ =>
      let split := splitChar '.' packageName
      split.dropLast.getLastD [] ++ split.getLastD []

/-- `JavaOuterClassname`, internal/protostrs/protostrs.go:91-98. `filepath.Ext` of the
base name is a suffix of it, so `TrimSuffix` removes it. -/
def javaOuterClassname (filename : Str) : Str :=
  if filename = [] then []
  else
    let b := Path.base filename
    Strs.toUpperCamelCase (b.take (b.length - (Path.ext b).length)) ++ s%"Proto"

/-- `JavaPackage`, internal/protostrs/protostrs.go:103-108. -/
def javaPackage (packageName : Str) : Str :=
  if packageName = [] then [] else s%"com." ++ packageName

/-- `JavaPackagePrefixOverride`, internal/protostrs/protostrs.go:114-122. -/
def javaPackagePrefixOverride (packageName prefixOverride : Str) : Str :=
  if packageName = [] then []
  else if prefixOverride ≠ [] then prefixOverride ++ s%"." ++ packageName
  else s%"com." ++ packageName

/-- `OBJCClassPrefix`, internal/protostrs/protostrs.go:130-167. `element[0:1]` is the
first byte; for package components, which are ASCII identifiers, that is the
first character. `len(s)` counts bytes, likewise. -/
def objcClassPrefix (packageName : Str) : Str :=
  if packageName = [] then []
  else
    let split := splitChar '.' packageName
    let split := if (majorBetaVersion packageName).isSome then split.dropLast else split
    let s := split.flatMap fun element =>
      match element with
      | [] => []
      | c :: _ => [upperChar c]
    match s.length with
    | 0 => []
    | 1 => s ++ s%"XX"
    | 2 => s ++ s%"X"
    | 3 => if s = s%"GPB" then s%"GPX" else s
    | _ => s

end Verif.Protostrs
