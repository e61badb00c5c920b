import Verif.Go.Str

/-!
# The parts of Go's `path/filepath` used by the code, on Unix

Paths are strings; the functions work on their `/`-separated components. They
are models of the standard library (trusted), written after the documentation
and source of `path/filepath`.
-/

namespace Verif.Path

open Verif Str

/-- `filepath.IsAbs`. -/
def isAbs (p : Str) : Bool := hasPrefix p s%"/"

/-- One component of `filepath.Clean`: `stack` holds the components kept so far, last
first. -/
def cleanStep (rooted : Bool) (stack : List Str) (c : Str) : List Str :=
  if c = [] then stack
  else if c = s%"." then stack
  else if c = s%".." then
    match stack with
    | [] => if rooted then [] else [s%".."]
    | t :: ts => if t = s%".." then s%".." :: t :: ts else ts
  else c :: stack

/-- The components of the cleaned path. -/
def cleanComps (rooted : Bool) (p : Str) : List Str :=
  ((splitChar '/' p).foldl (cleanStep rooted) []).reverse

/-- `filepath.Clean`. -/
def clean (p : Str) : Str :=
  let rooted := isAbs p
  let cs := cleanComps rooted p
  if rooted then '/' :: join s%"/" cs
  else if cs = [] then s%"." else join s%"/" cs

/-- `filepath.Join`. -/
def joinPath (elems : List Str) : Str :=
  match elems.dropWhile (· = []) with
  | [] => []
  | es => clean (join s%"/" es)

/-- `filepath.Dir`. -/
def dir (p : Str) : Str := clean (p.reverse.dropWhile (· ≠ '/')).reverse

/-- `filepath.Base`. -/
def base (p : Str) : Str :=
  if p = [] then s%"."
  else
    let q := p.reverse.dropWhile (· = '/')
    let r := (q.takeWhile (· ≠ '/')).reverse
    if r = [] then s%"/" else r

/-- `filepath.Ext`: the suffix of the last component from its last dot. -/
def ext (p : Str) : Str :=
  let r := p.reverse.takeWhile (· ≠ '/')
  match r.dropWhile (· ≠ '.') with
  | [] => []
  | _ => '.' :: (r.takeWhile (· ≠ '.')).reverse

/-- Drops the longest common prefix of two lists. -/
def dropCommon : List Str → List Str → List Str × List Str
  | a :: as, b :: bs => if a = b then dropCommon as bs else (a :: as, b :: bs)
  | as, bs => (as, bs)

/-- The components of a cleaned path, as compared by `filepath.Rel`. -/
def relComps (p : Str) : List Str := (splitChar '/' p).filter (· ≠ [])

/-- `filepath.Rel(basepath, targpath)`; `none` is an error. -/
def rel (basepath targpath : Str) : Option Str :=
  let b := clean basepath
  let t := clean targpath
  if t = b then some s%"."
  else
    let b := if b = s%"." then [] else b
    if isAbs b ≠ isAbs t then none
    else
      let d := dropCommon (relComps b) (relComps t)
      if d.1.head? = some s%".." then none
      else some (join s%"/" (d.1.map (fun _ => s%"..") ++ d.2))

end Verif.Path
