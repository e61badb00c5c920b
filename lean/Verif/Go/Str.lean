/-!
# Go strings

Go strings are modelled as lists of Unicode code points (valid UTF-8 only).
Byte order of UTF-8 strings equals code point order, so `Str.lt` is Go's `<`
on strings. Case mapping is the ASCII mapping (see DESIGN.md, section 2).
The functions below model the parts of Go's `strings`, `unicode` and `sort`
packages used by `/repo`; they cite the Go function they stand for.
-/

namespace Verif

/-- A Go string (valid UTF-8). -/
abbrev Str := List Char

/-- `s%"abc"` is the list `['a', 'b', 'c']`, written out at elaboration time so
that the kernel can compute with it. -/
syntax:max "s%" noWs str : term

macro_rules
  | `(s%$s:str) => do
    let cs := s.getString.toList
    let elems ← cs.toArray.mapM fun c => `($(Lean.Syntax.mkCharLit c))
    `(([$elems,*] : List Char))

namespace Str

/-- Go's `<` on strings. -/
def lt : Str → Str → Bool
  | _, [] => false
  | [], _ :: _ => true
  | a :: as, b :: bs =>
    if a.toNat < b.toNat then true
    else if b.toNat < a.toNat then false
    else lt as bs

/-- Go's `<=` on strings. -/
def le (a b : Str) : Bool := !lt b a

/-- ASCII upper-case letter, `isUpper` of internal/strs/strs.go:283-285. -/
def isUpper (c : Char) : Bool := 'A'.toNat ≤ c.toNat && c.toNat ≤ 'Z'.toNat

/-- ASCII lower-case letter, `isLower` of internal/strs/strs.go:279-281. -/
def isLower (c : Char) : Bool := 'a'.toNat ≤ c.toNat && c.toNat ≤ 'z'.toNat

/-- ASCII letter, `isLetter` of internal/strs/strs.go:275-277. -/
def isLetter (c : Char) : Bool := isUpper c || isLower c

/-- ASCII digit, `isDigit` of internal/strs/strs.go:287-289. -/
def isDigit (c : Char) : Bool := '0'.toNat ≤ c.toNat && c.toNat ≤ '9'.toNat

/-- `unicode.ToLower` restricted to ASCII. -/
def lowerChar (c : Char) : Char := if isUpper c then Char.ofNat (c.toNat + 32) else c

/-- `unicode.ToUpper` restricted to ASCII. -/
def upperChar (c : Char) : Char := if isLower c then Char.ofNat (c.toNat - 32) else c

/-- `strings.ToLower` (ASCII). -/
def toLower (s : Str) : Str := s.map lowerChar

/-- `strings.ToUpper` (ASCII). -/
def toUpper (s : Str) : Str := s.map upperChar

/-- `unicode.IsSpace`: the complete list of white space code points. -/
def isSpace (c : Char) : Bool :=
  let n := c.toNat
  (9 ≤ n && n ≤ 13) || n == 32 || n == 0x85 || n == 0xA0 || n == 0x1680 ||
  (0x2000 ≤ n && n ≤ 0x200a) || n == 0x2028 || n == 0x2029 || n == 0x202f ||
  n == 0x205f || n == 0x3000

/-- `strings.TrimLeftFunc(s, f)`. -/
def trimLeftBy (f : Char → Bool) (s : Str) : Str := s.dropWhile f

/-- `strings.TrimRightFunc(s, f)`. -/
def trimRightBy (f : Char → Bool) (s : Str) : Str := (s.reverse.dropWhile f).reverse

/-- `strings.TrimSpace`. -/
def trimSpace (s : Str) : Str := trimRightBy isSpace (trimLeftBy isSpace s)

/-- `strings.HasPrefix(s, p)`. -/
def hasPrefix (s p : Str) : Bool := p.isPrefixOf s

/-- `strings.HasSuffix(s, p)`. -/
def hasSuffix (s p : Str) : Bool := p.isSuffixOf s

/-- `strings.Contains(s, p)`. -/
def contains (s p : Str) : Bool :=
  match s with
  | [] => p.isEmpty
  | c :: cs => p.isPrefixOf (c :: cs) || contains cs p

/-- `strings.TrimPrefix(s, p)`. -/
def trimPrefix (s p : Str) : Str := if hasPrefix s p then s.drop p.length else s

/-- Puts a character at the front of the first word of a split result. -/
def consHead (c : Char) : List Str → List Str
  | [] => [[c]]
  | w :: ws => (c :: w) :: ws

/-- `strings.Split(s, string(c))`. -/
def splitChar (c : Char) : Str → List Str
  | [] => [[]]
  | x :: xs => if x = c then [] :: splitChar c xs else consHead x (splitChar c xs)

/-- Worker of `splitStr`: `k` characters of a recognised separator are still to
be skipped. -/
def splitGo (sep : Str) : Nat → Str → List Str
  | _, [] => [[]]
  | k + 1, _ :: xs => splitGo sep k xs
  | 0, x :: xs =>
    if sep.isPrefixOf (x :: xs) then [] :: splitGo sep (sep.length - 1) xs
    else consHead x (splitGo sep 0 xs)

/-- `strings.Split(s, sep)` for a non-empty separator. -/
def splitStr (sep s : Str) : List Str := splitGo sep 0 s

/-- `strings.SplitN(s, sep, 2)` for a non-empty separator: the first piece and,
if the separator occurs, the rest. -/
def cut (sep : Str) : Str → Option (Str × Str)
  | [] => if sep.isEmpty then some ([], []) else none
  | x :: xs =>
    if sep.isPrefixOf (x :: xs) then some ([], (x :: xs).drop sep.length)
    else (cut sep xs).map fun p => (x :: p.1, p.2)

/-- `strings.Join(parts, sep)`. -/
def join (sep : Str) : List Str → Str
  | [] => []
  | [w] => w
  | w :: ws => w ++ sep ++ join sep ws

/-- `strings.Replace(s, string(c), by, -1)` for a single character. -/
def replaceChar (c : Char) (by_ : Str) (s : Str) : Str :=
  s.flatMap fun x => if x = c then by_ else [x]

/-- `strings.Title` (ASCII): upper-cases a letter that begins a word. Go's
`isSeparator` is false exactly for letters, digits and underscore among ASCII
characters; a character above ASCII is a separator only if it is white space
(letters and digits are not). -/
def isSeparator (c : Char) : Bool :=
  if c.toNat < 128 then !(isLetter c || isDigit c || c = '_') else isSpace c

/-- Worker of `title`: `prev` is the previous character. -/
def titleGo (prev : Char) : Str → Str
  | [] => []
  | c :: cs => (if isSeparator prev then upperChar c else c) :: titleGo c cs

/-- `strings.Title` (ASCII). The initial previous rune is a space. -/
def title (s : Str) : Str := titleGo ' ' s

end Str

/-! ## Sorting -/

/-- Insertion into a sorted list, before the first strictly larger element's
position is passed (keeps equal elements in order). -/
def insertBy {α : Type} (le : α → α → Bool) (a : α) : List α → List α
  | [] => [a]
  | b :: bs => if le a b then a :: b :: bs else b :: insertBy le a bs

/-- A stable sort: `sort.Stable`, and `sort.Strings`/`sort.Slice` when equal
elements are indistinguishable. -/
def sortBy {α : Type} (le : α → α → Bool) : List α → List α
  | [] => []
  | a :: as => insertBy le a (sortBy le as)

/-- `sort.Strings`. -/
def sortStrs (l : List Str) : List Str := sortBy Str.le l

end Verif
