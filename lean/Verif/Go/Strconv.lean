import Verif.Go.Str

/-! # The parts of Go's `strconv` used by the code -/

namespace Verif

/-- The digit character of `d < 10`. -/
def digitChar (d : Nat) : Char := Char.ofNat (48 + d)

/-- Decimal digits of `n`, most significant first, put before `acc`; `fuel` bounds
the number of digits. -/
def natDigits : Nat → Nat → Str → Str
  | 0, _, acc => acc
  | fuel + 1, n, acc =>
    if n < 10 then digitChar n :: acc else natDigits fuel (n / 10) (digitChar (n % 10) :: acc)

/-- Decimal representation of a natural number. -/
def natStr (n : Nat) : Str := natDigits (n + 1) n []

/-- `strconv.Itoa`. -/
def itoa (i : Int) : Str := if i < 0 then '-' :: natStr i.natAbs else natStr i.natAbs

/-- Go's conversion `int(u)` of a `uint64`: values of 2^63 and above wrap around. -/
def wrapInt64 (u : Nat) : Int := if u < 2 ^ 63 then u else (u : Int) - 2 ^ 64

/-- The number written by a list of decimal digits. -/
def decValue (s : Str) : Nat := s.foldl (fun n c => 10 * n + (c.toNat - 48)) 0

/-- `strconv.ParseUint(s, 10, 64)`: the empty string, non-digits and values
that need more than 64 bits are errors. -/
def parseUint64 (s : Str) : Option Nat :=
  if s ≠ [] && s.all Str.isDigit then
    let v := decValue s
    if v < 2 ^ 64 then some v else none
  else none

/-- `strconv.Atoi`: an optional sign and decimal digits that fit 64 bits. -/
def atoi (s : Str) : Option Int :=
  let (neg, digits) := match s with
    | '-' :: t => (true, t)
    | '+' :: t => (false, t)
    | t => (false, t)
  if digits ≠ [] && digits.all Str.isDigit then
    let v := decValue digits
    if neg then (if v ≤ 2 ^ 63 then some (-(v : Int)) else none)
    else (if v < 2 ^ 63 then some v else none)
  else none

/-- A lower-case hexadecimal digit. -/
def hexChar (d : Nat) : Char := if d < 10 then Char.ofNat (48 + d) else Char.ofNat (87 + d)

/-- One character of `strconv.Quote`. Characters above ASCII are taken to be
printable (Go escapes the unprintable ones). -/
def quoteChar (c : Char) : Str :=
  if c = '"' then s%"\\\""
  else if c = '\\' then s%"\\\\"
  else if c.toNat = 7 then s%"\\a"
  else if c.toNat = 8 then s%"\\b"
  else if c.toNat = 12 then s%"\\f"
  else if c = '\n' then s%"\\n"
  else if c = '\r' then s%"\\r"
  else if c = '\t' then s%"\\t"
  else if c.toNat = 11 then s%"\\v"
  else if c.toNat < 32 || c.toNat = 127 then
    s%"\\x" ++ [hexChar (c.toNat / 16), hexChar (c.toNat % 16)]
  else [c]

/-- `strconv.Quote`, the verb `%q`. -/
def quote (s : Str) : Str := s%"\"" ++ s.flatMap quoteChar ++ s%"\""

end Verif
