import Verif.Go.Map

/-!
# Model of internal/strs/strs.go
-/

namespace Verif.Strs

open Verif Str

/-- `IsCapitalized`, internal/strs/strs.go:37-43. -/
def isCapitalized : Str → Bool
  | [] => false
  | c :: _ => isUpper c

/-- `IsCamelCase`, internal/strs/strs.go:48-58. -/
def isCamelCase (s : Str) : Bool :=
  match s with
  | [] => false
  | _ => s.all fun c => isLetter c || isDigit c

/-- Neither the first nor the last character is an underscore and the string is
not empty: the common guard of internal/strs/strs.go:63, :77 and :249. Go looks
at bytes, but `_` is ASCII, so the byte is `_` exactly if the rune is. -/
def noOuterUnderscore (s : Str) : Bool :=
  s ≠ [] && s.head? ≠ some '_' && s.getLast? ≠ some '_'

/-- `IsLowerSnakeCase`, internal/strs/strs.go:62-72. -/
def isLowerSnakeCase (s : Str) : Bool :=
  noOuterUnderscore s && s.all fun r => isLower r || isDigit r || r = '_'

/-- `IsUpperSnakeCase`, internal/strs/strs.go:76-86. -/
def isUpperSnakeCase (s : Str) : Bool :=
  noOuterUnderscore s && s.all fun r => isUpper r || isDigit r || r = '_'

/-- `isSnake`, internal/strs/strs.go:248-258. -/
def isSnake (s : Str) : Bool :=
  noOuterUnderscore s && s.all fun r => isLetter r || isDigit r || r = '_'

/-- The condition of internal/strs/strs.go:266: an underscore goes before `c`, when
`prev` is the previous rune (`none` at index 0) and `rest` follows. -/
def underscoreBefore (prev : Option Char) (c : Char) (rest : Str) : Bool :=
  match prev with
  | none => false
  | some p =>
    isUpper c && p ≠ '_' &&
      ((match rest with
        | [] => false
        | n :: _ => !isUpper n) || isLower p)

/-- The loop of `toSnake`, internal/strs/strs.go:265-271. `prev` is the previous
rune, `none` at index 0. Go reads `output[len(output)-1]`, which is the last
byte of the previous rune, since every iteration appends its rune last. Go also
reads the bytes `s[i+1]` and `s[i-1]`; they are read only when `c` is an ASCII
letter, so `i+1` is the start of the next rune and `i-1` the end of the previous
one, and a byte of a multi-byte rune is neither `_` nor an ASCII letter. -/
def toSnakeGo : Option Char → Str → Str
  | _, [] => []
  | prev, c :: rest =>
    (if underscoreBefore prev c rest then ['_', c] else [c]) ++ toSnakeGo (some c) rest

/-- `toSnake`, internal/strs/strs.go:262-273. -/
def toSnake (s : Str) : Str := toSnakeGo none (trimSpace s)

/-- `ToLowerSnakeCase`, internal/strs/strs.go:89-91. -/
def toLowerSnakeCase (s : Str) : Str := toLower (toSnake s)

/-- `ToUpperSnakeCase`, internal/strs/strs.go:94-96. -/
def toUpperSnakeCase (s : Str) : Str := toUpper (toSnake s)

/-- `isDelimiter`, internal/strs/strs.go:291-293. -/
def isDelimiter (c : Char) : Bool :=
  c = '-' || c = '_' || c = ' ' || c = '\t' || c = '\n' || c = '\r'

/-- The loop of `ToUpperCamelCase`, internal/strs/strs.go:109-118. `prev` is the
previous rune, `none` at index 0. -/
def toUpperCamelGo : Option Char → Str → Str
  | _, [] => []
  | prev, c :: rest =>
    let here : Str :=
      if isDelimiter c then []
      else
        let up : Bool :=
          match prev with
          | none => true
          | some p => isDelimiter p || isUpper c
        if up then [upperChar c] else [lowerChar c]
    here ++ toUpperCamelGo (some c) rest

/-- `ToUpperCamelCase`, internal/strs/strs.go:106-120. -/
def toUpperCamelCase (s : Str) : Str := toUpperCamelGo none (trimSpace s)

/-- State of the loop of `SplitSnakeCaseWord`: words so far, current word,
previous rune (the zero rune at the start). -/
structure SplitState where
  words : List Str
  cur : Str
  prev : Char

/-- One iteration of `SplitSnakeCaseWord`, internal/strs/strs.go:152-163. -/
def splitStep (st : SplitState) (c : Char) : SplitState :=
  if c ≠ '_' then
    if st.prev = '_' then
      { words := if st.cur ≠ [] then st.words ++ [st.cur] else st.words, cur := [c], prev := c }
    else { st with cur := st.cur ++ [c], prev := c }
  else { st with prev := c }

/-- `SplitSnakeCaseWord`, internal/strs/strs.go:141-168. `none` is Go's `nil`
(the caller cannot tell it from an empty slice; kept for readability). -/
def splitSnakeCaseWord (s : Str) : List Str :=
  if s = [] then []
  else
    let s := trimSpace s
    if !isSnake s then []
    else
      let st := s.foldl splitStep ⟨[], [], Char.ofNat 0⟩
      if st.cur ≠ [] then st.words ++ [st.cur] else st.words

/-- `SplitCamelCaseWord`, internal/strs/strs.go:126-135. -/
def splitCamelCaseWord (s : Str) : List Str :=
  if s = [] then []
  else
    let s := trimSpace s
    if !isCamelCase s then []
    else splitSnakeCaseWord (toSnake s)

/-- `MapToSortedSlice`, internal/strs/strs.go:191-198, for iteration order `o`. -/
def mapToSortedSliceOrd (o : Order) (m : List Str) : List Str := sortStrs (o.ord [] m)

/-- `MapToSortedSlice`; the iteration order is irrelevant by
`mapToSortedSliceOrd_eq`. -/
def mapToSortedSlice (m : List Str) : List Str := mapToSortedSliceOrd Order.id m

/-- The map built by `SortUniqModify`, internal/strs/strs.go:178-186. `none` is
the nil modifier. -/
def uniqMap (modifier : Option (Str → Str)) (s : List Str) : List Str :=
  s.foldl (fun m e =>
    let e := match modifier with
      | some f => f e
      | none => e
    if e ≠ [] then setInsert m e else m) []

/-- `SortUniqModify`, internal/strs/strs.go:177-188, for iteration order `o`. -/
def sortUniqModifyOrd (o : Order) (s : List Str) (modifier : Option (Str → Str)) : List Str :=
  mapToSortedSliceOrd o (uniqMap modifier s)

/-- `SortUniqModify`. -/
def sortUniqModify (s : List Str) (modifier : Option (Str → Str)) : List Str :=
  sortUniqModifyOrd Order.id s modifier

/-- `SortUniq`, internal/strs/strs.go:171-173. -/
def sortUniq (s : List Str) : List Str := sortUniqModify s none

/-- `Intersection`, internal/strs/strs.go:202-228. Deleting entries of `m1` while
ranging over it is allowed in Go and each remaining entry is visited. The first
loop's order `o []` and the second loop's order `o [[]]` are independent. -/
def intersectionOrd (o : Order) (one two : List Str) : List Str :=
  let m1 := uniqMap none one
  let m2 := uniqMap none two
  let m1' := (o.ord [] m1).foldl (fun m key => if key ∈ m2 then m else m.filter (· ≠ key)) m1
  sortStrs (o.ord [[]] m1')

/-- `Intersection`. -/
def intersection (one two : List Str) : List Str := intersectionOrd Order.id one two

/-- `IsLowercase`, internal/strs/strs.go:231-236. -/
def isLowercase (s : Str) : Bool := s ≠ [] && toLower s = s

/-- `IsUppercase`, internal/strs/strs.go:239-244. -/
def isUppercase (s : Str) : Bool := s ≠ [] && toUpper s = s

end Verif.Strs
