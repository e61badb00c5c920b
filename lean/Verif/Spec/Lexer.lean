import Verif.Go.Str

/-!
# Specification: the tokens of a protobuf text

Words are names, keywords and numbers, with dots and signs: protobuf cuts a word further up, but
equal words are cut up alike. White space is dropped. Comments are kept or dropped.
-/

namespace Verif.Spec

open Verif Str

/-- A word, a string with the quote it is written in, another character, or a comment. -/
inductive Token where
  | word (s : Str)
  | str (quote : Char) (s : Str)
  | sym (c : Char)
  | comment (s : Str)
deriving DecidableEq

/-- Letters, digits, underscores, dots and signs. -/
def isWordChar (c : Char) : Bool := c.isAlphanum || c == '_' || c == '.' || c == '+' || c == '-'

/-- What the lexer is in: between tokens, in a word, in a string, behind a backslash in a string,
behind a slash, in a comment to the end of the line, in a comment in stars, or behind a star in it.
For comments it has what has been read of them. -/
inductive Mode where
  | between
  | word (s : Str)
  | text (quote : Char) (s : Str)
  | escape (quote : Char) (s : Str)
  | slash
  | line (s : Str)
  | block (s : Str)
  | star (s : Str)

/-- The tokens so far and what the lexer is in. -/
structure Lexing where
  tokens : List Token
  mode : Mode

/-- A character between tokens. -/
def fresh (ts : List Token) (c : Char) : Lexing :=
  if isSpace c then ⟨ts, .between⟩
  else if isWordChar c then ⟨ts, .word [c]⟩
  else if c = '"' ∨ c = '\'' then ⟨ts, .text c []⟩
  else if c = '/' then ⟨ts, .slash⟩
  else ⟨ts ++ [.sym c], .between⟩

/-- The token for a comment, if comments are kept. -/
def said (keep : Bool) (s : Str) : List Token := if keep then [.comment s] else []

/-- One character. A string ends on its line. White space does not count at the end of a comment
up to the end of the line, and nowhere in a comment in stars. -/
def lexStep (keep : Bool) : Lexing → Char → Option Lexing
  | ⟨ts, .between⟩, c => some (fresh ts c)
  | ⟨ts, .word s⟩, c =>
    if isWordChar c then some ⟨ts, .word (s ++ [c])⟩ else some (fresh (ts ++ [.word s]) c)
  | ⟨ts, .text q s⟩, c =>
    if c = '\n' then none
    else if c = q then some ⟨ts ++ [.str q s], .between⟩
    else if c = '\\' then some ⟨ts, .escape q (s ++ [c])⟩
    else some ⟨ts, .text q (s ++ [c])⟩
  | ⟨ts, .escape q s⟩, c => if c = '\n' then none else some ⟨ts, .text q (s ++ [c])⟩
  | ⟨ts, .slash⟩, c =>
    if c = '/' then some ⟨ts, .line []⟩
    else if c = '*' then some ⟨ts, .block []⟩
    else some (fresh (ts ++ [.sym '/']) c)
  | ⟨ts, .line s⟩, c =>
    if c = '\n' then some ⟨ts ++ said keep (trimRightBy isSpace s), .between⟩
    else some ⟨ts, .line (s ++ [c])⟩
  | ⟨ts, .block s⟩, c =>
    if c = '*' then some ⟨ts, .star s⟩ else some ⟨ts, .block (if isSpace c then s else s ++ [c])⟩
  | ⟨ts, .star s⟩, c =>
    if c = '/' then some ⟨ts ++ said keep s, .between⟩
    else if c = '*' then some ⟨ts, .star (s ++ ['*'])⟩
    else some ⟨ts, .block (if isSpace c then s ++ ['*'] else s ++ ['*', c])⟩

/-- A text. -/
def lexFrom (keep : Bool) : Lexing → Str → Option Lexing
  | l, [] => some l
  | l, c :: cs => (lexStep keep l c).bind (lexFrom keep · cs)

/-- The end of the text. -/
def lexEnd (keep : Bool) : Lexing → Option (List Token)
  | ⟨ts, .between⟩ => some ts
  | ⟨ts, .word s⟩ => some (ts ++ [.word s])
  | ⟨ts, .slash⟩ => some (ts ++ [.sym '/'])
  | ⟨ts, .line s⟩ => some (ts ++ said keep (trimRightBy isSpace s))
  | _ => none

/-- The text cut up. -/
def lex (keep : Bool) (text : Str) : Option (List Token) :=
  (lexFrom keep ⟨[], .between⟩ text).bind (lexEnd keep)

/-- The tokens of a text. -/
def tokensOf (text : Str) : Option (List Token) := lex false text

/-- The comments among the tokens. -/
def commentsAt (ts : List Token) : List Str := ts.filterMap fun | .comment s => some s | _ => none

/-- The comments of a text. -/
def commentsOf (text : Str) : Option (List Str) := (lex true text).map commentsAt

end Verif.Spec
