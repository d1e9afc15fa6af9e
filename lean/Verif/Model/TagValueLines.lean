import Verif.Model.TagValueParser
/-
The line numbers that the tag-value reader names in its messages (`Line: {p.lineno(1)}`): lexer.py's bookkeeping of `lexer.lineno`, and
what PLY does with it.  ply/lex.py starts a lexer with `lineno = 1` and gives every token the line number that holds when the rule is
applied (`tok.lineno = self.lineno`, before the rule's function is called); `p.lineno(1)` in a grammar rule is the line number of the
first symbol, which is the tag.
-/
namespace Spdx

/-- `s.count("\n")` -/
def newlines (s : Str) : Nat := s.count '\n'

/-- By how much the rule that applies at the start of the text advances `lexer.lineno`: lexer.py L123-131 `t_text_end` (the value reaches
    from `<text>` to the blanks after `</text>`) and L187-189 `t_newline`; no other rule touches it. -/
def counted : Str → Nat
  | [] => 0
  | c :: r =>
    if c = ':' then
      match dropPrefix? s%"<text>" (r.dropWhile isPySpace) with
      | some body => match cutFirst s%"</text>" body with
        | some (content, rest) => newlines (s%"<text>" ++ content ++ s%"</text>" ++ rest.takeWhile isPySpace)
        | none => 0
      | none => 0
    else if c = '\n' then 1 + (r.takeWhile (· = '\n')).length
    else 0

/-- The application of a rule of the lexer: the token it makes, if any, `lexer.lineno` at the time, the text before and the text that is
    left. -/
structure Place where
  tok : Option Tok
  line : Nat
  before : Str
  after : Str
deriving DecidableEq

/-- The rules that are applied to a text one after the other (lexer.py, the loop of ply/lex.py `Lexer.token`), when the line number is
    `line` and `before` has been read.  `fuel` bounds their number. -/
def placesFrom : Nat → Nat → Str → Str → List Place
  | 0, _, _, _ => []
  | fuel + 1, line, before, s => match lexOne s with
    | none => []
    | some (a, r) => ⟨a, line, before, s⟩ :: placesFrom fuel (line + counted s) (before ++ s.take (s.length - r.length)) r

/-- The rules applied to a text by a lexer whose line number is `line` at its start: 1 for a new lexer; `lexer.input` (lexer.py L202-203)
    leaves it as it is. -/
def places (line : Nat) (s : Str) : List Place := placesFrom s.length line [] s

/-- The token at a place with its line number. -/
def Place.numbered (p : Place) : Option (Tok × Nat) := p.tok.map (·, p.line)

/-- The tokens of a text with their line numbers. -/
def lexLines (line : Nat) (s : Str) : List (Tok × Nat) := (places line s).filterMap Place.numbered

/-- `attrOne` on tokens with line numbers: an attribute gets the line number of its first token, `p.lineno(1)`. -/
def attrOneLines (ts : List (Tok × Nat)) : Option (Option (TvAttr × Nat) × List (Tok × Nat)) :=
  match ts, attrOne (ts.map (·.1)) with
  | t :: _, some (a, r) => some (a.map (·, t.2), ts.drop (ts.length - r.length))
  | _, _ => none

/-- The attributes with the line numbers that are named in the messages about them. -/
def attrLines (ts : List (Tok × Nat)) : List (TvAttr × Nat) := scan attrOneLines ts.length ts

/-- The attributes a reader finds in a text, with their line numbers. -/
def readLines (line : Nat) (text : Str) : List (TvAttr × Nat) := attrLines (lexLines line text)

end Spdx
