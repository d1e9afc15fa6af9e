import Verif.Spec.PyRe
import Verif.Model.Ply
/-
The rules of spdx/parser/tagvalue/lexer.py as they are written, and the driver of the PLY lexer (ply/lex.py), which is a library and described
here.  C61 shows that this is the function `lex` of the model.
-/
namespace Spdx

/-- lexer.py L119-193: the rules of the state `INITIAL`, by name, in the order of their lines, with the patterns given to `TOKEN`
    (`t_text` belongs to `INITIAL`: PLY takes a prefix for the name of a state only if more follows) -/
def lexRules : List (Str × Str) :=
  [(s%"t_text", s%":\\s*<text>"),
   (s%"t_CHECKSUM", s%":\\s*(ADLER32|BLAKE2b-256|BLAKE2b-384|BLAKE2b-512|BLAKE3|MD2|MD4|MD5|MD6|SHA1|SHA224|SHA256|SHA384|SHA512|SHA3-256|SHA3-384|SHA3-512):\\s*([a-f0-9]*)"),
   (s%"t_TOOL_VALUE", s%":\\s*Tool:.+"),
   (s%"t_ORGANIZATION_VALUE", s%":\\s*Organization:.+"),
   (s%"t_PERSON_VALUE", s%":\\s*Person:.+"),
   (s%"t_ISO8601_DATE", s%":\\s*\\d\\d\\d\\d-\\d\\d-\\d\\dT\\d\\d:\\d\\d:\\d\\dZ"),
   (s%"t_KEYWORD_AS_TAG", s%"[a-zA-Z]+"),
   (s%"t_LINE_OR_KEYWORD_VALUE", s%":.+"),
   (s%"t_comment", s%"\\#.*"),
   (s%"t_newline", s%"\\n+"),
   (s%"t_whitespace", s%"[ \\t]+")]

/-- lexer.py L124-135: the rules of the exclusive state `text` -/
def lexTextRules : List (Str × Str) := [(s%"t_text_end", s%"</text>\\s*"), (s%"t_text_any", s%".|\\n")]

/-- ply/lex.py `_form_master_regex`: one pattern for all the rules of a state (compiled with `re.UNICODE` only, lexer.py L195-196) -/
def masterPattern (rules : List (Str × Str)) : Str :=
  joinWith ['|'] (rules.map fun r => s%"(?P<" ++ r.1 ++ ['>'] ++ r.2 ++ [')'])

/-- The state of the lexer: what is left of the text, and, in the state `text`, the text from `text_start` on. -/
structure LexState where
  rest : Str
  textStart : Option Str := none
deriving Repr, DecidableEq

/-- A token: its type and its value. -/
abbrev LexTok := Str × Str

/-- ply/lex.py `Lexer.token`: the rule that matches, by the number of the group closed last (`m.lastindex`), the text it matches, and what
    is left -/
def lexMatch (rules : List (Str × Str)) (s : Str) : Option (Str × Str × Str) :=
  match parsePattern (masterPattern rules) with
  | some (p, names) => match p.first {} s with
    | some m => match m.caps with
      | (n, _) :: _ => (names.find? fun x => x.2 = n).map fun x => (x.1, s.take (s.length - m.rest.length), m.rest)
      | [] => none
    | none => none
  | none => none

/-- lexer.py L119-193: the functions of the rules in the state `INITIAL`; `m` is the text matched and `r` what is left.
    (`t.type` is the name of the rule without `t_`, unless it is set.) -/
def lexAction (name m r : Str) : Option LexTok × LexState :=
  if name = s%"t_text" then (none, ⟨r, some (m.drop (m.length - 6) ++ r)⟩)
  else if name = s%"t_CHECKSUM" ∨ name = s%"t_TOOL_VALUE" ∨ name = s%"t_ORGANIZATION_VALUE" ∨ name = s%"t_PERSON_VALUE" ∨
      name = s%"t_ISO8601_DATE" then (some (name.drop 2, strip (m.drop 1)), ⟨r, none⟩)
  else if name = s%"t_KEYWORD_AS_TAG" then
    (some (match reservedTypes.lookup m with | some t => t | none => s%"UNKNOWN_TAG", strip m), ⟨r, none⟩)
  else if name = s%"t_LINE_OR_KEYWORD_VALUE" then
    (some (match reservedTypes.lookup (strip (m.drop 1)) with | some t => t | none => s%"LINE", strip (m.drop 1)), ⟨r, none⟩)
  else (none, ⟨r, none⟩)

/-- lexer.py L124-135: the same in the state `text`, `b` being the text from `text_start` on -/
def lexTextAction (b name r : Str) : Option LexTok × LexState :=
  if name = s%"t_text_end" then (some (s%"TEXT", strip (b.take (b.length - r.length))), ⟨r, none⟩)
  else (none, ⟨r, some b⟩)

/-- One round of `Lexer.token`, when there is text left.  Without a match: `t_error` (L204-207) skips a character and returns an error token;
    `t_text_error` (L137-138) skips none, and PLY raises `LexError` (`none`). -/
def LexState.step (s : LexState) : Option (Option LexTok × LexState) :=
  match s.textStart with
  | none => match lexMatch lexRules s.rest with
    | some (name, m, r) => some (lexAction name m r)
    | none => some (some (s%"error", s%"Lexer error"), ⟨s.rest.drop 1, none⟩)
  | some b => match lexMatch lexTextRules s.rest with
    | some (name, _, r) => some (lexTextAction b name r)
    | none => none

/-- The tokens that the parser gets until `token` returns `None`. -/
inductive PlyLexes : LexState → List LexTok → Prop where
  | done {s : LexState} : s.rest = [] → PlyLexes s []
  | skip {s s' : LexState} {ts : List LexTok} : s.rest ≠ [] → s.step = some (none, s') → PlyLexes s' ts → PlyLexes s ts
  | token {s s' : LexState} {t : LexTok} {ts : List LexTok} : s.rest ≠ [] → s.step = some (some t, s') → PlyLexes s' ts →
      PlyLexes s (t :: ts)

end Spdx
