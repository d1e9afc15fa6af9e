import Verif.Model.JsonReading
import Verif.Model.JsonParser
import Verif.Model.JsonWriter
import Verif.Model.TagValueParser
/-
Python's `json` module (Lib/json/encoder.py `_make_iterencode` and `encode_basestring_ascii`; Modules/_json.c `scan_once_unicode`,
`_parse_object_unicode`, `_parse_array_unicode`, `_match_number_unicode`, `scanstring_unicode`; Lib/json/decoder.py `decode`) as far as
`json.dump(document_dict, stream, indent=4)` (spdx/writer/json/json_writer.py L27) and
`json.load(file, object_pairs_hook=remove_json_control_chars_hook)` (spdx/parser/json/json_parser.py L33) use it.  Left out: the limits
on nesting (`RecursionError`) and on the length of integers (`ValueError` above 4300 digits).
-/
namespace Spdx

/-! ### Writing -/

/-- `'{0:04x}'.format(n)` for n < 0x10000: one digit -/
def hexDigit (n : Nat) : Char := if n < 10 then Char.ofNat (48 + n) else Char.ofNat (87 + n)

/-- `'\\u{0:04x}'.format(n)` -/
def uEscape (n : Nat) : Str :=
  ['\\', 'u', hexDigit (n / 4096 % 16), hexDigit (n / 256 % 16), hexDigit (n / 16 % 16), hexDigit (n % 16)]

/-- json/encoder.py `py_encode_basestring_ascii`, one character (ESCAPE_ASCII, ESCAPE_DCT, surrogate pairs above 0xffff) -/
def escapeChar (c : Char) : Str :=
  if c = '\\' then ['\\', '\\']
  else if c = '"' then ['\\', '"']
  else if c = '\x08' then ['\\', 'b']
  else if c = '\x0c' then ['\\', 'f']
  else if c = '\n' then ['\\', 'n']
  else if c = '\r' then ['\\', 'r']
  else if c = '\t' then ['\\', 't']
  else if 32 ≤ c.toNat ∧ c.toNat ≤ 126 then [c]
  else if c.toNat < 65536 then uEscape c.toNat
  else uEscape (55296 + (c.toNat - 65536) / 1024) ++ uEscape (56320 + (c.toNat - 65536) % 1024)

/-- `encode_basestring_ascii` -/
def quoteJson (s : Str) : Str := '"' :: (s.flatMap escapeChar ++ ['"'])

/-- `'\n' + _indent * _current_indent_level` -/
def newlineIndent (width level : Nat) : Str := '\n' :: List.replicate (width * level) ' '

mutual
/-- json/encoder.py `_iterencode`, `_iterencode_list`, `_iterencode_dict` with an indentation (so the item separator is ',' and the key
    separator ': ') -/
def dumpJson (width level : Nat) : Json → Str
  | .null => s%"null"
  | .bool true => s%"true"
  | .bool false => s%"false"
  | .num i => intStr i
  | .str s => quoteJson s
  | .arr [] => s%"[]"
  | .arr (j :: l) =>
    '[' :: (newlineIndent width (level + 1) ++ dumpJson width (level + 1) j ++ dumpItems width (level + 1) l ++
      newlineIndent width level ++ [']'])
  | .obj [] => s%"{}"
  | .obj ((k, j) :: l) =>
    '{' :: (newlineIndent width (level + 1) ++ quoteJson k ++ [':', ' '] ++ dumpJson width (level + 1) j ++
      dumpMembers width (level + 1) l ++ newlineIndent width level ++ ['}'])
/-- the further items of a list -/
def dumpItems (width level : Nat) : List Json → Str
  | [] => []
  | j :: l => ',' :: (newlineIndent width level ++ dumpJson width level j ++ dumpItems width level l)
/-- the further items of a dict -/
def dumpMembers (width level : Nat) : List (Str × Json) → Str
  | [] => []
  | (k, j) :: l =>
    ',' :: (newlineIndent width level ++ quoteJson k ++ [':', ' '] ++ dumpJson width level j ++ dumpMembers width level l)
end

/-! ### Reading -/

/-- What the decoder can deliver: strings are lists of code points (lone surrogates are possible), of a `float` only its text is kept. -/
inductive Raw where
  | null
  | bool (b : Bool)
  | num (i : Int)
  | float (text : Str)
  | str (s : List Nat)
  | arr (l : List Raw)
  | obj (l : List (List Nat × Raw))
deriving Inhabited

/-- json/decoder.py WHITESPACE, _json.c IS_WHITESPACE -/
def isJsonSpace (c : Char) : Bool := c == ' ' || c == '\t' || c == '\n' || c == '\r'

/-- skipping white space -/
def skipJsonSpace (s : Str) : Str := s.dropWhile isJsonSpace

/-- value of a hexadecimal digit (_json.c `scanstring_unicode`) -/
def hexVal (c : Char) : Option Nat :=
  let n := c.toNat
  if 48 ≤ n ∧ n ≤ 57 then some (n - 48)
  else if 97 ≤ n ∧ n ≤ 102 then some (n - 87)
  else if 65 ≤ n ∧ n ≤ 70 then some (n - 55)
  else none

/-- four hexadecimal digits -/
def hex4 (a b c d : Char) : Option Nat := do
  return 4096 * (← hexVal a) + 256 * (← hexVal b) + 16 * (← hexVal c) + (← hexVal d)

/-- `Py_UNICODE_IS_HIGH_SURROGATE` -/
def isHigh (n : Nat) : Bool := 55296 ≤ n && n ≤ 56319
/-- `Py_UNICODE_IS_LOW_SURROGATE` -/
def isLow (n : Nat) : Bool := 56320 ≤ n && n ≤ 57343
/-- `Py_UNICODE_JOIN_SURROGATES` -/
def joinSurrogates (hi lo : Nat) : Nat := 65536 + 1024 * (hi - 55296) + (lo - 56320)

/-- the one-letter escapes (json/decoder.py BACKSLASH) -/
def shortEscape (c : Char) : Option Nat :=
  if c = '"' then some 34
  else if c = '\\' then some 92
  else if c = '/' then some 47
  else if c = 'b' then some 8
  else if c = 'f' then some 12
  else if c = 'n' then some 10
  else if c = 'r' then some 13
  else if c = 't' then some 9
  else none

/-- `scanstring(s, end, strict=True)` behind the opening quote: the characters and what follows the closing quote. `fuel`: the length. -/
def scanString : Nat → Str → Option (List Nat × Str)
  | 0, _ => none
  | _ + 1, [] => none
  | _ + 1, '"' :: r => some ([], r)
  | fuel + 1, '\\' :: 'u' :: a :: b :: c :: d :: r => do
    let u ← hex4 a b c d
    let single := do
      let (us, r') ← scanString fuel r
      return (u :: us, r')
    if isHigh u then
      match r with
      | '\\' :: 'u' :: a' :: b' :: c' :: d' :: r2 =>
        match hex4 a' b' c' d' with
        | some u2 =>
          if isLow u2 then do
            let (us, r') ← scanString fuel r2
            return (joinSurrogates u u2 :: us, r')
          else single
        | none => none
      | _ => single
    else single
  | fuel + 1, '\\' :: e :: r => do
    let u ← shortEscape e
    let (us, r') ← scanString fuel r
    return (u :: us, r')
  | fuel + 1, c :: r =>
    if c = '\\' then none
    else if c.toNat < 32 then none
    else do
      let (us, r') ← scanString fuel r
      return (c.toNat :: us, r')

/-- ASCII digits -/
def isJsonDigit (c : Char) : Bool := 48 ≤ c.toNat && c.toNat ≤ 57

/-- the integer part of `_match_number_unicode`: '0' or a digit other than 0 and further digits -/
def scanInteger : Str → Option (Str × Str)
  | '0' :: r => some (['0'], r)
  | c :: r => if isJsonDigit c then some (c :: r.takeWhile isJsonDigit, r.dropWhile isJsonDigit) else none
  | [] => none

/-- the fraction, if any: '.' and at least one digit -/
def scanFraction : Str → Str × Str
  | '.' :: c :: r =>
    if isJsonDigit c then ('.' :: c :: r.takeWhile isJsonDigit, r.dropWhile isJsonDigit) else ([], '.' :: c :: r)
  | s => ([], s)

/-- the sign of the exponent -/
def scanSign : Str → Str × Str
  | '+' :: r => (['+'], r)
  | '-' :: r => (['-'], r)
  | s => ([], s)

/-- the exponent, if any: 'e' or 'E', a sign, and at least one digit -/
def scanExponent : Str → Str × Str
  | [] => ([], [])
  | e :: r =>
    if e = 'e' ∨ e = 'E' then
      let sr := scanSign r
      match sr.2 with
      | c :: r' =>
        if isJsonDigit c then (e :: (sr.1 ++ c :: r'.takeWhile isJsonDigit), r'.dropWhile isJsonDigit) else ([], e :: r)
      | [] => ([], e :: r)
    else ([], e :: r)

/-- `int(text)` for ASCII digits -/
def digitsVal (s : Str) : Nat := s.foldl (fun n c => 10 * n + (c.toNat - 48)) 0

/-- `_match_number_unicode` behind the sign -/
def scanUnsigned (neg : Bool) (s : Str) : Option (Raw × Str) := do
  let (i, r) ← scanInteger s
  let (f, r) := scanFraction r
  let (e, r) := scanExponent r
  if f = [] ∧ e = [] then return (.num (if neg then - Int.ofNat (digitsVal i) else Int.ofNat (digitsVal i)), r)
  else return (.float ((if neg then ['-'] else []) ++ i ++ f ++ e), r)

/-- `_match_number_unicode` -/
def scanNumber : Str → Option (Raw × Str)
  | '-' :: s => scanUnsigned true s
  | s => scanUnsigned false s

/-- a constant at the start of the text -/
def scanWord (word : Str) (s : Str) : Option Str := if word <+: s then some (s.drop word.length) else none

mutual
/-- `scan_once_unicode` -/
def scanValue : Nat → Str → Option (Raw × Str)
  | 0, _ => none
  | fuel + 1, s =>
    match s with
    | [] => none
    | '"' :: r => do
      let (us, r) ← scanString (r.length + 1) r
      return (.str us, r)
    | '{' :: r =>
      match skipJsonSpace r with
      | '}' :: r => some (.obj [], r)
      | r => do
        let (l, r) ← scanMembers fuel r
        return (.obj l, r)
    | '[' :: r =>
      match skipJsonSpace r with
      | ']' :: r => some (.arr [], r)
      | r => do
        let (l, r) ← scanElements fuel r
        return (.arr l, r)
    | _ =>
      match scanWord s%"null" s with
      | some r => some (.null, r)
      | none => match scanWord s%"true" s with
        | some r => some (.bool true, r)
        | none => match scanWord s%"false" s with
          | some r => some (.bool false, r)
          | none => match scanWord s%"NaN" s with
            | some r => some (.float s%"NaN", r)
            | none => match scanWord s%"Infinity" s with
              | some r => some (.float s%"Infinity", r)
              | none => match scanWord s%"-Infinity" s with
                | some r => some (.float s%"-Infinity", r)
                | none => scanNumber s
/-- the loop of `_parse_array_unicode`, behind white space -/
def scanElements : Nat → Str → Option (List Raw × Str)
  | 0, _ => none
  | fuel + 1, s => do
    let (v, r) ← scanValue fuel s
    match skipJsonSpace r with
    | ']' :: r => some ([v], r)
    | ',' :: r => do
      let (l, r) ← scanElements fuel (skipJsonSpace r)
      return (v :: l, r)
    | _ => none
/-- the loop of `_parse_object_unicode`, behind white space -/
def scanMembers : Nat → Str → Option (List (List Nat × Raw) × Str)
  | 0, _ => none
  | fuel + 1, s =>
    match s with
    | '"' :: r => do
      let (k, r) ← scanString (r.length + 1) r
      match skipJsonSpace r with
      | ':' :: r => do
        let (v, r) ← scanValue fuel (skipJsonSpace r)
        match skipJsonSpace r with
        | '}' :: r => some ([(k, v)], r)
        | ',' :: r => do
          let (l, r) ← scanMembers fuel (skipJsonSpace r)
          return ((k, v) :: l, r)
        | _ => none
      | _ => none
    | _ => none
end

/-- json/decoder.py `JSONDecoder.decode`; json/__init__.py `loads` refuses a byte order mark, as the scanner does. `none`: `JSONDecodeError`. -/
def loadText (s : Str) : Option Raw := do
  let (v, r) ← scanValue (s.length + 1) (skipJsonSpace s)
  if skipJsonSpace r = [] then return v else none

/-! ### Values without floats and lone surrogates -/

/-- a text without lone surrogates -/
def codePoints : List Nat → Option Str
  | [] => some []
  | n :: l => if n.isValidChar then (codePoints l).map (Char.ofNat n :: ·) else none

mutual
/-- the value as a tree of the model; `none`: there is a float or a lone surrogate in it -/
def Raw.toJson : Raw → Option Json
  | .null => some .null
  | .bool b => some (.bool b)
  | .num i => some (.num i)
  | .float _ => none
  | .str s => (codePoints s).map .str
  | .arr l => (Raw.listToJson l).map .arr
  | .obj l => (Raw.membersToJson l).map .obj
def Raw.listToJson : List Raw → Option (List Json)
  | [] => some []
  | r :: l => do return (← r.toJson) :: (← Raw.listToJson l)
def Raw.membersToJson : List (List Nat × Raw) → Option (List (Str × Json))
  | [] => some []
  | (k, r) :: l => do return (← codePoints k, ← r.toJson) :: (← Raw.membersToJson l)
end

/-- What reading a JSON file can end in. -/
inductive JsonRead where
  /-- `JSONDecodeError` -/
  | malformed
  /-- there is a float or a lone surrogate in the file: not modelled further -/
  | beyond
  /-- the outcome of `JsonLikeDictParser().parse` -/
  | parsed (result : Py Document)

/-- spdx/parser/json/json_parser.py L31-35 `parse_from_file` on the (decoded) text of the file -/
def parseJsonFile (L : LicText) (text : Str) : JsonRead :=
  match loadText (universalNewlines text) with
  | none => .malformed
  | some r => match r.toJson with
    | none => .beyond
    | some j => .parsed (parseDocument L (loadJson j))

/-- The text that spdx/writer/json/json_writer.py L25-27 writes. `none`: a date cannot be represented. -/
def writeJsonText (L : LicText) (d : Document) : Option Str := (documentToJson L d).map (dumpJson 4 0)

end Spdx
