/-
Python text primitives used by the modelled code.  Text is a list of Unicode scalar values.
(Python strings may also hold lone surrogates; those are outside the model.)
-/
deriving instance DecidableEq for Except

namespace Spdx

/-- Python `str`, as a list of characters. -/
abbrev Str := List Char

/-- `s%"abc"` is the character list `['a', 'b', 'c']` (spelled out at elaboration time, so that the kernel need not
    decode UTF-8). -/
macro:max "s%" s:str : term => do
  let cs := s.getString.toList.toArray.map fun c => Lean.Syntax.mkCharLit c
  `([$cs,*])

example : s%"abc" = "abc".toList := rfl

/-- First characters of the 66 blocks of ten decimal digits of Unicode's category Nd
    (`unicodedata`, Unicode 14, as shipped with Python 3.11). `\d` in a `re` pattern matches exactly these. -/
def ndStarts : List Nat :=
  [0x30, 0x660, 0x6f0, 0x7c0, 0x966, 0x9e6, 0xa66, 0xae6, 0xb66, 0xbe6, 0xc66, 0xce6, 0xd66, 0xde6, 0xe50, 0xed0,
   0xf20, 0x1040, 0x1090, 0x17e0, 0x1810, 0x1946, 0x19d0, 0x1a80, 0x1a90, 0x1b50, 0x1bb0, 0x1c40, 0x1c50, 0xa620,
   0xa8d0, 0xa900, 0xa9d0, 0xa9f0, 0xaa50, 0xabf0, 0xff10, 0x104a0, 0x10d30, 0x11066, 0x110f0, 0x11136, 0x111d0,
   0x112f0, 0x11450, 0x114d0, 0x11650, 0x116c0, 0x11730, 0x118e0, 0x11950, 0x11c50, 0x11d50, 0x11da0, 0x16a60,
   0x16ac0, 0x16b50, 0x1d7ce, 0x1d7d8, 0x1d7e2, 0x1d7ec, 0x1d7f6, 0x1e140, 0x1e2f0, 0x1e950, 0x1fbf0]

/-- Numeric value of a decimal digit character (`int()` accepts all of category Nd), `none` for other characters. -/
def digitVal? (c : Char) : Option Nat :=
  (ndStarts.find? (fun s => s ≤ c.toNat && c.toNat < s + 10)).map (c.toNat - ·)

/-- `\d` of Python's `re` on `str` patterns. -/
def isPyDigit (c : Char) : Bool := (digitVal? c).isSome

/-- `str.isspace` on one character; equal to `\s` of `re` (Python 3.11 table). -/
def isPySpace (c : Char) : Bool :=
  [0x9, 0xa, 0xb, 0xc, 0xd, 0x1c, 0x1d, 0x1e, 0x1f, 0x20, 0x85, 0xa0, 0x1680, 0x2000, 0x2001, 0x2002, 0x2003, 0x2004,
   0x2005, 0x2006, 0x2007, 0x2008, 0x2009, 0x200a, 0x2028, 0x2029, 0x202f, 0x205f, 0x3000].contains c.toNat

/-- `[a-z]` -/
def isLowerAZ (c : Char) : Bool := 'a'.toNat ≤ c.toNat && c.toNat ≤ 'z'.toNat
/-- `[A-Z]` -/
def isUpperAZ (c : Char) : Bool := 'A'.toNat ≤ c.toNat && c.toNat ≤ 'Z'.toNat
/-- `[0-9]` -/
def isDigit09 (c : Char) : Bool := '0'.toNat ≤ c.toNat && c.toNat ≤ '9'.toNat

/-- `s.startswith(p)` -/
def startsWith (s p : Str) : Bool := p.isPrefixOf s
/-- `s.endswith(p)` -/
def endsWith (s p : Str) : Bool := p.isSuffixOf s

/-- `s.lstrip()` -/
def lstrip (s : Str) : Str := s.dropWhile isPySpace
/-- `s.rstrip()` -/
def rstrip (s : Str) : Str := (s.reverse.dropWhile isPySpace).reverse
/-- `s.strip()` -/
def strip (s : Str) : Str := rstrip (lstrip s)

/-- `s.split(sep)` for a one-character separator: always at least one piece. -/
def splitOn (sep : Char) : Str → List Str
  | [] => [[]]
  | c :: cs =>
    if c = sep then [] :: splitOn sep cs
    else match splitOn sep cs with
      | [] => [[c]]          -- unreachable, `splitOn` is never empty
      | p :: ps => (c :: p) :: ps

/-- `sep.join(pieces)` -/
def joinWith (sep : Str) : List Str → Str
  | [] => []
  | [p] => p
  | p :: q :: ps => p ++ sep ++ joinWith sep (q :: ps)

/-- Subject of a `re.match(r"^...$", s)`: `$` also matches before one final newline, so the pattern body may match `s`
    itself or `s` without a final newline.  `dollar body s` is that disjunction. -/
def dollar (body : Str → Bool) (s : Str) : Bool :=
  body s || (match s.reverse with | '\n' :: r => body r.reverse | _ => false)

/-- Decimal digit character of a number below ten. -/
def digitChar (n : Nat) : Char := Char.ofNat (48 + n)

/-- `str(n)` for a natural number. -/
def natStr (n : Nat) : Str :=
  if _h : n < 10 then [digitChar n] else natStr (n / 10) ++ [digitChar (n % 10)]
termination_by n
decreasing_by omega

/-- `str(i)` for an integer. -/
def intStr : Int → Str
  | .ofNat n => natStr n
  | .negSucc n => '-' :: natStr (n + 1)

/-- One step of reading a number, most significant digit first. -/
def digitStep (acc : Option Nat) (c : Char) : Option Nat :=
  match acc, digitVal? c with
  | some a, some d => some (a * 10 + d)
  | _, _ => none

/-- Value of a text of decimal digits, most significant first; `none` when some character is no digit. -/
def digitsVal? (s : Str) : Option Nat := s.foldl digitStep (some 0)

/-- digits with single underscores between them, as `int` reads them -/
def pyNatText (s : Str) : Option Nat :=
  if (splitOn '_' s).any List.isEmpty then none else digitsVal? (splitOn '_' s).flatten

/-- `int(s)` of a text; `none` is the `ValueError` -/
def pyIntText (s : Str) : Option Int :=
  match strip s with
  | '-' :: r => (pyNatText r).map fun n => -(n : Int)
  | '+' :: r => (pyNatText r).map fun n => (n : Int)
  | r => (pyNatText r).map fun n => (n : Int)

/-- ASCII upper-casing (`str.upper` on ASCII text; other characters are left alone – a simplification). -/
def upperAscii (s : Str) : Str := s.map (fun c => if isLowerAZ c then Char.ofNat (c.toNat - 32) else c)
/-- ASCII lower-casing (`str.lower` on ASCII text; other characters are left alone – a simplification). -/
def lowerAscii (s : Str) : Str := s.map (fun c => if isUpperAZ c then Char.ofNat (c.toNat + 32) else c)

/-- `s.replace(a, b)` for one-character `a`. -/
def replaceChar (a : Char) (b : Str) (s : Str) : Str := s.flatMap (fun c => if c = a then b else [c])

/-- `s` contains the character. -/
def hasChar (c : Char) (s : Str) : Bool := s.contains c

/-- `sub in s` for texts. -/
def isInfix (sub : Str) : Str → Bool
  | [] => sub.isEmpty
  | c :: cs => sub.isPrefixOf (c :: cs) || isInfix sub cs

/-- One pass of `s.replace(a, b)`: `skip` characters are still part of the last occurrence found. -/
def replaceGo (a b : Str) : Nat → Str → Str
  | _, [] => []
  | k + 1, _ :: cs => replaceGo a b k cs
  | 0, c :: cs => if a.isPrefixOf (c :: cs) then b ++ replaceGo a b (a.length - 1) cs else c :: replaceGo a b 0 cs

/-- `s.replace(a, b)` for non-empty `a`: all occurrences from the left, not overlapping. -/
def replaceStr (a b s : Str) : Str := replaceGo a b 0 s

end Spdx
