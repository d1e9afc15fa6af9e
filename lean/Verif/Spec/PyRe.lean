import Verif.Model.Uri
/-
What Python's `re` does with a pattern, for the syntax that occurs in the source: how the text of a pattern is read (`parsePattern`), and
which match the backtracking matcher finds (`Pat.run`, `pyMatch`, `pySub`).  This is a description of a library; nothing in the model uses it.
It is here to state, in C61 and C62, what the patterns written in the source mean.
-/
namespace Spdx

/-- An item of a character class. -/
inductive CItem where
  | chr (c : Char)
  | range (a b : Char)
  /-- `\d` -/
  | digit
  /-- `\s` -/
  | space
  /-- `\w` -/
  | word
deriving Repr, DecidableEq

/-- Patterns.  `a+`, `a?` and `a{n,m}` are abbreviations. -/
inductive Pat where
  | eps
  /-- a character class; `neg`: a character that is not in it -/
  | set (neg : Bool) (items : List CItem)
  | seq (a b : Pat)
  | alt (a b : Pat)
  /-- `a*`, greedy -/
  | star (a : Pat)
  /-- the capturing group with this number -/
  | grp (n : Nat) (a : Pat)
  /-- `^` -/
  | bos
  /-- `$` -/
  | eos
  /-- `(?!^)` -/
  | notBos
deriving Repr, DecidableEq

namespace Pat

/-- A character stands for itself. -/
def chr (c : Char) : Pat := .set false [.chr c]
/-- `.`: anything but a newline -/
def any : Pat := .set true [.chr '\n']
/-- `a+`, greedy -/
def plus (a : Pat) : Pat := .seq a (.star a)
/-- `a?`, greedy -/
def opt (a : Pat) : Pat := .alt a .eps
/-- `a{0,n}`, greedy -/
def upTo (a : Pat) : Nat → Pat
  | 0 => .eps
  | n + 1 => .alt (.seq a (upTo a n)) .eps
/-- `n` times `a`, then `b` -/
def times (a : Pat) : Nat → Pat → Pat
  | 0, b => b
  | n + 1, b => .seq a (times a n b)

end Pat

/-! ## Reading a pattern -/

/-- An escaped character, in a class or outside. -/
def escItem (c : Char) : Option CItem :=
  if c = 'd' then some .digit else if c = 's' then some .space else if c = 'w' then some .word
  else if c = 'n' then some (.chr '\n') else if c = 't' then some (.chr '\t')
  else if isAlnumAscii c then none else some (.chr c)

/-- A class, after the opening bracket. -/
def pClass : Str → Option (List CItem × Str)
  | [] => none
  | ']' :: r => some ([], r)
  | '\\' :: c :: r => (escItem c).bind fun i => (pClass r).map fun x => (i :: x.1, x.2)
  | a :: '-' :: ']' :: r => some ([.chr a, .chr '-'], r)
  | a :: '-' :: b :: r => (pClass r).map fun x => (.range a b :: x.1, x.2)
  | a :: r => (pClass r).map fun x => (.chr a :: x.1, x.2)

/-- A decimal number. -/
def pNat (s : Str) : Nat := s.foldl (fun n c => 10 * n + (c.toNat - '0'.toNat)) 0

/-- The quantifier after an item, if there is one.  (The lazy quantifiers `*?` and so on are not used.) -/
def pQuant (a : Pat) : Str → Option (Pat × Str)
  | '*' :: r => some (.star a, r)
  | '+' :: r => some (.plus a, r)
  | '?' :: r => some (.opt a, r)
  | '{' :: r =>
    let n := r.takeWhile isDigit09
    match r.dropWhile isDigit09 with
    | '}' :: r => some (.times a (pNat n) .eps, r)
    | ',' :: '}' :: r => some (.times a (pNat n) (.star a), r)
    | ',' :: r => match r.dropWhile isDigit09 with
      | '}' :: r' => some (.times a (pNat n) (.upTo a (pNat (r.takeWhile isDigit09) - pNat n)), r')
      | _ => none
    | _ => none
  | r => some (a, r)

/-- `a` then `b` -/
def mkPatSeq (a : Pat) : Pat → Pat
  | .eps => a
  | b => .seq a b

/-- While reading: the number of the next group, and the names of groups. -/
structure PGroups where
  next : Nat := 1
  names : List (Str × Nat) := []
deriving Repr, DecidableEq

mutual
/-- Alternatives. -/
def pAlt : Nat → PGroups → Str → Option (Pat × PGroups × Str)
  | 0, _, _ => none
  | f + 1, g, s => match pSeq f g s with
    | some (a, g, '|' :: r) => match pAlt f g r with
      | some (b, g, r) => some (.alt a b, g, r)
      | none => none
    | x => x
/-- A sequence of items with their quantifiers. -/
def pSeq : Nat → PGroups → Str → Option (Pat × PGroups × Str)
  | 0, _, _ => none
  | f + 1, g, s => match s with
    | [] => some (.eps, g, [])
    | '|' :: r => some (.eps, g, '|' :: r)
    | ')' :: r => some (.eps, g, ')' :: r)
    | s => match pItem f g s with
      | some (a, g, r) => match pQuant a r with
        | some (a, r) => match pSeq f g r with
          | some (b, g, r) => some (mkPatSeq a b, g, r)
          | none => none
        | none => none
      | none => none
/-- One item. -/
def pItem : Nat → PGroups → Str → Option (Pat × PGroups × Str)
  | 0, _, _ => none
  | f + 1, g, s => match s with
    | '(' :: '?' :: ':' :: r => match pAlt f g r with
      | some (a, g, ')' :: r) => some (a, g, r)
      | _ => none
    | '(' :: '?' :: '!' :: '^' :: ')' :: r => some (.notBos, g, r)
    | '(' :: '?' :: 'P' :: '<' :: r =>
      match pAlt f ⟨g.next + 1, g.names ++ [(r.takeWhile (· ≠ '>'), g.next)]⟩ ((r.dropWhile (· ≠ '>')).drop 1) with
      | some (a, g', ')' :: r) => some (.grp g.next a, g', r)
      | _ => none
    | '(' :: '?' :: _ => none
    | '(' :: r => match pAlt f ⟨g.next + 1, g.names⟩ r with
      | some (a, g', ')' :: r) => some (.grp g.next a, g', r)
      | _ => none
    | '[' :: '^' :: r => (pClass r).map fun x => (.set true x.1, g, x.2)
    | '[' :: r => (pClass r).map fun x => (.set false x.1, g, x.2)
    | '.' :: r => some (.any, g, r)
    | '^' :: r => some (.bos, g, r)
    | '$' :: r => some (.eos, g, r)
    | '\\' :: c :: r => (escItem c).map fun i => (.set false [i], g, r)
    | c :: r => if c ∈ s%"*+?{)\\" then none else some (.chr c, g, r)
    | [] => none
end

/-- `re.compile` -/
def parsePattern (s : Str) : Option (Pat × List (Str × Nat)) :=
  match pAlt (3 * s.length + 3) {} s with
  | some (a, g, []) => some (a, g.names)
  | _ => none

/-! ## Matching -/

/-- `re.IGNORECASE`, and what `\w` matches. -/
structure ReFlags where
  ignoreCase : Bool := false
  isWord : Char → Bool := fun _ => false

def CItem.test (E : ReFlags) : CItem → Char → Bool
  | .chr a, c => c == a
  | .range a b, c => a.toNat ≤ c.toNat && c.toNat ≤ b.toNat
  | .digit, c => isPyDigit c
  | .space, c => isPySpace c
  | .word, c => E.isWord c

/-- `[A-Z]` for `[a-z]` -/
def ciUpper (c : Char) : Char := if isLowerAZ c then Char.ofNat (c.toNat - 32) else c

/-- The same with `re.IGNORECASE`: the character, or the same letter in the other case.  (`\d`, `\s` and `\w` are the same in both cases.) -/
def CItem.testCi (E : ReFlags) (i : CItem) (c : Char) : Bool :=
  i.test E c || i.test E (ciFold c) ||
    match i with
    | .chr _ | .range _ _ => i.test E (ciUpper (ciFold c))
    | _ => false

/-- Is the character in the class? -/
def setTest (E : ReFlags) (neg : Bool) (items : List CItem) (c : Char) : Bool :=
  (items.any fun i => if E.ignoreCase then i.testCi E c else i.test E c) != neg

/-- While matching: the text that is left, and the groups closed so far, the last one first. -/
structure MSt where
  rest : Str
  caps : List (Nat × Str) := []
deriving Repr, DecidableEq

/-- The group `n`, opened at `s`, is closed. -/
def MSt.close (n : Nat) (s s' : MSt) : MSt := { s' with caps := (n, s.rest.take (s.rest.length - s'.rest.length)) :: s'.caps }

/-- As many times as possible first.  `fuel`: the length of the text that is left. -/
def starRun (f : MSt → List MSt) : Nat → MSt → List MSt
  | 0, s => [s]
  | fuel + 1, s => ((f s).filter fun s' => s'.rest.length < s.rest.length).flatMap (starRun f fuel) ++ [s]

/-- All the ways to match the pattern at the start of what is left, in the order in which the matcher tries them.  `len`: the length of the
    whole text.  (A repetition is not continued after matching the empty text, which happens in none of the patterns.) -/
def Pat.run (E : ReFlags) (len : Nat) : Pat → MSt → List MSt
  | .eps, s => [s]
  | .set neg items, s => match s.rest with
    | c :: r => if setTest E neg items c then [{ s with rest := r }] else []
    | [] => []
  | .seq a b, s => (run E len a s).flatMap (run E len b)
  | .alt a b, s => run E len a s ++ run E len b s
  | .star a, s => starRun (run E len a) s.rest.length s
  | .grp n a, s => (run E len a s).map (s.close n)
  | .bos, s => if s.rest.length = len then [s] else []
  | .eos, s => if s.rest = [] ∨ s.rest = ['\n'] then [s] else []
  | .notBos, s => if s.rest.length = len then [] else [s]

/-- `pattern.match(text)`: the first way that works -/
def Pat.first (E : ReFlags) (p : Pat) (s : Str) : Option MSt := (p.run E s.length ⟨s, []⟩).head?

/-- `match.group(n)`; `none` for a group that took no part -/
def MSt.group (n : Nat) (m : MSt) : Option Str := m.caps.lookup n

/-- `pattern.sub(repl, text)`, for a pattern that does not match the empty text -/
def Pat.subGo (E : ReFlags) (p : Pat) (repl : MSt → Str) (len : Nat) : Nat → Str → Str
  | 0, s => s
  | fuel + 1, s => match (p.run E len ⟨s, []⟩).head? with
    | some m => repl m ++ subGo E p repl len fuel m.rest
    | none => match s with
      | c :: r => c :: subGo E p repl len fuel r
      | [] => []
def Pat.sub (E : ReFlags) (p : Pat) (repl : MSt → Str) (s : Str) : Str := p.subGo E repl s.length s.length s

/-- `re.compile(text, flags).match(s)` -/
def pyMatch (E : ReFlags) (text s : Str) : Option MSt := (parsePattern text).bind fun p => p.1.first E s

/-- `re.compile(text).sub(repl, s)` -/
def pySub (E : ReFlags) (text : Str) (repl : MSt → Str) (s : Str) : Option Str := (parsePattern text).map fun p => p.1.sub E repl s

end Spdx
