import Verif.Py.Text
/-
Regular expressions without look-around and back references.  Only whether there is a match matters to the code modelled, so
the greedy/lazy distinction is irrelevant: `re.match(r, s)` succeeds iff some prefix of `s` is in the language of `r`.
-/
namespace Spdx

/-- Regular expressions over characters. -/
inductive Re where
  | empty
  | eps
  | set (p : Char → Bool)
  | seq (a b : Re)
  | alt (a b : Re)
  | star (a : Re)

namespace Re

/-- The language of a regular expression. -/
inductive Matches : Re → Str → Prop where
  | eps : Matches .eps []
  | set {p c} : p c = true → Matches (.set p) [c]
  | seq {a b s t} : Matches a s → Matches b t → Matches (.seq a b) (s ++ t)
  | altL {a b s} : Matches a s → Matches (.alt a b) s
  | altR {a b s} : Matches b s → Matches (.alt a b) s
  | starNil {a} : Matches (.star a) []
  | starCons {a s t} : Matches a s → Matches (.star a) t → Matches (.star a) (s ++ t)

/-- Does the language contain the empty text? -/
def nullable : Re → Bool
  | .empty => false
  | .eps => true
  | .set _ => false
  | .seq a b => nullable a && nullable b
  | .alt a b => nullable a || nullable b
  | .star _ => true

/-- Sequence and alternative with the obvious simplifications (keeps derivatives small). -/
def mkSeq : Re → Re → Re
  | .empty, _ => .empty
  | .eps, b => b
  | a, .empty => let _ := a; .empty
  | a, b => .seq a b
def mkAlt : Re → Re → Re
  | .empty, b => b
  | a, .empty => a
  | a, b => .alt a b

/-- Brzozowski derivative: the texts `t` with `c :: t` in the language. -/
def deriv (c : Char) : Re → Re
  | .empty => .empty
  | .eps => .empty
  | .set p => if p c then .eps else .empty
  | .seq a b => if nullable a then mkAlt (mkSeq (deriv c a) b) (deriv c b) else mkSeq (deriv c a) b
  | .alt a b => mkAlt (deriv c a) (deriv c b)
  | .star a => mkSeq (deriv c a) (.star a)

/-- `re.fullmatch` -/
def full (r : Re) : Str → Bool
  | [] => r.nullable
  | c :: cs => full (r.deriv c) cs

/-- `re.match` without an end anchor: some prefix is in the language. -/
def pref (r : Re) : Str → Bool
  | [] => r.nullable
  | c :: cs => r.nullable || pref (r.deriv c) cs

/-- `re.match` of `^r$`: `$` also matches before a final newline. -/
def anchored (r : Re) (s : Str) : Bool := dollar r.full s

/-- The one character `c`. -/
def chr (c : Char) : Re := .set (· == c)
/-- A literal text. -/
def lit : Str → Re
  | [] => .eps
  | [c] => chr c
  | c :: cs => .seq (chr c) (lit cs)
/-- `r+` -/
def plus (r : Re) : Re := .seq r (.star r)
/-- `r?` -/
def opt (r : Re) : Re := .alt .eps r
/-- `r{n}` -/
def rep (r : Re) : Nat → Re
  | 0 => .eps
  | n + 1 => .seq r (rep r n)
/-- `r{0,n}` -/
def upTo (r : Re) : Nat → Re
  | 0 => .eps
  | n + 1 => .alt .eps (.seq r (upTo r n))
/-- `r{n,m}` -/
def between (r : Re) (n m : Nat) : Re := .seq (rep r n) (upTo r (m - n))
/-- Sequence of several. -/
def seqs : List Re → Re
  | [] => .eps
  | [r] => r
  | r :: rs => .seq r (seqs rs)
/-- Alternative of several. -/
def alts : List Re → Re
  | [] => .empty
  | [r] => r
  | r :: rs => .alt r (alts rs)

end Re
end Spdx
