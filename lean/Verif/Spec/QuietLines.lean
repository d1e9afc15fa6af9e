import Verif.Model.TagValueParser
/-
Blank lines and comments, and the places in a tag-value text where they may be put, for C82.
-/
namespace Spdx.Spec

/-- The lexer gets to the rest `b` of a text: after some of its rules, the next one starts there. -/
inductive Reaches : Str → Str → Prop
  | here (b : Str) : Reaches b b
  | step {s r b : Str} {t : Option Tok} : lexOne s = some (t, r) → Reaches r b → Reaches s b

/-- Whole lines, each of which is blank, or a comment that may be indented. -/
inductive QuietLines : Str → Prop
  | nil : QuietLines []
  | blank {w c : Str} : (∀ x ∈ w, x = ' ' ∨ x = '\t') → QuietLines c → QuietLines (w ++ '\n' :: c)
  | comment {w body c : Str} : (∀ x ∈ w, x = ' ' ∨ x = '\t') → '\n' ∉ body → QuietLines c → QuietLines (w ++ '#' :: (body ++ '\n' :: c))

/-- The text is empty or ends with a line break. -/
def WholeLines (a : Str) : Prop := a = [] ∨ ∃ l, a = l ++ ['\n']

/-- After every colon there is something other than blanks on the same line. -/
def SameLineValues (a : Str) : Prop := ∀ l m, a = l ++ ':' :: m → ∃ x ∈ m.takeWhile (· ≠ '\n'), isPySpace x = false

/-- The text is empty or starts with something other than a blank or a line break. -/
def StartsPlain (a : Str) : Prop := ∀ x, a.head? = some x → isPySpace x = false

/-- Lines with their values beside the tags, and tags with a text in `<text>` and `</text>` that ends its line. -/
inductive Tidy : Str → Prop
  | nil : Tidy []
  | plain {a c : Str} : WholeLines a → SameLineValues a → ¬ s%"<text>" <:+: a → StartsPlain c → Tidy c → Tidy (a ++ c)
  | block {key w content c : Str} : (∀ x ∈ key, isLetterAZ x = true) → key ≠ [] → (∀ x ∈ w, isPySpace x = true) →
      ¬ s%"</text>" <:+: content ++ s%"</text" → StartsPlain c → Tidy c →
      Tidy (key ++ ':' :: (w ++ s%"<text>" ++ content ++ s%"</text>" ++ ['\n']) ++ c)

end Spdx.Spec
