import Verif.Spec.QuietLines
/-
Tag-value texts with the same entries, for C88.
-/
namespace Spdx.Spec

/-- Blanks and tabs. -/
def Blanks (w : Str) : Prop := ∀ x ∈ w, x = ' ' ∨ x = '\t'

/-- A tag: one or more of the letters a-z and A-Z. -/
def TagWord (k : Str) : Prop := k ≠ [] ∧ ∀ x ∈ k, isLetterAZ x = true

/-- A value on one line: it begins and ends with something other than white space, does not end with a colon and has no `<text>` in it. -/
structure LineValue (v : Str) : Prop where
  one_line : '\n' ∉ v
  no_text : ¬ s%"<text>" <:+: v
  first : ∃ c, v.head? = some c ∧ isPySpace c = false
  last : ∃ c, v.getLast? = some c ∧ isPySpace c = false ∧ c ≠ ':'

/-- The end of the text or of the line. -/
def LineOver (x : Str) : Prop := x = [] ∨ x.head? = some '\n'

/-- The text has these entries, tags and values, one after the other: on lines of their own or with texts in `<text>` and `</text>`, with any
    blanks before the tag, around the colon (before a text also line breaks and other white space) and after the value, and with any blank lines
    and comments between them.  The last line need not end with a line break. -/
inductive Entries : List (Str × Str) → Str → Prop
  | done {w : Str} : Blanks w → Entries [] w
  | remark {w body : Str} : Blanks w → '\n' ∉ body → Entries [] (w ++ '#' :: body)
  | quiet {c t : Str} {es : List (Str × Str)} : QuietLines c → Entries es t → Entries es (c ++ t)
  | line {i k g h v w x : Str} {es : List (Str × Str)} : Blanks i → TagWord k → Blanks g → Blanks h → LineValue v → Blanks w → LineOver x → Entries es x →
      Entries ((k, v) :: es) (i ++ (k ++ (g ++ ':' :: (h ++ (v ++ (w ++ x))))))
  | text {i k g h content w x : Str} {es : List (Str × Str)} : Blanks i → TagWord k → Blanks g → (∀ c ∈ h, isPySpace c = true) →
      ¬ s%"</text>" <:+: content ++ s%"</text" → Blanks w → LineOver x → Entries es x →
      Entries ((k, s%"<text>" ++ content ++ s%"</text>") :: es) (i ++ (k ++ (g ++ ':' :: (h ++ (s%"<text>" ++ (content ++ s%"</text>" ++ (w ++ x)))))))

end Spdx.Spec
