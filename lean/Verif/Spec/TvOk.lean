import Verif.Model.TagValueLexer
/-
Which texts survive being written as a line of a tag-value file and being read again.
-/
namespace Spdx.Spec

/-- The text starts like a date and time. -/
def LooksLikeDate (v : Str) : Prop := (matchDate v).isSome
instance (v : Str) : Decidable (LooksLikeDate v) := inferInstanceAs (Decidable (_ = true))

/-- A single-line text which the reader does not take for something else: it is not empty, has no newline, no white space around it, and
    does not start like a multi-line text, a checksum, an actor or a date. -/
def OneLine (v : Str) : Prop :=
  v ≠ [] ∧ '\n' ∉ v ∧ strip v = v ∧ ¬ s%"<text>" <+: v ∧ (∀ n ∈ checksumNames, ¬ (n ++ [':']) <+: v) ∧
  (∀ p ∈ [s%"Tool:", s%"Organization:", s%"Person:"], ¬ p <+: v) ∧ ¬ LooksLikeDate v
instance (v : Str) : Decidable (OneLine v) := inferInstanceAs (Decidable (_ ∧ _))

/-- … and is not a reserved word. -/
def Plain (v : Str) : Prop := OneLine v ∧ v ∉ tvTags ∧ v ≠ s%"NONE" ∧ v ≠ s%"NOASSERTION"
instance (v : Str) : Decidable (Plain v) := inferInstanceAs (Decidable (_ ∧ _))

/-- A text that may have several lines, and is then written between `<text>` and `</text>`. -/
def FreeText (v : Str) : Prop := if '\n' ∈ v then ¬ s%"</text>" <:+: v else OneLine v ∧ v ∉ tvTags
instance (v : Str) : Decidable (FreeText v) := by unfold FreeText; infer_instance

end Spdx.Spec
