import Verif.Py.Text
/-
The names of the members of an enumeration, taken from the declaration itself rather than from a table: `repr` is derived by Lean, and gives
the name of the constructor.
-/
namespace Spdx.Spec
open Spdx

/-- The text in a formatted piece of text without line breaks. -/
def plainText : Std.Format → String
  | .text s => s
  | .nest _ f => plainText f
  | .group f _ => plainText f
  | .append a b => plainText a ++ plainText b
  | .tag _ f => plainText f
  | .nil => ""
  | .line => " "
  | .align _ => " "

/-- `name` gives every member of the enumeration `cls` the name it is declared with. -/
def Named {α : Type} [Repr α] (cls : Str) (name : α → Str) : Prop :=
  ∀ a, (plainText (repr a)).toList = s%"Spdx." ++ cls ++ s%"." ++ name a

end Spdx.Spec
