import Verif.Lemmas.Messages
import Verif.Spec.Example
/-
C47 – Validation accepts exactly the documents meeting the listed rules.
-/
namespace Spdx.C47
open Spdx Spec

/-- `Spec.Valid` lists the rules in terms of the data model (`Verif/Spec/Valid.lean`). -/
theorem valid_iff (X : Ext) (d : Document) (ver : Option Str) :
    validateDocument X d ver = [] ↔
      Valid X d ∧ (ver = none ∨ ver = some [] ∨ ver = some d.creationInfo.spdxVersion) :=
  validateDocument_nil X d ver

/-! Non-vacuity: both outcomes occur. -/
example : validateDocument Example.ext Example.doc none = [] := by decide +kernel
example : Valid Example.ext Example.doc := ((valid_iff _ _ _).1 (by decide +kernel : validateDocument Example.ext Example.doc none = [])).1
example : ¬ Valid Example.ext { Example.doc with files := [Example.file, Example.file] } := fun h =>
  absurd ((valid_iff Example.ext _ none).2 ⟨h, .inl rfl⟩) (by decide +kernel)

end Spdx.C47
