import Verif.Py.Text
/-
Texts that differ in how their lines end only, for C87.
-/
namespace Spdx.Spec

/-- The ways to end a line: a line feed, a carriage return and a line feed, or a carriage return that no line feed follows. -/
def LineEnd (e rest : Str) : Prop := e = ['\n'] ∨ e = ['\r', '\n'] ∨ (e = ['\r'] ∧ rest.head? ≠ some '\n')

/-- The same lines. -/
inductive SameLines : Str → Str → Prop where
  | last {l} : (∀ c ∈ l, c ≠ '\r' ∧ c ≠ '\n') → SameLines l l
  | line {l e e' t t'} : (∀ c ∈ l, c ≠ '\r' ∧ c ≠ '\n') → LineEnd e t → LineEnd e' t' → SameLines t t' →
      SameLines (l ++ (e ++ t)) (l ++ (e' ++ t'))

end Spdx.Spec
