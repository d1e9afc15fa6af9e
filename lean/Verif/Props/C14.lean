import Verif.Lemmas.Messages
import Verif.Spec.Example
/-
C14 – Snippet ranges of valid documents are proper.
-/
namespace Spdx.C14
open Spdx Spec

theorem ranges_proper (X : Ext) (d : Document) (ver : Option Str) (h : validateDocument X d ver = [])
    (s : Snippet) (hs : s ∈ d.snippets) :
    1 ≤ s.byteRange.1 ∧ s.byteRange.1 ≤ s.byteRange.2 ∧
    ∀ a b, s.lineRange = some (a, b) → 1 ≤ a ∧ a ≤ b := by
  have v := ((validateDocument_nil X d ver).1 h).1
  obtain ⟨-, -, -, -, h1, h2, h3, -⟩ := v.parts.snippets s hs
  exact ⟨h1, h2, fun a b h => h3 (a, b) h⟩

/-- Each of the four range conditions has its own message: a snippet's range messages are empty exactly when its ranges are proper,
    whatever the document. -/
theorem snippet_iff (X : Ext) (s : Snippet) (d : Document) (ver : Str) :
    validateSnippetInDocument X s ver d = [] ↔ SnippetRule X (ver = s%"SPDX-2.2") d s :=
  validateSnippetInDocument_nil X s ver d

/-! Non-vacuity -/
example : validateDocument Example.ext Example.doc none = [] ∧ Example.doc.snippets = [Example.snippet] ∧
    Example.snippet.lineRange = some (1, 3) := by decide +kernel
example : validateDocument Example.ext { Example.doc with snippets := [{ Example.snippet with lineRange := some (0, 3) }] } none ≠ [] := by
  decide +kernel
example : validateDocument Example.ext { Example.doc with snippets := [{ Example.snippet with byteRange := (4, 3) }] } none ≠ [] := by
  decide +kernel

end Spdx.C14
