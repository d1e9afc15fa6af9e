import Verif.Lemmas.Messages
import Verif.Spec.Example
/-
C13 – Packages without file analysis contain no analysis results.
-/
namespace Spdx.C13
open Spdx Spec

/-- Identifiers of packages and files of a valid document differ. -/
private theorem not_both {X : Ext} {d : Document} (v : Valid X d) (id : Str) (hf : ∃ f ∈ d.files, f.spdxId = id) :
    ¬ ∃ q ∈ d.packages, q.spdxId = id := by
  rintro ⟨q, hq, rfl⟩
  obtain ⟨f, hf, he⟩ := hf
  have h := v.unique
  unfold elementIds at h
  rw [List.nodup_cons, List.nodup_append] at h
  have h := h.2.1
  rw [List.nodup_append] at h
  exact h.2.2 _ (List.mem_map.2 ⟨q, hq, rfl⟩) _ (List.mem_map.2 ⟨f, hf, he⟩) rfl

theorem no_analysis_results (X : Ext) (d : Document) (ver : Option Str) (h : validateDocument X d ver = [])
    (p : Package) (hp : p ∈ d.packages) (hfa : p.filesAnalyzed = false) :
    p.verificationCode = none ∧ p.licenseInfoFromFiles = [] ∧
    ∀ r ∈ d.relationships, ∀ f ∈ d.files,
      ¬ (r.relationshipType = .CONTAINS ∧ r.spdxElementId = p.spdxId ∧ r.relatedSpdxElementId = .val f.spdxId) ∧
      ¬ (r.relationshipType = .CONTAINED_BY ∧ r.spdxElementId = f.spdxId ∧ r.relatedSpdxElementId = .val p.spdxId) := by
  have v := ((validateDocument_nil X d ver).1 h).1
  obtain ⟨h1, h2, h3⟩ := (v.parts.packages p hp).2.1 hfa
  refine ⟨h3, h2, fun r hr f hf => ?_⟩
  have hl := h1 r hr
  unfold LinksFile at hl
  constructor
  · rintro ⟨a, b, c⟩
    exact hl (.inl ⟨a, b, f.spdxId, c, ⟨f, hf, rfl⟩, not_both v _ ⟨f, hf, rfl⟩⟩)
  · rintro ⟨a, b, c⟩
    exact hl (.inr ⟨a, c, ⟨f, hf, b.symm⟩, not_both v _ ⟨f, hf, b.symm⟩⟩)

/-! Non-vacuity: the example document has such a package; giving it a file makes validation fail. -/
example : validateDocument Example.ext Example.doc none = [] ∧ Example.barePackage ∈ Example.doc.packages ∧
    Example.barePackage.filesAnalyzed = false := by decide +kernel
example : validateDocument Example.ext
    { Example.doc with relationships := Example.doc.relationships ++
      [{ spdxElementId := s%"SPDXRef-Bare", relationshipType := .CONTAINS, relatedSpdxElementId := .val s%"SPDXRef-File" }] }
    none ≠ [] := by decide +kernel

end Spdx.C13
