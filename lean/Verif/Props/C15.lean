import Verif.Lemmas.Messages
import Verif.Spec.Example
/-
C15 – SPDX-2.2 validation admits no 2.3-only feature.
-/
namespace Spdx.C15
open Spdx Spec

/-! ### Specification -/

/-- Checksum algorithms introduced by SPDX-2.3. -/
def newAlgorithms : List ChecksumAlgorithm :=
  [.SHA3_256, .SHA3_384, .SHA3_512, .BLAKE2B_256, .BLAKE2B_384, .BLAKE2B_512, .BLAKE3, .ADLER32]

/-- Every checksum in the document. -/
def allChecksums (d : Document) : List Checksum :=
  d.creationInfo.externalDocumentRefs.map (·.checksum) ++ d.packages.flatMap (·.checksums) ++ d.files.flatMap (·.checksums)

/-! ### Theorems -/

private theorem valid22 {X : Ext} {d : Document} {ver : Option Str} (h : validateDocument X d ver = [])
    (hv : d.creationInfo.spdxVersion = s%"SPDX-2.2") : Parts X True d := by
  have v := ((validateDocument_nil X d ver).1 h).1.parts
  rw [hv] at v
  have e : (s%"SPDX-2.2" = s%"SPDX-2.2") = True := by simp
  rw [e] at v
  exact v

private theorem rule_old {c : Checksum} (h : ChecksumRule True c) : c.algorithm ∉ newAlgorithms := by
  have h := h.1
  revert h
  cases c.algorithm <;> simp [Only23, newAlgorithms]

/-- No checksum anywhere uses an algorithm introduced by 2.3. -/
theorem no_new_algorithm (X : Ext) (d : Document) (ver : Option Str) (h : validateDocument X d ver = [])
    (hv : d.creationInfo.spdxVersion = s%"SPDX-2.2") (c : Checksum) (hc : c ∈ allChecksums d) :
    c.algorithm ∉ newAlgorithms := by
  have v := valid22 h hv
  unfold allChecksums at hc
  rcases List.mem_append.1 hc with hc | hc
  · rcases List.mem_append.1 hc with hc | hc
    · obtain ⟨r, hr, rfl⟩ := List.mem_map.1 hc
      exact rule_old (v.creationInfo.2.2.2.2 r hr).2.2
    · obtain ⟨p, hp, hc⟩ := List.mem_flatMap.1 hc
      obtain ⟨-, -, -, -, -, -, -, -, hk, -⟩ := v.packages p hp
      exact rule_old (hk c hc)
  · obtain ⟨f, hf, hc⟩ := List.mem_flatMap.1 hc
    obtain ⟨-, -, -, -, -, hk, -⟩ := v.files f hf
    exact rule_old (hk c hc)

/-- Packages have no 2.3-only field or reference type and every field mandatory in 2.2. -/
theorem packages22 (X : Ext) (d : Document) (ver : Option Str) (h : validateDocument X d ver = [])
    (hv : d.creationInfo.spdxVersion = s%"SPDX-2.2") (p : Package) (hp : p ∈ d.packages) :
    p.primaryPackagePurpose = none ∧ p.builtDate = none ∧ p.releaseDate = none ∧ p.validUntilDate = none ∧
    p.licenseConcluded ≠ none ∧ p.licenseDeclared ≠ none ∧ p.copyrightText ≠ none ∧
    ∀ r ∈ p.externalReferences, r.category ≠ .OTHER →
      r.referenceType ∉ [s%"advisory", s%"fix", s%"url", s%"swid"] := by
  have v := valid22 h hv
  obtain ⟨-, -, -, -, -, -, -, -, -, hr, h22⟩ := v.packages p hp
  obtain ⟨a, b, c, e, f, g, i⟩ := h22 trivial
  refine ⟨a, b, c, e, f, g, i, fun r hm hc => ?_⟩
  have := hr r hm
  unfold ExternalPackageRefRule at this
  rw [if_neg hc] at this
  have := this.1
  unfold RefOnly23 at this
  simpa using this

theorem files22 (X : Ext) (d : Document) (ver : Option Str) (h : validateDocument X d ver = [])
    (hv : d.creationInfo.spdxVersion = s%"SPDX-2.2") (f : File) (hf : f ∈ d.files) :
    f.licenseConcluded ≠ none ∧ f.licenseInfoInFile ≠ [] ∧ f.copyrightText ≠ none :=
  ((valid22 h hv).files f hf).2.2.2.2.2.2 trivial

theorem snippets22 (X : Ext) (d : Document) (ver : Option Str) (h : validateDocument X d ver = [])
    (hv : d.creationInfo.spdxVersion = s%"SPDX-2.2") (s : Snippet) (hs : s ∈ d.snippets) :
    s.licenseConcluded ≠ none ∧ s.copyrightText ≠ none :=
  ((valid22 h hv).snippets s hs).2.2.2.2.2.2.2 trivial

theorem relationships22 (X : Ext) (d : Document) (ver : Option Str) (h : validateDocument X d ver = [])
    (hv : d.creationInfo.spdxVersion = s%"SPDX-2.2") (r : Relationship) (hr : r ∈ d.relationships) :
    r.relationshipType ≠ .SPECIFICATION_FOR ∧ r.relationshipType ≠ .REQUIREMENT_DESCRIPTION_FOR := by
  have := ((valid22 h hv).relationships r hr).2.2
  simpa using this

/-! Non-vacuity: the 2.2 version of the example validates; a 2.3 feature in it does not. -/
example : validateDocument Example.ext Example.doc22 none = [] ∧ Example.doc22.creationInfo.spdxVersion = s%"SPDX-2.2" := by
  decide +kernel
example : validateDocument Example.ext { Example.doc with creationInfo := { Example.info with spdxVersion := s%"SPDX-2.2" } } none ≠ [] := by
  decide +kernel

end Spdx.C15
