import Verif.Model.Spdx3
/- The elements of migrated documents that contain nothing the vocabulary of SPDX 3 does not know. -/
namespace Spdx.Spec.Vocab
open Spdx

/-- the algorithms whose names the vocabulary does not know as they are written -/
def unknownAlgorithms : List HashAlgorithm :=
  [.BLAKE2B256, .BLAKE2B384, .BLAKE2B512, .SHA3_224, .SHA3_256, .SHA3_384, .SHA3_512, .SPDXPVCSHA1, .SPDXPVCSHA256]

/-- the elements that are understood -/
def Plain : Element3 → Prop
  | .document d => (∀ s ∈ d.creationInfo.createdUsing, s = []) ∧ ∀ m ∈ d.imports, ∀ h ∈ m.verifiedUsing, h.algorithm ∉ unknownAlgorithms
  | .agent a => (∀ c ∈ a.creationInfo, ∀ s ∈ c.createdUsing, s = []) ∧ ∀ i ∈ a.externalIdentifier, i.type ≠ .PURL
  | .package p => (∀ h ∈ p.verifiedUsing, h.algorithm ∉ unknownAlgorithms) ∧ (∀ i ∈ p.externalIdentifier, i.type ≠ .PURL) ∧
      p.primaryPurpose = none ∧ (p.homepage = none ∨ p.homepage = some [])
  | .file f => ∀ h ∈ f.verifiedUsing, h.algorithm ∉ unknownAlgorithms
  | .snippet _ => True
  | .relationship r => r.completeness ≠ some .NOASSERTION ∧ ∀ s ∈ r.software, s.1 ≠ some .BUILD
  | .annotation a => ∀ s ∈ a.creationInfo.createdUsing, s = []

/-- the checksums of a document that are migrated -/
def checksums (d : Document) : List Checksum :=
  d.creationInfo.externalDocumentRefs.map (·.checksum) ++ d.packages.flatMap (·.checksums) ++ d.files.flatMap (·.checksums)

/-- the package URLs among the external references of a package -/
def purls (p : Package) : List ExternalPackageRef := p.externalReferences.filter (·.referenceType = s%"purl")

/-- A document of SPDX 2 without what gets lost: a tool among the creators, a checksum of the families SHA3 and BLAKE2b, a purpose, a
    homepage, a second package URL or one with a comment, a dependency at build time, a relationship to NOASSERTION. -/
structure PlainDocument (d : Document) : Prop where
  creators : ∀ a ∈ d.creationInfo.creators, a.actorType ≠ .TOOL
  checksums : ∀ c ∈ checksums d, c.algorithm ∉ [.SHA3_256, .SHA3_384, .SHA3_512, .BLAKE2B_256, .BLAKE2B_384, .BLAKE2B_512]
  purpose : ∀ p ∈ d.packages, p.primaryPackagePurpose = none
  homepage : ∀ p ∈ d.packages, p.homepage = none ∨ p.homepage = some (.val [])
  purls : ∀ p ∈ d.packages, purls p = [] ∨ ∃ r, purls p = [r] ∧ r.comment = none
  scope : ∀ r ∈ d.relationships, r.relationshipType ∉ [.BUILD_DEPENDENCY_OF, .BUILD_TOOL_OF, .PROVIDED_DEPENDENCY_OF]
  completeness : ∀ r ∈ d.relationships, r.relatedSpdxElementId ≠ .noAssertion

end Spdx.Spec.Vocab
