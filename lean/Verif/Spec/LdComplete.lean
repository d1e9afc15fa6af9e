import Verif.Spec.LdMeaning
import Verif.Spec.LdPlain
import Verif.Model.DocumentUtils
/- How often the vocabulary of SPDX 3 wants properties, and which migrated elements and documents give them that often. -/
namespace Spdx.Spec.Vocab
open Spdx

/-! ### The shapes of the vocabulary -/

/-- the values an object has for a property -/
def propertyValues (fs : List (Str × Json)) (p : Str) : List Json :=
  (fs.filter fun f => termIri contextFile f.1 = some p).flatMap fun f => values f.2

/-- An object has every property as often as its class and the classes above it want (`sh:minCount`, `sh:maxCount`). -/
def CountsOk (fs : List (Str × Json)) (c : Str) : Prop :=
  ∀ n ∈ owlGraph, SubClass c (owlIri n.id) → ∀ s ∈ n.shapes,
    s.minCount ≤ (propertyValues fs (owlIri s.path)).length ∧ ∀ m, s.maxCount = some m → (propertyValues fs (owlIri s.path)).length ≤ m

/-- every object in a tree has a class and its properties as often as the vocabulary wants -/
def Complete (j : Json) : Prop :=
  ∀ fs ∈ objects j, ∃ t c, fs.lookup s%"@type" = some (.str t) ∧ termIri contextFile t = some c ∧ CountsOk fs c

/-! ### Elements -/

/-- there is a text that is not empty -/
def Some1 (l : List Str) : Prop := ∃ s ∈ l, s ≠ []

/-- the elements that have all they need -/
def Full : Element3 → Prop
  | .document d => Some1 d.creationInfo.createdBy ∧ d.name ≠ [] ∧ Some1 d.element ∧ Some1 d.rootElement ∧
      (∀ m ∈ d.namespaces, m.nsPrefix ≠ [] ∧ m.namespaceIri ≠ []) ∧
      ∀ m ∈ d.imports, m.externalId ≠ [] ∧ ∀ h ∈ m.verifiedUsing, h.hashValue ≠ []
  | .agent a => (∀ c ∈ a.creationInfo, Some1 c.createdBy) ∧ ∀ i ∈ a.externalIdentifier, i.identifier ≠ []
  | .package p => (∀ h ∈ p.verifiedUsing, h.hashValue ≠ []) ∧ ∀ i ∈ p.externalIdentifier, i.identifier ≠ []
  | .file f => ∀ h ∈ f.verifiedUsing, h.hashValue ≠ []
  | .snippet s => (s.byteRange.1 ≠ 0 ∧ s.byteRange.2 ≠ 0) ∧ ∀ r ∈ s.lineRange, r.1 ≠ 0 ∧ r.2 ≠ 0
  | .relationship r => r.fromElement ≠ []
  | .annotation a => Some1 a.creationInfo.createdBy ∧ a.subject ≠ []

/-! ### Documents -/

/-- the reference becomes an external identifier: some types of references do, and package URLs unless there is just one without a comment -/
def IsIdentifier (p : Package) (r : ExternalPackageRef) : Prop :=
  r.referenceType ∈ [s%"cpe22Type", s%"cpe23Type", s%"swid", s%"swh", s%"gitoid"] ∨
    (r.referenceType = s%"purl" ∧ ¬ (purls p = [r] ∧ r.comment = none))

/-- A document of SPDX 2 that has all SPDX 3 asks for: a name, a creator that is not a tool, a relationship saying what the document
    describes, and no empty values where values are wanted. -/
structure FullDocument (d : Document) : Prop where
  name : d.creationInfo.name ≠ []
  creator : ∃ a ∈ d.creationInfo.creators, a.actorType ≠ .TOOL
  root : ∃ r ∈ d.relationships, r.relationshipType = .DESCRIBES ∧ r.spdxElementId = s%"SPDXRef-DOCUMENT"
  references : ∀ r ∈ d.creationInfo.externalDocumentRefs, r.documentRefId ≠ []
  checksums : ∀ c ∈ checksums d, c.value ≠ []
  identifiers : ∀ p ∈ d.packages, ∀ r ∈ p.externalReferences, IsIdentifier p r → r.locator ≠ []
  ranges : ∀ s ∈ d.snippets, s.byteRange.1 ≠ 0 ∧ s.byteRange.2 ≠ 0 ∧ ∀ r, s.lineRange = some r → r.1 ≠ 0 ∧ r.2 ≠ 0

end Spdx.Spec.Vocab
