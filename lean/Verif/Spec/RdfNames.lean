import Verif.Model.RdfParser
/- Renaming blank nodes, and the graphs whose texts are not names of blank nodes. -/
namespace Spdx

/-- the node with blank nodes renamed -/
def RdfNode.rename (σ : List Nat → List Nat) : RdfNode → RdfNode
  | .bnode p => .bnode (σ p)
  | n => n

/-- the triple with blank nodes renamed -/
def renameTriple (σ : List Nat → List Nat) (t : Triple) : Triple := (t.1.rename σ, t.2.1, t.2.2.rename σ)

/-- the graph with blank nodes renamed -/
def RdfGraph.rename (σ : List Nat → List Nat) (g : RdfGraph) : RdfGraph := g.map (renameTriple σ)

namespace Spec

/-- The properties whose values are texts, dates, names of constants, … rather than nodes with properties of their own. -/
def textual : Pred → Bool
  | .rdfsComment | .seeAlso | .homepage | .specVersion | .dataLicense | .name | .created | .creator | .licenseListVersion | .spdxDocument
  | .algorithm | .checksumValue | .annotationType | .annotator | .annotationDate | .fileName | .fileType | .licenseComments | .copyrightText
  | .noticeText | .fileContributor | .attributionText | .versionInfo | .packageFileName | .supplier | .originator | .downloadLocation
  | .sourceInfo | .summary | .description | .primaryPackagePurpose | .releaseDate | .builtDate | .validUntilDate
  | .packageVerificationCodeValue | .packageVerificationCodeExcludedFile | .referenceCategory | .referenceType | .referenceLocator
  | .relationshipType | .licenseId | .extractedText | .licenseExceptionId => true
  | _ => false

/-- No textual value is a blank node. -/
def PlainTexts (g : RdfGraph) : Prop := ∀ s p o, (s, p, o) ∈ g → textual p = true → ∀ q, o ≠ .bnode q

end Spec
end Spdx
