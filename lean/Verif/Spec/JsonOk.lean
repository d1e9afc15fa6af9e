import Verif.Model.JsonWriter
import Verif.Props.C05
/-
Which documents survive being written in the JSON form and read back unchanged.  Each condition excludes a case that the format (or
the reader) really cannot represent.
-/
namespace Spdx

/-- The text is not one of the reserved words `NOASSERTION` and `NONE`. -/
def Unreserved (s : Str) : Prop := s ≠ s%"NOASSERTION" ∧ s ≠ s%"NONE"

/-- A date without time zone, to the second: what an SPDX date text denotes. -/
def DateOk (t : DateTime) : Prop := t.Valid ∧ t.tz = none ∧ t.micro = 0

/-- A license expression that the license library reads back from its text, where the text is not empty and not a reserved word
    in any letter case. -/
def LicOk (L : LicText) (e : LicExpr) : Prop :=
  L.parse (L.render e) = some (some e) ∧ L.render e ≠ [] ∧ Unreserved (upperAscii (L.render e))

structure CreationInfoOk (c : CreationInfo) : Prop where
  creators : c.creators ≠ []
  actors : ∀ a ∈ c.creators, C05.Expressible a
  created : DateOk c.created

structure FileOk (L : LicText) (f : File) : Prop where
  checksums : f.checksums ≠ []
  concluded : ∀ e, f.licenseConcluded = some (.val e) → LicOk L e
  info : ∀ e, .val e ∈ f.licenseInfoInFile → LicOk L e
  copyright : ∀ s, f.copyrightText = some (.val s) → Unreserved s

structure PackageOk (L : LicText) (p : Package) : Prop where
  download : ∀ s, p.downloadLocation = .val s → Unreserved s
  homepage : ∀ s, p.homepage = some (.val s) → Unreserved s
  copyright : ∀ s, p.copyrightText = some (.val s) → Unreserved s
  concluded : ∀ e, p.licenseConcluded = some (.val e) → LicOk L e
  declared : ∀ e, p.licenseDeclared = some (.val e) → LicOk L e
  info : ∀ e, .val e ∈ p.licenseInfoFromFiles → LicOk L e
  supplier : ∀ a, p.supplier = some (.val a) → C05.Expressible a
  originator : ∀ a, p.originator = some (.val a) → C05.Expressible a
  release : ∀ t, p.releaseDate = some t → DateOk t
  built : ∀ t, p.builtDate = some t → DateOk t
  validUntil : ∀ t, p.validUntilDate = some t → DateOk t

structure SnippetOk (L : LicText) (s : Snippet) : Prop where
  concluded : ∀ e, s.licenseConcluded = some (.val e) → LicOk L e
  info : ∀ e, .val e ∈ s.licenseInfoInSnippet → LicOk L e
  copyright : ∀ t, s.copyrightText = some (.val t) → Unreserved t

structure AnnotationOk (a : Annotation) : Prop where
  annotator : C05.Expressible a.annotator
  date : DateOk a.annotationDate

def RelationshipOk (r : Relationship) : Prop := ∀ s, r.relatedSpdxElementId = .val s → Unreserved s

def ExtractedOk (e : ExtractedLicensingInfo) : Prop := ∀ s, e.licenseName = some (.val s) → s ≠ s%"NOASSERTION"

/-- A document that the JSON form represents faithfully. -/
structure JsonOk (L : LicText) (d : Document) : Prop where
  info : CreationInfoOk d.creationInfo
  packages : ∀ p ∈ d.packages, PackageOk L p
  files : ∀ f ∈ d.files, FileOk L f
  snippets : ∀ s ∈ d.snippets, SnippetOk L s
  annotations : ∀ a ∈ d.annotations, AnnotationOk a
  relationships : ∀ r ∈ d.relationships, RelationshipOk r
  extracted : ∀ e ∈ d.extractedLicensingInfo, ExtractedOk e
  /-- annotations belong to the document or to an element of it -/
  anchored : ∀ a ∈ d.annotations, a.spdxId = d.creationInfo.spdxId ∨ a.spdxId ∈ containedIds d

/-- The order in which annotations come back: those of the document, then those of each package, file and snippet. -/
def regroup (d : Document) : List Annotation :=
  d.annotations.filter (fun a => a.spdxId ∉ containedIds d) ++
    (d.packages.map (·.spdxId) ++ d.files.map (·.spdxId) ++ d.snippets.map (·.spdxId)).flatMap (fun id => d.annotations.filter (fun a => a.spdxId = id))

end Spdx
