import Verif.Spec.TvOk
import Verif.Spec.JsonOk
/-
Which documents survive being written as tag-value text and being read again.  Each condition excludes a case that the format, or the
program's reader or writer, cannot represent.
-/
namespace Spdx.Spec

/-- A license expression (or NONE, or NOASSERTION): the license library reads it back from its text, which the reader takes for a line. -/
def LicTv (L : LicText) (x : OrSpecial LicExpr) : Prop :=
  ∀ e, x = .val e → Plain (L.render e) ∧ L.parse (L.render e) = some (some e)

/-- A text (or NONE, or NOASSERTION) that is written on one line. -/
def LineTv (x : OrSpecial Str) : Prop := ∀ s, x = .val s → Plain s

/-- A text (or NONE, or NOASSERTION) that may have several lines. -/
def TextTv (x : OrSpecial Str) : Prop := ∀ s, x = .val s → FreeText s ∧ s ≠ s%"NONE" ∧ s ≠ s%"NOASSERTION"

/-- A checksum: the value has lower-case hexadecimal digits only. -/
def ChecksumTv (c : Checksum) : Prop := c.value ≠ [] ∧ ∀ x ∈ c.value, isLowerHex x = true

/-- A reference to another document: the checksum must be a SHA1, nothing may have white space. -/
structure DocRefTv (r : ExternalDocumentRef) : Prop where
  sha1 : r.checksum.algorithm = .SHA1
  length : r.checksum.value.length = 40
  hex : ∀ c ∈ r.checksum.value, isLowerHex c = true
  id : r.documentRefId ≠ [] ∧ ∀ c ∈ r.documentRefId, isPySpace c = false
  uri : r.documentUri ≠ [] ∧ ∀ c ∈ r.documentUri, isPySpace c = false
  line : OneLine (joinWith s%" " [r.documentRefId, r.documentUri, s%"SHA1: " ++ r.checksum.value])

/-- A verification code: a SHA1, and not more than one excluded file, whose name has no comma. -/
structure CodeTv (c : PackageVerificationCode) : Prop where
  length : c.value.length = 40
  hex : ∀ x ∈ c.value, isLowerHex x = true
  files : c.excludedFiles = [] ∨ ∃ f, c.excludedFiles = [f] ∧ f ≠ [] ∧ '\n' ∉ f ∧ ',' ∉ f ∧ ∀ x r, f = x :: r → isPySpace x = false

/-- An external reference of a package. -/
structure ExtRefTv (r : ExternalPackageRef) : Prop where
  type : ' ' ∉ r.referenceType
  locator : ' ' ∉ r.locator
  line : OneLine (joinWith s%" " [replaceChar '_' ['-'] r.category.name, r.referenceType, r.locator])
  comment : ∀ c, r.comment = some c → FreeText c

/-- The line of a relationship. -/
def relationshipLine (r : Relationship) : Str := joinWith s%" " [r.spdxElementId, r.relationshipType.name, r.relatedSpdxElementId.text]

/-- A relationship. -/
structure RelTv (r : Relationship) : Prop where
  line : OneLine (relationshipLine r)
  id : ' ' ∉ r.spdxElementId
  related : ∀ s, r.relatedSpdxElementId = .val s → ' ' ∉ s ∧ s ≠ s%"NONE" ∧ s ≠ s%"NOASSERTION"
  comment : ∀ c, r.comment = some c → FreeText c

structure InfoTv (c : CreationInfo) : Prop where
  version : Plain c.spdxVersion
  dataLicense : Plain c.dataLicense
  id : Plain c.spdxId
  name : Plain c.name
  ns : Plain c.documentNamespace
  comment : ∀ t, c.documentComment = some t → FreeText t
  creatorComment : ∀ t, c.creatorComment = some t → FreeText t
  refs : ∀ r ∈ c.externalDocumentRefs, DocRefTv r
  creators : c.creators ≠ []
  actors : ∀ a ∈ c.creators, C05.Expressible a
  created : DateOk c.created

structure FileTv (L : LicText) (f : File) : Prop where
  name : Plain f.name
  id : Plain f.spdxId
  checksums : f.checksums ≠ []
  checksum : ∀ c ∈ f.checksums, ChecksumTv c
  concluded : ∀ x, f.licenseConcluded = some x → LicTv L x
  info : ∀ x ∈ f.licenseInfoInFile, LicTv L x
  licenseComment : ∀ t, f.licenseComment = some t → FreeText t
  copyright : ∀ x, f.copyrightText = some x → TextTv x
  comment : ∀ t, f.comment = some t → FreeText t
  notice : ∀ t, f.notice = some t → FreeText t
  contributors : ∀ t ∈ f.contributors, Plain t
  attribution : ∀ t ∈ f.attributionTexts, FreeText t

structure PackageTv (L : LicText) (p : Package) : Prop where
  name : Plain p.name
  id : Plain p.spdxId
  download : LineTv p.downloadLocation
  version : ∀ t, p.version = some t → Plain t
  fileName : ∀ t, p.fileName = some t → Plain t
  /-- a tool is not accepted as a supplier -/
  supplier : ∀ a, p.supplier = some (.val a) → C05.Expressible a ∧ a.actorType ≠ .TOOL
  originator : ∀ a, p.originator = some (.val a) → C05.Expressible a ∧ a.actorType ≠ .TOOL
  code : ∀ c, p.verificationCode = some c → CodeTv c
  checksum : ∀ c ∈ p.checksums, ChecksumTv c
  homepage : ∀ x, p.homepage = some x → LineTv x
  sourceInfo : ∀ t, p.sourceInfo = some t → FreeText t
  concluded : ∀ x, p.licenseConcluded = some x → LicTv L x
  info : ∀ x ∈ p.licenseInfoFromFiles, LicTv L x
  declared : ∀ x, p.licenseDeclared = some x → LicTv L x
  licenseComment : ∀ t, p.licenseComment = some t → FreeText t
  copyright : ∀ x, p.copyrightText = some x → TextTv x
  summary : ∀ t, p.summary = some t → FreeText t
  description : ∀ t, p.description = some t → FreeText t
  comment : ∀ t, p.comment = some t → FreeText t
  refs : ∀ r ∈ p.externalReferences, ExtRefTv r
  attribution : ∀ t ∈ p.attributionTexts, FreeText t
  release : ∀ t, p.releaseDate = some t → DateOk t
  built : ∀ t, p.builtDate = some t → DateOk t
  validUntil : ∀ t, p.validUntilDate = some t → DateOk t

structure SnippetTv (L : LicText) (s : Snippet) : Prop where
  id : Plain s.spdxId
  fileId : Plain s.fileSpdxId
  /-- the numbers are not negative -/
  byteRange : 0 ≤ s.byteRange.1 ∧ 0 ≤ s.byteRange.2
  lineRange : ∀ r, s.lineRange = some r → 0 ≤ r.1 ∧ 0 ≤ r.2
  concluded : ∀ x, s.licenseConcluded = some x → LicTv L x
  info : ∀ x ∈ s.licenseInfoInSnippet, LicTv L x
  licenseComment : ∀ t, s.licenseComment = some t → FreeText t
  copyright : ∀ x, s.copyrightText = some x → TextTv x
  comment : ∀ t, s.comment = some t → FreeText t
  name : ∀ t, s.name = some t → Plain t
  attribution : ∀ t ∈ s.attributionTexts, FreeText t

structure AnnotationTv (a : Annotation) : Prop where
  annotator : C05.Expressible a.annotator
  date : DateOk a.annotationDate
  id : Plain a.spdxId
  comment : FreeText a.annotationComment

structure ExtractedTv (e : ExtractedLicensingInfo) : Prop where
  id : ∃ i, e.licenseId = some i ∧ Plain i
  text : ∀ t, e.extractedText = some t → FreeText t
  name : ∀ t, e.licenseName = some (.val t) → Plain t
  cross : ∀ t ∈ e.crossReferences, Plain t
  comment : ∀ t, e.comment = some t → FreeText t

end Spdx.Spec
