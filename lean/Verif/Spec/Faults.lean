import Verif.Spec.Valid
import Verif.Model.Validation
/-
Which message says that which rule is broken, by which part of the document, and what the message points at.

One constructor per message: when it is due.  The conditions are those of `Verif/Spec/Valid.lean`; of the model only the kinds of messages
(`Msg`, `IdMsg`) and their contexts (`Ctx`) are used.
-/
namespace Spdx.Spec
open Spdx

/-- `t` has a single colon, between `ref` and `loc`. -/
def OneColon (t ref loc : Str) : Prop := t = ref ++ ':' :: loc ∧ ':' ∉ ref ∧ ':' ∉ loc

/-- What is wrong with an identifier by itself. -/
inductive IdFault (d : Document) (id : Str) : IdMsg → Prop
  | colons : 2 ≤ id.count ':' → IdFault d id (.tooManyColons id)
  | document : OneColon id ref loc → ¬ OrNewline DocRef ref → IdFault d id (.docRefInvalid ref)
  | element : OneColon id ref loc → ¬ OrNewline LocalId loc → IdFault d id (.internalPartInvalid loc)
  | undeclared : OneColon id ref loc → ¬ Declared d ref → IdFault d id (.docRefMissing ref)
  | format : ':' ∉ id → ¬ OrNewline LocalId id → IdFault d id (.idInvalid id)

/-- What is wrong with a reference to the document or one of its elements. -/
inductive RefFault (d : Document) (id : Str) : IdMsg → Prop
  | itself : IdFault d id m → RefFault d id m
  | unknown : ':' ∉ id → ¬ InDocument d id → RefFault d id (.notInDocument id)

/-- What is wrong with a reference to a file. -/
inductive FileRefFault (d : Document) (id : Str) : IdMsg → Prop
  | itself : IdFault d id m → FileRefFault d id m
  | unknown : ':' ∉ id → ¬ InFiles d id → FileRefFault d id (.notInFiles id)

/-- What is wrong with a checksum. -/
inductive ChecksumFault (is22 : Prop) (c : Checksum) : Msg → Prop
  | version : is22 → Only23 c.algorithm → ChecksumFault is22 c (.checksumUnsupported22 c.algorithm)
  | value : ¬ (is22 ∧ Only23 c.algorithm) → ¬ OrNewline (fun v => LowerHex v ∧ HexDigits c.algorithm v.length) c.value →
      ChecksumFault is22 c (.checksumValue c.algorithm c.value)

/-- What is wrong with a URI. -/
inductive UriFault (X : Ext) (u : Str) : Msg → Prop
  | relative : X.isAbsUri u = false → UriFault X u (.uriInvalid u)
  | scheme : X.isAbsUri u = true → X.uriHasScheme u = false → UriFault X u (.uriNoScheme u)

/-- What is wrong with an actor. -/
inductive ActorFault (a : Actor) : Msg → Prop
  | email : a.actorType = .TOOL → a.email = some e → ActorFault a (.toolEmail e)

/-- What is wrong with a license expression. -/
inductive LicFault (X : Ext) (d : Document) : OrSpecial LicExpr → Msg → Prop
  | colons : t ∈ X.licInvalidSymbols e → 2 ≤ t.count ':' → LicFault X d (.val e) (.licColons t)
  | format : t ∈ X.licInvalidSymbols e → OneColon t ref loc → ¬ s%"LicenseRef-" <+: loc → LicFault X d (.val e) (.licExtPrefix loc t)
  | undeclared : t ∈ X.licInvalidSymbols e → OneColon t ref loc → ¬ Declared d ref → LicFault X d (.val e) (.licExtMissing ref t)
  | unknown : t ∈ X.licInvalidSymbols e → ':' ∉ t → (¬ ∃ i ∈ d.extractedLicensingInfo, i.licenseId = some t) →
      LicFault X d (.val e) (.licUnrecognized t)
  | syntaxError : X.licStrictParseError e = some text → LicFault X d (.val e) (.licParse text)

/-- What is wrong with a verification code. -/
inductive CodeFault (v : PackageVerificationCode) : Msg → Prop
  | excluded : f ∈ v.excludedFiles → s%"/" <+: f → CodeFault v (.absolutePath f)
  | value : ¬ OrNewline (fun x => LowerHex x ∧ x.length = 40) v.value → CodeFault v (.verificationCodeValue v.value)

/-- What is wrong with an external reference of a package. -/
inductive PackageRefFault (X : Ext) (is22 : Prop) (r : ExternalPackageRef) : Msg → Prop
  | spaces : r.category = .OTHER → ' ' ∈ r.locator → PackageRefFault X is22 r (.refOtherSpaces r.locator)
  | version : r.category ≠ .OTHER → is22 → RefOnly23 r.referenceType → PackageRefFault X is22 r (.refUnsupported22 r.referenceType)
  | category : r.category ≠ .OTHER → ¬ (is22 ∧ RefOnly23 r.referenceType) → ¬ RefTypeRule r.category r.referenceType →
      PackageRefFault X is22 r (.refTypeNotInCategory r.category r.referenceType)
  | url : ¬ is22 → r.category = .SECURITY → (r.referenceType = s%"advisory" ∨ r.referenceType = s%"fix" ∨ r.referenceType = s%"url") →
      ¬ UrlRule X r.locator → PackageRefFault X is22 r (.refUrl r.referenceType r.locator)
  | swid : ¬ is22 → r.category = .SECURITY → r.referenceType = s%"swid" → ¬ (X.isUri r.locator = true ∧ s%"swid" <+: r.locator) →
      PackageRefFault X is22 r (.refSwid r.locator)
  | pattern : r.category ≠ .OTHER → RefTypeRule r.category r.referenceType → ¬ RefOnly23 r.referenceType →
      (¬ ∃ re, (r.referenceType, re) ∈ typeToRegex ∧ OrNewline (Re.Matches re) r.locator) →
      PackageRefFault X is22 r (.refRegex r.referenceType r.locator)

/-- The message is about the document as a whole. -/
def atDocument (d : Document) : Ctx := { spdxId := some d.creationInfo.spdxId, elementType := some .DOCUMENT }
/-- The message is about this element of the document. -/
def atElement (d : Document) (t : SpdxElementType) (id : Str) : Ctx :=
  { spdxId := some id, parentId := some d.creationInfo.spdxId, elementType := some t }
/-- The message is about something inside the element (or document) with this identifier. -/
def inElement (t : SpdxElementType) (id : Str) : Ctx := { parentId := some id, elementType := some t }
/-- The message is about something that has no identifier. -/
def atEntry (t : SpdxElementType) : Ctx := { elementType := some t }

/-- What is wrong with the information about the document's creation. -/
inductive CreationFault (X : Ext) (is22 : Prop) (d : Document) : Msg → Ctx → Prop
  | id : d.creationInfo.spdxId ≠ s%"SPDXRef-DOCUMENT" → CreationFault X is22 d (.documentId d.creationInfo.spdxId) (atDocument d)
  | license : d.creationInfo.dataLicense ≠ s%"CC0-1.0" → CreationFault X is22 d (.dataLicense d.creationInfo.dataLicense) (atDocument d)
  | nameSpace : UriFault X d.creationInfo.documentNamespace m → CreationFault X is22 d m (atDocument d)
  | creator : a ∈ d.creationInfo.creators → ActorFault a m → CreationFault X is22 d m (inElement .ACTOR d.creationInfo.spdxId)
  | refId : r ∈ d.creationInfo.externalDocumentRefs → ¬ OrNewline DocRef r.documentRefId →
      CreationFault X is22 d (.docRefId r.documentRefId) (inElement .EXTERNAL_DOCUMENT_REF d.creationInfo.spdxId)
  | refUri : r ∈ d.creationInfo.externalDocumentRefs → UriFault X r.documentUri m →
      CreationFault X is22 d m (inElement .EXTERNAL_DOCUMENT_REF d.creationInfo.spdxId)
  | refChecksum : r ∈ d.creationInfo.externalDocumentRefs → ChecksumFault is22 r.checksum m →
      CreationFault X is22 d m (inElement .CHECKSUM d.creationInfo.spdxId)

/-- The fields of a package that SPDX-2.2 does not have. -/
def New23 (p : Package) (field : Str) : Prop :=
  (field = s%"primary_package_purpose" ∧ p.primaryPackagePurpose ≠ none) ∨ (field = s%"built_date" ∧ p.builtDate ≠ none) ∨
  (field = s%"release_date" ∧ p.releaseDate ≠ none) ∨ (field = s%"valid_until_date" ∧ p.validUntilDate ≠ none)

/-- The fields of a package that SPDX-2.2 wants, and that are missing. -/
def Missing22 (p : Package) (field : Str) : Prop :=
  (field = s%"license_concluded" ∧ p.licenseConcluded = none) ∨ (field = s%"license_declared" ∧ p.licenseDeclared = none) ∨
  (field = s%"copyright_text" ∧ p.copyrightText = none)

open Classical in
/-- The relationships of a package with files: first those from the package, then those to it. -/
noncomputable def fileLinks (d : Document) (p : Package) : List Relationship :=
  d.relationships.filter (fun r => r.relationshipType = .CONTAINS ∧ LinksFile d p r) ++
  d.relationships.filter (fun r => r.relationshipType = .CONTAINED_BY ∧ LinksFile d p r)

/-- What is wrong with a package. -/
inductive PackageFault (X : Ext) (is22 : Prop) (d : Document) (p : Package) : Msg → Ctx → Prop
  | id : IdFault d p.spdxId m → PackageFault X is22 d p (.spdxId m) (atElement d .PACKAGE p.spdxId)
  | files : p.filesAnalyzed = false → fileLinks d p ≠ [] →
      PackageFault X is22 d p (.containsElements (fileLinks d p)) (atElement d .PACKAGE p.spdxId)
  | notAnalyzedLicense : p.filesAnalyzed = false → p.licenseInfoFromFiles ≠ [] →
      PackageFault X is22 d p .licenseInfoNotAnalyzed (atElement d .PACKAGE p.spdxId)
  | notAnalyzedCode : p.filesAnalyzed = false → p.verificationCode ≠ none →
      PackageFault X is22 d p .verificationCodeNotAnalyzed (atElement d .PACKAGE p.spdxId)
  | concluded : p.licenseConcluded = some e → LicFault X d e m → PackageFault X is22 d p m (inElement .LICENSE_EXPRESSION p.spdxId)
  | declared : p.licenseDeclared = some e → LicFault X d e m → PackageFault X is22 d p m (inElement .LICENSE_EXPRESSION p.spdxId)
  | fromFiles : p.filesAnalyzed = true → e ∈ p.licenseInfoFromFiles → LicFault X d e m →
      PackageFault X is22 d p m (inElement .LICENSE_EXPRESSION p.spdxId)
  | download : p.downloadLocation = .val l → ¬ DownloadRule X l → PackageFault X is22 d p (.downloadLocation l) (atElement d .PACKAGE p.spdxId)
  | homepage : p.homepage = some (.val u) → ¬ UrlRule X u → PackageFault X is22 d p (.homepage u) (atElement d .PACKAGE p.spdxId)
  | code : p.filesAnalyzed = true → p.verificationCode = some v → CodeFault v m →
      PackageFault X is22 d p m (inElement .PACKAGE_VERIFICATION_CODE p.spdxId)
  | checksum : c ∈ p.checksums → ChecksumFault is22 c m → PackageFault X is22 d p m (inElement .CHECKSUM p.spdxId)
  | reference : r ∈ p.externalReferences → PackageRefFault X is22 r m → PackageFault X is22 d p m (inElement .EXTERNAL_PACKAGE_REF p.spdxId)
  | new : is22 → New23 p field → PackageFault X is22 d p (.fieldUnsupported22 field) (atElement d .PACKAGE p.spdxId)
  | missing : is22 → Missing22 p field → PackageFault X is22 d p (.fieldMandatory22 field) (atElement d .PACKAGE p.spdxId)

/-- What is wrong with a file. -/
inductive FileFault (X : Ext) (is22 : Prop) (d : Document) (f : File) : Msg → Ctx → Prop
  | id : IdFault d f.spdxId m → FileFault X is22 d f (.spdxId m) (atElement d .FILE f.spdxId)
  | concluded : f.licenseConcluded = some e → LicFault X d e m → FileFault X is22 d f m (inElement .LICENSE_EXPRESSION f.spdxId)
  | inFile : e ∈ f.licenseInfoInFile → LicFault X d e m → FileFault X is22 d f m (inElement .LICENSE_EXPRESSION f.spdxId)
  | name : s%"/" <+: f.name → FileFault X is22 d f (.absolutePath f.name) (atElement d .FILE f.spdxId)
  | sha1 : (¬ ∃ c ∈ f.checksums, c.algorithm = .SHA1) →
      FileFault X is22 d f (.noSha1 (f.checksums.map (·.algorithm))) (atElement d .FILE f.spdxId)
  | checksum : c ∈ f.checksums → ChecksumFault is22 c m → FileFault X is22 d f m (inElement .CHECKSUM f.spdxId)
  | noConcluded : is22 → f.licenseConcluded = none →
      FileFault X is22 d f (.fieldMandatory22 s%"license_concluded") (atElement d .FILE f.spdxId)
  | noInFile : is22 → f.licenseInfoInFile = [] →
      FileFault X is22 d f (.fieldMandatory22 s%"license_info_in_file") (atElement d .FILE f.spdxId)
  | noCopyright : is22 → f.copyrightText = none →
      FileFault X is22 d f (.fieldMandatory22 s%"copyright_text") (atElement d .FILE f.spdxId)

/-- What is wrong with a snippet. -/
inductive SnippetFault (X : Ext) (is22 : Prop) (d : Document) (s : Snippet) : Msg → Ctx → Prop
  | id : IdFault d s.spdxId m → SnippetFault X is22 d s (.spdxId m) (atElement d .SNIPPET s.spdxId)
  | file : FileRefFault d s.fileSpdxId m → SnippetFault X is22 d s (.spdxId m) (atElement d .SNIPPET s.spdxId)
  | concluded : s.licenseConcluded = some e → LicFault X d e m → SnippetFault X is22 d s m (inElement .LICENSE_EXPRESSION s.spdxId)
  | inSnippet : e ∈ s.licenseInfoInSnippet → LicFault X d e m → SnippetFault X is22 d s m (inElement .LICENSE_EXPRESSION s.spdxId)
  | byteStart : s.byteRange.1 < 1 → SnippetFault X is22 d s (.byteRangeStart s.byteRange) (atElement d .SNIPPET s.spdxId)
  | byteOrder : s.byteRange.2 < s.byteRange.1 → SnippetFault X is22 d s (.byteRangeOrder s.byteRange) (atElement d .SNIPPET s.spdxId)
  | lineStart : s.lineRange = some r → r.1 < 1 → SnippetFault X is22 d s (.lineRangeStart r) (atElement d .SNIPPET s.spdxId)
  | lineOrder : s.lineRange = some r → r.2 < r.1 → SnippetFault X is22 d s (.lineRangeOrder r) (atElement d .SNIPPET s.spdxId)
  | noConcluded : is22 → s.licenseConcluded = none →
      SnippetFault X is22 d s (.fieldMandatory22 s%"license_concluded") (atElement d .SNIPPET s.spdxId)
  | noCopyright : is22 → s.copyrightText = none →
      SnippetFault X is22 d s (.fieldMandatory22 s%"copyright_text") (atElement d .SNIPPET s.spdxId)

/-- What is wrong with an annotation.  (The message about its actor does not say which annotation it is.) -/
inductive AnnotationFault (d : Document) (a : Annotation) : Msg → Ctx → Prop
  | annotator : ActorFault a.annotator m → AnnotationFault d a m (inElement .ACTOR s%"annotation")
  | id : RefFault d a.spdxId m → AnnotationFault d a (.spdxId m) (atEntry .ANNOTATION)

/-- What is wrong with a relationship. -/
inductive RelationshipFault (is22 : Prop) (d : Document) (r : Relationship) : Msg → Ctx → Prop
  | source : RefFault d r.spdxElementId m → RelationshipFault is22 d r (.spdxId m) (atEntry .RELATIONSHIP)
  | target : r.relatedSpdxElementId = .val i → RefFault d i m → RelationshipFault is22 d r (.spdxId m) (atEntry .RELATIONSHIP)
  | version : is22 → (r.relationshipType = .SPECIFICATION_FOR ∨ r.relationshipType = .REQUIREMENT_DESCRIPTION_FOR) →
      RelationshipFault is22 d r (.relationshipUnsupported22 r.relationshipType) (atEntry .RELATIONSHIP)

/-- What is wrong with a license that is not on the list. -/
inductive LicenseFault (X : Ext) (e : ExtractedLicensingInfo) : Msg → Ctx → Prop
  | id : e.licenseId = some i → i ≠ [] → ¬ OrNewline LicRef i → LicenseFault X e (.licenseId i) (atEntry .EXTRACTED_LICENSING_INFO)
  | text : e.licenseId = some i → i ≠ [] → (¬ ∃ t, e.extractedText = some t ∧ t ≠ []) →
      LicenseFault X e .extractedTextMissing (atEntry .EXTRACTED_LICENSING_INFO)
  | reference : u ∈ e.crossReferences → ¬ UrlRule X u → LicenseFault X e (.crossReference u) (atEntry .EXTRACTED_LICENSING_INFO)

/-- What is wrong with a document whose version is one of the supported ones. -/
inductive Fault (X : Ext) (is22 : Prop) (d : Document) : Msg → Ctx → Prop
  | creation : CreationFault X is22 d m c → Fault X is22 d m c
  | package : p ∈ d.packages → PackageFault X is22 d p m c → Fault X is22 d m c
  | file : f ∈ d.files → FileFault X is22 d f m c → Fault X is22 d m c
  | snippet : s ∈ d.snippets → SnippetFault X is22 d s m c → Fault X is22 d m c
  | annotation : a ∈ d.annotations → AnnotationFault d a m c → Fault X is22 d m c
  | relationship : r ∈ d.relationships → RelationshipFault is22 d r m c → Fault X is22 d m c
  | license : e ∈ d.extractedLicensingInfo → LicenseFault X e m c → Fault X is22 d m c
  | describes : ¬ DescribesRule d → Fault X is22 d (.noDescribes d.creationInfo.spdxId) (atDocument d)
  /-- the identifiers used more than once, each listed once and in order -/
  | duplicates (ids : List Str) : ids ≠ [] → (∀ i, i ∈ ids ↔ 2 ≤ (elementIds d).count i) → ids.Nodup → ids.Pairwise (· ≤ ·) →
      Fault X is22 d (.duplicateIds ids) (atDocument d)

end Spdx.Spec
