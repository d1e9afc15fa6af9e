import Verif.Spec.TvFaults
/-
What a tag-value document says, read off its attributes one section at a time: the value of a field is the value given under its tag in the
same section.
-/
namespace Spdx.Spec

/-- The values given under a tag, in order. -/
def given (b : List TvAttr) (tag : Str) : List Tok :=
  b.filterMap fun a => match a with
    | .value t v => if t = tag then some v else none
    | _ => none

/-- The identifiers given by `SPDXID`, or by the tag `tag`. -/
def idsWith (tag : Str) (b : List TvAttr) : List Str :=
  b.filterMap fun a => match a with
    | .spdxId v => some v
    | .value t v => if t = tag then some (textOrLineValue v) else none
    | _ => none

/-- The identifiers given by `SPDXID`. -/
def ids (b : List TvAttr) : List Str :=
  b.filterMap fun a => match a with
    | .spdxId v => some v
    | _ => none

/-- What comes before the first element. -/
def preamble (as : List TvAttr) : List TvAttr := as.takeWhile fun a => (opens a).isNone

/-- The sections: each begins with an attribute that begins an element, and goes on to the next one. -/
def sections : List TvAttr → List (List TvAttr)
  | [] => []
  | a :: as => if (opens a).isSome then (a :: preamble as) :: sections as else sections as

/-- The element that a section is about. -/
def about : List TvAttr → Option TvClass
  | [] => none
  | a :: _ => opens a

/-- The tag is given at most once, and `x` is its value; `none` if it is not given. -/
def One (b : List TvAttr) (tag : Str) (f : Tok → Option α) (x : Option α) : Prop :=
  (given b tag = [] ∧ x = none) ∨ ∃ v, given b tag = [v] ∧ x = f v

/-- `xs` are the values given under the tag, in order. -/
def Many (b : List TvAttr) (tag : Str) (f : Tok → Option α) (xs : List α) : Prop := xs.map some = (given b tag).map f

/-! The values of tokens. -/

def asText (v : Tok) : Option Str := some (textOrLineValue v)
def asSpecial : Tok → Option (OrSpecial Str)
  | .noAssertion => some .noAssertion
  | .none => some .none
  | v => some (.val (textOrLineValue v))
def asTextOrNoAssertion : Tok → Option (OrNoAssertion Str)
  | .noAssertion => some .noAssertion
  | .none => none
  | v => some (.val (textOrLineValue v))
/-- A license expression; a blank text is no expression. -/
def asLicense (L : LicText) : Tok → Option (OrSpecial LicExpr)
  | .noAssertion => some .noAssertion
  | .none => some .none
  | v => match L.parse v.value with
    | some (some e) => some (.val e)
    | _ => none
def asActor (v : Tok) : Option Actor := (parseActor v.value).toOption
def asActorOrNoAssertion : Tok → Option (OrNoAssertion Actor)
  | .noAssertion => some .noAssertion
  | v => (parseActor v.value).toOption.map .val
def asDate (v : Tok) : Option DateTime := datetimeFromStr v.value
def asVersion (v : Tok) : Option Version := versionFromString v.value
def asDocRef (v : Tok) : Option ExternalDocumentRef := (parseDocRef v.value).toOption
def asChecksum (v : Tok) : Option Checksum := checksumFromTv v.value
def asFileType (v : Tok) : Option FileType := FileType.ofName? (strip v.value)
def asPurpose (v : Tok) : Option PackagePurpose := PackagePurpose.ofName? (replaceChar '-' ['_'] v.value)
def asAnnotationType (v : Tok) : Option AnnotationType := AnnotationType.ofName? v.value
def asCode (v : Tok) : Option PackageVerificationCode := parseTvCode v.value
def asRange (v : Tok) : Option (Int × Int) := parseTvRange v.value
def asBool (v : Tok) : Option Bool := if v.value = s%"true" then some true else if v.value = s%"false" then some false else none

/-- The external references of a package. -/
def externalRefs (b : List TvAttr) : List (Option ExternalPackageRef) :=
  b.filterMap fun a => match a with
    | .commented t line c => if t = s%"ExternalRef" then some (parseTvExtRef line (c.map textOrLineValue)).toOption else none
    | _ => none

/-- The creation information is given by its tags anywhere in the document. -/
structure SaysInfo (as : List TvAttr) (c : CreationInfo) : Prop where
  spdxVersion : One as s%"SPDXVersion" asText (some c.spdxVersion)
  spdxId : (ids as).head? = some c.spdxId
  name : One as s%"DocumentName" asText (some c.name)
  documentNamespace : One as s%"DocumentNamespace" asText (some c.documentNamespace)
  creators : Many as s%"Creator" asActor c.creators
  created : One as s%"Created" asDate (some c.created)
  creatorComment : One as s%"CreatorComment" asText c.creatorComment
  dataLicense : One as s%"DataLicense" asText (some c.dataLicense) ∨ (given as s%"DataLicense" = [] ∧ c.dataLicense = s%"CC0-1.0")
  externalDocumentRefs : Many as s%"ExternalDocumentRef" asDocRef c.externalDocumentRefs
  licenseListVersion : One as s%"LicenseListVersion" asVersion c.licenseListVersion
  documentComment : One as s%"DocumentComment" asText c.documentComment

structure SaysPackage (L : LicText) (b : List TvAttr) (p : Package) : Prop where
  spdxId : (ids b).getLast? = some p.spdxId
  name : One b s%"PackageName" asText (some p.name)
  downloadLocation : One b s%"PackageDownloadLocation" asSpecial (some p.downloadLocation)
  version : One b s%"PackageVersion" asText p.version
  fileName : One b s%"PackageFileName" asText p.fileName
  supplier : One b s%"PackageSupplier" asActorOrNoAssertion p.supplier
  originator : One b s%"PackageOriginator" asActorOrNoAssertion p.originator
  filesAnalyzed : One b s%"FilesAnalyzed" asBool (some p.filesAnalyzed) ∨ (given b s%"FilesAnalyzed" = [] ∧ p.filesAnalyzed = true)
  verificationCode : One b s%"PackageVerificationCode" asCode p.verificationCode
  checksums : Many b s%"PackageChecksum" asChecksum p.checksums
  homepage : One b s%"PackageHomePage" asSpecial p.homepage
  sourceInfo : One b s%"PackageSourceInfo" asText p.sourceInfo
  licenseConcluded : One b s%"PackageLicenseConcluded" (asLicense L) p.licenseConcluded
  licenseInfoFromFiles : Many b s%"PackageLicenseInfoFromFiles" (asLicense L) p.licenseInfoFromFiles
  licenseDeclared : One b s%"PackageLicenseDeclared" (asLicense L) p.licenseDeclared
  licenseComment : One b s%"PackageLicenseComments" asText p.licenseComment
  copyrightText : One b s%"PackageCopyrightText" asSpecial p.copyrightText
  summary : One b s%"PackageSummary" asText p.summary
  description : One b s%"PackageDescription" asText p.description
  comment : One b s%"PackageComment" asText p.comment
  externalReferences : p.externalReferences.map some = externalRefs b
  attributionTexts : Many b s%"PackageAttributionText" asText p.attributionTexts
  primaryPackagePurpose : One b s%"PrimaryPackagePurpose" asPurpose p.primaryPackagePurpose
  releaseDate : One b s%"ReleaseDate" asDate p.releaseDate
  builtDate : One b s%"BuiltDate" asDate p.builtDate
  validUntilDate : One b s%"ValidUntilDate" asDate p.validUntilDate

structure SaysFile (L : LicText) (b : List TvAttr) (f : File) : Prop where
  name : One b s%"FileName" asText (some f.name)
  spdxId : (ids b).getLast? = some f.spdxId
  checksums : Many b s%"FileChecksum" asChecksum f.checksums
  fileTypes : Many b s%"FileType" asFileType f.fileTypes
  licenseConcluded : One b s%"LicenseConcluded" (asLicense L) f.licenseConcluded
  licenseInfoInFile : Many b s%"LicenseInfoInFile" (asLicense L) f.licenseInfoInFile
  licenseComment : One b s%"LicenseComments" asText f.licenseComment
  copyrightText : One b s%"FileCopyrightText" asSpecial f.copyrightText
  comment : One b s%"FileComment" asText f.comment
  notice : One b s%"FileNotice" asText f.notice
  contributors : Many b s%"FileContributor" asText f.contributors
  attributionTexts : Many b s%"FileAttributionText" asText f.attributionTexts

structure SaysSnippet (L : LicText) (b : List TvAttr) (x : Snippet) : Prop where
  spdxId : (idsWith s%"SnippetSPDXID" b).getLast? = some x.spdxId
  fileSpdxId : One b s%"SnippetFromFileSPDXID" asText (some x.fileSpdxId)
  byteRange : One b s%"SnippetByteRange" asRange (some x.byteRange)
  lineRange : One b s%"SnippetLineRange" asRange x.lineRange
  licenseConcluded : One b s%"SnippetLicenseConcluded" (asLicense L) x.licenseConcluded
  licenseInfoInSnippet : Many b s%"LicenseInfoInSnippet" (asLicense L) x.licenseInfoInSnippet
  licenseComment : One b s%"SnippetLicenseComments" asText x.licenseComment
  copyrightText : One b s%"SnippetCopyrightText" asSpecial x.copyrightText
  comment : One b s%"SnippetComment" asText x.comment
  name : One b s%"SnippetName" asText x.name
  attributionTexts : Many b s%"SnippetAttributionText" asText x.attributionTexts

structure SaysAnnotation (b : List TvAttr) (x : Annotation) : Prop where
  spdxId : (idsWith s%"SPDXREF" b).getLast? = some x.spdxId
  annotationType : One b s%"AnnotationType" asAnnotationType (some x.annotationType)
  annotator : One b s%"Annotator" asActor (some x.annotator)
  annotationDate : One b s%"AnnotationDate" asDate (some x.annotationDate)
  annotationComment : One b s%"AnnotationComment" asText (some x.annotationComment)

/-- The first attribute of a relationship's section has it all. -/
structure SaysRelationship (b : List TvAttr) (x : Relationship) : Prop where
  line : ∃ l c t r, b.head? = some (.commented s%"Relationship" l c) ∧ splitOn ' ' l = [x.spdxElementId, t, r] ∧
    RelationshipType.ofName? t = some x.relationshipType ∧
    x.relatedSpdxElementId = (if r = s%"NONE" then .none else if r = s%"NOASSERTION" then .noAssertion else .val r) ∧
    x.comment = c.map textOrLineValue

structure SaysExtracted (b : List TvAttr) (x : ExtractedLicensingInfo) : Prop where
  licenseId : One b s%"LicenseID" asText x.licenseId
  extractedText : One b s%"ExtractedText" asText x.extractedText
  licenseName : One b s%"LicenseName" asTextOrNoAssertion x.licenseName
  crossReferences : Many b s%"LicenseCrossReference" asText x.crossReferences
  comment : One b s%"LicenseComment" asText x.comment

/-- A file after a package is contained in the last package before it; the relationship is added unless it was already given. -/
def withContained (d : Document) (f : File) : List Relationship :=
  match d.packages.getLast? with
  | none => d.relationships
  | some p =>
    if ⟨p.spdxId, .CONTAINS, .val f.spdxId, none⟩ ∈ d.relationships then d.relationships
    else d.relationships ++ [⟨p.spdxId, .CONTAINS, .val f.spdxId, none⟩]

/-- The document that the sections say, one after the other. -/
inductive Says (L : LicText) (c : CreationInfo) : List (List TvAttr) → Document → Prop where
  | nil : Says L c [] { creationInfo := c }
  | package {bs b d p} : Says L c bs d → about b = some .package → SaysPackage L b p →
      Says L c (bs ++ [b]) { d with packages := d.packages ++ [p] }
  | file {bs b d f} : Says L c bs d → about b = some .file → SaysFile L b f →
      Says L c (bs ++ [b]) { d with files := d.files ++ [f], relationships := withContained d f }
  | snippet {bs b d x} : Says L c bs d → about b = some .snippet → SaysSnippet L b x →
      Says L c (bs ++ [b]) { d with snippets := d.snippets ++ [x] }
  | annotation {bs b d x} : Says L c bs d → about b = some .annotation → SaysAnnotation b x →
      Says L c (bs ++ [b]) { d with annotations := d.annotations ++ [x] }
  | relationship {bs b d x} : Says L c bs d → about b = some .relationship → SaysRelationship b x →
      Says L c (bs ++ [b]) { d with relationships := d.relationships ++ [x] }
  | extracted {bs b d x} : Says L c bs d → about b = some .extracted → SaysExtracted b x →
      Says L c (bs ++ [b]) { d with extractedLicensingInfo := d.extractedLicensingInfo ++ [x] }

end Spdx.Spec
