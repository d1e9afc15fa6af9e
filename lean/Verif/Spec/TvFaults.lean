import Verif.Model.TagValueParser
/- What is wrong with one line (or one text in several lines) of a tag-value document. -/
namespace Spdx.Spec

/-- the tags whose values are license expressions -/
def licenseTags : List Str :=
  [s%"LicenseConcluded", s%"PackageLicenseDeclared", s%"PackageLicenseConcluded", s%"SnippetLicenseConcluded", s%"LicenseInfoInFile",
   s%"PackageLicenseInfoFromFiles", s%"LicenseInfoInSnippet"]

/-- the tags whose values are dates -/
def dateTags : List Str := [s%"Created", s%"BuiltDate", s%"ReleaseDate", s%"ValidUntilDate", s%"AnnotationDate"]

/-- the tags of the creation information -/
def creationTags : List Str :=
  [s%"SPDXVersion", s%"DataLicense", s%"DocumentName", s%"DocumentNamespace", s%"DocumentComment", s%"ExternalDocumentRef", s%"LicenseListVersion",
   s%"Creator", s%"Created", s%"CreatorComment"]

/-- The attribute has a fault of its own, whatever stands around it. -/
inductive Faulty (L : LicText) : TvAttr → Prop where
  /-- a tag that does not exist -/
  | unknown : Faulty L .unknown
  /-- a value of the wrong kind in the creation information (in an element see `C51.wrong_kind_reported`) -/
  | creation {tag} : tag ∈ creationTags → Faulty L (.bad tag)
  | license {tag v} : tag ∈ licenseTags → v ≠ .noAssertion → v ≠ .none → L.parse v.value = none → Faulty L (.value tag v)
  | date {tag v} : tag ∈ dateTags → datetimeFromStr v.value = none → Faulty L (.value tag v)
  | actor {tag v e} : tag ∈ [s%"Creator", s%"Annotator"] → parseActor v.value = .error e → Faulty L (.value tag v)
  | supplier {tag v e} : tag ∈ [s%"PackageSupplier", s%"PackageOriginator"] → v ≠ .noAssertion → parseActor v.value = .error e →
      Faulty L (.value tag v)
  | checksum {tag v} : tag ∈ [s%"FileChecksum", s%"PackageChecksum"] → checksumFromTv v.value = none → Faulty L (.value tag v)
  | fileType {v} : FileType.ofName? (strip v.value) = none → Faulty L (.value s%"FileType" v)
  | purpose {v} : PackagePurpose.ofName? (replaceChar '-' ['_'] v.value) = none → Faulty L (.value s%"PrimaryPackagePurpose" v)
  | annotationType {v} : AnnotationType.ofName? v.value = none → Faulty L (.value s%"AnnotationType" v)
  | version {v} : versionFromString v.value = none → Faulty L (.value s%"LicenseListVersion" v)
  | docRef {v m} : parseDocRef v.value = .error m → Faulty L (.value s%"ExternalDocumentRef" v)
  | code {v} : parseTvCode v.value = none → Faulty L (.value s%"PackageVerificationCode" v)
  | analyzed {v} : v.value ≠ s%"true" → v.value ≠ s%"false" → Faulty L (.value s%"FilesAnalyzed" v)
  | range {tag v} : tag ∈ [s%"SnippetByteRange", s%"SnippetLineRange"] → parseTvRange v.value = none → Faulty L (.value tag v)
  | relationshipShape {line c} : (splitOn ' ' line).length ≠ 3 → Faulty L (.commented s%"Relationship" line c)
  | relationshipType {a t b line c} : splitOn ' ' line = [a, t, b] → RelationshipType.ofName? t = none →
      Faulty L (.commented s%"Relationship" line c)
  | externalRef {line c m} : parseTvExtRef line (c.map textOrLineValue) = .error m → Faulty L (.commented s%"ExternalRef" line c)

/-- The element that begins with a tag. -/
def begins : List (Str × TvClass) :=
  [(s%"FileName", .file), (s%"Annotator", .annotation), (s%"SnippetSPDXID", .snippet), (s%"PackageName", .package), (s%"LicenseID", .extracted),
   (s%"Relationship", .relationship)]

/-- The element that the attribute begins. -/
def opens : TvAttr → Option TvClass
  | .value tag _ | .bad tag => begins.lookup tag
  | .commented tag _ _ => if tag = s%"Relationship" then some .relationship else none
  | .spdxId _ | .unknown => none

/-- The element in which the next attribute stands: the last one that has begun. -/
def current : List TvAttr → Option TvClass
  | [] => none
  | a :: as => (current as).or (opens a)

/-- The elements to which the other tags belong. -/
def owners : List (Str × TvClass) :=
  [(s%"FileNotice", .file), (s%"FileComment", .file), (s%"LicenseComments", .file), (s%"FileCopyrightText", .file), (s%"LicenseConcluded", .file),
   (s%"FileType", .file), (s%"FileChecksum", .file), (s%"LicenseInfoInFile", .file), (s%"FileContributor", .file), (s%"FileAttributionText", .file),
   (s%"PackageDescription", .package), (s%"PackageSummary", .package), (s%"PackageSourceInfo", .package), (s%"PackageComment", .package),
   (s%"PackageFileName", .package), (s%"PackageVersion", .package), (s%"PackageLicenseComments", .package), (s%"PackageHomePage", .package),
   (s%"PackageDownloadLocation", .package), (s%"PackageCopyrightText", .package), (s%"PackageLicenseDeclared", .package),
   (s%"PackageLicenseConcluded", .package), (s%"PackageSupplier", .package), (s%"PackageOriginator", .package), (s%"PackageChecksum", .package),
   (s%"PackageAttributionText", .package), (s%"PackageVerificationCode", .package), (s%"FilesAnalyzed", .package),
   (s%"PrimaryPackagePurpose", .package), (s%"BuiltDate", .package), (s%"ReleaseDate", .package), (s%"ValidUntilDate", .package),
   (s%"PackageLicenseInfoFromFiles", .package),
   (s%"SnippetName", .snippet), (s%"SnippetComment", .snippet), (s%"SnippetLicenseComments", .snippet), (s%"SnippetFromFileSPDXID", .snippet),
   (s%"SnippetCopyrightText", .snippet), (s%"SnippetLicenseConcluded", .snippet), (s%"SnippetByteRange", .snippet),
   (s%"SnippetLineRange", .snippet), (s%"LicenseInfoInSnippet", .snippet), (s%"SnippetAttributionText", .snippet),
   (s%"SPDXREF", .annotation), (s%"AnnotationComment", .annotation), (s%"AnnotationDate", .annotation), (s%"AnnotationType", .annotation),
   (s%"ExtractedText", .extracted), (s%"LicenseName", .extracted), (s%"LicenseComment", .extracted), (s%"LicenseCrossReference", .extracted)]

/-- The message is about the attribute. -/
inductive About : TvAttr → PMsg → Prop where
  | unknown : About .unknown (.text s%"Unknown tag provided")
  | wrongKind {tag} : About (.bad tag) (.text (s%"Error while parsing " ++ tag))
  /-- the tag stands in an element of another kind -/
  | outside {tag c v} : (tag, c) ∈ owners → About (.value tag v) (.text (s%"Element " ++ c.name ++ s%" is not the current element in scope"))
  | refOutside {line c} : About (.commented s%"ExternalRef" line c) (.text s%"Element Package is not the current element in scope")
  /-- the tag was given before -/
  | again {tag v} : About (.value tag v) (.text (s%"Multiple values for " ++ tag ++ s%" found"))
  | value {tag v} : About (.value tag v) (.invalid tag (.str v.value))
  | date {tag v} : tag ∈ dateTags → About (.value tag v) (.invalid s%"date" (.str v.value))
  | license {tag v} : tag ∈ licenseTags → About (.value tag v) (.invalid s%"license expression" (.str v.value))
  | actor {v e} : parseActor v.value = .error e → About (.value s%"Annotator" v) (actorMsg e)
  | docRef {v m} : parseDocRef v.value = .error m → About (.value s%"ExternalDocumentRef" v) m
  | relationshipShape {line c} : About (.commented s%"Relationship" line c)
      (.text s%"Relationship couldn't be split in spdx_element_id, relationship_type and related_spdx_element")
  | relationshipType {a t b line c} : splitOn ' ' line = [a, t, b] → About (.commented s%"Relationship" line c) (.invalid s%"RelationshipType" (.str t))
  | externalRef {line c m} : parseTvExtRef line (c.map textOrLineValue) = .error m → About (.commented s%"ExternalRef" line c) m

end Spdx.Spec
