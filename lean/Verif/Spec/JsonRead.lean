import Verif.Model.JsonParser
import Verif.Spec.RdfRead
/-
What a JSON-like tree says about a document: the value of a field is read off the value at the field's key.
-/
namespace Spdx.Spec.JsonSays
open Spdx
open RdfSays (All2)

/-- The members of an object. -/
abbrev Obj := List (Str × Json)

/-- The value at a key; null if there is none. -/
def valueAt (o : Obj) (k : Str) : Json := (o.lookup k).getD .null

/-- null, false, zero or empty -/
def Blank (v : Json) : Prop := v = .null ∨ v = .bool false ∨ v = .num 0 ∨ v = .str [] ∨ v = .arr [] ∨ v = .obj []

/-- The items of a value: of a list its entries, of a text its characters, of an object its keys. -/
def Items (v : Json) (l : List Json) : Prop :=
  v = .arr l ∨ (∃ s, v = .str s ∧ l = s.map fun c => .str [c]) ∨ (∃ o, v = .obj o ∧ l = o.map fun m => .str m.1)

/-- The items of the value at a key; none if there is no such key. -/
def Entries (o : Obj) (k : Str) (l : List Json) : Prop := (o.lookup k = none ∧ l = []) ∨ ∃ v, o.lookup k = some v ∧ Items v l

/-! Fields -/

/-- The value means `x`; a blank value means nothing. -/
def Field {α : Type} (R : Json → α → Prop) (v : Json) (x : Option α) : Prop :=
  (Blank v ∧ x = none) ∨ (¬ Blank v ∧ ∃ a, R v a ∧ x = some a)

/-- The value means `a` and is not blank. -/
def Required {α : Type} (R : Json → α → Prop) (v : Json) (a : α) : Prop := ¬ Blank v ∧ R v a

/-- The items of the value mean the entries of the list. -/
def ListOf {α : Type} (R : Json → α → Prop) (v : Json) (l : List α) : Prop := ∃ items, Items v items ∧ All2 R items l

/-- The same, with no entries for a blank value. -/
def OptList {α : Type} (R : Json → α → Prop) (v : Json) (l : List α) : Prop := (Blank v ∧ l = []) ∨ Required (ListOf R) v l

/-! Single values -/

def OptText (v : Json) (x : Option Str) : Prop := (v = .null ∧ x = none) ∨ ∃ s, v = .str s ∧ x = some s

def Texts (v : Json) (l : List Str) : Prop := (v = .null ∧ l = []) ∨ v = .arr (l.map .str)

/-- A text other than the reserved words, or one of these. -/
inductive Special : Json → OrSpecial Str → Prop
  | noAssertion : Special (.str s%"NOASSERTION") .noAssertion
  | none : Special (.str s%"NONE") .none
  | text (s : Str) : s ≠ s%"NOASSERTION" → s ≠ s%"NONE" → Special (.str s) (.val s)

def OptSpecial (v : Json) (x : Option (OrSpecial Str)) : Prop := (v = .null ∧ x = none) ∨ ∃ y, Special v y ∧ x = some y

inductive OptNoAssertion : Json → Option (OrNoAssertion Str) → Prop
  | missing : OptNoAssertion .null none
  | noAssertion : OptNoAssertion (.str s%"NOASSERTION") (some .noAssertion)
  | text (s : Str) : s ≠ s%"NOASSERTION" → OptNoAssertion (.str s) (some (.val s))

def Date (v : Json) (t : DateTime) : Prop := ∃ s, v = .str s ∧ datetimeFromStr s = some t
def IsVersion (v : Json) (t : Version) : Prop := ∃ s, v = .str s ∧ versionFromString s = some t
def IsActor (v : Json) (a : Actor) : Prop := ∃ s, v = .str s ∧ parseActor s = .ok a

inductive ActorOrNoAssertion : Json → OrNoAssertion Actor → Prop
  | noAssertion : ActorOrNoAssertion (.str s%"NOASSERTION") .noAssertion
  | actor (s : Str) (a : Actor) : s ≠ s%"NOASSERTION" → parseActor s = .ok a → ActorOrNoAssertion (.str s) (.val a)

/-- The name of a member of an enumeration, with any letters in upper or lower case and dashes or underscores. -/
def Member {α : Type} (name : α → Str) (v : Json) (x : α) : Prop := ∃ s, v = .str s ∧ upperAscii (replaceChar '-' ['_'] s) = name x

/-- The very name of a member. -/
def ExactMember {α : Type} (name : α → Str) (v : Json) (x : α) : Prop := v = .str (name x)

/-- A license expression, which may be none for the license library; the reserved words are read in any letter case. -/
inductive LicenseText (L : LicText) : Json → Option (OrSpecial LicExpr) → Prop
  | noAssertion (s : Str) : upperAscii s = s%"NOASSERTION" → LicenseText L (.str s) (some .noAssertion)
  | none (s : Str) : upperAscii s = s%"NONE" → LicenseText L (.str s) (some .none)
  | expression (s : Str) (e : Option LicExpr) : upperAscii s ≠ s%"NOASSERTION" → upperAscii s ≠ s%"NONE" → L.parse s = some e →
      LicenseText L (.str s) (e.map .val)

def IsLicense (L : LicText) (v : Json) (x : OrSpecial LicExpr) : Prop := LicenseText L v (some x)
def OptLicense (L : LicText) (v : Json) (x : Option (OrSpecial LicExpr)) : Prop := (Blank v ∧ x = none) ∨ (¬ Blank v ∧ LicenseText L v x)

/-- true if not given -/
def FilesAnalyzed (v : Json) (b : Bool) : Prop :=
  (v = .null ∧ b = true) ∨ v = .bool b ∨ ∃ s, v = .str s ∧ lowerAscii s = (match b with | true => s%"true" | false => s%"false")

/-- A number, or the digits of one. -/
inductive Number : Json → Int → Prop
  | num (i : Int) : Number (.num i) i
  | bool (b : Bool) : Number (.bool b) (match b with | true => 1 | false => 0)
  | digits (s : Str) (n : Nat) : s ≠ [] → (∀ c ∈ s, isPyDigit c = true) → digitsVal? s = some n → Number (.str s) n

/-! ### Elements -/

/-- The value is an object whose members say `a`. -/
def Object {α : Type} (R : Obj → α → Prop) (v : Json) (a : α) : Prop := ∃ o, v = .obj o ∧ R o a

structure ChecksumSays (o : Obj) (c : Checksum) : Prop where
  algorithm : Member ChecksumAlgorithm.name (valueAt o s%"algorithm") c.algorithm
  value : valueAt o s%"checksumValue" = .str c.value

structure ExternalDocumentRefSays (o : Obj) (r : ExternalDocumentRef) : Prop where
  documentRefId : valueAt o s%"externalDocumentId" = .str r.documentRefId
  documentUri : valueAt o s%"spdxDocument" = .str r.documentUri
  checksum : Required (Object ChecksumSays) (valueAt o s%"checksum") r.checksum

/-- The creation information, from the document and its member "creationInfo". -/
structure CreationInfoSays (o i : Obj) (c : CreationInfo) : Prop where
  spdxVersion : valueAt o s%"spdxVersion" = .str c.spdxVersion
  spdxId : valueAt o s%"SPDXID" = .str c.spdxId
  name : valueAt o s%"name" = .str c.name
  documentNamespace : valueAt o s%"documentNamespace" = .str c.documentNamespace
  creators : Required (ListOf IsActor) (valueAt i s%"creators") c.creators
  created : Required Date (valueAt i s%"created") c.created
  creatorComment : OptText (valueAt i s%"comment") c.creatorComment
  dataLicense : valueAt o s%"dataLicense" = .str c.dataLicense
  externalDocumentRefs : OptList (Required (Object ExternalDocumentRefSays)) (valueAt o s%"externalDocumentRefs") c.externalDocumentRefs
  licenseListVersion : Field IsVersion (valueAt i s%"licenseListVersion") c.licenseListVersion
  documentComment : OptText (valueAt o s%"comment") c.documentComment

structure ExternalRefSays (o : Obj) (r : ExternalPackageRef) : Prop where
  category : Required (Member ExternalPackageRefCategory.name) (valueAt o s%"referenceCategory") r.category
  referenceType : valueAt o s%"referenceType" = .str r.referenceType
  locator : valueAt o s%"referenceLocator" = .str r.locator
  comment : OptText (valueAt o s%"comment") r.comment

structure VerificationCodeSays (o : Obj) (c : PackageVerificationCode) : Prop where
  value : valueAt o s%"packageVerificationCodeValue" = .str c.value
  excludedFiles : Texts (valueAt o s%"packageVerificationCodeExcludedFiles") c.excludedFiles

structure PackageSays (L : LicText) (o : Obj) (p : Package) : Prop where
  spdxId : valueAt o s%"SPDXID" = .str p.spdxId
  name : valueAt o s%"name" = .str p.name
  downloadLocation : Special (valueAt o s%"downloadLocation") p.downloadLocation
  version : OptText (valueAt o s%"versionInfo") p.version
  fileName : OptText (valueAt o s%"packageFileName") p.fileName
  supplier : Field ActorOrNoAssertion (valueAt o s%"supplier") p.supplier
  originator : Field ActorOrNoAssertion (valueAt o s%"originator") p.originator
  filesAnalyzed : FilesAnalyzed (valueAt o s%"filesAnalyzed") p.filesAnalyzed
  verificationCode : Field (Object VerificationCodeSays) (valueAt o s%"packageVerificationCode") p.verificationCode
  checksums : OptList (Object ChecksumSays) (valueAt o s%"checksums") p.checksums
  homepage : OptSpecial (valueAt o s%"homepage") p.homepage
  sourceInfo : OptText (valueAt o s%"sourceInfo") p.sourceInfo
  licenseConcluded : OptLicense L (valueAt o s%"licenseConcluded") p.licenseConcluded
  licenseInfoFromFiles : OptList (IsLicense L) (valueAt o s%"licenseInfoFromFiles") p.licenseInfoFromFiles
  licenseDeclared : OptLicense L (valueAt o s%"licenseDeclared") p.licenseDeclared
  licenseComment : OptText (valueAt o s%"licenseComments") p.licenseComment
  copyrightText : OptSpecial (valueAt o s%"copyrightText") p.copyrightText
  summary : OptText (valueAt o s%"summary") p.summary
  description : OptText (valueAt o s%"description") p.description
  comment : OptText (valueAt o s%"comment") p.comment
  externalReferences : OptList (Object ExternalRefSays) (valueAt o s%"externalRefs") p.externalReferences
  attributionTexts : Texts (valueAt o s%"attributionTexts") p.attributionTexts
  primaryPackagePurpose : Field (Member PackagePurpose.name) (valueAt o s%"primaryPackagePurpose") p.primaryPackagePurpose
  releaseDate : Field Date (valueAt o s%"releaseDate") p.releaseDate
  builtDate : Field Date (valueAt o s%"builtDate") p.builtDate
  validUntilDate : Field Date (valueAt o s%"validUntilDate") p.validUntilDate

structure FileSays (L : LicText) (o : Obj) (f : File) : Prop where
  name : valueAt o s%"fileName" = .str f.name
  spdxId : valueAt o s%"SPDXID" = .str f.spdxId
  checksums : Required (ListOf (Object ChecksumSays)) (valueAt o s%"checksums") f.checksums
  fileTypes : OptList (ExactMember FileType.name) (valueAt o s%"fileTypes") f.fileTypes
  licenseConcluded : OptLicense L (valueAt o s%"licenseConcluded") f.licenseConcluded
  licenseInfoInFile : OptList (IsLicense L) (valueAt o s%"licenseInfoInFiles") f.licenseInfoInFile
  licenseComment : OptText (valueAt o s%"licenseComments") f.licenseComment
  copyrightText : OptSpecial (valueAt o s%"copyrightText") f.copyrightText
  comment : OptText (valueAt o s%"comment") f.comment
  notice : OptText (valueAt o s%"noticeText") f.notice
  contributors : Texts (valueAt o s%"fileContributors") f.contributors
  attributionTexts : Texts (valueAt o s%"attributionTexts") f.attributionTexts

/-- An end of a range: a byte offset or a line number, not both. -/
inductive Pointer : RangeType → Json → Json → Prop
  | byte (o : Obj) (v : Json) : o.lookup s%"offset" = some v → o.lookup s%"lineNumber" = none → Pointer .BYTE (.obj o) v
  | line (o : Obj) (v : Json) : o.lookup s%"lineNumber" = some v → o.lookup s%"offset" = none → Pointer .LINE (.obj o) v

/-- A range of either kind, with its ends as they are given. -/
def IsRange (v : Json) (r : RangeType × (Json × Json)) : Prop :=
  ∃ o s e, v = .obj o ∧ o.lookup s%"startPointer" = some s ∧ o.lookup s%"endPointer" = some e ∧ Pointer r.1 s r.2.1 ∧ Pointer r.1 e r.2.2

/-- The last range of a kind. -/
def lastRange (l : List (RangeType × (Json × Json))) (t : RangeType) : Option (Json × Json) :=
  (l.filter fun r => r.1 = t).getLast?.map (·.2)

structure SnippetSays (L : LicText) (o : Obj) (s : Snippet) : Prop where
  spdxId : valueAt o s%"SPDXID" = .str s.spdxId
  fileSpdxId : valueAt o s%"snippetFromFile" = .str s.fileSpdxId
  ranges : ∃ l, Required (ListOf IsRange) (valueAt o s%"ranges") l ∧
    (∃ a b, lastRange l .BYTE = some (a, b) ∧ Number a s.byteRange.1 ∧ Number b s.byteRange.2) ∧
    ((lastRange l .LINE = none ∧ s.lineRange = none) ∨
      ∃ a b x y, lastRange l .LINE = some (a, b) ∧ s.lineRange = some (x, y) ∧ Number a x ∧ Number b y)
  licenseConcluded : OptLicense L (valueAt o s%"licenseConcluded") s.licenseConcluded
  licenseInfoInSnippet : OptList (IsLicense L) (valueAt o s%"licenseInfoInSnippets") s.licenseInfoInSnippet
  licenseComment : OptText (valueAt o s%"licenseComments") s.licenseComment
  copyrightText : OptSpecial (valueAt o s%"copyrightText") s.copyrightText
  comment : OptText (valueAt o s%"comment") s.comment
  name : OptText (valueAt o s%"name") s.name
  attributionTexts : Texts (valueAt o s%"attributionTexts") s.attributionTexts

/-- An annotation of the element with the given id, unless it has an id of its own. -/
structure AnnotationSays (element : Json) (o : Obj) (a : Annotation) : Prop where
  spdxId : (¬ Blank (valueAt o s%"SPDXID") ∧ valueAt o s%"SPDXID" = .str a.spdxId) ∨
    (Blank (valueAt o s%"SPDXID") ∧ element = .str a.spdxId)
  annotationType : Required (ExactMember AnnotationType.name) (valueAt o s%"annotationType") a.annotationType
  annotator : Required IsActor (valueAt o s%"annotator") a.annotator
  annotationDate : Required Date (valueAt o s%"annotationDate") a.annotationDate
  annotationComment : valueAt o s%"comment" = .str a.annotationComment

/-- A review of the document is an annotation. -/
structure ReviewSays (docId : Str) (o : Obj) (a : Annotation) : Prop where
  spdxId : a.spdxId = docId
  annotationType : a.annotationType = .REVIEW
  annotator : Required IsActor (valueAt o s%"reviewer") a.annotator
  annotationDate : Required Date (valueAt o s%"reviewDate") a.annotationDate
  annotationComment : valueAt o s%"comment" = .str a.annotationComment

/-- The annotations of an element. -/
def Annotations (o : Obj) (l : List Annotation) : Prop :=
  OptList (Object (AnnotationSays (valueAt o s%"SPDXID"))) (valueAt o s%"annotations") l

/-- The annotations of several elements, in their order. -/
def AllAnnotations (elements : List Json) (l : List Annotation) : Prop :=
  ∃ ls, All2 (Object Annotations) elements ls ∧ l = ls.flatten

structure RelationshipSays (o : Obj) (r : Relationship) : Prop where
  spdxElementId : valueAt o s%"spdxElementId" = .str r.spdxElementId
  relationshipType : Required (Member RelationshipType.name) (valueAt o s%"relationshipType") r.relationshipType
  relatedSpdxElementId : Special (valueAt o s%"relatedSpdxElement") r.relatedSpdxElementId
  comment : OptText (valueAt o s%"comment") r.comment

/-- One of the relationships says so, with or without a comment. -/
def Stated (rs : List Relationship) (a : Str) (t : RelationshipType) (b : Str) : Prop :=
  ∃ r ∈ rs, r.spdxElementId = a ∧ r.relationshipType = t ∧ r.relatedSpdxElementId = .val b

instance (rs : List Relationship) (a : Str) (t : RelationshipType) (b : Str) : Decidable (Stated rs a t b) :=
  inferInstanceAs (Decidable (∃ r ∈ rs, _))

/-- The texts without repetitions. -/
def distinct (xs : List Str) : List Str := xs.foldl (fun l x => if x ∈ l then l else l ++ [x]) []

/-- The relationships of `a` to each of `xs`, once, as far as neither they nor their inverses are stated. -/
def implied (stated : List Relationship) (a : Str) (t inverse : RelationshipType) (xs : List Str) : List Relationship :=
  ((distinct xs).filter fun x => ¬ Stated stated a t x ∧ ¬ Stated stated x inverse a).map fun x =>
    { spdxElementId := a, relationshipType := t, relatedSpdxElementId := .val x }

/-- The files a package says it contains. -/
def ContainedFiles (stated : List Relationship) (o : Obj) (rs : List Relationship) : Prop :=
  ∃ a files, valueAt o s%"SPDXID" = .str a ∧ Entries o s%"hasFiles" (files.map .str) ∧ rs = implied stated a .CONTAINS .CONTAINED_BY files

structure ExtractedSays (o : Obj) (e : ExtractedLicensingInfo) : Prop where
  licenseId : OptText (valueAt o s%"licenseId") e.licenseId
  extractedText : OptText (valueAt o s%"extractedText") e.extractedText
  licenseName : OptNoAssertion (valueAt o s%"name") e.licenseName
  crossReferences : Texts (valueAt o s%"seeAlsos") e.crossReferences
  comment : OptText (valueAt o s%"comment") e.comment

/-- The document: its elements are the entries of the lists, in their order; its relationships are those listed, then those of
    "documentDescribes", then those of the packages' "hasFiles". -/
structure DocumentSays (L : LicText) (o : Obj) (d : Document) : Prop where
  creationInfo : ∃ i, valueAt o s%"creationInfo" = .obj i ∧ CreationInfoSays o i d.creationInfo
  packages : ∃ l, Entries o s%"packages" l ∧ All2 (Object (PackageSays L)) l d.packages
  files : ∃ l, Entries o s%"files" l ∧ All2 (Object (FileSays L)) l d.files
  snippets : ∃ l, Entries o s%"snippets" l ∧ All2 (Object (SnippetSays L)) l d.snippets
  annotations : ∃ own reviews ofPackages ofFiles ofSnippets lr lp lf ls,
    Annotations o own ∧
    Entries o s%"revieweds" lr ∧ All2 (Object (ReviewSays d.creationInfo.spdxId)) lr reviews ∧
    Entries o s%"packages" lp ∧ AllAnnotations lp ofPackages ∧
    Entries o s%"files" lf ∧ AllAnnotations lf ofFiles ∧
    Entries o s%"snippets" ls ∧ AllAnnotations ls ofSnippets ∧
    d.annotations = own ++ reviews ++ ofPackages ++ ofFiles ++ ofSnippets
  relationships : ∃ listed described describes lp contains,
    OptList (Object RelationshipSays) (valueAt o s%"relationships") listed ∧
    Entries o s%"documentDescribes" (described.map .str) ∧
    describes = implied listed d.creationInfo.spdxId .DESCRIBES .DESCRIBED_BY described ∧
    Entries o s%"packages" lp ∧ All2 (Object (ContainedFiles (listed ++ describes))) lp contains ∧
    d.relationships = listed ++ describes ++ contains.flatten
  extractedLicensingInfo : OptList (Object ExtractedSays) (valueAt o s%"hasExtractedLicensingInfos") d.extractedLicensingInfo

end Spdx.Spec.JsonSays
