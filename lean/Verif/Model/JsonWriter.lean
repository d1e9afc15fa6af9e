import Verif.Model.JsonNames
import Verif.Model.Ids
import Verif.Model.DateTime
import Verif.Model.Version
import Verif.Model.Actor
import Verif.Model.ChecksumNames
/-
spdx/jsonschema/*_converter.py: a document as the JSON-like tree that json.dump, yaml.safe_dump and xmltodict.unparse get.
The results are optional because `datetime_to_iso_string` raises `OverflowError` for some datetimes (`none`).
-/
namespace Spdx

/-- The `license_expression` library as far as reading and writing needs it. -/
structure LicText where
  /-- `str(expression)` -/
  render : LicExpr → Str
  /-- `spdx_licensing.parse(text)`: `none` is an `ExpressionError`; `some none` is the `None` returned for a blank text -/
  parse : Str → Option (Option LicExpr)

/-- `TypedConverter.convert` (spdx/jsonschema/converter.py L53-68): the properties of the enum in order, those with value `None`
    left out. -/
def mkObj (keys : List Str) (vals : List (Option Json)) : Json :=
  .obj ((keys.zip vals).filterMap fun kv => kv.2.map (kv.1, ·))

/-- `[...] or None` -/
def orNone (l : List Json) : Option Json := if l = [] then none else some (.arr l)

/-- `str(x)` for `Union[str, SpdxNoAssertion, SpdxNone]` -/
def OrSpecial.text : OrSpecial Str → Str
  | .val s => s
  | .noAssertion => s%"NOASSERTION"
  | .none => s%"NONE"

/-- `str(x)` for `Union[str, SpdxNoAssertion]` -/
def OrNoAssertion.text : OrNoAssertion Str → Str
  | .val s => s
  | .noAssertion => s%"NOASSERTION"

/-- `str(x)` for `Union[LicenseExpression, SpdxNoAssertion, SpdxNone]` -/
def LicText.str (L : LicText) : OrSpecial LicExpr → Str
  | .val e => L.render e
  | .noAssertion => s%"NOASSERTION"
  | .none => s%"NONE"

/-- package_converter.py L80-83, L96-99: the actor's serialization or `str(SpdxNoAssertion())` -/
def actorOrText : OrNoAssertion Actor → Str
  | .val a => a.toSerialized
  | .noAssertion => s%"NOASSERTION"

/-- A text as JSON. -/
def jstrs (l : List Str) : List Json := l.map Json.str

/-- `jsonPropertyName` of the members of checksum_properties.py -/
def checksumKeys : List Str := [s%"algorithm", s%"checksumValue"]

/-- spdx/jsonschema/checksum_converter.py L19-32 -/
def checksumToJson (c : Checksum) : Json := mkObj checksumKeys [some (.str (algorithmToJson c.algorithm)), some (.str c.value)]

/-- `jsonPropertyName` of the members of annotation_properties.py -/
def annotationKeys : List Str := [s%"annotationDate", s%"annotationType", s%"annotator", s%"comment"]

/-- spdx/jsonschema/annotation_converter.py L14-24 -/
def annotationToJson (a : Annotation) : Option Json := do
  let date ← datetimeToIso a.annotationDate
  return mkObj annotationKeys
    [some (.str date), some (.str a.annotationType.name), some (.str a.annotator.toSerialized), some (.str a.annotationComment)]

/-- The annotations written at an element: those with its identifier (package_converter.py L41-46, file_converter.py L32-33,
    snippet_converter.py L31-34). -/
def annotationsOf (d : Document) (id : Str) : Option (Option Json) := do
  return orNone (← (d.annotations.filter (fun a => a.spdxId = id)).mapM annotationToJson)

/-- `jsonPropertyName` of the members of relationship_properties.py -/
def relationshipKeys : List Str := [s%"spdxElementId", s%"comment", s%"relatedSpdxElement", s%"relationshipType"]

/-- spdx/jsonschema/relationship_converter.py L13-23 -/
def relationshipToJson (r : Relationship) : Json :=
  mkObj relationshipKeys
    [some (.str r.spdxElementId), r.comment.map .str, some (.str r.relatedSpdxElementId.text), some (.str r.relationshipType.name)]

/-- `jsonPropertyName` of the members of extracted_licensing_info_properties.py -/
def extractedKeys : List Str := [s%"comment", s%"extractedText", s%"licenseId", s%"name", s%"seeAlsos"]

/-- spdx/jsonschema/extracted_licensing_info_converter.py L14-29 -/
def extractedToJson (e : ExtractedLicensingInfo) : Json :=
  mkObj extractedKeys
    [e.comment.map .str, e.extractedText.map .str, e.licenseId.map .str, e.licenseName.map (.str ·.text),
     orNone (jstrs e.crossReferences)]

/-- `jsonPropertyName` of the members of external_document_ref_properties.py -/
def externalDocumentRefKeys : List Str := [s%"externalDocumentId", s%"spdxDocument", s%"checksum"]

/-- spdx/jsonschema/external_document_ref_converter.py L19-30 -/
def externalDocumentRefToJson (r : ExternalDocumentRef) : Json :=
  mkObj externalDocumentRefKeys [some (.str r.documentRefId), some (.str r.documentUri), some (checksumToJson r.checksum)]

/-- `jsonPropertyName` of the members of external_package_ref_properties.py -/
def externalPackageRefKeys : List Str := [s%"comment", s%"referenceCategory", s%"referenceLocator", s%"referenceType"]

/-- spdx/jsonschema/external_package_ref_converter.py L13-26 -/
def externalPackageRefToJson (r : ExternalPackageRef) : Json :=
  mkObj externalPackageRefKeys
    [r.comment.map .str, some (.str r.category.name), some (.str r.locator), some (.str r.referenceType)]

/-- `jsonPropertyName` of the members of package_verification_code_properties.py -/
def verificationCodeKeys : List Str := [s%"packageVerificationCodeExcludedFiles", s%"packageVerificationCodeValue"]

/-- spdx/jsonschema/package_verification_code_converter.py L13-22 -/
def verificationCodeToJson (v : PackageVerificationCode) : Json :=
  mkObj verificationCodeKeys [orNone (jstrs v.excludedFiles), some (.str v.value)]

/-- `jsonPropertyName` of the members of creation_info_properties.py -/
def creationInfoKeys : List Str := [s%"created", s%"creators", s%"licenseListVersion", s%"comment"]

/-- spdx/jsonschema/creation_info_converter.py L21-34 -/
def creationInfoToJson (c : CreationInfo) : Option Json := do
  let created ← datetimeToIso c.created
  return mkObj creationInfoKeys
    [some (.str created), orNone (jstrs (c.creators.map Actor.toSerialized)), c.licenseListVersion.map (.str ·.toStr),
     c.creatorComment.map .str]

/-- `jsonPropertyName` of the members of file_properties.py -/
def fileKeys : List Str :=
  [s%"SPDXID", s%"annotations", s%"artifactOfs", s%"attributionTexts", s%"checksums", s%"comment", s%"copyrightText",
   s%"fileContributors", s%"fileDependencies", s%"fileName", s%"fileTypes", s%"licenseComments", s%"licenseConcluded",
   s%"licenseInfoInFiles", s%"noticeText"]

/-- spdx/jsonschema/file_converter.py L28-61 -/
def fileToJson (L : LicText) (d : Document) (f : File) : Option Json := do
  let annotations ← annotationsOf d f.spdxId
  return mkObj fileKeys
    [some (.str f.spdxId), annotations, none, orNone (jstrs f.attributionTexts), orNone (f.checksums.map checksumToJson),
     f.comment.map .str, f.copyrightText.map (.str ·.text), orNone (jstrs f.contributors), none, some (.str f.name),
     orNone (jstrs (f.fileTypes.map FileType.name)), f.licenseComment.map .str, f.licenseConcluded.map (.str <| L.str ·),
     orNone (jstrs (f.licenseInfoInFile.map L.str)), f.notice.map .str]

/-- `apply_if_present(datetime_to_iso_string, date)` -/
def dateToJson : Option DateTime → Option (Option Json)
  | none => some none
  | some t => (datetimeToIso t).map (some <| .str ·)

/-- `jsonPropertyName` of the members of package_properties.py -/
def packageKeys : List Str :=
  [s%"SPDXID", s%"annotations", s%"attributionTexts", s%"builtDate", s%"checksums", s%"comment", s%"copyrightText",
   s%"description", s%"downloadLocation", s%"externalRefs", s%"filesAnalyzed", s%"homepage", s%"licenseComments",
   s%"licenseConcluded", s%"licenseDeclared", s%"licenseInfoFromFiles", s%"name", s%"originator", s%"packageFileName",
   s%"packageVerificationCode", s%"primaryPackagePurpose", s%"releaseDate", s%"sourceInfo", s%"summary", s%"supplier",
   s%"validUntilDate", s%"versionInfo"]

/-- spdx/jsonschema/package_converter.py L35-103 -/
def packageToJson (L : LicText) (d : Document) (p : Package) : Option Json := do
  let annotations ← annotationsOf d p.spdxId
  let built ← dateToJson p.builtDate
  let released ← dateToJson p.releaseDate
  let validUntil ← dateToJson p.validUntilDate
  return mkObj packageKeys
    [some (.str p.spdxId), annotations, orNone (jstrs p.attributionTexts), built, orNone (p.checksums.map checksumToJson),
     p.comment.map .str, p.copyrightText.map (.str ·.text), p.description.map .str, some (.str p.downloadLocation.text),
     orNone (p.externalReferences.map externalPackageRefToJson), some (.bool p.filesAnalyzed), p.homepage.map (.str ·.text),
     p.licenseComment.map .str, p.licenseConcluded.map (.str <| L.str ·), p.licenseDeclared.map (.str <| L.str ·),
     orNone (jstrs (p.licenseInfoFromFiles.map L.str)), some (.str p.name), p.originator.map (.str <| actorOrText ·),
     p.fileName.map .str, p.verificationCode.map verificationCodeToJson, p.primaryPackagePurpose.map (.str ·.name),
     released, p.sourceInfo.map .str, p.summary.map .str, p.supplier.map (.str <| actorOrText ·), validUntil,
     p.version.map .str]

/-- snippet_converter.py L82-83 `_pointer` -/
def pointerToJson (reference : Str) (target : Int) (property : Str) : Json :=
  .obj [(s%"reference", .str reference), (property, .num target)]

/-- snippet_converter.py L75-79 `_convert_range_to_dict` -/
def rangeToJson (r : Int × Int) (file : Str) (property : Str) : Json :=
  .obj [(s%"startPointer", pointerToJson file r.1 property), (s%"endPointer", pointerToJson file r.2 property)]

/-- snippet_converter.py L49-53 (a range is a pair, so it is truthy) -/
def rangesToJson (s : Snippet) : List Json :=
  rangeToJson s.byteRange s.fileSpdxId s%"offset" ::
    (match s.lineRange with
     | some r => [rangeToJson r s.fileSpdxId s%"lineNumber"]
     | none => [])

/-- `jsonPropertyName` of the members of snippet_properties.py -/
def snippetKeys : List Str :=
  [s%"SPDXID", s%"annotations", s%"attributionTexts", s%"comment", s%"copyrightText", s%"licenseComments", s%"licenseConcluded",
   s%"licenseInfoInSnippets", s%"name", s%"ranges", s%"snippetFromFile"]

/-- spdx/jsonschema/snippet_converter.py L25-55 -/
def snippetToJson (L : LicText) (d : Document) (s : Snippet) : Option Json := do
  let annotations ← annotationsOf d s.spdxId
  return mkObj snippetKeys
    [some (.str s.spdxId), annotations, orNone (jstrs s.attributionTexts), s.comment.map .str,
     s.copyrightText.map (.str ·.text), s.licenseComment.map .str, s.licenseConcluded.map (.str <| L.str ·),
     orNone (jstrs (s.licenseInfoInSnippet.map L.str)), s.name.map .str, some (.arr (rangesToJson s)), some (.str s.fileSpdxId)]

/-- `jsonPropertyName` of the members of document_properties.py -/
def documentKeys : List Str :=
  [s%"SPDXID", s%"annotations", s%"comment", s%"creationInfo", s%"dataLicense", s%"externalDocumentRefs",
   s%"hasExtractedLicensingInfos", s%"name", s%"spdxVersion", s%"documentNamespace", s%"packages", s%"files", s%"snippets",
   s%"relationships"]

/-- spdx/jsonschema/document_converter.py L52-95 -/
def documentToJson (L : LicText) (d : Document) : Option Json := do
  let annotations ← (d.annotations.filter (fun a => a.spdxId ∉ containedIds d)).mapM annotationToJson
  let creationInfo ← creationInfoToJson d.creationInfo
  let packages ← d.packages.mapM (packageToJson L d)
  let files ← d.files.mapM (fileToJson L d)
  let snippets ← d.snippets.mapM (snippetToJson L d)
  return mkObj documentKeys
    [some (.str d.creationInfo.spdxId), orNone annotations, d.creationInfo.documentComment.map .str, some creationInfo,
     some (.str d.creationInfo.dataLicense), orNone (d.creationInfo.externalDocumentRefs.map externalDocumentRefToJson),
     orNone (d.extractedLicensingInfo.map extractedToJson), some (.str d.creationInfo.name),
     some (.str d.creationInfo.spdxVersion), some (.str d.creationInfo.documentNamespace), orNone packages, orNone files,
     orNone snippets, orNone (d.relationships.map relationshipToJson)]

end Spdx
