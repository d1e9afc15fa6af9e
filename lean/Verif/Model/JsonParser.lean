import Verif.Model.PyParse
import Verif.Model.JsonWriter
/- spdx/parser/jsonlikedict/*.py: from a JSON-like tree to a document -/
namespace Spdx

/-- `re.Pattern.match(value)`: `TypeError` if the value is no text -/
def withStr (m : Str → Py α) : Json → Py α
  | .str s => m s
  | _ => .error (.type s%"expected string or bytes-like object")

/-- `type(value).__name__` -/
def Json.typeName : Json → Str
  | .null => s%"NoneType"
  | .bool _ => s%"bool"
  | .num _ => s%"int"
  | .str _ => s%"str"
  | .arr _ => s%"list"
  | .obj _ => s%"dict"

/-- spdx/datetime_conversions.py L7-12. The message of `strptime` also has the text. -/
def parseDate : Json → Py DateTime
  | .str s => match datetimeFromStr s with
    | some t => .ok t
    | none => .error (.value s%"time data does not match format")
  | j => .error (.type (s%"Could not convert str to datetime, invalid type: " ++ j.typeName))

/-- spdx/parser/actor_parser.py L15-53 -/
def parseActorJson : Json → Py Actor := withStr fun s =>
  match parseActor s with
  | .ok a => .ok a
  | .error .noToolName => .error (.parsing [.text (s%"No name for Tool provided: " ++ s ++ s%".")])
  | .error .noName => .error (.parsing [.text (s%"No name for Actor provided: " ++ s ++ s%".")])
  | .error .noMatch => .error (.parsing [.text (s%"Actor " ++ s ++ s%" doesn't match any of person, organization or tool.")])

/-- dict_parsing_functions.py L12-15 `json_str_to_enum_name`, then `Enum[...]` with `KeyError` turned into a parsing error -/
def parseEnum (what : Str) (ofName : Str → Option α) : Json → Py α
  | .str s => match ofName (jsonStrToEnumName s) with
    | some a => .ok a
    | none => .error (.parsing [.invalid what (.str s)])
  | j => .error (.parsing [.text (s%"Type for enum must be str not " ++ j.typeName)])

/-- spdx/parser/jsonlikedict/license_expression_parser.py L14-29. `str.upper` is modelled on ASCII letters. The message is that of
    an invalid value; the program's also has what the license library says. -/
def parseLicense (L : LicText) : Json → Py (Option (OrSpecial LicExpr))
  | .str s =>
    if upperAscii s = s%"NOASSERTION" then .ok (some .noAssertion)
    else if upperAscii s = s%"NONE" then .ok (some .none)
    else match L.parse s with
      | some e => .ok (e.map .val)
      | none => .error (.parsing [.invalid s%"LicenseExpression" (.str s)])
  | j => .error (.parsing [.invalid s%"LicenseExpression" j])

/-- spdx/parser/jsonlikedict/checksum_parser.py L22-33 -/
def parseChecksum (j : Json) : Py Checksum := do
  let algorithm ← match ← pyGetD j s%"algorithm" (.str []) with
    | .str s => match algorithmFromJson s with
      | some a => .ok a
      | none => .error (.parsing [.wrapped s%"Checksum" [.invalid s%"ChecksumAlgorithm" (.str (jsonStrToEnumName s))]])
    | v => .error (.parsing [.text (s%"Type for enum must be str not " ++ v.typeName)])
  let value ← pyGet j s%"checksumValue"
  construct s%"Checksum" (.ok Checksum.mk ⊛ .ok algorithm ⊛ chkStr s%"value" value)

/-- creation_info_parser.py L84-88 `parse_version` -/
def parseVersion : Json → Py Version := withStr fun s =>
  match versionFromString s with
  | some v => .ok v
  | none => .error (.parsing [.text (s%"Error while parsing version " ++ s ++ s%": " ++ s ++ s%" is not a valid version string")])

/-- creation_info_parser.py L103-117 `parse_external_document_ref` -/
def parseExternalDocumentRef (j : Json) : Py ExternalDocumentRef := do
  let (checksum, id, uri) ← P.orRaiseIn s%"ExternalDocumentRef" do
    let checksum ← parseField (← (pyGet j s%"checksum").lift) parseChecksum
    let id ← (pyGet j s%"externalDocumentId").lift
    let uri ← (pyGet j s%"spdxDocument").lift
    return (checksum, id, uri)
  construct s%"ExternalDocumentRef"
    (.ok ExternalDocumentRef.mk ⊛ chkStr s%"document_ref_id" id ⊛ chkStr s%"document_uri" uri ⊛ chkSome s%"checksum" checksum)

/-- `parse_field_or_log_error` for all items in turn (creation_info_parser.py L93-98): a faulty or empty item yields `None`. -/
def collectFields (m : Json → Py α) : List Json → P (List (Option α))
  | [] => return []
  | j :: js => do
    let a ← parseField j m
    let as ← collectFields m js
    return a :: as

/-- creation_info_parser.py L90-101 `parse_external_document_refs` -/
def parseExternalDocumentRefs (j : Json) : Py (List (Option ExternalDocumentRef)) := do
  let l ← pyIter j
  (collectFields parseExternalDocumentRef l).orRaise

/-- creation_info_parser.py L31-81 `parse_creation_info`. The message about a missing creation information also has the name. -/
def parseCreationInfo (j : Json) : Py CreationInfo := do
  let spdxVersion ← pyGet j s%"spdxVersion"
  let spdxId ← pyGet j s%"SPDXID"
  let name ← pyGet j s%"name"
  let ns ← pyGet j s%"documentNamespace"
  let ci ← pyGet j s%"creationInfo"
  if ci = .null then
    .error (.parsing [.wrapped s%"document" [.text s%"CreationInfo does not exist."]])
  else do
    let (creators, created, creatorComment, dataLicense, refs, version, comment) ← P.orRaiseIn s%"Document" do
      let creators ← parseField (← (pyGet ci s%"creators").lift) (parseList parseActorJson)
      let created ← parseField (← (pyGet ci s%"created").lift) parseDate
      let creatorComment ← (pyGet ci s%"comment").lift
      let dataLicense ← (pyGet j s%"dataLicense").lift
      let refs ← parseField (← (pyGet j s%"externalDocumentRefs").lift) parseExternalDocumentRefs
      let version ← parseField (← (pyGet ci s%"licenseListVersion").lift) parseVersion
      let comment ← (pyGet j s%"comment").lift
      return (creators, created, creatorComment, dataLicense, refs, version, comment)
    construct s%"CreationInfo"
      (.ok CreationInfo.mk ⊛ chkStr s%"spdx_version" spdxVersion ⊛ chkStr s%"spdx_id" spdxId ⊛ chkStr s%"name" name
        ⊛ chkStr s%"document_namespace" ns ⊛ chkSome s%"creators" creators ⊛ chkSome s%"created" created
        ⊛ chkOptStr s%"creator_comment" creatorComment ⊛ chkStr s%"data_license" dataLicense
        ⊛ chkAll s%"external_document_refs" refs ⊛ .ok version ⊛ chkOptStr s%"document_comment" comment)

/-- package_parser.py L177-191 `parse_external_ref` (with L194-200) -/
def parseExternalRef (j : Json) : Py ExternalPackageRef := do
  let (category, locator, type, comment) ← P.orRaiseIn s%"ExternalPackageRef" do
    let category ← parseField (← (pyGet j s%"referenceCategory").lift)
      (parseEnum s%"ExternalPackageRefCategory" ExternalPackageRefCategory.ofName?)
    let locator ← (pyGet j s%"referenceLocator").lift
    let type ← (pyGet j s%"referenceType").lift
    let comment ← (pyGet j s%"comment").lift
    return (category, locator, type, comment)
  construct s%"ExternalPackageRef"
    (.ok ExternalPackageRef.mk ⊛ chkSome s%"category" category ⊛ chkStr s%"reference_type" type ⊛ chkStr s%"locator" locator
      ⊛ chkOptStr s%"comment" comment)

/-- The external references that can be read (package_parser.py L169-175 `parse_external_refs`): faulty ones are left out here and
    logged in the logger shared by all packages, see `externalRefMessages`. -/
def parseExternalRefs (j : Json) : Py (List ExternalPackageRef) := do
  let l ← pyIter j
  match collect parseExternalRef l with
  | .ok (_, refs) => .ok refs
  | .error e => .error e

/-- What `parse_external_refs` adds to the shared logger (package_parser.py L172-174), when nothing uncaught is raised. -/
def externalRefMessages (package : Json) : List PMsg :=
  match pyGet package s%"externalRefs" with
  | .error _ => []
  | .ok refs =>
    if refs.truthy then
      match pyIter refs with
      | .error _ => []
      | .ok l => match collect parseExternalRef l with
        | .ok (ms, _) => ms
        | .error _ => []
    else []

/-- package_parser.py L202-211 `parse_package_verification_code` -/
def parseVerificationCode (j : Json) : Py PackageVerificationCode := do
  let excluded ← pyGetD j s%"packageVerificationCodeExcludedFiles" (.arr [])
  let value ← pyGet j s%"packageVerificationCodeValue"
  construct s%"PackageVerificationCode"
    (.ok PackageVerificationCode.mk ⊛ chkStr s%"value" value ⊛ chkStrList s%"excluded_files" excluded)

/-- package_parser.py L78-84 -/
def filesAnalyzedValue : Json → Json
  | .null => .bool true
  | .str s => if lowerAscii s = s%"true" then .bool true else if lowerAscii s = s%"false" then .bool false else .str s
  | j => j

/-- `lambda x: parse_field_or_no_assertion(x, self.actor_parser.parse_actor)` -/
def parseActorOrNoAssertion (j : Json) : Py (OrNoAssertion Actor) :=
  match parseNoAssertion j with
  | .noAssertion => .ok .noAssertion
  | .val j => (parseActorJson j).map .val

/-- package_parser.py L50-167 `parse_package` -/
def parsePackage (L : LicText) (j : Json) : Py Package := do
  let name ← pyGet j s%"name"
  let spdxId ← pyGet j s%"SPDXID"
  let attribution ← pyGetD j s%"attributionTexts" (.arr [])
  let (built, checksums, refs, concluded, declared, info, originator, code, purpose, release, supplier, validUntil) ←
    P.orRaiseIn s%"Package" do
      let built ← parseField (← (pyGet j s%"builtDate").lift) parseDate
      let checksums ← parseField (← (pyGet j s%"checksums").lift) (parseList parseChecksum)
      let refs ← parseField (← (pyGet j s%"externalRefs").lift) parseExternalRefs
      let concluded ← parseField (← (pyGet j s%"licenseConcluded").lift) (parseLicense L)
      let declared ← parseField (← (pyGet j s%"licenseDeclared").lift) (parseLicense L)
      let info ← parseField (← (pyGet j s%"licenseInfoFromFiles").lift) (parseList (parseLicense L))
      let originator ← parseField (← (pyGet j s%"originator").lift) parseActorOrNoAssertion
      let code ← parseField (← (pyGet j s%"packageVerificationCode").lift) parseVerificationCode
      let purpose ← parseField (← (pyGet j s%"primaryPackagePurpose").lift)
        (parseEnum s%"PrimaryPackagePurpose" PackagePurpose.ofName?)
      let release ← parseField (← (pyGet j s%"releaseDate").lift) parseDate
      let supplier ← parseField (← (pyGet j s%"supplier").lift) parseActorOrNoAssertion
      let validUntil ← parseField (← (pyGet j s%"validUntilDate").lift) parseDate
      return (built, checksums, refs, concluded, declared, info, originator, code, purpose, release, supplier, validUntil)
  let comment ← pyGet j s%"comment"
  let copyright ← pyGet j s%"copyrightText"
  let description ← pyGet j s%"description"
  let download ← pyGet j s%"downloadLocation"
  let filesAnalyzed ← pyGet j s%"filesAnalyzed"
  let homepage ← pyGet j s%"homepage"
  let licenseComments ← pyGet j s%"licenseComments"
  let fileName ← pyGet j s%"packageFileName"
  let sourceInfo ← pyGet j s%"sourceInfo"
  let summary ← pyGet j s%"summary"
  let version ← pyGet j s%"versionInfo"
  construct s%"Package"
    (.ok Package.mk ⊛ chkStr s%"spdx_id" spdxId ⊛ chkStr s%"name" name ⊛ chkSpecial s%"download_location" (parseSpecial download)
      ⊛ chkOptStr s%"version" version ⊛ chkOptStr s%"file_name" fileName ⊛ .ok supplier ⊛ .ok originator
      ⊛ chkBool s%"files_analyzed" (filesAnalyzedValue filesAnalyzed) ⊛ .ok code ⊛ .ok (checksums.getD [])
      ⊛ chkOptSpecial s%"homepage" (parseSpecial homepage) ⊛ chkOptStr s%"source_info" sourceInfo ⊛ .ok concluded.join
      ⊛ chkAll s%"license_info_from_files" info ⊛ .ok declared.join ⊛ chkOptStr s%"license_comment" licenseComments
      ⊛ chkOptSpecial s%"copyright_text" (parseSpecial copyright) ⊛ chkOptStr s%"summary" summary
      ⊛ chkOptStr s%"description" description ⊛ chkOptStr s%"comment" comment ⊛ .ok (refs.getD [])
      ⊛ chkStrList s%"attribution_texts" attribution ⊛ .ok purpose ⊛ .ok release ⊛ .ok built ⊛ .ok validUntil)

/-- json_like_dict_parser.py L49: `parse_list_of_elements(x, parse_package, package_parser.logger)`; the messages of faulty external
    references come before those of their package. -/
def collectPackages (L : LicText) : List Json → P (List Package)
  | [] => .ok ([], [])
  | j :: js =>
    match parsePackage L j with
    | .ok a => match collectPackages L js with
      | .ok (ms, as) => .ok (externalRefMessages j ++ ms, a :: as)
      | .error e => .error e
    | .error e => match e.logged with
      | some ms' => match collectPackages L js with
        | .ok (ms, as) => .ok (externalRefMessages j ++ ms' ++ ms, as)
        | .error e => .error e
      | none => .error e

def parsePackages (L : LicText) (j : Json) : Py (List Package) := do
  let l ← pyIter j
  (collectPackages L l).orRaise

/-- file_parser.py L89-93: one file type, or the message logged; an unhashable entry raises `TypeError`. -/
def fileTypeEntry : Json → Py (PMsg ⊕ FileType)
  | .str s => match FileType.ofName? s with
    | some t => .ok (.inr t)
    | none => .ok (.inl (.invalid s%"FileType" (.str s)))
  | j => if j.hashable then .ok (.inl (.invalid s%"FileType" j)) else .error (.type s%"unhashable type")

/-- file_parser.py L88-94: the loop over the file types -/
def collectFileTypes : List Json → P (List FileType)
  | [] => .ok ([], [])
  | j :: js =>
    match fileTypeEntry j with
    | .error e => .error e
    | .ok r => match collectFileTypes js with
      | .error e => .error e
      | .ok (ms, ts) => match r with
        | .inr t => .ok (ms, t :: ts)
        | .inl m => .ok (m :: ms, ts)

/-- file_parser.py L84-96 `parse_file_types` -/
def parseFileTypes (j : Json) : Py (List FileType) := do
  let l ← pyIter j
  (collectFileTypes l).orRaiseIn s%"FileType"

/-- file_parser.py L31-82 `parse_file` -/
def parseFile (L : LicText) (j : Json) : Py File := do
  let name ← pyGet j s%"fileName"
  let spdxId ← pyGet j s%"SPDXID"
  let attribution ← pyGetD j s%"attributionTexts" (.arr [])
  let comment ← pyGet j s%"comment"
  let copyright ← pyGet j s%"copyrightText"
  let contributors ← pyGetD j s%"fileContributors" (.arr [])
  let licenseComments ← pyGet j s%"licenseComments"
  let notice ← pyGet j s%"noticeText"
  let (checksums, types, concluded, info) ← P.orRaiseIn s%"File" do
    let checksums ← parseField (← (pyGet j s%"checksums").lift) (parseList parseChecksum)
    let types ← parseField (← (pyGet j s%"fileTypes").lift) parseFileTypes
    let concluded ← parseField (← (pyGet j s%"licenseConcluded").lift) (parseLicense L)
    let info ← parseField (← (pyGet j s%"licenseInfoInFiles").lift) (parseList (parseLicense L))
    return (checksums, types, concluded, info)
  construct s%"File"
    (.ok File.mk ⊛ chkStr s%"name" name ⊛ chkStr s%"spdx_id" spdxId ⊛ chkSome s%"checksums" checksums ⊛ .ok (types.getD [])
      ⊛ .ok concluded.join ⊛ chkAll s%"license_info_in_file" info ⊛ chkOptStr s%"license_comment" licenseComments
      ⊛ chkOptSpecial s%"copyright_text" (parseSpecial copyright) ⊛ chkOptStr s%"comment" comment
      ⊛ chkOptStr s%"notice" notice ⊛ chkStrList s%"contributors" contributors ⊛ chkStrList s%"attribution_texts" attribution)

/-- snippet_parser.py L20-22 -/
inductive RangeType where
  | BYTE | LINE
deriving Repr, DecidableEq

/-- snippet_parser.py L121-126 `validate_pointer_and_get_type` -/
def pointerType (p : Json) : Py RangeType := do
  let off ← pyIn s%"offset" p
  let line ← if off then pyIn s%"lineNumber" p else .ok false
  if off && line then .error (.value s%"Couldn't determine type of pointer: \"offset\" and \"lineNumber\" provided as key.")
  else do
    let line ← if off then .ok false else pyIn s%"lineNumber" p
    if !off && !line then .error (.value s%"Couldn't determine type of pointer: neither \"offset\" nor \"lineNumber\" provided as key.")
    else .ok (if off then .BYTE else .LINE)

/-- snippet_parser.py L109-118 `validate_range_and_get_type` -/
def rangeType (r : Json) : Py RangeType := do
  if !(← pyIn s%"startPointer" r) then .error (.value s%"Startpointer missing in snippet ranges.")
  else if !(← pyIn s%"endPointer" r) then .error (.value s%"Endpointer missing in snippet ranges.")
  else do
    let a ← pointerType (← pyIndex s%"startPointer" r)
    let b ← pointerType (← pyIndex s%"endPointer" r)
    if a ≠ b then .error (.value s%"Type of startpointer is not the same as type of endpointer.") else .ok a

/-- snippet_parser.py L98-107 `get_start_end_tuple` -/
def startEnd (r : Json) (t : RangeType) : Py (Json × Json) := do
  let e ← pyIndex s%"endPointer" r
  let s ← pyIndex s%"startPointer" r
  let key := match t with | .BYTE => s%"offset" | .LINE => s%"lineNumber"
  return (← pyIndex key s, ← pyIndex key e)

/-- snippet_parser.py L88-92: one range; only `ValueError` is caught -/
def parseRange (r : Json) : Py (RangeType × (Json × Json)) := do
  let t ← rangeType r
  let se ← startEnd r t
  return (t, se)

/-- snippet_parser.py L86-92: the loop over the ranges; a later range of a type replaces an earlier one -/
def collectRanges : List Json → Dict RangeType (Json × Json) → P (Dict RangeType (Json × Json))
  | [], acc => .ok ([], acc)
  | r :: rs, acc =>
    match parseRange r with
    | .ok (t, se) => collectRanges rs (acc.set t se)
    | .error (.value m) => match collectRanges rs acc with
      | .ok (ms, acc) => .ok (.text m :: ms, acc)
      | .error e => .error e
    | .error e => .error e

/-- snippet_parser.py L83-95 `parse_ranges` -/
def parseRanges (j : Json) : Py (Dict RangeType (Json × Json)) := do
  let l ← pyIter j
  (collectRanges l []).orRaiseIn s%"snippet ranges"

/-- snippet_parser.py L136-139. `str.isdigit` also accepts superscripts and the like, for which `int` raises `ValueError`; here they
    stay texts and fail the type check. -/
def intFromStr : Json → Json
  | .str s => if s ≠ [] ∧ s.all isPyDigit then (match digitsVal? s with | some n => .num n | none => .str s) else .str s
  | j => j

/-- snippet_parser.py L129-140 `convert_range_from_str` -/
def rangeFromStr (r : Option (Json × Json)) : Option (Json × Json) := r.map fun (a, b) => (intFromStr a, intFromStr b)

/-- snippet_parser.py L33-81 `parse_snippet` -/
def parseSnippet (L : LicText) (j : Json) : Py Snippet := do
  let spdxId ← pyGet j s%"SPDXID"
  let file ← pyGet j s%"snippetFromFile"
  let name ← pyGet j s%"name"
  let attribution ← pyGetD j s%"attributionTexts" (.arr [])
  let comment ← pyGet j s%"comment"
  let copyright ← pyGet j s%"copyrightText"
  let licenseComments ← pyGet j s%"licenseComments"
  let (ranges, concluded, info) ← P.orRaiseIn s%"snippet" do
    let ranges ← parseField (← (pyGetD j s%"ranges" (.arr [])).lift) parseRanges
    let concluded ← parseField (← (pyGet j s%"licenseConcluded").lift) (parseLicense L)
    let info ← parseField (← (pyGet j s%"licenseInfoInSnippets").lift) (parseList (parseLicense L))
    return (ranges.getD [], concluded, info)
  construct s%"Snippet"
    (.ok Snippet.mk ⊛ chkStr s%"spdx_id" spdxId ⊛ chkStr s%"file_spdx_id" file
      ⊛ chkRange s%"byte_range" (rangeFromStr (ranges.get? .BYTE)) ⊛ chkOptRange s%"line_range" (rangeFromStr (ranges.get? .LINE))
      ⊛ .ok concluded.join ⊛ chkAll s%"license_info_in_snippet" info ⊛ chkOptStr s%"license_comment" licenseComments
      ⊛ chkOptSpecial s%"copyright_text" (parseSpecial copyright) ⊛ chkOptStr s%"comment" comment
      ⊛ chkOptStr s%"name" name ⊛ chkStrList s%"attribution_texts" attribution)

/-- annotation_parser.py L95-99 `parse_annotation_type` -/
def parseAnnotationType : Json → Py AnnotationType
  | .str s => match AnnotationType.ofName? s with
    | some t => .ok t
    | none => .error (.parsing [.invalid s%"AnnotationType" (.str s)])
  | j => if j.hashable then .error (.parsing [.invalid s%"AnnotationType" j]) else .error (.type s%"unhashable type")

/-- annotation_parser.py L63-92 `parse_annotation` -/
def parseAnnotation (parentId : Json) (j : Json) : Py Annotation := do
  let own ← pyGet j s%"SPDXID"
  let spdxId := if own.truthy then own else parentId
  let comment ← pyGet j s%"comment"
  let (type, annotator, date) ← P.orRaiseIn s%"Annotation" do
    let type ← parseField (← (pyGet j s%"annotationType").lift) parseAnnotationType
    let annotator ← parseField (← (pyGet j s%"annotator").lift) parseActorJson
    let date ← parseField (← (pyGet j s%"annotationDate").lift) parseDate
    return (type, annotator, date)
  construct s%"Annotation"
    (.ok Annotation.mk ⊛ chkStr s%"spdx_id" spdxId ⊛ chkSome s%"annotation_type" type ⊛ chkSome s%"annotator" annotator
      ⊛ chkSome s%"annotation_date" date ⊛ chkStr s%"annotation_comment" comment)

/-- annotation_parser.py L101-125 `parse_review` -/
def parseReview (docId : Json) (j : Json) : Py Annotation := do
  let comment ← pyGet j s%"comment"
  let (annotator, date) ← P.orRaiseIn s%"Annotation from revieweds" do
    let annotator ← parseField (← (pyGet j s%"reviewer").lift) parseActorJson
    let date ← parseField (← (pyGet j s%"reviewDate").lift) parseDate
    return (annotator, date)
  construct s%"Annotation"
    (.ok Annotation.mk ⊛ chkStr s%"spdx_id" docId ⊛ .ok .REVIEW ⊛ chkSome s%"annotator" annotator
      ⊛ chkSome s%"annotation_date" date ⊛ chkStr s%"annotation_comment" comment)

/-- annotation_parser.py L49-61 `parse_annotations_from_object` -/
def annotationsFrom : List Json → P (List Annotation)
  | [] => return []
  | element :: rest => do
    let id ← (pyGet element s%"SPDXID").lift
    let annotations ← (pyGetD element s%"annotations" (.arr [])).lift
    let here ← parseField annotations (parseList (parseAnnotation id))
    return here.getD [] ++ (← annotationsFrom rest)

/-- annotation_parser.py L31-47 `parse_all_annotations` -/
def parseAllAnnotations (j : Json) : Py (List Annotation) :=
  P.orRaiseIn s%"annotations" do
    let ofDoc ← annotationsFrom [j]
    let reviews ← (pyGetD j s%"revieweds" (.arr []) >>= pyIter).lift
    let id ← (pyGet j s%"SPDXID").lift
    let ofReviews ← collect (parseReview id) reviews
    let ofPackages ← annotationsFrom (← (pyGetD j s%"packages" (.arr []) >>= pyIter).lift)
    let ofFiles ← annotationsFrom (← (pyGetD j s%"files" (.arr []) >>= pyIter).lift)
    let ofSnippets ← annotationsFrom (← (pyGetD j s%"snippets" (.arr []) >>= pyIter).lift)
    return ofDoc ++ ofReviews ++ ofPackages ++ ofFiles ++ ofSnippets

/-- relationship_parser.py L81-102 `parse_relationship` -/
def parseRelationship (j : Json) : Py Relationship := do
  let id ← pyGet j s%"spdxElementId"
  let related ← pyGet j s%"relatedSpdxElement"
  let comment ← pyGet j s%"comment"
  let type ← P.orRaiseIn s%"Relationship" do
    parseField (← (pyGet j s%"relationshipType").lift) (parseEnum s%"RelationshipType" RelationshipType.ofName?)
  construct s%"Relationship"
    (.ok Relationship.mk ⊛ chkStr s%"spdx_element_id" id ⊛ chkSome s%"relationship_type" type
      ⊛ chkSpecial s%"related_spdx_element_id" (parseSpecial related) ⊛ chkOptStr s%"comment" comment)

/-- relationship_parser.py L194-199 `invert_relationship_types`, on the types it is used for -/
def invertType : RelationshipType → RelationshipType
  | .DESCRIBES => .DESCRIBED_BY
  | .DESCRIBED_BY => .DESCRIBES
  | .CONTAINS => .CONTAINED_BY
  | .CONTAINED_BY => .CONTAINS
  | t => t

/-- The relationship stated by `documentDescribes` or `hasFiles`, and its inverse (relationship_parser.py L186-192). -/
def implicitRelationship (id : Str) (t : RelationshipType) (related : Str) : Relationship :=
  { spdxElementId := id, relationshipType := t, relatedSpdxElementId := .val related }
def invertedRelationship (id : Str) (t : RelationshipType) (related : Str) : Relationship :=
  { spdxElementId := related, relationshipType := invertType t, relatedSpdxElementId := .val id }

/-- relationship_parser.py L162-172 `check_if_relationship_exists` on an implicit relationship -/
def implicitExists (existing : List Relationship) (id : Str) (t : RelationshipType) (related : Str) : Bool :=
  existing.contains (implicitRelationship id t related) || existing.contains (invertedRelationship id t related)

/-- relationship_parser.py L175-184 -/
def withoutComments (rs : List Relationship) : List Relationship := rs.map fun r => { r with comment := none }

/-- relationship_parser.py L117-128 and L144-157: the loop over the related ids of one element. The messages name the fields whose
    type check failed. -/
def implicitLoop (existing : List Relationship) (id : Json) (t : RelationshipType) : List Json → List PMsg × List Relationship
  | [] => ([], [])
  | related :: rest =>
    let r := implicitLoop existing id t rest
    match id, related with
    | .str i, .str x => if implicitExists existing i t x then r else (r.1, implicitRelationship i t x :: r.2)
    | .str _, _ => (.constructing s%"Relationship" [s%"related_spdx_element_id"] :: r.1, r.2)
    | _, .str _ => (.constructing s%"Relationship" [s%"spdx_element_id"] :: r.1, r.2)
    | _, _ => (.constructing s%"Relationship" [s%"spdx_element_id", s%"related_spdx_element_id"] :: r.1, r.2)

/-- relationship_parser.py L112-131 `parse_document_describes`, applied to a list of distinct ids -/
def parseDocumentDescribes (id : Json) (existing : List Relationship) (described : List Json) : Py (List Relationship) :=
  P.orRaiseIn s%"document describes relationships" (.ok (implicitLoop existing id .DESCRIBES described))

/-- relationship_parser.py L139-157: the loop over the packages -/
def hasFilesLoop (existing : List Relationship) : List Json → P (List Relationship)
  | [] => .ok ([], [])
  | package :: rest => do
    let id ← (pyGet package s%"SPDXID").lift
    let files ← (pyGetD package s%"hasFiles" (.arr []) >>= deleteDuplicates).lift
    let here ← (.ok (implicitLoop existing id .CONTAINS files) : P _)
    return here ++ (← hasFilesLoop existing rest)

/-- relationship_parser.py L133-160 `parse_has_files` -/
def parseHasFiles (existing : List Relationship) (packages : Json) : Py (List Relationship) := do
  let l ← pyIter packages
  (hasFilesLoop existing l).orRaiseIn s%"package contains relationships"

/-- relationship_parser.py L28-79 `parse_all_relationships` (with L70-75, which add nothing) -/
def parseAllRelationships (j : Json) : Py (List Relationship) :=
  P.orRaise do
    let explicit ← parseField (← (pyGetD j s%"relationships" (.arr [])).lift) (parseList parseRelationship)
    let explicit := explicit.getD []
    let described ← (pyGetD j s%"documentDescribes" (.arr []) >>= deleteDuplicates).lift
    let id ← (pyGet j s%"SPDXID").lift
    let describes ← parseField (.arr described) (fun _ => parseDocumentDescribes id (withoutComments explicit) described)
    let soFar := explicit ++ describes.getD []
    let packages ← (pyGetD j s%"packages" (.arr [])).lift
    let contains ← parseField packages (parseHasFiles (withoutComments soFar))
    return soFar ++ contains.getD []

/-- extracted_licensing_info_parser.py L19-37 -/
def parseExtracted (j : Json) : Py ExtractedLicensingInfo := do
  let id ← pyGet j s%"licenseId"
  let text ← pyGet j s%"extractedText"
  let name ← pyGet j s%"name"
  let refs ← pyGetD j s%"seeAlsos" (.arr [])
  let comment ← pyGet j s%"comment"
  construct s%"ExtractedLicensingInfo"
    (.ok ExtractedLicensingInfo.mk ⊛ chkOptStr s%"license_id" id ⊛ chkOptStr s%"extracted_text" text
      ⊛ chkOptNoAssertion s%"license_name" (parseNoAssertion name) ⊛ chkStrList s%"cross_references" refs
      ⊛ chkOptStr s%"comment" comment)

/-- json_like_dict_parser.py L83-86: only `SPDXParsingError` is caught -/
def part (x : Py α) : P (Option α) :=
  match x with
  | .ok a => .ok ([], some a)
  | .error (.parsing ms) => .ok (ms, none)
  | .error e => .error e

/-- json_like_dict_parser.py L81-86 for an optional field -/
def optPart (j : Json) (m : Json → Py α) : P (Option α) := if j.truthy then part (m j) else .ok ([], none)

/-- json_like_dict_parser.py L43-92 `parse` -/
def parseDocument (L : LicText) (j : Json) : Py Document := do
  let (info, packages, files, annotations, snippets, relationships, extracted) ← P.orRaise do
    let info ← part (parseCreationInfo j)
    let packages ← optPart (← (pyGet j s%"packages").lift) (parsePackages L)
    let files ← optPart (← (pyGet j s%"files").lift) (parseList (parseFile L))
    let annotations ← optPart j parseAllAnnotations
    let snippets ← optPart (← (pyGet j s%"snippets").lift) (parseList (parseSnippet L))
    let relationships ← optPart j parseAllRelationships
    let extracted ← optPart (← (pyGet j s%"hasExtractedLicensingInfos").lift) (parseList parseExtracted)
    return (info, packages, files, annotations, snippets, relationships, extracted)
  construct s%"Document"
    (.ok Document.mk ⊛ chkSome s%"creation_info" info ⊛ .ok (packages.getD []) ⊛ .ok (files.getD [])
      ⊛ .ok (snippets.getD []) ⊛ .ok (annotations.getD []) ⊛ .ok (relationships.getD []) ⊛ .ok (extracted.getD []))

end Spdx
