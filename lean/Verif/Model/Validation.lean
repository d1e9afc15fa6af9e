import Verif.Py.Sort
import Verif.Model.Ids
import Verif.Model.Uri
/-
spdx/validation/*.py.  A validation message is modelled by its kind with the value it quotes, and by its context without
the reference to the full element.
-/
namespace Spdx

/-- spdx/validation/validation_message.py L11-25 -/
inductive SpdxElementType where
  | LICENSE_EXPRESSION | PACKAGE_VERIFICATION_CODE | EXTERNAL_DOCUMENT_REF | CHECKSUM | EXTERNAL_PACKAGE_REF | ACTOR | DOCUMENT
  | CREATION_INFO | PACKAGE | FILE | SNIPPET | ANNOTATION | RELATIONSHIP | EXTRACTED_LICENSING_INFO
deriving Repr, DecidableEq

/-- validation_message.py L28-33, without `full_element` -/
structure Ctx where
  spdxId : Option Str := none
  parentId : Option Str := none
  elementType : Option SpdxElementType := none
deriving Repr, DecidableEq

/-- The message texts. -/
inductive Msg where
  | versionUnsupported (v : Str)
  | versionMismatch (given document : Str)
  | cancelled
  | toolEmail (email : Str)
  | spdxId (m : IdMsg)
  | documentId (id : Str)
  | dataLicense (l : Str)
  | uriInvalid (uri : Str)
  | uriNoScheme (uri : Str)
  | docRefId (id : Str)
  | checksumUnsupported22 (a : ChecksumAlgorithm)
  | checksumValue (a : ChecksumAlgorithm) (v : Str)
  | containsElements (rs : List Relationship)
  | licenseInfoNotAnalyzed
  | downloadLocation (l : Str)
  | homepage (u : Str)
  | verificationCodeNotAnalyzed
  | absolutePath (name : Str)
  | verificationCodeValue (v : Str)
  | refOtherSpaces (locator : Str)
  | refUnsupported22 (t : Str)
  | refTypeNotInCategory (c : ExternalPackageRefCategory) (t : Str)
  | refUrl (t locator : Str)
  | refSwid (locator : Str)
  | refRegex (t locator : Str)
  | fieldUnsupported22 (field : Str)
  | fieldMandatory22 (field : Str)
  | noSha1 (as : List ChecksumAlgorithm)
  | byteRangeStart (r : Int × Int)
  | byteRangeOrder (r : Int × Int)
  | lineRangeStart (r : Int × Int)
  | lineRangeOrder (r : Int × Int)
  | relationshipUnsupported22 (t : RelationshipType)
  | licColons (token : Str)
  | licExtPrefix (loc token : Str)
  | licExtMissing (ref token : Str)
  | licUnrecognized (token : Str)
  | licParse (err : Str)
  | licenseId (id : Str)
  | extractedTextMissing
  | crossReference (u : Str)
  | noDescribes (id : Str)
  | duplicateIds (ids : List Str)
deriving Repr, DecidableEq

/-- validation_message.py L36-39 -/
structure VMsg where
  msg : Msg
  ctx : Ctx
deriving Repr, DecidableEq

/-- `"SPDX-2.2"` -/
def v22 : Str := s%"SPDX-2.2"
/-- `"SPDX-2.3"` -/
def v23 : Str := s%"SPDX-2.3"

/-- One message if a condition holds. -/
def msgIf (c : Prop) [Decidable c] (m : Msg) (x : Ctx) : List VMsg := if c then [⟨m, x⟩] else []

/-- spdx/validation/actor_validator.py L19-30 `validate_actor` -/
def validateActor (a : Actor) (parentId : Str) : List VMsg :=
  match a.actorType, a.email with
  | .TOOL, some e => [⟨.toolEmail e, { parentId := some parentId, elementType := some .ACTOR }⟩]
  | _, _ => []

/-- spdx/validation/checksum_validator.py L13-31 `algorithm_length`: minimal and maximal number of hex digits -/
def algorithmLength : ChecksumAlgorithm → Nat × Option Nat
  | .SHA1 => (40, some 40)
  | .SHA224 => (56, some 56)
  | .SHA256 => (64, some 64)
  | .SHA384 => (96, some 96)
  | .SHA512 => (128, some 128)
  | .SHA3_256 => (64, some 64)
  | .SHA3_384 => (96, some 96)
  | .SHA3_512 => (128, some 128)
  | .BLAKE2B_256 => (64, some 64)
  | .BLAKE2B_384 => (96, some 96)
  | .BLAKE2B_512 => (128, some 128)
  | .BLAKE3 => (256, none)
  | .MD2 => (32, some 32)
  | .MD4 => (32, some 32)
  | .MD5 => (32, some 32)
  | .MD6 => (0, some 512)
  | .ADLER32 => (8, some 8)

/-- `[0-9a-f]` -/
def isHexLower (c : Char) : Bool := isDigit09 c || ('a'.toNat ≤ c.toNat && c.toNat ≤ 'f'.toNat)

/-- Body of `^[0-9a-f]{lo,hi}$`. -/
def hexBody (b : Nat × Option Nat) (s : Str) : Bool :=
  s.all isHexLower && decide (b.1 ≤ s.length) && (match b.2 with | some hi => decide (s.length ≤ hi) | none => true)

/-- L47-56: algorithms rejected in SPDX-2.2 -/
def newAlgorithms23 : List ChecksumAlgorithm :=
  [.SHA3_512, .SHA3_384, .SHA3_256, .BLAKE3, .BLAKE2B_512, .BLAKE2B_384, .BLAKE2B_256, .ADLER32]

/-- spdx/validation/checksum_validator.py L42-74 `validate_checksum` -/
def validateChecksum (c : Checksum) (parentId : Str) (ver : Str) : List VMsg :=
  let ctx : Ctx := { parentId := some parentId, elementType := some .CHECKSUM }
  if ver = v22 ∧ newAlgorithms23.contains c.algorithm then [⟨.checksumUnsupported22 c.algorithm, ctx⟩]
  else msgIf (¬ dollar (hexBody (algorithmLength c.algorithm)) c.value) (.checksumValue c.algorithm c.value) ctx

/-- L34-39 `validate_checksums` -/
def validateChecksums (cs : List Checksum) (parentId : Str) (ver : Str) : List VMsg :=
  cs.flatMap (validateChecksum · parentId ver)

/-- spdx/validation/uri_validators.py L40-48 `validate_uri` -/
def validateUri (X : Ext) (uri : Str) : List Msg :=
  if !X.isAbsUri uri then [.uriInvalid uri]
  else if !X.uriHasScheme uri then [.uriNoScheme uri] else []

/-- spdx/validation/external_document_ref_validator.py L24-46 `validate_external_document_ref` -/
def validateExternalDocumentRef (X : Ext) (r : ExternalDocumentRef) (parentId : Str) (ver : Str) : List VMsg :=
  let ctx : Ctx := { parentId := some parentId, elementType := some .EXTERNAL_DOCUMENT_REF }
  msgIf (¬ isValidExternalDocRefId r.documentRefId) (.docRefId r.documentRefId) ctx ++
  (validateUri X r.documentUri).map (⟨·, ctx⟩) ++
  validateChecksum r.checksum parentId ver

/-- spdx/validation/creation_info_validator.py L15-38 `validate_creation_info` -/
def validateCreationInfo (X : Ext) (ci : CreationInfo) (ver : Str) : List VMsg :=
  let ctx : Ctx := { spdxId := some ci.spdxId, elementType := some .DOCUMENT }
  msgIf (ci.spdxId ≠ documentSpdxId) (.documentId ci.spdxId) ctx ++
  msgIf (ci.dataLicense ≠ s%"CC0-1.0") (.dataLicense ci.dataLicense) ctx ++
  (validateUri X ci.documentNamespace).map (⟨·, ctx⟩) ++
  ci.creators.flatMap (validateActor · ci.spdxId) ++
  ci.externalDocumentRefs.flatMap (validateExternalDocumentRef X · ci.spdxId ver)

/-- spdx/validation/license_expression_validator.py L45-82: the messages for one symbol not on the SPDX list -/
def validateLicToken (t : Str) (d : Document) : List Msg :=
  if hasChar ':' t then
    match splitOn ':' t with
    | [ref, loc] =>
      (if !startsWith loc s%"LicenseRef-" then [.licExtPrefix loc t] else []) ++
      (if !isExternalDocRefPresent ref d then [.licExtMissing ref t] else [])
    | _ => [.licColons t]
  else if !(d.extractedLicensingInfo.map (·.licenseId)).contains (some t) then [.licUnrecognized t] else []

/-- spdx/validation/license_expression_validator.py L28-96 `validate_license_expression` -/
def validateLicExpr (X : Ext) (e : Option (OrSpecial LicExpr)) (d : Document) (parentId : Str) : List VMsg :=
  match e with
  | some (.val e) =>
    let ctx : Ctx := { parentId := some parentId, elementType := some .LICENSE_EXPRESSION }
    (X.licInvalidSymbols e).flatMap (fun t => (validateLicToken t d).map (⟨·, ctx⟩)) ++
    (match X.licStrictParseError e with | some m => [⟨.licParse m, ctx⟩] | none => [])
  | _ => []

/-- L14-25 `validate_license_expressions` -/
def validateLicExprs (X : Ext) (es : List (OrSpecial LicExpr)) (d : Document) (parentId : Str) : List VMsg :=
  es.flatMap (fun e => validateLicExpr X (some e) d parentId)

/-- spdx/validation/package_verification_code_validator.py L13-35 `validate_verification_code` -/
def validateVerificationCode (v : PackageVerificationCode) (parentId : Str) : List VMsg :=
  let ctx : Ctx := { parentId := some parentId, elementType := some .PACKAGE_VERIFICATION_CODE }
  v.excludedFiles.flatMap (fun f => msgIf (startsWith f s%"/") (.absolutePath f) ctx) ++
  msgIf (¬ dollar (hexBody (40, some 40)) v.value) (.verificationCodeValue v.value) ctx

/-- spdx/validation/external_package_ref_validator.py L108-120 `validate_against_regex`; a type without pattern is a `KeyError`
    (unreachable, see `C45.regex_defined`), modelled as a failed match. -/
def locatorMatches (t locator : Str) : Bool :=
  match typeToRegex.lookup t with
  | some r => r.anchored locator
  | none => false

/-- spdx/validation/external_package_ref_validator.py L51-105 `validate_external_package_ref` -/
def validateExternalPackageRef (X : Ext) (r : ExternalPackageRef) (parentId : Str) (ver : Str) : List VMsg :=
  let ctx : Ctx := { parentId := some parentId, elementType := some .EXTERNAL_PACKAGE_REF }
  if r.category = .OTHER then msgIf (hasChar ' ' r.locator) (.refOtherSpaces r.locator) ctx
  else if ver = v22 ∧ [s%"advisory", s%"fix", s%"url", s%"swid"].contains r.referenceType then
    [⟨.refUnsupported22 r.referenceType, ctx⟩]
  else if ¬ (categoryToRefTypes r.category).contains r.referenceType then
    [⟨.refTypeNotInCategory r.category r.referenceType, ctx⟩]
  else if [s%"advisory", s%"fix", s%"url"].contains r.referenceType then
    msgIf (¬ urlOk X r.locator) (.refUrl r.referenceType r.locator) ctx
  else if r.referenceType = s%"swid" then
    msgIf (¬ X.isUri r.locator ∨ ¬ startsWith r.locator s%"swid") (.refSwid r.locator) ctx
  else msgIf (¬ locatorMatches r.referenceType r.locator) (.refRegex r.referenceType r.locator) ctx

/-- spdx/validation/package_validator.py L105-160 `validate_package` -/
def validatePackage (X : Ext) (p : Package) (ver : Str) (ctx : Ctx) : List VMsg :=
  (match p.downloadLocation with
   | .val l => msgIf (¬ downloadLocationOk X l) (.downloadLocation l) ctx
   | _ => []) ++
  (match p.homepage with
   | some (.val u) => msgIf (¬ urlOk X u) (.homepage u) ctx
   | _ => []) ++
  (match p.verificationCode with
   | some v => if !p.filesAnalyzed then [⟨.verificationCodeNotAnalyzed, ctx⟩] else validateVerificationCode v p.spdxId
   | none => []) ++
  validateChecksums p.checksums p.spdxId ver ++
  p.externalReferences.flatMap (validateExternalPackageRef X · p.spdxId ver) ++
  (if ver = v22 then
    msgIf (p.primaryPackagePurpose ≠ none) (.fieldUnsupported22 s%"primary_package_purpose") ctx ++
    msgIf (p.builtDate ≠ none) (.fieldUnsupported22 s%"built_date") ctx ++
    msgIf (p.releaseDate ≠ none) (.fieldUnsupported22 s%"release_date") ctx ++
    msgIf (p.validUntilDate ≠ none) (.fieldUnsupported22 s%"valid_until_date") ctx ++
    msgIf (p.licenseConcluded = none) (.fieldMandatory22 s%"license_concluded") ctx ++
    msgIf (p.licenseDeclared = none) (.fieldMandatory22 s%"license_declared") ctx ++
    msgIf (p.copyrightText = none) (.fieldMandatory22 s%"copyright_text") ctx
  else [])

/-- package_validator.py L50-71: CONTAINS / CONTAINED_BY relationships between the package and files of the document -/
def packageFileRelationships (p : Package) (d : Document) : List Relationship :=
  (filterByTypeAndOrigin d.relationships .CONTAINS p.spdxId).filter
    (fun r => getTargetType r.relatedSpdxElementId d = some .file) ++
  (filterByTypeAndTarget d.relationships .CONTAINED_BY p.spdxId).filter
    (fun r => getElementType r.spdxElementId d = some .file)

/-- spdx/validation/package_validator.py L36-102 `validate_package_within_document` -/
def validatePackageInDocument (X : Ext) (p : Package) (ver : Str) (d : Document) : List VMsg :=
  let ctx : Ctx := { spdxId := some p.spdxId, parentId := some d.creationInfo.spdxId, elementType := some .PACKAGE }
  (validateSpdxId p.spdxId d false false).map (⟨.spdxId ·, ctx⟩) ++
  (if !p.filesAnalyzed then
    msgIf (packageFileRelationships p d ≠ []) (.containsElements (packageFileRelationships p d)) ctx else []) ++
  validateLicExpr X p.licenseConcluded d p.spdxId ++
  (if p.licenseInfoFromFiles ≠ [] then
    if !p.filesAnalyzed then [⟨.licenseInfoNotAnalyzed, ctx⟩] else validateLicExprs X p.licenseInfoFromFiles d p.spdxId
   else []) ++
  validateLicExpr X p.licenseDeclared d p.spdxId ++
  validatePackage X p ver ctx

/-- spdx/validation/file_validator.py L52-85 `validate_file` -/
def validateFile (f : File) (ver : Str) (ctx : Ctx) : List VMsg :=
  msgIf (startsWith f.name s%"/") (.absolutePath f.name) ctx ++
  msgIf (¬ (f.checksums.map (·.algorithm)).contains .SHA1) (.noSha1 (f.checksums.map (·.algorithm))) ctx ++
  validateChecksums f.checksums f.spdxId ver ++
  (if ver = v22 then
    msgIf (f.licenseConcluded = none) (.fieldMandatory22 s%"license_concluded") ctx ++
    msgIf (f.licenseInfoInFile = []) (.fieldMandatory22 s%"license_info_in_file") ctx ++
    msgIf (f.copyrightText = none) (.fieldMandatory22 s%"copyright_text") ctx
  else [])

/-- spdx/validation/file_validator.py L31-49 `validate_file_within_document` -/
def validateFileInDocument (X : Ext) (f : File) (ver : Str) (d : Document) : List VMsg :=
  let ctx : Ctx := { spdxId := some f.spdxId, parentId := some d.creationInfo.spdxId, elementType := some .FILE }
  (validateSpdxId f.spdxId d false false).map (⟨.spdxId ·, ctx⟩) ++
  validateLicExpr X f.licenseConcluded d f.spdxId ++
  validateLicExprs X f.licenseInfoInFile d f.spdxId ++
  validateFile f ver ctx

/-- spdx/validation/snippet_validator.py L60-108 `validate_snippet` -/
def validateSnippet (s : Snippet) (ver : Str) (ctx : Ctx) : List VMsg :=
  msgIf (s.byteRange.1 < 1) (.byteRangeStart s.byteRange) ctx ++
  msgIf (s.byteRange.1 > s.byteRange.2) (.byteRangeOrder s.byteRange) ctx ++
  (match s.lineRange with
   | some r => msgIf (r.1 < 1) (.lineRangeStart r) ctx ++ msgIf (r.1 > r.2) (.lineRangeOrder r) ctx
   | none => []) ++
  (if ver = v22 then
    msgIf (s.licenseConcluded = none) (.fieldMandatory22 s%"license_concluded") ctx ++
    msgIf (s.copyrightText = none) (.fieldMandatory22 s%"copyright_text") ctx
  else [])

/-- spdx/validation/snippet_validator.py L30-57 `validate_snippet_within_document` -/
def validateSnippetInDocument (X : Ext) (s : Snippet) (ver : Str) (d : Document) : List VMsg :=
  let ctx : Ctx := { spdxId := some s.spdxId, parentId := some d.creationInfo.spdxId, elementType := some .SNIPPET }
  (validateSpdxId s.spdxId d false false).map (⟨.spdxId ·, ctx⟩) ++
  (validateSpdxId s.fileSpdxId d false true).map (⟨.spdxId ·, ctx⟩) ++
  validateLicExpr X s.licenseConcluded d s.spdxId ++
  validateLicExprs X s.licenseInfoInSnippet d s.spdxId ++
  validateSnippet s ver ctx

/-- spdx/validation/annotation_validator.py L21-31 `validate_annotation` -/
def validateAnnotation (a : Annotation) (d : Document) : List VMsg :=
  let ctx : Ctx := { elementType := some .ANNOTATION }
  validateActor a.annotator s%"annotation" ++
  (validateSpdxId a.spdxId d true false).map (⟨.spdxId ·, ctx⟩)

/-- spdx/validation/relationship_validator.py L22-46 `validate_relationship` -/
def validateRelationship (r : Relationship) (ver : Str) (d : Document) : List VMsg :=
  let ctx : Ctx := { elementType := some .RELATIONSHIP }
  (validateSpdxId r.spdxElementId d true false).map (⟨.spdxId ·, ctx⟩) ++
  (match r.relatedSpdxElementId with
   | .val id => (validateSpdxId id d true false).map (⟨.spdxId ·, ctx⟩)
   | _ => []) ++
  (if ver = v22 then
    msgIf (r.relationshipType = .SPECIFICATION_FOR ∨ r.relationshipType = .REQUIREMENT_DESCRIPTION_FOR)
      (.relationshipUnsupported22 r.relationshipType) ctx
  else [])

/-- spdx/validation/extracted_licensing_info_validator.py L24-49 `validate_extracted_licensing_info` -/
def validateExtracted (X : Ext) (e : ExtractedLicensingInfo) : List VMsg :=
  let ctx : Ctx := { elementType := some .EXTRACTED_LICENSING_INFO }
  (match e.licenseId with
   | some id =>
     if id ≠ [] then
       msgIf (¬ dollar (idBody s%"LicenseRef-" isIdChar) id) (.licenseId id) ctx ++
       msgIf (e.extractedText = none ∨ e.extractedText = some []) .extractedTextMissing ctx
     else []
   | none => []) ++
  e.crossReferences.flatMap (fun u => msgIf (¬ urlOk X u) (.crossReference u) ctx)

/-- spdx/validation/document_validator.py L83-86: the identifiers met a second time while scanning -/
def dupScan : List Str → List Str → List Str
  | _, [] => []
  | seen, x :: xs => if seen.contains x then x :: dupScan seen xs else dupScan (x :: seen) xs

/-- L84-92: `sorted(set(...))` of the duplicates (order by code points) -/
def duplicatedIds (ids : List Str) : List Str :=
  sortStr (dupScan [] ids).eraseDups

/-- document_validator.py L20-43: the messages about the version -/
def versionMsgs (d : Document) (ver : Option Str) : List VMsg :=
  let docVer := d.creationInfo.spdxVersion
  let ctx : Ctx := { spdxId := some d.creationInfo.spdxId, elementType := some .DOCUMENT }
  let ver := match ver with | some v => if v = [] then docVer else v | none => docVer
  if ¬ [v22, v23].contains docVer then [⟨.versionUnsupported docVer, ctx⟩]
  else if ver ≠ docVer then [⟨.versionMismatch ver docVer, ctx⟩]
  else []

/-- document_validator.py L56-62: the messages about the parts of the document (the version equals the document's here) -/
def partMsgs (X : Ext) (d : Document) : List VMsg :=
  let ver := d.creationInfo.spdxVersion
  validateCreationInfo X d.creationInfo ver ++
  d.packages.flatMap (validatePackageInDocument X · ver d) ++
  d.files.flatMap (validateFileInDocument X · ver d) ++
  d.snippets.flatMap (validateSnippetInDocument X · ver d) ++
  d.annotations.flatMap (validateAnnotation · d) ++
  d.relationships.flatMap (validateRelationship · ver d) ++
  d.extractedLicensingInfo.flatMap (validateExtracted X)

/-- document_validator.py L64-80 -/
def describesMsgs (d : Document) : List VMsg :=
  let id := d.creationInfo.spdxId
  let onlyOnePackage := d.packages.length = 1 ∧ d.files = [] ∧ d.snippets = []
  msgIf (¬ onlyOnePackage ∧
      filterByTypeAndOrigin d.relationships .DESCRIBES id ++ filterByTypeAndTarget d.relationships .DESCRIBED_BY id = [])
    (.noDescribes id) { spdxId := some id, elementType := some .DOCUMENT }

/-- document_validator.py L82-95 -/
def duplicateMsgs (d : Document) : List VMsg :=
  msgIf (duplicatedIds (allSpdxIds d) ≠ []) (.duplicateIds (duplicatedIds (allSpdxIds d)))
    { spdxId := some d.creationInfo.spdxId, elementType := some .DOCUMENT }

/-- spdx/validation/document_validator.py L19-97 `validate_full_spdx_document` -/
def validateDocument (X : Ext) (d : Document) (ver : Option Str := none) : List VMsg :=
  match versionMsgs d ver with
  | [] => partMsgs X d ++ describesMsgs d ++ duplicateMsgs d
  | ms => ms ++ [⟨.cancelled, { spdxId := some d.creationInfo.spdxId, elementType := some .DOCUMENT }⟩]

end Spdx
