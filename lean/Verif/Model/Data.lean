import Verif.Py.Json
/-
The SPDX 2 data model (`spdx/model/*.py`).  `beartype` enforces the field types at run time; the model is typed instead.
-/
namespace Spdx

/-- A license expression of the `license_expression` library: a symbol, `license WITH exception`, or an n-ary
    conjunction / disjunction.  (External library; only the shape of its trees is modelled.) -/
inductive LicExpr where
  | sym (key : Str)
  | withExc (lic exc : Str)
  | and (args : List LicExpr)
  | or (args : List LicExpr)
deriving Repr, Inhabited

mutual
/-- Decidable equality of license expressions (structural). -/
def LicExpr.decEq : (a b : LicExpr) → Decidable (a = b)
  | .sym a, .sym b => if h : a = b then isTrue (by rw [h]) else isFalse (by simpa using h)
  | .withExc a c, .withExc b d =>
    if h : a = b then if h' : c = d then isTrue (by rw [h, h']) else isFalse (by simp [h'])
    else isFalse (by simp [h])
  | .and a, .and b => match LicExpr.decEqList a b with
    | isTrue h => isTrue (by rw [h])
    | isFalse h => isFalse (by simpa using h)
  | .or a, .or b => match LicExpr.decEqList a b with
    | isTrue h => isTrue (by rw [h])
    | isFalse h => isFalse (by simpa using h)
  | .sym _, .withExc .. | .sym _, .and _ | .sym _, .or _
  | .withExc .., .sym _ | .withExc .., .and _ | .withExc .., .or _
  | .and _, .sym _ | .and _, .withExc .. | .and _, .or _
  | .or _, .sym _ | .or _, .withExc .. | .or _, .and _ => isFalse (by simp)
def LicExpr.decEqList : (a b : List LicExpr) → Decidable (a = b)
  | [], [] => isTrue rfl
  | [], _ :: _ | _ :: _, [] => isFalse (by simp)
  | a :: as, b :: bs => match LicExpr.decEq a b, LicExpr.decEqList as bs with
    | isTrue h, isTrue h' => isTrue (by rw [h, h'])
    | isFalse h, _ => isFalse (by simp [h])
    | _, isFalse h => isFalse (by simp [h])
end
instance : DecidableEq LicExpr := LicExpr.decEq

/-- `Union[T, SpdxNoAssertion, SpdxNone]` (spdx/model/spdx_no_assertion.py, spdx/model/spdx_none.py). -/
inductive OrSpecial (α : Type) where
  | val (a : α)
  | noAssertion
  | none
deriving Repr, DecidableEq, Inhabited

/-- `Union[T, SpdxNoAssertion]`. -/
inductive OrNoAssertion (α : Type) where
  | val (a : α)
  | noAssertion
deriving Repr, DecidableEq, Inhabited

/-- spdx/model/actor.py L12-15 -/
inductive ActorType where
  | PERSON | ORGANIZATION | TOOL
deriving Repr, DecidableEq, Inhabited

/-- spdx/model/actor.py L18-25 -/
structure Actor where
  actorType : ActorType
  name : Str
  email : Option Str := none
deriving Repr, DecidableEq, Inhabited

/-- spdx/model/checksum.py L10-27 -/
inductive ChecksumAlgorithm where
  | SHA1 | SHA224 | SHA256 | SHA384 | SHA512 | SHA3_256 | SHA3_384 | SHA3_512
  | BLAKE2B_256 | BLAKE2B_384 | BLAKE2B_512 | BLAKE3 | MD2 | MD4 | MD5 | MD6 | ADLER32
deriving Repr, DecidableEq, Inhabited

/-- spdx/model/checksum.py L30-36 -/
structure Checksum where
  algorithm : ChecksumAlgorithm
  value : Str
deriving Repr, DecidableEq, Inhabited

/-- spdx/model/external_document_ref.py L10-17 -/
structure ExternalDocumentRef where
  documentRefId : Str
  documentUri : Str
  checksum : Checksum
deriving Repr, DecidableEq, Inhabited

/-- spdx/model/version.py L10-40. The constructor takes any ints; only natural numbers can be read from text. -/
structure Version where
  major : Nat
  minor : Nat
deriving Repr, DecidableEq, Inhabited

/-- `datetime.datetime`: calendar fields, microseconds, and for aware values the UTC offset in seconds. -/
structure DateTime where
  year : Nat
  month : Nat
  day : Nat
  hour : Nat := 0
  minute : Nat := 0
  second : Nat := 0
  micro : Nat := 0
  tz : Option Int := none
deriving Repr, DecidableEq, Inhabited

/-- spdx/model/annotation.py L12-14 -/
inductive AnnotationType where
  | REVIEW | OTHER
deriving Repr, DecidableEq, Inhabited

/-- spdx/model/annotation.py L17-33 -/
structure Annotation where
  spdxId : Str
  annotationType : AnnotationType
  annotator : Actor
  annotationDate : DateTime
  annotationComment : Str
deriving Repr, DecidableEq, Inhabited

/-- spdx/model/relationship.py L13-58 -/
inductive RelationshipType where
  | AMENDS | ANCESTOR_OF | BUILD_DEPENDENCY_OF | BUILD_TOOL_OF | CONTAINED_BY | CONTAINS | COPY_OF | DATA_FILE_OF
  | DEPENDENCY_MANIFEST_OF | DEPENDENCY_OF | DEPENDS_ON | DESCENDANT_OF | DESCRIBED_BY | DESCRIBES | DEV_DEPENDENCY_OF
  | DEV_TOOL_OF | DISTRIBUTION_ARTIFACT | DOCUMENTATION_OF | DYNAMIC_LINK | EXAMPLE_OF | EXPANDED_FROM_ARCHIVE
  | FILE_ADDED | FILE_DELETED | FILE_MODIFIED | GENERATED_FROM | GENERATES | HAS_PREREQUISITE | METAFILE_OF
  | OPTIONAL_COMPONENT_OF | OPTIONAL_DEPENDENCY_OF | OTHER | PACKAGE_OF | PATCH_APPLIED | PATCH_FOR | PREREQUISITE_FOR
  | PROVIDED_DEPENDENCY_OF | REQUIREMENT_DESCRIPTION_FOR | RUNTIME_DEPENDENCY_OF | SPECIFICATION_FOR | STATIC_LINK
  | TEST_CASE_OF | TEST_DEPENDENCY_OF | TEST_OF | TEST_TOOL_OF | VARIANT_OF
deriving Repr, DecidableEq, Inhabited

/-- spdx/model/relationship.py L61-75 -/
structure Relationship where
  spdxElementId : Str
  relationshipType : RelationshipType
  relatedSpdxElementId : OrSpecial Str
  comment : Option Str := none
deriving Repr, DecidableEq, Inhabited

/-- spdx/model/file.py L15-26 -/
inductive FileType where
  | SOURCE | BINARY | ARCHIVE | APPLICATION | AUDIO | IMAGE | TEXT | VIDEO | DOCUMENTATION | SPDX | OTHER
deriving Repr, DecidableEq, Inhabited

/-- spdx/model/file.py L29-68 -/
structure File where
  name : Str
  spdxId : Str
  checksums : List Checksum
  fileTypes : List FileType := []
  licenseConcluded : Option (OrSpecial LicExpr) := none
  licenseInfoInFile : List (OrSpecial LicExpr) := []
  licenseComment : Option Str := none
  copyrightText : Option (OrSpecial Str) := none
  comment : Option Str := none
  notice : Option Str := none
  contributors : List Str := []
  attributionTexts : List Str := []
deriving Repr, DecidableEq, Inhabited

/-- spdx/model/package.py L16-28 -/
inductive PackagePurpose where
  | APPLICATION | FRAMEWORK | LIBRARY | CONTAINER | OPERATING_SYSTEM | DEVICE | FIRMWARE | SOURCE | ARCHIVE | FILE
  | INSTALL | OTHER
deriving Repr, DecidableEq, Inhabited

/-- spdx/model/package.py L31-38 -/
structure PackageVerificationCode where
  value : Str
  excludedFiles : List Str := []
deriving Repr, DecidableEq, Inhabited

/-- spdx/model/package.py L41-45 -/
inductive ExternalPackageRefCategory where
  | SECURITY | PACKAGE_MANAGER | PERSISTENT_ID | OTHER
deriving Repr, DecidableEq, Inhabited

/-- spdx/model/package.py L48-53 `CATEGORY_TO_EXTERNAL_PACKAGE_REF_TYPES` -/
def categoryToRefTypes : ExternalPackageRefCategory → List Str
  | .SECURITY => [s%"cpe22Type", s%"cpe23Type", s%"advisory", s%"fix", s%"url", s%"swid"]
  | .PACKAGE_MANAGER => [s%"maven-central", s%"npm", s%"nuget", s%"bower", s%"purl"]
  | .PERSISTENT_ID => [s%"swh", s%"gitoid"]
  | .OTHER => []

/-- spdx/model/package.py L56-69 -/
structure ExternalPackageRef where
  category : ExternalPackageRefCategory
  referenceType : Str
  locator : Str
  comment : Option Str := none
deriving Repr, DecidableEq, Inhabited

/-- spdx/model/package.py L72-134 -/
structure Package where
  spdxId : Str
  name : Str
  downloadLocation : OrSpecial Str
  version : Option Str := none
  fileName : Option Str := none
  supplier : Option (OrNoAssertion Actor) := none
  originator : Option (OrNoAssertion Actor) := none
  filesAnalyzed : Bool := true
  verificationCode : Option PackageVerificationCode := none
  checksums : List Checksum := []
  homepage : Option (OrSpecial Str) := none
  sourceInfo : Option Str := none
  licenseConcluded : Option (OrSpecial LicExpr) := none
  licenseInfoFromFiles : List (OrSpecial LicExpr) := []
  licenseDeclared : Option (OrSpecial LicExpr) := none
  licenseComment : Option Str := none
  copyrightText : Option (OrSpecial Str) := none
  summary : Option Str := none
  description : Option Str := none
  comment : Option Str := none
  externalReferences : List ExternalPackageRef := []
  attributionTexts : List Str := []
  primaryPackagePurpose : Option PackagePurpose := none
  releaseDate : Option DateTime := none
  builtDate : Option DateTime := none
  validUntilDate : Option DateTime := none
deriving Repr, DecidableEq, Inhabited

/-- spdx/model/snippet.py L14-44 -/
structure Snippet where
  spdxId : Str
  fileSpdxId : Str
  byteRange : Int × Int
  lineRange : Option (Int × Int) := none
  licenseConcluded : Option (OrSpecial LicExpr) := none
  licenseInfoInSnippet : List (OrSpecial LicExpr) := []
  licenseComment : Option Str := none
  copyrightText : Option (OrSpecial Str) := none
  comment : Option Str := none
  name : Option Str := none
  attributionTexts : List Str := []
deriving Repr, DecidableEq, Inhabited

/-- spdx/model/extracted_licensing_info.py L13-30 -/
structure ExtractedLicensingInfo where
  licenseId : Option Str := none
  extractedText : Option Str := none
  licenseName : Option (OrNoAssertion Str) := none
  crossReferences : List Str := []
  comment : Option Str := none
deriving Repr, DecidableEq, Inhabited

/-- spdx/model/document.py L24-53 -/
structure CreationInfo where
  spdxVersion : Str
  spdxId : Str
  name : Str
  documentNamespace : Str
  creators : List Actor
  created : DateTime
  creatorComment : Option Str := none
  dataLicense : Str := s%"CC0-1.0"
  externalDocumentRefs : List ExternalDocumentRef := []
  licenseListVersion : Option Version := none
  documentComment : Option Str := none
deriving Repr, DecidableEq, Inhabited

/-- spdx/model/document.py L56-83 -/
structure Document where
  creationInfo : CreationInfo
  packages : List Package := []
  files : List File := []
  snippets : List Snippet := []
  annotations : List Annotation := []
  relationships : List Relationship := []
  extractedLicensingInfo : List ExtractedLicensingInfo := []
deriving Repr, DecidableEq, Inhabited

end Spdx
