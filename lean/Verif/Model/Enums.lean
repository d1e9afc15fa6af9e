import Verif.Model.Data
/-
Names of enum members (`Member.name`) and lookup by name (`Enum[name]`, `KeyError` when absent).
-/
namespace Spdx

/-- All members, in definition order (spdx/model/actor.py L12-15). -/
def ActorType.all : List ActorType :=
  [.PERSON, .ORGANIZATION, .TOOL]

/-- `member.name` (spdx/model/actor.py L12-15) -/
def ActorType.name : ActorType → Str
  | .PERSON => s%"PERSON"
  | .ORGANIZATION => s%"ORGANIZATION"
  | .TOOL => s%"TOOL"

/-- `ActorType[name]`; `none` models `KeyError` -/
def ActorType.ofName? (s : Str) : Option ActorType := ActorType.all.find? (fun m => m.name == s)

/-- All members, in definition order (spdx/model/checksum.py L10-27). -/
def ChecksumAlgorithm.all : List ChecksumAlgorithm :=
  [.SHA1, .SHA224, .SHA256, .SHA384, .SHA512, .SHA3_256, .SHA3_384, .SHA3_512, .BLAKE2B_256, .BLAKE2B_384, .BLAKE2B_512, .BLAKE3, .MD2, .MD4, .MD5, .MD6, .ADLER32]

/-- `member.name` (spdx/model/checksum.py L10-27) -/
def ChecksumAlgorithm.name : ChecksumAlgorithm → Str
  | .SHA1 => s%"SHA1"
  | .SHA224 => s%"SHA224"
  | .SHA256 => s%"SHA256"
  | .SHA384 => s%"SHA384"
  | .SHA512 => s%"SHA512"
  | .SHA3_256 => s%"SHA3_256"
  | .SHA3_384 => s%"SHA3_384"
  | .SHA3_512 => s%"SHA3_512"
  | .BLAKE2B_256 => s%"BLAKE2B_256"
  | .BLAKE2B_384 => s%"BLAKE2B_384"
  | .BLAKE2B_512 => s%"BLAKE2B_512"
  | .BLAKE3 => s%"BLAKE3"
  | .MD2 => s%"MD2"
  | .MD4 => s%"MD4"
  | .MD5 => s%"MD5"
  | .MD6 => s%"MD6"
  | .ADLER32 => s%"ADLER32"

/-- `ChecksumAlgorithm[name]`; `none` models `KeyError` -/
def ChecksumAlgorithm.ofName? (s : Str) : Option ChecksumAlgorithm := ChecksumAlgorithm.all.find? (fun m => m.name == s)

/-- All members, in definition order (spdx/model/annotation.py L12-14). -/
def AnnotationType.all : List AnnotationType :=
  [.REVIEW, .OTHER]

/-- `member.name` (spdx/model/annotation.py L12-14) -/
def AnnotationType.name : AnnotationType → Str
  | .REVIEW => s%"REVIEW"
  | .OTHER => s%"OTHER"

/-- `AnnotationType[name]`; `none` models `KeyError` -/
def AnnotationType.ofName? (s : Str) : Option AnnotationType := AnnotationType.all.find? (fun m => m.name == s)

/-- All members, in definition order (spdx/model/relationship.py L13-58). -/
def RelationshipType.all : List RelationshipType :=
  [.AMENDS, .ANCESTOR_OF, .BUILD_DEPENDENCY_OF, .BUILD_TOOL_OF, .CONTAINED_BY, .CONTAINS, .COPY_OF, .DATA_FILE_OF, .DEPENDENCY_MANIFEST_OF, .DEPENDENCY_OF, .DEPENDS_ON, .DESCENDANT_OF, .DESCRIBED_BY, .DESCRIBES, .DEV_DEPENDENCY_OF, .DEV_TOOL_OF, .DISTRIBUTION_ARTIFACT, .DOCUMENTATION_OF, .DYNAMIC_LINK, .EXAMPLE_OF, .EXPANDED_FROM_ARCHIVE, .FILE_ADDED, .FILE_DELETED, .FILE_MODIFIED, .GENERATED_FROM, .GENERATES, .HAS_PREREQUISITE, .METAFILE_OF, .OPTIONAL_COMPONENT_OF, .OPTIONAL_DEPENDENCY_OF, .OTHER, .PACKAGE_OF, .PATCH_APPLIED, .PATCH_FOR, .PREREQUISITE_FOR, .PROVIDED_DEPENDENCY_OF, .REQUIREMENT_DESCRIPTION_FOR, .RUNTIME_DEPENDENCY_OF, .SPECIFICATION_FOR, .STATIC_LINK, .TEST_CASE_OF, .TEST_DEPENDENCY_OF, .TEST_OF, .TEST_TOOL_OF, .VARIANT_OF]

/-- `member.name` (spdx/model/relationship.py L13-58) -/
def RelationshipType.name : RelationshipType → Str
  | .AMENDS => s%"AMENDS"
  | .ANCESTOR_OF => s%"ANCESTOR_OF"
  | .BUILD_DEPENDENCY_OF => s%"BUILD_DEPENDENCY_OF"
  | .BUILD_TOOL_OF => s%"BUILD_TOOL_OF"
  | .CONTAINED_BY => s%"CONTAINED_BY"
  | .CONTAINS => s%"CONTAINS"
  | .COPY_OF => s%"COPY_OF"
  | .DATA_FILE_OF => s%"DATA_FILE_OF"
  | .DEPENDENCY_MANIFEST_OF => s%"DEPENDENCY_MANIFEST_OF"
  | .DEPENDENCY_OF => s%"DEPENDENCY_OF"
  | .DEPENDS_ON => s%"DEPENDS_ON"
  | .DESCENDANT_OF => s%"DESCENDANT_OF"
  | .DESCRIBED_BY => s%"DESCRIBED_BY"
  | .DESCRIBES => s%"DESCRIBES"
  | .DEV_DEPENDENCY_OF => s%"DEV_DEPENDENCY_OF"
  | .DEV_TOOL_OF => s%"DEV_TOOL_OF"
  | .DISTRIBUTION_ARTIFACT => s%"DISTRIBUTION_ARTIFACT"
  | .DOCUMENTATION_OF => s%"DOCUMENTATION_OF"
  | .DYNAMIC_LINK => s%"DYNAMIC_LINK"
  | .EXAMPLE_OF => s%"EXAMPLE_OF"
  | .EXPANDED_FROM_ARCHIVE => s%"EXPANDED_FROM_ARCHIVE"
  | .FILE_ADDED => s%"FILE_ADDED"
  | .FILE_DELETED => s%"FILE_DELETED"
  | .FILE_MODIFIED => s%"FILE_MODIFIED"
  | .GENERATED_FROM => s%"GENERATED_FROM"
  | .GENERATES => s%"GENERATES"
  | .HAS_PREREQUISITE => s%"HAS_PREREQUISITE"
  | .METAFILE_OF => s%"METAFILE_OF"
  | .OPTIONAL_COMPONENT_OF => s%"OPTIONAL_COMPONENT_OF"
  | .OPTIONAL_DEPENDENCY_OF => s%"OPTIONAL_DEPENDENCY_OF"
  | .OTHER => s%"OTHER"
  | .PACKAGE_OF => s%"PACKAGE_OF"
  | .PATCH_APPLIED => s%"PATCH_APPLIED"
  | .PATCH_FOR => s%"PATCH_FOR"
  | .PREREQUISITE_FOR => s%"PREREQUISITE_FOR"
  | .PROVIDED_DEPENDENCY_OF => s%"PROVIDED_DEPENDENCY_OF"
  | .REQUIREMENT_DESCRIPTION_FOR => s%"REQUIREMENT_DESCRIPTION_FOR"
  | .RUNTIME_DEPENDENCY_OF => s%"RUNTIME_DEPENDENCY_OF"
  | .SPECIFICATION_FOR => s%"SPECIFICATION_FOR"
  | .STATIC_LINK => s%"STATIC_LINK"
  | .TEST_CASE_OF => s%"TEST_CASE_OF"
  | .TEST_DEPENDENCY_OF => s%"TEST_DEPENDENCY_OF"
  | .TEST_OF => s%"TEST_OF"
  | .TEST_TOOL_OF => s%"TEST_TOOL_OF"
  | .VARIANT_OF => s%"VARIANT_OF"

/-- `RelationshipType[name]`; `none` models `KeyError` -/
def RelationshipType.ofName? (s : Str) : Option RelationshipType := RelationshipType.all.find? (fun m => m.name == s)

/-- All members, in definition order (spdx/model/file.py L15-26). -/
def FileType.all : List FileType :=
  [.SOURCE, .BINARY, .ARCHIVE, .APPLICATION, .AUDIO, .IMAGE, .TEXT, .VIDEO, .DOCUMENTATION, .SPDX, .OTHER]

/-- `member.name` (spdx/model/file.py L15-26) -/
def FileType.name : FileType → Str
  | .SOURCE => s%"SOURCE"
  | .BINARY => s%"BINARY"
  | .ARCHIVE => s%"ARCHIVE"
  | .APPLICATION => s%"APPLICATION"
  | .AUDIO => s%"AUDIO"
  | .IMAGE => s%"IMAGE"
  | .TEXT => s%"TEXT"
  | .VIDEO => s%"VIDEO"
  | .DOCUMENTATION => s%"DOCUMENTATION"
  | .SPDX => s%"SPDX"
  | .OTHER => s%"OTHER"

/-- `FileType[name]`; `none` models `KeyError` -/
def FileType.ofName? (s : Str) : Option FileType := FileType.all.find? (fun m => m.name == s)

/-- All members, in definition order (spdx/model/package.py L16-28). -/
def PackagePurpose.all : List PackagePurpose :=
  [.APPLICATION, .FRAMEWORK, .LIBRARY, .CONTAINER, .OPERATING_SYSTEM, .DEVICE, .FIRMWARE, .SOURCE, .ARCHIVE, .FILE, .INSTALL, .OTHER]

/-- `member.name` (spdx/model/package.py L16-28) -/
def PackagePurpose.name : PackagePurpose → Str
  | .APPLICATION => s%"APPLICATION"
  | .FRAMEWORK => s%"FRAMEWORK"
  | .LIBRARY => s%"LIBRARY"
  | .CONTAINER => s%"CONTAINER"
  | .OPERATING_SYSTEM => s%"OPERATING_SYSTEM"
  | .DEVICE => s%"DEVICE"
  | .FIRMWARE => s%"FIRMWARE"
  | .SOURCE => s%"SOURCE"
  | .ARCHIVE => s%"ARCHIVE"
  | .FILE => s%"FILE"
  | .INSTALL => s%"INSTALL"
  | .OTHER => s%"OTHER"

/-- `PackagePurpose[name]`; `none` models `KeyError` -/
def PackagePurpose.ofName? (s : Str) : Option PackagePurpose := PackagePurpose.all.find? (fun m => m.name == s)

/-- All members, in definition order (spdx/model/package.py L41-45). -/
def ExternalPackageRefCategory.all : List ExternalPackageRefCategory :=
  [.SECURITY, .PACKAGE_MANAGER, .PERSISTENT_ID, .OTHER]

/-- `member.name` (spdx/model/package.py L41-45) -/
def ExternalPackageRefCategory.name : ExternalPackageRefCategory → Str
  | .SECURITY => s%"SECURITY"
  | .PACKAGE_MANAGER => s%"PACKAGE_MANAGER"
  | .PERSISTENT_ID => s%"PERSISTENT_ID"
  | .OTHER => s%"OTHER"

/-- `ExternalPackageRefCategory[name]`; `none` models `KeyError` -/
def ExternalPackageRefCategory.ofName? (s : Str) : Option ExternalPackageRefCategory := ExternalPackageRefCategory.all.find? (fun m => m.name == s)

end Spdx
