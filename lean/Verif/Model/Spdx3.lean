import Verif.Model.Data
import Verif.Model.Enums
import Verif.Py.Dict
/- spdx3/model: the classes the migration from SPDX 2 creates, with the fields it sets. Fields that it never sets (extension, standard,
   content identifier, ...) are left out. -/
namespace Spdx

/-- spdx3/model/hash.py L13-37 -/
inductive HashAlgorithm where
  | BLAKE2B256 | BLAKE2B384 | BLAKE2B512 | BLAKE3 | CRYSTALS_KYBER | CRYSTALS_DILITHIUM | FALCON | MD2 | MD4 | MD5 | MD6 | OTHER | SHA1
  | SHA224 | SHA256 | SHA3_224 | SHA3_256 | SHA3_384 | SHA3_512 | SHA384 | SHA512 | SPDXPVCSHA1 | SPDXPVCSHA256 | SPHINCS_PLUS
deriving Repr, DecidableEq

/-- `member.name` -/
def HashAlgorithm.name : HashAlgorithm → Str
  | .BLAKE2B256 => s%"BLAKE2B256" | .BLAKE2B384 => s%"BLAKE2B384" | .BLAKE2B512 => s%"BLAKE2B512" | .BLAKE3 => s%"BLAKE3"
  | .CRYSTALS_KYBER => s%"CRYSTALS_KYBER" | .CRYSTALS_DILITHIUM => s%"CRYSTALS_DILITHIUM" | .FALCON => s%"FALCON"
  | .MD2 => s%"MD2" | .MD4 => s%"MD4" | .MD5 => s%"MD5" | .MD6 => s%"MD6" | .OTHER => s%"OTHER" | .SHA1 => s%"SHA1"
  | .SHA224 => s%"SHA224" | .SHA256 => s%"SHA256" | .SHA3_224 => s%"SHA3_224" | .SHA3_256 => s%"SHA3_256" | .SHA3_384 => s%"SHA3_384"
  | .SHA3_512 => s%"SHA3_512" | .SHA384 => s%"SHA384" | .SHA512 => s%"SHA512" | .SPDXPVCSHA1 => s%"SPDXPVCSHA1"
  | .SPDXPVCSHA256 => s%"SPDXPVCSHA256" | .SPHINCS_PLUS => s%"SPHINCS_PLUS"

/-- all members, in order -/
def HashAlgorithm.all : List HashAlgorithm :=
  [.BLAKE2B256, .BLAKE2B384, .BLAKE2B512, .BLAKE3, .CRYSTALS_KYBER, .CRYSTALS_DILITHIUM, .FALCON, .MD2, .MD4, .MD5, .MD6, .OTHER, .SHA1,
   .SHA224, .SHA256, .SHA3_224, .SHA3_256, .SHA3_384, .SHA3_512, .SHA384, .SHA512, .SPDXPVCSHA1, .SPDXPVCSHA256, .SPHINCS_PLUS]

/-- `HashAlgorithm[name]`; `none` models `KeyError` -/
def HashAlgorithm.ofName? (s : Str) : Option HashAlgorithm := HashAlgorithm.all.find? (fun m => m.name == s)

/-- spdx3/model/hash.py L40-46 -/
structure Hash3 where
  algorithm : HashAlgorithm
  hashValue : Str
deriving Repr, DecidableEq

/-- spdx3/model/relationship.py L15-77: the members the migration uses -/
inductive RelationshipType3 where
  | AMENDS | ANCESTOR | CONTAINS | COPY | DEPENDS_ON | DESCRIBES | DOCUMENTATION | EXAMPLE | EXPANDED_FROM_ARCHIVE | FILE_ADDED
  | FILE_DELETED | FILE_MODIFIED | GENERATES | METAFILE | OTHER | PATCH | REQUIREMENT_FOR | SPECIFICATION_FOR | TEST | TEST_CASE | VARIANT
deriving Repr, DecidableEq

/-- spdx3/model/relationship.py L80-83 -/
inductive Completeness where
  | INCOMPLETE | COMPLETE | NOASSERTION
deriving Repr, DecidableEq

/-- spdx3/model/lifecycle_scoped_relationship.py `LifecycleScopeType` -/
inductive Scope where
  | DESIGN | BUILD | DEVELOPMENT | TEST | RUNTIME | OTHER
deriving Repr, DecidableEq

/-- spdx3/model/software/software_dependency_relationship.py L23-27 -/
inductive Linkage where
  | STATIC | DYNAMIC | TOOL | OTHER
deriving Repr, DecidableEq

/-- spdx3/model/software/software_dependency_relationship.py L30-35 -/
inductive Conditionality where
  | OPTIONAL | REQUIRED | PROVIDED | PREREQUISITE | OTHER
deriving Repr, DecidableEq

/-- spdx3/model/relationship.py L86-120 `Relationship`; `software` holds the additional fields of a
    `SoftwareDependencyRelationship` -/
structure Relationship3 where
  spdxId : Str
  fromElement : Str
  relationshipType : RelationshipType3
  to : List Str
  comment : Option Str
  completeness : Option Completeness
  software : Option (Option Scope × Option Linkage × Option Conditionality)
deriving Repr, DecidableEq

/-- spdx3/model/external_identifier.py L14-25: the members the migration uses -/
inductive ExternalIdentifierType where
  | CPE22 | CPE23 | EMAIL | GITOID | PURL | SWHID | SWID
deriving Repr, DecidableEq

/-- spdx3/model/external_identifier.py L27-44 -/
structure ExternalIdentifier3 where
  type : ExternalIdentifierType
  identifier : Str
  comment : Option Str := none
deriving Repr, DecidableEq

/-- spdx3/model/external_reference.py L14-51: the members the migration uses -/
inductive ExternalReferenceType where
  | SECURITY_ADVISORY | SECURITY_FIX
deriving Repr, DecidableEq

/-- spdx3/model/external_reference.py L54-69 -/
structure ExternalReference3 where
  type : ExternalReferenceType
  locator : List Str
  comment : Option Str
deriving Repr, DecidableEq

/-- spdx3/model/creation_info.py L15-36; spec version and profiles are constants of the migration -/
structure CreationInfo3 where
  created : DateTime
  createdBy : List Str
  createdUsing : List Str
  dataLicense : Str
deriving Repr, DecidableEq

/-- spdx3/model/external_map.py L13-28 -/
structure ExternalMap3 where
  externalId : Str
  verifiedUsing : List Hash3 := []
  definingDocument : Option Str := none
deriving Repr, DecidableEq

/-- spdx3/model/namespace_map.py L8-14 -/
structure NamespaceMap3 where
  nsPrefix : Str
  namespaceIri : Str
deriving Repr, DecidableEq

/-- spdx3/model/spdx_document.py L15-45 -/
structure SpdxDocument3 where
  spdxId : Str
  name : Str
  comment : Option Str
  creationInfo : CreationInfo3
  element : List Str
  rootElement : List Str
  imports : List ExternalMap3
  namespaces : List NamespaceMap3
deriving Repr, DecidableEq

/-- spdx3/model/person.py, organization.py and tool.py; `kind` is the class -/
structure Agent3 where
  kind : ActorType
  spdxId : Str
  creationInfo : Option CreationInfo3
  name : Str
  externalIdentifier : List ExternalIdentifier3
deriving Repr, DecidableEq

/-- spdx3/model/software/package.py; the purpose is the member of `SoftwarePurpose` with the same name -/
structure Package3 where
  spdxId : Str
  name : Str
  summary : Option Str
  description : Option Str
  comment : Option Str
  verifiedUsing : List Hash3
  externalReference : List ExternalReference3
  externalIdentifier : List ExternalIdentifier3
  originatedBy : List Str
  suppliedBy : List Str
  builtTime : Option DateTime
  releaseTime : Option DateTime
  validUntilTime : Option DateTime
  primaryPurpose : Option PackagePurpose
  packageVersion : Option Str
  downloadLocation : Option Str
  packageUrl : Option Str
  homepage : Option Str
  sourceInfo : Option Str
  copyrightText : Option Str
  attributionText : Str
deriving Repr, DecidableEq

/-- spdx3/model/software/file.py -/
structure File3 where
  spdxId : Str
  name : Str
  comment : Option Str
  verifiedUsing : List Hash3
  copyrightText : Option Str
  attributionText : Str
deriving Repr, DecidableEq

/-- spdx3/model/software/snippet.py -/
structure Snippet3 where
  spdxId : Str
  name : Option Str
  comment : Option Str
  byteRange : Int × Int
  lineRange : Option (Int × Int)
  copyrightText : Option Str
  attributionText : Str
deriving Repr, DecidableEq

/-- spdx3/model/annotation.py L21-47 -/
structure Annotation3 where
  spdxId : Str
  annotationType : AnnotationType
  subject : Str
  creationInfo : CreationInfo3
  statement : Str
deriving Repr, DecidableEq

/-- spdx3/model/element.py `Element` -/
inductive Element3 where
  | document (d : SpdxDocument3)
  | agent (a : Agent3)
  | package (p : Package3)
  | file (f : File3)
  | snippet (s : Snippet3)
  | relationship (r : Relationship3)
  | annotation (a : Annotation3)
deriving Repr, DecidableEq

/-- `element.spdx_id` -/
def Element3.spdxId : Element3 → Str
  | .document d => d.spdxId
  | .agent a => a.spdxId
  | .package p => p.spdxId
  | .file f => f.spdxId
  | .snippet s => s.spdxId
  | .relationship r => r.spdxId
  | .annotation a => a.spdxId

/-- spdx3/payload.py L9-22: a dict from identifiers to elements -/
abbrev Payload := Dict Str Element3

/-- spdx3/payload.py L15-16 `add_element` -/
def Payload.add (p : Payload) (e : Element3) : Payload := p.set e.spdxId e

end Spdx
