import Verif.Py.Text
/- spdx3/writer/json_ld/SPDX_OWL.json: the vocabulary of SPDX 3 as shipped with the package. -/
namespace Spdx

/-- SPDX_OWL.json: the `@type` of a node is missing, a text or a list of texts -/
inductive OwlType where
  | missing
  | one (t : Str)
  | many (l : List Str)
deriving DecidableEq

/-- SPDX_OWL.json: what `sh:class` or `sh:datatype` demands of a value -/
inductive ValueKind where
  | cls (c : Str)
  | data (d : Str)
deriving DecidableEq

/-- SPDX_OWL.json: an entry of `sh:property`, without its `sh:name` -/
structure Shape where
  path : Str
  kind : ValueKind
  minCount : Nat
  maxCount : Option Nat
deriving DecidableEq

/-- SPDX_OWL.json: a node of `@graph`, without its comment and its term status -/
structure OwlNode where
  id : Str
  types : OwlType
  range : Option Str
  parent : Option Str
  shapes : List Shape
deriving DecidableEq

namespace OwlNode
/-- SPDX_OWL.json: a node of type `owl:NamedIndividual` and of an enumeration -/
def individual (id cls : Str) : OwlNode := ⟨id, .many [s%"owl:NamedIndividual", cls], none, none, []⟩
/-- SPDX_OWL.json: a node of type `owl:DatatypeProperty` -/
def dataProp (id range : Str) : OwlNode := ⟨id, .one s%"owl:DatatypeProperty", some range, none, []⟩
/-- SPDX_OWL.json: a node of type `owl:ObjectProperty` -/
def objProp (id range : Str) : OwlNode := ⟨id, .one s%"owl:ObjectProperty", some range, none, []⟩
/-- SPDX_OWL.json: a node of type `owl:Class` only -/
def plainClass (id : Str) (parent : Option Str) : OwlNode := ⟨id, .one s%"owl:Class", none, parent, []⟩
/-- SPDX_OWL.json: a node of types `owl:Class` and `sh:NodeShape` -/
def shapeClass (id : Str) (parent : Option Str) (shapes : List Shape) : OwlNode :=
  ⟨id, .many [s%"owl:Class", s%"sh:NodeShape"], none, parent, shapes⟩
/-- SPDX_OWL.json: a node without `@type` -/
def untyped (id : Str) : OwlNode := ⟨id, .missing, none, none, []⟩
end OwlNode
open OwlNode

/-- SPDX_OWL.json `@context` -/
def owlPrefixes : List (Str × Str) :=
  [(s%"ai", s%"https://spdx.org/rdf/AI/"), (s%"build", s%"https://spdx.org/rdf/Build/"), (s%"core", s%"https://spdx.org/rdf/Core/"),
   (s%"dataset", s%"https://spdx.org/rdf/Dataset/"), (s%"licensing", s%"https://spdx.org/rdf/Licensing/"),
   (s%"ns0", s%"http://www.w3.org/2003/06/sw-vocab-status/ns#"), (s%"owl", s%"http://www.w3.org/2002/07/owl#"),
   (s%"rdfs", s%"http://www.w3.org/2000/01/rdf-schema#"), (s%"security", s%"https://spdx.org/rdf/Security/"),
   (s%"sh", s%"http://www.w3.org/ns/shacl#"), (s%"software", s%"https://spdx.org/rdf/Software/"),
   (s%"xsd", s%"http://www.w3.org/2001/XMLSchema#")]

set_option maxRecDepth 10000 in
/-- SPDX_OWL.json `@graph`, nodes 0 to 61 -/
def owlGraph0 : List OwlNode :=
  [shapeClass s%"ai:AIPackage" (some s%"software:Package") [⟨s%"ai:metric", .cls s%"core:DictionaryEntry", 0, none⟩, ⟨s%"ai:modelExplainability", .data s%"xsd:string", 0, none⟩, ⟨s%"ai:domain", .data s%"xsd:string", 0, none⟩, ⟨s%"ai:standardCompliance", .data s%"xsd:string", 0, none⟩, ⟨s%"ai:hyperparameter", .cls s%"core:DictionaryEntry", 0, none⟩, ⟨s%"ai:energyConsumption", .data s%"xsd:string", 0, some 1⟩, ⟨s%"ai:limitation", .data s%"xsd:string", 0, some 1⟩, ⟨s%"ai:safetyRiskAssessment", .cls s%"ai:SafetyRiskAssessmentType", 0, some 1⟩, ⟨s%"ai:modelDataPreprocessing", .data s%"xsd:string", 0, none⟩, ⟨s%"ai:sensitivePersonalInformation", .cls s%"ai:PresenceType", 0, some 1⟩, ⟨s%"ai:informationAboutTraining", .data s%"xsd:string", 0, some 1⟩, ⟨s%"ai:informationAboutApplication", .data s%"xsd:string", 0, some 1⟩, ⟨s%"ai:typeOfModel", .data s%"xsd:string", 0, none⟩, ⟨s%"ai:autonomyType", .cls s%"ai:PresenceType", 0, some 1⟩, ⟨s%"ai:metricDecisionThreshold", .cls s%"core:DictionaryEntry", 0, none⟩],
   individual s%"https://spdx.org/rdf/AI/PresenceType/no" s%"ai:PresenceType",
   individual s%"https://spdx.org/rdf/AI/PresenceType/noAssertion" s%"ai:PresenceType",
   individual s%"https://spdx.org/rdf/AI/PresenceType/yes" s%"ai:PresenceType",
   individual s%"https://spdx.org/rdf/AI/SafetyRiskAssessmentType/high" s%"ai:SafetyRiskAssessmentType",
   individual s%"https://spdx.org/rdf/AI/SafetyRiskAssessmentType/low" s%"ai:SafetyRiskAssessmentType",
   individual s%"https://spdx.org/rdf/AI/SafetyRiskAssessmentType/medium" s%"ai:SafetyRiskAssessmentType",
   individual s%"https://spdx.org/rdf/AI/SafetyRiskAssessmentType/serious" s%"ai:SafetyRiskAssessmentType",
   shapeClass s%"build:Build" (some s%"core:Element") [⟨s%"build:configSourceDigest", .cls s%"core:Hash", 0, none⟩, ⟨s%"build:configSourceUri", .data s%"xsd:anyURI", 0, none⟩, ⟨s%"build:buildId", .data s%"xsd:string", 0, some 1⟩, ⟨s%"build:parameters", .cls s%"core:DictionaryEntry", 0, none⟩, ⟨s%"build:buildEndTime", .data s%"core:DateTime", 0, some 1⟩, ⟨s%"build:buildStartTime", .data s%"core:DateTime", 0, some 1⟩, ⟨s%"build:environment", .cls s%"core:DictionaryEntry", 0, none⟩, ⟨s%"build:buildType", .data s%"xsd:anyURI", 1, some 1⟩, ⟨s%"build:configSourceEntrypoint", .data s%"xsd:string", 0, none⟩],
   shapeClass s%"core:Annotation" (some s%"core:Element") [⟨s%"core:statement", .data s%"xsd:string", 0, some 1⟩, ⟨s%"core:subject", .cls s%"core:Element", 1, some 1⟩, ⟨s%"core:contentType", .data s%"core:MediaType", 0, none⟩, ⟨s%"core:annotationType", .cls s%"core:AnnotationType", 1, some 1⟩],
   individual s%"https://spdx.org/rdf/Core/AnnotationType/other" s%"core:AnnotationType",
   individual s%"https://spdx.org/rdf/Core/AnnotationType/review" s%"core:AnnotationType",
   shapeClass s%"core:AnonymousPayload" (some s%"core:Payload") [⟨s%"core:creationInfo", .cls s%"core:CreationInfo", 0, some 1⟩, ⟨s%"core:namespaces", .cls s%"core:NamespaceMap", 0, none⟩, ⟨s%"core:imports", .cls s%"core:ExternalMap", 0, none⟩],
   individual s%"https://spdx.org/rdf/Core/ExternalIdentifierType/cpe22" s%"core:ExternalIdentifierType",
   individual s%"https://spdx.org/rdf/Core/ExternalIdentifierType/cpe23" s%"core:ExternalIdentifierType",
   individual s%"https://spdx.org/rdf/Core/ExternalIdentifierType/cve" s%"core:ExternalIdentifierType",
   individual s%"https://spdx.org/rdf/Core/ExternalIdentifierType/email" s%"core:ExternalIdentifierType",
   individual s%"https://spdx.org/rdf/Core/ExternalIdentifierType/gitoid" s%"core:ExternalIdentifierType",
   individual s%"https://spdx.org/rdf/Core/ExternalIdentifierType/other" s%"core:ExternalIdentifierType",
   individual s%"https://spdx.org/rdf/Core/ExternalIdentifierType/pkgUrl" s%"core:ExternalIdentifierType",
   individual s%"https://spdx.org/rdf/Core/ExternalIdentifierType/securityOther" s%"core:ExternalIdentifierType",
   individual s%"https://spdx.org/rdf/Core/ExternalIdentifierType/swhid" s%"core:ExternalIdentifierType",
   individual s%"https://spdx.org/rdf/Core/ExternalIdentifierType/swid" s%"core:ExternalIdentifierType",
   individual s%"https://spdx.org/rdf/Core/ExternalIdentifierType/urlScheme" s%"core:ExternalIdentifierType",
   individual s%"https://spdx.org/rdf/Core/ExternalReferenceType/altDownloadLocation" s%"core:ExternalReferenceType",
   individual s%"https://spdx.org/rdf/Core/ExternalReferenceType/altWebPage" s%"core:ExternalReferenceType",
   individual s%"https://spdx.org/rdf/Core/ExternalReferenceType/binaryArtifact" s%"core:ExternalReferenceType",
   individual s%"https://spdx.org/rdf/Core/ExternalReferenceType/buildMeta" s%"core:ExternalReferenceType",
   individual s%"https://spdx.org/rdf/Core/ExternalReferenceType/buildSystem" s%"core:ExternalReferenceType",
   individual s%"https://spdx.org/rdf/Core/ExternalReferenceType/chat" s%"core:ExternalReferenceType",
   individual s%"https://spdx.org/rdf/Core/ExternalReferenceType/documentation" s%"core:ExternalReferenceType",
   individual s%"https://spdx.org/rdf/Core/ExternalReferenceType/funding" s%"core:ExternalReferenceType",
   individual s%"https://spdx.org/rdf/Core/ExternalReferenceType/issueTracker" s%"core:ExternalReferenceType",
   individual s%"https://spdx.org/rdf/Core/ExternalReferenceType/license" s%"core:ExternalReferenceType",
   individual s%"https://spdx.org/rdf/Core/ExternalReferenceType/mailingList" s%"core:ExternalReferenceType",
   individual s%"https://spdx.org/rdf/Core/ExternalReferenceType/metrics" s%"core:ExternalReferenceType",
   individual s%"https://spdx.org/rdf/Core/ExternalReferenceType/other" s%"core:ExternalReferenceType",
   individual s%"https://spdx.org/rdf/Core/ExternalReferenceType/releaseHistory" s%"core:ExternalReferenceType",
   individual s%"https://spdx.org/rdf/Core/ExternalReferenceType/releaseNotes" s%"core:ExternalReferenceType",
   individual s%"https://spdx.org/rdf/Core/ExternalReferenceType/securityAdvisory" s%"core:ExternalReferenceType",
   individual s%"https://spdx.org/rdf/Core/ExternalReferenceType/securityFix" s%"core:ExternalReferenceType",
   individual s%"https://spdx.org/rdf/Core/ExternalReferenceType/securityOther" s%"core:ExternalReferenceType",
   individual s%"https://spdx.org/rdf/Core/ExternalReferenceType/socialMedia" s%"core:ExternalReferenceType",
   individual s%"https://spdx.org/rdf/Core/ExternalReferenceType/sourceArtifact" s%"core:ExternalReferenceType",
   individual s%"https://spdx.org/rdf/Core/ExternalReferenceType/support" s%"core:ExternalReferenceType",
   individual s%"https://spdx.org/rdf/Core/ExternalReferenceType/vcs" s%"core:ExternalReferenceType",
   individual s%"https://spdx.org/rdf/Core/HashAlgorithm/blake2b256" s%"core:HashAlgorithm",
   individual s%"https://spdx.org/rdf/Core/HashAlgorithm/blake2b384" s%"core:HashAlgorithm",
   individual s%"https://spdx.org/rdf/Core/HashAlgorithm/blake2b512" s%"core:HashAlgorithm",
   individual s%"https://spdx.org/rdf/Core/HashAlgorithm/blake3" s%"core:HashAlgorithm",
   individual s%"https://spdx.org/rdf/Core/HashAlgorithm/crystalsDilithium" s%"core:HashAlgorithm",
   individual s%"https://spdx.org/rdf/Core/HashAlgorithm/crystalsKyber" s%"core:HashAlgorithm",
   individual s%"https://spdx.org/rdf/Core/HashAlgorithm/falcon" s%"core:HashAlgorithm",
   individual s%"https://spdx.org/rdf/Core/HashAlgorithm/md2" s%"core:HashAlgorithm",
   individual s%"https://spdx.org/rdf/Core/HashAlgorithm/md4" s%"core:HashAlgorithm",
   individual s%"https://spdx.org/rdf/Core/HashAlgorithm/md5" s%"core:HashAlgorithm",
   individual s%"https://spdx.org/rdf/Core/HashAlgorithm/md6" s%"core:HashAlgorithm",
   individual s%"https://spdx.org/rdf/Core/HashAlgorithm/other" s%"core:HashAlgorithm",
   individual s%"https://spdx.org/rdf/Core/HashAlgorithm/sha1" s%"core:HashAlgorithm",
   individual s%"https://spdx.org/rdf/Core/HashAlgorithm/sha224" s%"core:HashAlgorithm",
   individual s%"https://spdx.org/rdf/Core/HashAlgorithm/sha256" s%"core:HashAlgorithm",
   individual s%"https://spdx.org/rdf/Core/HashAlgorithm/sha384" s%"core:HashAlgorithm"]

set_option maxRecDepth 10000 in
/-- SPDX_OWL.json `@graph`, nodes 62 to 123 -/
def owlGraph1 : List OwlNode :=
  [individual s%"https://spdx.org/rdf/Core/HashAlgorithm/sha3_224" s%"core:HashAlgorithm",
   individual s%"https://spdx.org/rdf/Core/HashAlgorithm/sha3_256" s%"core:HashAlgorithm",
   individual s%"https://spdx.org/rdf/Core/HashAlgorithm/sha3_384" s%"core:HashAlgorithm",
   individual s%"https://spdx.org/rdf/Core/HashAlgorithm/sha3_512" s%"core:HashAlgorithm",
   individual s%"https://spdx.org/rdf/Core/HashAlgorithm/sha512" s%"core:HashAlgorithm",
   individual s%"https://spdx.org/rdf/Core/HashAlgorithm/spdxPvcSha1" s%"core:HashAlgorithm",
   individual s%"https://spdx.org/rdf/Core/HashAlgorithm/spdxPvcSha256" s%"core:HashAlgorithm",
   individual s%"https://spdx.org/rdf/Core/HashAlgorithm/sphincsPlus" s%"core:HashAlgorithm",
   individual s%"https://spdx.org/rdf/Core/LifecycleScopeType/build" s%"core:LifecycleScopeType",
   individual s%"https://spdx.org/rdf/Core/LifecycleScopeType/design" s%"core:LifecycleScopeType",
   individual s%"https://spdx.org/rdf/Core/LifecycleScopeType/development" s%"core:LifecycleScopeType",
   individual s%"https://spdx.org/rdf/Core/LifecycleScopeType/other" s%"core:LifecycleScopeType",
   individual s%"https://spdx.org/rdf/Core/LifecycleScopeType/runtime" s%"core:LifecycleScopeType",
   individual s%"https://spdx.org/rdf/Core/LifecycleScopeType/test" s%"core:LifecycleScopeType",
   shapeClass s%"core:Organization" (some s%"core:Agent") [], shapeClass s%"core:Person" (some s%"core:Agent") [],
   individual s%"https://spdx.org/rdf/Core/ProfileIdentifierType/ai" s%"core:ProfileIdentifierType",
   individual s%"https://spdx.org/rdf/Core/ProfileIdentifierType/build" s%"core:ProfileIdentifierType",
   individual s%"https://spdx.org/rdf/Core/ProfileIdentifierType/core" s%"core:ProfileIdentifierType",
   individual s%"https://spdx.org/rdf/Core/ProfileIdentifierType/dataset" s%"core:ProfileIdentifierType",
   individual s%"https://spdx.org/rdf/Core/ProfileIdentifierType/extension" s%"core:ProfileIdentifierType",
   individual s%"https://spdx.org/rdf/Core/ProfileIdentifierType/licensing" s%"core:ProfileIdentifierType",
   individual s%"https://spdx.org/rdf/Core/ProfileIdentifierType/security" s%"core:ProfileIdentifierType",
   individual s%"https://spdx.org/rdf/Core/ProfileIdentifierType/software" s%"core:ProfileIdentifierType",
   individual s%"https://spdx.org/rdf/Core/ProfileIdentifierType/usage" s%"core:ProfileIdentifierType",
   individual s%"https://spdx.org/rdf/Core/RelationshipCompleteness/complete" s%"core:RelationshipCompleteness",
   individual s%"https://spdx.org/rdf/Core/RelationshipCompleteness/incomplete" s%"core:RelationshipCompleteness",
   individual s%"https://spdx.org/rdf/Core/RelationshipCompleteness/noAssertion" s%"core:RelationshipCompleteness",
   individual s%"https://spdx.org/rdf/Core/RelationshipType/affects" s%"core:RelationshipType",
   individual s%"https://spdx.org/rdf/Core/RelationshipType/amends" s%"core:RelationshipType",
   individual s%"https://spdx.org/rdf/Core/RelationshipType/ancestor" s%"core:RelationshipType",
   individual s%"https://spdx.org/rdf/Core/RelationshipType/availableFrom" s%"core:RelationshipType",
   individual s%"https://spdx.org/rdf/Core/RelationshipType/buildConfigOf" s%"core:RelationshipType",
   individual s%"https://spdx.org/rdf/Core/RelationshipType/buildDependency" s%"core:RelationshipType",
   individual s%"https://spdx.org/rdf/Core/RelationshipType/buildHostOf" s%"core:RelationshipType",
   individual s%"https://spdx.org/rdf/Core/RelationshipType/buildInputOf" s%"core:RelationshipType",
   individual s%"https://spdx.org/rdf/Core/RelationshipType/buildInvokedBy" s%"core:RelationshipType",
   individual s%"https://spdx.org/rdf/Core/RelationshipType/buildOnBehalfOf" s%"core:RelationshipType",
   individual s%"https://spdx.org/rdf/Core/RelationshipType/buildOutputOf" s%"core:RelationshipType",
   individual s%"https://spdx.org/rdf/Core/RelationshipType/buildTool" s%"core:RelationshipType",
   individual s%"https://spdx.org/rdf/Core/RelationshipType/contains" s%"core:RelationshipType",
   individual s%"https://spdx.org/rdf/Core/RelationshipType/coordinatedBy" s%"core:RelationshipType",
   individual s%"https://spdx.org/rdf/Core/RelationshipType/copy" s%"core:RelationshipType",
   individual s%"https://spdx.org/rdf/Core/RelationshipType/dataFile" s%"core:RelationshipType",
   individual s%"https://spdx.org/rdf/Core/RelationshipType/dependencyManifest" s%"core:RelationshipType",
   individual s%"https://spdx.org/rdf/Core/RelationshipType/dependsOn" s%"core:RelationshipType",
   individual s%"https://spdx.org/rdf/Core/RelationshipType/descendant" s%"core:RelationshipType",
   individual s%"https://spdx.org/rdf/Core/RelationshipType/describes" s%"core:RelationshipType",
   individual s%"https://spdx.org/rdf/Core/RelationshipType/devDependency" s%"core:RelationshipType",
   individual s%"https://spdx.org/rdf/Core/RelationshipType/devTool" s%"core:RelationshipType",
   individual s%"https://spdx.org/rdf/Core/RelationshipType/distributionArtifact" s%"core:RelationshipType",
   individual s%"https://spdx.org/rdf/Core/RelationshipType/documentation" s%"core:RelationshipType",
   individual s%"https://spdx.org/rdf/Core/RelationshipType/doesNotAffect" s%"core:RelationshipType",
   individual s%"https://spdx.org/rdf/Core/RelationshipType/dynamicLink" s%"core:RelationshipType",
   individual s%"https://spdx.org/rdf/Core/RelationshipType/example" s%"core:RelationshipType",
   individual s%"https://spdx.org/rdf/Core/RelationshipType/expandedFromArchive" s%"core:RelationshipType",
   individual s%"https://spdx.org/rdf/Core/RelationshipType/exploitCreatedBy" s%"core:RelationshipType",
   individual s%"https://spdx.org/rdf/Core/RelationshipType/fileAdded" s%"core:RelationshipType",
   individual s%"https://spdx.org/rdf/Core/RelationshipType/fileDeleted" s%"core:RelationshipType",
   individual s%"https://spdx.org/rdf/Core/RelationshipType/fileModified" s%"core:RelationshipType",
   individual s%"https://spdx.org/rdf/Core/RelationshipType/fixedBy" s%"core:RelationshipType",
   individual s%"https://spdx.org/rdf/Core/RelationshipType/fixedIn" s%"core:RelationshipType"]

set_option maxRecDepth 10000 in
/-- SPDX_OWL.json `@graph`, nodes 124 to 185 -/
def owlGraph2 : List OwlNode :=
  [individual s%"https://spdx.org/rdf/Core/RelationshipType/foundBy" s%"core:RelationshipType",
   individual s%"https://spdx.org/rdf/Core/RelationshipType/generates" s%"core:RelationshipType",
   individual s%"https://spdx.org/rdf/Core/RelationshipType/hasAssessmentFor" s%"core:RelationshipType",
   individual s%"https://spdx.org/rdf/Core/RelationshipType/hasAssociatedVulnerability" s%"core:RelationshipType",
   individual s%"https://spdx.org/rdf/Core/RelationshipType/metafile" s%"core:RelationshipType",
   individual s%"https://spdx.org/rdf/Core/RelationshipType/optionalComponent" s%"core:RelationshipType",
   individual s%"https://spdx.org/rdf/Core/RelationshipType/optionalDependency" s%"core:RelationshipType",
   individual s%"https://spdx.org/rdf/Core/RelationshipType/other" s%"core:RelationshipType",
   individual s%"https://spdx.org/rdf/Core/RelationshipType/packages" s%"core:RelationshipType",
   individual s%"https://spdx.org/rdf/Core/RelationshipType/patch" s%"core:RelationshipType",
   individual s%"https://spdx.org/rdf/Core/RelationshipType/prerequisite" s%"core:RelationshipType",
   individual s%"https://spdx.org/rdf/Core/RelationshipType/providedDependency" s%"core:RelationshipType",
   individual s%"https://spdx.org/rdf/Core/RelationshipType/publishedBy" s%"core:RelationshipType",
   individual s%"https://spdx.org/rdf/Core/RelationshipType/reportedBy" s%"core:RelationshipType",
   individual s%"https://spdx.org/rdf/Core/RelationshipType/republishedBy" s%"core:RelationshipType",
   individual s%"https://spdx.org/rdf/Core/RelationshipType/requirementFor" s%"core:RelationshipType",
   individual s%"https://spdx.org/rdf/Core/RelationshipType/runtimeDependency" s%"core:RelationshipType",
   individual s%"https://spdx.org/rdf/Core/RelationshipType/specificationFor" s%"core:RelationshipType",
   individual s%"https://spdx.org/rdf/Core/RelationshipType/staticLink" s%"core:RelationshipType",
   individual s%"https://spdx.org/rdf/Core/RelationshipType/test" s%"core:RelationshipType",
   individual s%"https://spdx.org/rdf/Core/RelationshipType/testCase" s%"core:RelationshipType",
   individual s%"https://spdx.org/rdf/Core/RelationshipType/testDependency" s%"core:RelationshipType",
   individual s%"https://spdx.org/rdf/Core/RelationshipType/testTool" s%"core:RelationshipType",
   individual s%"https://spdx.org/rdf/Core/RelationshipType/underInvestigationFor" s%"core:RelationshipType",
   individual s%"https://spdx.org/rdf/Core/RelationshipType/variant" s%"core:RelationshipType",
   shapeClass s%"core:SoftwareAgent" (some s%"core:Agent") [],
   shapeClass s%"core:SpdxDocument" (some s%"core:Bundle") [⟨s%"core:name", .data s%"xsd:string", 1, some 1⟩],
   individual s%"https://spdx.org/rdf/Dataset/ConfidentialityLevelType/Amber" s%"dataset:ConfidentialityLevelType",
   individual s%"https://spdx.org/rdf/Dataset/ConfidentialityLevelType/Clear" s%"dataset:ConfidentialityLevelType",
   individual s%"https://spdx.org/rdf/Dataset/ConfidentialityLevelType/Green" s%"dataset:ConfidentialityLevelType",
   individual s%"https://spdx.org/rdf/Dataset/ConfidentialityLevelType/Red" s%"dataset:ConfidentialityLevelType",
   shapeClass s%"dataset:Dataset" (some s%"software:Package") [⟨s%"dataset:datasetAvailability", .cls s%"dataset:DatasetAvailabilityType", 0, some 1⟩, ⟨s%"dataset:confidentialityLevel", .cls s%"dataset:ConfidentialityLevelType", 0, some 1⟩, ⟨s%"dataset:dataCollectionProcess", .data s%"xsd:string", 0, some 1⟩, ⟨s%"dataset:datasetUpdateMechanism", .data s%"xsd:string", 0, some 1⟩, ⟨s%"dataset:knownBias", .data s%"xsd:string", 0, none⟩, ⟨s%"dataset:datasetSize", .data s%"xsd:nonNegativeInteger", 0, some 1⟩, ⟨s%"dataset:intendedUse", .data s%"xsd:string", 0, some 1⟩, ⟨s%"dataset:sensitivePersonalInformation", .data s%"dataset:PresenceType", 0, some 1⟩, ⟨s%"dataset:dataPreprocessing", .data s%"xsd:string", 0, none⟩, ⟨s%"dataset:datasetNoise", .data s%"xsd:string", 0, some 1⟩, ⟨s%"dataset:sensor", .cls s%"core:DictionaryEntry", 0, none⟩, ⟨s%"dataset:datasetType", .data s%"xsd:string", 1, some 1⟩, ⟨s%"dataset:anonymizationMethodUsed", .data s%"xsd:string", 0, none⟩],
   individual s%"https://spdx.org/rdf/Dataset/DatasetAvailabilityType/Clickthrough" s%"dataset:DatasetAvailabilityType",
   individual s%"https://spdx.org/rdf/Dataset/DatasetAvailabilityType/Direct-Download" s%"dataset:DatasetAvailabilityType",
   individual s%"https://spdx.org/rdf/Dataset/DatasetAvailabilityType/Query" s%"dataset:DatasetAvailabilityType",
   individual s%"https://spdx.org/rdf/Dataset/DatasetAvailabilityType/Registration" s%"dataset:DatasetAvailabilityType",
   individual s%"https://spdx.org/rdf/Dataset/DatasetAvailabilityType/Scraping-Script" s%"dataset:DatasetAvailabilityType",
   shapeClass s%"licensing:ConjunctiveLicenseSet" (some s%"licensing:AnyLicenseInfo") [⟨s%"licensing:member", .cls s%"licensing:AnyLicenseInfo", 2, none⟩],
   shapeClass s%"licensing:CustomLicense" (some s%"licensing:License") [],
   shapeClass s%"licensing:CustomLicenseAddition" (some s%"licensing:LicenseAddition") [],
   shapeClass s%"licensing:DisjunctiveLicenseSet" (some s%"licensing:AnyLicenseInfo") [⟨s%"licensing:member", .cls s%"licensing:AnyLicenseInfo", 2, none⟩],
   shapeClass s%"licensing:ListedLicense" (some s%"licensing:License") [⟨s%"licensing:deprecatedVersion", .data s%"xsd:string", 0, some 1⟩, ⟨s%"licensing:listVersionAdded", .data s%"xsd:string", 0, some 1⟩],
   shapeClass s%"licensing:ListedLicenseException" (some s%"licensing:LicenseAddition") [⟨s%"licensing:deprecatedVersion", .data s%"xsd:string", 0, some 1⟩, ⟨s%"licensing:listVersionAdded", .data s%"xsd:string", 0, some 1⟩],
   shapeClass s%"licensing:NoAssertionLicense" (some s%"licensing:LicenseField") [],
   shapeClass s%"licensing:NoneLicense" (some s%"licensing:LicenseField") [],
   shapeClass s%"licensing:OrLaterOperator" (some s%"licensing:AnyLicenseInfo") [⟨s%"licensing:subjectLicense", .cls s%"licensing:License", 1, some 1⟩],
   shapeClass s%"licensing:WithAdditionOperator" (some s%"licensing:AnyLicenseInfo") [⟨s%"licensing:subjectLicense", .cls s%"licensing:License", 1, some 1⟩, ⟨s%"licensing:subjectAddition", .cls s%"licensing:LicenseAddition", 1, some 1⟩],
   shapeClass s%"security:CvssV2VulnAssessmentRelationship" (some s%"security:VulnAssessmentRelationship") [⟨s%"security:score", .data s%"xsd:decimal", 1, some 1⟩, ⟨s%"security:severity", .data s%"xsd:string", 0, some 1⟩, ⟨s%"security:vector", .data s%"xsd:string", 0, some 1⟩],
   shapeClass s%"security:CvssV3VulnAssessmentRelationship" (some s%"security:VulnAssessmentRelationship") [⟨s%"security:score", .data s%"xsd:decimal", 1, some 1⟩, ⟨s%"security:vector", .data s%"xsd:string", 0, some 1⟩, ⟨s%"security:severity", .data s%"xsd:string", 0, some 1⟩],
   shapeClass s%"security:EpssVulnAssessmentRelationship" (some s%"security:VulnAssessmentRelationship") [⟨s%"security:probability", .data s%"xsd:nonNegativeInteger", 1, some 1⟩, ⟨s%"security:severity", .data s%"xsd:string", 0, some 1⟩],
   individual s%"https://spdx.org/rdf/Security/ExploitCatalogType/kev" s%"security:ExploitCatalogType",
   individual s%"https://spdx.org/rdf/Security/ExploitCatalogType/other" s%"security:ExploitCatalogType",
   shapeClass s%"security:ExploitCatalogVulnAssessmentRelationship" (some s%"security:VulnAssessmentRelationship") [⟨s%"security:locator", .data s%"xsd:anyURI", 1, some 1⟩, ⟨s%"security:catalogType", .cls s%"security:ExploitCatalogType", 1, some 1⟩, ⟨s%"security:exploited", .data s%"xsd:boolean", 1, some 1⟩],
   individual s%"https://spdx.org/rdf/Security/SsvcDecisionType/act" s%"security:SsvcDecisionType",
   individual s%"https://spdx.org/rdf/Security/SsvcDecisionType/attend" s%"security:SsvcDecisionType",
   individual s%"https://spdx.org/rdf/Security/SsvcDecisionType/track" s%"security:SsvcDecisionType",
   individual s%"https://spdx.org/rdf/Security/SsvcDecisionType/trackStar" s%"security:SsvcDecisionType",
   shapeClass s%"security:SsvcVulnAssessmentRelationship" (some s%"security:VulnAssessmentRelationship") [⟨s%"security:decisionType", .cls s%"security:SsvcDecisionType", 1, some 1⟩],
   shapeClass s%"security:VexAffectedVulnAssessmentRelationship" (some s%"security:VexVulnAssessmentRelationship") [⟨s%"security:actionStatementTime", .data s%"core:DateTime", 0, none⟩, ⟨s%"security:actionStatement", .data s%"xsd:string", 0, some 1⟩],
   shapeClass s%"security:VexFixedVulnAssessmentRelationship" (some s%"security:VexVulnAssessmentRelationship") [],
   individual s%"https://spdx.org/rdf/Security/VexJustificationType/componentNotPresent" s%"security:VexJustificationType",
   individual s%"https://spdx.org/rdf/Security/VexJustificationType/inlineMitigationsAlreadyExist" s%"security:VexJustificationType"]

set_option maxRecDepth 10000 in
/-- SPDX_OWL.json `@graph`, nodes 186 to 247 -/
def owlGraph3 : List OwlNode :=
  [individual s%"https://spdx.org/rdf/Security/VexJustificationType/vulnerableCodeCannotBeControlledByAdversary" s%"security:VexJustificationType",
   individual s%"https://spdx.org/rdf/Security/VexJustificationType/vulnerableCodeNotInExecutePath" s%"security:VexJustificationType",
   individual s%"https://spdx.org/rdf/Security/VexJustificationType/vulnerableCodeNotPresent" s%"security:VexJustificationType",
   shapeClass s%"security:VexNotAffectedVulnAssessmentRelationship" (some s%"security:VexVulnAssessmentRelationship") [⟨s%"security:impactStatementTime", .data s%"core:DateTime", 0, some 1⟩, ⟨s%"security:justificationType", .cls s%"security:VexJustificationType", 0, some 1⟩, ⟨s%"security:impactStatement", .data s%"xsd:string", 0, some 1⟩],
   shapeClass s%"security:VexUnderInvestigationVulnAssessmentRelationship" (some s%"security:VexVulnAssessmentRelationship") [],
   shapeClass s%"security:Vulnerability" (some s%"core:Element") [⟨s%"security:publishedTime", .data s%"core:DateTime", 0, some 1⟩, ⟨s%"security:modifiedTime", .data s%"core:DateTime", 0, some 1⟩, ⟨s%"security:withdrawnTime", .data s%"core:DateTime", 0, some 1⟩],
   individual s%"https://spdx.org/rdf/Software/DependencyConditionalityType/optional" s%"software:DependencyConditionalityType",
   individual s%"https://spdx.org/rdf/Software/DependencyConditionalityType/other" s%"software:DependencyConditionalityType",
   individual s%"https://spdx.org/rdf/Software/DependencyConditionalityType/prerequisite" s%"software:DependencyConditionalityType",
   individual s%"https://spdx.org/rdf/Software/DependencyConditionalityType/provided" s%"software:DependencyConditionalityType",
   individual s%"https://spdx.org/rdf/Software/DependencyConditionalityType/required" s%"software:DependencyConditionalityType",
   shapeClass s%"software:File" (some s%"software:SoftwareArtifact") [⟨s%"software:contentType", .data s%"core:MediaType", 0, some 1⟩],
   individual s%"https://spdx.org/rdf/Software/SBOMType/analyzed" s%"software:SBOMType",
   individual s%"https://spdx.org/rdf/Software/SBOMType/build" s%"software:SBOMType",
   individual s%"https://spdx.org/rdf/Software/SBOMType/deployed" s%"software:SBOMType",
   individual s%"https://spdx.org/rdf/Software/SBOMType/design" s%"software:SBOMType",
   individual s%"https://spdx.org/rdf/Software/SBOMType/runtime" s%"software:SBOMType",
   individual s%"https://spdx.org/rdf/Software/SBOMType/source" s%"software:SBOMType",
   shapeClass s%"software:Sbom" (some s%"core:Bom") [⟨s%"software:sbomType", .cls s%"software:SBOMType", 0, none⟩],
   shapeClass s%"software:Snippet" (some s%"software:SoftwareArtifact") [⟨s%"software:byteRange", .cls s%"core:PositiveIntegerRange", 0, some 1⟩, ⟨s%"software:lineRange", .cls s%"core:PositiveIntegerRange", 0, some 1⟩],
   individual s%"https://spdx.org/rdf/Software/SoftwareDependencyLinkType/dynamic" s%"software:SoftwareDependencyLinkType",
   individual s%"https://spdx.org/rdf/Software/SoftwareDependencyLinkType/other" s%"software:SoftwareDependencyLinkType",
   individual s%"https://spdx.org/rdf/Software/SoftwareDependencyLinkType/static" s%"software:SoftwareDependencyLinkType",
   individual s%"https://spdx.org/rdf/Software/SoftwareDependencyLinkType/tool" s%"software:SoftwareDependencyLinkType",
   shapeClass s%"software:SoftwareDependencyRelationship" (some s%"core:LifecycleScopedRelationship") [⟨s%"software:softwareLinkage", .cls s%"software:SoftwareDependencyLinkType", 0, some 1⟩, ⟨s%"software:conditionality", .cls s%"software:DependencyConditionalityType", 0, some 1⟩],
   individual s%"https://spdx.org/rdf/Software/SoftwarePurpose/application" s%"software:SoftwarePurpose",
   individual s%"https://spdx.org/rdf/Software/SoftwarePurpose/archive" s%"software:SoftwarePurpose",
   individual s%"https://spdx.org/rdf/Software/SoftwarePurpose/bom" s%"software:SoftwarePurpose",
   individual s%"https://spdx.org/rdf/Software/SoftwarePurpose/configuration" s%"software:SoftwarePurpose",
   individual s%"https://spdx.org/rdf/Software/SoftwarePurpose/container" s%"software:SoftwarePurpose",
   individual s%"https://spdx.org/rdf/Software/SoftwarePurpose/data" s%"software:SoftwarePurpose",
   individual s%"https://spdx.org/rdf/Software/SoftwarePurpose/device" s%"software:SoftwarePurpose",
   individual s%"https://spdx.org/rdf/Software/SoftwarePurpose/documentation" s%"software:SoftwarePurpose",
   individual s%"https://spdx.org/rdf/Software/SoftwarePurpose/evidence" s%"software:SoftwarePurpose",
   individual s%"https://spdx.org/rdf/Software/SoftwarePurpose/executable" s%"software:SoftwarePurpose",
   individual s%"https://spdx.org/rdf/Software/SoftwarePurpose/file" s%"software:SoftwarePurpose",
   individual s%"https://spdx.org/rdf/Software/SoftwarePurpose/firmware" s%"software:SoftwarePurpose",
   individual s%"https://spdx.org/rdf/Software/SoftwarePurpose/framework" s%"software:SoftwarePurpose",
   individual s%"https://spdx.org/rdf/Software/SoftwarePurpose/install" s%"software:SoftwarePurpose",
   individual s%"https://spdx.org/rdf/Software/SoftwarePurpose/library" s%"software:SoftwarePurpose",
   individual s%"https://spdx.org/rdf/Software/SoftwarePurpose/manifest" s%"software:SoftwarePurpose",
   individual s%"https://spdx.org/rdf/Software/SoftwarePurpose/module" s%"software:SoftwarePurpose",
   individual s%"https://spdx.org/rdf/Software/SoftwarePurpose/operatingSystem" s%"software:SoftwarePurpose",
   individual s%"https://spdx.org/rdf/Software/SoftwarePurpose/other" s%"software:SoftwarePurpose",
   individual s%"https://spdx.org/rdf/Software/SoftwarePurpose/patch" s%"software:SoftwarePurpose",
   individual s%"https://spdx.org/rdf/Software/SoftwarePurpose/requirement" s%"software:SoftwarePurpose",
   individual s%"https://spdx.org/rdf/Software/SoftwarePurpose/source" s%"software:SoftwarePurpose",
   individual s%"https://spdx.org/rdf/Software/SoftwarePurpose/specification" s%"software:SoftwarePurpose",
   dataProp s%"ai:autonomyType" s%"ai:PresenceType", dataProp s%"ai:domain" s%"xsd:string",
   dataProp s%"ai:energyConsumption" s%"xsd:string", dataProp s%"ai:hyperparameter" s%"core:DictionaryEntry",
   dataProp s%"ai:informationAboutApplication" s%"xsd:string", dataProp s%"ai:informationAboutTraining" s%"xsd:string",
   dataProp s%"ai:limitation" s%"xsd:string", dataProp s%"ai:metric" s%"core:DictionaryEntry",
   dataProp s%"ai:metricDecisionThreshold" s%"core:DictionaryEntry", dataProp s%"ai:modelDataPreprocessing" s%"xsd:string",
   dataProp s%"ai:modelExplainability" s%"xsd:string", dataProp s%"ai:safetyRiskAssessment" s%"ai:SafetyRiskAssessmentType",
   dataProp s%"ai:sensitivePersonalInformation" s%"ai:PresenceType", dataProp s%"ai:standardCompliance" s%"xsd:string"]

set_option maxRecDepth 10000 in
/-- SPDX_OWL.json `@graph`, nodes 248 to 309 -/
def owlGraph4 : List OwlNode :=
  [dataProp s%"ai:typeOfModel" s%"xsd:string", dataProp s%"build:buildEndTime" s%"core:DateTime",
   dataProp s%"build:buildId" s%"xsd:string", dataProp s%"build:buildStartTime" s%"core:DateTime",
   dataProp s%"build:buildType" s%"xsd:anyURI", dataProp s%"build:configSourceDigest" s%"core:Hash",
   dataProp s%"build:configSourceEntrypoint" s%"xsd:string", dataProp s%"build:configSourceUri" s%"xsd:anyURI",
   dataProp s%"build:environment" s%"core:DictionaryEntry", dataProp s%"build:parameters" s%"core:DictionaryEntry",
   shapeClass s%"core:Artifact" (some s%"core:Element") [⟨s%"core:validUntilTime", .data s%"core:DateTime", 0, some 1⟩, ⟨s%"core:originatedBy", .cls s%"core:Agent", 0, none⟩, ⟨s%"core:suppliedBy", .cls s%"core:Agent", 0, none⟩, ⟨s%"core:builtTime", .data s%"core:DateTime", 0, some 1⟩, ⟨s%"core:releaseTime", .data s%"core:DateTime", 0, some 1⟩, ⟨s%"core:standard", .data s%"xsd:string", 0, none⟩],
   shapeClass s%"core:Bom" (some s%"core:Bundle") [],
   shapeClass s%"core:ElementCollection" (some s%"core:Element") [⟨s%"core:imports", .cls s%"core:ExternalMap", 0, none⟩, ⟨s%"core:rootElement", .cls s%"core:Element", 1, none⟩, ⟨s%"core:namespaces", .cls s%"core:NamespaceMap", 0, none⟩, ⟨s%"core:element", .cls s%"core:Element", 1, none⟩],
   shapeClass s%"core:LifecycleScopedRelationship" (some s%"core:Relationship") [⟨s%"core:scope", .cls s%"core:LifecycleScopeType", 0, some 1⟩],
   dataProp s%"core:algorithm" s%"core:HashAlgorithm", dataProp s%"core:annotationType" s%"core:AnnotationType",
   dataProp s%"core:begin" s%"xsd:positiveInteger", dataProp s%"core:builtTime" s%"core:DateTime",
   dataProp s%"core:completeness" s%"core:RelationshipCompleteness", dataProp s%"core:context" s%"xsd:string",
   dataProp s%"core:created" s%"core:DateTime", objProp s%"core:createdBy" s%"core:Agent", objProp s%"core:createdUsing" s%"core:Tool",
   dataProp s%"core:dataLicense" s%"xsd:string", dataProp s%"core:definingDocument" s%"xsd:anyURI",
   dataProp s%"core:description" s%"xsd:string", objProp s%"core:element" s%"core:Element",
   dataProp s%"core:end" s%"xsd:positiveInteger", dataProp s%"core:endTime" s%"core:DateTime", untyped s%"core:extension",
   dataProp s%"core:externalId" s%"xsd:anyURI", objProp s%"core:externalIdentifier" s%"core:ExternalIdentifier",
   dataProp s%"core:externalIdentifierType" s%"core:ExternalIdentifierType",
   objProp s%"core:externalReference" s%"core:ExternalReference",
   dataProp s%"core:externalReferenceType" s%"core:ExternalReferenceType", objProp s%"core:from" s%"core:Element",
   dataProp s%"core:hashValue" s%"xsd:string", dataProp s%"core:identifier" s%"xsd:string",
   dataProp s%"core:identifierLocator" s%"xsd:anyURI", dataProp s%"core:issuingAuthority" s%"xsd:anyURI",
   dataProp s%"core:key" s%"xsd:string", dataProp s%"core:locationHint" s%"xsd:anyURI", dataProp s%"core:locator" s%"xsd:anyURI",
   dataProp s%"core:namespace" s%"xsd:anyURI", objProp s%"core:originatedBy" s%"core:Agent", dataProp s%"core:prefix" s%"xsd:string",
   dataProp s%"core:profile" s%"core:ProfileIdentifierType", dataProp s%"core:relationshipType" s%"core:RelationshipType",
   dataProp s%"core:releaseTime" s%"core:DateTime", objProp s%"core:rootElement" s%"core:Element",
   dataProp s%"core:scope" s%"core:LifecycleScopeType", dataProp s%"core:specVersion" s%"core:SemVer",
   dataProp s%"core:standard" s%"xsd:string", dataProp s%"core:startTime" s%"core:DateTime",
   dataProp s%"core:statement" s%"xsd:string", objProp s%"core:subject" s%"core:Element", dataProp s%"core:summary" s%"xsd:string",
   objProp s%"core:suppliedBy" s%"core:Agent", objProp s%"core:to" s%"core:Element",
   dataProp s%"core:validUntilTime" s%"core:DateTime", dataProp s%"core:value" s%"xsd:string",
   dataProp s%"dataset:anonymizationMethodUsed" s%"xsd:string"]

set_option maxRecDepth 10000 in
/-- SPDX_OWL.json `@graph`, nodes 310 to 371 -/
def owlGraph5 : List OwlNode :=
  [dataProp s%"dataset:confidentialityLevel" s%"dataset:ConfidentialityLevelType",
   dataProp s%"dataset:dataCollectionProcess" s%"xsd:string", dataProp s%"dataset:dataPreprocessing" s%"xsd:string",
   dataProp s%"dataset:datasetAvailability" s%"dataset:DatasetAvailabilityType", dataProp s%"dataset:datasetNoise" s%"xsd:string",
   dataProp s%"dataset:datasetSize" s%"xsd:nonNegativeInteger", dataProp s%"dataset:datasetType" s%"xsd:string",
   dataProp s%"dataset:datasetUpdateMechanism" s%"xsd:string", dataProp s%"dataset:intendedUse" s%"xsd:string",
   dataProp s%"dataset:knownBias" s%"xsd:string", dataProp s%"dataset:sensitivePersonalInformation" s%"dataset:PresenceType",
   dataProp s%"dataset:sensor" s%"core:DictionaryEntry", dataProp s%"licensing:additionComment" s%"xsd:string",
   dataProp s%"licensing:additionId" s%"xsd:string", dataProp s%"licensing:additionName" s%"xsd:string",
   dataProp s%"licensing:additionText" s%"xsd:string", dataProp s%"licensing:isDeprecatedAdditionId" s%"xsd:boolean",
   dataProp s%"licensing:isDeprecatedLicenseId" s%"xsd:boolean", dataProp s%"licensing:isFsfLibre" s%"xsd:boolean",
   dataProp s%"licensing:isOsiApproved" s%"xsd:boolean", dataProp s%"licensing:licenseComment" s%"xsd:string",
   dataProp s%"licensing:licenseId" s%"xsd:string", dataProp s%"licensing:licenseName" s%"xsd:string",
   dataProp s%"licensing:licenseText" s%"xsd:string", dataProp s%"licensing:standardAdditionTemplate" s%"xsd:string",
   dataProp s%"licensing:standardLicenseHeader" s%"xsd:string", dataProp s%"licensing:standardLicenseTemplate" s%"xsd:string",
   objProp s%"licensing:subjectAddition" s%"licensing:LicenseAddition", dataProp s%"security:actionStatement" s%"xsd:string",
   dataProp s%"security:actionStatementTime" s%"core:DateTime", objProp s%"security:assessedElement" s%"core:Element",
   dataProp s%"security:catalogType" s%"security:ExploitCatalogType", dataProp s%"security:decisionType" s%"security:SsvcDecisionType",
   dataProp s%"security:exploited" s%"xsd:boolean", dataProp s%"security:impactStatement" s%"xsd:string",
   dataProp s%"security:impactStatementTime" s%"core:DateTime",
   dataProp s%"security:justificationType" s%"security:VexJustificationType", dataProp s%"security:locator" s%"xsd:anyURI",
   dataProp s%"security:probability" s%"xsd:decimal", dataProp s%"security:statusNotes" s%"xsd:string",
   objProp s%"security:suppliedBy" s%"core:Agent", dataProp s%"security:vexVersion" s%"xsd:string",
   dataProp s%"software:additionalPurpose" s%"software:SoftwarePurpose", dataProp s%"software:attributionText" s%"xsd:string",
   dataProp s%"software:byteRange" s%"core:PositiveIntegerRange", objProp s%"software:concludedLicense" s%"licensing:LicenseField",
   dataProp s%"software:conditionality" s%"software:DependencyConditionalityType",
   dataProp s%"software:contentIdentifier" s%"xsd:anyURI", dataProp s%"software:contentType" s%"core:MediaType",
   objProp s%"software:copyrightText" s%"xsd:string", objProp s%"software:declaredLicense" s%"licensing:LicenseField",
   dataProp s%"software:downloadLocation" s%"xsd:anyURI", dataProp s%"software:homePage" s%"xsd:anyURI",
   dataProp s%"software:lineRange" s%"core:PositiveIntegerRange", dataProp s%"software:packageUrl" s%"xsd:anyURI",
   dataProp s%"software:packageVersion" s%"xsd:string", dataProp s%"software:primaryPurpose" s%"software:SoftwarePurpose",
   dataProp s%"software:sbomType" s%"software:SBOMType", dataProp s%"software:softwareLinkage" s%"software:SoftwareDependencyLinkType",
   dataProp s%"software:sourceInfo" s%"xsd:string",
   shapeClass s%"core:Bundle" (some s%"core:ElementCollection") [⟨s%"core:context", .data s%"xsd:string", 0, some 1⟩],
   shapeClass s%"core:ExternalIdentifier" none [⟨s%"core:identifier", .data s%"xsd:string", 1, some 1⟩, ⟨s%"core:comment", .data s%"xsd:string", 0, some 1⟩, ⟨s%"core:identifierLocator", .data s%"xsd:anyURI", 0, none⟩, ⟨s%"core:issuingAuthority", .data s%"xsd:anyURI", 0, some 1⟩, ⟨s%"core:externalIdentifierType", .cls s%"core:ExternalIdentifierType", 1, some 1⟩]]

set_option maxRecDepth 10000 in
/-- SPDX_OWL.json `@graph`, nodes 372 to 433 -/
def owlGraph6 : List OwlNode :=
  [shapeClass s%"core:ExternalReference" none [⟨s%"core:externalReferenceType", .cls s%"core:ExternalReferenceType", 0, some 1⟩, ⟨s%"core:locator", .data s%"xsd:anyURI", 0, none⟩, ⟨s%"core:comment", .data s%"xsd:string", 0, some 1⟩, ⟨s%"core:contentType", .data s%"core:MediaType", 0, some 1⟩],
   shapeClass s%"core:Hash" (some s%"core:IntegrityMethod") [⟨s%"core:algorithm", .cls s%"core:HashAlgorithm", 1, some 1⟩, ⟨s%"core:hashValue", .data s%"xsd:string", 1, some 1⟩],
   shapeClass s%"core:Payload" none [⟨s%"core:namespaces", .cls s%"core:NamespaceMap", 0, none⟩, ⟨s%"core:imports", .cls s%"core:ExternalMap", 0, none⟩, ⟨s%"core:creationInfo", .cls s%"core:CreationInfo", 0, some 1⟩],
   shapeClass s%"core:Relationship" (some s%"core:Element") [⟨s%"core:endTime", .data s%"core:DateTime", 0, some 1⟩, ⟨s%"core:startTime", .data s%"core:DateTime", 0, some 1⟩, ⟨s%"core:from", .cls s%"core:Element", 1, some 1⟩, ⟨s%"core:to", .cls s%"core:Element", 0, none⟩, ⟨s%"core:completeness", .cls s%"core:RelationshipCompleteness", 0, some 1⟩, ⟨s%"core:relationshipType", .cls s%"core:RelationshipType", 1, some 1⟩],
   shapeClass s%"core:SemVer" (some s%"xsd:string") [], shapeClass s%"core:Tool" (some s%"core:Element") [],
   dataProp s%"core:contentType" s%"core:MediaType", dataProp s%"core:name" s%"xsd:string",
   objProp s%"core:verifiedUsing" s%"core:IntegrityMethod", dataProp s%"licensing:deprecatedVersion" s%"xsd:string",
   dataProp s%"licensing:listVersionAdded" s%"xsd:string", objProp s%"licensing:member" s%"licensing:AnyLicenseInfo",
   dataProp s%"licensing:obsoletedBy" s%"xsd:string", dataProp s%"licensing:seeAlso" s%"xsd:anyURI",
   objProp s%"licensing:subjectLicense" s%"licensing:License", dataProp s%"security:modifiedTime" s%"core:DateTime",
   dataProp s%"security:publishedTime" s%"core:DateTime", dataProp s%"security:score" s%"xsd:string",
   dataProp s%"security:vector" s%"xsd:string", dataProp s%"security:withdrawnTime" s%"core:DateTime",
   shapeClass s%"software:Package" (some s%"software:SoftwareArtifact") [⟨s%"software:homePage", .data s%"xsd:anyURI", 0, some 1⟩, ⟨s%"software:packageVersion", .data s%"xsd:string", 0, some 1⟩, ⟨s%"software:packageUrl", .data s%"xsd:anyURI", 0, some 1⟩, ⟨s%"software:sourceInfo", .data s%"xsd:string", 0, some 1⟩, ⟨s%"software:downloadLocation", .data s%"xsd:anyURI", 0, some 1⟩],
   dataProp s%"core:creationInfo" s%"core:CreationInfo", dataProp s%"core:imports" s%"core:ExternalMap",
   dataProp s%"core:namespaces" s%"core:NamespaceMap", dataProp s%"security:severity" s%"xsd:string",
   shapeClass s%"software:SoftwareArtifact" (some s%"core:Artifact") [⟨s%"software:contentIdentifier", .data s%"xsd:anyURI", 0, some 1⟩, ⟨s%"software:attributionText", .data s%"xsd:string", 0, some 1⟩, ⟨s%"software:declaredLicense", .cls s%"licensing:LicenseField", 0, some 1⟩, ⟨s%"software:copyrightText", .data s%"xsd:string", 0, some 1⟩, ⟨s%"software:primaryPurpose", .cls s%"software:SoftwarePurpose", 0, some 1⟩, ⟨s%"software:concludedLicense", .cls s%"licensing:LicenseField", 0, some 1⟩, ⟨s%"software:additionalPurpose", .cls s%"software:SoftwarePurpose", 0, none⟩],
   plainClass s%"core:AnnotationType" none,
   shapeClass s%"core:CreationInfo" none [⟨s%"core:comment", .data s%"xsd:string", 0, some 1⟩, ⟨s%"core:createdUsing", .cls s%"core:Tool", 0, none⟩, ⟨s%"core:createdBy", .cls s%"core:Agent", 1, none⟩, ⟨s%"core:created", .data s%"core:DateTime", 0, none⟩, ⟨s%"core:specVersion", .data s%"core:SemVer", 0, none⟩, ⟨s%"core:profile", .cls s%"core:ProfileIdentifierType", 1, none⟩, ⟨s%"core:dataLicense", .data s%"xsd:string", 0, none⟩],
   shapeClass s%"core:ExternalMap" none [⟨s%"core:verifiedUsing", .cls s%"core:IntegrityMethod", 0, none⟩, ⟨s%"core:locationHint", .data s%"xsd:anyURI", 0, some 1⟩, ⟨s%"core:definingDocument", .data s%"xsd:anyURI", 0, some 1⟩, ⟨s%"core:externalId", .data s%"xsd:anyURI", 1, some 1⟩],
   shapeClass s%"core:IntegrityMethod" none [⟨s%"core:comment", .data s%"xsd:string", 0, some 1⟩],
   shapeClass s%"core:NamespaceMap" none [⟨s%"core:prefix", .data s%"xsd:string", 1, some 1⟩, ⟨s%"core:namespace", .data s%"xsd:anyURI", 1, some 1⟩],
   shapeClass s%"core:PositiveIntegerRange" none [⟨s%"core:begin", .data s%"xsd:positiveInteger", 1, some 1⟩, ⟨s%"core:end", .data s%"xsd:positiveInteger", 1, some 1⟩],
   shapeClass s%"licensing:LicenseAddition" none [⟨s%"licensing:isDeprecatedAdditionId", .data s%"xsd:boolean", 0, some 1⟩, ⟨s%"licensing:additionText", .data s%"xsd:string", 1, some 1⟩, ⟨s%"licensing:additionId", .data s%"xsd:string", 1, some 1⟩, ⟨s%"licensing:seeAlso", .data s%"xsd:anyURI", 0, none⟩, ⟨s%"licensing:obsoletedBy", .data s%"xsd:string", 0, some 1⟩, ⟨s%"licensing:standardAdditionTemplate", .data s%"xsd:string", 0, some 1⟩, ⟨s%"licensing:additionName", .data s%"xsd:string", 1, some 1⟩, ⟨s%"licensing:additionComment", .data s%"xsd:string", 0, some 1⟩],
   plainClass s%"security:ExploitCatalogType" none,
   shapeClass s%"security:VexVulnAssessmentRelationship" (some s%"security:VulnAssessmentRelationship") [⟨s%"security:vexVersion", .data s%"xsd:string", 0, some 1⟩, ⟨s%"security:statusNotes", .data s%"xsd:string", 0, some 1⟩],
   shapeClass s%"core:MediaType" (some s%"xsd:string") [], plainClass s%"core:RelationshipCompleteness" none,
   dataProp s%"core:comment" s%"xsd:string",
   shapeClass s%"licensing:License" (some s%"licensing:AnyLicenseInfo") [⟨s%"licensing:obsoletedBy", .data s%"xsd:string", 0, some 1⟩, ⟨s%"licensing:standardLicenseTemplate", .data s%"xsd:string", 0, some 1⟩, ⟨s%"licensing:licenseText", .data s%"xsd:string", 1, some 1⟩, ⟨s%"licensing:isDeprecatedLicenseId", .data s%"xsd:boolean", 0, some 1⟩, ⟨s%"licensing:isFsfLibre", .data s%"xsd:boolean", 0, some 1⟩, ⟨s%"licensing:standardLicenseHeader", .data s%"xsd:string", 0, some 1⟩, ⟨s%"licensing:licenseId", .data s%"xsd:string", 1, some 1⟩, ⟨s%"licensing:licenseName", .data s%"xsd:string", 1, some 1⟩, ⟨s%"licensing:isOsiApproved", .data s%"xsd:boolean", 0, some 1⟩, ⟨s%"licensing:licenseComment", .data s%"xsd:string", 0, some 1⟩, ⟨s%"licensing:seeAlso", .data s%"xsd:anyURI", 0, none⟩],
   plainClass s%"ai:SafetyRiskAssessmentType" none, plainClass s%"dataset:ConfidentialityLevelType" none,
   plainClass s%"security:SsvcDecisionType" none,
   shapeClass s%"security:VulnAssessmentRelationship" (some s%"core:Relationship") [⟨s%"security:withdrawnTime", .data s%"core:DateTime", 0, some 1⟩, ⟨s%"security:assessedElement", .cls s%"core:Element", 0, some 1⟩, ⟨s%"security:suppliedBy", .cls s%"core:Agent", 0, some 1⟩, ⟨s%"security:publishedTime", .data s%"core:DateTime", 0, some 1⟩, ⟨s%"security:modifiedTime", .data s%"core:DateTime", 0, some 1⟩],
   plainClass s%"software:SoftwareDependencyLinkType" none, plainClass s%"ai:PresenceType" none,
   plainClass s%"dataset:DatasetAvailabilityType" none, shapeClass s%"licensing:LicenseField" none [],
   plainClass s%"security:VexJustificationType" none, plainClass s%"software:DependencyConditionalityType" none,
   plainClass s%"core:LifecycleScopeType" none, shapeClass s%"licensing:AnyLicenseInfo" (some s%"licensing:LicenseField") [],
   plainClass s%"software:SBOMType" none, shapeClass s%"core:Agent" (some s%"core:Element") [],
   plainClass s%"core:ProfileIdentifierType" none,
   shapeClass s%"core:DictionaryEntry" none [⟨s%"core:key", .data s%"xsd:string", 1, some 1⟩, ⟨s%"core:value", .data s%"xsd:string", 0, some 1⟩],
   plainClass s%"core:ExternalIdentifierType" none,
   shapeClass s%"core:Element" (some s%"core:Payload") [⟨s%"core:summary", .data s%"xsd:string", 0, some 1⟩, ⟨s%"core:description", .data s%"xsd:string", 0, some 1⟩, ⟨s%"core:extension", .data s%"core:Extension", 0, none⟩, ⟨s%"core:externalIdentifier", .cls s%"core:ExternalIdentifier", 0, none⟩, ⟨s%"core:name", .data s%"xsd:string", 0, some 1⟩, ⟨s%"core:externalReference", .cls s%"core:ExternalReference", 0, none⟩, ⟨s%"core:verifiedUsing", .cls s%"core:IntegrityMethod", 0, none⟩, ⟨s%"core:creationInfo", .cls s%"core:CreationInfo", 0, some 1⟩, ⟨s%"core:comment", .data s%"xsd:string", 0, some 1⟩],
   plainClass s%"core:ExternalReferenceType" none, plainClass s%"core:HashAlgorithm" none,
   plainClass s%"software:SoftwarePurpose" none, shapeClass s%"core:DateTime" (some s%"xsd:string") [],
   plainClass s%"core:RelationshipType" none]

/-- SPDX_OWL.json `@graph` -/
def owlGraph : List OwlNode :=
  owlGraph0 ++ (owlGraph1 ++ (owlGraph2 ++ (owlGraph3 ++ (owlGraph4 ++ (owlGraph5 ++ (owlGraph6))))))

end Spdx
