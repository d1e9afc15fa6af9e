import Verif.Py.Dict
import Verif.Model.Owl
/- spdx3/writer/json_ld/context.json, and owl_to_context.py, which made it. -/
namespace Spdx

/-- context.json: what a term is mapped to; a property has its `@id`, its `@type` and its own `@context` (empty if it has none) -/
inductive LdTerm where
  | simple (iri : Str)
  | prop (id type : Str) (own : List (Str × Str))
deriving DecidableEq

set_option maxRecDepth 10000 in
/-- context.json -/
def contextFile : List (Str × LdTerm) :=
  [(s%"ai", .simple s%"https://spdx.org/rdf/AI/"), (s%"build", .simple s%"https://spdx.org/rdf/Build/"),
   (s%"core", .simple s%"https://spdx.org/rdf/Core/"), (s%"dataset", .simple s%"https://spdx.org/rdf/Dataset/"),
   (s%"licensing", .simple s%"https://spdx.org/rdf/Licensing/"), (s%"ns0", .simple s%"http://www.w3.org/2003/06/sw-vocab-status/ns#"),
   (s%"owl", .simple s%"http://www.w3.org/2002/07/owl#"), (s%"rdfs", .simple s%"http://www.w3.org/2000/01/rdf-schema#"),
   (s%"security", .simple s%"https://spdx.org/rdf/Security/"), (s%"sh", .simple s%"http://www.w3.org/ns/shacl#"),
   (s%"software", .simple s%"https://spdx.org/rdf/Software/"), (s%"xsd", .simple s%"http://www.w3.org/2001/XMLSchema#"),
   (s%"AIPackage", .simple s%"ai:AIPackage"), (s%"Build", .simple s%"build:Build"), (s%"Annotation", .simple s%"core:Annotation"),
   (s%"AnonymousPayload", .simple s%"core:AnonymousPayload"), (s%"Organization", .simple s%"core:Organization"),
   (s%"Person", .simple s%"core:Person"), (s%"SoftwareAgent", .simple s%"core:SoftwareAgent"),
   (s%"SpdxDocument", .simple s%"core:SpdxDocument"), (s%"Dataset", .simple s%"dataset:Dataset"),
   (s%"ConjunctiveLicenseSet", .simple s%"licensing:ConjunctiveLicenseSet"), (s%"CustomLicense", .simple s%"licensing:CustomLicense"),
   (s%"CustomLicenseAddition", .simple s%"licensing:CustomLicenseAddition"),
   (s%"DisjunctiveLicenseSet", .simple s%"licensing:DisjunctiveLicenseSet"), (s%"ListedLicense", .simple s%"licensing:ListedLicense"),
   (s%"ListedLicenseException", .simple s%"licensing:ListedLicenseException"),
   (s%"NoAssertionLicense", .simple s%"licensing:NoAssertionLicense"), (s%"NoneLicense", .simple s%"licensing:NoneLicense"),
   (s%"OrLaterOperator", .simple s%"licensing:OrLaterOperator"),
   (s%"WithAdditionOperator", .simple s%"licensing:WithAdditionOperator"),
   (s%"CvssV2VulnAssessmentRelationship", .simple s%"security:CvssV2VulnAssessmentRelationship"),
   (s%"CvssV3VulnAssessmentRelationship", .simple s%"security:CvssV3VulnAssessmentRelationship"),
   (s%"EpssVulnAssessmentRelationship", .simple s%"security:EpssVulnAssessmentRelationship"),
   (s%"ExploitCatalogVulnAssessmentRelationship", .simple s%"security:ExploitCatalogVulnAssessmentRelationship"),
   (s%"SsvcVulnAssessmentRelationship", .simple s%"security:SsvcVulnAssessmentRelationship"),
   (s%"VexAffectedVulnAssessmentRelationship", .simple s%"security:VexAffectedVulnAssessmentRelationship"),
   (s%"VexFixedVulnAssessmentRelationship", .simple s%"security:VexFixedVulnAssessmentRelationship"),
   (s%"VexNotAffectedVulnAssessmentRelationship", .simple s%"security:VexNotAffectedVulnAssessmentRelationship"),
   (s%"VexUnderInvestigationVulnAssessmentRelationship", .simple s%"security:VexUnderInvestigationVulnAssessmentRelationship"),
   (s%"Vulnerability", .simple s%"security:Vulnerability"), (s%"File", .simple s%"software:File"),
   (s%"Sbom", .simple s%"software:Sbom"), (s%"Snippet", .simple s%"software:Snippet"),
   (s%"SoftwareDependencyRelationship", .simple s%"software:SoftwareDependencyRelationship"),
   (s%"autonomyType", .prop s%"ai:autonomyType" s%"ai:PresenceType" []), (s%"domain", .prop s%"ai:domain" s%"xsd:string" []),
   (s%"energyConsumption", .prop s%"ai:energyConsumption" s%"xsd:string" []),
   (s%"hyperparameter", .prop s%"ai:hyperparameter" s%"core:DictionaryEntry" []),
   (s%"informationAboutApplication", .prop s%"ai:informationAboutApplication" s%"xsd:string" []),
   (s%"informationAboutTraining", .prop s%"ai:informationAboutTraining" s%"xsd:string" []),
   (s%"limitation", .prop s%"ai:limitation" s%"xsd:string" []), (s%"metric", .prop s%"ai:metric" s%"core:DictionaryEntry" []),
   (s%"metricDecisionThreshold", .prop s%"ai:metricDecisionThreshold" s%"core:DictionaryEntry" []),
   (s%"modelDataPreprocessing", .prop s%"ai:modelDataPreprocessing" s%"xsd:string" []),
   (s%"modelExplainability", .prop s%"ai:modelExplainability" s%"xsd:string" []),
   (s%"safetyRiskAssessment", .prop s%"ai:safetyRiskAssessment" s%"@vocab" [(s%"@vocab", s%"ai:SafetyRiskAssessmentType/")]),
   (s%"sensitivePersonalInformation", .prop s%"dataset:sensitivePersonalInformation" s%"@vocab" [(s%"@vocab", s%"dataset:PresenceType/")]),
   (s%"standardCompliance", .prop s%"ai:standardCompliance" s%"xsd:string" []),
   (s%"typeOfModel", .prop s%"ai:typeOfModel" s%"xsd:string" []),
   (s%"buildEndTime", .prop s%"build:buildEndTime" s%"core:DateTime" []), (s%"buildId", .prop s%"build:buildId" s%"xsd:string" []),
   (s%"buildStartTime", .prop s%"build:buildStartTime" s%"core:DateTime" []),
   (s%"buildType", .prop s%"build:buildType" s%"xsd:anyURI" []),
   (s%"configSourceDigest", .prop s%"build:configSourceDigest" s%"core:Hash" []),
   (s%"configSourceEntrypoint", .prop s%"build:configSourceEntrypoint" s%"xsd:string" []),
   (s%"configSourceUri", .prop s%"build:configSourceUri" s%"xsd:anyURI" []),
   (s%"environment", .prop s%"build:environment" s%"core:DictionaryEntry" []),
   (s%"parameters", .prop s%"build:parameters" s%"core:DictionaryEntry" []), (s%"Artifact", .simple s%"core:Artifact"),
   (s%"Bom", .simple s%"core:Bom"), (s%"ElementCollection", .simple s%"core:ElementCollection"),
   (s%"LifecycleScopedRelationship", .simple s%"core:LifecycleScopedRelationship"),
   (s%"algorithm", .prop s%"core:algorithm" s%"@vocab" [(s%"@vocab", s%"core:HashAlgorithm/")]),
   (s%"annotationType", .prop s%"core:annotationType" s%"@vocab" [(s%"@vocab", s%"core:AnnotationType/")]),
   (s%"begin", .prop s%"core:begin" s%"xsd:positiveInteger" []), (s%"builtTime", .prop s%"core:builtTime" s%"core:DateTime" []),
   (s%"completeness", .prop s%"core:completeness" s%"@vocab" [(s%"@vocab", s%"core:RelationshipCompleteness/")]),
   (s%"context", .prop s%"core:context" s%"xsd:string" []), (s%"created", .prop s%"core:created" s%"core:DateTime" []),
   (s%"createdBy", .prop s%"core:createdBy" s%"@id" []), (s%"createdUsing", .prop s%"core:createdUsing" s%"core:Tool" []),
   (s%"dataLicense", .prop s%"core:dataLicense" s%"xsd:string" []),
   (s%"definingDocument", .prop s%"core:definingDocument" s%"xsd:anyURI" []),
   (s%"description", .prop s%"core:description" s%"xsd:string" []), (s%"element", .prop s%"core:element" s%"@id" []),
   (s%"end", .prop s%"core:end" s%"xsd:positiveInteger" []), (s%"endTime", .prop s%"core:endTime" s%"core:DateTime" []),
   (s%"externalId", .prop s%"core:externalId" s%"xsd:anyURI" []),
   (s%"externalIdentifier", .prop s%"core:externalIdentifier" s%"core:ExternalIdentifier" []),
   (s%"externalIdentifierType", .prop s%"core:externalIdentifierType" s%"@vocab" [(s%"@vocab", s%"core:ExternalIdentifierType/")]),
   (s%"externalReference", .prop s%"core:externalReference" s%"core:ExternalReference" []),
   (s%"externalReferenceType", .prop s%"core:externalReferenceType" s%"@vocab" [(s%"@vocab", s%"core:ExternalReferenceType/")]),
   (s%"from", .prop s%"core:from" s%"@id" []), (s%"hashValue", .prop s%"core:hashValue" s%"xsd:string" []),
   (s%"identifier", .prop s%"core:identifier" s%"xsd:string" []),
   (s%"identifierLocator", .prop s%"core:identifierLocator" s%"xsd:anyURI" []),
   (s%"issuingAuthority", .prop s%"core:issuingAuthority" s%"xsd:anyURI" []), (s%"key", .prop s%"core:key" s%"xsd:string" []),
   (s%"locationHint", .prop s%"core:locationHint" s%"xsd:anyURI" []), (s%"locator", .prop s%"core:locator" s%"xsd:anyURI" []),
   (s%"namespace", .prop s%"core:namespace" s%"xsd:anyURI" []), (s%"originatedBy", .prop s%"core:originatedBy" s%"@id" []),
   (s%"prefix", .prop s%"core:prefix" s%"xsd:string" []),
   (s%"profile", .prop s%"core:profile" s%"@vocab" [(s%"core", s%"https://spdx.org/rdf/Core/ProfileIdentifierType/core"), (s%"software", s%"https://spdx.org/rdf/Core/ProfileIdentifierType/software"), (s%"licensing", s%"https://spdx.org/rdf/Core/ProfileIdentifierType/licensing"), (s%"security", s%"https://spdx.org/rdf/Core/ProfileIdentifierType/security"), (s%"build", s%"https://spdx.org/rdf/Core/ProfileIdentifierType/build"), (s%"ai", s%"https://spdx.org/rdf/Core/ProfileIdentifierType/ai"), (s%"dataset", s%"https://spdx.org/rdf/Core/ProfileIdentifierType/dataset"), (s%"usage", s%"https://spdx.org/rdf/Core/ProfileIdentifierType/usage"), (s%"extension", s%"https://spdx.org/rdf/Core/ProfileIdentifierType/extension")]),
   (s%"relationshipType", .prop s%"core:relationshipType" s%"@vocab" [(s%"@vocab", s%"core:RelationshipType/")]),
   (s%"releaseTime", .prop s%"core:releaseTime" s%"core:DateTime" []), (s%"rootElement", .prop s%"core:rootElement" s%"@id" []),
   (s%"scope", .prop s%"core:scope" s%"@vocab" [(s%"@vocab", s%"core:LifecycleScopeType/")]),
   (s%"specVersion", .prop s%"core:specVersion" s%"core:SemVer" []), (s%"standard", .prop s%"core:standard" s%"xsd:string" []),
   (s%"startTime", .prop s%"core:startTime" s%"core:DateTime" []), (s%"statement", .prop s%"core:statement" s%"xsd:string" []),
   (s%"subject", .prop s%"core:subject" s%"@id" []), (s%"summary", .prop s%"core:summary" s%"xsd:string" []),
   (s%"suppliedBy", .prop s%"core:suppliedBy" s%"@id" []), (s%"to", .prop s%"core:to" s%"@id" []),
   (s%"validUntilTime", .prop s%"core:validUntilTime" s%"core:DateTime" []), (s%"value", .prop s%"core:value" s%"xsd:string" []),
   (s%"anonymizationMethodUsed", .prop s%"dataset:anonymizationMethodUsed" s%"xsd:string" []),
   (s%"confidentialityLevel", .prop s%"dataset:confidentialityLevel" s%"@vocab" [(s%"@vocab", s%"dataset:ConfidentialityLevelType/")]),
   (s%"dataCollectionProcess", .prop s%"dataset:dataCollectionProcess" s%"xsd:string" []),
   (s%"dataPreprocessing", .prop s%"dataset:dataPreprocessing" s%"xsd:string" []),
   (s%"datasetAvailability", .prop s%"dataset:datasetAvailability" s%"@vocab" [(s%"@vocab", s%"dataset:DatasetAvailabilityType/")]),
   (s%"datasetNoise", .prop s%"dataset:datasetNoise" s%"xsd:string" []),
   (s%"datasetSize", .prop s%"dataset:datasetSize" s%"xsd:nonNegativeInteger" []),
   (s%"datasetType", .prop s%"dataset:datasetType" s%"xsd:string" []),
   (s%"datasetUpdateMechanism", .prop s%"dataset:datasetUpdateMechanism" s%"xsd:string" []),
   (s%"intendedUse", .prop s%"dataset:intendedUse" s%"xsd:string" []), (s%"knownBias", .prop s%"dataset:knownBias" s%"xsd:string" []),
   (s%"sensor", .prop s%"dataset:sensor" s%"core:DictionaryEntry" []),
   (s%"additionComment", .prop s%"licensing:additionComment" s%"xsd:string" []),
   (s%"additionId", .prop s%"licensing:additionId" s%"xsd:string" []),
   (s%"additionName", .prop s%"licensing:additionName" s%"xsd:string" []),
   (s%"additionText", .prop s%"licensing:additionText" s%"xsd:string" []),
   (s%"isDeprecatedAdditionId", .prop s%"licensing:isDeprecatedAdditionId" s%"xsd:boolean" []),
   (s%"isDeprecatedLicenseId", .prop s%"licensing:isDeprecatedLicenseId" s%"xsd:boolean" []),
   (s%"isFsfLibre", .prop s%"licensing:isFsfLibre" s%"xsd:boolean" []),
   (s%"isOsiApproved", .prop s%"licensing:isOsiApproved" s%"xsd:boolean" []),
   (s%"licenseComment", .prop s%"licensing:licenseComment" s%"xsd:string" []),
   (s%"licenseId", .prop s%"licensing:licenseId" s%"xsd:string" []),
   (s%"licenseName", .prop s%"licensing:licenseName" s%"xsd:string" []),
   (s%"licenseText", .prop s%"licensing:licenseText" s%"xsd:string" []),
   (s%"standardAdditionTemplate", .prop s%"licensing:standardAdditionTemplate" s%"xsd:string" []),
   (s%"standardLicenseHeader", .prop s%"licensing:standardLicenseHeader" s%"xsd:string" []),
   (s%"standardLicenseTemplate", .prop s%"licensing:standardLicenseTemplate" s%"xsd:string" []),
   (s%"subjectAddition", .prop s%"licensing:subjectAddition" s%"licensing:LicenseAddition" []),
   (s%"actionStatement", .prop s%"security:actionStatement" s%"xsd:string" []),
   (s%"actionStatementTime", .prop s%"security:actionStatementTime" s%"core:DateTime" []),
   (s%"assessedElement", .prop s%"security:assessedElement" s%"@id" []),
   (s%"catalogType", .prop s%"security:catalogType" s%"@vocab" [(s%"@vocab", s%"security:ExploitCatalogType/")]),
   (s%"decisionType", .prop s%"security:decisionType" s%"@vocab" [(s%"@vocab", s%"security:SsvcDecisionType/")]),
   (s%"exploited", .prop s%"security:exploited" s%"xsd:boolean" []),
   (s%"impactStatement", .prop s%"security:impactStatement" s%"xsd:string" []),
   (s%"impactStatementTime", .prop s%"security:impactStatementTime" s%"core:DateTime" []),
   (s%"justificationType", .prop s%"security:justificationType" s%"@vocab" [(s%"@vocab", s%"security:VexJustificationType/")]),
   (s%"probability", .prop s%"security:probability" s%"xsd:decimal" []),
   (s%"statusNotes", .prop s%"security:statusNotes" s%"xsd:string" []),
   (s%"vexVersion", .prop s%"security:vexVersion" s%"xsd:string" []),
   (s%"additionalPurpose", .prop s%"software:additionalPurpose" s%"software:SoftwarePurpose" []),
   (s%"attributionText", .prop s%"software:attributionText" s%"xsd:string" []),
   (s%"byteRange", .prop s%"software:byteRange" s%"core:PositiveIntegerRange" []),
   (s%"concludedLicense", .prop s%"software:concludedLicense" s%"licensing:LicenseField" []),
   (s%"conditionality", .prop s%"software:conditionality" s%"@vocab" [(s%"@vocab", s%"software:DependencyConditionalityType/")]),
   (s%"contentIdentifier", .prop s%"software:contentIdentifier" s%"xsd:anyURI" []),
   (s%"contentType", .prop s%"core:contentType" s%"core:MediaType" []),
   (s%"copyrightText", .prop s%"software:copyrightText" s%"xsd:string" []),
   (s%"declaredLicense", .prop s%"software:declaredLicense" s%"licensing:LicenseField" []),
   (s%"downloadLocation", .prop s%"software:downloadLocation" s%"xsd:anyURI" []),
   (s%"homePage", .prop s%"software:homePage" s%"xsd:anyURI" []),
   (s%"lineRange", .prop s%"software:lineRange" s%"core:PositiveIntegerRange" []),
   (s%"packageUrl", .prop s%"software:packageUrl" s%"xsd:anyURI" []),
   (s%"packageVersion", .prop s%"software:packageVersion" s%"xsd:string" []),
   (s%"primaryPurpose", .prop s%"software:primaryPurpose" s%"software:SoftwarePurpose" []),
   (s%"sbomType", .prop s%"software:sbomType" s%"@vocab" [(s%"@vocab", s%"software:SBOMType/")]),
   (s%"softwareLinkage", .prop s%"software:softwareLinkage" s%"@vocab" [(s%"@vocab", s%"software:SoftwareDependencyLinkType/")]),
   (s%"sourceInfo", .prop s%"software:sourceInfo" s%"xsd:string" []), (s%"Bundle", .simple s%"core:Bundle"),
   (s%"ExternalIdentifier", .simple s%"core:ExternalIdentifier"), (s%"ExternalReference", .simple s%"core:ExternalReference"),
   (s%"Hash", .simple s%"core:Hash"), (s%"Payload", .simple s%"core:Payload"), (s%"Relationship", .simple s%"core:Relationship"),
   (s%"SemVer", .simple s%"core:SemVer"), (s%"Tool", .simple s%"core:Tool"), (s%"name", .prop s%"core:name" s%"xsd:string" []),
   (s%"verifiedUsing", .prop s%"core:verifiedUsing" s%"core:IntegrityMethod" []),
   (s%"deprecatedVersion", .prop s%"licensing:deprecatedVersion" s%"xsd:string" []),
   (s%"listVersionAdded", .prop s%"licensing:listVersionAdded" s%"xsd:string" []),
   (s%"member", .prop s%"licensing:member" s%"licensing:AnyLicenseInfo" []),
   (s%"obsoletedBy", .prop s%"licensing:obsoletedBy" s%"xsd:string" []), (s%"seeAlso", .prop s%"licensing:seeAlso" s%"xsd:anyURI" []),
   (s%"subjectLicense", .prop s%"licensing:subjectLicense" s%"licensing:License" []),
   (s%"modifiedTime", .prop s%"security:modifiedTime" s%"core:DateTime" []),
   (s%"publishedTime", .prop s%"security:publishedTime" s%"core:DateTime" []), (s%"score", .prop s%"security:score" s%"xsd:string" []),
   (s%"vector", .prop s%"security:vector" s%"xsd:string" []),
   (s%"withdrawnTime", .prop s%"security:withdrawnTime" s%"core:DateTime" []), (s%"Package", .simple s%"software:Package"),
   (s%"creationInfo", .prop s%"core:creationInfo" s%"core:CreationInfo" []),
   (s%"imports", .prop s%"core:imports" s%"core:ExternalMap" []), (s%"namespaces", .prop s%"core:namespaces" s%"core:NamespaceMap" []),
   (s%"severity", .prop s%"security:severity" s%"xsd:string" []), (s%"SoftwareArtifact", .simple s%"software:SoftwareArtifact"),
   (s%"AnnotationType", .simple s%"core:AnnotationType"), (s%"CreationInfo", .simple s%"core:CreationInfo"),
   (s%"ExternalMap", .simple s%"core:ExternalMap"), (s%"IntegrityMethod", .simple s%"core:IntegrityMethod"),
   (s%"NamespaceMap", .simple s%"core:NamespaceMap"), (s%"PositiveIntegerRange", .simple s%"core:PositiveIntegerRange"),
   (s%"LicenseAddition", .simple s%"licensing:LicenseAddition"), (s%"ExploitCatalogType", .simple s%"security:ExploitCatalogType"),
   (s%"VexVulnAssessmentRelationship", .simple s%"security:VexVulnAssessmentRelationship"),
   (s%"MediaType", .simple s%"core:MediaType"), (s%"RelationshipCompleteness", .simple s%"core:RelationshipCompleteness"),
   (s%"comment", .prop s%"core:comment" s%"xsd:string" []), (s%"License", .simple s%"licensing:License"),
   (s%"SafetyRiskAssessmentType", .simple s%"ai:SafetyRiskAssessmentType"),
   (s%"ConfidentialityLevelType", .simple s%"dataset:ConfidentialityLevelType"),
   (s%"SsvcDecisionType", .simple s%"security:SsvcDecisionType"),
   (s%"VulnAssessmentRelationship", .simple s%"security:VulnAssessmentRelationship"),
   (s%"SoftwareDependencyLinkType", .simple s%"software:SoftwareDependencyLinkType"), (s%"PresenceType", .simple s%"ai:PresenceType"),
   (s%"DatasetAvailabilityType", .simple s%"dataset:DatasetAvailabilityType"), (s%"LicenseField", .simple s%"licensing:LicenseField"),
   (s%"VexJustificationType", .simple s%"security:VexJustificationType"),
   (s%"DependencyConditionalityType", .simple s%"software:DependencyConditionalityType"),
   (s%"LifecycleScopeType", .simple s%"core:LifecycleScopeType"), (s%"AnyLicenseInfo", .simple s%"licensing:AnyLicenseInfo"),
   (s%"SBOMType", .simple s%"software:SBOMType"), (s%"Agent", .simple s%"core:Agent"),
   (s%"ProfileIdentifierType", .simple s%"core:ProfileIdentifierType"), (s%"DictionaryEntry", .simple s%"core:DictionaryEntry"),
   (s%"ExternalIdentifierType", .simple s%"core:ExternalIdentifierType"), (s%"Element", .simple s%"core:Element"),
   (s%"ExternalReferenceType", .simple s%"core:ExternalReferenceType"), (s%"HashAlgorithm", .simple s%"core:HashAlgorithm"),
   (s%"SoftwarePurpose", .simple s%"software:SoftwarePurpose"), (s%"DateTime", .simple s%"core:DateTime"),
   (s%"RelationshipType", .simple s%"core:RelationshipType")]

/-- owl_to_context.py L19-39 `PROPERTIES_WITH_ENUM_RANGE` -/
def propertiesWithEnumRange : List Str :=
  [s%"safetyRiskAssessment", s%"sensitivePersonalInformation", s%"annotationType", s%"externalIdentifierType", s%"externalReferenceType",
   s%"algorithm", s%"scope", s%"profile", s%"completeness", s%"relationshipType", s%"confidentialityLevel", s%"datasetAvailability",
   s%"decisionType", s%"justificationType", s%"catalogType", s%"conditionality", s%"sbomType", s%"softwareLinkage", s%"purpose"]

/-- owl_to_context.py L41-44 `REFERENCE_PROPERTY_TYPES` -/
def referencePropertyTypes : List Str := [s%"core:Element", s%"core:Agent"]

/-- owl_to_context.py L77-87: the context of the property `profile` -/
def profileContext : List (Str × Str) :=
  [s%"core", s%"software", s%"licensing", s%"security", s%"build", s%"ai", s%"dataset", s%"usage", s%"extension"].map fun n =>
    (n, s%"https://spdx.org/rdf/Core/ProfileIdentifierType/" ++ n)

/-- owl_to_context.py L63, L101, L105: `node["@id"].split(":")[-1]`, the text after the last colon -/
def localName (id : Str) : Str := (id.reverse.takeWhile (· ≠ ':')).reverse

/-- `TypeError` of indexing a text with `"@id"`, `KeyError` of a property without range -/
inductive ContextError where
  | index | range
deriving DecidableEq

/-- owl_to_context.py L63-98: the step for a property -/
def contextProperty (d : Dict Str LdTerm) (n : OwlNode) (nodeType : Str) : Except ContextError (Dict Str LdTerm) :=
  match n.range with
  | none => .error .range
  | some typeId =>
    let name := localName n.id
    let add : Except ContextError (Dict Str LdTerm) :=
      if propertiesWithEnumRange.contains name then
        if name = s%"profile" then .ok (d.set name (.prop n.id s%"@vocab" profileContext))
        else .ok (d.set name (.prop n.id s%"@vocab" [(s%"@vocab", typeId ++ s%"/")]))
      else if nodeType = s%"owl:ObjectProperty" ∧ referencePropertyTypes.contains typeId = true then .ok (d.set name (.prop n.id s%"@id" []))
      else .ok (d.set name (.prop n.id typeId []))
    match d.get? name with
    | none => add
    | some (.simple _) => .error .index
    | some (.prop id _ _) => if s%"core".isPrefixOf id then .ok d else add

/-- owl_to_context.py L53-109: one pass of the loop.  A node without `@type` is skipped, and so is an empty `@type`; a node whose type
    is unknown is only reported on the console. -/
def contextStep (d : Dict Str LdTerm) (n : OwlNode) : Except ContextError (Dict Str LdTerm) :=
  match n.types with
  | .missing => .ok d
  | .one t =>
    if t = [] then .ok d
    else if isInfix s%"owl:NamedIndividual" t then .ok d
    else if t = s%"owl:DatatypeProperty" ∨ t = s%"owl:ObjectProperty" then contextProperty d n t
    else if t = s%"owl:Class" then .ok (d.set (localName n.id) (.simple n.id))
    else .ok d
  | .many l =>
    if l = [] then .ok d
    else if l.contains s%"owl:NamedIndividual" then .ok d
    else .ok (d.set (localName n.id) (.simple n.id))

/-- owl_to_context.py L47-115 `convert_spdx_owl_to_jsonld_context`: the dictionary it writes -/
def owlToContext (context : Dict Str LdTerm) : List OwlNode → Except ContextError (Dict Str LdTerm)
  | [] => .ok context
  | n :: ns => match contextStep context n with
    | .ok d => owlToContext d ns
    | .error e => .error e

end Spdx
