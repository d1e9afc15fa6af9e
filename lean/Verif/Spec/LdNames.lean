import Verif.Py.Text
/- The names JSON-LD uses for attributes and enumeration members of the SPDX 3 model, as a table. -/
namespace Spdx

/-- attribute of a class in spdx3/model, name in JSON-LD -/
def ldNames : List (Str × Str) :=
  [(s%"action_statement", s%"actionStatement"), (s%"action_statement_time", s%"actionStatementTime"),
   (s%"addition_comment", s%"additionComment"), (s%"addition_id", s%"additionId"), (s%"addition_name", s%"additionName"),
   (s%"addition_text", s%"additionText"), (s%"additional_purpose", s%"additionalPurpose"), (s%"algorithm", s%"algorithm"),
   (s%"annotation_type", s%"annotationType"), (s%"anonymization_method_used", s%"anonymizationMethodUsed"),
   (s%"assessed_element", s%"assessedElement"), (s%"attribution_text", s%"attributionText"), (s%"autonomy_type", s%"autonomyType"),
   (s%"begin", s%"begin"), (s%"build_end_time", s%"buildEndTime"), (s%"build_id", s%"buildId"),
   (s%"build_start_time", s%"buildStartTime"), (s%"build_type", s%"buildType"), (s%"built_time", s%"builtTime"),
   (s%"byte_range", s%"byteRange"), (s%"catalog_type", s%"catalogType"), (s%"comment", s%"comment"),
   (s%"completeness", s%"completeness"), (s%"concluded_license", s%"concludedLicense"), (s%"conditionality", s%"conditionality"),
   (s%"confidentiality_level", s%"confidentialityLevel"), (s%"config_source_digest", s%"configSourceDigest"),
   (s%"config_source_entrypoint", s%"configSourceEntrypoint"), (s%"config_source_uri", s%"configSourceUri"),
   (s%"content_identifier", s%"contentIdentifier"), (s%"content_type", s%"contentType"), (s%"context", s%"context"),
   (s%"copyright_text", s%"copyrightText"), (s%"created", s%"created"), (s%"created_by", s%"createdBy"),
   (s%"created_using", s%"createdUsing"), (s%"creation_info", s%"creationInfo"),
   (s%"data_collection_process", s%"dataCollectionProcess"), (s%"data_license", s%"dataLicense"),
   (s%"data_preprocessing", s%"dataPreprocessing"), (s%"dataset_availability", s%"datasetAvailability"),
   (s%"dataset_noise", s%"datasetNoise"), (s%"dataset_size", s%"datasetSize"), (s%"dataset_type", s%"datasetType"),
   (s%"dataset_update_mechanism", s%"datasetUpdateMechanism"), (s%"decision_type", s%"decisionType"),
   (s%"declared_license", s%"declaredLicense"), (s%"defining_document", s%"definingDocument"),
   (s%"deprecated_version", s%"deprecatedVersion"), (s%"description", s%"description"), (s%"domain", s%"domain"),
   (s%"download_location", s%"downloadLocation"), (s%"element", s%"element"), (s%"end", s%"end"), (s%"end_time", s%"endTime"),
   (s%"energy_consumption", s%"energyConsumption"), (s%"environment", s%"environment"), (s%"exploited", s%"exploited"),
   (s%"extension", s%"extension"), (s%"external_id", s%"externalId"), (s%"external_identifier", s%"externalIdentifier"),
   (s%"external_identifier_type", s%"externalIdentifierType"), (s%"external_reference", s%"externalReference"),
   (s%"external_reference_type", s%"externalReferenceType"), (s%"from_element", s%"from"), (s%"hash_value", s%"hashValue"),
   (s%"homepage", s%"homepage"), (s%"hyperparameter", s%"hyperparameter"), (s%"identifier", s%"identifier"),
   (s%"identifier_locator", s%"identifierLocator"), (s%"impact_statement", s%"impactStatement"),
   (s%"impact_statement_time", s%"impactStatementTime"), (s%"imports", s%"imports"),
   (s%"information_about_application", s%"informationAboutApplication"), (s%"information_about_training", s%"informationAboutTraining"),
   (s%"intended_use", s%"intendedUse"), (s%"is_deprecated_addition_id", s%"isDeprecatedAdditionId"),
   (s%"is_deprecated_license_id", s%"isDeprecatedLicenseId"), (s%"is_fsf_libre", s%"isFsfLibre"),
   (s%"is_osi_approved", s%"isOsiApproved"), (s%"issuing_authority", s%"issuingAuthority"),
   (s%"justification_type", s%"justificationType"), (s%"known_bias", s%"knownBias"), (s%"license_comment", s%"licenseComment"),
   (s%"license_id", s%"licenseId"), (s%"license_name", s%"licenseName"), (s%"license_text", s%"licenseText"),
   (s%"limitation", s%"limitation"), (s%"line_range", s%"lineRange"), (s%"list_version_added", s%"listVersionAdded"),
   (s%"location_hint", s%"locationHint"), (s%"locator", s%"locator"), (s%"member", s%"member"), (s%"metric", s%"metric"),
   (s%"metric_decision_threshold", s%"metricDecisionThreshold"), (s%"model_data_preprocessing", s%"modelDataPreprocessing"),
   (s%"model_explainability", s%"modelExplainability"), (s%"modified_time", s%"modifiedTime"), (s%"name", s%"name"),
   (s%"namespace", s%"namespace"), (s%"namespaces", s%"namespaces"), (s%"obsoleted_by", s%"obsoletedBy"),
   (s%"originated_by", s%"originatedBy"), (s%"package_url", s%"packageUrl"), (s%"package_version", s%"packageVersion"),
   (s%"parameters", s%"parameters"), (s%"prefix", s%"prefix"), (s%"primary_purpose", s%"primaryPurpose"),
   (s%"probability", s%"probability"), (s%"profile", s%"profile"), (s%"published_time", s%"publishedTime"),
   (s%"relationship_type", s%"relationshipType"), (s%"release_time", s%"releaseTime"), (s%"root_element", s%"rootElement"),
   (s%"safety_risk_assessment", s%"safetyRiskAssessment"), (s%"sbom_type", s%"sbomType"), (s%"scope", s%"scope"), (s%"score", s%"score"),
   (s%"see_also", s%"seeAlso"), (s%"sensitive_personal_information", s%"sensitivePersonalInformation"), (s%"sensor", s%"sensor"),
   (s%"severity", s%"severity"), (s%"software_linkage", s%"softwareLinkage"), (s%"source_info", s%"sourceInfo"), (s%"spdx_id", s%"@id"),
   (s%"spec_version", s%"specVersion"), (s%"standard", s%"standard"), (s%"standard_addition_template", s%"standardAdditionTemplate"),
   (s%"standard_compliance", s%"standardCompliance"), (s%"standard_license_header", s%"standardLicenseHeader"),
   (s%"standard_license_template", s%"standardLicenseTemplate"), (s%"start_time", s%"startTime"), (s%"statement", s%"statement"),
   (s%"status_notes", s%"statusNotes"), (s%"subject", s%"subject"), (s%"subject_addition", s%"subjectAddition"),
   (s%"subject_license", s%"subjectLicense"), (s%"summary", s%"summary"), (s%"supplied_by", s%"suppliedBy"), (s%"to", s%"to"),
   (s%"type_of_model", s%"typeOfModel"), (s%"valid_until_time", s%"validUntilTime"), (s%"vector", s%"vector"),
   (s%"verified_using", s%"verifiedUsing"), (s%"vex_version", s%"vexVersion"), (s%"withdrawn_time", s%"withdrawnTime")]

/-- member of an enumeration in spdx3/model, name in JSON-LD -/
def ldMembers : List (Str × Str) :=
  [(s%"ACT", s%"act"), (s%"AFFECTS", s%"affects"), (s%"AI", s%"ai"), (s%"ALT_DOWNLOAD_LOCATION", s%"altDownloadLocation"),
   (s%"ALT_WEB_PAGE", s%"altWebPage"), (s%"AMBER", s%"amber"), (s%"AMENDS", s%"amends"), (s%"ANALYZED", s%"analyzed"),
   (s%"ANCESTOR", s%"ancestor"), (s%"APPLICATION", s%"application"), (s%"ARCHIVE", s%"archive"), (s%"ATTEND", s%"attend"),
   (s%"AUDIO", s%"audio"), (s%"AVAILABLE_FROM", s%"availableFrom"), (s%"BINARY_ARTIFACT", s%"binaryArtifact"),
   (s%"BLAKE2B256", s%"blake2B256"), (s%"BLAKE2B384", s%"blake2B384"), (s%"BLAKE2B512", s%"blake2B512"), (s%"BLAKE3", s%"blake3"),
   (s%"BOM", s%"bom"), (s%"BUILD", s%"build"), (s%"BUILD_DEPENDENCY", s%"buildDependency"), (s%"BUILD_META", s%"buildMeta"),
   (s%"BUILD_SYSTEM", s%"buildSystem"), (s%"BUILD_TOOL", s%"buildTool"), (s%"CATEGORICAL", s%"categorical"),
   (s%"CERTIFICATION_REPORT", s%"certificationReport"), (s%"CHAT", s%"chat"), (s%"CLEAR", s%"clear"),
   (s%"CLICKTHROUGH", s%"clickthrough"), (s%"COMPLETE", s%"complete"), (s%"COMPONENT_ANALYSIS_REPORT", s%"componentAnalysisReport"),
   (s%"COMPONENT_NOT_PRESENT", s%"componentNotPresent"), (s%"CONFIGURATION", s%"configuration"), (s%"CONFIG_OF", s%"configOf"),
   (s%"CONTAINER", s%"container"), (s%"CONTAINS", s%"contains"), (s%"COORDINATED_BY", s%"coordinatedBy"), (s%"COPY", s%"copy"),
   (s%"CORE", s%"core"), (s%"CPE22", s%"cpe22"), (s%"CPE23", s%"cpe23"), (s%"CRYSTALS_DILITHIUM", s%"crystalsDilithium"),
   (s%"CRYSTALS_KYBER", s%"crystalsKyber"), (s%"CVE", s%"cve"), (s%"DATA", s%"data"), (s%"DATASET", s%"dataset"),
   (s%"DATA_FILE", s%"dataFile"), (s%"DEPENDENCY_MANIFEST", s%"dependencyManifest"), (s%"DEPENDS_ON", s%"dependsOn"),
   (s%"DEPLOYED", s%"deployed"), (s%"DESCENDANT", s%"descendant"), (s%"DESCRIBES", s%"describes"), (s%"DESIGN", s%"design"),
   (s%"DEVELOPMENT", s%"development"), (s%"DEVICE", s%"device"), (s%"DEV_DEPENDENCY", s%"devDependency"), (s%"DEV_TOOL", s%"devTool"),
   (s%"DIRECT_DOWNLOAD", s%"directDownload"), (s%"DISTRIBUTION_ARTIFACT", s%"distributionArtifact"),
   (s%"DOCUMENTATION", s%"documentation"), (s%"DOES_NOT_AFFECT", s%"doesNotAffect"), (s%"DYNAMIC", s%"dynamic"),
   (s%"DYNAMIC_ANALYSIS_REPORT", s%"dynamicAnalysisReport"), (s%"DYNAMIC_LINK", s%"dynamicLink"), (s%"EMAIL", s%"email"),
   (s%"EOL_NOTICE", s%"eolNotice"), (s%"EVIDENCE_FOR", s%"evidenceFor"), (s%"EXAMPLE", s%"example"), (s%"EXECUTABLE", s%"executable"),
   (s%"EXPANDED_FROM_ARCHIVE", s%"expandedFromArchive"), (s%"EXPLOIT_CREATED_BY", s%"exploitCreatedBy"), (s%"EXTENSION", s%"extension"),
   (s%"FALCON", s%"falcon"), (s%"FILE", s%"file"), (s%"FILE_ADDED", s%"fileAdded"), (s%"FILE_DELETED", s%"fileDeleted"),
   (s%"FILE_MODIFIED", s%"fileModified"), (s%"FIRMWARE", s%"firmware"), (s%"FIXED_BY", s%"fixedBy"), (s%"FIXED_IN", s%"fixedIn"),
   (s%"FOUND_BY", s%"foundBy"), (s%"FRAMEWORK", s%"framework"), (s%"FUNDING", s%"funding"), (s%"GENERATES", s%"generates"),
   (s%"GITOID", s%"gitoid"), (s%"GRAPH", s%"graph"), (s%"GREEN", s%"green"), (s%"HAS_ASSESSMENT_FOR", s%"hasAssessmentFor"),
   (s%"HAS_ASSOCIATED_VULNERABILITY", s%"hasAssociatedVulnerability"), (s%"HIGH", s%"high"), (s%"HOST_OF", s%"hostOf"),
   (s%"IMAGE", s%"image"), (s%"INCOMPLETE", s%"incomplete"), (s%"INLINE_MITIGATIONS_ALREADY_EXIST", s%"inlineMitigationsAlreadyExist"),
   (s%"INPUT_OF", s%"inputOf"), (s%"INSTALL", s%"install"), (s%"INVOKED_BY", s%"invokedBy"), (s%"ISSUE_TRACKER", s%"issueTracker"),
   (s%"KEV", s%"kev"), (s%"LIBRARY", s%"library"), (s%"LICENSE", s%"license"), (s%"LICENSING", s%"licensing"), (s%"LOW", s%"low"),
   (s%"MAILING_LIST", s%"mailingList"), (s%"MD2", s%"md2"), (s%"MD4", s%"md4"), (s%"MD5", s%"md5"), (s%"MD6", s%"md6"),
   (s%"MEDIUM", s%"medium"), (s%"METAFILE", s%"metafile"), (s%"METRICS", s%"metrics"), (s%"MODEL", s%"model"), (s%"MODULE", s%"module"),
   (s%"NOASSERTION", s%"noassertion"), (s%"NO_ASSERTION", s%"noAssertion"), (s%"NUMERIC", s%"numeric"),
   (s%"ON_BEHALF_OF", s%"onBehalfOf"), (s%"OPERATING_SYSTEM", s%"operatingSystem"), (s%"OPTIONAL", s%"optional"),
   (s%"OPTIONAL_COMPONENT", s%"optionalComponent"), (s%"OPTIONAL_DEPENDENCY", s%"optionalDependency"), (s%"OTHER", s%"other"),
   (s%"OUTPUT_OF", s%"outputOf"), (s%"PACKAGES", s%"packages"), (s%"PATCH", s%"patch"), (s%"PREREQUISITE", s%"prerequisite"),
   (s%"PRODUCT_METADATA", s%"productMetadata"), (s%"PROVIDED", s%"provided"), (s%"PROVIDED_DEPENDENCY", s%"providedDependency"),
   (s%"PUBLISHED_BY", s%"publishedBy"), (s%"PURL", s%"purl"), (s%"QUALITY_ASSESSMENT_REPORT", s%"qualityAssessmentReport"),
   (s%"QUERY", s%"query"), (s%"RED", s%"red"), (s%"REGISTRATION", s%"registration"), (s%"RELEASE_HISTORY", s%"releaseHistory"),
   (s%"RELEASE_NOTES", s%"releaseNotes"), (s%"REPORTED_BY", s%"reportedBy"), (s%"REPUBLISHED_BY", s%"republishedBy"),
   (s%"REQUIRED", s%"required"), (s%"REQUIREMENT", s%"requirement"), (s%"REQUIREMENT_FOR", s%"requirementFor"), (s%"REVIEW", s%"review"),
   (s%"RISK_ASSESSMENT", s%"riskAssessment"), (s%"RUNTIME", s%"runtime"), (s%"RUNTIME_ANALYSIS_REPORT", s%"runtimeAnalysisReport"),
   (s%"RUNTIME_DEPENDENCY", s%"runtimeDependency"), (s%"SCRAPING_SCRIPT", s%"scrapingScript"),
   (s%"SECURE_SOFTWARE_ATTESTATION", s%"secureSoftwareAttestation"), (s%"SECURITY", s%"security"),
   (s%"SECURITY_ADVERSARY_MODEL", s%"securityAdversaryModel"), (s%"SECURITY_ADVISORY", s%"securityAdvisory"),
   (s%"SECURITY_FIX", s%"securityFix"), (s%"SECURITY_OTHER", s%"securityOther"),
   (s%"SECURITY_PEN_TEST_REPORT", s%"securityPenTestReport"), (s%"SECURITY_POLICY", s%"securityPolicy"),
   (s%"SECURITY_THREAT_MODEL", s%"securityThreatModel"), (s%"SENSOR", s%"sensor"), (s%"SERIOUS", s%"serious"), (s%"SHA1", s%"sha1"),
   (s%"SHA224", s%"sha224"), (s%"SHA256", s%"sha256"), (s%"SHA384", s%"sha384"), (s%"SHA3_224", s%"sha3224"),
   (s%"SHA3_256", s%"sha3256"), (s%"SHA3_384", s%"sha3384"), (s%"SHA3_512", s%"sha3512"), (s%"SHA512", s%"sha512"),
   (s%"SOCIAL_MEDIA", s%"socialMedia"), (s%"SOFTWARE", s%"software"), (s%"SOURCE", s%"source"),
   (s%"SOURCE_ARTIFACT", s%"sourceArtifact"), (s%"SPDXPVCSHA1", s%"spdxpvcsha1"), (s%"SPDXPVCSHA256", s%"spdxpvcsha256"),
   (s%"SPECIFICATION_FOR", s%"specificationFor"), (s%"SPHINCS_PLUS", s%"sphincsPlus"), (s%"STATIC", s%"static"),
   (s%"STATIC_ANALYSIS_REPORT", s%"staticAnalysisReport"), (s%"STATIC_LINK", s%"staticLink"), (s%"STRUCTURED", s%"structured"),
   (s%"SUPPORT", s%"support"), (s%"SWHID", s%"swhid"), (s%"SWID", s%"swid"), (s%"SYNTACTIC", s%"syntactic"), (s%"TEST", s%"test"),
   (s%"TESTED_ON", s%"testedOn"), (s%"TEST_CASE", s%"testCase"), (s%"TEST_DEPENDENCY", s%"testDependency"),
   (s%"TEST_TOOL", s%"testTool"), (s%"TEXT", s%"text"), (s%"TIMESERIES", s%"timeseries"), (s%"TIMESTAMP", s%"timestamp"),
   (s%"TOOL", s%"tool"), (s%"TRACK", s%"track"), (s%"TRACK_STAR", s%"trackStar"), (s%"TRAINED_ON", s%"trainedOn"),
   (s%"UNDER_INVESTIGATION_FOR", s%"underInvestigationFor"), (s%"URL_SCHEME", s%"urlScheme"), (s%"USAGE", s%"usage"),
   (s%"VARIANT", s%"variant"), (s%"VCS", s%"vcs"), (s%"VIDEO", s%"video"),
   (s%"VULNERABILITY_DISCLOSURE_REPORT", s%"vulnerabilityDisclosureReport"),
   (s%"VULNERABILITY_EXPLOITABILITY_ASSESSMENT", s%"vulnerabilityExploitabilityAssessment"),
   (s%"VULNERABLE_CODE_CANNOT_BE_CONTROLLED_BY_ADVERSARY", s%"vulnerableCodeCannotBeControlledByAdversary"),
   (s%"VULNERABLE_CODE_NOT_IN_EXECUTE_PATH", s%"vulnerableCodeNotInExecutePath"),
   (s%"VULNERABLE_CODE_NOT_PRESENT", s%"vulnerableCodeNotPresent")]

end Spdx
