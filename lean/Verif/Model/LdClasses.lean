import Verif.Py.Text
/- Generated from the text of spdx3/model: the classes whose instances the JSON-LD converter meets, with their dataclass fields (those of the
   base classes first), which is the order in which `check_types_and_set_values` sets the attributes, and the members of the enumerations. -/
namespace Spdx

/-- spdx3/model/**: class name and attribute names (without the leading underscore `dataclass_with_properties` adds) -/
def ldClasses : List (Str × List Str) :=
  [-- spdx3/model/agent.py L13
   (s%"Agent", [s%"spdx_id", s%"creation_info", s%"name", s%"summary", s%"description", s%"comment", s%"verified_using",
      s%"external_reference", s%"external_identifier", s%"extension"]),
   -- spdx3/model/ai/ai_package.py L42
   (s%"AIPackage", [s%"spdx_id", s%"creation_info", s%"name", s%"summary", s%"description", s%"comment", s%"verified_using",
      s%"external_reference", s%"external_identifier", s%"extension", s%"originated_by", s%"supplied_by", s%"built_time", s%"release_time",
      s%"valid_until_time", s%"standard", s%"content_identifier", s%"primary_purpose", s%"additional_purpose", s%"concluded_license",
      s%"declared_license", s%"copyright_text", s%"attribution_text", s%"package_version", s%"download_location", s%"package_url",
      s%"homepage", s%"source_info", s%"energy_consumption", s%"standard_compliance", s%"limitation", s%"type_of_model",
      s%"information_about_training", s%"information_about_application", s%"hyperparameter", s%"model_data_preprocessing",
      s%"model_explainability", s%"sensitive_personal_information", s%"metric_decision_threshold", s%"metric", s%"domain",
      s%"autonomy_type", s%"safety_risk_assessment"]),
   -- spdx3/model/annotation.py L26
   (s%"Annotation", [s%"spdx_id", s%"creation_info", s%"name", s%"summary", s%"description", s%"comment", s%"verified_using",
      s%"external_reference", s%"external_identifier", s%"extension", s%"annotation_type", s%"subject", s%"content_type", s%"statement"]),
   -- spdx3/model/bom.py L24
   (s%"Bom", [s%"spdx_id", s%"creation_info", s%"name", s%"summary", s%"description", s%"comment", s%"verified_using",
      s%"external_reference", s%"external_identifier", s%"extension", s%"element", s%"root_element", s%"namespaces", s%"imports",
      s%"context"]),
   -- spdx3/model/build/build.py L26
   (s%"Build", [s%"spdx_id", s%"creation_info", s%"name", s%"summary", s%"description", s%"comment", s%"verified_using",
      s%"external_reference", s%"external_identifier", s%"extension", s%"build_type", s%"build_id", s%"config_source_entrypoint",
      s%"config_source_uri", s%"config_source_digest", s%"parameters", s%"build_start_time", s%"build_end_time", s%"environment"]),
   -- spdx3/model/bundle.py L23
   (s%"Bundle", [s%"spdx_id", s%"creation_info", s%"name", s%"summary", s%"description", s%"comment", s%"verified_using",
      s%"external_reference", s%"external_identifier", s%"extension", s%"element", s%"root_element", s%"namespaces", s%"imports",
      s%"context"]),
   -- spdx3/model/creation_info.py L25
   (s%"CreationInfo", [s%"spec_version", s%"created", s%"created_by", s%"profile", s%"data_license", s%"created_using", s%"comment"]),
   -- spdx3/model/dataset/dataset.py L65
   (s%"Dataset", [s%"spdx_id", s%"creation_info", s%"name", s%"summary", s%"description", s%"comment", s%"verified_using",
      s%"external_reference", s%"external_identifier", s%"extension", s%"originated_by", s%"supplied_by", s%"built_time", s%"release_time",
      s%"valid_until_time", s%"standard", s%"content_identifier", s%"primary_purpose", s%"additional_purpose", s%"concluded_license",
      s%"declared_license", s%"copyright_text", s%"attribution_text", s%"package_version", s%"download_location", s%"package_url",
      s%"homepage", s%"source_info", s%"dataset_type", s%"data_collection_process", s%"intended_use", s%"dataset_size", s%"dataset_noise",
      s%"data_preprocessing", s%"sensor", s%"known_bias", s%"sensitive_personal_information", s%"anonymization_method_used",
      s%"confidentiality_level", s%"dataset_update_mechanism", s%"dataset_availability"]),
   -- spdx3/model/external_identifier.py L35
   (s%"ExternalIdentifier", [s%"external_identifier_type", s%"identifier", s%"comment", s%"identifier_locator", s%"issuing_authority"]),
   -- spdx3/model/external_map.py L20
   (s%"ExternalMap", [s%"external_id", s%"verified_using", s%"location_hint", s%"defining_document"]),
   -- spdx3/model/external_reference.py L61
   (s%"ExternalReference", [s%"external_reference_type", s%"locator", s%"content_type", s%"comment"]),
   -- spdx3/model/hash.py L45
   (s%"Hash", [s%"comment", s%"algorithm", s%"hash_value"]),
   -- spdx3/model/licensing/conjunctive_license_set.py L15
   (s%"ConjunctiveLicenseSet", [s%"member"]),
   -- spdx3/model/licensing/custom_license.py L13
   (s%"CustomLicense", [s%"license_id", s%"license_name", s%"license_text", s%"license_comment", s%"see_also", s%"is_osi_approved",
      s%"is_fsf_libre", s%"standard_license_header", s%"standard_license_template", s%"is_deprecated_license_id", s%"obsoleted_by"]),
   -- spdx3/model/licensing/custom_license_addition.py L13
   (s%"CustomLicenseAddition", [s%"addition_id", s%"addition_name", s%"addition_text", s%"addition_comment", s%"see_also",
      s%"standard_addition_template", s%"is_deprecated_addition_id", s%"obsoleted_by"]),
   -- spdx3/model/licensing/disjunctive_license_set.py L15
   (s%"DisjunctiveLicenseSet", [s%"member"]),
   -- spdx3/model/licensing/listed_license.py L16
   (s%"ListedLicense", [s%"license_id", s%"license_name", s%"license_text", s%"license_comment", s%"see_also", s%"is_osi_approved",
      s%"is_fsf_libre", s%"standard_license_header", s%"standard_license_template", s%"is_deprecated_license_id", s%"obsoleted_by",
      s%"list_version_added", s%"deprecated_version"]),
   -- spdx3/model/licensing/listed_license_exception.py L16
   (s%"ListedLicenseException", [s%"addition_id", s%"addition_name", s%"addition_text", s%"addition_comment", s%"see_also",
      s%"standard_addition_template", s%"is_deprecated_addition_id", s%"obsoleted_by", s%"list_version_added", s%"deprecated_version"]),
   -- spdx3/model/licensing/no_assertion_license.py L8
   (s%"NoAssertionLicense", []),
   -- spdx3/model/licensing/none_license.py L8
   (s%"NoneLicense", []),
   -- spdx3/model/licensing/or_later_operator.py L14
   (s%"OrLaterOperator", [s%"subject_license"]),
   -- spdx3/model/licensing/with_addition_operator.py L16
   (s%"WithAdditionOperator", [s%"subject_license", s%"subject_addition"]),
   -- spdx3/model/lifecycle_scoped_relationship.py L35
   (s%"LifecycleScopedRelationship", [s%"spdx_id", s%"creation_info", s%"name", s%"summary", s%"description", s%"comment",
      s%"verified_using", s%"external_reference", s%"external_identifier", s%"extension", s%"from_element", s%"to", s%"relationship_type",
      s%"completeness", s%"start_time", s%"end_time", s%"scope"]),
   -- spdx3/model/namespace_map.py L13
   (s%"NamespaceMap", [s%"prefix", s%"namespace"]),
   -- spdx3/model/organization.py L13
   (s%"Organization", [s%"spdx_id", s%"creation_info", s%"name", s%"summary", s%"description", s%"comment", s%"verified_using",
      s%"external_reference", s%"external_identifier", s%"extension"]),
   -- spdx3/model/person.py L13
   (s%"Person", [s%"spdx_id", s%"creation_info", s%"name", s%"summary", s%"description", s%"comment", s%"verified_using",
      s%"external_reference", s%"external_identifier", s%"extension"]),
   -- spdx3/model/positive_integer_range.py L13
   (s%"PositiveIntegerRange", [s%"begin", s%"end"]),
   -- spdx3/model/relationship.py L97
   (s%"Relationship", [s%"spdx_id", s%"creation_info", s%"name", s%"summary", s%"description", s%"comment", s%"verified_using",
      s%"external_reference", s%"external_identifier", s%"extension", s%"from_element", s%"to", s%"relationship_type", s%"completeness",
      s%"start_time", s%"end_time"]),
   -- spdx3/model/security/cvss_v2_vuln_assessment_relationship.py L27
   (s%"CvssV2VulnAssessmentRelationship", [s%"spdx_id", s%"creation_info", s%"name", s%"summary", s%"description", s%"comment",
      s%"verified_using", s%"external_reference", s%"external_identifier", s%"extension", s%"from_element", s%"to", s%"relationship_type",
      s%"completeness", s%"start_time", s%"end_time", s%"assessed_element", s%"published_time", s%"supplied_by", s%"modified_time",
      s%"withdrawn_time", s%"score", s%"severity", s%"vector"]),
   -- spdx3/model/security/cvss_v3_vuln_assessment_relationship.py L27
   (s%"CvssV3VulnAssessmentRelationship", [s%"spdx_id", s%"creation_info", s%"name", s%"summary", s%"description", s%"comment",
      s%"verified_using", s%"external_reference", s%"external_identifier", s%"extension", s%"from_element", s%"to", s%"relationship_type",
      s%"completeness", s%"start_time", s%"end_time", s%"assessed_element", s%"published_time", s%"supplied_by", s%"modified_time",
      s%"withdrawn_time", s%"score", s%"severity", s%"vector"]),
   -- spdx3/model/security/epss_vuln_assessment_relationship.py L26
   (s%"EpssVulnAssessmentRelationship", [s%"spdx_id", s%"creation_info", s%"name", s%"summary", s%"description", s%"comment",
      s%"verified_using", s%"external_reference", s%"external_identifier", s%"extension", s%"from_element", s%"to", s%"relationship_type",
      s%"completeness", s%"start_time", s%"end_time", s%"assessed_element", s%"published_time", s%"supplied_by", s%"modified_time",
      s%"withdrawn_time", s%"probability", s%"severity"]),
   -- spdx3/model/security/exploit_catalog_vuln_assessment_relationship.py L33
   (s%"ExploitCatalogVulnAssessmentRelationship", [s%"spdx_id", s%"creation_info", s%"name", s%"summary", s%"description", s%"comment",
      s%"verified_using", s%"external_reference", s%"external_identifier", s%"extension", s%"from_element", s%"to", s%"relationship_type",
      s%"completeness", s%"start_time", s%"end_time", s%"assessed_element", s%"published_time", s%"supplied_by", s%"modified_time",
      s%"withdrawn_time", s%"catalog_type", s%"exploited", s%"locator"]),
   -- spdx3/model/security/ssvc_vuln_assessment_relationship.py L33
   (s%"SsvcVulnAssessmentRelationship", [s%"spdx_id", s%"creation_info", s%"name", s%"summary", s%"description", s%"comment",
      s%"verified_using", s%"external_reference", s%"external_identifier", s%"extension", s%"from_element", s%"to", s%"relationship_type",
      s%"completeness", s%"start_time", s%"end_time", s%"assessed_element", s%"published_time", s%"supplied_by", s%"modified_time",
      s%"withdrawn_time", s%"decision_type"]),
   -- spdx3/model/security/vex_affected_vuln_assessment_relationship.py L27
   (s%"VexAffectedVulnAssessmentRelationship", [s%"spdx_id", s%"creation_info", s%"name", s%"summary", s%"description", s%"comment",
      s%"verified_using", s%"external_reference", s%"external_identifier", s%"extension", s%"from_element", s%"to", s%"relationship_type",
      s%"completeness", s%"start_time", s%"end_time", s%"assessed_element", s%"published_time", s%"supplied_by", s%"modified_time",
      s%"withdrawn_time", s%"vex_version", s%"status_notes", s%"action_statement", s%"action_statement_time"]),
   -- spdx3/model/security/vex_fixed_vuln_assessment_relationship.py L23
   (s%"VexFixedVulnAssessmentRelationship", [s%"spdx_id", s%"creation_info", s%"name", s%"summary", s%"description", s%"comment",
      s%"verified_using", s%"external_reference", s%"external_identifier", s%"extension", s%"from_element", s%"to", s%"relationship_type",
      s%"completeness", s%"start_time", s%"end_time", s%"assessed_element", s%"published_time", s%"supplied_by", s%"modified_time",
      s%"withdrawn_time", s%"vex_version", s%"status_notes"]),
   -- spdx3/model/security/vex_not_affected_vuln_assessment_relationship.py L36
   (s%"VexNotAffectedVulnAssessmentRelationship", [s%"spdx_id", s%"creation_info", s%"name", s%"summary", s%"description", s%"comment",
      s%"verified_using", s%"external_reference", s%"external_identifier", s%"extension", s%"from_element", s%"to", s%"relationship_type",
      s%"completeness", s%"start_time", s%"end_time", s%"assessed_element", s%"published_time", s%"supplied_by", s%"modified_time",
      s%"withdrawn_time", s%"vex_version", s%"status_notes", s%"justification_type", s%"impact_statement", s%"impact_statement_time"]),
   -- spdx3/model/security/vex_under_investigation_vuln_assessment_relationship.py L23
   (s%"VexUnderInvestigationVulnAssessmentRelationship", [s%"spdx_id", s%"creation_info", s%"name", s%"summary", s%"description",
      s%"comment", s%"verified_using", s%"external_reference", s%"external_identifier", s%"extension", s%"from_element", s%"to",
      s%"relationship_type", s%"completeness", s%"start_time", s%"end_time", s%"assessed_element", s%"published_time", s%"supplied_by",
      s%"modified_time", s%"withdrawn_time", s%"vex_version", s%"status_notes"]),
   -- spdx3/model/security/vulnerability.py L19
   (s%"Vulnerability", [s%"spdx_id", s%"creation_info", s%"name", s%"summary", s%"description", s%"comment", s%"verified_using",
      s%"external_reference", s%"external_identifier", s%"extension", s%"published_time", s%"modified_time", s%"withdrawn_time"]),
   -- spdx3/model/software/file.py L20
   (s%"File", [s%"spdx_id", s%"creation_info", s%"name", s%"summary", s%"description", s%"comment", s%"verified_using",
      s%"external_reference", s%"external_identifier", s%"extension", s%"originated_by", s%"supplied_by", s%"built_time", s%"release_time",
      s%"valid_until_time", s%"standard", s%"content_identifier", s%"primary_purpose", s%"additional_purpose", s%"concluded_license",
      s%"declared_license", s%"copyright_text", s%"attribution_text", s%"content_type"]),
   -- spdx3/model/software/package.py L24
   (s%"Package", [s%"spdx_id", s%"creation_info", s%"name", s%"summary", s%"description", s%"comment", s%"verified_using",
      s%"external_reference", s%"external_identifier", s%"extension", s%"originated_by", s%"supplied_by", s%"built_time", s%"release_time",
      s%"valid_until_time", s%"standard", s%"content_identifier", s%"primary_purpose", s%"additional_purpose", s%"concluded_license",
      s%"declared_license", s%"copyright_text", s%"attribution_text", s%"package_version", s%"download_location", s%"package_url",
      s%"homepage", s%"source_info"]),
   -- spdx3/model/software/sbom.py L37
   (s%"Sbom", [s%"spdx_id", s%"creation_info", s%"name", s%"summary", s%"description", s%"comment", s%"verified_using",
      s%"external_reference", s%"external_identifier", s%"extension", s%"element", s%"root_element", s%"namespaces", s%"imports",
      s%"context", s%"sbom_type"]),
   -- spdx3/model/software/snippet.py L22
   (s%"Snippet", [s%"spdx_id", s%"creation_info", s%"name", s%"summary", s%"description", s%"comment", s%"verified_using",
      s%"external_reference", s%"external_identifier", s%"extension", s%"originated_by", s%"supplied_by", s%"built_time", s%"release_time",
      s%"valid_until_time", s%"standard", s%"content_identifier", s%"primary_purpose", s%"additional_purpose", s%"concluded_license",
      s%"declared_license", s%"copyright_text", s%"attribution_text", s%"byte_range", s%"line_range"]),
   -- spdx3/model/software/software_dependency_relationship.py L43
   (s%"SoftwareDependencyRelationship", [s%"spdx_id", s%"creation_info", s%"name", s%"summary", s%"description", s%"comment",
      s%"verified_using", s%"external_reference", s%"external_identifier", s%"extension", s%"from_element", s%"to", s%"relationship_type",
      s%"completeness", s%"start_time", s%"end_time", s%"scope", s%"software_linkage", s%"conditionality"]),
   -- spdx3/model/software_agent.py L13
   (s%"SoftwareAgent", [s%"spdx_id", s%"creation_info", s%"name", s%"summary", s%"description", s%"comment", s%"verified_using",
      s%"external_reference", s%"external_identifier", s%"extension"]),
   -- spdx3/model/spdx_document.py L24
   (s%"SpdxDocument", [s%"spdx_id", s%"creation_info", s%"name", s%"summary", s%"description", s%"comment", s%"verified_using",
      s%"external_reference", s%"external_identifier", s%"extension", s%"element", s%"root_element", s%"namespaces", s%"imports",
      s%"context"]),
   -- spdx3/model/tool.py L13
   (s%"Tool", [s%"spdx_id", s%"creation_info", s%"name", s%"summary", s%"description", s%"comment", s%"verified_using",
      s%"external_reference", s%"external_identifier", s%"extension"])]

/-- spdx3/model/**: the attributes with a `List` type; the constructors replace `None` by an empty list -/
def ldLists : List (Str × List Str) :=
  [(s%"Agent", [s%"verified_using", s%"external_reference", s%"external_identifier"]),
   (s%"AIPackage", [s%"verified_using", s%"external_reference", s%"external_identifier", s%"originated_by", s%"supplied_by", s%"standard",
      s%"additional_purpose", s%"standard_compliance", s%"type_of_model", s%"model_data_preprocessing", s%"model_explainability", s%"domain"]),
   (s%"Annotation", [s%"verified_using", s%"external_reference", s%"external_identifier", s%"content_type"]),
   (s%"Bom", [s%"verified_using", s%"external_reference", s%"external_identifier", s%"element", s%"root_element", s%"namespaces",
      s%"imports"]),
   (s%"Build", [s%"verified_using", s%"external_reference", s%"external_identifier", s%"config_source_entrypoint", s%"config_source_uri",
      s%"config_source_digest"]),
   (s%"Bundle", [s%"verified_using", s%"external_reference", s%"external_identifier", s%"element", s%"root_element", s%"namespaces",
      s%"imports"]),
   (s%"CreationInfo", [s%"created_by", s%"profile", s%"created_using"]),
   (s%"Dataset", [s%"verified_using", s%"external_reference", s%"external_identifier", s%"originated_by", s%"supplied_by", s%"standard",
      s%"additional_purpose", s%"dataset_type", s%"data_preprocessing", s%"known_bias", s%"anonymization_method_used"]),
   (s%"ExternalIdentifier", [s%"identifier_locator"]),
   (s%"ExternalMap", [s%"verified_using"]),
   (s%"ExternalReference", [s%"locator"]),
   (s%"ConjunctiveLicenseSet", [s%"member"]),
   (s%"CustomLicense", [s%"see_also"]),
   (s%"CustomLicenseAddition", [s%"see_also"]),
   (s%"DisjunctiveLicenseSet", [s%"member"]),
   (s%"ListedLicense", [s%"see_also"]),
   (s%"ListedLicenseException", [s%"see_also"]),
   (s%"LifecycleScopedRelationship", [s%"verified_using", s%"external_reference", s%"external_identifier", s%"to"]),
   (s%"Organization", [s%"verified_using", s%"external_reference", s%"external_identifier"]),
   (s%"Person", [s%"verified_using", s%"external_reference", s%"external_identifier"]),
   (s%"Relationship", [s%"verified_using", s%"external_reference", s%"external_identifier", s%"to"]),
   (s%"CvssV2VulnAssessmentRelationship", [s%"verified_using", s%"external_reference", s%"external_identifier", s%"to"]),
   (s%"CvssV3VulnAssessmentRelationship", [s%"verified_using", s%"external_reference", s%"external_identifier", s%"to"]),
   (s%"EpssVulnAssessmentRelationship", [s%"verified_using", s%"external_reference", s%"external_identifier", s%"to"]),
   (s%"ExploitCatalogVulnAssessmentRelationship", [s%"verified_using", s%"external_reference", s%"external_identifier", s%"to"]),
   (s%"SsvcVulnAssessmentRelationship", [s%"verified_using", s%"external_reference", s%"external_identifier", s%"to"]),
   (s%"VexAffectedVulnAssessmentRelationship", [s%"verified_using", s%"external_reference", s%"external_identifier", s%"to",
      s%"action_statement_time"]),
   (s%"VexFixedVulnAssessmentRelationship", [s%"verified_using", s%"external_reference", s%"external_identifier", s%"to"]),
   (s%"VexNotAffectedVulnAssessmentRelationship", [s%"verified_using", s%"external_reference", s%"external_identifier", s%"to"]),
   (s%"VexUnderInvestigationVulnAssessmentRelationship", [s%"verified_using", s%"external_reference", s%"external_identifier", s%"to"]),
   (s%"Vulnerability", [s%"verified_using", s%"external_reference", s%"external_identifier"]),
   (s%"File", [s%"verified_using", s%"external_reference", s%"external_identifier", s%"originated_by", s%"supplied_by", s%"standard",
      s%"additional_purpose"]),
   (s%"Package", [s%"verified_using", s%"external_reference", s%"external_identifier", s%"originated_by", s%"supplied_by", s%"standard",
      s%"additional_purpose"]),
   (s%"Sbom", [s%"verified_using", s%"external_reference", s%"external_identifier", s%"element", s%"root_element", s%"namespaces",
      s%"imports", s%"sbom_type"]),
   (s%"Snippet", [s%"verified_using", s%"external_reference", s%"external_identifier", s%"originated_by", s%"supplied_by", s%"standard",
      s%"additional_purpose"]),
   (s%"SoftwareDependencyRelationship", [s%"verified_using", s%"external_reference", s%"external_identifier", s%"to"]),
   (s%"SoftwareAgent", [s%"verified_using", s%"external_reference", s%"external_identifier"]),
   (s%"SpdxDocument", [s%"verified_using", s%"external_reference", s%"external_identifier", s%"element", s%"root_element", s%"namespaces",
      s%"imports"]),
   (s%"Tool", [s%"verified_using", s%"external_reference", s%"external_identifier"])]

/-- spdx3/model/**: the attributes with a `Dict` type; the constructors replace `None` by an empty dict -/
def ldDicts : List (Str × List Str) :=
  [(s%"AIPackage", [s%"hyperparameter", s%"metric_decision_threshold", s%"metric"]),
   (s%"Build", [s%"parameters", s%"environment"]),
   (s%"Dataset", [s%"sensor"])]

/-- the names of the members of all enumerations in spdx3/model -/
def ldEnumMembers : List Str :=
  [s%"ACT", s%"AFFECTS", s%"AI", s%"ALT_DOWNLOAD_LOCATION", s%"ALT_WEB_PAGE", s%"AMBER", s%"AMENDS", s%"ANALYZED", s%"ANCESTOR",
   s%"APPLICATION", s%"ARCHIVE", s%"ATTEND", s%"AUDIO", s%"AVAILABLE_FROM", s%"BINARY_ARTIFACT", s%"BLAKE2B256", s%"BLAKE2B384",
   s%"BLAKE2B512", s%"BLAKE3", s%"BOM", s%"BUILD", s%"BUILD_DEPENDENCY", s%"BUILD_META", s%"BUILD_SYSTEM", s%"BUILD_TOOL",
   s%"CATEGORICAL", s%"CERTIFICATION_REPORT", s%"CHAT", s%"CLEAR", s%"CLICKTHROUGH", s%"COMPLETE", s%"COMPONENT_ANALYSIS_REPORT",
   s%"COMPONENT_NOT_PRESENT", s%"CONFIGURATION", s%"CONFIG_OF", s%"CONTAINER", s%"CONTAINS", s%"COORDINATED_BY", s%"COPY", s%"CORE",
   s%"CPE22", s%"CPE23", s%"CRYSTALS_DILITHIUM", s%"CRYSTALS_KYBER", s%"CVE", s%"DATA", s%"DATASET", s%"DATA_FILE",
   s%"DEPENDENCY_MANIFEST", s%"DEPENDS_ON", s%"DEPLOYED", s%"DESCENDANT", s%"DESCRIBES", s%"DESIGN", s%"DEVELOPMENT", s%"DEVICE",
   s%"DEV_DEPENDENCY", s%"DEV_TOOL", s%"DIRECT_DOWNLOAD", s%"DISTRIBUTION_ARTIFACT", s%"DOCUMENTATION", s%"DOES_NOT_AFFECT", s%"DYNAMIC",
   s%"DYNAMIC_ANALYSIS_REPORT", s%"DYNAMIC_LINK", s%"EMAIL", s%"EOL_NOTICE", s%"EVIDENCE_FOR", s%"EXAMPLE", s%"EXECUTABLE",
   s%"EXPANDED_FROM_ARCHIVE", s%"EXPLOIT_CREATED_BY", s%"EXTENSION", s%"FALCON", s%"FILE", s%"FILE_ADDED", s%"FILE_DELETED",
   s%"FILE_MODIFIED", s%"FIRMWARE", s%"FIXED_BY", s%"FIXED_IN", s%"FOUND_BY", s%"FRAMEWORK", s%"FUNDING", s%"GENERATES", s%"GITOID",
   s%"GRAPH", s%"GREEN", s%"HAS_ASSESSMENT_FOR", s%"HAS_ASSOCIATED_VULNERABILITY", s%"HIGH", s%"HOST_OF", s%"IMAGE", s%"INCOMPLETE",
   s%"INLINE_MITIGATIONS_ALREADY_EXIST", s%"INPUT_OF", s%"INSTALL", s%"INVOKED_BY", s%"ISSUE_TRACKER", s%"KEV", s%"LIBRARY", s%"LICENSE",
   s%"LICENSING", s%"LOW", s%"MAILING_LIST", s%"MD2", s%"MD4", s%"MD5", s%"MD6", s%"MEDIUM", s%"METAFILE", s%"METRICS", s%"MODEL",
   s%"MODULE", s%"NOASSERTION", s%"NO_ASSERTION", s%"NUMERIC", s%"ON_BEHALF_OF", s%"OPERATING_SYSTEM", s%"OPTIONAL",
   s%"OPTIONAL_COMPONENT", s%"OPTIONAL_DEPENDENCY", s%"OTHER", s%"OUTPUT_OF", s%"PACKAGES", s%"PATCH", s%"PREREQUISITE",
   s%"PRODUCT_METADATA", s%"PROVIDED", s%"PROVIDED_DEPENDENCY", s%"PUBLISHED_BY", s%"PURL", s%"QUALITY_ASSESSMENT_REPORT", s%"QUERY",
   s%"RED", s%"REGISTRATION", s%"RELEASE_HISTORY", s%"RELEASE_NOTES", s%"REPORTED_BY", s%"REPUBLISHED_BY", s%"REQUIRED", s%"REQUIREMENT",
   s%"REQUIREMENT_FOR", s%"REVIEW", s%"RISK_ASSESSMENT", s%"RUNTIME", s%"RUNTIME_ANALYSIS_REPORT", s%"RUNTIME_DEPENDENCY",
   s%"SCRAPING_SCRIPT", s%"SECURE_SOFTWARE_ATTESTATION", s%"SECURITY", s%"SECURITY_ADVERSARY_MODEL", s%"SECURITY_ADVISORY",
   s%"SECURITY_FIX", s%"SECURITY_OTHER", s%"SECURITY_PEN_TEST_REPORT", s%"SECURITY_POLICY", s%"SECURITY_THREAT_MODEL", s%"SENSOR",
   s%"SERIOUS", s%"SHA1", s%"SHA224", s%"SHA256", s%"SHA384", s%"SHA3_224", s%"SHA3_256", s%"SHA3_384", s%"SHA3_512", s%"SHA512",
   s%"SOCIAL_MEDIA", s%"SOFTWARE", s%"SOURCE", s%"SOURCE_ARTIFACT", s%"SPDXPVCSHA1", s%"SPDXPVCSHA256", s%"SPECIFICATION_FOR",
   s%"SPHINCS_PLUS", s%"STATIC", s%"STATIC_ANALYSIS_REPORT", s%"STATIC_LINK", s%"STRUCTURED", s%"SUPPORT", s%"SWHID", s%"SWID",
   s%"SYNTACTIC", s%"TEST", s%"TESTED_ON", s%"TEST_CASE", s%"TEST_DEPENDENCY", s%"TEST_TOOL", s%"TEXT", s%"TIMESERIES", s%"TIMESTAMP",
   s%"TOOL", s%"TRACK", s%"TRACK_STAR", s%"TRAINED_ON", s%"UNDER_INVESTIGATION_FOR", s%"URL_SCHEME", s%"USAGE", s%"VARIANT", s%"VCS",
   s%"VIDEO", s%"VULNERABILITY_DISCLOSURE_REPORT", s%"VULNERABILITY_EXPLOITABILITY_ASSESSMENT",
   s%"VULNERABLE_CODE_CANNOT_BE_CONTROLLED_BY_ADVERSARY", s%"VULNERABLE_CODE_NOT_IN_EXECUTE_PATH", s%"VULNERABLE_CODE_NOT_PRESENT"]

end Spdx
