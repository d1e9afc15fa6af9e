import Verif.Model.Spdx3Classes
/-
spdx/model: the constructors of the SPDX 2 classes, with their parameters and defaults.  Calls and assignments are those of
`Model/Spdx3Classes`: both data models use common/typing.
-/
namespace Spdx.V2

/-- spdx/model/actor.py L18-25 -/
def actor : SClass where
  name := s%"Actor"
  fields := [(s%"actor_type", .cls s%"ActorType"), (s%"name", .str), (s%"email", .optional .str)]
  params := [⟨s%"actor_type", .cls s%"ActorType", none⟩, ⟨s%"name", .str, none⟩, ⟨s%"email", .optional .str, some .none⟩]
  filled := []

/-- spdx/model/checksum.py L30-36 -/
def checksum : SClass where
  name := s%"Checksum"
  fields := [(s%"algorithm", .cls s%"ChecksumAlgorithm"), (s%"value", .str)]
  params := [⟨s%"algorithm", .cls s%"ChecksumAlgorithm", none⟩, ⟨s%"value", .str, none⟩]
  filled := []

/-- spdx/model/external_document_ref.py L10-17 -/
def externalDocumentRef : SClass where
  name := s%"ExternalDocumentRef"
  fields := [(s%"document_ref_id", .str), (s%"document_uri", .str), (s%"checksum", .cls s%"Checksum")]
  params := [⟨s%"document_ref_id", .str, none⟩, ⟨s%"document_uri", .str, none⟩, ⟨s%"checksum", .cls s%"Checksum", none⟩]
  filled := []

/-- spdx/model/annotation.py L17-33 -/
def annotation : SClass where
  name := s%"Annotation"
  fields := [(s%"spdx_id", .str), (s%"annotation_type", .cls s%"AnnotationType"), (s%"annotator", .cls s%"Actor"),
             (s%"annotation_date", .cls s%"datetime"), (s%"annotation_comment", .str)]
  params := [⟨s%"spdx_id", .str, none⟩, ⟨s%"annotation_type", .cls s%"AnnotationType", none⟩, ⟨s%"annotator", .cls s%"Actor", none⟩,
             ⟨s%"annotation_date", .cls s%"datetime", none⟩, ⟨s%"annotation_comment", .str, none⟩]
  filled := []

/-- spdx/model/relationship.py L61-75 -/
def relationship : SClass where
  name := s%"Relationship"
  fields := [(s%"spdx_element_id", .str), (s%"relationship_type", .cls s%"RelationshipType"),
             (s%"related_spdx_element_id", .or .str (.or (.cls s%"SpdxNone") (.cls s%"SpdxNoAssertion"))), (s%"comment", .optional .str)]
  params := [⟨s%"spdx_element_id", .str, none⟩, ⟨s%"relationship_type", .cls s%"RelationshipType", none⟩,
             ⟨s%"related_spdx_element_id", .or .str (.or (.cls s%"SpdxNone") (.cls s%"SpdxNoAssertion")), none⟩,
             ⟨s%"comment", .optional .str, some .none⟩]
  filled := []

/-- spdx/model/extracted_licensing_info.py L13-30 -/
def extractedLicensingInfo : SClass where
  name := s%"ExtractedLicensingInfo"
  fields := [(s%"license_id", .optional .str), (s%"extracted_text", .optional .str),
             (s%"license_name", .optional (.or .str (.cls s%"SpdxNoAssertion"))), (s%"cross_references", .list .str),
             (s%"comment", .optional .str)]
  params := [⟨s%"license_id", .optional .str, some .none⟩, ⟨s%"extracted_text", .optional .str, some .none⟩,
             ⟨s%"license_name", .optional (.or .str (.cls s%"SpdxNoAssertion")), some .none⟩,
             ⟨s%"cross_references", .optional (.list .str), some .none⟩, ⟨s%"comment", .optional .str, some .none⟩]
  filled := [(s%"cross_references", .list [])]

/-- spdx/model/package.py L31-38 -/
def packageVerificationCode : SClass where
  name := s%"PackageVerificationCode"
  fields := [(s%"value", .str), (s%"excluded_files", .list .str)]
  params := [⟨s%"value", .str, none⟩, ⟨s%"excluded_files", .optional (.list .str), some .none⟩]
  filled := [(s%"excluded_files", .list [])]

/-- spdx/model/package.py L56-69 -/
def externalPackageRef : SClass where
  name := s%"ExternalPackageRef"
  fields := [(s%"category", .cls s%"ExternalPackageRefCategory"), (s%"reference_type", .str), (s%"locator", .str),
             (s%"comment", .optional .str)]
  params := [⟨s%"category", .cls s%"ExternalPackageRefCategory", none⟩, ⟨s%"reference_type", .str, none⟩, ⟨s%"locator", .str, none⟩,
             ⟨s%"comment", .optional .str, some .none⟩]
  filled := []

/-- spdx/model/package.py L72-134 -/
def package : SClass where
  name := s%"Package"
  fields := [(s%"spdx_id", .str), (s%"name", .str), (s%"download_location", .or .str (.or (.cls s%"SpdxNoAssertion") (.cls s%"SpdxNone"))),
             (s%"version", .optional .str), (s%"file_name", .optional .str),
             (s%"supplier", .optional (.or (.cls s%"Actor") (.cls s%"SpdxNoAssertion"))),
             (s%"originator", .optional (.or (.cls s%"Actor") (.cls s%"SpdxNoAssertion"))), (s%"files_analyzed", .bool),
             (s%"verification_code", .optional (.cls s%"PackageVerificationCode")), (s%"checksums", .list (.cls s%"Checksum")),
             (s%"homepage", .optional (.or .str (.or (.cls s%"SpdxNoAssertion") (.cls s%"SpdxNone")))), (s%"source_info", .optional .str),
             (s%"license_concluded", .optional (.or (.cls s%"LicenseExpression") (.or (.cls s%"SpdxNoAssertion") (.cls s%"SpdxNone")))),
             (s%"license_info_from_files", .list (.or (.cls s%"LicenseExpression") (.or (.cls s%"SpdxNoAssertion") (.cls s%"SpdxNone")))),
             (s%"license_declared", .optional (.or (.cls s%"LicenseExpression") (.or (.cls s%"SpdxNoAssertion") (.cls s%"SpdxNone")))),
             (s%"license_comment", .optional .str),
             (s%"copyright_text", .optional (.or .str (.or (.cls s%"SpdxNoAssertion") (.cls s%"SpdxNone")))), (s%"summary", .optional .str),
             (s%"description", .optional .str), (s%"comment", .optional .str),
             (s%"external_references", .list (.cls s%"ExternalPackageRef")), (s%"attribution_texts", .list .str),
             (s%"primary_package_purpose", .optional (.cls s%"PackagePurpose")), (s%"release_date", .optional (.cls s%"datetime")),
             (s%"built_date", .optional (.cls s%"datetime")), (s%"valid_until_date", .optional (.cls s%"datetime"))]
  params := [⟨s%"spdx_id", .str, none⟩, ⟨s%"name", .str, none⟩,
             ⟨s%"download_location", .or .str (.or (.cls s%"SpdxNoAssertion") (.cls s%"SpdxNone")), none⟩,
             ⟨s%"version", .optional .str, some .none⟩, ⟨s%"file_name", .optional .str, some .none⟩,
             ⟨s%"supplier", .optional (.or (.cls s%"Actor") (.cls s%"SpdxNoAssertion")), some .none⟩,
             ⟨s%"originator", .optional (.or (.cls s%"Actor") (.cls s%"SpdxNoAssertion")), some .none⟩,
             ⟨s%"files_analyzed", .bool, some (.bool true)⟩,
             ⟨s%"verification_code", .optional (.cls s%"PackageVerificationCode"), some .none⟩,
             ⟨s%"checksums", .optional (.list (.cls s%"Checksum")), some .none⟩,
             ⟨s%"homepage", .optional (.or .str (.or (.cls s%"SpdxNoAssertion") (.cls s%"SpdxNone"))), some .none⟩,
             ⟨s%"source_info", .optional .str, some .none⟩,
             ⟨s%"license_concluded", .optional (.or (.cls s%"LicenseExpression") (.or (.cls s%"SpdxNoAssertion") (.cls s%"SpdxNone"))), some .none⟩,
             ⟨s%"license_info_from_files", .optional (.list (.or (.cls s%"LicenseExpression") (.or (.cls s%"SpdxNoAssertion") (.cls s%"SpdxNone")))), some .none⟩,
             ⟨s%"license_declared", .optional (.or (.cls s%"LicenseExpression") (.or (.cls s%"SpdxNoAssertion") (.cls s%"SpdxNone"))), some .none⟩,
             ⟨s%"license_comment", .optional .str, some .none⟩,
             ⟨s%"copyright_text", .optional (.or .str (.or (.cls s%"SpdxNoAssertion") (.cls s%"SpdxNone"))), some .none⟩,
             ⟨s%"summary", .optional .str, some .none⟩, ⟨s%"description", .optional .str, some .none⟩,
             ⟨s%"comment", .optional .str, some .none⟩,
             ⟨s%"external_references", .optional (.list (.cls s%"ExternalPackageRef")), some .none⟩,
             ⟨s%"attribution_texts", .optional (.list .str), some .none⟩,
             ⟨s%"primary_package_purpose", .optional (.cls s%"PackagePurpose"), some .none⟩,
             ⟨s%"release_date", .optional (.cls s%"datetime"), some .none⟩, ⟨s%"built_date", .optional (.cls s%"datetime"), some .none⟩,
             ⟨s%"valid_until_date", .optional (.cls s%"datetime"), some .none⟩]
  filled := [(s%"checksums", .list []), (s%"license_info_from_files", .list []), (s%"external_references", .list []),
             (s%"attribution_texts", .list [])]

/-- spdx/model/file.py L29-68 -/
def file : SClass where
  name := s%"File"
  fields := [(s%"name", .str), (s%"spdx_id", .str), (s%"checksums", .list (.cls s%"Checksum")), (s%"file_types", .list (.cls s%"FileType")),
             (s%"license_concluded", .optional (.or (.cls s%"LicenseExpression") (.or (.cls s%"SpdxNoAssertion") (.cls s%"SpdxNone")))),
             (s%"license_info_in_file", .list (.or (.cls s%"LicenseExpression") (.or (.cls s%"SpdxNoAssertion") (.cls s%"SpdxNone")))),
             (s%"license_comment", .optional .str),
             (s%"copyright_text", .optional (.or .str (.or (.cls s%"SpdxNoAssertion") (.cls s%"SpdxNone")))), (s%"comment", .optional .str),
             (s%"notice", .optional .str), (s%"contributors", .list .str), (s%"attribution_texts", .list .str)]
  params := [⟨s%"name", .str, none⟩, ⟨s%"spdx_id", .str, none⟩, ⟨s%"checksums", .list (.cls s%"Checksum"), none⟩,
             ⟨s%"file_types", .optional (.list (.cls s%"FileType")), some .none⟩,
             ⟨s%"license_concluded", .optional (.or (.cls s%"LicenseExpression") (.or (.cls s%"SpdxNoAssertion") (.cls s%"SpdxNone"))), some .none⟩,
             ⟨s%"license_info_in_file", .optional (.list (.or (.cls s%"LicenseExpression") (.or (.cls s%"SpdxNoAssertion") (.cls s%"SpdxNone")))), some .none⟩,
             ⟨s%"license_comment", .optional .str, some .none⟩,
             ⟨s%"copyright_text", .optional (.or .str (.or (.cls s%"SpdxNoAssertion") (.cls s%"SpdxNone"))), some .none⟩,
             ⟨s%"comment", .optional .str, some .none⟩, ⟨s%"notice", .optional .str, some .none⟩,
             ⟨s%"contributors", .optional (.list .str), some .none⟩, ⟨s%"attribution_texts", .optional (.list .str), some .none⟩]
  filled := [(s%"file_types", .list []), (s%"license_info_in_file", .list []), (s%"contributors", .list []),
             (s%"attribution_texts", .list [])]

/-- spdx/model/snippet.py L14-44 -/
def snippet : SClass where
  name := s%"Snippet"
  fields := [(s%"spdx_id", .str), (s%"file_spdx_id", .str), (s%"byte_range", .pair .int .int), (s%"line_range", .optional (.pair .int .int)),
             (s%"license_concluded", .optional (.or (.cls s%"LicenseExpression") (.or (.cls s%"SpdxNoAssertion") (.cls s%"SpdxNone")))),
             (s%"license_info_in_snippet", .list (.or (.cls s%"LicenseExpression") (.or (.cls s%"SpdxNoAssertion") (.cls s%"SpdxNone")))),
             (s%"license_comment", .optional .str),
             (s%"copyright_text", .optional (.or .str (.or (.cls s%"SpdxNoAssertion") (.cls s%"SpdxNone")))), (s%"comment", .optional .str),
             (s%"name", .optional .str), (s%"attribution_texts", .list .str)]
  params := [⟨s%"spdx_id", .str, none⟩, ⟨s%"file_spdx_id", .str, none⟩, ⟨s%"byte_range", .pair .int .int, none⟩,
             ⟨s%"line_range", .optional (.pair .int .int), some .none⟩,
             ⟨s%"license_concluded", .optional (.or (.cls s%"LicenseExpression") (.or (.cls s%"SpdxNoAssertion") (.cls s%"SpdxNone"))), some .none⟩,
             ⟨s%"license_info_in_snippet", .optional (.list (.or (.cls s%"LicenseExpression") (.or (.cls s%"SpdxNoAssertion") (.cls s%"SpdxNone")))), some .none⟩,
             ⟨s%"license_comment", .optional .str, some .none⟩,
             ⟨s%"copyright_text", .optional (.or .str (.or (.cls s%"SpdxNoAssertion") (.cls s%"SpdxNone"))), some .none⟩,
             ⟨s%"comment", .optional .str, some .none⟩, ⟨s%"name", .optional .str, some .none⟩,
             ⟨s%"attribution_texts", .optional (.list .str), some .none⟩]
  filled := [(s%"attribution_texts", .list []), (s%"license_info_in_snippet", .list [])]

/-- spdx/model/document.py L24-53 -/
def creationInfo : SClass where
  name := s%"CreationInfo"
  fields := [(s%"spdx_version", .str), (s%"spdx_id", .str), (s%"name", .str), (s%"document_namespace", .str),
             (s%"creators", .list (.cls s%"Actor")), (s%"created", .cls s%"datetime"), (s%"creator_comment", .optional .str),
             (s%"data_license", .str), (s%"external_document_refs", .list (.cls s%"ExternalDocumentRef")),
             (s%"license_list_version", .optional (.cls s%"Version")), (s%"document_comment", .optional .str)]
  params := [⟨s%"spdx_version", .str, none⟩, ⟨s%"spdx_id", .str, none⟩, ⟨s%"name", .str, none⟩, ⟨s%"document_namespace", .str, none⟩,
             ⟨s%"creators", .list (.cls s%"Actor"), none⟩, ⟨s%"created", .cls s%"datetime", none⟩,
             ⟨s%"creator_comment", .optional .str, some .none⟩, ⟨s%"data_license", .str, some (.str s%"CC0-1.0")⟩,
             ⟨s%"external_document_refs", .optional (.list (.cls s%"ExternalDocumentRef")), some .none⟩,
             ⟨s%"license_list_version", .optional (.cls s%"Version"), some .none⟩, ⟨s%"document_comment", .optional .str, some .none⟩]
  filled := [(s%"external_document_refs", .list [])]

/-- spdx/model/document.py L56-83 -/
def document : SClass where
  name := s%"Document"
  fields := [(s%"creation_info", .cls s%"CreationInfo"), (s%"packages", .list (.cls s%"Package")), (s%"files", .list (.cls s%"File")),
             (s%"snippets", .list (.cls s%"Snippet")), (s%"annotations", .list (.cls s%"Annotation")),
             (s%"relationships", .list (.cls s%"Relationship")), (s%"extracted_licensing_info", .list (.cls s%"ExtractedLicensingInfo"))]
  params := [⟨s%"creation_info", .cls s%"CreationInfo", none⟩, ⟨s%"packages", .optional (.list (.cls s%"Package")), some .none⟩,
             ⟨s%"files", .optional (.list (.cls s%"File")), some .none⟩, ⟨s%"snippets", .optional (.list (.cls s%"Snippet")), some .none⟩,
             ⟨s%"annotations", .optional (.list (.cls s%"Annotation")), some .none⟩,
             ⟨s%"relationships", .optional (.list (.cls s%"Relationship")), some .none⟩,
             ⟨s%"extracted_licensing_info", .optional (.list (.cls s%"ExtractedLicensingInfo")), some .none⟩]
  filled := [(s%"packages", .list []), (s%"files", .list []), (s%"snippets", .list []), (s%"annotations", .list []),
             (s%"relationships", .list []), (s%"extracted_licensing_info", .list [])]

/-- All classes of spdx/model with type-checked constructors. -/
def classes : List SClass :=
  [actor, checksum, externalDocumentRef, annotation, relationship, extractedLicensingInfo, packageVerificationCode, externalPackageRef, package, file, snippet, creationInfo, document]

end Spdx.V2
