import Verif.Model.Casing
/- Names of the members of the `JsonProperty` enums (spdx/jsonschema/*_properties.py), in definition order. -/
namespace Spdx

/-- spdx/jsonschema/annotation_properties.py L10-13 -/
def annotationProps : List Str :=
  [s%"ANNOTATION_DATE",
   s%"ANNOTATION_TYPE",
   s%"ANNOTATOR",
   s%"COMMENT"]

/-- spdx/jsonschema/checksum_properties.py L10-11 -/
def checksumProps : List Str :=
  [s%"ALGORITHM",
   s%"CHECKSUM_VALUE"]

/-- spdx/jsonschema/creation_info_properties.py L10-13 -/
def creationInfoProps : List Str :=
  [s%"CREATED",
   s%"CREATORS",
   s%"LICENSE_LIST_VERSION",
   s%"COMMENT"]

/-- spdx/jsonschema/document_properties.py L10-23 -/
def documentProps : List Str :=
  [s%"SPDX_ID",
   s%"ANNOTATIONS",
   s%"COMMENT",
   s%"CREATION_INFO",
   s%"DATA_LICENSE",
   s%"EXTERNAL_DOCUMENT_REFS",
   s%"HAS_EXTRACTED_LICENSING_INFOS",
   s%"NAME",
   s%"SPDX_VERSION",
   s%"DOCUMENT_NAMESPACE",
   s%"PACKAGES",
   s%"FILES",
   s%"SNIPPETS",
   s%"RELATIONSHIPS"]

/-- spdx/jsonschema/external_document_ref_properties.py L10-12 -/
def externalDocumentRefProps : List Str :=
  [s%"EXTERNAL_DOCUMENT_ID",
   s%"SPDX_DOCUMENT",
   s%"CHECKSUM"]

/-- spdx/jsonschema/external_package_ref_properties.py L10-13 -/
def externalPackageRefProps : List Str :=
  [s%"COMMENT",
   s%"REFERENCE_CATEGORY",
   s%"REFERENCE_LOCATOR",
   s%"REFERENCE_TYPE"]

/-- spdx/jsonschema/extracted_licensing_info_properties.py L10-14 -/
def extractedLicensingInfoProps : List Str :=
  [s%"COMMENT",
   s%"EXTRACTED_TEXT",
   s%"LICENSE_ID",
   s%"NAME",
   s%"SEE_ALSOS"]

/-- spdx/jsonschema/file_properties.py L10-24 -/
def fileProps : List Str :=
  [s%"SPDX_ID",
   s%"ANNOTATIONS",
   s%"ARTIFACT_OFS",
   s%"ATTRIBUTION_TEXTS",
   s%"CHECKSUMS",
   s%"COMMENT",
   s%"COPYRIGHT_TEXT",
   s%"FILE_CONTRIBUTORS",
   s%"FILE_DEPENDENCIES",
   s%"FILE_NAME",
   s%"FILE_TYPES",
   s%"LICENSE_COMMENTS",
   s%"LICENSE_CONCLUDED",
   s%"LICENSE_INFO_IN_FILES",
   s%"NOTICE_TEXT"]

/-- spdx/jsonschema/package_properties.py L10-36 -/
def packageProps : List Str :=
  [s%"SPDX_ID",
   s%"ANNOTATIONS",
   s%"ATTRIBUTION_TEXTS",
   s%"BUILT_DATE",
   s%"CHECKSUMS",
   s%"COMMENT",
   s%"COPYRIGHT_TEXT",
   s%"DESCRIPTION",
   s%"DOWNLOAD_LOCATION",
   s%"EXTERNAL_REFS",
   s%"FILES_ANALYZED",
   s%"HOMEPAGE",
   s%"LICENSE_COMMENTS",
   s%"LICENSE_CONCLUDED",
   s%"LICENSE_DECLARED",
   s%"LICENSE_INFO_FROM_FILES",
   s%"NAME",
   s%"ORIGINATOR",
   s%"PACKAGE_FILE_NAME",
   s%"PACKAGE_VERIFICATION_CODE",
   s%"PRIMARY_PACKAGE_PURPOSE",
   s%"RELEASE_DATE",
   s%"SOURCE_INFO",
   s%"SUMMARY",
   s%"SUPPLIER",
   s%"VALID_UNTIL_DATE",
   s%"VERSION_INFO"]

/-- spdx/jsonschema/package_verification_code_properties.py L10-11 -/
def packageVerificationCodeProps : List Str :=
  [s%"PACKAGE_VERIFICATION_CODE_EXCLUDED_FILES",
   s%"PACKAGE_VERIFICATION_CODE_VALUE"]

/-- spdx/jsonschema/relationship_properties.py L10-13 -/
def relationshipProps : List Str :=
  [s%"SPDX_ELEMENT_ID",
   s%"COMMENT",
   s%"RELATED_SPDX_ELEMENT",
   s%"RELATIONSHIP_TYPE"]

/-- spdx/jsonschema/snippet_properties.py L10-20 -/
def snippetProps : List Str :=
  [s%"SPDX_ID",
   s%"ANNOTATIONS",
   s%"ATTRIBUTION_TEXTS",
   s%"COMMENT",
   s%"COPYRIGHT_TEXT",
   s%"LICENSE_COMMENTS",
   s%"LICENSE_CONCLUDED",
   s%"LICENSE_INFO_IN_SNIPPETS",
   s%"NAME",
   s%"RANGES",
   s%"SNIPPET_FROM_FILE"]

/-- All property tables. -/
def allPropTables : List (List Str) :=
  [annotationProps, checksumProps, creationInfoProps, documentProps, externalDocumentRefProps, externalPackageRefProps, extractedLicensingInfoProps, fileProps, packageProps, packageVerificationCodeProps, relationshipProps, snippetProps]

/-- `json_property_name`: spdx/jsonschema/converter.py L47-48, with the override for `SPDX_ID` of
    document_converter.py L47-50, package_converter.py L30-33, file_converter.py L23-26, snippet_converter.py L20-23. -/
def jsonPropertyName (member : Str) : Option Str :=
  if member = s%"SPDX_ID" then some s%"SPDXID" else snakeToCamel member

end Spdx
