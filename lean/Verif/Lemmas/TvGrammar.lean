import Verif.Spec.Lalr
import Verif.Lemmas.TagValueRun
/-
The productions of the tag-value grammar, spelled out, and facts about them.
-/
namespace Spdx.TvGrammar
open Spdx Spdx.Spec.Lalr

def aug : Production := ⟨s%"S'", [s%"start"], []⟩

set_option maxRecDepth 10000 in
def rules : List Production :=
  [⟨s%"start", [s%"start", s%"attrib"], s%"p_start_start_attrib"⟩,
   ⟨s%"start", [s%"attrib"], s%"p_start_attrib"⟩,
   ⟨s%"attrib", [s%"spdx_version"], s%"p_attrib"⟩,
   ⟨s%"attrib", [s%"spdx_id"], s%"p_attrib"⟩,
   ⟨s%"attrib", [s%"data_license"], s%"p_attrib"⟩,
   ⟨s%"attrib", [s%"doc_name"], s%"p_attrib"⟩,
   ⟨s%"attrib", [s%"document_comment"], s%"p_attrib"⟩,
   ⟨s%"attrib", [s%"document_namespace"], s%"p_attrib"⟩,
   ⟨s%"attrib", [s%"creator"], s%"p_attrib"⟩,
   ⟨s%"attrib", [s%"created"], s%"p_attrib"⟩,
   ⟨s%"attrib", [s%"creator_comment"], s%"p_attrib"⟩,
   ⟨s%"attrib", [s%"license_list_version"], s%"p_attrib"⟩,
   ⟨s%"attrib", [s%"ext_doc_ref"], s%"p_attrib"⟩,
   ⟨s%"attrib", [s%"file_name"], s%"p_attrib"⟩,
   ⟨s%"attrib", [s%"file_type"], s%"p_attrib"⟩,
   ⟨s%"attrib", [s%"file_checksum"], s%"p_attrib"⟩,
   ⟨s%"attrib", [s%"file_license_concluded"], s%"p_attrib"⟩,
   ⟨s%"attrib", [s%"file_license_info"], s%"p_attrib"⟩,
   ⟨s%"attrib", [s%"file_copyright_text"], s%"p_attrib"⟩,
   ⟨s%"attrib", [s%"file_license_comment"], s%"p_attrib"⟩,
   ⟨s%"attrib", [s%"file_attribution_text"], s%"p_attrib"⟩,
   ⟨s%"attrib", [s%"file_notice"], s%"p_attrib"⟩,
   ⟨s%"attrib", [s%"file_comment"], s%"p_attrib"⟩,
   ⟨s%"attrib", [s%"file_contributor"], s%"p_attrib"⟩,
   ⟨s%"attrib", [s%"annotator"], s%"p_attrib"⟩,
   ⟨s%"attrib", [s%"annotation_date"], s%"p_attrib"⟩,
   ⟨s%"attrib", [s%"annotation_comment"], s%"p_attrib"⟩,
   ⟨s%"attrib", [s%"annotation_type"], s%"p_attrib"⟩,
   ⟨s%"attrib", [s%"annotation_spdx_id"], s%"p_attrib"⟩,
   ⟨s%"attrib", [s%"relationship"], s%"p_attrib"⟩,
   ⟨s%"attrib", [s%"snippet_spdx_id"], s%"p_attrib"⟩,
   ⟨s%"attrib", [s%"snippet_name"], s%"p_attrib"⟩,
   ⟨s%"attrib", [s%"snippet_comment"], s%"p_attrib"⟩,
   ⟨s%"attrib", [s%"snippet_attribution_text"], s%"p_attrib"⟩,
   ⟨s%"attrib", [s%"snippet_copyright_text"], s%"p_attrib"⟩,
   ⟨s%"attrib", [s%"snippet_license_comment"], s%"p_attrib"⟩,
   ⟨s%"attrib", [s%"file_spdx_id"], s%"p_attrib"⟩,
   ⟨s%"attrib", [s%"snippet_license_concluded"], s%"p_attrib"⟩,
   ⟨s%"attrib", [s%"snippet_license_info"], s%"p_attrib"⟩,
   ⟨s%"attrib", [s%"snippet_byte_range"], s%"p_attrib"⟩,
   ⟨s%"attrib", [s%"snippet_line_range"], s%"p_attrib"⟩,
   ⟨s%"attrib", [s%"package_name"], s%"p_attrib"⟩,
   ⟨s%"attrib", [s%"package_version"], s%"p_attrib"⟩,
   ⟨s%"attrib", [s%"download_location"], s%"p_attrib"⟩,
   ⟨s%"attrib", [s%"files_analyzed"], s%"p_attrib"⟩,
   ⟨s%"attrib", [s%"homepage"], s%"p_attrib"⟩,
   ⟨s%"attrib", [s%"summary"], s%"p_attrib"⟩,
   ⟨s%"attrib", [s%"source_info"], s%"p_attrib"⟩,
   ⟨s%"attrib", [s%"pkg_file_name"], s%"p_attrib"⟩,
   ⟨s%"attrib", [s%"supplier"], s%"p_attrib"⟩,
   ⟨s%"attrib", [s%"originator"], s%"p_attrib"⟩,
   ⟨s%"attrib", [s%"pkg_checksum"], s%"p_attrib"⟩,
   ⟨s%"attrib", [s%"verification_code"], s%"p_attrib"⟩,
   ⟨s%"attrib", [s%"description"], s%"p_attrib"⟩,
   ⟨s%"attrib", [s%"pkg_comment"], s%"p_attrib"⟩,
   ⟨s%"attrib", [s%"pkg_attribution_text"], s%"p_attrib"⟩,
   ⟨s%"attrib", [s%"pkg_license_declared"], s%"p_attrib"⟩,
   ⟨s%"attrib", [s%"pkg_license_concluded"], s%"p_attrib"⟩,
   ⟨s%"attrib", [s%"pkg_license_info"], s%"p_attrib"⟩,
   ⟨s%"attrib", [s%"pkg_license_comment"], s%"p_attrib"⟩,
   ⟨s%"attrib", [s%"pkg_copyright_text"], s%"p_attrib"⟩,
   ⟨s%"attrib", [s%"pkg_external_ref"], s%"p_attrib"⟩,
   ⟨s%"attrib", [s%"primary_package_purpose"], s%"p_attrib"⟩,
   ⟨s%"attrib", [s%"built_date"], s%"p_attrib"⟩,
   ⟨s%"attrib", [s%"release_date"], s%"p_attrib"⟩,
   ⟨s%"attrib", [s%"valid_until_date"], s%"p_attrib"⟩,
   ⟨s%"attrib", [s%"license_id"], s%"p_attrib"⟩,
   ⟨s%"attrib", [s%"extracted_text"], s%"p_attrib"⟩,
   ⟨s%"attrib", [s%"license_name"], s%"p_attrib"⟩,
   ⟨s%"attrib", [s%"license_cross_ref"], s%"p_attrib"⟩,
   ⟨s%"attrib", [s%"lic_comment"], s%"p_attrib"⟩,
   ⟨s%"attrib", [s%"unknown_tag"], s%"p_attrib"⟩,
   ⟨s%"license_id", [s%"LICENSE_ID", s%"error"], s%"p_current_element_error"⟩,
   ⟨s%"license_cross_ref", [s%"LICENSE_CROSS_REF", s%"error"], s%"p_current_element_error"⟩,
   ⟨s%"lic_comment", [s%"LICENSE_COMMENT", s%"error"], s%"p_current_element_error"⟩,
   ⟨s%"license_name", [s%"LICENSE_NAME", s%"error"], s%"p_current_element_error"⟩,
   ⟨s%"extracted_text", [s%"LICENSE_TEXT", s%"error"], s%"p_current_element_error"⟩,
   ⟨s%"file_name", [s%"FILE_NAME", s%"error"], s%"p_current_element_error"⟩,
   ⟨s%"file_contributor", [s%"FILE_CONTRIBUTOR", s%"error"], s%"p_current_element_error"⟩,
   ⟨s%"file_notice", [s%"FILE_NOTICE", s%"error"], s%"p_current_element_error"⟩,
   ⟨s%"file_copyright_text", [s%"FILE_COPYRIGHT_TEXT", s%"error"], s%"p_current_element_error"⟩,
   ⟨s%"file_license_comment", [s%"FILE_LICENSE_COMMENT", s%"error"], s%"p_current_element_error"⟩,
   ⟨s%"file_license_info", [s%"FILE_LICENSE_INFO", s%"error"], s%"p_current_element_error"⟩,
   ⟨s%"file_comment", [s%"FILE_COMMENT", s%"error"], s%"p_current_element_error"⟩,
   ⟨s%"file_checksum", [s%"FILE_CHECKSUM", s%"error"], s%"p_current_element_error"⟩,
   ⟨s%"file_license_concluded", [s%"FILE_LICENSE_CONCLUDED", s%"error"], s%"p_current_element_error"⟩,
   ⟨s%"file_type", [s%"FILE_TYPE", s%"error"], s%"p_current_element_error"⟩,
   ⟨s%"file_attribution_text", [s%"FILE_ATTRIBUTION_TEXT", s%"error"], s%"p_current_element_error"⟩,
   ⟨s%"package_name", [s%"PKG_NAME", s%"error"], s%"p_current_element_error"⟩,
   ⟨s%"pkg_attribution_text", [s%"PKG_ATTRIBUTION_TEXT", s%"error"], s%"p_current_element_error"⟩,
   ⟨s%"description", [s%"PKG_DESCRIPTION", s%"error"], s%"p_current_element_error"⟩,
   ⟨s%"pkg_comment", [s%"PKG_COMMENT", s%"error"], s%"p_current_element_error"⟩,
   ⟨s%"summary", [s%"PKG_SUMMARY", s%"error"], s%"p_current_element_error"⟩,
   ⟨s%"pkg_copyright_text", [s%"PKG_COPYRIGHT_TEXT", s%"error"], s%"p_current_element_error"⟩,
   ⟨s%"pkg_external_ref", [s%"PKG_EXTERNAL_REF", s%"error"], s%"p_current_element_error"⟩,
   ⟨s%"pkg_license_comment", [s%"PKG_LICENSE_COMMENT", s%"error"], s%"p_current_element_error"⟩,
   ⟨s%"pkg_license_declared", [s%"PKG_LICENSE_DECLARED", s%"error"], s%"p_current_element_error"⟩,
   ⟨s%"pkg_license_info", [s%"PKG_LICENSE_INFO", s%"error"], s%"p_current_element_error"⟩,
   ⟨s%"pkg_license_concluded", [s%"PKG_LICENSE_CONCLUDED", s%"error"], s%"p_current_element_error"⟩,
   ⟨s%"source_info", [s%"PKG_SOURCE_INFO", s%"error"], s%"p_current_element_error"⟩,
   ⟨s%"homepage", [s%"PKG_HOMEPAGE", s%"error"], s%"p_current_element_error"⟩,
   ⟨s%"pkg_checksum", [s%"PKG_CHECKSUM", s%"error"], s%"p_current_element_error"⟩,
   ⟨s%"verification_code", [s%"PKG_VERIFICATION_CODE", s%"error"], s%"p_current_element_error"⟩,
   ⟨s%"originator", [s%"PKG_ORIGINATOR", s%"error"], s%"p_current_element_error"⟩,
   ⟨s%"download_location", [s%"PKG_DOWNLOAD_LOCATION", s%"error"], s%"p_current_element_error"⟩,
   ⟨s%"files_analyzed", [s%"PKG_FILES_ANALYZED", s%"error"], s%"p_current_element_error"⟩,
   ⟨s%"supplier", [s%"PKG_SUPPLIER", s%"error"], s%"p_current_element_error"⟩,
   ⟨s%"pkg_file_name", [s%"PKG_FILE_NAME", s%"error"], s%"p_current_element_error"⟩,
   ⟨s%"package_version", [s%"PKG_VERSION", s%"error"], s%"p_current_element_error"⟩,
   ⟨s%"primary_package_purpose", [s%"PRIMARY_PACKAGE_PURPOSE", s%"error"], s%"p_current_element_error"⟩,
   ⟨s%"built_date", [s%"BUILT_DATE", s%"error"], s%"p_current_element_error"⟩,
   ⟨s%"release_date", [s%"RELEASE_DATE", s%"error"], s%"p_current_element_error"⟩,
   ⟨s%"valid_until_date", [s%"VALID_UNTIL_DATE", s%"error"], s%"p_current_element_error"⟩,
   ⟨s%"snippet_spdx_id", [s%"SNIPPET_SPDX_ID", s%"error"], s%"p_current_element_error"⟩,
   ⟨s%"snippet_name", [s%"SNIPPET_NAME", s%"error"], s%"p_current_element_error"⟩,
   ⟨s%"snippet_comment", [s%"SNIPPET_COMMENT", s%"error"], s%"p_current_element_error"⟩,
   ⟨s%"snippet_attribution_text", [s%"SNIPPET_ATTRIBUTION_TEXT", s%"error"], s%"p_current_element_error"⟩,
   ⟨s%"snippet_copyright_text", [s%"SNIPPET_COPYRIGHT_TEXT", s%"error"], s%"p_current_element_error"⟩,
   ⟨s%"snippet_license_comment", [s%"SNIPPET_LICENSE_COMMENT", s%"error"], s%"p_current_element_error"⟩,
   ⟨s%"file_spdx_id", [s%"SNIPPET_FILE_SPDXID", s%"error"], s%"p_current_element_error"⟩,
   ⟨s%"snippet_license_concluded", [s%"SNIPPET_LICENSE_CONCLUDED", s%"error"], s%"p_current_element_error"⟩,
   ⟨s%"snippet_license_info", [s%"SNIPPET_LICENSE_INFO", s%"error"], s%"p_current_element_error"⟩,
   ⟨s%"snippet_byte_range", [s%"SNIPPET_BYTE_RANGE", s%"error"], s%"p_current_element_error"⟩,
   ⟨s%"snippet_line_range", [s%"SNIPPET_LINE_RANGE", s%"error"], s%"p_current_element_error"⟩,
   ⟨s%"annotator", [s%"ANNOTATOR", s%"error"], s%"p_current_element_error"⟩,
   ⟨s%"annotation_date", [s%"ANNOTATION_DATE", s%"error"], s%"p_current_element_error"⟩,
   ⟨s%"annotation_comment", [s%"ANNOTATION_COMMENT", s%"error"], s%"p_current_element_error"⟩,
   ⟨s%"annotation_type", [s%"ANNOTATION_TYPE", s%"error"], s%"p_current_element_error"⟩,
   ⟨s%"annotation_spdx_id", [s%"ANNOTATION_SPDX_ID", s%"error"], s%"p_current_element_error"⟩,
   ⟨s%"relationship", [s%"RELATIONSHIP", s%"error"], s%"p_current_element_error"⟩,
   ⟨s%"license_name", [s%"LICENSE_NAME", s%"line_or_no_assertion"], s%"p_generic_value"⟩,
   ⟨s%"extracted_text", [s%"LICENSE_TEXT", s%"text_or_line"], s%"p_generic_value"⟩,
   ⟨s%"lic_comment", [s%"LICENSE_COMMENT", s%"text_or_line"], s%"p_generic_value"⟩,
   ⟨s%"license_id", [s%"LICENSE_ID", s%"LINE"], s%"p_generic_value"⟩,
   ⟨s%"file_name", [s%"FILE_NAME", s%"LINE"], s%"p_generic_value"⟩,
   ⟨s%"file_notice", [s%"FILE_NOTICE", s%"text_or_line"], s%"p_generic_value"⟩,
   ⟨s%"file_copyright_text", [s%"FILE_COPYRIGHT_TEXT", s%"line_or_no_assertion_or_none"], s%"p_generic_value"⟩,
   ⟨s%"file_license_comment", [s%"FILE_LICENSE_COMMENT", s%"text_or_line"], s%"p_generic_value"⟩,
   ⟨s%"file_comment", [s%"FILE_COMMENT", s%"text_or_line"], s%"p_generic_value"⟩,
   ⟨s%"file_license_concluded", [s%"FILE_LICENSE_CONCLUDED", s%"license_or_no_assertion_or_none"], s%"p_generic_value"⟩,
   ⟨s%"package_name", [s%"PKG_NAME", s%"LINE"], s%"p_generic_value"⟩,
   ⟨s%"description", [s%"PKG_DESCRIPTION", s%"text_or_line"], s%"p_generic_value"⟩,
   ⟨s%"summary", [s%"PKG_SUMMARY", s%"text_or_line"], s%"p_generic_value"⟩,
   ⟨s%"source_info", [s%"PKG_SOURCE_INFO", s%"text_or_line"], s%"p_generic_value"⟩,
   ⟨s%"homepage", [s%"PKG_HOMEPAGE", s%"line_or_no_assertion_or_none"], s%"p_generic_value"⟩,
   ⟨s%"download_location", [s%"PKG_DOWNLOAD_LOCATION", s%"line_or_no_assertion_or_none"], s%"p_generic_value"⟩,
   ⟨s%"originator", [s%"PKG_ORIGINATOR", s%"actor_or_no_assertion"], s%"p_generic_value"⟩,
   ⟨s%"supplier", [s%"PKG_SUPPLIER", s%"actor_or_no_assertion"], s%"p_generic_value"⟩,
   ⟨s%"pkg_comment", [s%"PKG_COMMENT", s%"text_or_line"], s%"p_generic_value"⟩,
   ⟨s%"pkg_copyright_text", [s%"PKG_COPYRIGHT_TEXT", s%"line_or_no_assertion_or_none"], s%"p_generic_value"⟩,
   ⟨s%"pkg_license_declared", [s%"PKG_LICENSE_DECLARED", s%"license_or_no_assertion_or_none"], s%"p_generic_value"⟩,
   ⟨s%"pkg_file_name", [s%"PKG_FILE_NAME", s%"LINE"], s%"p_generic_value"⟩,
   ⟨s%"pkg_license_concluded", [s%"PKG_LICENSE_CONCLUDED", s%"license_or_no_assertion_or_none"], s%"p_generic_value"⟩,
   ⟨s%"package_version", [s%"PKG_VERSION", s%"LINE"], s%"p_generic_value"⟩,
   ⟨s%"pkg_license_comment", [s%"PKG_LICENSE_COMMENT", s%"text_or_line"], s%"p_generic_value"⟩,
   ⟨s%"snippet_spdx_id", [s%"SNIPPET_SPDX_ID", s%"LINE"], s%"p_generic_value"⟩,
   ⟨s%"snippet_name", [s%"SNIPPET_NAME", s%"LINE"], s%"p_generic_value"⟩,
   ⟨s%"snippet_comment", [s%"SNIPPET_COMMENT", s%"text_or_line"], s%"p_generic_value"⟩,
   ⟨s%"snippet_copyright_text", [s%"SNIPPET_COPYRIGHT_TEXT", s%"line_or_no_assertion_or_none"], s%"p_generic_value"⟩,
   ⟨s%"snippet_license_comment", [s%"SNIPPET_LICENSE_COMMENT", s%"text_or_line"], s%"p_generic_value"⟩,
   ⟨s%"file_spdx_id", [s%"SNIPPET_FILE_SPDXID", s%"LINE"], s%"p_generic_value"⟩,
   ⟨s%"snippet_license_concluded", [s%"SNIPPET_LICENSE_CONCLUDED", s%"license_or_no_assertion_or_none"], s%"p_generic_value"⟩,
   ⟨s%"annotation_spdx_id", [s%"ANNOTATION_SPDX_ID", s%"LINE"], s%"p_generic_value"⟩,
   ⟨s%"annotation_comment", [s%"ANNOTATION_COMMENT", s%"text_or_line"], s%"p_generic_value"⟩,
   ⟨s%"unknown_tag", [s%"UNKNOWN_TAG", s%"text_or_line"], s%"p_unknown_tag"⟩,
   ⟨s%"unknown_tag", [s%"UNKNOWN_TAG", s%"ISO8601_DATE"], s%"p_unknown_tag"⟩,
   ⟨s%"unknown_tag", [s%"UNKNOWN_TAG", s%"PERSON_VALUE"], s%"p_unknown_tag"⟩,
   ⟨s%"unknown_tag", [s%"UNKNOWN_TAG"], s%"p_unknown_tag"⟩,
   ⟨s%"text_or_line", [s%"TEXT"], s%"p_text"⟩,
   ⟨s%"line_or_no_assertion_or_none", [s%"TEXT"], s%"p_text"⟩,
   ⟨s%"text_or_line", [s%"LINE"], s%"p_line"⟩,
   ⟨s%"line_or_no_assertion", [s%"LINE"], s%"p_line"⟩,
   ⟨s%"line_or_no_assertion_or_none", [s%"LINE"], s%"p_line"⟩,
   ⟨s%"text_or_line", [s%"NO_ASSERTION"], s%"p_line"⟩,
   ⟨s%"text_or_line", [s%"NONE"], s%"p_line"⟩,
   ⟨s%"license_or_no_assertion_or_none", [s%"NO_ASSERTION"], s%"p_no_assertion"⟩,
   ⟨s%"actor_or_no_assertion", [s%"NO_ASSERTION"], s%"p_no_assertion"⟩,
   ⟨s%"line_or_no_assertion", [s%"NO_ASSERTION"], s%"p_no_assertion"⟩,
   ⟨s%"line_or_no_assertion_or_none", [s%"NO_ASSERTION"], s%"p_no_assertion"⟩,
   ⟨s%"license_or_no_assertion_or_none", [s%"NONE"], s%"p_none"⟩,
   ⟨s%"line_or_no_assertion_or_none", [s%"NONE"], s%"p_none"⟩,
   ⟨s%"license_or_no_assertion_or_none", [s%"LINE"], s%"p_license"⟩,
   ⟨s%"actor_or_no_assertion", [s%"PERSON_VALUE"], s%"p_actor_values"⟩,
   ⟨s%"actor_or_no_assertion", [s%"ORGANIZATION_VALUE"], s%"p_actor_values"⟩,
   ⟨s%"spdx_id", [s%"SPDX_ID", s%"LINE"], s%"p_spdx_id"⟩,
   ⟨s%"license_list_version", [s%"LICENSE_LIST_VERSION", s%"error"], s%"p_creation_info_value_error"⟩,
   ⟨s%"document_comment", [s%"DOC_COMMENT", s%"error"], s%"p_creation_info_value_error"⟩,
   ⟨s%"document_namespace", [s%"DOC_NAMESPACE", s%"error"], s%"p_creation_info_value_error"⟩,
   ⟨s%"data_license", [s%"DOC_LICENSE", s%"error"], s%"p_creation_info_value_error"⟩,
   ⟨s%"doc_name", [s%"DOC_NAME", s%"error"], s%"p_creation_info_value_error"⟩,
   ⟨s%"ext_doc_ref", [s%"EXT_DOC_REF", s%"error"], s%"p_creation_info_value_error"⟩,
   ⟨s%"spdx_version", [s%"DOC_VERSION", s%"error"], s%"p_creation_info_value_error"⟩,
   ⟨s%"creator_comment", [s%"CREATOR_COMMENT", s%"error"], s%"p_creation_info_value_error"⟩,
   ⟨s%"creator", [s%"CREATOR", s%"error"], s%"p_creation_info_value_error"⟩,
   ⟨s%"created", [s%"CREATED", s%"error"], s%"p_creation_info_value_error"⟩,
   ⟨s%"document_comment", [s%"DOC_COMMENT", s%"text_or_line"], s%"p_generic_value_creation_info"⟩,
   ⟨s%"document_namespace", [s%"DOC_NAMESPACE", s%"LINE"], s%"p_generic_value_creation_info"⟩,
   ⟨s%"data_license", [s%"DOC_LICENSE", s%"LINE"], s%"p_generic_value_creation_info"⟩,
   ⟨s%"spdx_version", [s%"DOC_VERSION", s%"LINE"], s%"p_generic_value_creation_info"⟩,
   ⟨s%"creator_comment", [s%"CREATOR_COMMENT", s%"text_or_line"], s%"p_generic_value_creation_info"⟩,
   ⟨s%"doc_name", [s%"DOC_NAME", s%"LINE"], s%"p_generic_value_creation_info"⟩,
   ⟨s%"license_list_version", [s%"LICENSE_LIST_VERSION", s%"LINE"], s%"p_license_list_version"⟩,
   ⟨s%"ext_doc_ref", [s%"EXT_DOC_REF", s%"LINE"], s%"p_external_document_ref"⟩,
   ⟨s%"creator", [s%"CREATOR", s%"PERSON_VALUE"], s%"p_creator"⟩,
   ⟨s%"creator", [s%"CREATOR", s%"TOOL_VALUE"], s%"p_creator"⟩,
   ⟨s%"creator", [s%"CREATOR", s%"ORGANIZATION_VALUE"], s%"p_creator"⟩,
   ⟨s%"created", [s%"CREATED", s%"ISO8601_DATE"], s%"p_created"⟩,
   ⟨s%"license_cross_ref", [s%"LICENSE_CROSS_REF", s%"LINE"], s%"p_extracted_cross_reference"⟩,
   ⟨s%"file_contributor", [s%"FILE_CONTRIBUTOR", s%"LINE"], s%"p_file_contributor"⟩,
   ⟨s%"file_attribution_text", [s%"FILE_ATTRIBUTION_TEXT", s%"text_or_line"], s%"p_file_attribution_text"⟩,
   ⟨s%"file_license_info", [s%"FILE_LICENSE_INFO", s%"license_or_no_assertion_or_none"], s%"p_file_license_info"⟩,
   ⟨s%"file_type", [s%"FILE_TYPE", s%"LINE"], s%"p_file_type"⟩,
   ⟨s%"file_checksum", [s%"FILE_CHECKSUM", s%"CHECKSUM"], s%"p_file_checksum"⟩,
   ⟨s%"pkg_attribution_text", [s%"PKG_ATTRIBUTION_TEXT", s%"text_or_line"], s%"p_pkg_attribution_text"⟩,
   ⟨s%"pkg_external_ref", [s%"PKG_EXTERNAL_REF", s%"LINE", s%"PKG_EXTERNAL_REF_COMMENT", s%"text_or_line"], s%"p_pkg_external_refs"⟩,
   ⟨s%"pkg_external_ref", [s%"PKG_EXTERNAL_REF", s%"LINE"], s%"p_pkg_external_refs"⟩,
   ⟨s%"pkg_license_info", [s%"PKG_LICENSE_INFO", s%"license_or_no_assertion_or_none"], s%"p_pkg_license_info_from_file"⟩,
   ⟨s%"pkg_checksum", [s%"PKG_CHECKSUM", s%"CHECKSUM"], s%"p_pkg_checksum"⟩,
   ⟨s%"verification_code", [s%"PKG_VERIFICATION_CODE", s%"LINE"], s%"p_pkg_verification_code"⟩,
   ⟨s%"files_analyzed", [s%"PKG_FILES_ANALYZED", s%"LINE"], s%"p_pkg_files_analyzed"⟩,
   ⟨s%"primary_package_purpose", [s%"PRIMARY_PACKAGE_PURPOSE", s%"LINE"], s%"p_primary_package_purpose"⟩,
   ⟨s%"built_date", [s%"BUILT_DATE", s%"ISO8601_DATE"], s%"p_package_dates"⟩,
   ⟨s%"release_date", [s%"RELEASE_DATE", s%"ISO8601_DATE"], s%"p_package_dates"⟩,
   ⟨s%"valid_until_date", [s%"VALID_UNTIL_DATE", s%"ISO8601_DATE"], s%"p_package_dates"⟩,
   ⟨s%"snippet_attribution_text", [s%"SNIPPET_ATTRIBUTION_TEXT", s%"text_or_line"], s%"p_snippet_attribution_text"⟩,
   ⟨s%"snippet_license_info", [s%"SNIPPET_LICENSE_INFO", s%"license_or_no_assertion_or_none"], s%"p_snippet_license_info"⟩,
   ⟨s%"snippet_byte_range", [s%"SNIPPET_BYTE_RANGE", s%"LINE"], s%"p_snippet_range"⟩,
   ⟨s%"snippet_line_range", [s%"SNIPPET_LINE_RANGE", s%"LINE"], s%"p_snippet_range"⟩,
   ⟨s%"annotator", [s%"ANNOTATOR", s%"PERSON_VALUE"], s%"p_annotator"⟩,
   ⟨s%"annotator", [s%"ANNOTATOR", s%"TOOL_VALUE"], s%"p_annotator"⟩,
   ⟨s%"annotator", [s%"ANNOTATOR", s%"ORGANIZATION_VALUE"], s%"p_annotator"⟩,
   ⟨s%"annotation_date", [s%"ANNOTATION_DATE", s%"ISO8601_DATE"], s%"p_annotation_date"⟩,
   ⟨s%"annotation_type", [s%"ANNOTATION_TYPE", s%"LINE"], s%"p_annotation_type"⟩,
   ⟨s%"relationship", [s%"RELATIONSHIP", s%"LINE", s%"RELATIONSHIP_COMMENT", s%"text_or_line"], s%"p_relationship"⟩,
   ⟨s%"relationship", [s%"RELATIONSHIP", s%"LINE"], s%"p_relationship"⟩]

def G : Grammar := ⟨aug, rules⟩

set_option maxRecDepth 10000 in
theorem grammar_eq : grammarOf tvRules = some G := by decide +kernel

/-- The non-terminals -/
def nts : List GSym :=
  [s%"start", s%"attrib", s%"license_id", s%"license_cross_ref", s%"lic_comment", s%"license_name", s%"extracted_text", s%"file_name",
   s%"file_contributor", s%"file_notice", s%"file_copyright_text", s%"file_license_comment", s%"file_license_info", s%"file_comment",
   s%"file_checksum", s%"file_license_concluded", s%"file_type", s%"file_attribution_text", s%"package_name", s%"pkg_attribution_text",
   s%"description", s%"pkg_comment", s%"summary", s%"pkg_copyright_text", s%"pkg_external_ref", s%"pkg_license_comment",
   s%"pkg_license_declared", s%"pkg_license_info", s%"pkg_license_concluded", s%"source_info", s%"homepage", s%"pkg_checksum",
   s%"verification_code", s%"originator", s%"download_location", s%"files_analyzed", s%"supplier", s%"pkg_file_name",
   s%"package_version", s%"primary_package_purpose", s%"built_date", s%"release_date", s%"valid_until_date", s%"snippet_spdx_id",
   s%"snippet_name", s%"snippet_comment", s%"snippet_attribution_text", s%"snippet_copyright_text", s%"snippet_license_comment",
   s%"file_spdx_id", s%"snippet_license_concluded", s%"snippet_license_info", s%"snippet_byte_range", s%"snippet_line_range",
   s%"annotator", s%"annotation_date", s%"annotation_comment", s%"annotation_type", s%"annotation_spdx_id", s%"relationship",
   s%"unknown_tag", s%"text_or_line", s%"line_or_no_assertion_or_none", s%"line_or_no_assertion", s%"license_or_no_assertion_or_none",
   s%"actor_or_no_assertion", s%"spdx_id", s%"license_list_version", s%"document_comment", s%"document_namespace", s%"data_license",
   s%"doc_name", s%"ext_doc_ref", s%"spdx_version", s%"creator_comment", s%"creator", s%"created"]

/-- The terminals an attribute can start with -/
def starters : List GSym :=
  [s%"LICENSE_ID", s%"LICENSE_CROSS_REF", s%"LICENSE_COMMENT", s%"LICENSE_NAME", s%"LICENSE_TEXT", s%"FILE_NAME", s%"FILE_CONTRIBUTOR",
   s%"FILE_NOTICE", s%"FILE_COPYRIGHT_TEXT", s%"FILE_LICENSE_COMMENT", s%"FILE_LICENSE_INFO", s%"FILE_COMMENT", s%"FILE_CHECKSUM",
   s%"FILE_LICENSE_CONCLUDED", s%"FILE_TYPE", s%"FILE_ATTRIBUTION_TEXT", s%"PKG_NAME", s%"PKG_ATTRIBUTION_TEXT", s%"PKG_DESCRIPTION",
   s%"PKG_COMMENT", s%"PKG_SUMMARY", s%"PKG_COPYRIGHT_TEXT", s%"PKG_EXTERNAL_REF", s%"PKG_LICENSE_COMMENT", s%"PKG_LICENSE_DECLARED",
   s%"PKG_LICENSE_INFO", s%"PKG_LICENSE_CONCLUDED", s%"PKG_SOURCE_INFO", s%"PKG_HOMEPAGE", s%"PKG_CHECKSUM", s%"PKG_VERIFICATION_CODE",
   s%"PKG_ORIGINATOR", s%"PKG_DOWNLOAD_LOCATION", s%"PKG_FILES_ANALYZED", s%"PKG_SUPPLIER", s%"PKG_FILE_NAME", s%"PKG_VERSION",
   s%"PRIMARY_PACKAGE_PURPOSE", s%"BUILT_DATE", s%"RELEASE_DATE", s%"VALID_UNTIL_DATE", s%"SNIPPET_SPDX_ID", s%"SNIPPET_NAME",
   s%"SNIPPET_COMMENT", s%"SNIPPET_ATTRIBUTION_TEXT", s%"SNIPPET_COPYRIGHT_TEXT", s%"SNIPPET_LICENSE_COMMENT", s%"SNIPPET_FILE_SPDXID",
   s%"SNIPPET_LICENSE_CONCLUDED", s%"SNIPPET_LICENSE_INFO", s%"SNIPPET_BYTE_RANGE", s%"SNIPPET_LINE_RANGE", s%"ANNOTATOR",
   s%"ANNOTATION_DATE", s%"ANNOTATION_COMMENT", s%"ANNOTATION_TYPE", s%"ANNOTATION_SPDX_ID", s%"RELATIONSHIP", s%"UNKNOWN_TAG",
   s%"SPDX_ID", s%"LICENSE_LIST_VERSION", s%"DOC_COMMENT", s%"DOC_NAMESPACE", s%"DOC_LICENSE", s%"DOC_NAME", s%"EXT_DOC_REF",
   s%"DOC_VERSION", s%"CREATOR_COMMENT", s%"CREATOR", s%"CREATED"]

/-- The non-terminals for values -/
def valueNts : List GSym :=
  [s%"text_or_line", s%"line_or_no_assertion", s%"line_or_no_assertion_or_none", s%"license_or_no_assertion_or_none",
   s%"actor_or_no_assertion"]

/-- `start : start attrib` -/
def p1 : Production := ⟨s%"start", [s%"start", s%"attrib"], s%"p_start_start_attrib"⟩
/-- `start : attrib` -/
def p2 : Production := ⟨s%"start", [s%"attrib"], s%"p_start_attrib"⟩

def isValue (p : Production) : Bool := decide (p.lhs ∈ valueNts)
/-- The productions for the attributes -/
def isEntry (p : Production) : Bool := decide (p.lhs ≠ s%"start") && decide (p.lhs ≠ s%"attrib") && !isValue p
def term (x : GSym) : Bool := decide (x ∉ nts) && decide (x ≠ s%"S'")
/-- A symbol of an attribute after the tag: a terminal that starts no attribute, or the name of a value -/
def inner (x : GSym) : Bool := term x && decide (x ∉ starters) && decide (x ≠ s%"$end")

/-! ### Facts about the list -/

def entryOk (p : Production) : Bool :=
  match p.rhs with
  | [] => false
  | t :: r => decide (t ∈ starters) && r.dropLast.all inner &&
    (match r.getLast? with
     | none => true
     | some y => inner y || decide (y ∈ valueNts))

theorem p1_mem : p1 ∈ rules := by decide +kernel
theorem p2_mem : p2 ∈ rules := by decide +kernel
theorem lhs_nts : ∀ p ∈ rules, p.lhs ∈ nts := by decide +kernel
theorem nts_lhs : ∀ x ∈ nts, ∃ p ∈ rules, p.lhs = x := by decide +kernel
theorem start_rules : ∀ p ∈ rules, p.lhs = s%"start" → p = p1 ∨ p = p2 := by decide +kernel
theorem attrib_rules : ∀ p ∈ rules, p.lhs = s%"attrib" →
    ∃ x ∈ p.rhs, p = ⟨s%"attrib", [x], s%"p_attrib"⟩ ∧ x ≠ s%"start" ∧ x ≠ s%"attrib" ∧ x ∉ valueNts ∧ x ∈ nts := by decide +kernel
theorem entry_ok : ∀ p ∈ rules, isEntry p = true → entryOk p = true := by decide +kernel
theorem entry_wrapped : ∀ p ∈ rules, isEntry p = true → (⟨s%"attrib", [p.lhs], s%"p_attrib"⟩ : Production) ∈ rules := by decide +kernel
theorem value_rules : ∀ p ∈ rules, isValue p = true → ∃ x ∈ p.rhs, p.rhs = [x] ∧ inner x = true := by decide +kernel
theorem value_unique : ∀ p ∈ rules, isValue p = true → ∀ q ∈ rules, p.lhs = q.lhs → p.rhs = q.rhs → p = q := by decide +kernel
/-- No two productions for attributes get in each other's way. -/
theorem entry_unique : ∀ q ∈ rules, isEntry q = true → ∀ p ∈ rules, isEntry p = true → p.rhs.dropLast = q.rhs.dropLast →
    (p.rhs.getLast? = q.rhs.getLast? → p = q) ∧
    (p.rhs.getLast? ≠ q.rhs.getLast? → ∀ v ∈ valueNts, q.rhs.getLast? = some v →
      (∀ v' ∈ valueNts, p.rhs.getLast? ≠ some v') ∧ ∀ r ∈ rules, r.lhs = v → p.rhs.getLast? ≠ r.rhs.head?) := by decide +kernel
theorem starters_ok : ∀ x ∈ starters, term x = true ∧ ∃ p ∈ rules, isEntry p = true ∧ p.rhs.head? = some x := by decide +kernel

end Spdx.TvGrammar
