import Verif.Model.TagValueParser
/- The tags of the tag-value format and the fields of the objects they fill. -/
namespace Spdx

/-- Where the value of a tag is kept: the class, the field, and whether it is a list. -/
def slots : List (Str × TvClass × Str × Bool) :=
  [(s%"FileName", .file, s%"name", false), (s%"FileNotice", .file, s%"notice", false), (s%"FileComment", .file, s%"comment", false),
   (s%"LicenseComments", .file, s%"license_comment", false), (s%"FileCopyrightText", .file, s%"copyright_text", false),
   (s%"LicenseConcluded", .file, s%"license_concluded", false), (s%"FileType", .file, s%"file_types", true),
   (s%"FileChecksum", .file, s%"checksums", true), (s%"LicenseInfoInFile", .file, s%"license_info_in_file", true),
   (s%"FileContributor", .file, s%"contributors", true), (s%"FileAttributionText", .file, s%"attribution_texts", true),
   (s%"PackageName", .package, s%"name", false), (s%"PackageDescription", .package, s%"description", false),
   (s%"PackageSummary", .package, s%"summary", false), (s%"PackageSourceInfo", .package, s%"source_info", false),
   (s%"PackageComment", .package, s%"comment", false), (s%"PackageFileName", .package, s%"file_name", false),
   (s%"PackageVersion", .package, s%"version", false), (s%"PackageLicenseComments", .package, s%"license_comment", false),
   (s%"PackageHomePage", .package, s%"homepage", false), (s%"PackageDownloadLocation", .package, s%"download_location", false),
   (s%"PackageCopyrightText", .package, s%"copyright_text", false), (s%"PackageLicenseDeclared", .package, s%"license_declared", false),
   (s%"PackageLicenseConcluded", .package, s%"license_concluded", false), (s%"PackageSupplier", .package, s%"supplier", false),
   (s%"PackageOriginator", .package, s%"originator", false), (s%"PackageChecksum", .package, s%"checksums", true),
   (s%"PackageAttributionText", .package, s%"attribution_texts", true), (s%"PackageVerificationCode", .package, s%"verification_code", false),
   (s%"FilesAnalyzed", .package, s%"files_analyzed", false), (s%"PrimaryPackagePurpose", .package, s%"primary_package_purpose", false),
   (s%"BuiltDate", .package, s%"built_date", false), (s%"ReleaseDate", .package, s%"release_date", false),
   (s%"ValidUntilDate", .package, s%"valid_until_date", false), (s%"PackageLicenseInfoFromFiles", .package, s%"license_info_from_files", true),
   (s%"SnippetSPDXID", .snippet, s%"spdx_id", false), (s%"SnippetName", .snippet, s%"name", false),
   (s%"SnippetComment", .snippet, s%"comment", false), (s%"SnippetLicenseComments", .snippet, s%"license_comment", false),
   (s%"SnippetFromFileSPDXID", .snippet, s%"file_spdx_id", false), (s%"SnippetCopyrightText", .snippet, s%"copyright_text", false),
   (s%"SnippetLicenseConcluded", .snippet, s%"license_concluded", false), (s%"SnippetByteRange", .snippet, s%"byte_range", false),
   (s%"SnippetLineRange", .snippet, s%"line_range", false), (s%"LicenseInfoInSnippet", .snippet, s%"license_info_in_snippet", true),
   (s%"SnippetAttributionText", .snippet, s%"attribution_texts", true),
   (s%"SPDXREF", .annotation, s%"spdx_id", false), (s%"AnnotationComment", .annotation, s%"annotation_comment", false),
   (s%"AnnotationDate", .annotation, s%"annotation_date", false), (s%"AnnotationType", .annotation, s%"annotation_type", false),
   (s%"Annotator", .annotation, s%"annotator", false),
   (s%"LicenseID", .extracted, s%"license_id", false), (s%"ExtractedText", .extracted, s%"extracted_text", false),
   (s%"LicenseName", .extracted, s%"license_name", false), (s%"LicenseComment", .extracted, s%"comment", false),
   (s%"LicenseCrossReference", .extracted, s%"cross_references", true)]

/-- … in the creation information. -/
def infoSlots : List (Str × Str × Bool) :=
  [(s%"SPDXVersion", s%"spdx_version", false), (s%"DataLicense", s%"data_license", false), (s%"DocumentName", s%"name", false),
   (s%"DocumentNamespace", s%"document_namespace", false), (s%"DocumentComment", s%"document_comment", false),
   (s%"CreatorComment", s%"creator_comment", false), (s%"LicenseListVersion", s%"license_list_version", false),
   (s%"ExternalDocumentRef", s%"external_document_refs", true), (s%"Creator", s%"creators", true), (s%"Created", s%"created", false)]

end Spdx
