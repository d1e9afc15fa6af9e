import Verif.Spec.Called
/-
What the constructors of the SPDX 2 classes take, for C85.
-/
namespace Spdx.Spec

/-- The arguments that the constructors cannot do without, as they stand in the signatures of the `__init__` methods (classes as in
    `spdx/model/`). -/
def requiredArguments2 : List (Str × List Str) :=
  [(s%"Actor", [s%"actor_type", s%"name"]), (s%"Checksum", [s%"algorithm", s%"value"]),
   (s%"ExternalDocumentRef", [s%"document_ref_id", s%"document_uri", s%"checksum"]),
   (s%"Annotation", [s%"spdx_id", s%"annotation_type", s%"annotator", s%"annotation_date", s%"annotation_comment"]),
   (s%"Relationship", [s%"spdx_element_id", s%"relationship_type", s%"related_spdx_element_id"]), (s%"ExtractedLicensingInfo", []),
   (s%"PackageVerificationCode", [s%"value"]), (s%"ExternalPackageRef", [s%"category", s%"reference_type", s%"locator"]),
   (s%"Package", [s%"spdx_id", s%"name", s%"download_location"]), (s%"File", [s%"name", s%"spdx_id", s%"checksums"]),
   (s%"Snippet", [s%"spdx_id", s%"file_spdx_id", s%"byte_range"]),
   (s%"CreationInfo", [s%"spdx_version", s%"spdx_id", s%"name", s%"document_namespace", s%"creators", s%"created"]),
   (s%"Document", [s%"creation_info"])]

/-- The values taken for arguments that are left out: `files_analyzed` of a package is true, the data license CC0-1.0, and all others are `None`. -/
def default2 (cls param : Str) : PyVal :=
  if cls = s%"Package" ∧ param = s%"files_analyzed" then .bool true
  else if cls = s%"CreationInfo" ∧ param = s%"data_license" then .str s%"CC0-1.0"
  else .none

/-- The values of an object in the order of the parameters. -/
def valuesOf (c : SClass) (obj : Dict Str PyVal) : List PyVal := c.params.map fun p => (obj.get? p.name).getD .none

end Spdx.Spec
