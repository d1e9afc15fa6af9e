import Verif.Py.Dict
/-
common/typing: the type-checked constructors of the data model.

`beartype` is a library; of its checks only the following is used and modelled: a class, `str`, `int`, `bool`, `Optional`, `Union`,
`List` and a pair `Tuple[a, b]`. For a list it looks at one item only, chosen pseudo-randomly; the choice is the parameter `pick`.
-/
namespace Spdx

/-- Python values, as far as type hints can tell them apart. Objects and enum members are known by their class. -/
inductive PyVal where
  | none
  | bool (b : Bool)
  | int (i : Int)
  | str (s : Str)
  | list (l : List PyVal)
  | tuple (l : List PyVal)
  | obj (cls : Str) (id : Nat)

/-- Type hints of the fields. -/
inductive Hint where
  | str
  | int
  | bool
  | cls (name : Str)
  | optional (h : Hint)
  | or (a b : Hint)
  | list (h : Hint)
  | pair (a b : Hint)

/-- What a `beartype` setter accepts. (`bool` is a subclass of `int`.) -/
def Hint.accepts (pick : List PyVal → Nat) : Hint → PyVal → Bool
  | .str, .str _ => true
  | .int, .int _ => true
  | .int, .bool _ => true
  | .bool, .bool _ => true
  | .cls n, .obj c _ => n = c
  | .optional _, .none => true
  | .optional h, v => h.accepts pick v
  | .or a b, v => a.accepts pick v || b.accepts pick v
  | .list h, .list l =>
    match l[pick l % l.length]? with
    | some v => h.accepts pick v
    | none => true
  | .pair a b, .tuple [x, y] => a.accepts pick x && b.accepts pick y
  | _, _ => false

/-- A field of a class; `listDefault`: the constructor's body replaces `None` by `[]`. -/
structure Field where
  name : Str
  hint : Hint
  listDefault : Bool := false

structure PyClass where
  name : Str
  fields : List Field

/-- The statements `x = [] if x is None else x` of the constructors -/
def Field.effective (f : Field) (v : PyVal) : PyVal :=
  match f.listDefault, v with
  | true, .none => .list []
  | _, v => v

/-- common/typing/type_checks.py L22-29: one round of the loop. The state: the object's attributes and the messages, of which only the
    field's name is kept (the text also holds the class, the hint and the value; common/typing/dataclass_with_properties.py L26-38). -/
def setField (pick : List PyVal → Nat) (args : Str → PyVal) (s : Dict Str PyVal × List Str) (f : Field) : Dict Str PyVal × List Str :=
  let v := f.effective (args f.name)
  if f.hint.accepts pick v then (s.1.set f.name v, s.2) else (s.1, s.2 ++ [f.name])

/-- A constructor: common/typing/type_checks.py L11-31 `check_types_and_set_values` after the treatment of defaults. The error is the
    list of messages of the `ConstructorTypeErrors` raised. -/
def constructObject (pick : List PyVal → Nat) (c : PyClass) (args : Str → PyVal) : Except (List Str) (Dict Str PyVal) :=
  match c.fields.foldl (setField pick args) ([], []) with
  | (obj, []) => .ok obj
  | (_, es) => .error es

/-! The classes of spdx/model. -/

namespace Hint
abbrev optStr : Hint := .optional .str
/-- `Union[str, SpdxNoAssertion, SpdxNone]` -/
abbrev strOrSpecial : Hint := .or .str (.or (.cls s%"SpdxNoAssertion") (.cls s%"SpdxNone"))
/-- `Union[LicenseExpression, SpdxNoAssertion, SpdxNone]` -/
abbrev license : Hint := .or (.cls s%"LicenseExpression") (.or (.cls s%"SpdxNoAssertion") (.cls s%"SpdxNone"))
/-- `Union[Actor, SpdxNoAssertion]` -/
abbrev actor : Hint := .or (.cls s%"Actor") (.cls s%"SpdxNoAssertion")
end Hint

/-- spdx/model/actor.py L18-25 -/
def PyClass.actor : PyClass := ⟨s%"Actor", [⟨s%"actor_type", .cls s%"ActorType", false⟩, ⟨s%"name", .str, false⟩, ⟨s%"email", .optStr, false⟩]⟩
/-- spdx/model/checksum.py L30-36 -/
def PyClass.checksum : PyClass := ⟨s%"Checksum", [⟨s%"algorithm", .cls s%"ChecksumAlgorithm", false⟩, ⟨s%"value", .str, false⟩]⟩
/-- spdx/model/external_document_ref.py L10-17 -/
def PyClass.externalDocumentRef : PyClass :=
  ⟨s%"ExternalDocumentRef",
    [⟨s%"document_ref_id", .str, false⟩, ⟨s%"document_uri", .str, false⟩, ⟨s%"checksum", .cls s%"Checksum", false⟩]⟩
/-- spdx/model/annotation.py L17-33 -/
def PyClass.annotation : PyClass :=
  ⟨s%"Annotation",
    [⟨s%"spdx_id", .str, false⟩, ⟨s%"annotation_type", .cls s%"AnnotationType", false⟩, ⟨s%"annotator", .cls s%"Actor", false⟩,
     ⟨s%"annotation_date", .cls s%"datetime", false⟩, ⟨s%"annotation_comment", .str, false⟩]⟩
/-- spdx/model/relationship.py L61-75 -/
def PyClass.relationship : PyClass :=
  ⟨s%"Relationship",
    [⟨s%"spdx_element_id", .str, false⟩, ⟨s%"relationship_type", .cls s%"RelationshipType", false⟩,
     ⟨s%"related_spdx_element_id", .or .str (.or (.cls s%"SpdxNone") (.cls s%"SpdxNoAssertion")), false⟩, ⟨s%"comment", .optStr, false⟩]⟩
/-- spdx/model/extracted_licensing_info.py L13-30 -/
def PyClass.extractedLicensingInfo : PyClass :=
  ⟨s%"ExtractedLicensingInfo",
    [⟨s%"license_id", .optStr, false⟩, ⟨s%"extracted_text", .optStr, false⟩,
     ⟨s%"license_name", .optional (.or .str (.cls s%"SpdxNoAssertion")), false⟩, ⟨s%"cross_references", .list .str, true⟩,
     ⟨s%"comment", .optStr, false⟩]⟩
/-- spdx/model/package.py L31-38 -/
def PyClass.packageVerificationCode : PyClass :=
  ⟨s%"PackageVerificationCode", [⟨s%"value", .str, false⟩, ⟨s%"excluded_files", .list .str, true⟩]⟩
/-- spdx/model/package.py L56-69 -/
def PyClass.externalPackageRef : PyClass :=
  ⟨s%"ExternalPackageRef",
    [⟨s%"category", .cls s%"ExternalPackageRefCategory", false⟩, ⟨s%"reference_type", .str, false⟩, ⟨s%"locator", .str, false⟩,
     ⟨s%"comment", .optStr, false⟩]⟩
/-- spdx/model/package.py L72-134 -/
def PyClass.package : PyClass :=
  ⟨s%"Package",
    [⟨s%"spdx_id", .str, false⟩, ⟨s%"name", .str, false⟩, ⟨s%"download_location", .strOrSpecial, false⟩,
     ⟨s%"version", .optStr, false⟩, ⟨s%"file_name", .optStr, false⟩, ⟨s%"supplier", .optional .actor, false⟩,
     ⟨s%"originator", .optional .actor, false⟩, ⟨s%"files_analyzed", .bool, false⟩,
     ⟨s%"verification_code", .optional (.cls s%"PackageVerificationCode"), false⟩, ⟨s%"checksums", .list (.cls s%"Checksum"), true⟩,
     ⟨s%"homepage", .optional .strOrSpecial, false⟩, ⟨s%"source_info", .optStr, false⟩,
     ⟨s%"license_concluded", .optional .license, false⟩, ⟨s%"license_info_from_files", .list .license, true⟩,
     ⟨s%"license_declared", .optional .license, false⟩, ⟨s%"license_comment", .optStr, false⟩,
     ⟨s%"copyright_text", .optional .strOrSpecial, false⟩, ⟨s%"summary", .optStr, false⟩, ⟨s%"description", .optStr, false⟩,
     ⟨s%"comment", .optStr, false⟩, ⟨s%"external_references", .list (.cls s%"ExternalPackageRef"), true⟩,
     ⟨s%"attribution_texts", .list .str, true⟩, ⟨s%"primary_package_purpose", .optional (.cls s%"PackagePurpose"), false⟩,
     ⟨s%"release_date", .optional (.cls s%"datetime"), false⟩, ⟨s%"built_date", .optional (.cls s%"datetime"), false⟩,
     ⟨s%"valid_until_date", .optional (.cls s%"datetime"), false⟩]⟩
/-- spdx/model/file.py L29-68 -/
def PyClass.file : PyClass :=
  ⟨s%"File",
    [⟨s%"name", .str, false⟩, ⟨s%"spdx_id", .str, false⟩, ⟨s%"checksums", .list (.cls s%"Checksum"), false⟩,
     ⟨s%"file_types", .list (.cls s%"FileType"), true⟩, ⟨s%"license_concluded", .optional .license, false⟩,
     ⟨s%"license_info_in_file", .list .license, true⟩, ⟨s%"license_comment", .optStr, false⟩,
     ⟨s%"copyright_text", .optional .strOrSpecial, false⟩, ⟨s%"comment", .optStr, false⟩, ⟨s%"notice", .optStr, false⟩,
     ⟨s%"contributors", .list .str, true⟩, ⟨s%"attribution_texts", .list .str, true⟩]⟩
/-- spdx/model/snippet.py L14-44 -/
def PyClass.snippet : PyClass :=
  ⟨s%"Snippet",
    [⟨s%"spdx_id", .str, false⟩, ⟨s%"file_spdx_id", .str, false⟩, ⟨s%"byte_range", .pair .int .int, false⟩,
     ⟨s%"line_range", .optional (.pair .int .int), false⟩, ⟨s%"license_concluded", .optional .license, false⟩,
     ⟨s%"license_info_in_snippet", .list .license, true⟩, ⟨s%"license_comment", .optStr, false⟩,
     ⟨s%"copyright_text", .optional .strOrSpecial, false⟩, ⟨s%"comment", .optStr, false⟩, ⟨s%"name", .optStr, false⟩,
     ⟨s%"attribution_texts", .list .str, true⟩]⟩
/-- spdx/model/document.py L24-53 -/
def PyClass.creationInfo : PyClass :=
  ⟨s%"CreationInfo",
    [⟨s%"spdx_version", .str, false⟩, ⟨s%"spdx_id", .str, false⟩, ⟨s%"name", .str, false⟩, ⟨s%"document_namespace", .str, false⟩,
     ⟨s%"creators", .list (.cls s%"Actor"), false⟩, ⟨s%"created", .cls s%"datetime", false⟩, ⟨s%"creator_comment", .optStr, false⟩,
     ⟨s%"data_license", .str, false⟩, ⟨s%"external_document_refs", .list (.cls s%"ExternalDocumentRef"), true⟩,
     ⟨s%"license_list_version", .optional (.cls s%"Version"), false⟩, ⟨s%"document_comment", .optStr, false⟩]⟩
/-- spdx/model/document.py L56-83 -/
def PyClass.document : PyClass :=
  ⟨s%"Document",
    [⟨s%"creation_info", .cls s%"CreationInfo", false⟩, ⟨s%"packages", .list (.cls s%"Package"), true⟩,
     ⟨s%"files", .list (.cls s%"File"), true⟩, ⟨s%"snippets", .list (.cls s%"Snippet"), true⟩,
     ⟨s%"annotations", .list (.cls s%"Annotation"), true⟩, ⟨s%"relationships", .list (.cls s%"Relationship"), true⟩,
     ⟨s%"extracted_licensing_info", .list (.cls s%"ExtractedLicensingInfo"), true⟩]⟩

/-- All classes of spdx/model with type-checked constructors. -/
def modelClasses : List PyClass :=
  [.actor, .checksum, .externalDocumentRef, .annotation, .relationship, .extractedLicensingInfo, .packageVerificationCode,
   .externalPackageRef, .package, .file, .snippet, .creationInfo, .document]

end Spdx
