import Verif.Model.Typing
/-
spdx3/model: the constructors of the SPDX 3 classes, and the assignment to their fields.

Type hints are those of `Model/Typing`.  An abstract class in a hint stands for the classes of spdx3/model derived from it that can be
instantiated (classes that a user derives are not modelled).  Of a `Dict[…]` only that it is a dictionary is checked (older versions of
`beartype` look no further); `emptyDict` is the dictionary the constructors make.
-/
namespace Spdx

/-- `{}` -/
def emptyDict : PyVal := .obj s%"dict" 0

/-- A parameter of `__init__`: its annotation, and its default if it has one. -/
structure SParam where
  name : Str
  hint : Hint
  default : Option PyVal

structure SClass where
  name : Str
  /-- the fields of the dataclass, those of the base classes first, with the types that the setters check -/
  fields : List (Str × Hint)
  /-- the parameters of `__init__` after `self` -/
  params : List SParam
  /-- the statements `x = [] if x is None else x` and `x = {} if x is None else x` -/
  filled : List (Str × PyVal)

/-- Why a call of a class fails. -/
inductive CallError where
  /-- `TypeError`: an unexpected keyword argument -/
  | unexpected (name : Str)
  /-- `TypeError`: multiple values for an argument -/
  | twice (name : Str)
  /-- `TypeError`: too many positional arguments -/
  | tooMany
  /-- `TypeError`: missing arguments -/
  | missing (names : List Str)
  /-- `ConstructorTypeErrors`, of whose messages the names of the fields are kept -/
  | types (names : List Str)

/-- Python's binding of arguments: those given by position go to the first parameters. -/
def bindPositional (params : List SParam) (pos : List PyVal) : Dict Str PyVal := (params.map (·.name)).zip pos

/-- Python's binding of arguments: then the keywords in turn. -/
def bindKeywords (params : List SParam) : Dict Str PyVal → List (Str × PyVal) → Except CallError (Dict Str PyVal)
  | d, [] => .ok d
  | d, (k, v) :: kw =>
    if k ∉ params.map (·.name) then .error (.unexpected k)
    else if (d.get? k).isSome then .error (.twice k)
    else bindKeywords params (d.set k v) kw

/-- Python's binding of arguments: the local variables with which the body of `__init__` is entered. -/
def bindArguments (params : List SParam) (pos : List PyVal) (kw : List (Str × PyVal)) : Except CallError (Dict Str PyVal) :=
  match bindKeywords params (bindPositional params pos) kw with
  | .error e => .error e
  | .ok d =>
    if pos.length > params.length then .error .tooMany
    else
      let absent := params.filter fun p => (d.get? p.name).isNone && p.default.isNone
      if absent ≠ [] then .error (.missing (absent.map (·.name)))
      else .ok (params.map fun p => (p.name, (d.get? p.name).getD (p.default.getD .none)))

/-- The statements `x = [] if x is None else x` of a constructor -/
def fillNone (filled : List (Str × PyVal)) (locals : Dict Str PyVal) : Dict Str PyVal :=
  locals.map fun (k, v) => match v, filled.lookup k with
    | .none, some d => (k, d)
    | v, _ => (k, v)

/-- common/typing/type_checks.py L11-31 `check_types_and_set_values`; `local_variables.get(key)` is `None` for a name that is not there -/
def setFields (pick : List PyVal → Nat) (fields : List (Str × Hint)) (locals : Dict Str PyVal) : Dict Str PyVal × List Str :=
  fields.foldl (fun s f =>
    let v := (locals.get? f.1).getD .none
    if f.2.accepts pick v then (s.1.set f.1 v, s.2) else (s.1, s.2 ++ [f.1])) ([], [])

/-- Calling a class. -/
def SClass.call (pick : List PyVal → Nat) (c : SClass) (pos : List PyVal) (kw : List (Str × PyVal)) : Except CallError (Dict Str PyVal) :=
  match bindArguments c.params pos kw with
  | .error e => .error e
  | .ok locals =>
    match setFields pick c.fields (fillNone c.filled locals) with
    | (obj, []) => .ok obj
    | (_, es) => .error (.types es)

/-- common/typing/dataclass_with_properties.py L22-38 `make_setter`: an assignment `object.name = value`; the object afterwards, and whether
    the assignment was made or `TypeError` raised.  Any other attribute may be assigned too; it is not among the fields. -/
def SClass.assign (pick : List PyVal → Nat) (c : SClass) (obj : Dict Str PyVal) (name : Str) (v : PyVal) : Dict Str PyVal × Bool :=
  match c.fields.lookup name with
  | none => (obj, true)
  | some h => if h.accepts pick v then (obj.set name v, true) else (obj, false)

/-- spdx3/model/licensing/any_license_info.py L9: an abstract class; its instances are those of ConjunctiveLicenseSet, CustomLicense, DisjunctiveLicenseSet, ListedLicense, OrLaterOperator, WithAdditionOperator -/
abbrev anyAnyLicenseInfo : Hint := .or (.cls s%"ConjunctiveLicenseSet") (.or (.cls s%"CustomLicense") (.or (.cls s%"DisjunctiveLicenseSet") (.or (.cls s%"ListedLicense") (.or (.cls s%"OrLaterOperator") (.cls s%"WithAdditionOperator")))))

/-- spdx3/model/integrity_method.py L12: an abstract class; its instances are those of Hash -/
abbrev anyIntegrityMethod : Hint := .cls s%"Hash"

/-- spdx3/model/licensing/license.py L14: an abstract class; its instances are those of CustomLicense, ListedLicense -/
abbrev anyLicense : Hint := .or (.cls s%"CustomLicense") (.cls s%"ListedLicense")

/-- spdx3/model/licensing/license_addition.py L13: an abstract class; its instances are those of CustomLicenseAddition, ListedLicenseException -/
abbrev anyLicenseAddition : Hint := .or (.cls s%"CustomLicenseAddition") (.cls s%"ListedLicenseException")

/-- spdx3/model/licensing/license_field.py L7: an abstract class; its instances are those of ConjunctiveLicenseSet, CustomLicense, DisjunctiveLicenseSet, ListedLicense, NoAssertionLicense, NoneLicense, OrLaterOperator, WithAdditionOperator -/
abbrev anyLicenseField : Hint := .or (.cls s%"ConjunctiveLicenseSet") (.or (.cls s%"CustomLicense") (.or (.cls s%"DisjunctiveLicenseSet") (.or (.cls s%"ListedLicense") (.or (.cls s%"NoAssertionLicense") (.or (.cls s%"NoneLicense") (.or (.cls s%"OrLaterOperator") (.cls s%"WithAdditionOperator")))))))

/-- spdx3/model/agent.py L12-29 -/
def SClass.agent : SClass where
  name := s%"Agent"
  fields := [(s%"spdx_id", .str), (s%"creation_info", .optional (.cls s%"CreationInfo")), (s%"name", .optional .str),
             (s%"summary", .optional .str), (s%"description", .optional .str), (s%"comment", .optional .str),
             (s%"verified_using", .list (anyIntegrityMethod)), (s%"external_reference", .list (.cls s%"ExternalReference")),
             (s%"external_identifier", .list (.cls s%"ExternalIdentifier")), (s%"extension", .optional .str)]
  params := [⟨s%"spdx_id", .str, none⟩, ⟨s%"creation_info", .optional (.cls s%"CreationInfo"), some .none⟩,
             ⟨s%"name", .optional .str, some .none⟩, ⟨s%"summary", .optional .str, some .none⟩,
             ⟨s%"description", .optional .str, some .none⟩, ⟨s%"comment", .optional .str, some .none⟩,
             ⟨s%"verified_using", .optional (.list (anyIntegrityMethod)), some .none⟩,
             ⟨s%"external_reference", .optional (.list (.cls s%"ExternalReference")), some .none⟩,
             ⟨s%"external_identifier", .optional (.list (.cls s%"ExternalIdentifier")), some .none⟩,
             ⟨s%"extension", .optional .str, some .none⟩]
  filled := [(s%"verified_using", .list []), (s%"external_reference", .list []), (s%"external_identifier", .list [])]

/-- spdx3/model/ai/ai_package.py L25-102 -/
def SClass.aIPackage : SClass where
  name := s%"AIPackage"
  fields := [(s%"spdx_id", .str), (s%"creation_info", .optional (.cls s%"CreationInfo")), (s%"name", .optional .str),
             (s%"summary", .optional .str), (s%"description", .optional .str), (s%"comment", .optional .str),
             (s%"verified_using", .list (anyIntegrityMethod)), (s%"external_reference", .list (.cls s%"ExternalReference")),
             (s%"external_identifier", .list (.cls s%"ExternalIdentifier")), (s%"extension", .optional .str),
             (s%"originated_by", .list .str), (s%"supplied_by", .list .str), (s%"built_time", .optional (.cls s%"datetime")),
             (s%"release_time", .optional (.cls s%"datetime")), (s%"valid_until_time", .optional (.cls s%"datetime")),
             (s%"standard", .list .str), (s%"content_identifier", .optional .str),
             (s%"primary_purpose", .optional (.cls s%"SoftwarePurpose")), (s%"additional_purpose", .list (.cls s%"SoftwarePurpose")),
             (s%"concluded_license", .optional (anyLicenseField)), (s%"declared_license", .optional (anyLicenseField)),
             (s%"copyright_text", .optional .str), (s%"attribution_text", .optional .str), (s%"package_version", .optional .str),
             (s%"download_location", .optional .str), (s%"package_url", .optional .str), (s%"homepage", .optional .str),
             (s%"source_info", .optional .str), (s%"energy_consumption", .optional .str), (s%"standard_compliance", .list .str),
             (s%"limitation", .optional .str), (s%"type_of_model", .list .str), (s%"information_about_training", .optional .str),
             (s%"information_about_application", .optional .str), (s%"hyperparameter", .cls s%"dict"),
             (s%"model_data_preprocessing", .list .str), (s%"model_explainability", .list .str),
             (s%"sensitive_personal_information", .optional .bool), (s%"metric_decision_threshold", .cls s%"dict"),
             (s%"metric", .cls s%"dict"), (s%"domain", .list .str), (s%"autonomy_type", .optional .bool),
             (s%"safety_risk_assessment", .optional (.cls s%"SafetyRiskAssessmentType"))]
  params := [⟨s%"spdx_id", .str, none⟩, ⟨s%"name", .str, none⟩, ⟨s%"supplied_by", .list .str, none⟩, ⟨s%"download_location", .str, none⟩,
             ⟨s%"package_version", .str, none⟩, ⟨s%"primary_purpose", .cls s%"SoftwarePurpose", none⟩,
             ⟨s%"release_time", .cls s%"datetime", none⟩, ⟨s%"creation_info", .optional (.cls s%"CreationInfo"), some .none⟩,
             ⟨s%"summary", .optional .str, some .none⟩, ⟨s%"description", .optional .str, some .none⟩,
             ⟨s%"comment", .optional .str, some .none⟩, ⟨s%"verified_using", .optional (.list (anyIntegrityMethod)), some .none⟩,
             ⟨s%"external_reference", .optional (.list (.cls s%"ExternalReference")), some .none⟩,
             ⟨s%"external_identifier", .optional (.list (.cls s%"ExternalIdentifier")), some .none⟩,
             ⟨s%"extension", .optional .str, some .none⟩, ⟨s%"originated_by", .optional (.list .str), some .none⟩,
             ⟨s%"built_time", .optional (.cls s%"datetime"), some .none⟩, ⟨s%"valid_until_time", .optional (.cls s%"datetime"), some .none⟩,
             ⟨s%"standard", .optional (.list .str), some .none⟩, ⟨s%"content_identifier", .optional .str, some .none⟩,
             ⟨s%"additional_purpose", .optional (.list (.cls s%"SoftwarePurpose")), some .none⟩,
             ⟨s%"concluded_license", .optional (anyLicenseField), some .none⟩,
             ⟨s%"declared_license", .optional (anyLicenseField), some .none⟩, ⟨s%"copyright_text", .optional .str, some .none⟩,
             ⟨s%"attribution_text", .optional .str, some .none⟩, ⟨s%"package_url", .optional .str, some .none⟩,
             ⟨s%"homepage", .optional .str, some .none⟩, ⟨s%"source_info", .optional .str, some .none⟩,
             ⟨s%"energy_consumption", .optional .str, some .none⟩, ⟨s%"standard_compliance", .optional (.list .str), some .none⟩,
             ⟨s%"limitation", .optional .str, some .none⟩, ⟨s%"type_of_model", .optional (.list .str), some .none⟩,
             ⟨s%"information_about_training", .optional .str, some .none⟩, ⟨s%"information_about_application", .optional .str, some .none⟩,
             ⟨s%"hyperparameter", .optional (.cls s%"dict"), some .none⟩, ⟨s%"model_data_preprocessing", .optional (.list .str), some .none⟩,
             ⟨s%"model_explainability", .optional (.list .str), some .none⟩,
             ⟨s%"sensitive_personal_information", .optional .bool, some .none⟩,
             ⟨s%"metric_decision_threshold", .optional (.cls s%"dict"), some .none⟩, ⟨s%"metric", .optional (.cls s%"dict"), some .none⟩,
             ⟨s%"domain", .optional (.list .str), some .none⟩, ⟨s%"autonomy_type", .optional .bool, some .none⟩,
             ⟨s%"safety_risk_assessment", .optional (.cls s%"SafetyRiskAssessmentType"), some .none⟩]
  filled := [(s%"verified_using", .list []), (s%"external_reference", .list []), (s%"external_identifier", .list []),
             (s%"originated_by", .list []), (s%"additional_purpose", .list []), (s%"standard", .list []),
             (s%"standard_compliance", .list []), (s%"type_of_model", .list []), (s%"hyperparameter", emptyDict),
             (s%"model_data_preprocessing", .list []), (s%"model_explainability", .list []), (s%"metric_decision_threshold", emptyDict),
             (s%"metric", emptyDict), (s%"domain", .list [])]

/-- spdx3/model/annotation.py L20-47 -/
def SClass.annotation : SClass where
  name := s%"Annotation"
  fields := [(s%"spdx_id", .str), (s%"creation_info", .optional (.cls s%"CreationInfo")), (s%"name", .optional .str),
             (s%"summary", .optional .str), (s%"description", .optional .str), (s%"comment", .optional .str),
             (s%"verified_using", .list (anyIntegrityMethod)), (s%"external_reference", .list (.cls s%"ExternalReference")),
             (s%"external_identifier", .list (.cls s%"ExternalIdentifier")), (s%"extension", .optional .str),
             (s%"annotation_type", .cls s%"AnnotationType"), (s%"subject", .str), (s%"content_type", .list .str),
             (s%"statement", .optional .str)]
  params := [⟨s%"spdx_id", .str, none⟩, ⟨s%"annotation_type", .cls s%"AnnotationType", none⟩, ⟨s%"subject", .str, none⟩,
             ⟨s%"creation_info", .optional (.cls s%"CreationInfo"), some .none⟩, ⟨s%"name", .optional .str, some .none⟩,
             ⟨s%"summary", .optional .str, some .none⟩, ⟨s%"description", .optional .str, some .none⟩,
             ⟨s%"comment", .optional .str, some .none⟩, ⟨s%"verified_using", .optional (.list (anyIntegrityMethod)), some .none⟩,
             ⟨s%"external_reference", .optional (.list (.cls s%"ExternalReference")), some .none⟩,
             ⟨s%"external_identifier", .optional (.list (.cls s%"ExternalIdentifier")), some .none⟩,
             ⟨s%"extension", .optional .str, some .none⟩, ⟨s%"content_type", .optional (.list .str), some .none⟩,
             ⟨s%"statement", .optional .str, some .none⟩]
  filled := [(s%"verified_using", .list []), (s%"external_reference", .list []), (s%"external_identifier", .list []),
             (s%"content_type", .list [])]

/-- spdx3/model/bom.py L20-47 -/
def SClass.bom : SClass where
  name := s%"Bom"
  fields := [(s%"spdx_id", .str), (s%"creation_info", .optional (.cls s%"CreationInfo")), (s%"name", .optional .str),
             (s%"summary", .optional .str), (s%"description", .optional .str), (s%"comment", .optional .str),
             (s%"verified_using", .list (anyIntegrityMethod)), (s%"external_reference", .list (.cls s%"ExternalReference")),
             (s%"external_identifier", .list (.cls s%"ExternalIdentifier")), (s%"extension", .optional .str), (s%"element", .list .str),
             (s%"root_element", .list .str), (s%"namespaces", .list (.cls s%"NamespaceMap")), (s%"imports", .list (.cls s%"ExternalMap")),
             (s%"context", .optional .str)]
  params := [⟨s%"spdx_id", .str, none⟩, ⟨s%"element", .list .str, none⟩, ⟨s%"root_element", .list .str, none⟩,
             ⟨s%"creation_info", .optional (.cls s%"CreationInfo"), some .none⟩, ⟨s%"name", .optional .str, some .none⟩,
             ⟨s%"summary", .optional .str, some .none⟩, ⟨s%"description", .optional .str, some .none⟩,
             ⟨s%"comment", .optional .str, some .none⟩, ⟨s%"verified_using", .optional (.list (anyIntegrityMethod)), some .none⟩,
             ⟨s%"external_reference", .optional (.list (.cls s%"ExternalReference")), some .none⟩,
             ⟨s%"external_identifier", .optional (.list (.cls s%"ExternalIdentifier")), some .none⟩,
             ⟨s%"extension", .optional .str, some .none⟩, ⟨s%"namespaces", .optional (.list (.cls s%"NamespaceMap")), some .none⟩,
             ⟨s%"imports", .optional (.list (.cls s%"ExternalMap")), some .none⟩, ⟨s%"context", .optional .str, some .none⟩]
  filled := [(s%"verified_using", .list []), (s%"external_reference", .list []), (s%"external_identifier", .list []),
             (s%"namespaces", .list []), (s%"imports", .list [])]

/-- spdx3/model/build/build.py L15-57 -/
def SClass.build : SClass where
  name := s%"Build"
  fields := [(s%"spdx_id", .str), (s%"creation_info", .optional (.cls s%"CreationInfo")), (s%"name", .optional .str),
             (s%"summary", .optional .str), (s%"description", .optional .str), (s%"comment", .optional .str),
             (s%"verified_using", .list (anyIntegrityMethod)), (s%"external_reference", .list (.cls s%"ExternalReference")),
             (s%"external_identifier", .list (.cls s%"ExternalIdentifier")), (s%"extension", .optional .str), (s%"build_type", .str),
             (s%"build_id", .optional .str), (s%"config_source_entrypoint", .list .str), (s%"config_source_uri", .list .str),
             (s%"config_source_digest", .list (.cls s%"Hash")), (s%"parameters", .cls s%"dict"),
             (s%"build_start_time", .optional (.cls s%"datetime")), (s%"build_end_time", .optional (.cls s%"datetime")),
             (s%"environment", .cls s%"dict")]
  params := [⟨s%"spdx_id", .str, none⟩, ⟨s%"build_type", .str, none⟩, ⟨s%"creation_info", .optional (.cls s%"CreationInfo"), some .none⟩,
             ⟨s%"name", .optional .str, some .none⟩, ⟨s%"summary", .optional .str, some .none⟩,
             ⟨s%"description", .optional .str, some .none⟩, ⟨s%"comment", .optional .str, some .none⟩,
             ⟨s%"verified_using", .optional (.list (anyIntegrityMethod)), some .none⟩,
             ⟨s%"external_reference", .optional (.list (.cls s%"ExternalReference")), some .none⟩,
             ⟨s%"external_identifier", .optional (.list (.cls s%"ExternalIdentifier")), some .none⟩,
             ⟨s%"extension", .optional .str, some .none⟩, ⟨s%"build_id", .optional .str, some .none⟩,
             ⟨s%"config_source_entrypoint", .optional (.list .str), some .none⟩, ⟨s%"config_source_uri", .optional (.list .str), some .none⟩,
             ⟨s%"config_source_digest", .optional (.list (.cls s%"Hash")), some .none⟩,
             ⟨s%"parameters", .optional (.cls s%"dict"), some .none⟩, ⟨s%"build_start_time", .optional (.cls s%"datetime"), some .none⟩,
             ⟨s%"build_end_time", .optional (.cls s%"datetime"), some .none⟩, ⟨s%"environment", .optional (.cls s%"dict"), some .none⟩]
  filled := [(s%"verified_using", .list []), (s%"external_reference", .list []), (s%"external_identifier", .list []),
             (s%"config_source_entrypoint", .list []), (s%"config_source_uri", .list []), (s%"config_source_digest", .list []),
             (s%"parameters", emptyDict), (s%"environment", emptyDict)]

/-- spdx3/model/bundle.py L20-46 -/
def SClass.bundle : SClass where
  name := s%"Bundle"
  fields := [(s%"spdx_id", .str), (s%"creation_info", .optional (.cls s%"CreationInfo")), (s%"name", .optional .str),
             (s%"summary", .optional .str), (s%"description", .optional .str), (s%"comment", .optional .str),
             (s%"verified_using", .list (anyIntegrityMethod)), (s%"external_reference", .list (.cls s%"ExternalReference")),
             (s%"external_identifier", .list (.cls s%"ExternalIdentifier")), (s%"extension", .optional .str), (s%"element", .list .str),
             (s%"root_element", .list .str), (s%"namespaces", .list (.cls s%"NamespaceMap")), (s%"imports", .list (.cls s%"ExternalMap")),
             (s%"context", .optional .str)]
  params := [⟨s%"spdx_id", .str, none⟩, ⟨s%"element", .list .str, none⟩, ⟨s%"root_element", .list .str, none⟩,
             ⟨s%"creation_info", .optional (.cls s%"CreationInfo"), some .none⟩, ⟨s%"name", .optional .str, some .none⟩,
             ⟨s%"summary", .optional .str, some .none⟩, ⟨s%"description", .optional .str, some .none⟩,
             ⟨s%"comment", .optional .str, some .none⟩, ⟨s%"verified_using", .optional (.list (anyIntegrityMethod)), some .none⟩,
             ⟨s%"external_reference", .optional (.list (.cls s%"ExternalReference")), some .none⟩,
             ⟨s%"external_identifier", .optional (.list (.cls s%"ExternalIdentifier")), some .none⟩,
             ⟨s%"extension", .optional .str, some .none⟩, ⟨s%"namespaces", .optional (.list (.cls s%"NamespaceMap")), some .none⟩,
             ⟨s%"imports", .optional (.list (.cls s%"ExternalMap")), some .none⟩, ⟨s%"context", .optional .str, some .none⟩]
  filled := [(s%"verified_using", .list []), (s%"external_reference", .list []), (s%"external_identifier", .list []),
             (s%"namespaces", .list []), (s%"imports", .list [])]

/-- spdx3/model/creation_info.py L16-36 -/
def SClass.creationInfo : SClass where
  name := s%"CreationInfo"
  fields := [(s%"spec_version", .cls s%"Version"), (s%"created", .cls s%"datetime"), (s%"created_by", .list .str),
             (s%"profile", .list (.cls s%"ProfileIdentifierType")), (s%"data_license", .optional .str), (s%"created_using", .list .str),
             (s%"comment", .optional .str)]
  params := [⟨s%"spec_version", .cls s%"Version", none⟩, ⟨s%"created", .cls s%"datetime", none⟩, ⟨s%"created_by", .list .str, none⟩,
             ⟨s%"profile", .list (.cls s%"ProfileIdentifierType"), none⟩, ⟨s%"data_license", .optional .str, some (.str s%"CC0-1.0")⟩,
             ⟨s%"created_using", .optional (.list .str), some .none⟩, ⟨s%"comment", .optional .str, some .none⟩]
  filled := [(s%"created_using", .list [])]

/-- spdx3/model/dataset/dataset.py L50-120 -/
def SClass.dataset : SClass where
  name := s%"Dataset"
  fields := [(s%"spdx_id", .str), (s%"creation_info", .optional (.cls s%"CreationInfo")), (s%"name", .optional .str),
             (s%"summary", .optional .str), (s%"description", .optional .str), (s%"comment", .optional .str),
             (s%"verified_using", .list (anyIntegrityMethod)), (s%"external_reference", .list (.cls s%"ExternalReference")),
             (s%"external_identifier", .list (.cls s%"ExternalIdentifier")), (s%"extension", .optional .str),
             (s%"originated_by", .list .str), (s%"supplied_by", .list .str), (s%"built_time", .optional (.cls s%"datetime")),
             (s%"release_time", .optional (.cls s%"datetime")), (s%"valid_until_time", .optional (.cls s%"datetime")),
             (s%"standard", .list .str), (s%"content_identifier", .optional .str),
             (s%"primary_purpose", .optional (.cls s%"SoftwarePurpose")), (s%"additional_purpose", .list (.cls s%"SoftwarePurpose")),
             (s%"concluded_license", .optional (anyLicenseField)), (s%"declared_license", .optional (anyLicenseField)),
             (s%"copyright_text", .optional .str), (s%"attribution_text", .optional .str), (s%"package_version", .optional .str),
             (s%"download_location", .optional .str), (s%"package_url", .optional .str), (s%"homepage", .optional .str),
             (s%"source_info", .optional .str), (s%"dataset_type", .list (.cls s%"DatasetType")),
             (s%"data_collection_process", .optional .str), (s%"intended_use", .optional .str), (s%"dataset_size", .optional .int),
             (s%"dataset_noise", .optional .str), (s%"data_preprocessing", .list .str), (s%"sensor", .cls s%"dict"),
             (s%"known_bias", .list .str), (s%"sensitive_personal_information", .optional .bool),
             (s%"anonymization_method_used", .list .str), (s%"confidentiality_level", .optional (.cls s%"ConfidentialityLevelType")),
             (s%"dataset_update_mechanism", .optional .str), (s%"dataset_availability", .optional (.cls s%"DatasetAvailabilityType"))]
  params := [⟨s%"spdx_id", .str, none⟩, ⟨s%"name", .str, none⟩, ⟨s%"originated_by", .list .str, none⟩, ⟨s%"download_location", .str, none⟩,
             ⟨s%"primary_purpose", .cls s%"SoftwarePurpose", none⟩, ⟨s%"built_time", .cls s%"datetime", none⟩,
             ⟨s%"release_time", .cls s%"datetime", none⟩, ⟨s%"dataset_type", .list (.cls s%"DatasetType"), none⟩,
             ⟨s%"creation_info", .optional (.cls s%"CreationInfo"), some .none⟩, ⟨s%"summary", .optional .str, some .none⟩,
             ⟨s%"description", .optional .str, some .none⟩, ⟨s%"comment", .optional .str, some .none⟩,
             ⟨s%"verified_using", .optional (.list (anyIntegrityMethod)), some .none⟩,
             ⟨s%"external_reference", .optional (.list (.cls s%"ExternalReference")), some .none⟩,
             ⟨s%"external_identifier", .optional (.list (.cls s%"ExternalIdentifier")), some .none⟩,
             ⟨s%"extension", .optional .str, some .none⟩, ⟨s%"supplied_by", .optional (.list .str), some .none⟩,
             ⟨s%"valid_until_time", .optional (.cls s%"datetime"), some .none⟩, ⟨s%"standard", .optional (.list .str), some .none⟩,
             ⟨s%"content_identifier", .optional .str, some .none⟩,
             ⟨s%"additional_purpose", .optional (.list (.cls s%"SoftwarePurpose")), some .none⟩,
             ⟨s%"concluded_license", .optional (anyLicenseField), some .none⟩,
             ⟨s%"declared_license", .optional (anyLicenseField), some .none⟩, ⟨s%"copyright_text", .optional .str, some .none⟩,
             ⟨s%"attribution_text", .optional .str, some .none⟩, ⟨s%"package_version", .optional .str, some .none⟩,
             ⟨s%"package_url", .optional .str, some .none⟩, ⟨s%"homepage", .optional .str, some .none⟩,
             ⟨s%"source_info", .optional .str, some .none⟩, ⟨s%"data_collection_process", .optional .str, some .none⟩,
             ⟨s%"intended_use", .optional .str, some .none⟩, ⟨s%"dataset_size", .optional .int, some .none⟩,
             ⟨s%"dataset_noise", .optional .str, some .none⟩, ⟨s%"data_preprocessing", .optional (.list .str), some .none⟩,
             ⟨s%"sensor", .optional (.cls s%"dict"), some .none⟩, ⟨s%"known_bias", .optional (.list .str), some .none⟩,
             ⟨s%"sensitive_personal_information", .optional .bool, some .none⟩,
             ⟨s%"anonymization_method_used", .optional (.list .str), some .none⟩,
             ⟨s%"confidentiality_level", .optional (.cls s%"ConfidentialityLevelType"), some .none⟩,
             ⟨s%"dataset_update_mechanism", .optional .str, some .none⟩,
             ⟨s%"dataset_availability", .optional (.cls s%"DatasetAvailabilityType"), some .none⟩]
  filled := [(s%"verified_using", .list []), (s%"external_reference", .list []), (s%"external_identifier", .list []),
             (s%"originated_by", .list []), (s%"additional_purpose", .list []), (s%"supplied_by", .list []), (s%"standard", .list []),
             (s%"data_preprocessing", .list []), (s%"sensor", emptyDict), (s%"known_bias", .list []),
             (s%"anonymization_method_used", .list [])]

/-- spdx3/model/external_identifier.py L28-44 -/
def SClass.externalIdentifier : SClass where
  name := s%"ExternalIdentifier"
  fields := [(s%"external_identifier_type", .cls s%"ExternalIdentifierType"), (s%"identifier", .str), (s%"comment", .optional .str),
             (s%"identifier_locator", .list .str), (s%"issuing_authority", .optional .str)]
  params := [⟨s%"external_identifier_type", .cls s%"ExternalIdentifierType", none⟩, ⟨s%"identifier", .str, none⟩,
             ⟨s%"comment", .optional .str, some .none⟩, ⟨s%"identifier_locator", .optional (.list .str), some .none⟩,
             ⟨s%"issuing_authority", .optional .str, some .none⟩]
  filled := [(s%"identifier_locator", .list [])]

/-- spdx3/model/external_map.py L14-28 -/
def SClass.externalMap : SClass where
  name := s%"ExternalMap"
  fields := [(s%"external_id", .str), (s%"verified_using", .list (anyIntegrityMethod)), (s%"location_hint", .optional .str),
             (s%"defining_document", .optional .str)]
  params := [⟨s%"external_id", .str, none⟩, ⟨s%"verified_using", .optional (.list (anyIntegrityMethod)), some .none⟩,
             ⟨s%"location_hint", .optional .str, some .none⟩, ⟨s%"defining_document", .optional .str, some .none⟩]
  filled := [(s%"verified_using", .list [])]

/-- spdx3/model/external_reference.py L55-69 -/
def SClass.externalReference : SClass where
  name := s%"ExternalReference"
  fields := [(s%"external_reference_type", .optional (.cls s%"ExternalReferenceType")), (s%"locator", .list .str),
             (s%"content_type", .optional .str), (s%"comment", .optional .str)]
  params := [⟨s%"external_reference_type", .optional (.cls s%"ExternalReferenceType"), some .none⟩,
             ⟨s%"locator", .optional (.list .str), some .none⟩, ⟨s%"content_type", .optional .str, some .none⟩,
             ⟨s%"comment", .optional .str, some .none⟩]
  filled := [(s%"locator", .list [])]

/-- spdx3/model/hash.py L41-46 -/
def SClass.hash : SClass where
  name := s%"Hash"
  fields := [(s%"comment", .optional .str), (s%"algorithm", .cls s%"HashAlgorithm"), (s%"hash_value", .str)]
  params := [⟨s%"algorithm", .cls s%"HashAlgorithm", none⟩, ⟨s%"hash_value", .str, none⟩, ⟨s%"comment", .optional .str, some .none⟩]
  filled := []

/-- spdx3/model/licensing/conjunctive_license_set.py L12-16 -/
def SClass.conjunctiveLicenseSet : SClass where
  name := s%"ConjunctiveLicenseSet"
  fields := [(s%"member", .list (anyAnyLicenseInfo))]
  params := [⟨s%"member", .list (anyAnyLicenseInfo), none⟩]
  filled := []

/-- spdx3/model/licensing/custom_license.py L12-28 -/
def SClass.customLicense : SClass where
  name := s%"CustomLicense"
  fields := [(s%"license_id", .str), (s%"license_name", .str), (s%"license_text", .str), (s%"license_comment", .optional .str),
             (s%"see_also", .list .str), (s%"is_osi_approved", .optional .bool), (s%"is_fsf_libre", .optional .bool),
             (s%"standard_license_header", .optional .str), (s%"standard_license_template", .optional .str),
             (s%"is_deprecated_license_id", .optional .bool), (s%"obsoleted_by", .optional .str)]
  params := [⟨s%"license_id", .str, none⟩, ⟨s%"license_name", .str, none⟩, ⟨s%"license_text", .str, none⟩,
             ⟨s%"license_comment", .optional .str, some .none⟩, ⟨s%"see_also", .optional (.list .str), some .none⟩,
             ⟨s%"is_osi_approved", .optional .bool, some .none⟩, ⟨s%"is_fsf_libre", .optional .bool, some .none⟩,
             ⟨s%"standard_license_header", .optional .str, some .none⟩, ⟨s%"standard_license_template", .optional .str, some .none⟩,
             ⟨s%"is_deprecated_license_id", .optional .bool, some .none⟩, ⟨s%"obsoleted_by", .optional .str, some .none⟩]
  filled := [(s%"see_also", .list [])]

/-- spdx3/model/licensing/custom_license_addition.py L12-25 -/
def SClass.customLicenseAddition : SClass where
  name := s%"CustomLicenseAddition"
  fields := [(s%"addition_id", .str), (s%"addition_name", .str), (s%"addition_text", .str), (s%"addition_comment", .optional .str),
             (s%"see_also", .list .str), (s%"standard_addition_template", .optional .str), (s%"is_deprecated_addition_id", .optional .bool),
             (s%"obsoleted_by", .optional .str)]
  params := [⟨s%"addition_id", .str, none⟩, ⟨s%"addition_name", .str, none⟩, ⟨s%"addition_text", .str, none⟩,
             ⟨s%"addition_comment", .optional .str, some .none⟩, ⟨s%"see_also", .optional (.list .str), some .none⟩,
             ⟨s%"standard_addition_template", .optional .str, some .none⟩, ⟨s%"is_deprecated_addition_id", .optional .bool, some .none⟩,
             ⟨s%"obsoleted_by", .optional .str, some .none⟩]
  filled := [(s%"see_also", .list [])]

/-- spdx3/model/licensing/disjunctive_license_set.py L12-16 -/
def SClass.disjunctiveLicenseSet : SClass where
  name := s%"DisjunctiveLicenseSet"
  fields := [(s%"member", .list (anyAnyLicenseInfo))]
  params := [⟨s%"member", .list (anyAnyLicenseInfo), none⟩]
  filled := []

/-- spdx3/model/licensing/listed_license.py L12-33 -/
def SClass.listedLicense : SClass where
  name := s%"ListedLicense"
  fields := [(s%"license_id", .str), (s%"license_name", .str), (s%"license_text", .str), (s%"license_comment", .optional .str),
             (s%"see_also", .list .str), (s%"is_osi_approved", .optional .bool), (s%"is_fsf_libre", .optional .bool),
             (s%"standard_license_header", .optional .str), (s%"standard_license_template", .optional .str),
             (s%"is_deprecated_license_id", .optional .bool), (s%"obsoleted_by", .optional .str), (s%"list_version_added", .optional .str),
             (s%"deprecated_version", .optional .str)]
  params := [⟨s%"license_id", .str, none⟩, ⟨s%"license_name", .str, none⟩, ⟨s%"license_text", .str, none⟩,
             ⟨s%"license_comment", .optional .str, some .none⟩, ⟨s%"see_also", .optional (.list .str), some .none⟩,
             ⟨s%"is_osi_approved", .optional .bool, some .none⟩, ⟨s%"is_fsf_libre", .optional .bool, some .none⟩,
             ⟨s%"standard_license_header", .optional .str, some .none⟩, ⟨s%"standard_license_template", .optional .str, some .none⟩,
             ⟨s%"is_deprecated_license_id", .optional .bool, some .none⟩, ⟨s%"obsoleted_by", .optional .str, some .none⟩,
             ⟨s%"list_version_added", .optional .str, some .none⟩, ⟨s%"deprecated_version", .optional .str, some .none⟩]
  filled := [(s%"see_also", .list [])]

/-- spdx3/model/licensing/listed_license_exception.py L12-30 -/
def SClass.listedLicenseException : SClass where
  name := s%"ListedLicenseException"
  fields := [(s%"addition_id", .str), (s%"addition_name", .str), (s%"addition_text", .str), (s%"addition_comment", .optional .str),
             (s%"see_also", .list .str), (s%"standard_addition_template", .optional .str), (s%"is_deprecated_addition_id", .optional .bool),
             (s%"obsoleted_by", .optional .str), (s%"list_version_added", .optional .str), (s%"deprecated_version", .optional .str)]
  params := [⟨s%"addition_id", .str, none⟩, ⟨s%"addition_name", .str, none⟩, ⟨s%"addition_text", .str, none⟩,
             ⟨s%"addition_comment", .optional .str, some .none⟩, ⟨s%"see_also", .optional (.list .str), some .none⟩,
             ⟨s%"standard_addition_template", .optional .str, some .none⟩, ⟨s%"is_deprecated_addition_id", .optional .bool, some .none⟩,
             ⟨s%"obsoleted_by", .optional .str, some .none⟩, ⟨s%"list_version_added", .optional .str, some .none⟩,
             ⟨s%"deprecated_version", .optional .str, some .none⟩]
  filled := [(s%"see_also", .list [])]

/-- spdx3/model/licensing/no_assertion_license.py L7-9 -/
def SClass.noAssertionLicense : SClass where
  name := s%"NoAssertionLicense"
  fields := []
  params := []
  filled := []

/-- spdx3/model/licensing/none_license.py L7-9 -/
def SClass.noneLicense : SClass where
  name := s%"NoneLicense"
  fields := []
  params := []
  filled := []

/-- spdx3/model/licensing/or_later_operator.py L11-15 -/
def SClass.orLaterOperator : SClass where
  name := s%"OrLaterOperator"
  fields := [(s%"subject_license", anyLicense)]
  params := [⟨s%"subject_license", anyLicense, none⟩]
  filled := []

/-- spdx3/model/licensing/with_addition_operator.py L12-17 -/
def SClass.withAdditionOperator : SClass where
  name := s%"WithAdditionOperator"
  fields := [(s%"subject_license", anyLicense), (s%"subject_addition", anyLicenseAddition)]
  params := [⟨s%"subject_license", anyLicense, none⟩, ⟨s%"subject_addition", anyLicenseAddition, none⟩]
  filled := []

/-- spdx3/model/lifecycle_scoped_relationship.py L32-59 -/
def SClass.lifecycleScopedRelationship : SClass where
  name := s%"LifecycleScopedRelationship"
  fields := [(s%"spdx_id", .str), (s%"creation_info", .optional (.cls s%"CreationInfo")), (s%"name", .optional .str),
             (s%"summary", .optional .str), (s%"description", .optional .str), (s%"comment", .optional .str),
             (s%"verified_using", .list (anyIntegrityMethod)), (s%"external_reference", .list (.cls s%"ExternalReference")),
             (s%"external_identifier", .list (.cls s%"ExternalIdentifier")), (s%"extension", .optional .str), (s%"from_element", .str),
             (s%"to", .list .str), (s%"relationship_type", .cls s%"RelationshipType"),
             (s%"completeness", .optional (.cls s%"RelationshipCompleteness")), (s%"start_time", .optional (.cls s%"datetime")),
             (s%"end_time", .optional (.cls s%"datetime")), (s%"scope", .optional (.cls s%"LifecycleScopeType"))]
  params := [⟨s%"spdx_id", .str, none⟩, ⟨s%"from_element", .str, none⟩, ⟨s%"relationship_type", .cls s%"RelationshipType", none⟩,
             ⟨s%"to", .optional (.list .str), some .none⟩, ⟨s%"creation_info", .optional (.cls s%"CreationInfo"), some .none⟩,
             ⟨s%"name", .optional .str, some .none⟩, ⟨s%"summary", .optional .str, some .none⟩,
             ⟨s%"description", .optional .str, some .none⟩, ⟨s%"comment", .optional .str, some .none⟩,
             ⟨s%"verified_using", .optional (.list (anyIntegrityMethod)), some .none⟩,
             ⟨s%"external_reference", .optional (.list (.cls s%"ExternalReference")), some .none⟩,
             ⟨s%"external_identifier", .optional (.list (.cls s%"ExternalIdentifier")), some .none⟩,
             ⟨s%"extension", .optional .str, some .none⟩, ⟨s%"completeness", .optional (.cls s%"RelationshipCompleteness"), some .none⟩,
             ⟨s%"start_time", .optional (.cls s%"datetime"), some .none⟩, ⟨s%"end_time", .optional (.cls s%"datetime"), some .none⟩,
             ⟨s%"scope", .optional (.cls s%"LifecycleScopeType"), some .none⟩]
  filled := [(s%"to", .list []), (s%"verified_using", .list []), (s%"external_reference", .list []), (s%"external_identifier", .list [])]

/-- spdx3/model/namespace_map.py L9-14 -/
def SClass.namespaceMap : SClass where
  name := s%"NamespaceMap"
  fields := [(s%"prefix", .str), (s%"namespace", .str)]
  params := [⟨s%"prefix", .str, none⟩, ⟨s%"namespace", .str, none⟩]
  filled := []

/-- spdx3/model/organization.py L12-29 -/
def SClass.organization : SClass where
  name := s%"Organization"
  fields := [(s%"spdx_id", .str), (s%"creation_info", .optional (.cls s%"CreationInfo")), (s%"name", .optional .str),
             (s%"summary", .optional .str), (s%"description", .optional .str), (s%"comment", .optional .str),
             (s%"verified_using", .list (anyIntegrityMethod)), (s%"external_reference", .list (.cls s%"ExternalReference")),
             (s%"external_identifier", .list (.cls s%"ExternalIdentifier")), (s%"extension", .optional .str)]
  params := [⟨s%"spdx_id", .str, none⟩, ⟨s%"creation_info", .optional (.cls s%"CreationInfo"), some .none⟩,
             ⟨s%"name", .optional .str, some .none⟩, ⟨s%"summary", .optional .str, some .none⟩,
             ⟨s%"description", .optional .str, some .none⟩, ⟨s%"comment", .optional .str, some .none⟩,
             ⟨s%"verified_using", .optional (.list (anyIntegrityMethod)), some .none⟩,
             ⟨s%"external_reference", .optional (.list (.cls s%"ExternalReference")), some .none⟩,
             ⟨s%"external_identifier", .optional (.list (.cls s%"ExternalIdentifier")), some .none⟩,
             ⟨s%"extension", .optional .str, some .none⟩]
  filled := [(s%"verified_using", .list []), (s%"external_reference", .list []), (s%"external_identifier", .list [])]

/-- spdx3/model/person.py L12-29 -/
def SClass.person : SClass where
  name := s%"Person"
  fields := [(s%"spdx_id", .str), (s%"creation_info", .optional (.cls s%"CreationInfo")), (s%"name", .optional .str),
             (s%"summary", .optional .str), (s%"description", .optional .str), (s%"comment", .optional .str),
             (s%"verified_using", .list (anyIntegrityMethod)), (s%"external_reference", .list (.cls s%"ExternalReference")),
             (s%"external_identifier", .list (.cls s%"ExternalIdentifier")), (s%"extension", .optional .str)]
  params := [⟨s%"spdx_id", .str, none⟩, ⟨s%"creation_info", .optional (.cls s%"CreationInfo"), some .none⟩,
             ⟨s%"name", .optional .str, some .none⟩, ⟨s%"summary", .optional .str, some .none⟩,
             ⟨s%"description", .optional .str, some .none⟩, ⟨s%"comment", .optional .str, some .none⟩,
             ⟨s%"verified_using", .optional (.list (anyIntegrityMethod)), some .none⟩,
             ⟨s%"external_reference", .optional (.list (.cls s%"ExternalReference")), some .none⟩,
             ⟨s%"external_identifier", .optional (.list (.cls s%"ExternalIdentifier")), some .none⟩,
             ⟨s%"extension", .optional .str, some .none⟩]
  filled := [(s%"verified_using", .list []), (s%"external_reference", .list []), (s%"external_identifier", .list [])]

/-- spdx3/model/positive_integer_range.py L9-18 -/
def SClass.positiveIntegerRange : SClass where
  name := s%"PositiveIntegerRange"
  fields := [(s%"begin", .int), (s%"end", .int)]
  params := [⟨s%"begin", .int, none⟩, ⟨s%"end", .int, none⟩]
  filled := []

/-- spdx3/model/relationship.py L87-120 -/
def SClass.relationship : SClass where
  name := s%"Relationship"
  fields := [(s%"spdx_id", .str), (s%"creation_info", .optional (.cls s%"CreationInfo")), (s%"name", .optional .str),
             (s%"summary", .optional .str), (s%"description", .optional .str), (s%"comment", .optional .str),
             (s%"verified_using", .list (anyIntegrityMethod)), (s%"external_reference", .list (.cls s%"ExternalReference")),
             (s%"external_identifier", .list (.cls s%"ExternalIdentifier")), (s%"extension", .optional .str), (s%"from_element", .str),
             (s%"to", .list .str), (s%"relationship_type", .cls s%"RelationshipType"),
             (s%"completeness", .optional (.cls s%"RelationshipCompleteness")), (s%"start_time", .optional (.cls s%"datetime")),
             (s%"end_time", .optional (.cls s%"datetime"))]
  params := [⟨s%"spdx_id", .str, none⟩, ⟨s%"from_element", .str, none⟩, ⟨s%"relationship_type", .cls s%"RelationshipType", none⟩,
             ⟨s%"to", .optional (.list .str), some .none⟩, ⟨s%"creation_info", .optional (.cls s%"CreationInfo"), some .none⟩,
             ⟨s%"name", .optional .str, some .none⟩, ⟨s%"summary", .optional .str, some .none⟩,
             ⟨s%"description", .optional .str, some .none⟩, ⟨s%"comment", .optional .str, some .none⟩,
             ⟨s%"verified_using", .optional (.list (anyIntegrityMethod)), some .none⟩,
             ⟨s%"external_reference", .optional (.list (.cls s%"ExternalReference")), some .none⟩,
             ⟨s%"external_identifier", .optional (.list (.cls s%"ExternalIdentifier")), some .none⟩,
             ⟨s%"extension", .optional .str, some .none⟩, ⟨s%"completeness", .optional (.cls s%"RelationshipCompleteness"), some .none⟩,
             ⟨s%"start_time", .optional (.cls s%"datetime"), some .none⟩, ⟨s%"end_time", .optional (.cls s%"datetime"), some .none⟩]
  filled := [(s%"to", .list []), (s%"verified_using", .list []), (s%"external_reference", .list []), (s%"external_identifier", .list [])]

/-- spdx3/model/security/cvss_v2_vuln_assessment_relationship.py L22-57 -/
def SClass.cvssV2VulnAssessmentRelationship : SClass where
  name := s%"CvssV2VulnAssessmentRelationship"
  fields := [(s%"spdx_id", .str), (s%"creation_info", .optional (.cls s%"CreationInfo")), (s%"name", .optional .str),
             (s%"summary", .optional .str), (s%"description", .optional .str), (s%"comment", .optional .str),
             (s%"verified_using", .list (anyIntegrityMethod)), (s%"external_reference", .list (.cls s%"ExternalReference")),
             (s%"external_identifier", .list (.cls s%"ExternalIdentifier")), (s%"extension", .optional .str), (s%"from_element", .str),
             (s%"to", .list .str), (s%"relationship_type", .cls s%"RelationshipType"),
             (s%"completeness", .optional (.cls s%"RelationshipCompleteness")), (s%"start_time", .optional (.cls s%"datetime")),
             (s%"end_time", .optional (.cls s%"datetime")), (s%"assessed_element", .optional .str),
             (s%"published_time", .optional (.cls s%"datetime")), (s%"supplied_by", .optional .str),
             (s%"modified_time", .optional (.cls s%"datetime")), (s%"withdrawn_time", .optional (.cls s%"datetime")), (s%"score", .str),
             (s%"severity", .optional .str), (s%"vector", .optional .str)]
  params := [⟨s%"spdx_id", .str, none⟩, ⟨s%"from_element", .str, none⟩, ⟨s%"relationship_type", .cls s%"RelationshipType", none⟩,
             ⟨s%"to", .list .str, none⟩, ⟨s%"score", .str, none⟩, ⟨s%"creation_info", .optional (.cls s%"CreationInfo"), some .none⟩,
             ⟨s%"name", .optional .str, some .none⟩, ⟨s%"summary", .optional .str, some .none⟩,
             ⟨s%"description", .optional .str, some .none⟩, ⟨s%"comment", .optional .str, some .none⟩,
             ⟨s%"verified_using", .optional (.list (anyIntegrityMethod)), some .none⟩,
             ⟨s%"external_reference", .optional (.list (.cls s%"ExternalReference")), some .none⟩,
             ⟨s%"external_identifier", .optional (.list (.cls s%"ExternalIdentifier")), some .none⟩,
             ⟨s%"extension", .optional .str, some .none⟩, ⟨s%"completeness", .optional (.cls s%"RelationshipCompleteness"), some .none⟩,
             ⟨s%"start_time", .optional (.cls s%"datetime"), some .none⟩, ⟨s%"end_time", .optional (.cls s%"datetime"), some .none⟩,
             ⟨s%"assessed_element", .optional .str, some .none⟩, ⟨s%"published_time", .optional (.cls s%"datetime"), some .none⟩,
             ⟨s%"supplied_by", .optional .str, some .none⟩, ⟨s%"modified_time", .optional (.cls s%"datetime"), some .none⟩,
             ⟨s%"withdrawn_time", .optional (.cls s%"datetime"), some .none⟩, ⟨s%"severity", .optional .str, some .none⟩,
             ⟨s%"vector", .optional .str, some .none⟩]
  filled := [(s%"verified_using", .list []), (s%"external_reference", .list []), (s%"external_identifier", .list [])]

/-- spdx3/model/security/cvss_v3_vuln_assessment_relationship.py L22-57 -/
def SClass.cvssV3VulnAssessmentRelationship : SClass where
  name := s%"CvssV3VulnAssessmentRelationship"
  fields := [(s%"spdx_id", .str), (s%"creation_info", .optional (.cls s%"CreationInfo")), (s%"name", .optional .str),
             (s%"summary", .optional .str), (s%"description", .optional .str), (s%"comment", .optional .str),
             (s%"verified_using", .list (anyIntegrityMethod)), (s%"external_reference", .list (.cls s%"ExternalReference")),
             (s%"external_identifier", .list (.cls s%"ExternalIdentifier")), (s%"extension", .optional .str), (s%"from_element", .str),
             (s%"to", .list .str), (s%"relationship_type", .cls s%"RelationshipType"),
             (s%"completeness", .optional (.cls s%"RelationshipCompleteness")), (s%"start_time", .optional (.cls s%"datetime")),
             (s%"end_time", .optional (.cls s%"datetime")), (s%"assessed_element", .optional .str),
             (s%"published_time", .optional (.cls s%"datetime")), (s%"supplied_by", .optional .str),
             (s%"modified_time", .optional (.cls s%"datetime")), (s%"withdrawn_time", .optional (.cls s%"datetime")), (s%"score", .str),
             (s%"severity", .optional .str), (s%"vector", .optional .str)]
  params := [⟨s%"spdx_id", .str, none⟩, ⟨s%"from_element", .str, none⟩, ⟨s%"to", .list .str, none⟩,
             ⟨s%"relationship_type", .cls s%"RelationshipType", none⟩, ⟨s%"score", .str, none⟩,
             ⟨s%"creation_info", .optional (.cls s%"CreationInfo"), some .none⟩, ⟨s%"name", .optional .str, some .none⟩,
             ⟨s%"summary", .optional .str, some .none⟩, ⟨s%"description", .optional .str, some .none⟩,
             ⟨s%"comment", .optional .str, some .none⟩, ⟨s%"verified_using", .optional (.list (anyIntegrityMethod)), some .none⟩,
             ⟨s%"external_reference", .optional (.list (.cls s%"ExternalReference")), some .none⟩,
             ⟨s%"external_identifier", .optional (.list (.cls s%"ExternalIdentifier")), some .none⟩,
             ⟨s%"extension", .optional .str, some .none⟩, ⟨s%"completeness", .optional (.cls s%"RelationshipCompleteness"), some .none⟩,
             ⟨s%"start_time", .optional (.cls s%"datetime"), some .none⟩, ⟨s%"end_time", .optional (.cls s%"datetime"), some .none⟩,
             ⟨s%"assessed_element", .optional .str, some .none⟩, ⟨s%"published_time", .optional (.cls s%"datetime"), some .none⟩,
             ⟨s%"supplied_by", .optional .str, some .none⟩, ⟨s%"modified_time", .optional (.cls s%"datetime"), some .none⟩,
             ⟨s%"withdrawn_time", .optional (.cls s%"datetime"), some .none⟩, ⟨s%"severity", .optional .str, some .none⟩,
             ⟨s%"vector", .optional .str, some .none⟩]
  filled := [(s%"verified_using", .list []), (s%"external_reference", .list []), (s%"external_identifier", .list [])]

/-- spdx3/model/security/epss_vuln_assessment_relationship.py L22-55 -/
def SClass.epssVulnAssessmentRelationship : SClass where
  name := s%"EpssVulnAssessmentRelationship"
  fields := [(s%"spdx_id", .str), (s%"creation_info", .optional (.cls s%"CreationInfo")), (s%"name", .optional .str),
             (s%"summary", .optional .str), (s%"description", .optional .str), (s%"comment", .optional .str),
             (s%"verified_using", .list (anyIntegrityMethod)), (s%"external_reference", .list (.cls s%"ExternalReference")),
             (s%"external_identifier", .list (.cls s%"ExternalIdentifier")), (s%"extension", .optional .str), (s%"from_element", .str),
             (s%"to", .list .str), (s%"relationship_type", .cls s%"RelationshipType"),
             (s%"completeness", .optional (.cls s%"RelationshipCompleteness")), (s%"start_time", .optional (.cls s%"datetime")),
             (s%"end_time", .optional (.cls s%"datetime")), (s%"assessed_element", .optional .str),
             (s%"published_time", .optional (.cls s%"datetime")), (s%"supplied_by", .optional .str),
             (s%"modified_time", .optional (.cls s%"datetime")), (s%"withdrawn_time", .optional (.cls s%"datetime")),
             (s%"probability", .int), (s%"severity", .optional .str)]
  params := [⟨s%"spdx_id", .str, none⟩, ⟨s%"from_element", .str, none⟩, ⟨s%"relationship_type", .cls s%"RelationshipType", none⟩,
             ⟨s%"to", .list .str, none⟩, ⟨s%"probability", .int, none⟩, ⟨s%"creation_info", .optional (.cls s%"CreationInfo"), some .none⟩,
             ⟨s%"name", .optional .str, some .none⟩, ⟨s%"summary", .optional .str, some .none⟩,
             ⟨s%"description", .optional .str, some .none⟩, ⟨s%"comment", .optional .str, some .none⟩,
             ⟨s%"verified_using", .optional (.list (anyIntegrityMethod)), some .none⟩,
             ⟨s%"external_reference", .optional (.list (.cls s%"ExternalReference")), some .none⟩,
             ⟨s%"external_identifier", .optional (.list (.cls s%"ExternalIdentifier")), some .none⟩,
             ⟨s%"extension", .optional .str, some .none⟩, ⟨s%"completeness", .optional (.cls s%"RelationshipCompleteness"), some .none⟩,
             ⟨s%"start_time", .optional (.cls s%"datetime"), some .none⟩, ⟨s%"end_time", .optional (.cls s%"datetime"), some .none⟩,
             ⟨s%"assessed_element", .optional .str, some .none⟩, ⟨s%"published_time", .optional (.cls s%"datetime"), some .none⟩,
             ⟨s%"supplied_by", .optional .str, some .none⟩, ⟨s%"modified_time", .optional (.cls s%"datetime"), some .none⟩,
             ⟨s%"withdrawn_time", .optional (.cls s%"datetime"), some .none⟩, ⟨s%"severity", .optional .str, some .none⟩]
  filled := [(s%"verified_using", .list []), (s%"external_reference", .list []), (s%"external_identifier", .list [])]

/-- spdx3/model/security/exploit_catalog_vuln_assessment_relationship.py L28-63 -/
def SClass.exploitCatalogVulnAssessmentRelationship : SClass where
  name := s%"ExploitCatalogVulnAssessmentRelationship"
  fields := [(s%"spdx_id", .str), (s%"creation_info", .optional (.cls s%"CreationInfo")), (s%"name", .optional .str),
             (s%"summary", .optional .str), (s%"description", .optional .str), (s%"comment", .optional .str),
             (s%"verified_using", .list (anyIntegrityMethod)), (s%"external_reference", .list (.cls s%"ExternalReference")),
             (s%"external_identifier", .list (.cls s%"ExternalIdentifier")), (s%"extension", .optional .str), (s%"from_element", .str),
             (s%"to", .list .str), (s%"relationship_type", .cls s%"RelationshipType"),
             (s%"completeness", .optional (.cls s%"RelationshipCompleteness")), (s%"start_time", .optional (.cls s%"datetime")),
             (s%"end_time", .optional (.cls s%"datetime")), (s%"assessed_element", .optional .str),
             (s%"published_time", .optional (.cls s%"datetime")), (s%"supplied_by", .optional .str),
             (s%"modified_time", .optional (.cls s%"datetime")), (s%"withdrawn_time", .optional (.cls s%"datetime")),
             (s%"catalog_type", .cls s%"ExploitCatalogType"), (s%"exploited", .bool), (s%"locator", .str)]
  params := [⟨s%"spdx_id", .str, none⟩, ⟨s%"from_element", .str, none⟩, ⟨s%"relationship_type", .cls s%"RelationshipType", none⟩,
             ⟨s%"to", .list .str, none⟩, ⟨s%"catalog_type", .cls s%"ExploitCatalogType", none⟩, ⟨s%"exploited", .bool, none⟩,
             ⟨s%"locator", .str, none⟩, ⟨s%"creation_info", .optional (.cls s%"CreationInfo"), some .none⟩,
             ⟨s%"name", .optional .str, some .none⟩, ⟨s%"summary", .optional .str, some .none⟩,
             ⟨s%"description", .optional .str, some .none⟩, ⟨s%"comment", .optional .str, some .none⟩,
             ⟨s%"verified_using", .optional (.list (anyIntegrityMethod)), some .none⟩,
             ⟨s%"external_reference", .optional (.list (.cls s%"ExternalReference")), some .none⟩,
             ⟨s%"external_identifier", .optional (.list (.cls s%"ExternalIdentifier")), some .none⟩,
             ⟨s%"extension", .optional .str, some .none⟩, ⟨s%"completeness", .optional (.cls s%"RelationshipCompleteness"), some .none⟩,
             ⟨s%"start_time", .optional (.cls s%"datetime"), some .none⟩, ⟨s%"end_time", .optional (.cls s%"datetime"), some .none⟩,
             ⟨s%"assessed_element", .optional .str, some .none⟩, ⟨s%"published_time", .optional (.cls s%"datetime"), some .none⟩,
             ⟨s%"supplied_by", .optional .str, some .none⟩, ⟨s%"modified_time", .optional (.cls s%"datetime"), some .none⟩,
             ⟨s%"withdrawn_time", .optional (.cls s%"datetime"), some .none⟩]
  filled := [(s%"verified_using", .list []), (s%"external_reference", .list []), (s%"external_identifier", .list [])]

/-- spdx3/model/security/ssvc_vuln_assessment_relationship.py L30-61 -/
def SClass.ssvcVulnAssessmentRelationship : SClass where
  name := s%"SsvcVulnAssessmentRelationship"
  fields := [(s%"spdx_id", .str), (s%"creation_info", .optional (.cls s%"CreationInfo")), (s%"name", .optional .str),
             (s%"summary", .optional .str), (s%"description", .optional .str), (s%"comment", .optional .str),
             (s%"verified_using", .list (anyIntegrityMethod)), (s%"external_reference", .list (.cls s%"ExternalReference")),
             (s%"external_identifier", .list (.cls s%"ExternalIdentifier")), (s%"extension", .optional .str), (s%"from_element", .str),
             (s%"to", .list .str), (s%"relationship_type", .cls s%"RelationshipType"),
             (s%"completeness", .optional (.cls s%"RelationshipCompleteness")), (s%"start_time", .optional (.cls s%"datetime")),
             (s%"end_time", .optional (.cls s%"datetime")), (s%"assessed_element", .optional .str),
             (s%"published_time", .optional (.cls s%"datetime")), (s%"supplied_by", .optional .str),
             (s%"modified_time", .optional (.cls s%"datetime")), (s%"withdrawn_time", .optional (.cls s%"datetime")),
             (s%"decision_type", .cls s%"SsvcDecisionType")]
  params := [⟨s%"spdx_id", .str, none⟩, ⟨s%"from_element", .str, none⟩, ⟨s%"relationship_type", .cls s%"RelationshipType", none⟩,
             ⟨s%"to", .list .str, none⟩, ⟨s%"decision_type", .cls s%"SsvcDecisionType", none⟩,
             ⟨s%"creation_info", .optional (.cls s%"CreationInfo"), some .none⟩, ⟨s%"name", .optional .str, some .none⟩,
             ⟨s%"summary", .optional .str, some .none⟩, ⟨s%"description", .optional .str, some .none⟩,
             ⟨s%"comment", .optional .str, some .none⟩, ⟨s%"verified_using", .optional (.list (anyIntegrityMethod)), some .none⟩,
             ⟨s%"external_reference", .optional (.list (.cls s%"ExternalReference")), some .none⟩,
             ⟨s%"external_identifier", .optional (.list (.cls s%"ExternalIdentifier")), some .none⟩,
             ⟨s%"extension", .optional .str, some .none⟩, ⟨s%"completeness", .optional (.cls s%"RelationshipCompleteness"), some .none⟩,
             ⟨s%"start_time", .optional (.cls s%"datetime"), some .none⟩, ⟨s%"end_time", .optional (.cls s%"datetime"), some .none⟩,
             ⟨s%"assessed_element", .optional .str, some .none⟩, ⟨s%"published_time", .optional (.cls s%"datetime"), some .none⟩,
             ⟨s%"supplied_by", .optional .str, some .none⟩, ⟨s%"modified_time", .optional (.cls s%"datetime"), some .none⟩,
             ⟨s%"withdrawn_time", .optional (.cls s%"datetime"), some .none⟩]
  filled := [(s%"verified_using", .list []), (s%"external_reference", .list []), (s%"external_identifier", .list [])]

/-- spdx3/model/security/vex_affected_vuln_assessment_relationship.py L23-59 -/
def SClass.vexAffectedVulnAssessmentRelationship : SClass where
  name := s%"VexAffectedVulnAssessmentRelationship"
  fields := [(s%"spdx_id", .str), (s%"creation_info", .optional (.cls s%"CreationInfo")), (s%"name", .optional .str),
             (s%"summary", .optional .str), (s%"description", .optional .str), (s%"comment", .optional .str),
             (s%"verified_using", .list (anyIntegrityMethod)), (s%"external_reference", .list (.cls s%"ExternalReference")),
             (s%"external_identifier", .list (.cls s%"ExternalIdentifier")), (s%"extension", .optional .str), (s%"from_element", .str),
             (s%"to", .list .str), (s%"relationship_type", .cls s%"RelationshipType"),
             (s%"completeness", .optional (.cls s%"RelationshipCompleteness")), (s%"start_time", .optional (.cls s%"datetime")),
             (s%"end_time", .optional (.cls s%"datetime")), (s%"assessed_element", .optional .str),
             (s%"published_time", .optional (.cls s%"datetime")), (s%"supplied_by", .optional .str),
             (s%"modified_time", .optional (.cls s%"datetime")), (s%"withdrawn_time", .optional (.cls s%"datetime")),
             (s%"vex_version", .optional .str), (s%"status_notes", .optional .str), (s%"action_statement", .optional .str),
             (s%"action_statement_time", .list (.cls s%"datetime"))]
  params := [⟨s%"spdx_id", .str, none⟩, ⟨s%"from_element", .str, none⟩, ⟨s%"relationship_type", .cls s%"RelationshipType", none⟩,
             ⟨s%"to", .list .str, none⟩, ⟨s%"creation_info", .optional (.cls s%"CreationInfo"), some .none⟩,
             ⟨s%"name", .optional .str, some .none⟩, ⟨s%"summary", .optional .str, some .none⟩,
             ⟨s%"description", .optional .str, some .none⟩, ⟨s%"comment", .optional .str, some .none⟩,
             ⟨s%"verified_using", .optional (.list (anyIntegrityMethod)), some .none⟩,
             ⟨s%"external_reference", .optional (.list (.cls s%"ExternalReference")), some .none⟩,
             ⟨s%"external_identifier", .optional (.list (.cls s%"ExternalIdentifier")), some .none⟩,
             ⟨s%"extension", .optional .str, some .none⟩, ⟨s%"completeness", .optional (.cls s%"RelationshipCompleteness"), some .none⟩,
             ⟨s%"start_time", .optional (.cls s%"datetime"), some .none⟩, ⟨s%"end_time", .optional (.cls s%"datetime"), some .none⟩,
             ⟨s%"assessed_element", .optional .str, some .none⟩, ⟨s%"published_time", .optional (.cls s%"datetime"), some .none⟩,
             ⟨s%"supplied_by", .optional .str, some .none⟩, ⟨s%"modified_time", .optional (.cls s%"datetime"), some .none⟩,
             ⟨s%"withdrawn_time", .optional (.cls s%"datetime"), some .none⟩, ⟨s%"vex_version", .optional .str, some .none⟩,
             ⟨s%"status_notes", .optional .str, some .none⟩, ⟨s%"action_statement", .optional .str, some .none⟩,
             ⟨s%"action_statement_time", .optional (.list (.cls s%"datetime")), some .none⟩]
  filled := [(s%"verified_using", .list []), (s%"external_reference", .list []), (s%"external_identifier", .list []),
             (s%"action_statement_time", .list [])]

/-- spdx3/model/security/vex_fixed_vuln_assessment_relationship.py L22-52 -/
def SClass.vexFixedVulnAssessmentRelationship : SClass where
  name := s%"VexFixedVulnAssessmentRelationship"
  fields := [(s%"spdx_id", .str), (s%"creation_info", .optional (.cls s%"CreationInfo")), (s%"name", .optional .str),
             (s%"summary", .optional .str), (s%"description", .optional .str), (s%"comment", .optional .str),
             (s%"verified_using", .list (anyIntegrityMethod)), (s%"external_reference", .list (.cls s%"ExternalReference")),
             (s%"external_identifier", .list (.cls s%"ExternalIdentifier")), (s%"extension", .optional .str), (s%"from_element", .str),
             (s%"to", .list .str), (s%"relationship_type", .cls s%"RelationshipType"),
             (s%"completeness", .optional (.cls s%"RelationshipCompleteness")), (s%"start_time", .optional (.cls s%"datetime")),
             (s%"end_time", .optional (.cls s%"datetime")), (s%"assessed_element", .optional .str),
             (s%"published_time", .optional (.cls s%"datetime")), (s%"supplied_by", .optional .str),
             (s%"modified_time", .optional (.cls s%"datetime")), (s%"withdrawn_time", .optional (.cls s%"datetime")),
             (s%"vex_version", .optional .str), (s%"status_notes", .optional .str)]
  params := [⟨s%"spdx_id", .str, none⟩, ⟨s%"from_element", .str, none⟩, ⟨s%"relationship_type", .cls s%"RelationshipType", none⟩,
             ⟨s%"to", .list .str, none⟩, ⟨s%"creation_info", .optional (.cls s%"CreationInfo"), some .none⟩,
             ⟨s%"name", .optional .str, some .none⟩, ⟨s%"summary", .optional .str, some .none⟩,
             ⟨s%"description", .optional .str, some .none⟩, ⟨s%"comment", .optional .str, some .none⟩,
             ⟨s%"verified_using", .optional (.list (anyIntegrityMethod)), some .none⟩,
             ⟨s%"external_reference", .optional (.list (.cls s%"ExternalReference")), some .none⟩,
             ⟨s%"external_identifier", .optional (.list (.cls s%"ExternalIdentifier")), some .none⟩,
             ⟨s%"extension", .optional .str, some .none⟩, ⟨s%"completeness", .optional (.cls s%"RelationshipCompleteness"), some .none⟩,
             ⟨s%"start_time", .optional (.cls s%"datetime"), some .none⟩, ⟨s%"end_time", .optional (.cls s%"datetime"), some .none⟩,
             ⟨s%"assessed_element", .optional .str, some .none⟩, ⟨s%"published_time", .optional (.cls s%"datetime"), some .none⟩,
             ⟨s%"supplied_by", .optional .str, some .none⟩, ⟨s%"modified_time", .optional (.cls s%"datetime"), some .none⟩,
             ⟨s%"withdrawn_time", .optional (.cls s%"datetime"), some .none⟩, ⟨s%"vex_version", .optional .str, some .none⟩,
             ⟨s%"status_notes", .optional .str, some .none⟩]
  filled := [(s%"verified_using", .list []), (s%"external_reference", .list []), (s%"external_identifier", .list [])]

/-- spdx3/model/security/vex_not_affected_vuln_assessment_relationship.py L31-68 -/
def SClass.vexNotAffectedVulnAssessmentRelationship : SClass where
  name := s%"VexNotAffectedVulnAssessmentRelationship"
  fields := [(s%"spdx_id", .str), (s%"creation_info", .optional (.cls s%"CreationInfo")), (s%"name", .optional .str),
             (s%"summary", .optional .str), (s%"description", .optional .str), (s%"comment", .optional .str),
             (s%"verified_using", .list (anyIntegrityMethod)), (s%"external_reference", .list (.cls s%"ExternalReference")),
             (s%"external_identifier", .list (.cls s%"ExternalIdentifier")), (s%"extension", .optional .str), (s%"from_element", .str),
             (s%"to", .list .str), (s%"relationship_type", .cls s%"RelationshipType"),
             (s%"completeness", .optional (.cls s%"RelationshipCompleteness")), (s%"start_time", .optional (.cls s%"datetime")),
             (s%"end_time", .optional (.cls s%"datetime")), (s%"assessed_element", .optional .str),
             (s%"published_time", .optional (.cls s%"datetime")), (s%"supplied_by", .optional .str),
             (s%"modified_time", .optional (.cls s%"datetime")), (s%"withdrawn_time", .optional (.cls s%"datetime")),
             (s%"vex_version", .optional .str), (s%"status_notes", .optional .str),
             (s%"justification_type", .optional (.cls s%"VexJustificationType")), (s%"impact_statement", .optional .str),
             (s%"impact_statement_time", .optional (.cls s%"datetime"))]
  params := [⟨s%"spdx_id", .str, none⟩, ⟨s%"from_element", .str, none⟩, ⟨s%"relationship_type", .cls s%"RelationshipType", none⟩,
             ⟨s%"to", .list .str, none⟩, ⟨s%"creation_info", .optional (.cls s%"CreationInfo"), some .none⟩,
             ⟨s%"name", .optional .str, some .none⟩, ⟨s%"summary", .optional .str, some .none⟩,
             ⟨s%"description", .optional .str, some .none⟩, ⟨s%"comment", .optional .str, some .none⟩,
             ⟨s%"verified_using", .optional (.list (anyIntegrityMethod)), some .none⟩,
             ⟨s%"external_reference", .optional (.list (.cls s%"ExternalReference")), some .none⟩,
             ⟨s%"external_identifier", .optional (.list (.cls s%"ExternalIdentifier")), some .none⟩,
             ⟨s%"extension", .optional .str, some .none⟩, ⟨s%"completeness", .optional (.cls s%"RelationshipCompleteness"), some .none⟩,
             ⟨s%"start_time", .optional (.cls s%"datetime"), some .none⟩, ⟨s%"end_time", .optional (.cls s%"datetime"), some .none⟩,
             ⟨s%"assessed_element", .optional .str, some .none⟩, ⟨s%"published_time", .optional (.cls s%"datetime"), some .none⟩,
             ⟨s%"supplied_by", .optional .str, some .none⟩, ⟨s%"modified_time", .optional (.cls s%"datetime"), some .none⟩,
             ⟨s%"withdrawn_time", .optional (.cls s%"datetime"), some .none⟩, ⟨s%"vex_version", .optional .str, some .none⟩,
             ⟨s%"status_notes", .optional .str, some .none⟩, ⟨s%"justification_type", .optional (.cls s%"VexJustificationType"), some .none⟩,
             ⟨s%"impact_statement", .optional .str, some .none⟩, ⟨s%"impact_statement_time", .optional (.cls s%"datetime"), some .none⟩]
  filled := [(s%"verified_using", .list []), (s%"external_reference", .list []), (s%"external_identifier", .list [])]

/-- spdx3/model/security/vex_under_investigation_vuln_assessment_relationship.py L22-52 -/
def SClass.vexUnderInvestigationVulnAssessmentRelationship : SClass where
  name := s%"VexUnderInvestigationVulnAssessmentRelationship"
  fields := [(s%"spdx_id", .str), (s%"creation_info", .optional (.cls s%"CreationInfo")), (s%"name", .optional .str),
             (s%"summary", .optional .str), (s%"description", .optional .str), (s%"comment", .optional .str),
             (s%"verified_using", .list (anyIntegrityMethod)), (s%"external_reference", .list (.cls s%"ExternalReference")),
             (s%"external_identifier", .list (.cls s%"ExternalIdentifier")), (s%"extension", .optional .str), (s%"from_element", .str),
             (s%"to", .list .str), (s%"relationship_type", .cls s%"RelationshipType"),
             (s%"completeness", .optional (.cls s%"RelationshipCompleteness")), (s%"start_time", .optional (.cls s%"datetime")),
             (s%"end_time", .optional (.cls s%"datetime")), (s%"assessed_element", .optional .str),
             (s%"published_time", .optional (.cls s%"datetime")), (s%"supplied_by", .optional .str),
             (s%"modified_time", .optional (.cls s%"datetime")), (s%"withdrawn_time", .optional (.cls s%"datetime")),
             (s%"vex_version", .optional .str), (s%"status_notes", .optional .str)]
  params := [⟨s%"spdx_id", .str, none⟩, ⟨s%"from_element", .str, none⟩, ⟨s%"relationship_type", .cls s%"RelationshipType", none⟩,
             ⟨s%"to", .list .str, none⟩, ⟨s%"creation_info", .optional (.cls s%"CreationInfo"), some .none⟩,
             ⟨s%"name", .optional .str, some .none⟩, ⟨s%"summary", .optional .str, some .none⟩,
             ⟨s%"description", .optional .str, some .none⟩, ⟨s%"comment", .optional .str, some .none⟩,
             ⟨s%"verified_using", .optional (.list (anyIntegrityMethod)), some .none⟩,
             ⟨s%"external_reference", .optional (.list (.cls s%"ExternalReference")), some .none⟩,
             ⟨s%"external_identifier", .optional (.list (.cls s%"ExternalIdentifier")), some .none⟩,
             ⟨s%"extension", .optional .str, some .none⟩, ⟨s%"completeness", .optional (.cls s%"RelationshipCompleteness"), some .none⟩,
             ⟨s%"start_time", .optional (.cls s%"datetime"), some .none⟩, ⟨s%"end_time", .optional (.cls s%"datetime"), some .none⟩,
             ⟨s%"assessed_element", .optional .str, some .none⟩, ⟨s%"published_time", .optional (.cls s%"datetime"), some .none⟩,
             ⟨s%"supplied_by", .optional .str, some .none⟩, ⟨s%"modified_time", .optional (.cls s%"datetime"), some .none⟩,
             ⟨s%"withdrawn_time", .optional (.cls s%"datetime"), some .none⟩, ⟨s%"vex_version", .optional .str, some .none⟩,
             ⟨s%"status_notes", .optional .str, some .none⟩]
  filled := [(s%"verified_using", .list []), (s%"external_reference", .list []), (s%"external_identifier", .list [])]

/-- spdx3/model/security/vulnerability.py L14-38 -/
def SClass.vulnerability : SClass where
  name := s%"Vulnerability"
  fields := [(s%"spdx_id", .str), (s%"creation_info", .optional (.cls s%"CreationInfo")), (s%"name", .optional .str),
             (s%"summary", .optional .str), (s%"description", .optional .str), (s%"comment", .optional .str),
             (s%"verified_using", .list (anyIntegrityMethod)), (s%"external_reference", .list (.cls s%"ExternalReference")),
             (s%"external_identifier", .list (.cls s%"ExternalIdentifier")), (s%"extension", .optional .str),
             (s%"published_time", .optional (.cls s%"datetime")), (s%"modified_time", .optional (.cls s%"datetime")),
             (s%"withdrawn_time", .optional (.cls s%"datetime"))]
  params := [⟨s%"spdx_id", .str, none⟩, ⟨s%"creation_info", .optional (.cls s%"CreationInfo"), some .none⟩,
             ⟨s%"name", .optional .str, some .none⟩, ⟨s%"summary", .optional .str, some .none⟩,
             ⟨s%"description", .optional .str, some .none⟩, ⟨s%"comment", .optional .str, some .none⟩,
             ⟨s%"verified_using", .optional (.list (anyIntegrityMethod)), some .none⟩,
             ⟨s%"external_reference", .optional (.list (.cls s%"ExternalReference")), some .none⟩,
             ⟨s%"external_identifier", .optional (.list (.cls s%"ExternalIdentifier")), some .none⟩,
             ⟨s%"extension", .optional .str, some .none⟩, ⟨s%"published_time", .optional (.cls s%"datetime"), some .none⟩,
             ⟨s%"modified_time", .optional (.cls s%"datetime"), some .none⟩, ⟨s%"withdrawn_time", .optional (.cls s%"datetime"), some .none⟩]
  filled := [(s%"verified_using", .list []), (s%"external_reference", .list []), (s%"external_identifier", .list [])]

/-- spdx3/model/software/file.py L17-54 -/
def SClass.file : SClass where
  name := s%"File"
  fields := [(s%"spdx_id", .str), (s%"creation_info", .optional (.cls s%"CreationInfo")), (s%"name", .optional .str),
             (s%"summary", .optional .str), (s%"description", .optional .str), (s%"comment", .optional .str),
             (s%"verified_using", .list (anyIntegrityMethod)), (s%"external_reference", .list (.cls s%"ExternalReference")),
             (s%"external_identifier", .list (.cls s%"ExternalIdentifier")), (s%"extension", .optional .str),
             (s%"originated_by", .list .str), (s%"supplied_by", .list .str), (s%"built_time", .optional (.cls s%"datetime")),
             (s%"release_time", .optional (.cls s%"datetime")), (s%"valid_until_time", .optional (.cls s%"datetime")),
             (s%"standard", .list .str), (s%"content_identifier", .optional .str),
             (s%"primary_purpose", .optional (.cls s%"SoftwarePurpose")), (s%"additional_purpose", .list (.cls s%"SoftwarePurpose")),
             (s%"concluded_license", .optional (anyLicenseField)), (s%"declared_license", .optional (anyLicenseField)),
             (s%"copyright_text", .optional .str), (s%"attribution_text", .optional .str), (s%"content_type", .optional .str)]
  params := [⟨s%"spdx_id", .str, none⟩, ⟨s%"name", .str, none⟩, ⟨s%"creation_info", .optional (.cls s%"CreationInfo"), some .none⟩,
             ⟨s%"summary", .optional .str, some .none⟩, ⟨s%"description", .optional .str, some .none⟩,
             ⟨s%"comment", .optional .str, some .none⟩, ⟨s%"verified_using", .optional (.list (anyIntegrityMethod)), some .none⟩,
             ⟨s%"external_reference", .optional (.list (.cls s%"ExternalReference")), some .none⟩,
             ⟨s%"external_identifier", .optional (.list (.cls s%"ExternalIdentifier")), some .none⟩,
             ⟨s%"extension", .optional .str, some .none⟩, ⟨s%"originated_by", .optional (.list .str), some .none⟩,
             ⟨s%"supplied_by", .optional (.list .str), some .none⟩, ⟨s%"built_time", .optional (.cls s%"datetime"), some .none⟩,
             ⟨s%"release_time", .optional (.cls s%"datetime"), some .none⟩,
             ⟨s%"valid_until_time", .optional (.cls s%"datetime"), some .none⟩, ⟨s%"standard", .optional (.list .str), some .none⟩,
             ⟨s%"content_identifier", .optional .str, some .none⟩, ⟨s%"primary_purpose", .optional (.cls s%"SoftwarePurpose"), some .none⟩,
             ⟨s%"additional_purpose", .optional (.list (.cls s%"SoftwarePurpose")), some .none⟩,
             ⟨s%"concluded_license", .optional (anyLicenseField), some .none⟩,
             ⟨s%"declared_license", .optional (anyLicenseField), some .none⟩, ⟨s%"copyright_text", .optional .str, some .none⟩,
             ⟨s%"attribution_text", .optional .str, some .none⟩, ⟨s%"content_type", .optional .str, some .none⟩]
  filled := [(s%"verified_using", .list []), (s%"external_reference", .list []), (s%"external_identifier", .list []),
             (s%"originated_by", .list []), (s%"supplied_by", .list []), (s%"standard", .list []), (s%"additional_purpose", .list [])]

/-- spdx3/model/software/package.py L17-62 -/
def SClass.package : SClass where
  name := s%"Package"
  fields := [(s%"spdx_id", .str), (s%"creation_info", .optional (.cls s%"CreationInfo")), (s%"name", .optional .str),
             (s%"summary", .optional .str), (s%"description", .optional .str), (s%"comment", .optional .str),
             (s%"verified_using", .list (anyIntegrityMethod)), (s%"external_reference", .list (.cls s%"ExternalReference")),
             (s%"external_identifier", .list (.cls s%"ExternalIdentifier")), (s%"extension", .optional .str),
             (s%"originated_by", .list .str), (s%"supplied_by", .list .str), (s%"built_time", .optional (.cls s%"datetime")),
             (s%"release_time", .optional (.cls s%"datetime")), (s%"valid_until_time", .optional (.cls s%"datetime")),
             (s%"standard", .list .str), (s%"content_identifier", .optional .str),
             (s%"primary_purpose", .optional (.cls s%"SoftwarePurpose")), (s%"additional_purpose", .list (.cls s%"SoftwarePurpose")),
             (s%"concluded_license", .optional (anyLicenseField)), (s%"declared_license", .optional (anyLicenseField)),
             (s%"copyright_text", .optional .str), (s%"attribution_text", .optional .str), (s%"package_version", .optional .str),
             (s%"download_location", .optional .str), (s%"package_url", .optional .str), (s%"homepage", .optional .str),
             (s%"source_info", .optional .str)]
  params := [⟨s%"spdx_id", .str, none⟩, ⟨s%"name", .str, none⟩, ⟨s%"creation_info", .optional (.cls s%"CreationInfo"), some .none⟩,
             ⟨s%"summary", .optional .str, some .none⟩, ⟨s%"description", .optional .str, some .none⟩,
             ⟨s%"comment", .optional .str, some .none⟩, ⟨s%"verified_using", .optional (.list (anyIntegrityMethod)), some .none⟩,
             ⟨s%"external_reference", .optional (.list (.cls s%"ExternalReference")), some .none⟩,
             ⟨s%"external_identifier", .optional (.list (.cls s%"ExternalIdentifier")), some .none⟩,
             ⟨s%"extension", .optional .str, some .none⟩, ⟨s%"originated_by", .optional (.list .str), some .none⟩,
             ⟨s%"supplied_by", .optional (.list .str), some .none⟩, ⟨s%"built_time", .optional (.cls s%"datetime"), some .none⟩,
             ⟨s%"release_time", .optional (.cls s%"datetime"), some .none⟩,
             ⟨s%"valid_until_time", .optional (.cls s%"datetime"), some .none⟩, ⟨s%"standard", .optional (.list .str), some .none⟩,
             ⟨s%"content_identifier", .optional .str, some .none⟩, ⟨s%"primary_purpose", .optional (.cls s%"SoftwarePurpose"), some .none⟩,
             ⟨s%"additional_purpose", .optional (.list (.cls s%"SoftwarePurpose")), some .none⟩,
             ⟨s%"concluded_license", .optional (anyLicenseField), some .none⟩,
             ⟨s%"declared_license", .optional (anyLicenseField), some .none⟩, ⟨s%"copyright_text", .optional .str, some .none⟩,
             ⟨s%"attribution_text", .optional .str, some .none⟩, ⟨s%"package_version", .optional .str, some .none⟩,
             ⟨s%"download_location", .optional .str, some .none⟩, ⟨s%"package_url", .optional .str, some .none⟩,
             ⟨s%"homepage", .optional .str, some .none⟩, ⟨s%"source_info", .optional .str, some .none⟩]
  filled := [(s%"verified_using", .list []), (s%"external_reference", .list []), (s%"external_identifier", .list []),
             (s%"originated_by", .list []), (s%"supplied_by", .list []), (s%"standard", .list []), (s%"additional_purpose", .list [])]

/-- spdx3/model/software/sbom.py L32-62 -/
def SClass.sbom : SClass where
  name := s%"Sbom"
  fields := [(s%"spdx_id", .str), (s%"creation_info", .optional (.cls s%"CreationInfo")), (s%"name", .optional .str),
             (s%"summary", .optional .str), (s%"description", .optional .str), (s%"comment", .optional .str),
             (s%"verified_using", .list (anyIntegrityMethod)), (s%"external_reference", .list (.cls s%"ExternalReference")),
             (s%"external_identifier", .list (.cls s%"ExternalIdentifier")), (s%"extension", .optional .str), (s%"element", .list .str),
             (s%"root_element", .list .str), (s%"namespaces", .list (.cls s%"NamespaceMap")), (s%"imports", .list (.cls s%"ExternalMap")),
             (s%"context", .optional .str), (s%"sbom_type", .list (.cls s%"SBOMType"))]
  params := [⟨s%"spdx_id", .str, none⟩, ⟨s%"element", .list .str, none⟩, ⟨s%"root_element", .list .str, none⟩,
             ⟨s%"creation_info", .optional (.cls s%"CreationInfo"), some .none⟩, ⟨s%"name", .optional .str, some .none⟩,
             ⟨s%"summary", .optional .str, some .none⟩, ⟨s%"description", .optional .str, some .none⟩,
             ⟨s%"comment", .optional .str, some .none⟩, ⟨s%"verified_using", .optional (.list (anyIntegrityMethod)), some .none⟩,
             ⟨s%"external_reference", .optional (.list (.cls s%"ExternalReference")), some .none⟩,
             ⟨s%"external_identifier", .optional (.list (.cls s%"ExternalIdentifier")), some .none⟩,
             ⟨s%"extension", .optional .str, some .none⟩, ⟨s%"namespaces", .optional (.list (.cls s%"NamespaceMap")), some .none⟩,
             ⟨s%"imports", .optional (.list (.cls s%"ExternalMap")), some .none⟩, ⟨s%"context", .optional .str, some .none⟩,
             ⟨s%"sbom_type", .optional (.list (.cls s%"SBOMType")), some .none⟩]
  filled := [(s%"verified_using", .list []), (s%"external_reference", .list []), (s%"external_identifier", .list []),
             (s%"namespaces", .list []), (s%"imports", .list []), (s%"sbom_type", .list [])]

/-- spdx3/model/software/snippet.py L18-57 -/
def SClass.snippet : SClass where
  name := s%"Snippet"
  fields := [(s%"spdx_id", .str), (s%"creation_info", .optional (.cls s%"CreationInfo")), (s%"name", .optional .str),
             (s%"summary", .optional .str), (s%"description", .optional .str), (s%"comment", .optional .str),
             (s%"verified_using", .list (anyIntegrityMethod)), (s%"external_reference", .list (.cls s%"ExternalReference")),
             (s%"external_identifier", .list (.cls s%"ExternalIdentifier")), (s%"extension", .optional .str),
             (s%"originated_by", .list .str), (s%"supplied_by", .list .str), (s%"built_time", .optional (.cls s%"datetime")),
             (s%"release_time", .optional (.cls s%"datetime")), (s%"valid_until_time", .optional (.cls s%"datetime")),
             (s%"standard", .list .str), (s%"content_identifier", .optional .str),
             (s%"primary_purpose", .optional (.cls s%"SoftwarePurpose")), (s%"additional_purpose", .list (.cls s%"SoftwarePurpose")),
             (s%"concluded_license", .optional (anyLicenseField)), (s%"declared_license", .optional (anyLicenseField)),
             (s%"copyright_text", .optional .str), (s%"attribution_text", .optional .str),
             (s%"byte_range", .optional (.cls s%"PositiveIntegerRange")), (s%"line_range", .optional (.cls s%"PositiveIntegerRange"))]
  params := [⟨s%"spdx_id", .str, none⟩, ⟨s%"creation_info", .optional (.cls s%"CreationInfo"), some .none⟩,
             ⟨s%"name", .optional .str, some .none⟩, ⟨s%"summary", .optional .str, some .none⟩,
             ⟨s%"description", .optional .str, some .none⟩, ⟨s%"comment", .optional .str, some .none⟩,
             ⟨s%"verified_using", .optional (.list (anyIntegrityMethod)), some .none⟩,
             ⟨s%"external_reference", .optional (.list (.cls s%"ExternalReference")), some .none⟩,
             ⟨s%"external_identifier", .optional (.list (.cls s%"ExternalIdentifier")), some .none⟩,
             ⟨s%"extension", .optional .str, some .none⟩, ⟨s%"originated_by", .optional (.list .str), some .none⟩,
             ⟨s%"supplied_by", .optional (.list .str), some .none⟩, ⟨s%"built_time", .optional (.cls s%"datetime"), some .none⟩,
             ⟨s%"release_time", .optional (.cls s%"datetime"), some .none⟩,
             ⟨s%"valid_until_time", .optional (.cls s%"datetime"), some .none⟩, ⟨s%"standard", .optional (.list .str), some .none⟩,
             ⟨s%"content_identifier", .optional .str, some .none⟩, ⟨s%"primary_purpose", .optional (.cls s%"SoftwarePurpose"), some .none⟩,
             ⟨s%"additional_purpose", .optional (.list (.cls s%"SoftwarePurpose")), some .none⟩,
             ⟨s%"concluded_license", .optional (anyLicenseField), some .none⟩,
             ⟨s%"declared_license", .optional (anyLicenseField), some .none⟩, ⟨s%"copyright_text", .optional .str, some .none⟩,
             ⟨s%"attribution_text", .optional .str, some .none⟩, ⟨s%"byte_range", .optional (.cls s%"PositiveIntegerRange"), some .none⟩,
             ⟨s%"line_range", .optional (.cls s%"PositiveIntegerRange"), some .none⟩]
  filled := [(s%"verified_using", .list []), (s%"external_reference", .list []), (s%"external_identifier", .list []),
             (s%"originated_by", .list []), (s%"supplied_by", .list []), (s%"standard", .list []), (s%"additional_purpose", .list [])]

/-- spdx3/model/software/software_dependency_relationship.py L39-69 -/
def SClass.softwareDependencyRelationship : SClass where
  name := s%"SoftwareDependencyRelationship"
  fields := [(s%"spdx_id", .str), (s%"creation_info", .optional (.cls s%"CreationInfo")), (s%"name", .optional .str),
             (s%"summary", .optional .str), (s%"description", .optional .str), (s%"comment", .optional .str),
             (s%"verified_using", .list (anyIntegrityMethod)), (s%"external_reference", .list (.cls s%"ExternalReference")),
             (s%"external_identifier", .list (.cls s%"ExternalIdentifier")), (s%"extension", .optional .str), (s%"from_element", .str),
             (s%"to", .list .str), (s%"relationship_type", .cls s%"RelationshipType"),
             (s%"completeness", .optional (.cls s%"RelationshipCompleteness")), (s%"start_time", .optional (.cls s%"datetime")),
             (s%"end_time", .optional (.cls s%"datetime")), (s%"scope", .optional (.cls s%"LifecycleScopeType")),
             (s%"software_linkage", .optional (.cls s%"SoftwareDependencyLinkType")),
             (s%"conditionality", .optional (.cls s%"DependencyConditionalityType"))]
  params := [⟨s%"spdx_id", .str, none⟩, ⟨s%"from_element", .str, none⟩, ⟨s%"relationship_type", .cls s%"RelationshipType", none⟩,
             ⟨s%"to", .optional (.list .str), some .none⟩, ⟨s%"creation_info", .optional (.cls s%"CreationInfo"), some .none⟩,
             ⟨s%"name", .optional .str, some .none⟩, ⟨s%"summary", .optional .str, some .none⟩,
             ⟨s%"description", .optional .str, some .none⟩, ⟨s%"comment", .optional .str, some .none⟩,
             ⟨s%"verified_using", .optional (.list (anyIntegrityMethod)), some .none⟩,
             ⟨s%"external_reference", .optional (.list (.cls s%"ExternalReference")), some .none⟩,
             ⟨s%"external_identifier", .optional (.list (.cls s%"ExternalIdentifier")), some .none⟩,
             ⟨s%"extension", .optional .str, some .none⟩, ⟨s%"completeness", .optional (.cls s%"RelationshipCompleteness"), some .none⟩,
             ⟨s%"start_time", .optional (.cls s%"datetime"), some .none⟩, ⟨s%"end_time", .optional (.cls s%"datetime"), some .none⟩,
             ⟨s%"scope", .optional (.cls s%"LifecycleScopeType"), some .none⟩,
             ⟨s%"software_linkage", .optional (.cls s%"SoftwareDependencyLinkType"), some .none⟩,
             ⟨s%"conditionality", .optional (.cls s%"DependencyConditionalityType"), some .none⟩]
  filled := [(s%"to", .list []), (s%"verified_using", .list []), (s%"external_reference", .list []), (s%"external_identifier", .list [])]

/-- spdx3/model/software_agent.py L12-29 -/
def SClass.softwareAgent : SClass where
  name := s%"SoftwareAgent"
  fields := [(s%"spdx_id", .str), (s%"creation_info", .optional (.cls s%"CreationInfo")), (s%"name", .optional .str),
             (s%"summary", .optional .str), (s%"description", .optional .str), (s%"comment", .optional .str),
             (s%"verified_using", .list (anyIntegrityMethod)), (s%"external_reference", .list (.cls s%"ExternalReference")),
             (s%"external_identifier", .list (.cls s%"ExternalIdentifier")), (s%"extension", .optional .str)]
  params := [⟨s%"spdx_id", .str, none⟩, ⟨s%"creation_info", .optional (.cls s%"CreationInfo"), some .none⟩,
             ⟨s%"name", .optional .str, some .none⟩, ⟨s%"summary", .optional .str, some .none⟩,
             ⟨s%"description", .optional .str, some .none⟩, ⟨s%"comment", .optional .str, some .none⟩,
             ⟨s%"verified_using", .optional (.list (anyIntegrityMethod)), some .none⟩,
             ⟨s%"external_reference", .optional (.list (.cls s%"ExternalReference")), some .none⟩,
             ⟨s%"external_identifier", .optional (.list (.cls s%"ExternalIdentifier")), some .none⟩,
             ⟨s%"extension", .optional .str, some .none⟩]
  filled := [(s%"verified_using", .list []), (s%"external_reference", .list []), (s%"external_identifier", .list [])]

/-- spdx3/model/spdx_document.py L20-47 -/
def SClass.spdxDocument : SClass where
  name := s%"SpdxDocument"
  fields := [(s%"spdx_id", .str), (s%"creation_info", .optional (.cls s%"CreationInfo")), (s%"name", .optional .str),
             (s%"summary", .optional .str), (s%"description", .optional .str), (s%"comment", .optional .str),
             (s%"verified_using", .list (anyIntegrityMethod)), (s%"external_reference", .list (.cls s%"ExternalReference")),
             (s%"external_identifier", .list (.cls s%"ExternalIdentifier")), (s%"extension", .optional .str), (s%"element", .list .str),
             (s%"root_element", .list .str), (s%"namespaces", .list (.cls s%"NamespaceMap")), (s%"imports", .list (.cls s%"ExternalMap")),
             (s%"context", .optional .str)]
  params := [⟨s%"spdx_id", .str, none⟩, ⟨s%"name", .str, none⟩, ⟨s%"element", .list .str, none⟩, ⟨s%"root_element", .list .str, none⟩,
             ⟨s%"creation_info", .optional (.cls s%"CreationInfo"), some .none⟩, ⟨s%"summary", .optional .str, some .none⟩,
             ⟨s%"description", .optional .str, some .none⟩, ⟨s%"comment", .optional .str, some .none⟩,
             ⟨s%"verified_using", .optional (.list (anyIntegrityMethod)), some .none⟩,
             ⟨s%"external_reference", .optional (.list (.cls s%"ExternalReference")), some .none⟩,
             ⟨s%"external_identifier", .optional (.list (.cls s%"ExternalIdentifier")), some .none⟩,
             ⟨s%"extension", .optional .str, some .none⟩, ⟨s%"namespaces", .optional (.list (.cls s%"NamespaceMap")), some .none⟩,
             ⟨s%"imports", .optional (.list (.cls s%"ExternalMap")), some .none⟩, ⟨s%"context", .optional .str, some .none⟩]
  filled := [(s%"verified_using", .list []), (s%"external_reference", .list []), (s%"external_identifier", .list []),
             (s%"namespaces", .list []), (s%"imports", .list [])]

/-- spdx3/model/tool.py L12-29 -/
def SClass.tool : SClass where
  name := s%"Tool"
  fields := [(s%"spdx_id", .str), (s%"creation_info", .optional (.cls s%"CreationInfo")), (s%"name", .optional .str),
             (s%"summary", .optional .str), (s%"description", .optional .str), (s%"comment", .optional .str),
             (s%"verified_using", .list (anyIntegrityMethod)), (s%"external_reference", .list (.cls s%"ExternalReference")),
             (s%"external_identifier", .list (.cls s%"ExternalIdentifier")), (s%"extension", .optional .str)]
  params := [⟨s%"spdx_id", .str, none⟩, ⟨s%"creation_info", .optional (.cls s%"CreationInfo"), some .none⟩,
             ⟨s%"name", .optional .str, some .none⟩, ⟨s%"summary", .optional .str, some .none⟩,
             ⟨s%"description", .optional .str, some .none⟩, ⟨s%"comment", .optional .str, some .none⟩,
             ⟨s%"verified_using", .optional (.list (anyIntegrityMethod)), some .none⟩,
             ⟨s%"external_reference", .optional (.list (.cls s%"ExternalReference")), some .none⟩,
             ⟨s%"external_identifier", .optional (.list (.cls s%"ExternalIdentifier")), some .none⟩,
             ⟨s%"extension", .optional .str, some .none⟩]
  filled := [(s%"verified_using", .list []), (s%"external_reference", .list []), (s%"external_identifier", .list [])]

/-- All classes of spdx3/model that can be instantiated. -/
def sClasses : List SClass :=
  [.agent, .aIPackage, .annotation, .bom, .build,
   .bundle, .creationInfo, .dataset, .externalIdentifier, .externalMap,
   .externalReference, .hash, .conjunctiveLicenseSet, .customLicense, .customLicenseAddition,
   .disjunctiveLicenseSet, .listedLicense, .listedLicenseException, .noAssertionLicense, .noneLicense,
   .orLaterOperator, .withAdditionOperator, .lifecycleScopedRelationship, .namespaceMap, .organization,
   .person, .positiveIntegerRange, .relationship, .cvssV2VulnAssessmentRelationship, .cvssV3VulnAssessmentRelationship,
   .epssVulnAssessmentRelationship, .exploitCatalogVulnAssessmentRelationship, .ssvcVulnAssessmentRelationship, .vexAffectedVulnAssessmentRelationship, .vexFixedVulnAssessmentRelationship,
   .vexNotAffectedVulnAssessmentRelationship, .vexUnderInvestigationVulnAssessmentRelationship, .vulnerability, .file, .package,
   .sbom, .snippet, .softwareDependencyRelationship, .softwareAgent, .spdxDocument,
   .tool]

end Spdx
