import Verif.Model.Spdx3Classes
/-
What the arguments of a call mean, for C80.
-/
namespace Spdx.Spec

/-- The argument given for a parameter: by its position, or else by name. -/
def argument (params : List SParam) (pos : List PyVal) (kw : List (Str × PyVal)) (name : Str) : Option PyVal :=
  match (params.findIdx? (·.name = name)).bind (pos[·]?) with
  | some v => some v
  | none => (kw.find? (·.1 = name)).map (·.2)

/-- A call that fits the parameters: not too many positions; every keyword names, once, a parameter that is not given by position; and every
    parameter without a default is given. -/
structure ProperCall (params : List SParam) (pos : List PyVal) (kw : List (Str × PyVal)) : Prop where
  positions : pos.length ≤ params.length
  known : ∀ k ∈ kw.map (·.1), ∃ i, pos.length ≤ i ∧ (params[i]?).map (·.name) = some k
  once : (kw.map (·.1)).Nodup
  complete : ∀ p ∈ params, p.default = none → (argument params pos kw p.name).isSome

/-- The value for a field: the argument, or the default of the parameter; where the constructor says so, `None` becomes an empty list or
    dictionary. -/
def fieldValue (c : SClass) (pos : List PyVal) (kw : List (Str × PyVal)) (name : Str) : PyVal :=
  match (argument c.params pos kw name).getD (((c.params.find? (·.name = name)).bind (·.default)).getD .none), c.filled.find? (·.1 = name) with
  | .none, some (_, empty) => empty
  | v, _ => v

/-- The object after some assignments to its attributes, accepted or rejected. -/
def afterwards (pick : List PyVal → Nat) (c : SClass) (obj : Dict Str PyVal) (steps : List (Str × PyVal)) : Dict Str PyVal :=
  steps.foldl (fun o s => (c.assign pick o s.1 s.2).1) obj

/-- The arguments that the constructors of the SPDX 3 classes cannot do without, as they stand in the signatures of the `__init__` methods
    (classes as in `spdx3/model/`). -/
def requiredArguments : List (Str × List Str) :=
  [(s%"Agent", [s%"spdx_id"]),
   (s%"AIPackage", [s%"spdx_id", s%"name", s%"supplied_by", s%"download_location", s%"package_version", s%"primary_purpose", s%"release_time"]),
   (s%"Annotation", [s%"spdx_id", s%"annotation_type", s%"subject"]), (s%"Bom", [s%"spdx_id", s%"element", s%"root_element"]),
   (s%"Build", [s%"spdx_id", s%"build_type"]), (s%"Bundle", [s%"spdx_id", s%"element", s%"root_element"]),
   (s%"CreationInfo", [s%"spec_version", s%"created", s%"created_by", s%"profile"]),
   (s%"Dataset", [s%"spdx_id", s%"name", s%"originated_by", s%"download_location", s%"primary_purpose", s%"built_time", s%"release_time", s%"dataset_type"]),
   (s%"ExternalIdentifier", [s%"external_identifier_type", s%"identifier"]), (s%"ExternalMap", [s%"external_id"]), (s%"ExternalReference", []),
   (s%"Hash", [s%"algorithm", s%"hash_value"]), (s%"ConjunctiveLicenseSet", [s%"member"]),
   (s%"CustomLicense", [s%"license_id", s%"license_name", s%"license_text"]),
   (s%"CustomLicenseAddition", [s%"addition_id", s%"addition_name", s%"addition_text"]), (s%"DisjunctiveLicenseSet", [s%"member"]),
   (s%"ListedLicense", [s%"license_id", s%"license_name", s%"license_text"]),
   (s%"ListedLicenseException", [s%"addition_id", s%"addition_name", s%"addition_text"]), (s%"NoAssertionLicense", []), (s%"NoneLicense", []),
   (s%"OrLaterOperator", [s%"subject_license"]), (s%"WithAdditionOperator", [s%"subject_license", s%"subject_addition"]),
   (s%"LifecycleScopedRelationship", [s%"spdx_id", s%"from_element", s%"relationship_type"]), (s%"NamespaceMap", [s%"prefix", s%"namespace"]),
   (s%"Organization", [s%"spdx_id"]), (s%"Person", [s%"spdx_id"]), (s%"PositiveIntegerRange", [s%"begin", s%"end"]),
   (s%"Relationship", [s%"spdx_id", s%"from_element", s%"relationship_type"]),
   (s%"CvssV2VulnAssessmentRelationship", [s%"spdx_id", s%"from_element", s%"relationship_type", s%"to", s%"score"]),
   (s%"CvssV3VulnAssessmentRelationship", [s%"spdx_id", s%"from_element", s%"to", s%"relationship_type", s%"score"]),
   (s%"EpssVulnAssessmentRelationship", [s%"spdx_id", s%"from_element", s%"relationship_type", s%"to", s%"probability"]),
   (s%"ExploitCatalogVulnAssessmentRelationship", [s%"spdx_id", s%"from_element", s%"relationship_type", s%"to", s%"catalog_type", s%"exploited", s%"locator"]),
   (s%"SsvcVulnAssessmentRelationship", [s%"spdx_id", s%"from_element", s%"relationship_type", s%"to", s%"decision_type"]),
   (s%"VexAffectedVulnAssessmentRelationship", [s%"spdx_id", s%"from_element", s%"relationship_type", s%"to"]),
   (s%"VexFixedVulnAssessmentRelationship", [s%"spdx_id", s%"from_element", s%"relationship_type", s%"to"]),
   (s%"VexNotAffectedVulnAssessmentRelationship", [s%"spdx_id", s%"from_element", s%"relationship_type", s%"to"]),
   (s%"VexUnderInvestigationVulnAssessmentRelationship", [s%"spdx_id", s%"from_element", s%"relationship_type", s%"to"]),
   (s%"Vulnerability", [s%"spdx_id"]), (s%"File", [s%"spdx_id", s%"name"]), (s%"Package", [s%"spdx_id", s%"name"]),
   (s%"Sbom", [s%"spdx_id", s%"element", s%"root_element"]), (s%"Snippet", [s%"spdx_id"]),
   (s%"SoftwareDependencyRelationship", [s%"spdx_id", s%"from_element", s%"relationship_type"]), (s%"SoftwareAgent", [s%"spdx_id"]),
   (s%"SpdxDocument", [s%"spdx_id", s%"name", s%"element", s%"root_element"]), (s%"Tool", [s%"spdx_id"])]

end Spdx.Spec
