import Verif.Model.Console
/-
What the console shows of an element of an SPDX 3 payload: a table of the attributes shown for each class, and the text of a value.
-/
namespace Spdx.Spec
open Spdx

/-- The value of an attribute of an instance. -/
def field (attrs : List (Str × Py3)) (a : Str) : Py3 := (attrs.lookup ('_' :: a)).getD .none

/-- The text of a value; nothing is shown of a value that is `None`, empty, zero or `False`. -/
def shownText (tag : Str) : Py3 → Option Str
  | .bool true => some s%"True"
  | .int i => if i = 0 then none else some (intStr i)
  | .str s => if s = [] then none else some s
  | .version s => some s
  | .datetime d => some (datetimeText d)
  | .enum name => some name
  | .list l => if l = [] then none else some (joinWith s%", " (l.filterMap Py3.asStr))
  | .dict l => if l = [] then none else some (joinWith s%", " (l.map (dictEntry tag)))
  | .obj _ [(_, .int i), (_, .int j)] =>
    some (s%"PositiveIntegerRange(begin=" ++ intStr i ++ s%", end=" ++ intStr j ++ s%")")
  | _ => none

/-- The line for an attribute. -/
def line (indent : Bool) (label : Str) (v : Py3) : List ConsoleItem := ((shownText label v).map (ConsoleItem.value indent label)).toList

/-- The items of a list. -/
def itemsOf : Py3 → List Py3
  | .list l => l
  | _ => []

/-- The attributes of an instance. -/
def attrsOf : Py3 → List (Str × Py3)
  | .obj _ attrs => attrs
  | _ => []

/-- The heading of a list that has items. -/
def headed (heading : Str) (l : Py3) : List ConsoleItem := if itemsOf l = [] then [] else [.raw heading]

/-- The three lines of a hash. -/
def hashLines (h : Py3) : List ConsoleItem :=
  [s%"algorithm", s%"hash_value", s%"comment"].flatMap fun a => line true a (field (attrsOf h) a)

/-- A line per attribute of a nested instance. -/
def nestedLines (names : List Str) (v : Py3) : List ConsoleItem := names.flatMap fun a => line false a (field (attrsOf v) a)

/-- The names of enumeration members. -/
def enumNames (v : Py3) : List Str := (itemsOf v).filterMap fun x => match x with
  | .enum n => some n
  | _ => none

/-- The time of creation, in UTC. -/
def createdText : Py3 → Py3
  | .datetime d => match datetimeToIso d with
    | some s => .str s
    | none => .none
  | _ => .none

/-- The lines of the creation information. -/
def infoLines (c : Py3) : List ConsoleItem :=
  if c.truthy = false then []
  else
    .raw s%"# Creation Information\n" ::
      (line true s%"specVersion" (field (attrsOf c) s%"spec_version") ++
       line true s%"created" (createdText (field (attrsOf c) s%"created")) ++
       (itemsOf (field (attrsOf c) s%"created_by")).flatMap (line true s%"created by") ++
       (itemsOf (field (attrsOf c) s%"created_using")).flatMap (line true s%"created using") ++
       line true s%"profile" (.list ((enumNames (field (attrsOf c) s%"profile")).map .str)) ++
       line true s%"data license" (field (attrsOf c) s%"data_license") ++
       line true s%"comment" (field (attrsOf c) s%"comment"))

/-- One entry of the table: what is shown of one attribute. -/
inductive Row where
  /-- one line, unless there is nothing to show -/
  | line (label attr : Str)
  /-- the creation information -/
  | info
  /-- the hashes, after a heading -/
  | hashes (heading attr : Str)
  /-- the external references, after a heading -/
  | references
  /-- the external identifiers, after a heading -/
  | identifiers
  /-- the identifiers of the elements of a collection, on one line even if there are none -/
  | elements
  /-- the namespaces, after a heading -/
  | namespaces
  /-- the imports, after a heading -/
  | imports

/-- The attribute an entry shows. -/
def Row.attr : Row → Str
  | .line _ a => a
  | .info => s%"creation_info"
  | .hashes _ a => a
  | .references => s%"external_reference"
  | .identifiers => s%"external_identifier"
  | .elements => s%"element"
  | .namespaces => s%"namespaces"
  | .imports => s%"imports"

/-- What an entry shows of the value of its attribute. -/
def Row.shows (v : Py3) : Row → List ConsoleItem
  | .line label _ => Spec.line false label v
  | .info => infoLines v
  | .hashes heading _ => headed heading v ++ (itemsOf v).flatMap hashLines
  | .references => headed s%"External Reference\n" v ++
      (itemsOf v).flatMap (nestedLines [s%"external_reference_type", s%"locator", s%"content_type", s%"comment"])
  | .identifiers => headed s%"External Identifier\n" v ++
      (itemsOf v).flatMap (nestedLines [s%"external_identifier_type", s%"identifier", s%"comment", s%"identifier_locator", s%"issuing_authority"])
  | .elements => [.value false s%"elements" (joinWith s%", " ((itemsOf v).filterMap Py3.asStr))]
  | .namespaces => headed s%"# Namespaces\n" v ++ (itemsOf v).flatMap (nestedLines [s%"prefix", s%"namespace"])
  | .imports => headed s%"# Imports\n" v ++ (itemsOf v).flatMap fun m =>
      Spec.line false s%"external_id" (field (attrsOf m) s%"external_id") ++
      headed s%"verified using\n" (field (attrsOf m) s%"verified_using") ++
      (itemsOf (field (attrsOf m) s%"verified_using")).flatMap hashLines ++
      Spec.line false s%"location_hint" (field (attrsOf m) s%"location_hint")

/-- A line labelled with the name of the attribute. -/
def own (names : List Str) : List Row := names.map fun a => .line a a

/-- every element -/
def elementRows : List Row :=
  [.line s%"SPDXID" s%"spdx_id", .line s%"name" s%"name", .info, .line s%"summary" s%"summary", .line s%"description" s%"description",
   .line s%"comment" s%"comment", .hashes s%"verified using:\n" s%"verified_using", .references, .identifiers]

/-- every artifact -/
def artifactRows : List Row :=
  elementRows ++ own [s%"originated_by", s%"supplied_by", s%"built_time", s%"release_time", s%"valid_until_time", s%"standard"]

/-- packages -/
def packageRows : List Row :=
  artifactRows ++ own [s%"package_version", s%"download_location", s%"package_url", s%"homepage", s%"source_info"]

/-- collections -/
def bundleRows : List Row := elementRows ++ [.elements, .namespaces, .imports, .line s%"context" s%"context"]

/-- relationships -/
def relationshipRows : List Row :=
  elementRows ++ own [s%"from_element", s%"to", s%"relationship_type", s%"completeness", s%"start_time", s%"end_time"]

/-- The table: class, heading, what is shown. -/
def consoleTable : List (Str × Str × List Row) :=
  [(s%"Annotation", s%"## Annotation\n", elementRows ++ own [s%"annotation_type", s%"subject", s%"content_type", s%"statement"]),
   (s%"Relationship", s%"## Relationship\n", relationshipRows),
   (s%"SoftwareDependencyRelationship", s%"## SoftwareDependencyRelationship\n",
      relationshipRows ++ own [s%"scope", s%"software_linkage", s%"conditionality"]),
   (s%"Bundle", s%"## Bundle\n", bundleRows),
   (s%"SpdxDocument", s%"## SPDX Document\n", bundleRows),
   (s%"Bom", s%"## Bom\n", bundleRows),
   (s%"File", s%"## File\n", artifactRows ++ own [s%"content_type"]),
   (s%"Package", s%"## Package\n", packageRows),
   (s%"Snippet", s%"## Snippet\n", artifactRows ++ own [s%"byte_range", s%"line_range"]),
   (s%"Sbom", s%"## Sbom\n", bundleRows),
   (s%"Person", s%"## Person\n", elementRows),
   (s%"Organization", s%"## Organization\n", elementRows),
   (s%"SoftwareAgent", s%"## SoftwareAgent\n", elementRows),
   (s%"Tool", s%"## Tool\n", elementRows),
   (s%"AIPackage", s%"## AI Package\n", packageRows ++
      own [s%"energy_consumption", s%"standard_compliance", s%"limitation", s%"type_of_model", s%"information_about_training",
        s%"information_about_application", s%"hyperparameter", s%"model_data_preprocessing", s%"model_explainability",
        s%"sensitive_personal_information", s%"metric_decision_threshold", s%"metric", s%"domain", s%"autonomy_type",
        s%"safety_risk_assessment"]),
   (s%"Dataset", s%"## Dataset\n", packageRows ++
      own [s%"dataset_type", s%"data_collection_process", s%"intended_use", s%"dataset_size", s%"dataset_noise", s%"data_preprocessing",
        s%"sensor", s%"known_bias", s%"sensitive_personal_information", s%"anonymization_method_used", s%"confidentiality_level",
        s%"dataset_update_mechanism", s%"dataset_availability"]),
   (s%"Build", s%"## Build\n", elementRows ++ own [s%"build_type", s%"build_id", s%"config_source_entrypoint", s%"config_source_uri"] ++
      [.hashes s%"config_source_digest" s%"config_source_digest"] ++
      own [s%"parameters", s%"build_start_time", s%"build_end_time", s%"environment"])]

/-- The block of an element. -/
def block (heading : Str) (rows : List Row) (attrs : List (Str × Py3)) : List ConsoleItem :=
  .raw heading :: (rows.flatMap (fun r => r.shows (field attrs r.attr)) ++ [.raw s%"\n"])

/-! ### Well-typed values, as the type checks of the constructors leave them -/

/-- A value of a single-line attribute: a text, number, date, enumeration member, dict, range or list of texts. -/
def PlainValue : Py3 → Prop
  | .list l => ∀ x ∈ l, ∃ s, x = .str s
  | .obj cls attrs => cls = s%"PositiveIntegerRange" ∧ ∃ i j, attrs = [(s%"_begin", .int i), (s%"_end", .int j)]
  | .tuple _ | .other _ => False
  | _ => True

/-- An instance of a class of the model, all of whose attributes have plain values, except those named. -/
def Instance (cls : Str) (except : List Str) (v : Py3) : Prop :=
  ∃ attrs names, v = .obj cls attrs ∧ (cls, names) ∈ ldClasses ∧ attrs.map (·.1) = names.map ('_' :: ·) ∧
    ∀ a ∈ names, a ∉ except → PlainValue (field attrs a)

/-- A list of such. -/
def ListOf (P : Py3 → Prop) (v : Py3) : Prop := ∃ l, v = .list l ∧ ∀ x ∈ l, P x

/-- Creation information: the dates are those UTC can represent. -/
def InfoValue (v : Py3) : Prop :=
  Instance s%"CreationInfo" [s%"spec_version", s%"created", s%"created_by", s%"profile", s%"created_using"] v ∧
    (∃ s, s ≠ [] ∧ field (attrsOf v) s%"spec_version" = .version s) ∧
    (∃ d s, field (attrsOf v) s%"created" = .datetime d ∧ datetimeToIso d = some s) ∧
    ListOf (fun x => ∃ s, x = .str s) (field (attrsOf v) s%"created_by") ∧
    ListOf (fun x => ∃ s, x = .str s) (field (attrsOf v) s%"created_using") ∧
    ListOf (fun x => ∃ n, x = .enum n) (field (attrsOf v) s%"profile")

/-- The values an entry of the table is about. -/
def Row.Ok (v : Py3) : Row → Prop
  | .line _ _ => PlainValue v
  | .info => v = .none ∨ InfoValue v
  | .hashes _ _ => ListOf (Instance s%"Hash" []) v
  | .references => ListOf (Instance s%"ExternalReference" []) v
  | .identifiers => ListOf (Instance s%"ExternalIdentifier" []) v
  | .elements => ListOf (fun x => ∃ s, x = .str s) v
  | .namespaces => ListOf (Instance s%"NamespaceMap" []) v
  | .imports => ListOf (fun m => Instance s%"ExternalMap" [s%"verified_using"] m ∧
      ListOf (Instance s%"Hash" []) (field (attrsOf m) s%"verified_using")) v

/-- An element that can be printed: an instance of one of the classes in the table, its attributes holding values of their types. -/
structure Printable (cls : Str) (attrs : List (Str × Py3)) (heading : Str) (rows : List Row) : Prop where
  listed : (cls, heading, rows) ∈ consoleTable
  isClass : ∃ names, (cls, names) ∈ ldClasses ∧ attrs.map (·.1) = names.map ('_' :: ·)
  typed : ∀ r ∈ rows, r.Ok (field attrs r.attr)

end Spdx.Spec
