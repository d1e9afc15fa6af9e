import Verif.Model.JsonLd
import Verif.Py.Sort
/-
spdx3/writer/console/**: printing a payload.  A writer is modelled by the list of the steps it takes: each step writes some characters or
raises an exception (`none`), after which no further step is taken.
-/
namespace Spdx

/-- What one `write` puts out. -/
inductive ConsoleItem where
  /-- `text_output.write(text)` -/
  | raw (s : Str)
  /-- console.py L23-27 `write_and_possibly_indent(f"{tag}: {value}", indent, out)` -/
  | value (indent : Bool) (tag text : Str)
deriving DecidableEq, Repr

/-- The characters written (console.py L23-27). -/
def ConsoleItem.render : ConsoleItem → Str
  | .raw s => s
  | .value true tag text => s%"  " ++ tag ++ s%": " ++ text ++ s%"\n"
  | .value false tag text => tag ++ s%": " ++ text ++ s%"\n"

/-- A writer's steps; `none` raises. -/
abbrev ConsoleSteps := List (Option ConsoleItem)

/-- What is written before an exception, if any, is raised. -/
def ConsoleSteps.written (w : ConsoleSteps) : List ConsoleItem := (w.takeWhile Option.isSome).filterMap id

/-- The text written. -/
def ConsoleSteps.text (w : ConsoleSteps) : Str := w.written.flatMap ConsoleItem.render

/-- Does the writer raise? -/
def ConsoleSteps.raises (w : ConsoleSteps) : Bool := w.any Option.isNone

/-- `"%06d"` for numbers below a million -/
def fmt6 (n : Nat) : Str := fmt2 (n / 10000) ++ fmt4 (n % 10000)

/-- the offset of an aware datetime as `isoformat` shows it -/
def offsetText (off : Int) : Str :=
  let a := off.natAbs
  (if off < 0 then s%"-" else s%"+") ++ fmt2 (a / 3600) ++ s%":" ++ fmt2 (a % 3600 / 60) ++
    (if a % 60 = 0 then [] else s%":" ++ fmt2 (a % 60))

/-- `str` of a datetime: `isoformat(sep=" ")`; offsets have no fractions of a second -/
def datetimeText (d : DateTime) : Str :=
  fmt4 d.year ++ s%"-" ++ fmt2 d.month ++ s%"-" ++ fmt2 d.day ++ s%" " ++ fmt2 d.hour ++ s%":" ++ fmt2 d.minute ++ s%":" ++ fmt2 d.second ++
    (if d.micro = 0 then [] else s%"." ++ fmt6 d.micro) ++
    (match d.tz with
      | none => []
      | some off => offsetText off)

/-- `f"{value}"`.  `R` stands for the texts of values the modelled classes do not hold in an attribute that is printed this way : instances other than those of `PositiveIntegerRange`, whose `__repr__` is the one `dataclass` generates,
    enumeration members inside other values, lists and dicts. -/
def pyText (R : Py3 → Str) : Py3 → Str
  | .none => s%"None"
  | .bool true => s%"True"
  | .bool false => s%"False"
  | .int i => intStr i
  | .str s => s
  | .version s => s
  | .datetime d => datetimeText d
  | .obj cls [(a, .int i), (b, .int j)] =>
    cls ++ s%"(" ++ a.drop 1 ++ s%"=" ++ intStr i ++ s%", " ++ b.drop 1 ++ s%"=" ++ intStr j ++ s%")"
  | v => R v

/-- the text, if the value is one -/
def Py3.asStr : Py3 → Option Str
  | .str s => some s
  | _ => Option.none

/-- console.py L17: the value of a dict in its text -/
def dictEntry (tag : Str) (e : Str × Option Str) : Str :=
  tag ++ s%": (" ++ e.1 ++ s%": " ++ (match e.2 with
    | none => s%"None"
    | some s => s) ++ s%")"

/-- console.py L9-20 `write_value` -/
def consoleValue (R : Py3 → Str) (tag : Str) (v : Py3) (indent : Bool := false) : ConsoleSteps :=
  if v.truthy = false then []
  else match v with
    | .dict l => [some (.value indent tag (joinWith s%", " (l.map (dictEntry tag))))]
    | .list l => match l.mapM Py3.asStr with
      | some ss => [some (.value indent tag (joinWith s%", " ss))]
      | none => [none]
    | .enum name => [some (.value indent tag name)]
    | v => [some (.value indent tag (pyText R v))]

/-- `getattr(value, name)`, then something with the result; `AttributeError` if there is no such attribute -/
def Py3.attr (v : Py3) (name : Str) : Option Py3 :=
  match v with
  | .obj _ attrs => attrs.lookup ('_' :: name)
  | _ => Option.none

/-- the same, then something with the result -/
def withAttr (v : Py3) (name : Str) (f : Py3 → ConsoleSteps) : ConsoleSteps :=
  match v.attr name with
  | some x => f x
  | none => [none]

/-- `for item in value`: the attributes concerned hold lists (`check_types_and_set_values`) -/
def forItems (v : Py3) (f : Py3 → ConsoleSteps) : ConsoleSteps :=
  match v with
  | .list l => l.flatMap f
  | _ => [none]

/-- tagvalue_writer_helper_functions.py L54-56 `write_optional_heading` -/
def consoleHeading (v : Py3) (heading : Str) : ConsoleSteps := if v.truthy then [some (.raw heading)] else []

/-- `for property_name in <Class>.__annotations__.keys(): write_value(property_name, getattr(value, property_name), text_output)` -/
def ownAttrs (R : Py3 → Str) (names : List Str) (v : Py3) : ConsoleSteps := names.flatMap fun n => withAttr v n (consoleValue R n)

/-- hash_writer.py L11-16 `write_hash` with `heading=False`, integrity_method_writer.py L10-11 -/
def consoleHash (R : Py3 → Str) (h : Py3) : ConsoleSteps :=
  withAttr h s%"algorithm" (consoleValue R s%"algorithm" · true) ++ withAttr h s%"hash_value" (consoleValue R s%"hash_value" · true) ++
    withAttr h s%"comment" (consoleValue R s%"comment" · true)

/-- creation_info_writer.py L16-17: a text per item -/
def consoleEach (R : Py3 → Str) (tag : Str) (v : Py3) : ConsoleSteps := forItems v fun x => consoleValue R tag x true

/-- creation_info_writer.py L14: `write_value("created", datetime_to_iso_string(…))`; `OverflowError` where UTC cannot hold the date -/
def consoleCreated (R : Py3 → Str) : Py3 → ConsoleSteps
  | .datetime d => match datetimeToIso d with
    | some s => consoleValue R s%"created" (.str s) true
    | none => [none]
  | _ => [none]

/-- `profile.name` -/
def enumText : Py3 → Option Py3
  | .enum n => some (.str n)
  | _ => none

/-- creation_info_writer.py L20: the names of the profiles -/
def consoleProfile (R : Py3 → Str) : Py3 → ConsoleSteps
  | .list l => match l.mapM enumText with
    | some ns => consoleValue R s%"profile" (.list ns) true
    | none => [none]
  | _ => [none]

/-- creation_info_writer.py L11-21 `write_creation_info` -/
def consoleInfo (R : Py3 → Str) (c : Py3) : ConsoleSteps :=
  some (.raw s%"# Creation Information\n") ::
    (withAttr c s%"spec_version" (fun v => consoleValue R s%"specVersion" (.str (pyText R v)) true) ++
     withAttr c s%"created" (consoleCreated R) ++
     withAttr c s%"created_by" (consoleEach R s%"created by") ++
     withAttr c s%"created_using" (consoleEach R s%"created using") ++
     withAttr c s%"profile" (consoleProfile R) ++
     withAttr c s%"data_license" (consoleValue R s%"data license" · true) ++
     withAttr c s%"comment" (consoleValue R s%"comment" · true))

/-- spdx3/model/external_reference.py L54-60, the annotations -/
def externalReferenceAttrs : List Str := [s%"external_reference_type", s%"locator", s%"content_type", s%"comment"]

/-- spdx3/model/external_identifier.py L27-34, the annotations -/
def externalIdentifierAttrs : List Str :=
  [s%"external_identifier_type", s%"identifier", s%"comment", s%"identifier_locator", s%"issuing_authority"]

/-- element_writer.py L15-34 `write_element_properties`; external_reference_writer.py L10-12, external_identifier_writer.py L10-12 -/
def consoleElement (R : Py3 → Str) (e : Py3) : ConsoleSteps :=
  withAttr e s%"spdx_id" (consoleValue R s%"SPDXID") ++ withAttr e s%"name" (consoleValue R s%"name") ++
  withAttr e s%"creation_info" (fun c => if c.truthy then consoleInfo R c else []) ++
  withAttr e s%"summary" (consoleValue R s%"summary") ++ withAttr e s%"description" (consoleValue R s%"description") ++
  withAttr e s%"comment" (consoleValue R s%"comment") ++
  withAttr e s%"verified_using" (fun l => consoleHeading l s%"verified using:\n" ++ forItems l (consoleHash R)) ++
  withAttr e s%"external_reference" (fun l => consoleHeading l s%"External Reference\n" ++ forItems l (ownAttrs R externalReferenceAttrs)) ++
  withAttr e s%"external_identifier" (fun l => consoleHeading l s%"External Identifier\n" ++ forItems l (ownAttrs R externalIdentifierAttrs))

/-- spdx3/model/artifact.py L14-21, the annotations -/
def artifactAttrs : List Str :=
  [s%"originated_by", s%"supplied_by", s%"built_time", s%"release_time", s%"valid_until_time", s%"standard"]

/-- artifact_writer.py L11-15 `write_artifact_properties` -/
def consoleArtifact (R : Py3 → Str) (e : Py3) : ConsoleSteps := consoleElement R e ++ ownAttrs R artifactAttrs e

/-- spdx3/model/namespace_map.py, the annotations -/
def namespaceMapAttrs : List Str := [s%"prefix", s%"namespace"]

/-- external_map_writer.py L12-20 `write_external_map` -/
def consoleMap (R : Py3 → Str) (m : Py3) : ConsoleSteps :=
  withAttr m s%"external_id" (consoleValue R s%"external_id") ++
  withAttr m s%"verified_using" (fun l => consoleHeading l s%"verified using\n" ++ forItems l (consoleHash R)) ++
  withAttr m s%"location_hint" (consoleValue R s%"location_hint")

/-- spdx_collection_writer.py L15: `f"elements: {', '.join(collection.element)}\n"` -/
def consoleElements : Py3 → ConsoleSteps
  | .list l => match l.mapM Py3.asStr with
    | some ss => [some (.value false s%"elements" (joinWith s%", " ss))]
    | none => [none]
  | _ => [none]

/-- spdx_collection_writer.py L13-21 `write_collection`; namespace_map_writer.py L10-12 -/
def consoleCollection (R : Py3 → Str) (e : Py3) : ConsoleSteps :=
  consoleElement R e ++ withAttr e s%"element" consoleElements ++
  withAttr e s%"namespaces" (fun l => consoleHeading l s%"# Namespaces\n" ++ forItems l (ownAttrs R namespaceMapAttrs)) ++
  withAttr e s%"imports" (fun l => consoleHeading l s%"# Imports\n" ++ forItems l (consoleMap R))

/-- bundle_writer.py L11-15 `write_bundle` without its heading -/
def consoleBundle (R : Py3 → Str) (e : Py3) : ConsoleSteps := consoleCollection R e ++ withAttr e s%"context" (consoleValue R s%"context")

/-- spdx3/model/relationship.py L86-94, the annotations -/
def relationshipAttrs : List Str := [s%"from_element", s%"to", s%"relationship_type", s%"completeness", s%"start_time", s%"end_time"]

/-- relationship_writer.py L11-16 `write_relationship` without its heading -/
def consoleRelationship (R : Py3 → Str) (e : Py3) : ConsoleSteps := consoleElement R e ++ ownAttrs R relationshipAttrs e

/-- spdx3/model/software/package.py, the annotations -/
def packageAttrs : List Str := [s%"package_version", s%"download_location", s%"package_url", s%"homepage", s%"source_info"]

/-- package_writer.py L11-22 `write_package` without its heading; the case of `package_purpose` (L17-21) never applies -/
def consolePackage (R : Py3 → Str) (e : Py3) : ConsoleSteps := consoleArtifact R e ++ ownAttrs R packageAttrs e

/-- spdx3/model/ai/ai_package.py, the annotations -/
def aiPackageAttrs : List Str :=
  [s%"energy_consumption", s%"standard_compliance", s%"limitation", s%"type_of_model", s%"information_about_training",
   s%"information_about_application", s%"hyperparameter", s%"model_data_preprocessing", s%"model_explainability",
   s%"sensitive_personal_information", s%"metric_decision_threshold", s%"metric", s%"domain", s%"autonomy_type", s%"safety_risk_assessment"]

/-- spdx3/model/dataset/dataset.py, the annotations -/
def datasetAttrs : List Str :=
  [s%"dataset_type", s%"data_collection_process", s%"intended_use", s%"dataset_size", s%"dataset_noise", s%"data_preprocessing", s%"sensor",
   s%"known_bias", s%"sensitive_personal_information", s%"anonymization_method_used", s%"confidentiality_level",
   s%"dataset_update_mechanism", s%"dataset_availability"]

/-- spdx3/model/build/build.py, the annotations -/
def buildAttrs : List Str :=
  [s%"build_type", s%"build_id", s%"config_source_entrypoint", s%"config_source_uri", s%"config_source_digest", s%"parameters",
   s%"build_start_time", s%"build_end_time", s%"environment"]

/-- build_writer.py L17-24; the heading of the digests has no newline -/
def buildAttr (R : Py3 → Str) (e : Py3) (n : Str) : ConsoleSteps :=
  if n = s%"config_source_digest" then withAttr e n fun l => consoleHeading l s%"config_source_digest" ++ forItems l (consoleHash R)
  else withAttr e n (consoleValue R n)

/-- payload_writer.py L39-58 `MAP_CLASS_TO_WRITE_METHOD`: the method for a class, with the heading it writes; `none`: `KeyError`.  The
    cases `file_purpose` (file_writer.py L16-20) and `snippet_purpose` (snippet_writer.py L16-20) never apply. -/
def consoleWriter (R : Py3 → Str) (cls : Str) (e : Py3) : Option ConsoleSteps :=
  -- annotation_writer.py L11-16
  if cls = s%"Annotation" then
    some (some (.raw s%"## Annotation\n") :: (consoleElement R e ++ ownAttrs R [s%"annotation_type", s%"subject", s%"content_type", s%"statement"] e))
  else if cls = s%"Relationship" then some (some (.raw s%"## Relationship\n") :: consoleRelationship R e)
  -- software_dependency_relationship_writer.py L12-20, lifecycle_scoped_relationship_writer.py L12-20
  else if cls = s%"SoftwareDependencyRelationship" then
    some (some (.raw s%"## SoftwareDependencyRelationship\n") ::
      (consoleRelationship R e ++ ownAttrs R [s%"scope"] e ++ ownAttrs R [s%"software_linkage", s%"conditionality"] e))
  else if cls = s%"Bundle" then some (some (.raw s%"## Bundle\n") :: consoleBundle R e)
  -- spdx_document_writer.py L10-12
  else if cls = s%"SpdxDocument" then some (some (.raw s%"## SPDX Document\n") :: consoleBundle R e)
  -- bom_writer.py L10-13
  else if cls = s%"Bom" then some (some (.raw s%"## Bom\n") :: consoleBundle R e)
  -- file_writer.py L11-21
  else if cls = s%"File" then some (some (.raw s%"## File\n") :: (consoleArtifact R e ++ ownAttrs R [s%"content_type"] e))
  else if cls = s%"Package" then some (some (.raw s%"## Package\n") :: consolePackage R e)
  -- snippet_writer.py L11-21
  else if cls = s%"Snippet" then
    some (some (.raw s%"## Snippet\n") :: (consoleArtifact R e ++ ownAttrs R [s%"byte_range", s%"line_range"] e))
  -- sbom_writer.py L10-12
  else if cls = s%"Sbom" then some (some (.raw s%"## Sbom\n") :: consoleBundle R e)
  -- agent_writer.py L10-18
  else if cls = s%"Person" then some (some (.raw s%"## Person\n") :: consoleElement R e)
  else if cls = s%"Organization" then some (some (.raw s%"## Organization\n") :: consoleElement R e)
  else if cls = s%"SoftwareAgent" then some (some (.raw s%"## SoftwareAgent\n") :: consoleElement R e)
  -- tool_writer.py L18-21
  else if cls = s%"Tool" then some (some (.raw s%"## Tool\n") :: consoleElement R e)
  -- ai_package_writer.py L11-16
  else if cls = s%"AIPackage" then some (some (.raw s%"## AI Package\n") :: (consolePackage R e ++ ownAttrs R aiPackageAttrs e))
  -- dataset_writer.py L11-16
  else if cls = s%"Dataset" then some (some (.raw s%"## Dataset\n") :: (consolePackage R e ++ ownAttrs R datasetAttrs e))
  -- build_writer.py L13-24
  else if cls = s%"Build" then some (some (.raw s%"## Build\n") :: (consoleElement R e ++ buildAttrs.flatMap (buildAttr R e)))
  else none

/-- payload_writer.py L63-65: one element -/
def consoleBlock (R : Py3 → Str) (e : Py3) : ConsoleSteps :=
  match e with
  | .obj cls _ => match consoleWriter R cls e with
    | some w => w ++ [some (.raw s%"\n")]
    | none => [none]
  | _ => [none]

/-- payload_writer.py L61-65 `write_payload` -/
def consolePayload (R : Py3 → Str) (es : List Py3) : ConsoleSteps := es.flatMap (consoleBlock R)

end Spdx
