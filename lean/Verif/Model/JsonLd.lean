import Verif.Model.LdClasses
import Verif.Model.Spdx3
import Verif.Model.Casing
import Verif.Model.DateTime
import Verif.Py.Json
/- spdx3/writer/json_ld: conversion of a payload to JSON-LD. -/
namespace Spdx

/-- A Python value the converter meets: an element of a payload or something reachable from it.  The dicts of the model's classes map
    texts to texts or `None`.  `other` stands for a value of any other type (a float); all that matters is whether it is truthy. -/
inductive Py3 where
  | none
  | bool (b : Bool)
  | int (i : Int)
  | str (s : Str)
  | tuple (l : List Int)
  | version (s : Str)
  | datetime (d : DateTime)
  | enum (name : Str)
  | list (l : List Py3)
  | dict (l : List (Str × Option Str))
  | other (truthy : Bool)
  | obj (cls : Str) (attrs : List (Str × Py3))

/-- `bool(value)`; enumeration members, dates, versions and instances of the model's classes are always true -/
def Py3.truthy : Py3 → Bool
  | .none => false
  | .bool b => b
  | .int i => i ≠ 0
  | .str s => !s.isEmpty
  | .tuple l => !l.isEmpty
  | .version _ | .datetime _ | .enum _ | .obj _ _ => true
  | .list l => !l.isEmpty
  | .dict l => !l.isEmpty
  | .other b => b

/-- `TypeError` of `vars(value)`, `OverflowError` of a date before year 1 or after 9999, `IndexError` of an empty name -/
inductive LdError where
  | vars | date | name
deriving DecidableEq, Repr

/-- json_ld_converter.py L68-73: the key of an attribute -/
def ldKey (attr : Str) : Except LdError Str :=
  if attr = s%"_spdx_id" then .ok s%"@id"
  else if attr = s%"_from_element" then .ok s%"from"
  else match snakeToCamel attr with
    | some k => .ok k
    | .none => .error .name

mutual
/-- json_ld_converter.py L27-77 `_convert_to_json_ld_dict`; the alternative flags are never set by a caller -/
def toJsonLd (v : Py3) : Except LdError Json :=
  if v.truthy = false then .ok .null
  else match v with
    | .none => .ok .null
    | .bool b => .ok (.bool b)
    | .int i => .ok (.num i)
    | .str s => .ok (.str s)
    | .tuple l => .ok (.arr (l.map .num))
    | .version s => .ok (.str s)
    | .datetime d => match datetimeToIso d with
      | some s => .ok (.str s)
      | .none => .error .date
    | .enum name => match snakeToCamel name with
      | some s => .ok (.str s)
      | .none => .error .name
    | .list l => match toJsonLdItems l with
      | .ok js => .ok (.arr js)
      | .error e => .error e
    | .dict _ | .other _ => .error .vars
    | .obj cls attrs => match toJsonLdAttrs [(s%"@type", .str cls)] attrs with
      | .ok d => .ok (.obj d)
      | .error e => .error e
/-- json_ld_converter.py L44 -/
def toJsonLdItems : List Py3 → Except LdError (List Json)
  | [] => .ok []
  | v :: vs =>
    if v.truthy then match toJsonLd v with
      | .ok j => match toJsonLdItems vs with
        | .ok js => .ok (j :: js)
        | .error e => .error e
      | .error e => .error e
    else toJsonLdItems vs
/-- json_ld_converter.py L58-75 -/
def toJsonLdAttrs (d : Dict Str Json) : List (Str × Py3) → Except LdError (Dict Str Json)
  | [] => .ok d
  | (a, v) :: rest =>
    if v.truthy then match ldKey a with
      | .ok k => match toJsonLd v with
        | .ok j => toJsonLdAttrs (d.set k j) rest
        | .error e => .error e
      | .error e => .error e
    else toJsonLdAttrs d rest
end

/-- json_ld_converter.py L17-24 `convert_payload_to_json_ld_list_of_elements` -/
def payloadToJsonLd : List Py3 → Except LdError (List Json)
  | [] => .ok []
  | e :: es => match toJsonLd e with
    | .ok j => match payloadToJsonLd es with
      | .ok js => .ok (j :: js)
      | .error e => .error e
    | .error e => .error e

/-- the value of an attribute that is not given to the constructor: an empty list, an empty dict or `None` -/
def ldDefault (cls attr : Str) : Py3 :=
  if ((ldLists.lookup cls).getD []).contains attr then .list []
  else if ((ldDicts.lookup cls).getD []).contains attr then .dict []
  else .none

/-- the attributes an instance of a class has after its `__init__` -/
def ldObject (cls : Str) (given : List (Str × Py3)) : Py3 :=
  .obj cls (((ldClasses.lookup cls).getD []).map fun a => ('_' :: a, (given.lookup a).getD (ldDefault cls a)))

/-- `member.name` -/
def RelationshipType3.name : RelationshipType3 → Str
  | .AMENDS => s%"AMENDS" | .ANCESTOR => s%"ANCESTOR" | .CONTAINS => s%"CONTAINS" | .COPY => s%"COPY"
  | .DEPENDS_ON => s%"DEPENDS_ON" | .DESCRIBES => s%"DESCRIBES" | .DOCUMENTATION => s%"DOCUMENTATION" | .EXAMPLE => s%"EXAMPLE"
  | .EXPANDED_FROM_ARCHIVE => s%"EXPANDED_FROM_ARCHIVE" | .FILE_ADDED => s%"FILE_ADDED" | .FILE_DELETED => s%"FILE_DELETED"
  | .FILE_MODIFIED => s%"FILE_MODIFIED" | .GENERATES => s%"GENERATES" | .METAFILE => s%"METAFILE" | .OTHER => s%"OTHER"
  | .PATCH => s%"PATCH" | .REQUIREMENT_FOR => s%"REQUIREMENT_FOR" | .SPECIFICATION_FOR => s%"SPECIFICATION_FOR" | .TEST => s%"TEST"
  | .TEST_CASE => s%"TEST_CASE" | .VARIANT => s%"VARIANT"

/-- `member.name` -/
def Completeness.name : Completeness → Str
  | .INCOMPLETE => s%"INCOMPLETE" | .COMPLETE => s%"COMPLETE" | .NOASSERTION => s%"NOASSERTION"

/-- `member.name` -/
def Scope.name : Scope → Str
  | .DESIGN => s%"DESIGN" | .BUILD => s%"BUILD" | .DEVELOPMENT => s%"DEVELOPMENT" | .TEST => s%"TEST" | .RUNTIME => s%"RUNTIME"
  | .OTHER => s%"OTHER"

/-- `member.name` -/
def Linkage.name : Linkage → Str
  | .STATIC => s%"STATIC" | .DYNAMIC => s%"DYNAMIC" | .TOOL => s%"TOOL" | .OTHER => s%"OTHER"

/-- `member.name` -/
def Conditionality.name : Conditionality → Str
  | .OPTIONAL => s%"OPTIONAL" | .REQUIRED => s%"REQUIRED" | .PROVIDED => s%"PROVIDED" | .PREREQUISITE => s%"PREREQUISITE"
  | .OTHER => s%"OTHER"

/-- `member.name` -/
def ExternalIdentifierType.name : ExternalIdentifierType → Str
  | .CPE22 => s%"CPE22" | .CPE23 => s%"CPE23" | .EMAIL => s%"EMAIL" | .GITOID => s%"GITOID" | .PURL => s%"PURL"
  | .SWHID => s%"SWHID" | .SWID => s%"SWID"

/-- `member.name` -/
def ExternalReferenceType.name : ExternalReferenceType → Str
  | .SECURITY_ADVISORY => s%"SECURITY_ADVISORY" | .SECURITY_FIX => s%"SECURITY_FIX"

/-- instances of spdx3/model/hash.py `Hash` -/
def Hash3.toPy (h : Hash3) : Py3 := ldObject s%"Hash" [(s%"algorithm", .enum h.algorithm.name), (s%"hash_value", .str h.hashValue)]

/-- an optional text -/
def optPy : Option Str → Py3
  | .none => .none
  | some s => .str s

/-- an optional date -/
def optDatePy : Option DateTime → Py3
  | .none => .none
  | some d => .datetime d

/-- a list of texts -/
def strsPy (l : List Str) : Py3 := .list (l.map .str)

/-- instances of `ExternalIdentifier` -/
def ExternalIdentifier3.toPy (i : ExternalIdentifier3) : Py3 :=
  ldObject s%"ExternalIdentifier"
    [(s%"external_identifier_type", .enum i.type.name), (s%"identifier", .str i.identifier), (s%"comment", optPy i.comment)]

/-- instances of `ExternalReference` -/
def ExternalReference3.toPy (r : ExternalReference3) : Py3 :=
  ldObject s%"ExternalReference"
    [(s%"external_reference_type", .enum r.type.name), (s%"locator", strsPy r.locator), (s%"comment", optPy r.comment)]

/-- instances of `CreationInfo`; bump_from_spdx2/creation_info.py L38-44 -/
def CreationInfo3.toPy (c : CreationInfo3) : Py3 :=
  ldObject s%"CreationInfo"
    [(s%"spec_version", .version s%"3.0.0"), (s%"created", .datetime c.created), (s%"created_by", strsPy c.createdBy),
     (s%"profile", .list [.enum s%"CORE", .enum s%"SOFTWARE", .enum s%"LICENSING"]), (s%"data_license", .str c.dataLicense),
     (s%"created_using", strsPy c.createdUsing)]

/-- an optional `CreationInfo` -/
def optInfoPy : Option CreationInfo3 → Py3
  | .none => .none
  | some c => c.toPy

/-- instances of `ExternalMap` -/
def ExternalMap3.toPy (m : ExternalMap3) : Py3 :=
  ldObject s%"ExternalMap"
    [(s%"external_id", .str m.externalId), (s%"verified_using", .list (m.verifiedUsing.map Hash3.toPy)),
     (s%"defining_document", optPy m.definingDocument)]

/-- instances of `NamespaceMap` -/
def NamespaceMap3.toPy (m : NamespaceMap3) : Py3 :=
  ldObject s%"NamespaceMap" [(s%"prefix", .str m.nsPrefix), (s%"namespace", .str m.namespaceIri)]

/-- instances of `PositiveIntegerRange` -/
def rangePy (r : Int × Int) : Py3 := ldObject s%"PositiveIntegerRange" [(s%"begin", .int r.1), (s%"end", .int r.2)]

/-- an optional range -/
def optRangePy : Option (Int × Int) → Py3
  | .none => .none
  | some r => rangePy r

/-- an optional enumeration member -/
def optEnumPy (name : α → Str) : Option α → Py3
  | .none => .none
  | some m => .enum (name m)

/-- the name of the class of an agent: bump_from_spdx2/actor.py -/
def agentClass : ActorType → Str
  | .PERSON => s%"Person"
  | .ORGANIZATION => s%"Organization"
  | .TOOL => s%"Tool"

/-- the attributes both kinds of relationship have -/
def Relationship3.given (r : Relationship3) : List (Str × Py3) :=
  [(s%"spdx_id", .str r.spdxId), (s%"from_element", .str r.fromElement), (s%"relationship_type", .enum r.relationshipType.name),
   (s%"to", strsPy r.to), (s%"comment", optPy r.comment), (s%"completeness", optEnumPy Completeness.name r.completeness)]

/-- the class of an element of a payload and the attributes the migration gives it -/
def Element3.given : Element3 → Str × List (Str × Py3)
  | .document d => (s%"SpdxDocument",
    [(s%"spdx_id", .str d.spdxId), (s%"name", .str d.name), (s%"element", strsPy d.element), (s%"root_element", strsPy d.rootElement),
     (s%"creation_info", d.creationInfo.toPy), (s%"comment", optPy d.comment), (s%"namespaces", .list (d.namespaces.map NamespaceMap3.toPy)),
     (s%"imports", .list (d.imports.map ExternalMap3.toPy))])
  | .agent a => (agentClass a.kind,
    [(s%"spdx_id", .str a.spdxId), (s%"creation_info", optInfoPy a.creationInfo), (s%"name", .str a.name),
     (s%"external_identifier", .list (a.externalIdentifier.map ExternalIdentifier3.toPy))])
  | .package p => (s%"Package",
    [(s%"spdx_id", .str p.spdxId), (s%"name", .str p.name), (s%"summary", optPy p.summary), (s%"description", optPy p.description),
     (s%"comment", optPy p.comment), (s%"verified_using", .list (p.verifiedUsing.map Hash3.toPy)),
     (s%"external_reference", .list (p.externalReference.map ExternalReference3.toPy)),
     (s%"external_identifier", .list (p.externalIdentifier.map ExternalIdentifier3.toPy)), (s%"originated_by", strsPy p.originatedBy),
     (s%"supplied_by", strsPy p.suppliedBy), (s%"built_time", optDatePy p.builtTime), (s%"release_time", optDatePy p.releaseTime),
     (s%"valid_until_time", optDatePy p.validUntilTime), (s%"primary_purpose", optEnumPy PackagePurpose.name p.primaryPurpose),
     (s%"package_version", optPy p.packageVersion), (s%"download_location", optPy p.downloadLocation), (s%"package_url", optPy p.packageUrl),
     (s%"homepage", optPy p.homepage), (s%"source_info", optPy p.sourceInfo), (s%"copyright_text", optPy p.copyrightText),
     (s%"attribution_text", .str p.attributionText)])
  | .file f => (s%"File",
    [(s%"spdx_id", .str f.spdxId), (s%"name", .str f.name), (s%"comment", optPy f.comment),
     (s%"verified_using", .list (f.verifiedUsing.map Hash3.toPy)), (s%"copyright_text", optPy f.copyrightText),
     (s%"attribution_text", .str f.attributionText)])
  | .snippet s => (s%"Snippet",
    [(s%"spdx_id", .str s.spdxId), (s%"name", optPy s.name), (s%"comment", optPy s.comment), (s%"byte_range", rangePy s.byteRange),
     (s%"line_range", optRangePy s.lineRange), (s%"copyright_text", optPy s.copyrightText), (s%"attribution_text", .str s.attributionText)])
  | .relationship r => match r.software with
    | .none => (s%"Relationship", r.given)
    | some (scope, linkage, conditionality) => (s%"SoftwareDependencyRelationship",
      r.given ++ [(s%"scope", optEnumPy Scope.name scope), (s%"software_linkage", optEnumPy Linkage.name linkage),
        (s%"conditionality", optEnumPy Conditionality.name conditionality)])
  | .annotation a => (s%"Annotation",
    [(s%"spdx_id", .str a.spdxId), (s%"annotation_type", .enum a.annotationType.name), (s%"subject", .str a.subject),
     (s%"creation_info", a.creationInfo.toPy), (s%"statement", .str a.statement)])

/-- an element of a payload as the converter sees it -/
def Element3.toPy (e : Element3) : Py3 := ldObject e.given.1 e.given.2

end Spdx
