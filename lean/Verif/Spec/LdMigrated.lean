import Verif.Spec.LdNames
import Verif.Model.Spdx3
import Verif.Model.JsonLd
/- The JSON-LD object of each kind of element of a migrated document, written out field by field. -/
namespace Spdx.Spec.Ld
open Spdx

/-- a text that is not empty -/
def text (k s : Str) : List (Str × Json) := if s = [] then [] else [(k, .str s)]
/-- an optional text -/
def opt (k : Str) : Option Str → List (Str × Json)
  | none => []
  | some s => text k s
/-- a number other than 0 -/
def num (k : Str) (i : Int) : List (Str × Json) := if i = 0 then [] else [(k, .num i)]
/-- an optional date; one outside the years 1 to 9999 has no text -/
def date (k : Str) : Option DateTime → List (Str × Json)
  | none => []
  | some d => [(k, .str ((datetimeToIso d).getD []))]
/-- a list of texts without the empty ones -/
def texts (k : Str) (l : List Str) : List (Str × Json) := if l = [] then [] else [(k, .arr ((l.filter (· ≠ [])).map .str))]
/-- a list of objects -/
def objects (k : Str) (f : α → Json) (l : List α) : List (Str × Json) := if l = [] then [] else [(k, .arr (l.map f))]
/-- an optional object -/
def optObject (k : Str) (f : α → Json) : Option α → List (Str × Json)
  | none => []
  | some a => [(k, f a)]
/-- the name of an enumeration member -/
def member (name : Str) : Json := .str ((ldMembers.lookup name).getD [])
/-- an optional enumeration member -/
def optMember (k : Str) (name : α → Str) : Option α → List (Str × Json)
  | none => []
  | some m => [(k, member (name m))]
/-- an object of a class -/
def object (cls : Str) (fields : List (List (Str × Json))) : Json := .obj ((s%"@type", .str cls) :: fields.flatten)

def hash (h : Hash3) : Json := object s%"Hash" [[(s%"algorithm", member h.algorithm.name)], text s%"hashValue" h.hashValue]

def identifier (i : ExternalIdentifier3) : Json := object s%"ExternalIdentifier"
  [[(s%"externalIdentifierType", member i.type.name)], text s%"identifier" i.identifier, opt s%"comment" i.comment]

def reference (r : ExternalReference3) : Json := object s%"ExternalReference"
  [[(s%"externalReferenceType", member r.type.name)], texts s%"locator" r.locator, opt s%"comment" r.comment]

def info (c : CreationInfo3) : Json := object s%"CreationInfo"
  [text s%"specVersion" s%"3.0.0", date s%"created" (some c.created), texts s%"createdBy" c.createdBy,
   [(s%"profile", .arr [.str s%"core", .str s%"software", .str s%"licensing"])], text s%"dataLicense" c.dataLicense,
   texts s%"createdUsing" c.createdUsing]

def externalMap (m : ExternalMap3) : Json := object s%"ExternalMap"
  [text s%"externalId" m.externalId, objects s%"verifiedUsing" hash m.verifiedUsing, opt s%"definingDocument" m.definingDocument]

def namespaceMap (m : NamespaceMap3) : Json := object s%"NamespaceMap" [text s%"prefix" m.nsPrefix, text s%"namespace" m.namespaceIri]

def range (r : Int × Int) : Json := object s%"PositiveIntegerRange" [num s%"begin" r.1, num s%"end" r.2]

/-- the object of an element -/
def element : Element3 → Json
  | .document d => object s%"SpdxDocument"
    [text s%"@id" d.spdxId, [(s%"creationInfo", info d.creationInfo)], text s%"name" d.name, opt s%"comment" d.comment,
     texts s%"element" d.element, texts s%"rootElement" d.rootElement, objects s%"namespaces" namespaceMap d.namespaces,
     objects s%"imports" externalMap d.imports]
  | .agent a => object (match a.kind with | .PERSON => s%"Person" | .ORGANIZATION => s%"Organization" | .TOOL => s%"Tool")
    [text s%"@id" a.spdxId, optObject s%"creationInfo" info a.creationInfo, text s%"name" a.name,
     objects s%"externalIdentifier" identifier a.externalIdentifier]
  | .package p => object s%"Package"
    [text s%"@id" p.spdxId, text s%"name" p.name, opt s%"summary" p.summary, opt s%"description" p.description, opt s%"comment" p.comment,
     objects s%"verifiedUsing" hash p.verifiedUsing, objects s%"externalReference" reference p.externalReference,
     objects s%"externalIdentifier" identifier p.externalIdentifier, texts s%"originatedBy" p.originatedBy,
     texts s%"suppliedBy" p.suppliedBy, date s%"builtTime" p.builtTime, date s%"releaseTime" p.releaseTime,
     date s%"validUntilTime" p.validUntilTime, optMember s%"primaryPurpose" PackagePurpose.name p.primaryPurpose,
     opt s%"copyrightText" p.copyrightText, text s%"attributionText" p.attributionText, opt s%"packageVersion" p.packageVersion,
     opt s%"downloadLocation" p.downloadLocation, opt s%"packageUrl" p.packageUrl, opt s%"homepage" p.homepage,
     opt s%"sourceInfo" p.sourceInfo]
  | .file f => object s%"File"
    [text s%"@id" f.spdxId, text s%"name" f.name, opt s%"comment" f.comment, objects s%"verifiedUsing" hash f.verifiedUsing,
     opt s%"copyrightText" f.copyrightText, text s%"attributionText" f.attributionText]
  | .snippet s => object s%"Snippet"
    [text s%"@id" s.spdxId, opt s%"name" s.name, opt s%"comment" s.comment, opt s%"copyrightText" s.copyrightText,
     text s%"attributionText" s.attributionText, [(s%"byteRange", range s.byteRange)],
     optObject s%"lineRange" range s.lineRange]
  | .relationship r => object (if r.software = none then s%"Relationship" else s%"SoftwareDependencyRelationship")
    ([text s%"@id" r.spdxId, opt s%"comment" r.comment, text s%"from" r.fromElement, texts s%"to" r.to,
      [(s%"relationshipType", member r.relationshipType.name)], optMember s%"completeness" Completeness.name r.completeness] ++
     (match r.software with
      | none => []
      | some (scope, linkage, conditionality) => [optMember s%"scope" Scope.name scope, optMember s%"softwareLinkage" Linkage.name linkage,
          optMember s%"conditionality" Conditionality.name conditionality]))
  | .annotation a => object s%"Annotation"
    [text s%"@id" a.spdxId, [(s%"creationInfo", info a.creationInfo)], [(s%"annotationType", member a.annotationType.name)],
     text s%"subject" a.subject, text s%"statement" a.statement]

/-- the dates an element contains -/
def dates : Element3 → List DateTime
  | .document d => [d.creationInfo.created]
  | .agent a => a.creationInfo.toList.map (·.created)
  | .package p => p.builtTime.toList ++ p.releaseTime.toList ++ p.validUntilTime.toList
  | .annotation a => [a.creationInfo.created]
  | _ => []

end Spdx.Spec.Ld
