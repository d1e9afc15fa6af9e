import Verif.Model.Data
/- spdx/document_utils.py, spdx/spdx_element_utils.py (element type), spdx/validation/spdx_id_validators.py,
   spdx/model/relationship_filters.py -/
namespace Spdx

/-- `DOCUMENT_SPDX_ID` (spdx/constants.py L4) -/
def documentSpdxId : Str := s%"SPDXRef-DOCUMENT"

/-- `[\da-zA-Z.-]` -/
def isIdChar (c : Char) : Bool := isPyDigit c || isLowerAZ c || isUpperAZ c || c == '.' || c == '-'

/-- `^SPDXRef-[\da-zA-Z.-]+$`-like patterns: a fixed prefix and one or more characters of a class. -/
def idBody (pre : Str) (p : Char → Bool) (s : Str) : Bool :=
  startsWith s pre && !(s.drop pre.length).isEmpty && (s.drop pre.length).all p

/-- spdx/validation/spdx_id_validators.py L13-14 -/
def isValidInternalSpdxId (s : Str) : Bool := dollar (idBody s%"SPDXRef-" isIdChar) s

/-- L17-18 -/
def isValidExternalDocRefId (s : Str) : Bool := dollar (idBody s%"DocumentRef-" fun c => isIdChar c || c == '+') s

/-- spdx/document_utils.py L11-15 `get_contained_spdx_element_ids` -/
def containedIds (d : Document) : List Str :=
  d.files.map (·.spdxId) ++ d.packages.map (·.spdxId) ++ d.snippets.map (·.spdxId)

/-- spdx/validation/spdx_id_validators.py L31-35 `get_list_of_all_spdx_ids` -/
def allSpdxIds (d : Document) : List Str := d.creationInfo.spdxId :: containedIds d

/-- L21-22 -/
def isSpdxIdPresentInFiles (s : Str) (fs : List File) : Bool := (fs.map (·.spdxId)).contains s

/-- L25-28 -/
def isSpdxIdPresentInDocument (s : Str) (d : Document) : Bool := (allSpdxIds d).contains s

/-- L38-43 -/
def isExternalDocRefPresent (s : Str) (d : Document) : Bool :=
  (d.creationInfo.externalDocumentRefs.map (·.documentRefId)).contains s

/-- The messages of `validate_spdx_id`, with the text they quote. -/
inductive IdMsg where
  | tooManyColons (id : Str)
  | docRefInvalid (ref : Str)
  | internalPartInvalid (id : Str)
  | docRefMissing (ref : Str)
  | idInvalid (id : Str)
  | notInDocument (id : Str)
  | notInFiles (id : Str)
deriving Repr, DecidableEq

/-- spdx/validation/spdx_id_validators.py L46-99 `validate_spdx_id` -/
def validateSpdxId (id : Str) (d : Document) (checkDocument checkFiles : Bool) : List IdMsg :=
  match splitOn ':' id with
  | _ :: _ :: _ :: _ => [.tooManyColons id]
  | [ref, loc] =>
    (if !isValidExternalDocRefId ref then [.docRefInvalid ref] else []) ++
    (if !isValidInternalSpdxId loc then [.internalPartInvalid loc] else []) ++
    (if !isExternalDocRefPresent ref d then [.docRefMissing ref] else [])
  | _ =>
    (if !isValidInternalSpdxId id then [.idInvalid id] else []) ++
    (if checkDocument then if !isSpdxIdPresentInDocument id d then [.notInDocument id] else [] else []) ++
    (if checkFiles then if !isSpdxIdPresentInFiles id d.files then [.notInFiles id] else [] else [])

/-- Result of `get_element_type_from_spdx_id`. -/
inductive ElementType where
  | package | file | snippet
deriving Repr, DecidableEq

/-- spdx/spdx_element_utils.py L19-28 `get_element_type_from_spdx_id` -/
def getElementType (id : Str) (d : Document) : Option ElementType :=
  if (d.packages.map (·.spdxId)).contains id then some .package
  else if (d.files.map (·.spdxId)).contains id then some .file
  else if (d.snippets.map (·.spdxId)).contains id then some .snippet
  else none

/-- The same for a relationship target, which may be NONE or NOASSERTION (equal to no identifier). -/
def getTargetType (t : OrSpecial Str) (d : Document) : Option ElementType :=
  match t with
  | .val id => getElementType id d
  | _ => none

/-- spdx/model/relationship_filters.py L33-40 `filter_by_type_and_target` -/
def filterByTypeAndTarget (rs : List Relationship) (t : RelationshipType) (target : Str) : List Relationship :=
  rs.filter fun r => r.relationshipType = t ∧ r.relatedSpdxElementId = .val target

/-- spdx/model/relationship_filters.py L43-50 `filter_by_type_and_origin` -/
def filterByTypeAndOrigin (rs : List Relationship) (t : RelationshipType) (origin : Str) : List Relationship :=
  rs.filter fun r => r.relationshipType = t ∧ r.spdxElementId = origin

end Spdx
