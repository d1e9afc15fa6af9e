import Verif.Py.Json
import Verif.Py.Dict
/- spdx/parser/json/json_parser.py and spdx/parser/xml/xml_parser.py: preparing the tree for the common parser -/
namespace Spdx

/-- `str.translate(CONTROL_CHARS_MAP)` (json_parser.py L12-15): characters 8 and 12 are deleted. -/
def stripControl (s : Str) : Str := s.filter fun c => !(c.toNat == 8 || c.toNat == 12)

mutual
/-- json_parser.py L18-24 `remove_control_chars_from_value` -/
def cleanValue : Json → Json
  | .str s => .str (stripControl s)
  | .arr l => .arr (cleanValues l)
  | j => j
def cleanValues : List Json → List Json
  | [] => []
  | j :: js => cleanValue j :: cleanValues js
end

mutual
/-- `json.load(file, object_pairs_hook=remove_json_control_chars_hook)` (json_parser.py L27-32) on the tree written in the file, whose
    objects may repeat keys: inner objects are converted first. -/
def loadJson : Json → Json
  | .arr l => .arr (loadJsons l)
  | .obj l => .obj (Dict.update [] (loadPairs l))
  | j => j
def loadJsons : List Json → List Json
  | [] => []
  | j :: js => loadJson j :: loadJsons js
def loadPairs : List (Str × Json) → List (Str × Json)
  | [] => []
  | (k, v) :: ps => (k, cleanValue (loadJson v)) :: loadPairs ps
end

/-- xml_parser.py L11-36 -/
def listLikeFields : List Str :=
  [s%"creators", s%"externalDocumentRefs", s%"hasExtractedLicensingInfos", s%"seeAlsos", s%"annotations", s%"relationships",
   s%"snippets", s%"reviewers", s%"fileTypes", s%"licenseInfoFromFiles", s%"licenseInfoInFiles", s%"artifactOf",
   s%"fileContributors", s%"fileDependencies", s%"files", s%"documentDescribes", s%"packages", s%"checksums", s%"hasFiles",
   s%"externalRefs", s%"ranges", s%"licenseInfoInSnippets", s%"packageVerificationCodeExcludedFiles", s%"attributionTexts"]

/-- `isinstance(value, list)` -/
def Json.isArr : Json → Bool
  | .arr _ => true
  | _ => false

mutual
/-- xml_parser.py L51-71 `_fix_list_like_fields` -/
def fixLists : Json → Json
  | .obj l => .obj (fixFields l)
  | .arr l => .arr (fixElems l)
  | j => j
def fixElems : List Json → List Json
  | [] => []
  | j :: js => fixLists j :: fixElems js
def fixFields : List (Str × Json) → List (Str × Json)
  | [] => []
  | (k, v) :: ps =>
    (k, if listLikeFields.contains k && !v.isArr then .arr (if v.truthy then [fixLists v] else []) else fixLists v) :: fixFields ps
end

/-- xml_parser.py L39-48: the dict handed on to the common parser (`none`: the top-level tag is missing or empty) -/
def xmlDocument (parsed : Json) : Option Json :=
  match fixLists parsed with
  | .obj l => match dictGet l s%"Document" with
    | some d => if d.truthy then some d else none
    | none => none
  | _ => none

end Spdx
