import Verif.Model.JsonReading
import Verif.Model.JsonParser
/-
XML: spdx/writer/xml/xml_writer.py L13-28 and spdx/parser/xml/xml_parser.py L39-48.  The library `xmltodict` is not part of the code; what its
`parse` delivers for the text that its `unparse(..., pretty=True)` writes is described here by `xmlContent`, for trees whose keys are names of
elements (all keys the writer uses are).
-/
namespace Spdx

/-- The characters an XML document may contain. -/
def xmlChar (c : Char) : Bool :=
  c = '\t' || c = '\n' || c = '\r' || (0x20 ≤ c.toNat && c.toNat ≤ 0xd7ff) || (0xe000 ≤ c.toNat && c.toNat ≤ 0xfffd) || 0x10000 ≤ c.toNat

/-- The ends of lines as an XML parser delivers them. -/
def xmlLines : Str → Str
  | '\r' :: '\n' :: s => '\n' :: xmlLines s
  | '\r' :: s => '\n' :: xmlLines s
  | c :: s => c :: xmlLines s
  | [] => []

/-- The content of an element with the given text: white space at the ends is removed, an empty text is `None`. `none`: `ExpatError` -/
def xmlText (s : Str) : Option Json :=
  if s.all xmlChar then some (if strip (xmlLines s) = [] then .null else .str (strip (xmlLines s))) else none

/-- The elements with one name, as a member of their parent: one is itself, several are a list. -/
def xmlMember (k : Str) : List Json → List (Str × Json)
  | [] => []
  | [x] => [(k, x)]
  | xs => [(k, .arr xs)]

/-- The content of an element with the given elements inside. -/
def xmlInner : List (Str × Json) → Json
  | [] => .null
  | o => .obj o

mutual
/-- The content of the element written for one value. A list inside a list is written as the `str` of the list; this is not modelled. -/
def xmlContent : Json → Option Json
  | .null => some .null
  | .bool true => some (.str s%"true")
  | .bool false => some (.str s%"false")
  | .num i => some (.str (intStr i))
  | .str s => xmlText s
  | .arr _ => none
  | .obj o => (xmlMembers o).map xmlInner
def xmlItems : List Json → Option (List Json)
  | [] => some []
  | x :: l => match xmlContent x, xmlItems l with
    | some y, some m => some (y :: m)
    | _, _ => none
/-- The members of an object: a list is written as one element for each entry. -/
def xmlMembers : List (Str × Json) → Option (List (Str × Json))
  | [] => some []
  | (k, .arr l) :: o => match xmlItems l, xmlMembers o with
    | some ys, some m => some (xmlMember k ys ++ m)
    | _, _ => none
  | (k, v) :: o => match xmlContent v, xmlMembers o with
    | some y, some m => some ((k, y) :: m)
    | _, _ => none
end

/-- Reading the XML file written for a tree (xml_writer.py L26-27, xml_parser.py L39-48). `none`: it cannot be read as XML or has no content. -/
def readXml (L : LicText) (j : Json) : Option (Py Document) := do
  let parsed ← xmlContent (.obj [(s%"Document", j)])
  let tree ← xmlDocument parsed
  return parseDocument L tree

end Spdx
