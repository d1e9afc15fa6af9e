import Verif.Model.JsonWriter
import Verif.Model.Casing
import Verif.Py.Dict
/- RDF graphs as the reader and the writer use them through `rdflib`. -/
namespace Spdx

/-- The terms of RDF that occur: `URIRef`, `BNode` and `Literal` of a text, a bool or an int. A blank node is named by the place that
    creates it (rdflib gives it a random name): a list of numbers, see the writer. -/
inductive RdfNode where
  | uri (s : Str)
  | bnode (path : List Nat)
  | str (s : Str)
  | bool (b : Bool)
  | int (i : Int)
deriving Repr, DecidableEq

/-- The predicates in use. `type` is rdf:type, `rdfsComment` and `seeAlso` are RDFS terms, `homepage` is the DOAP term, the five last ones
    are terms of `POINTER_NAMESPACE`, all others are terms of `SPDX_NAMESPACE` (spdx/rdfschema/namespace.py L6-7). -/
inductive Pred where
  | type | rdfsComment | seeAlso | homepage
  | specVersion | dataLicense | name | created | creator | licenseListVersion | creationInfo | spdxDocument | externalDocumentRef
  | algorithm | checksumValue | checksum | annotationType | annotator | annotationDate | annotation | fileName | fileType
  | licenseConcluded | licenseInfoInFile | licenseComments | copyrightText | noticeText | fileContributor | attributionText
  | versionInfo | packageFileName | supplier | originator | downloadLocation | filesAnalyzed | sourceInfo | licenseInfoFromFiles
  | licenseDeclared | summary | description | primaryPackagePurpose | releaseDate | builtDate | validUntilDate
  | packageVerificationCodeValue | packageVerificationCodeExcludedFile | packageVerificationCode
  | referenceCategory | referenceType | referenceLocator | externalRef | relationshipType | relatedSpdxElement | relationship
  | snippetFromFile | licenseInfoInSnippet | range | licenseId | extractedText | hasExtractedLicensingInfo
  | member | licenseException | licenseExceptionId | hasFile | describesPackage
  | startPointer | endPointer | reference | offset | lineNumber
deriving Repr, DecidableEq

/-- subject, predicate, object -/
abbrev Triple := RdfNode × Pred × RdfNode

/-- A graph is a set of triples. The list gives the order in which they are iterated; nothing may depend on it. -/
abbrev RdfGraph := List Triple

/-- `[o for _, _, o in graph.triples((s, p, None))]` -/
def RdfGraph.objects (g : RdfGraph) (s : RdfNode) (p : Pred) : List RdfNode :=
  (g.filter fun t => t.1 = s ∧ t.2.1 = p).map (·.2.2)

/-- `[s for s, _, _ in graph.triples((None, p, o))]` -/
def RdfGraph.subjects (g : RdfGraph) (p : Pred) (o : RdfNode) : List RdfNode :=
  (g.filter fun t => t.2.1 = p ∧ t.2.2 = o).map (·.1)

/-- `[(s, o) for s, _, o in graph.triples((None, p, None))]` -/
def RdfGraph.pairs (g : RdfGraph) (p : Pred) : List (RdfNode × RdfNode) :=
  (g.filter fun t => t.2.1 = p).map fun t => (t.1, t.2.2)

/-- `POINTER_NAMESPACE`, `REFERENCE_NAMESPACE`, `LICENSE_NAMESPACE` (spdx/rdfschema/namespace.py L7-9) -/
def pointerNamespace : Str := s%"http://www.w3.org/2009/pointers#"
def referenceNamespace : Str := s%"http://spdx.org/rdf/references/"
def licenseNamespace : Str := s%"http://spdx.org/licenses/"

/-- `SPDX_NAMESPACE.name` -/
def spdxTerm (name : Str) : RdfNode := .uri (spdxNamespace ++ name)
/-- `POINTER_NAMESPACE.name` -/
def pointerTerm (name : Str) : RdfNode := .uri (pointerNamespace ++ name)

/-- `bool(node)`: texts and references are false when empty, other literals when their value is; blank nodes have a name -/
def RdfNode.truthy : RdfNode → Bool
  | .uri s | .str s => !s.isEmpty
  | .bnode _ => true
  | .bool b => b
  | .int i => i ≠ 0

/-- The name of a blank node. rdflib gives it a random name, a capital N followed by lower-case hexadecimal digits, a different one for
    every blank node; here the name is a code of the node's place. -/
def blankName (p : List Nat) : Str := 'N' :: p.flatMap fun n => List.replicate n 'a' ++ ['b']

/-- A node as a text (all rdflib terms are `str`): its reference, lexical form or name. -/
def RdfNode.text : RdfNode → Str
  | .uri s | .str s => s
  | .bnode p => blankName p
  | .bool b => if b then s%"true" else s%"false"
  | .int i => intStr i

/-- `resource.fragment` (`urldefrag`): the text after the first `#`, empty if there is none -/
def fragmentOf (s : Str) : Str := (s.dropWhile (· ≠ '#')).drop 1

/-- Namespace bindings of a graph: prefix and namespace, both sides without repetition. -/
abbrev Bindings := List (Str × Str)

/-- `Memory.bind(prefix, namespace, override=True)` of rdflib: older bindings of either are dropped -/
def Bindings.put (b : Bindings) (pre ns : Str) : Bindings := b.filter (fun e => e.1 ≠ pre ∧ e.2 ≠ ns) ++ [(pre, ns)]

/-- `store.namespace(prefix)` -/
def Bindings.nsOf (b : Bindings) (pre : Str) : Option Str := b.lookup pre

/-- `store.prefix(namespace)` -/
def Bindings.prefixOf (b : Bindings) (ns : Str) : Option Str := (b.find? fun e => e.2 = ns).map (·.1)

/-- `NamespaceManager.bind(prefix, namespace)` of rdflib: a prefix already in use for another namespace gets the first number that makes
    it usable. -/
def Bindings.bind (b : Bindings) (pre ns : Str) : Bindings :=
  match b.nsOf pre with
  | none => b.put pre ns
  | some other =>
    if other = ns then b
    else
      match (List.range (b.length + 1)).find? fun n => b.nsOf (pre ++ natStr (n + 1)) = none ∨ b.nsOf (pre ++ natStr (n + 1)) = some ns with
      | some n => if b.nsOf (pre ++ natStr (n + 1)) = some ns then b else b.put (pre ++ natStr (n + 1)) ns
      | none => b

/-- characters that `rdflib.namespace.split_uri` takes for part of a name (of the letters, those of ASCII only; the real function uses
    Unicode categories) -/
def isNameChar (c : Char) : Bool := isLetterAZ c || isPyDigit c || c = '-' || c = '.' || c = '_' || c = '%' || c = '(' || c = ')'

/-- characters that may begin a name -/
def isNameStart (c : Char) : Bool := isLetterAZ c || isPyDigit c || c = '_'

/-- the longest suffix of name characters; `none` when that is the whole text -/
def nameSuffix (s : Str) : Option (Str × Str) :=
  if s.reverse.dropWhile isNameChar = [] then none
  else some ((s.reverse.dropWhile isNameChar).reverse, (s.reverse.takeWhile isNameChar).reverse)

/-- `rdflib.namespace.split_uri`: namespace and name; the name begins with the first letter, digit or underscore after the last character that
    is not a name character -/
def splitUri (s : Str) : Option (Str × Str) :=
  match nameSuffix s with
  | none => none
  | some (front, name) =>
    match name.dropWhile fun c => !isNameStart c with
    | [] => none
    | rest => some (front ++ name.takeWhile (fun c => !isNameStart c), rest)

/-- `NamespaceManager.normalizeUri` of rdflib -/
def normalizeUri (b : Bindings) (s : Str) : Str :=
  match splitUri s with
  | none => s%"<" ++ s ++ s%">"
  | some (ns, name) => match b.prefixOf ns with
    | none => s%"<" ++ s ++ s%">"
    | some pre => pre ++ s%":" ++ name

/-- graph_parsing_functions.py L89-97 `parse_spdx_id`; the outer `none` is the `AttributeError` of a literal that has no fragment -/
def parseRdfId (b : Bindings) (ns : Str) (n : RdfNode) : Option (Option Str) :=
  match n with
  | .bnode _ => some none
  | n =>
    if ¬ n.truthy then some none
    else if startsWith n.text (ns ++ s%"#") then
      match n with
      | .uri s => some (some (fragmentOf s))
      | _ => none
    else if '#' ∈ n.text then some (some (normalizeUri b n.text))
    else some (some n.text)

/-- writer_utils.py L50-61 `add_namespace_to_spdx_id` -/
def addNamespace (id ns : Str) (ext : Dict Str Str) : Str :=
  match splitOn ':' id with
  | ref :: name :: _ => match ext.get? ref with
    | none => id
    | some uri => uri ++ s%"#" ++ name
  | _ => if isValidInternalSpdxId id then ns ++ s%"#" ++ id else id

/-- rdf_writer.py L27-30: the namespaces of the external documents -/
def externalNamespaces (refs : List ExternalDocumentRef) : Dict Str Str :=
  Dict.update [] (refs.map fun r => (r.documentRefId, r.documentUri))

/-- `SPDX_NAMESPACE[f"{prefix}{snake_case_to_camel_case(member.name)}"]`; `none` is the `IndexError` of an empty name -/
def enumToRdf (pre name : Str) : Option Str := (snakeToCamel name).map fun c => spdxNamespace ++ (pre ++ c)

/-- graph_parsing_functions.py L80-86 `parse_enum_value`: `ofName?` is the look-up in the enumeration -/
def enumFromRdf (ofName? : Str → Option α) (pre text : Str) : Option α :=
  ofName? (upperAscii (camelToSnake (removePrefix text (spdxNamespace ++ pre))))

end Spdx
