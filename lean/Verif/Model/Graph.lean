import Verif.Model.DocumentUtils
import Verif.Model.Enums
/- spdx/graph_generation.py. The library `networkx` is modelled by `DiGraph`: a dict of nodes with their attributes and a duplicate-free
   list of edges (networkx keeps the edges per source node; their order is not modelled). -/
namespace Spdx

/-- The values of a node's attribute `element`. -/
inductive GraphElement where
  | info (c : CreationInfo)
  | element (e : Element)
  /-- `None`: an element the document says nothing about -/
  | unknown
deriving DecidableEq

/-- The attributes of a node; `none` means that the attribute is not set. -/
structure NodeAttrs where
  element : Option GraphElement := none
  comment : Option (Option Str) := none
  color : Option Str := none
  label : Option Str := none
deriving DecidableEq

structure DiGraph where
  nodes : Dict Str NodeAttrs := []
  edges : List (Str × Str) := []

/-- `graph.add_node(n, attr=...)`: the attributes given are set, others are kept -/
def DiGraph.addNode (g : DiGraph) (n : Str) (attrs : NodeAttrs → NodeAttrs) : DiGraph :=
  { g with nodes := g.nodes.set n (attrs ((g.nodes.get? n).getD {})) }

/-- `graph.add_edge(a, b)`: missing end points are added without attributes -/
def DiGraph.addEdge (g : DiGraph) (a b : Str) : DiGraph :=
  let g := if a ∈ g.nodes.keys then g else g.addNode a id
  let g := if b ∈ g.nodes.keys then g else g.addNode b id
  if (a, b) ∈ g.edges then g else { g with edges := g.edges ++ [(a, b)] }

/-- L38-41, L50-57: `if n not in graph.nodes(): graph.add_node(n, element=None)` -/
def DiGraph.addUnknown (g : DiGraph) (n : Str) : DiGraph :=
  if n ∈ g.nodes.keys then g else g.addNode n fun a => { a with element := some .unknown }

/-- L43: the key of a relationship's node -/
def Relationship.nodeKey (r : Relationship) : Str := r.spdxElementId ++ s%"_" ++ r.relationshipType.name

/-- L47-48: `str(relationship.related_spdx_element_id)` -/
def Relationship.relatedText (r : Relationship) : Str :=
  match r.relatedSpdxElementId with
  | .val id => id
  | .none => s%"NONE"
  | .noAssertion => s%"NOASSERTION"

/-- L42-58: one relationship -/
def graphRelationship (g : DiGraph) (r : Relationship) : DiGraph :=
  let g := g.addNode r.nodeKey fun a => { a with comment := some r.comment }
  let g := g.addEdge r.spdxElementId r.nodeKey
  let g := g.addUnknown r.relatedText
  g.addEdge r.nodeKey r.relatedText

/-- L37-58: the relationships of one element -/
def graphGroup (g : DiGraph) (p : Str × List Relationship) : DiGraph := p.2.foldl graphRelationship (g.addUnknown p.1)

/-- L27-31: the nodes of the document and its elements -/
def graphElements (d : Document) : DiGraph :=
  (containedElements d).foldl (fun g p => g.addNode p.1 fun a => { a with element := some (.element p.2) })
    (({} : DiGraph).addNode d.creationInfo.spdxId fun a => { a with element := some (.info d.creationInfo) })

/-- spdx/graph_generation.py L24-60 `generate_relationship_graph_from_spdx` -/
def relationshipGraph (d : Document) : DiGraph :=
  (Dict.groupBy (·.spdxElementId) d.relationships).foldl graphGroup (graphElements d)

/-- L63-73: the attributes `_color_nodes` sets; `node.split("_", 1)[-1]` is the text after the first underscore -/
def colorNode (n : Str) (a : NodeAttrs) : NodeAttrs :=
  if '_' ∈ n then { a with color := some s%"lightgreen", label := some ((n.dropWhile (· ≠ '_')).drop 1) }
  else if n = s%"SPDXRef-DOCUMENT" then { a with color := some s%"indianred2" }
  else { a with color := some s%"lightskyblue" }

/-- spdx/graph_generation.py L63-73 `_color_nodes` -/
def colorNodes (g : DiGraph) : DiGraph :=
  (g.nodes.keys).foldl (fun g n => g.addNode n (colorNode n)) g

end Spdx
