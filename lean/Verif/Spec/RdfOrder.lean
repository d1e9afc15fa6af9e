import Verif.Spec.RdfRead
/-
Graphs that differ in the order of their triples only, for C83.
-/
namespace Spdx.Spec
open RdfSays (values nodes)

/-- The properties of which the reader takes the first value if there are several, or whose order it keeps where it has a meaning: the members of
    a license set and the references to other documents. -/
def orderedProperties : List Pred :=
  [.type, .member, .licenseException, .licenseExceptionId, .filesAnalyzed, .snippetFromFile, .externalDocumentRef]

/-- The same triples in another order; several values of these properties of a node, and several nodes for the creation information, keep theirs. -/
structure Shuffled (g g' : RdfGraph) : Prop where
  triples : g.Perm g'
  values : ∀ p ∈ orderedProperties, ∀ n, values g n p = values g' n p
  info : nodes g s%"CreationInfo" = nodes g' s%"CreationInfo"

/-- At most one value of each of these properties for each node, and at most one node for the creation information. -/
structure OneEach (g : RdfGraph) : Prop where
  values : ∀ p ∈ orderedProperties, ∀ n, (values g n p).length ≤ 1
  info : (nodes g s%"CreationInfo").length ≤ 1

end Spdx.Spec
