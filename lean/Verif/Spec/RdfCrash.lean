import Verif.Spec.RdfRead
/-
What in an RDF graph makes the reader end with an exception other than `SPDXParsingError`, and what it complains about.
-/
namespace Spdx.Spec.RdfSays
open Spdx

/-- The first value that is not read is a bad one. -/
inductive FirstBad {α : Type} (Read Bad : α → Prop) : List α → Prop
  | here {x l} : Bad x → FirstBad Read Bad (x :: l)
  | later {x l} : Read x → FirstBad Read Bad l → FirstBad Read Bad (x :: l)

/-- A literal where a reference to an element is expected, though its text is one: only references have a fragment. -/
def LiteralId (ns : Str) (v : RdfNode) : Prop := startsWith v.text (ns ++ s%"#") = true ∧ (∀ u, v ≠ .uri u) ∧ ∀ q, v ≠ .bnode q

/-- A license whose text, or the text of a license below it, is no license expression, or which is nested too deeply or in itself, or which
    lacks a part. -/
def BadLicense (env : RdfEnv) (g : RdfGraph) (ns : Str) (v : RdfNode) : Prop :=
  ¬ Blank v ∧ ¬ NoAssertion v ∧ ¬ IsNone v ∧ ∀ o, ¬ License env g ns env.depth v o

/-- The only value of a property is a bad license. -/
def BadLicenseAt (env : RdfEnv) (g : RdfGraph) (ns : Str) (n : RdfNode) (p : Pred) : Prop := ∃ v, values g n p = [v] ∧ BadLicense env g ns v

/-- Some value of a property is a bad license. -/
def BadLicenseIn (env : RdfEnv) (g : RdfGraph) (ns : Str) (n : RdfNode) (p : Pred) : Prop := ∃ v ∈ values g n p, BadLicense env g ns v

/-- All checksums of an element can be read. -/
def GoodChecksums (g : RdfGraph) (n : RdfNode) : Prop := ∀ v ∈ values g n .checksum, ∃ c, IsChecksum g v c

/-- A reference of a package whose type is no reference though its text is one into the document. -/
def BadPackageRef (g : RdfGraph) (ns : Str) (n : RdfNode) : Prop :=
  ∃ v, values g n .referenceType = [v] ∧ ¬ Blank v ∧ startsWith v.text ns = true ∧ ∀ u, v ≠ .uri u

def BadPackage (env : RdfEnv) (g : RdfGraph) (ns : Str) (n : RdfNode) : Prop :=
  LiteralId ns n ∨ (GoodChecksums g n ∧
    (FirstBad (fun r => ∃ x, IsPackageRef g ns r x) (BadPackageRef g ns) (values g n .externalRef) ∨
      ((∀ r ∈ values g n .externalRef, ∃ x, IsPackageRef g ns r x) ∧
        (BadLicenseAt env g ns n .licenseConcluded ∨ BadLicenseAt env g ns n .licenseDeclared ∨ BadLicenseIn env g ns n .licenseInfoFromFiles))))

def BadFile (env : RdfEnv) (g : RdfGraph) (ns : Str) (n : RdfNode) : Prop :=
  LiteralId ns n ∨ (GoodChecksums g n ∧ (BadLicenseAt env g ns n .licenseConcluded ∨ BadLicenseIn env g ns n .licenseInfoInFile))

/-- A range whose two pointers are there and have the same class, or none, which is not one of the two classes of pointers. -/
def BadRange (g : RdfGraph) (n : RdfNode) : Prop :=
  ∃ p q, values g n .startPointer = [p] ∧ ¬ Blank p ∧ values g n .endPointer = [q] ∧ ¬ Blank q ∧
    (values g p .type).head? = (values g q .type).head? ∧
    ∀ cls ∈ [s%"ByteOffsetPointer", s%"LineCharPointer"], (values g p .type).head? ≠ some (.uri (s%"http://www.w3.org/2009/pointers#" ++ cls))

def BadSnippet (env : RdfEnv) (g : RdfGraph) (ns : Str) (n : RdfNode) : Prop :=
  LiteralId ns n ∨ (∃ f, (values g n .snippetFromFile).head? = some f ∧ LiteralId ns f) ∨ (∃ r ∈ values g n .range, BadRange g r) ∨
    BadLicenseAt env g ns n .licenseConcluded ∨ BadLicenseIn env g ns n .licenseInfoInSnippet

def BadRelationship (g : RdfGraph) (ns : Str) (e : RdfNode × RdfNode) : Prop :=
  LiteralId ns e.1 ∨ ∃ v, values g e.2 .relatedSpdxElement = [v] ∧ ¬ NoAssertion v ∧ ¬ IsNone v ∧ LiteralId ns v

/-- An extracted license without an identifier of its own, whose node is no reference though its text is one into the document. -/
def BadExtracted (g : RdfGraph) (ns : Str) (n : RdfNode) : Prop :=
  (¬ ∃ v, values g n .licenseId = [v] ∧ ¬ Blank v ∧ strip v.text ≠ []) ∧ startsWith n.text (ns ++ s%"#") = true ∧ ∀ u, n ≠ .uri u

/-- One of the elements is bad. -/
def BadElement (env : RdfEnv) (g : RdfGraph) (ns : Str) : Prop :=
  (∃ n ∈ nodes g s%"Package", BadPackage env g ns n) ∨ (∃ n ∈ nodes g s%"File", BadFile env g ns n) ∨
  (∃ n ∈ nodes g s%"Snippet", BadSnippet env g ns n) ∨ (∃ e ∈ related g .annotation, LiteralId ns e.1) ∨
  (∃ e ∈ related g .relationship, BadRelationship g ns e) ∨ (∃ e ∈ related g .hasFile, LiteralId ns e.1 ∨ LiteralId ns e.2) ∨
  (∃ e ∈ related g .describesPackage, LiteralId ns e.1 ∨ LiteralId ns e.2) ∨
  (∃ e ∈ related g .hasExtractedLicensingInfo, BadExtracted g ns e.2)

/-- The graph does not have exactly one document, or its node has no fragment or nothing before it. -/
def NoDocument (env : RdfEnv) (g : RdfGraph) : Prop :=
  ¬ ∃ n, nodes g s%"SpdxDocument" = [n] ∧ '#' ∈ n.text ∧ env.defrag n.text ≠ []

/-- A reference to another document, except that its identifier may have a blank. -/
structure AnyExternalRef (g : RdfGraph) (b : Bindings) (ns : Str) (n : RdfNode) (r : ExternalDocumentRef) : Prop where
  id : Id b ns n r.documentRefId
  uri : Optional (values g n .spdxDocument) Text (some r.documentUri)
  checksum : Optional (values g n .checksum) (IsChecksum g) (some r.checksum)

/-- The first reference to another document that is not read is a literal or has a blank in its identifier. -/
inductive BadExternalRefs (g : RdfGraph) (ns : Str) : Bindings → List RdfNode → Prop
  | literal {b n l} : LiteralId ns n → BadExternalRefs g ns b (n :: l)
  | blank {b n l r} : AnyExternalRef g b ns n r → ' ' ∈ r.documentRefId → BadExternalRefs g ns b (n :: l)
  | later {b n l r} : IsExternalRef g b ns n r → BadExternalRefs g ns (b.bind r.documentRefId (r.documentUri ++ s%"#")) l →
      BadExternalRefs g ns b (n :: l)

/-- A creator that is a text and an actor. -/
def GoodCreator (v : RdfNode) : Prop := ∃ s a, Raw v s ∧ parseActor s = .ok a
/-- A creator that is a number or a boolean. -/
def NoText (v : RdfNode) : Prop := ∀ s, ¬ Raw v s

/-- The creation information is bad, of a document at the node `doc`. -/
def BadInfo (env : RdfEnv) (b : Bindings) (g : RdfGraph) : Prop :=
  ∃ doc i, nodes g s%"SpdxDocument" = [doc] ∧ (nodes g s%"CreationInfo").head? = some i ∧ ¬ Blank i ∧
    (FirstBad GoodCreator NoText (values g i .creator) ∨
      ((∀ v ∈ values g i .creator, GoodCreator v) ∧ BadExternalRefs g (env.defrag doc.text) b (values g doc .externalDocumentRef)))

/-- What makes the reader end with another exception. -/
inductive Bad (env : RdfEnv) (b : Bindings) (g : RdfGraph) : Prop
  | document : NoDocument env g → Bad env b g
  | info : ¬ NoDocument env g → BadInfo env b g → Bad env b g
  | element {c b' doc i} : IsInfo env g b c b' doc i → BadElement env g c.documentNamespace → Bad env b g

end Spdx.Spec.RdfSays
