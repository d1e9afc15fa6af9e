import Verif.Model.Rdf
import Verif.Model.Actor
import Verif.Model.ChecksumNames
import Verif.Model.DateTime
import Verif.Model.Version
import Verif.Model.Enums
/- The RDF writer (spdx/writer/rdf/*.py): the triples of the graph that is serialized. `none` stands for an exception (a date that has no
   ISO text, or a snippet without a line range). The `i`-th `BNode()` of a place gets the place's path with `i` in front. -/
namespace Spdx

/-- What the code takes from its libraries: `known key` says that `spdx_licensing.validate` finds no error in that symbol (it is on the
    SPDX license list); the text of a license expression and its reading; `urldefrag(uri).url`; how deep the interpreter may recurse. -/
structure RdfEnv where
  known : Str → Bool
  lic : LicText
  defrag : Str → Str
  depth : Nat

/-- writer_utils.py L17-24 `add_optional_literal` of a text or `None` -/
def optLiteral (s : RdfNode) (p : Pred) : Option Str → List Triple
  | none => []
  | some t => [(s, p, .str t)]

/-- `graph.add((s, p, Literal(x)))` for each text of a list -/
def literals (s : RdfNode) (p : Pred) (l : List Str) : List Triple := l.map fun t => (s, p, .str t)

/-- `str(value)` of a text or one of the special values (`OrSpecial.text`) -/
def strOrSpecial : OrSpecial Str → Str
  | .val t => t
  | .noAssertion => s%"NOASSERTION"
  | .none => s%"NONE"

/-- `str(value)` of an actor or NOASSERTION (`Actor.__str__` is `to_serialized_string`) -/
def strOrNoAssertion : OrNoAssertion Actor → Str
  | .val a => a.toSerialized
  | .noAssertion => s%"NOASSERTION"

/-- writer_utils.py L27-33 `add_literal_or_no_assertion_or_none` -/
def literalOrSpecial (s : RdfNode) (p : Pred) : OrSpecial Str → List Triple
  | .none => [(s, p, spdxTerm s%"none")]
  | .noAssertion => [(s, p, spdxTerm s%"noassertion")]
  | .val t => [(s, p, .str t)]

/-- writer_utils.py L36-42 `add_literal_or_no_assertion` -/
def literalOrNoAssertion (s : RdfNode) (p : Pred) : Option (OrNoAssertion Str) → List Triple
  | none => []
  | some .noAssertion => [(s, p, spdxTerm s%"noassertion")]
  | some (.val t) => [(s, p, .str t)]

/-- writer_utils.py L45-47 `add_datetime_to_graph` -/
def optDate (s : RdfNode) (p : Pred) : Option DateTime → Option (List Triple)
  | none => some []
  | some d => match datetimeToIso d with
    | none => none
    | some t => some [(s, p, .str t)]

/-- license_expression_writer.py L62-67: the reference of a symbol -/
def symbolNode (env : RdfEnv) (ns key : Str) : RdfNode :=
  if env.known key then .uri (licenseNamespace ++ key) else .uri (ns ++ s%"#" ++ key)

/-- license_expression_writer.py L75-84 `add_license_exception_to_graph` -/
def exceptionTriples (env : RdfEnv) (path : List Nat) (parent : RdfNode) (exc : Str) : List Triple :=
  if env.known exc then
    [(parent, .licenseException, .uri (licenseNamespace ++ exc)), (.uri (licenseNamespace ++ exc), .type, spdxTerm s%"LicenseException")]
  else
    [(.bnode path, .licenseExceptionId, .str exc), (parent, .licenseException, .bnode path), (.bnode path, .type, spdxTerm s%"LicenseException")]

mutual
/-- license_expression_writer.py L37-67 `add_license_expression_to_graph` -/
def licTriples (env : RdfEnv) (ns : Str) (path : List Nat) (parent : RdfNode) (p : Pred) : LicExpr → List Triple
  | .and args => [(.bnode path, .type, spdxTerm s%"ConjunctiveLicenseSet"), (parent, p, .bnode path)] ++ licTriplesL env ns path 0 args
  | .or args => [(.bnode path, .type, spdxTerm s%"DisjunctiveLicenseSet"), (parent, p, .bnode path)] ++ licTriplesL env ns path 0 args
  | .withExc lic exc => [(.bnode path, .type, spdxTerm s%"WithExceptionOperator"), (parent, p, .bnode path),
      (.bnode path, .member, symbolNode env ns lic)] ++ exceptionTriples env (0 :: path) (.bnode path) exc
  | .sym key => [(parent, p, symbolNode env ns key)]
/-- L44-45, L50-51: the loop over the arguments, the `i`-th gets the node `i` below -/
def licTriplesL (env : RdfEnv) (ns : Str) (path : List Nat) (i : Nat) : List LicExpr → List Triple
  | [] => []
  | e :: es => licTriples env ns (i :: path) (.bnode path) .member e ++ licTriplesL env ns path (i + 1) es
end

/-- license_expression_writer.py L15-34 of one value -/
def licOrSpecialTriples (env : RdfEnv) (ns : Str) (path : List Nat) (s : RdfNode) (p : Pred) : OrSpecial LicExpr → List Triple
  | .noAssertion => [(s, p, spdxTerm s%"noassertion")]
  | .none => [(s, p, spdxTerm s%"none")]
  | .val e => licTriples env ns path s p e

/-- license_expression_writer.py L15-34 of an optional value -/
def optLicTriples (env : RdfEnv) (ns : Str) (path : List Nat) (s : RdfNode) (p : Pred) : Option (OrSpecial LicExpr) → List Triple
  | none => []
  | some v => licOrSpecialTriples env ns path s p v

/-- license_expression_writer.py L30-32, a list of values, the `i`-th gets the path `i :: path` -/
def licListTriples (env : RdfEnv) (ns : Str) (path : List Nat) (s : RdfNode) (p : Pred) (l : List (OrSpecial LicExpr)) : List Triple :=
  l.zipIdx.flatMap fun e => licOrSpecialTriples env ns (e.2 :: path) s p e.1

/-- checksum_writer.py L10-16 `add_checksum_to_graph` -/
def checksumTriples (path : List Nat) (parent : RdfNode) (c : Checksum) : List Triple :=
  [(.bnode path, .type, spdxTerm s%"Checksum"), (.bnode path, .algorithm, .uri (algorithmToRdf c.algorithm)),
   (.bnode path, .checksumValue, .str c.value), (parent, .checksum, .bnode path)]

/-- the loop over checksums -/
def checksumListTriples (path : List Nat) (parent : RdfNode) (l : List Checksum) : List Triple :=
  l.zipIdx.flatMap fun e => checksumTriples (e.2 :: path) parent e.1

/-- external_document_ref_writer.py L11-21 -/
def extRefTriples (path : List Nat) (docNode : RdfNode) (ns : Str) (r : ExternalDocumentRef) : List Triple :=
  [(.uri (ns ++ s%"#" ++ r.documentRefId), .type, spdxTerm s%"ExternalDocumentRef"),
   (.uri (ns ++ s%"#" ++ r.documentRefId), .spdxDocument, .uri r.documentUri)] ++
  checksumTriples path (.uri (ns ++ s%"#" ++ r.documentRefId)) r.checksum ++
  [(docNode, .externalDocumentRef, .uri (ns ++ s%"#" ++ r.documentRefId))]

/-- creation_info_writer.py L14 -/
def docNode (c : CreationInfo) : RdfNode := .uri (c.documentNamespace ++ s%"#" ++ c.spdxId)

/-- creation_info_writer.py L13-39 `add_creation_info_to_graph` -/
def creationInfoTriples (c : CreationInfo) : Option (List Triple) :=
  match datetimeToIso c.created with
  | none => none
  | some created => some (
    [(docNode c, .type, spdxTerm s%"SpdxDocument"), (docNode c, .specVersion, .str c.spdxVersion),
     (docNode c, .dataLicense, .uri (licenseNamespace ++ c.dataLicense)), (docNode c, .name, .str c.name)] ++
    optLiteral (docNode c) .rdfsComment c.documentComment ++
    [(.bnode [1, 0], .type, spdxTerm s%"CreationInfo"), (.bnode [1, 0], .created, .str created)] ++
    literals (.bnode [1, 0]) .creator (c.creators.map Actor.toSerialized) ++
    optLiteral (.bnode [1, 0]) .licenseListVersion (c.licenseListVersion.map Version.toStr) ++
    optLiteral (.bnode [1, 0]) .rdfsComment c.creatorComment ++
    [(docNode c, .creationInfo, .bnode [1, 0])] ++
    c.externalDocumentRefs.zipIdx.flatMap fun e => extRefTriples [e.2, 1] (docNode c) c.documentNamespace e.1)

/-- annotation_writer.py L14-35 `add_annotation_to_graph` -/
def annotationTriples (ns : Str) (ext : Dict Str Str) (path : List Nat) (a : Annotation) : Option (List Triple) :=
  match enumToRdf s%"annotationType_" a.annotationType.name, datetimeToIso a.annotationDate with
  | some ty, some date => some [(.bnode path, .type, spdxTerm s%"Annotation"), (.bnode path, .annotationType, .uri ty),
      (.bnode path, .annotator, .str a.annotator.toSerialized), (.bnode path, .annotationDate, .str date),
      (.bnode path, .rdfsComment, .str a.annotationComment),
      (.uri (addNamespace a.spdxId ns ext), .annotation, .bnode path)]
  | _, _ => none

/-- file_writer.py L15-45 `add_file_to_graph`, `res` is `file_resource` -/
def fileTriples (env : RdfEnv) (ns : Str) (path : List Nat) (res : RdfNode) (f : File) : Option (List Triple) :=
  match f.fileTypes.mapM fun t => enumToRdf s%"fileType_" t.name with
  | none => none
  | some types => some (
    [(res, .type, spdxTerm s%"File"), (res, .fileName, .str f.name)] ++
    types.map (fun t => (res, Pred.fileType, RdfNode.uri t)) ++
    checksumListTriples (0 :: path) res f.checksums ++
    optLicTriples env ns (1 :: path) res .licenseConcluded f.licenseConcluded ++
    licListTriples env ns (2 :: path) res .licenseInfoInFile f.licenseInfoInFile ++
    optLiteral res .licenseComments f.licenseComment ++
    optLiteral res .copyrightText (f.copyrightText.map strOrSpecial) ++
    optLiteral res .rdfsComment f.comment ++
    optLiteral res .noticeText f.notice ++
    literals res .fileContributor f.contributors ++
    literals res .attributionText f.attributionTexts)

/-- package_writer.py L74-97 `add_package_verification_code_to_graph` -/
def verificationCodeTriples (path : List Nat) (res : RdfNode) : Option PackageVerificationCode → List Triple
  | none => []
  | some v => [(.bnode path, .type, spdxTerm s%"PackageVerificationCode"), (.bnode path, .packageVerificationCodeValue, .str v.value)] ++
      literals (.bnode path) .packageVerificationCodeExcludedFile v.excludedFiles ++ [(res, .packageVerificationCode, .bnode path)]

/-- package_writer.py L113-128: the reference of a reference type -/
def refTypeUri (ns : Str) (r : ExternalPackageRef) : Str :=
  if r.referenceType ∈ categoryToRefTypes r.category then referenceNamespace ++ r.referenceType else ns ++ s%"#" ++ r.referenceType

/-- `if value: graph.add(…)` for an optional text -/
def truthyLiteral (s : RdfNode) (p : Pred) : Option Str → List Triple
  | none => []
  | some t => if t = [] then [] else [(s, p, .str t)]

/-- package_writer.py L100-133 `add_external_package_ref_to_graph` -/
def packageRefTriples (ns : Str) (path : List Nat) (res : RdfNode) (r : ExternalPackageRef) : Option (List Triple) :=
  match enumToRdf s%"referenceCategory_" r.category.name with
  | none => none
  | some cat => some ([(.bnode path, .type, spdxTerm s%"ExternalRef"), (.bnode path, .referenceCategory, .uri cat),
      (.bnode path, .referenceType, .uri (refTypeUri ns r)), (.bnode path, .referenceLocator, .str r.locator)] ++
      truthyLiteral (.bnode path) .rdfsComment r.comment ++ [(res, .externalRef, .bnode path)])

/-- package_writer.py L60-67 -/
def purposeTriples (res : RdfNode) : Option PackagePurpose → Option (List Triple)
  | none => some []
  | some p => match enumToRdf s%"purpose_" p.name with
    | none => none
    | some u => some [(res, .primaryPackagePurpose, .uri u)]

/-- package_writer.py L21-71 `add_package_to_graph`, `res` is `package_resource` -/
def packageTriples (env : RdfEnv) (ns : Str) (path : List Nat) (res : RdfNode) (p : Package) : Option (List Triple) :=
  match p.externalReferences.zipIdx.mapM (fun e => packageRefTriples ns (e.2 :: 0 :: path) res e.1), purposeTriples res p.primaryPackagePurpose,
    optDate res .releaseDate p.releaseDate, optDate res .builtDate p.builtDate, optDate res .validUntilDate p.validUntilDate with
  | some refs, some purpose, some release, some built, some validUntil => some (
    [(res, .type, spdxTerm s%"Package"), (res, .name, .str p.name)] ++
    optLiteral res .versionInfo p.version ++
    optLiteral res .packageFileName p.fileName ++
    optLiteral res .supplier (p.supplier.map strOrNoAssertion) ++
    optLiteral res .originator (p.originator.map strOrNoAssertion) ++
    literalOrSpecial res .downloadLocation p.downloadLocation ++
    [(res, .filesAnalyzed, .bool p.filesAnalyzed)] ++
    verificationCodeTriples (1 :: path) res p.verificationCode ++
    checksumListTriples (2 :: path) res p.checksums ++
    optLiteral res .homepage (p.homepage.map strOrSpecial) ++
    optLiteral res .sourceInfo p.sourceInfo ++
    optLicTriples env ns (3 :: path) res .licenseConcluded p.licenseConcluded ++
    licListTriples env ns (4 :: path) res .licenseInfoFromFiles p.licenseInfoFromFiles ++
    optLicTriples env ns (5 :: path) res .licenseDeclared p.licenseDeclared ++
    optLiteral res .licenseComments p.licenseComment ++
    optLiteral res .copyrightText (p.copyrightText.map strOrSpecial) ++
    optLiteral res .summary p.summary ++
    optLiteral res .description p.description ++
    optLiteral res .rdfsComment p.comment ++
    refs.flatten ++
    literals res .attributionText p.attributionTexts ++
    purpose ++ release ++ built ++ validUntil)
  | _, _, _, _, _ => none

/-- relationship_writer.py L25-40 -/
def relatedNode (ns : Str) (ext : Dict Str Str) : OrSpecial Str → RdfNode
  | .none => spdxTerm s%"none"
  | .noAssertion => spdxTerm s%"noassertion"
  | .val id => .uri (addNamespace id ns ext)

/-- relationship_writer.py L13-46 `add_relationship_to_graph` -/
def relationshipTriples (ns : Str) (ext : Dict Str Str) (path : List Nat) (r : Relationship) : Option (List Triple) :=
  match enumToRdf s%"relationshipType_" r.relationshipType.name with
  | none => none
  | some ty => some ([(.bnode path, .type, spdxTerm s%"Relationship"), (.bnode path, .relationshipType, .uri ty),
      (.bnode path, .relatedSpdxElement, relatedNode ns ext r.relatedSpdxElementId)] ++
      truthyLiteral (.bnode path) .rdfsComment r.comment ++
      [(.uri (addNamespace r.spdxElementId ns ext), .relationship, .bnode path)])

/-- snippet_writer.py L43-65: `add_range_to_graph` once the range is known to be there -/
def rangeTriples (path : List Nat) (res from_ : RdfNode) (cls : Str) (valuePred : Pred) (r : Int × Int) : List Triple :=
  [(.bnode path, .type, pointerTerm s%"StartEndPointer"),
   (.bnode (0 :: path), .type, pointerTerm cls), (.bnode path, .startPointer, .bnode (0 :: path)),
   (.bnode (0 :: path), .reference, from_), (.bnode (0 :: path), valuePred, .int r.1),
   (.bnode (1 :: path), .type, pointerTerm cls), (.bnode path, .endPointer, .bnode (1 :: path)),
   (.bnode (1 :: path), .reference, from_), (.bnode (1 :: path), valuePred, .int r.2),
   (res, .range, .bnode path)]

/-- snippet_writer.py L13-40 `add_snippet_to_graph`, `res` is `snippet_resource`; a missing line range raises a `TypeError` -/
def snippetTriples (env : RdfEnv) (ns : Str) (ext : Dict Str Str) (path : List Nat) (res : RdfNode) (s : Snippet) : Option (List Triple) :=
  match s.lineRange with
  | none => none
  | some lines => some (
    [(res, .type, spdxTerm s%"Snippet"), (res, .snippetFromFile, .uri (addNamespace s.fileSpdxId ns ext))] ++
    rangeTriples (0 :: path) res (.uri (addNamespace s.fileSpdxId ns ext)) s%"ByteOffsetPointer" .offset s.byteRange ++
    rangeTriples (1 :: path) res (.uri (addNamespace s.fileSpdxId ns ext)) s%"LineCharPointer" .lineNumber lines ++
    optLicTriples env ns (2 :: path) res .licenseConcluded s.licenseConcluded ++
    licListTriples env ns (3 :: path) res .licenseInfoInSnippet s.licenseInfoInSnippet ++
    optLiteral res .licenseComments s.licenseComment ++
    optLiteral res .copyrightText (s.copyrightText.map strOrSpecial) ++
    optLiteral res .rdfsComment s.comment ++
    optLiteral res .name s.name ++
    literals res .attributionText s.attributionTexts)

/-- extracted_licensing_info_writer.py L14-18: the node of an extracted license -/
def extractedNode (ns : Str) (path : List Nat) (e : ExtractedLicensingInfo) : RdfNode :=
  match e.licenseId with
  | none => .bnode path
  | some id => if id = [] then .bnode path else .uri (ns ++ s%"#" ++ id)

/-- extracted_licensing_info_writer.py L11-32 -/
def extractedTriples (ns : Str) (path : List Nat) (docNode : RdfNode) (e : ExtractedLicensingInfo) : List Triple :=
  (match extractedNode ns path e with
   | .uri u => [(.uri u, .type, spdxTerm s%"ExtractedLicensingInfo")]
   | _ => []) ++
  optLiteral (extractedNode ns path e) .licenseId e.licenseId ++
  optLiteral (extractedNode ns path e) .extractedText e.extractedText ++
  literalOrNoAssertion (extractedNode ns path e) .name e.licenseName ++
  literals (extractedNode ns path e) .seeAlso e.crossReferences ++
  optLiteral (extractedNode ns path e) .rdfsComment e.comment ++
  [(docNode, .hasExtractedLicensingInfo, extractedNode ns path e)]

/-- rdf_writer.py L24-47: the graph of a document -/
def rdfGraph (env : RdfEnv) (d : Document) : Option RdfGraph :=
  let ns := d.creationInfo.documentNamespace
  let ext := externalNamespaces d.creationInfo.externalDocumentRefs
  match creationInfoTriples d.creationInfo,
    d.annotations.zipIdx.mapM (fun e => annotationTriples ns ext [e.2, 2] e.1),
    d.files.zipIdx.mapM (fun e => fileTriples env ns [e.2, 3] (.uri (addNamespace e.1.spdxId ns ext)) e.1),
    d.packages.zipIdx.mapM (fun e => packageTriples env ns [e.2, 4] (.uri (addNamespace e.1.spdxId ns ext)) e.1),
    d.relationships.zipIdx.mapM (fun e => relationshipTriples ns ext [e.2, 5] e.1),
    d.snippets.zipIdx.mapM (fun e => snippetTriples env ns ext [e.2, 6] (.uri (addNamespace e.1.spdxId ns ext)) e.1) with
  | some ci, some as, some fs, some ps, some rs, some ss => some (
    ci ++ as.flatten ++ fs.flatten ++ ps.flatten ++ rs.flatten ++ ss.flatten ++
    d.extractedLicensingInfo.zipIdx.flatMap fun e => extractedTriples ns [e.2, 7] (docNode d.creationInfo) e.1)
  | _, _, _, _, _, _ => none

end Spdx
