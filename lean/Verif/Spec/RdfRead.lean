import Verif.Model.RdfParser
/-
What an RDF graph says about a document, read off its triples: the value of a field is the object of the triple with the element's node and
the field's property.
-/
namespace Spdx.Spec.RdfSays
open Spdx

/-- The values of a property of a node. -/
def values (g : RdfGraph) (n : RdfNode) (p : Pred) : List RdfNode :=
  g.filterMap fun t => if t.1 = n ∧ t.2.1 = p then some t.2.2 else none

/-- The nodes of a class, each once per triple. -/
def nodes (g : RdfGraph) (cls : Str) : List RdfNode :=
  g.filterMap fun t => if t.2.1 = .type ∧ t.2.2 = .uri (s%"http://spdx.org/rdf/terms#" ++ cls) then some t.1 else none

/-- The pairs of nodes related by a property. -/
def related (g : RdfGraph) (p : Pred) : List (RdfNode × RdfNode) :=
  g.filterMap fun t => if t.2.1 = p then some (t.1, t.2.2) else none

/-- Two lists of the same length whose entries are related. -/
inductive All2 {α β : Type} (R : α → β → Prop) : List α → List β → Prop
  | nil : All2 R [] []
  | cons {a b l m} : R a b → All2 R l m → All2 R (a :: l) (b :: m)

/-- An empty text, zero or false. -/
def Blank (v : RdfNode) : Prop := v = .uri [] ∨ v = .str [] ∨ v = .bool false ∨ v = .int 0

/-- At most one value is given, `x` is what it means; none if it is not given or empty. -/
def Optional {α : Type} (vs : List RdfNode) (R : RdfNode → α → Prop) (x : Option α) : Prop :=
  (vs = [] ∧ x = none) ∨ ∃ v, vs = [v] ∧ ((Blank v ∧ x = none) ∨ (¬ Blank v ∧ ∃ y, R v y ∧ x = some y))

/-- "NOASSERTION", as a term or a text. -/
def NoAssertion (v : RdfNode) : Prop :=
  v = .uri s%"http://spdx.org/rdf/terms#noassertion" ∨ v = .uri s%"NOASSERTION" ∨ v = .str s%"NOASSERTION"
/-- "NONE", as a term or a text. -/
def IsNone (v : RdfNode) : Prop := v = .uri s%"http://spdx.org/rdf/terms#none" ∨ v = .uri s%"NONE" ∨ v = .str s%"NONE"

/-- The meaning of a value that may be special; an ordinary value may mean nothing (a blank license expression). -/
inductive Special {α : Type} (R : RdfNode → Option α → Prop) (v : RdfNode) : Option (OrSpecial α) → Prop
  | blank : Blank v → Special R v none
  | noAssertion : NoAssertion v → Special R v (some .noAssertion)
  | none : IsNone v → Special R v (some .none)
  | value (o : Option α) : ¬ Blank v → ¬ NoAssertion v → ¬ IsNone v → R v o → Special R v (o.map .val)

/-- At most one value is given, which may be special. -/
def OptionalSpecial {α : Type} (vs : List RdfNode) (R : RdfNode → Option α → Prop) (x : Option (OrSpecial α)) : Prop :=
  (vs = [] ∧ x = none) ∨ ∃ v, vs = [v] ∧ Special R v x

/-- As an option without NONE. -/
def withNone {α : Type} : Option (OrNoAssertion α) → Option (OrSpecial α)
  | none => none
  | some (.val a) => some (.val a)
  | some .noAssertion => some .noAssertion

/-! The meaning of single values. -/

/-- a text without white space at its ends -/
def Text (v : RdfNode) (s : Str) : Prop := s = strip v.text
/-- a text as it is; numbers and booleans are no texts -/
def Raw (v : RdfNode) (s : Str) : Prop := (∀ b, v ≠ .bool b) ∧ (∀ i, v ≠ .int i) ∧ s = v.text
/-- the text Python shows for a value -/
def Shown (v : RdfNode) (s : Str) : Prop :=
  (v = .bool true ∧ s = s%"True") ∨ (v = .bool false ∧ s = s%"False") ∨ ((∀ b, v ≠ .bool b) ∧ s = v.text)
def TextS (v : RdfNode) (o : Option Str) : Prop := o = some (strip v.text)
def Date (v : RdfNode) (t : DateTime) : Prop := datetimeFromStr v.text = some t
def IsVersion (v : RdfNode) (t : Version) : Prop := versionFromString v.text = some t
def IsActor (v : RdfNode) (a : Actor) : Prop := parseActor v.text = .ok a
def ActorS (v : RdfNode) (o : Option Actor) : Prop := ∃ a, parseActor v.text = .ok a ∧ o = some a
def Member {α : Type} (ofName? : Str → Option α) (pre : Str) (v : RdfNode) (x : α) : Prop := enumFromRdf ofName? pre v.text = some x
def Algorithm (v : RdfNode) (x : ChecksumAlgorithm) : Prop := algorithmFromRdf v.text = some x
def DataLicense (v : RdfNode) (s : Str) : Prop := s = removePrefix v.text s%"http://spdx.org/licenses/"

/-- The identifier of a node: what follows the document's namespace; for other references with a fragment the short form under the prefixes
    bound; other texts are identifiers themselves. Blank nodes have none. -/
inductive Id (b : Bindings) (ns : Str) : RdfNode → Str → Prop
  | internal (u : Str) : startsWith u (ns ++ s%"#") = true → Id b ns (.uri u) (fragmentOf u)
  | external (v : RdfNode) : (∀ q, v ≠ .bnode q) → ¬ Blank v → startsWith v.text (ns ++ s%"#") = false → '#' ∈ v.text →
      Id b ns v (normalizeUri b v.text)
  | plain (v : RdfNode) : (∀ q, v ≠ .bnode q) → ¬ Blank v → startsWith v.text (ns ++ s%"#") = false → '#' ∉ v.text → Id b ns v v.text

/-- An identifier that may be missing. -/
def IdS (b : Bindings) (ns : Str) (v : RdfNode) (o : Option Str) : Prop :=
  (∃ id, Id b ns v id ∧ o = some id) ∨ (((∃ q, v = .bnode q) ∨ Blank v) ∧ o = none)

/-- The text of a member of a license set. -/
def licText (env : RdfEnv) : Option LicExpr → Str
  | none => s%"None"
  | some e => env.lic.render e

/-- The name of a license exception. -/
def IsException (g : RdfGraph) (v : RdfNode) (s : Str) : Prop :=
  v.text = s%"http://spdx.org/licenses/" ++ s ∨
    (startsWith v.text s%"http://spdx.org/licenses/" = false ∧ ∃ w, (values g v .licenseExceptionId).head? = some w ∧ Shown w s)

/-- The class of a node, if any. -/
def HasClass (g : RdfGraph) (v : RdfNode) (cls : Str) : Prop :=
  (values g v .type).head? = some (.uri (s%"http://spdx.org/rdf/terms#" ++ cls))

/-- The license expression a node stands for, if `Lic` says so for the nodes below it. -/
inductive LicenseNode (env : RdfEnv) (g : RdfGraph) (ns : Str) (Lic : RdfNode → Option LicExpr → Prop) (v : RdfNode) (o : Option LicExpr) : Prop
  | listed (s : Str) : v.text = s%"http://spdx.org/licenses/" ++ s → env.lic.parse s = some o → LicenseNode env g ns Lic v o
  | extracted (u : Str) : v = .uri u → startsWith u s%"http://spdx.org/licenses/" = false → startsWith u ns = true →
      env.lic.parse (fragmentOf u) = some o → LicenseNode env g ns Lic v o
  | set (cls sep : Str) (ms : List (Option LicExpr)) :
      startsWith v.text s%"http://spdx.org/licenses/" = false → startsWith v.text ns = false →
      (cls, sep) ∈ [(s%"ConjunctiveLicenseSet", s%" AND "), (s%"DisjunctiveLicenseSet", s%" OR ")] → HasClass g v cls →
      All2 Lic (values g v .member) ms →
      env.lic.parse (joinWith sep (ms.map (licText env))) = some o → LicenseNode env g ns Lic v o
  | withException (m x : RdfNode) (l : Option LicExpr) (s : Str) :
      startsWith v.text s%"http://spdx.org/licenses/" = false → startsWith v.text ns = false → HasClass g v s%"WithExceptionOperator" →
      (values g v .member).head? = some m → Lic m l →
      (values g v .licenseException).head? = some x → IsException g x s →
      env.lic.parse (licText env l ++ s%" WITH " ++ s) = some o → LicenseNode env g ns Lic v o
  | other : startsWith v.text s%"http://spdx.org/licenses/" = false → startsWith v.text ns = false →
      (∀ cls ∈ [s%"ConjunctiveLicenseSet", s%"DisjunctiveLicenseSet", s%"WithExceptionOperator"], ¬ HasClass g v cls) →
      env.lic.parse [] = some o → LicenseNode env g ns Lic v o

/-- The license expression a node stands for, with nodes nested fewer than `depth` deep. -/
def License (env : RdfEnv) (g : RdfGraph) (ns : Str) : Nat → RdfNode → Option LicExpr → Prop
  | 0 => fun _ _ => False
  | depth + 1 => LicenseNode env g ns (License env g ns depth)

/-- A license, or a special value. -/
def IsLicense (env : RdfEnv) (g : RdfGraph) (ns : Str) (v : RdfNode) (x : OrSpecial LicExpr) : Prop :=
  Special (License env g ns env.depth) v (some x)

structure IsChecksum (g : RdfGraph) (n : RdfNode) (c : Checksum) : Prop where
  algorithm : Optional (values g n .algorithm) Algorithm (some c.algorithm)
  value : Optional (values g n .checksumValue) Text (some c.value)

/-! ### Elements -/

structure IsExternalRef (g : RdfGraph) (b : Bindings) (ns : Str) (n : RdfNode) (r : ExternalDocumentRef) : Prop where
  id : Id b ns n r.documentRefId ∧ ' ' ∉ r.documentRefId
  uri : Optional (values g n .spdxDocument) Text (some r.documentUri)
  checksum : Optional (values g n .checksum) (IsChecksum g) (some r.checksum)

/-- The references to other documents, each of which binds a prefix for the following ones. -/
inductive ExternalRefs (g : RdfGraph) (ns : Str) : Bindings → List RdfNode → List ExternalDocumentRef → Bindings → Prop
  | nil (b : Bindings) : ExternalRefs g ns b [] [] b
  | cons (b b' : Bindings) (n : RdfNode) (l : List RdfNode) (r : ExternalDocumentRef) (rs : List ExternalDocumentRef) :
      IsExternalRef g b ns n r → ExternalRefs g ns (b.bind r.documentRefId (r.documentUri ++ s%"#")) l rs b' →
      ExternalRefs g ns b (n :: l) (r :: rs) b'

/-- The document's node, namespace and identifier: the only node of its class, whose text is split at the fragment. -/
structure IsDocument (env : RdfEnv) (g : RdfGraph) (n : RdfNode) (ns id : Str) : Prop where
  only : nodes g s%"SpdxDocument" = [n]
  fragment : '#' ∈ n.text
  namespaceIs : ns = env.defrag n.text ∧ ns ≠ []
  idIs : id = fragmentOf n.text ∧ id ≠ []

/-- The creation information and the bindings its references leave. -/
structure IsInfo (env : RdfEnv) (g : RdfGraph) (b : Bindings) (c : CreationInfo) (b' : Bindings) (doc i : RdfNode) : Prop where
  document : IsDocument env g doc c.documentNamespace c.spdxId
  info : (nodes g s%"CreationInfo").head? = some i ∧ ¬ Blank i
  spdxVersion : Optional (values g doc .specVersion) Text (some c.spdxVersion)
  dataLicense : Optional (values g doc .dataLicense) DataLicense (some c.dataLicense)
  documentComment : Optional (values g doc .rdfsComment) Text c.documentComment
  name : Optional (values g doc .name) Text (some c.name)
  created : Optional (values g i .created) Date (some c.created)
  licenseListVersion : Optional (values g i .licenseListVersion) IsVersion c.licenseListVersion
  creatorComment : Optional (values g i .rdfsComment) Text c.creatorComment
  creators : All2 (fun v a => ∃ s, Raw v s ∧ parseActor s = .ok a) (values g i .creator) c.creators ∧ c.creators ≠ []
  externalDocumentRefs : ExternalRefs g c.documentNamespace b (values g doc .externalDocumentRef) c.externalDocumentRefs b'

structure IsAnnotation (g : RdfGraph) (b : Bindings) (ns : Str) (e : RdfNode × RdfNode) (a : Annotation) : Prop where
  spdxId : Id b ns e.1 a.spdxId
  annotationType : Optional (values g e.2 .annotationType) (Member AnnotationType.ofName? s%"annotationType_") (some a.annotationType)
  annotator : Optional (values g e.2 .annotator) IsActor (some a.annotator)
  annotationDate : Optional (values g e.2 .annotationDate) Date (some a.annotationDate)
  annotationComment : Optional (values g e.2 .rdfsComment) Text (some a.annotationComment)

structure IsFile (env : RdfEnv) (g : RdfGraph) (b : Bindings) (ns : Str) (n : RdfNode) (f : File) : Prop where
  name : Optional (values g n .fileName) Text (some f.name)
  spdxId : Id b ns n f.spdxId
  checksums : All2 (IsChecksum g) (values g n .checksum) f.checksums
  fileTypes : All2 (Member FileType.ofName? s%"fileType_") (values g n .fileType) f.fileTypes
  licenseConcluded : OptionalSpecial (values g n .licenseConcluded) (License env g ns env.depth) f.licenseConcluded
  licenseInfoInFile : All2 (IsLicense env g ns) (values g n .licenseInfoInFile) f.licenseInfoInFile
  licenseComment : Optional (values g n .licenseComments) Text f.licenseComment
  copyrightText : OptionalSpecial (values g n .copyrightText) TextS f.copyrightText
  comment : Optional (values g n .rdfsComment) Text f.comment
  notice : Optional (values g n .noticeText) Text f.notice
  contributors : All2 Raw (values g n .fileContributor) f.contributors
  attributionTexts : All2 Raw (values g n .attributionText) f.attributionTexts

structure IsCode (g : RdfGraph) (n : RdfNode) (c : PackageVerificationCode) : Prop where
  value : Optional (values g n .packageVerificationCodeValue) Text (some c.value)
  excludedFiles : All2 Raw (values g n .packageVerificationCodeExcludedFile) c.excludedFiles

/-- The type of a reference of a package. -/
inductive RefType (ns : Str) : RdfNode → Str → Prop
  | own (u : Str) : startsWith u ns = true → RefType ns (.uri u) (fragmentOf u)
  | listed (v : RdfNode) : startsWith v.text ns = false → startsWith v.text s%"http://spdx.org/rdf/references/" = true →
      RefType ns v (replaceStr s%"http://spdx.org/rdf/references/" [] v.text)
  | other (v : RdfNode) (s : Str) : startsWith v.text ns = false → startsWith v.text s%"http://spdx.org/rdf/references/" = false → Raw v s →
      RefType ns v s

structure IsPackageRef (g : RdfGraph) (ns : Str) (n : RdfNode) (r : ExternalPackageRef) : Prop where
  category : Optional (values g n .referenceCategory) (Member ExternalPackageRefCategory.ofName? s%"referenceCategory_") (some r.category)
  referenceType : Optional (values g n .referenceType) (RefType ns) (some r.referenceType)
  locator : Optional (values g n .referenceLocator) Text (some r.locator)
  comment : Optional (values g n .rdfsComment) Text r.comment

structure IsPackage (env : RdfEnv) (g : RdfGraph) (b : Bindings) (ns : Str) (n : RdfNode) (p : Package) : Prop where
  spdxId : Id b ns n p.spdxId
  name : Optional (values g n .name) Text (some p.name)
  downloadLocation : OptionalSpecial (values g n .downloadLocation) TextS (some p.downloadLocation)
  version : Optional (values g n .versionInfo) Text p.version
  fileName : Optional (values g n .packageFileName) Text p.fileName
  supplier : OptionalSpecial (values g n .supplier) ActorS (withNone p.supplier)
  originator : OptionalSpecial (values g n .originator) ActorS (withNone p.originator)
  filesAnalyzed : p.filesAnalyzed = false ↔ ∃ v, (values g n .filesAnalyzed).head? = some v ∧ Blank v
  verificationCode : Optional (values g n .packageVerificationCode) (IsCode g) p.verificationCode
  checksums : All2 (IsChecksum g) (values g n .checksum) p.checksums
  homepage : ∃ t, Optional (values g n .homepage) Text t ∧ p.homepage = t.map .val
  sourceInfo : Optional (values g n .sourceInfo) Text p.sourceInfo
  licenseConcluded : OptionalSpecial (values g n .licenseConcluded) (License env g ns env.depth) p.licenseConcluded
  licenseInfoFromFiles : All2 (IsLicense env g ns) (values g n .licenseInfoFromFiles) p.licenseInfoFromFiles
  licenseDeclared : OptionalSpecial (values g n .licenseDeclared) (License env g ns env.depth) p.licenseDeclared
  licenseComment : Optional (values g n .licenseComments) Text p.licenseComment
  copyrightText : OptionalSpecial (values g n .copyrightText) TextS p.copyrightText
  summary : Optional (values g n .summary) Text p.summary
  description : Optional (values g n .description) Text p.description
  comment : Optional (values g n .rdfsComment) Text p.comment
  externalReferences : All2 (IsPackageRef g ns) (values g n .externalRef) p.externalReferences
  attributionTexts : All2 Raw (values g n .attributionText) p.attributionTexts
  primaryPackagePurpose : Optional (values g n .primaryPackagePurpose) (Member PackagePurpose.ofName? s%"purpose_") p.primaryPackagePurpose
  releaseDate : Optional (values g n .releaseDate) Date p.releaseDate
  builtDate : Optional (values g n .builtDate) Date p.builtDate
  validUntilDate : Optional (values g n .validUntilDate) Date p.validUntilDate

/-- The number a value gives: an integer other than 0, true for 1, or the text of a number. -/
inductive Number : RdfNode → Int → Prop
  | int (i : Int) : i ≠ 0 → Number (.int i) i
  | true : Number (.bool true) 1
  | text (s : Str) (i : Int) : s ≠ [] → pyIntText s = some i → Number (.str s) i
  | uri (s : Str) (i : Int) : s ≠ [] → pyIntText s = some i → Number (.uri s) i

/-- A pointer into the file: the only value of its property, of the class given, with one number. -/
def Pointer (g : RdfGraph) (n : RdfNode) (p : Pred) (cls : Str) (number : Pred) (i : Int) : Prop :=
  ∃ q, values g n p = [q] ∧ ¬ Blank q ∧ (values g q .type).head? = some (.uri (s%"http://www.w3.org/2009/pointers#" ++ cls)) ∧
    ∃ v, values g q number = [v] ∧ Number v i

/-- A range of bytes or lines, from its first to its last. -/
def Range (g : RdfGraph) (n : RdfNode) : RangeKind × (Int × Int) → Prop
  | (.byte, r) => Pointer g n .startPointer s%"ByteOffsetPointer" .offset r.1 ∧ Pointer g n .endPointer s%"ByteOffsetPointer" .offset r.2
  | (.line, r) => Pointer g n .startPointer s%"LineCharPointer" .lineNumber r.1 ∧ Pointer g n .endPointer s%"LineCharPointer" .lineNumber r.2

structure IsSnippet (env : RdfEnv) (g : RdfGraph) (b : Bindings) (ns : Str) (n : RdfNode) (s : Snippet) : Prop where
  spdxId : Id b ns n s.spdxId
  fileSpdxId : ∃ f, (values g n .snippetFromFile).head? = some f ∧ Id b ns f s.fileSpdxId
  /-- one range of bytes, at most one range of lines, and no others -/
  ranges : ∃ rs, All2 (Range g) (values g n .range) rs ∧ rs.filter (fun r => r.1 = .byte) = [(.byte, s.byteRange)] ∧
    rs.filter (fun r => r.1 = .line) = s.lineRange.toList.map fun r => (.line, r)
  licenseConcluded : OptionalSpecial (values g n .licenseConcluded) (License env g ns env.depth) s.licenseConcluded
  licenseInfoInSnippet : All2 (IsLicense env g ns) (values g n .licenseInfoInSnippet) s.licenseInfoInSnippet
  licenseComment : Optional (values g n .licenseComments) Text s.licenseComment
  copyrightText : OptionalSpecial (values g n .copyrightText) TextS s.copyrightText
  comment : Optional (values g n .rdfsComment) Text s.comment
  name : Optional (values g n .name) Text s.name
  attributionTexts : All2 Raw (values g n .attributionText) s.attributionTexts

structure IsRelationship (g : RdfGraph) (b : Bindings) (ns : Str) (e : RdfNode × RdfNode) (r : Relationship) : Prop where
  spdxElementId : Id b ns e.1 r.spdxElementId
  relationshipType : Optional (values g e.2 .relationshipType) (Member RelationshipType.ofName? s%"relationshipType_") (some r.relationshipType)
  relatedSpdxElementId : OptionalSpecial (values g e.2 .relatedSpdxElement) (IdS b ns) (some r.relatedSpdxElementId)
  comment : Optional (values g e.2 .rdfsComment) Text r.comment

/-- A relationship given by a property of its own. -/
def IsImplicit (b : Bindings) (ns : Str) (type : RelationshipType) (e : RdfNode × RdfNode) (r : Relationship) : Prop :=
  ∃ x y, Id b ns e.1 x ∧ Id b ns e.2 y ∧ r = ⟨x, type, .val y, none⟩

/-- The list with the entries added that are not there yet. -/
def addNew (l : List Relationship) (new : List Relationship) : List Relationship := new.foldl (fun l r => if r ∈ l then l else l ++ [r]) l

/-- The identifier of an extracted license: the one given, or the name of its node. -/
def LicenseId (g : RdfGraph) (ns : Str) (n : RdfNode) (id : Str) : Prop :=
  ∃ o, Optional (values g n .licenseId) Text o ∧ ((o = some id ∧ id ≠ []) ∨
    ((o = none ∨ o = some []) ∧ ((∃ u, n = .uri u ∧ startsWith u (ns ++ s%"#") = true ∧ id = fragmentOf u) ∨
      (startsWith n.text (ns ++ s%"#") = false ∧ Raw n id))))

structure IsExtracted (g : RdfGraph) (ns : Str) (n : RdfNode) (e : ExtractedLicensingInfo) : Prop where
  licenseId : ∃ id, e.licenseId = some id ∧ LicenseId g ns n id
  extractedText : Optional (values g n .extractedText) Text e.extractedText
  comment : Optional (values g n .rdfsComment) Text e.comment
  licenseName : OptionalSpecial (values g n .name) TextS (withNone e.licenseName)
  crossReferences : All2 Raw (values g n .seeAlso) e.crossReferences

/-- What a graph with the bindings `b` says. -/
structure IsRdf (env : RdfEnv) (b : Bindings) (g : RdfGraph) (d : Document) (b' : Bindings) (ns : Str) : Prop where
  namespaceIs : ns = d.creationInfo.documentNamespace
  creationInfo : ∃ doc i, IsInfo env g b d.creationInfo b' doc i
  packages : All2 (IsPackage env g b' ns) (nodes g s%"Package") d.packages
  files : All2 (IsFile env g b' ns) (nodes g s%"File") d.files
  snippets : All2 (IsSnippet env g b' ns) (nodes g s%"Snippet") d.snippets
  annotations : All2 (IsAnnotation g b' ns) (related g .annotation) d.annotations
  relationships : ∃ own contains describes, All2 (IsRelationship g b' ns) (related g .relationship) own ∧
    All2 (IsImplicit b' ns .CONTAINS) (related g .hasFile) contains ∧
    All2 (IsImplicit b' ns .DESCRIBES) (related g .describesPackage) describes ∧
    d.relationships = addNew own (contains ++ describes)
  extractedLicensingInfo : All2 (fun e x => IsExtracted g ns e.2 x) (related g .hasExtractedLicensingInfo) d.extractedLicensingInfo

end Spdx.Spec.RdfSays
