import Verif.Model.RdfParser
import Verif.Spec.JsonOk
import Verif.Spec.Valid
import Verif.Spec.Same
import Verif.Props.C38
/-
Which documents survive being written as RDF and being read again, and in which sense.  Each condition excludes a case that a set of
triples, or the program's reader or writer, cannot represent.
-/
namespace Spdx.Spec

/-! ### The same up to order: RDF has no order of values -/

/-- The same license expression up to the order of the arguments of AND and OR. -/
inductive SameLic : LicExpr → LicExpr → Prop where
  | sym (k : Str) : SameLic (.sym k) (.sym k)
  | withExc (l x : Str) : SameLic (.withExc l x) (.withExc l x)
  | and {l l' m : List LicExpr} : l'.length = l.length → (∀ (i : Nat) x y, l[i]? = some x → l'[i]? = some y → SameLic x y) → m.Perm l' →
      SameLic (.and l) (.and m)
  | or {l l' m : List LicExpr} : l'.length = l.length → (∀ (i : Nat) x y, l[i]? = some x → l'[i]? = some y → SameLic x y) → m.Perm l' →
      SameLic (.or l) (.or m)

/-- … or the same special value. -/
inductive SameLicOr : OrSpecial LicExpr → OrSpecial LicExpr → Prop where
  | val {e e' : LicExpr} : SameLic e e' → SameLicOr (.val e) (.val e')
  | noAssertion : SameLicOr .noAssertion .noAssertion
  | none : SameLicOr .none .none

/-- Both absent, or both present and related. -/
inductive SameOpt {α β : Type} (R : α → β → Prop) : Option α → Option β → Prop where
  | none : SameOpt R none none
  | some {a b} : R a b → SameOpt R (some a) (some b)

structure SameFile (f g : File) : Prop where
  name : g.name = f.name
  id : g.spdxId = f.spdxId
  checksums : g.checksums.Perm f.checksums
  types : g.fileTypes.Perm f.fileTypes
  concluded : SameOpt SameLicOr f.licenseConcluded g.licenseConcluded
  info : Rearranged2 SameLicOr f.licenseInfoInFile g.licenseInfoInFile
  licenseComment : g.licenseComment = f.licenseComment
  copyright : g.copyrightText = f.copyrightText
  comment : g.comment = f.comment
  notice : g.notice = f.notice
  contributors : g.contributors.Perm f.contributors
  attribution : g.attributionTexts.Perm f.attributionTexts

structure SameCode (c c' : PackageVerificationCode) : Prop where
  value : c'.value = c.value
  excluded : c'.excludedFiles.Perm c.excludedFiles

structure SamePackage (p q : Package) : Prop where
  id : q.spdxId = p.spdxId
  name : q.name = p.name
  download : q.downloadLocation = p.downloadLocation
  version : q.version = p.version
  fileName : q.fileName = p.fileName
  supplier : q.supplier = p.supplier
  originator : q.originator = p.originator
  analyzed : q.filesAnalyzed = p.filesAnalyzed
  code : SameOpt SameCode p.verificationCode q.verificationCode
  checksums : q.checksums.Perm p.checksums
  homepage : q.homepage = p.homepage
  sourceInfo : q.sourceInfo = p.sourceInfo
  concluded : SameOpt SameLicOr p.licenseConcluded q.licenseConcluded
  info : Rearranged2 SameLicOr p.licenseInfoFromFiles q.licenseInfoFromFiles
  declared : SameOpt SameLicOr p.licenseDeclared q.licenseDeclared
  licenseComment : q.licenseComment = p.licenseComment
  copyright : q.copyrightText = p.copyrightText
  summary : q.summary = p.summary
  description : q.description = p.description
  comment : q.comment = p.comment
  refs : q.externalReferences.Perm p.externalReferences
  attribution : q.attributionTexts.Perm p.attributionTexts
  purpose : q.primaryPackagePurpose = p.primaryPackagePurpose
  release : q.releaseDate = p.releaseDate
  built : q.builtDate = p.builtDate
  validUntil : q.validUntilDate = p.validUntilDate

structure SameSnippet (s t : Snippet) : Prop where
  id : t.spdxId = s.spdxId
  file : t.fileSpdxId = s.fileSpdxId
  bytes : t.byteRange = s.byteRange
  lines : t.lineRange = s.lineRange
  concluded : SameOpt SameLicOr s.licenseConcluded t.licenseConcluded
  info : Rearranged2 SameLicOr s.licenseInfoInSnippet t.licenseInfoInSnippet
  licenseComment : t.licenseComment = s.licenseComment
  copyright : t.copyrightText = s.copyrightText
  comment : t.comment = s.comment
  name : t.name = s.name
  attribution : t.attributionTexts.Perm s.attributionTexts

def SameLicense (e e' : ExtractedLicensingInfo) : Prop :=
  e'.crossReferences.Perm e.crossReferences ∧ e' = { e with crossReferences := e'.crossReferences }

def SameInfo (c c' : CreationInfo) : Prop :=
  c'.creators.Perm c.creators ∧ c'.externalDocumentRefs.Perm c.externalDocumentRefs ∧
  c' = { c with creators := c'.creators, externalDocumentRefs := c'.externalDocumentRefs }

structure SameRdf (d e : Document) : Prop where
  info : SameInfo d.creationInfo e.creationInfo
  packages : Rearranged2 SamePackage d.packages e.packages
  files : Rearranged2 SameFile d.files e.files
  snippets : Rearranged2 SameSnippet d.snippets e.snippets
  annotations : e.annotations.Perm d.annotations
  relationships : e.relationships.Perm d.relationships
  licenses : Rearranged2 SameLicense d.extractedLicensingInfo e.extractedLicensingInfo

/-- The license library judges an expression regardless of the order of the arguments of AND and OR. -/
structure Unordered (X : Ext) : Prop where
  symbols : ∀ a b, SameLic a b → ∀ t, t ∈ X.licInvalidSymbols a ↔ t ∈ X.licInvalidSymbols b
  strict : ∀ a b, SameLic a b → (X.licStrictParseError a = none ↔ X.licStrictParseError b = none)

/-! ### Which documents -/

/-- A text the reader does not change: it strips texts and takes an empty one for none. -/
def Clean (t : Str) : Prop := t ≠ [] ∧ strip t = t

/-- … and does not take for a special value. -/
def CleanVal (t : Str) : Prop := Clean t ∧ t ≠ s%"NONE" ∧ t ≠ s%"NOASSERTION"

/-- The namespace of the document: no fragment, different from the namespaces of SPDX that the reader looks for. -/
structure NamespaceOk (env : RdfEnv) (ns id : Str) : Prop where
  colon : ':' ∈ ns
  noHash : '#' ∉ ns
  defrag : env.defrag (ns ++ s%"#" ++ id) = ns
  license : ¬ licenseNamespace <+: ns
  terms : ns ++ s%"#" ≠ spdxNamespace
  reference : ¬ referenceNamespace <+: ns ∧ ¬ ns <+: referenceNamespace

mutual
/-- A license expression: the license library reads back the text of each part, composed of the texts of its parts as the reader
    composes them – without parentheses, whatever the order; the arguments of AND and OR are distinct. -/
def LicRdf (L : LicText) : LicExpr → Prop
  | .sym k => L.parse k = some (some (.sym k))
  | .withExc l x => L.parse l = some (some (.sym l)) ∧ L.parse (L.render (.sym l) ++ s%" WITH " ++ x) = some (some (.withExc l x))
  | .and l => LicRdfL L l ∧ l.Nodup ∧
      ∀ m, SameLic (.and l) (.and m) → L.parse (joinWith s%" AND " (m.map L.render)) = some (some (.and m))
  | .or l => LicRdfL L l ∧ l.Nodup ∧
      ∀ m, SameLic (.or l) (.or m) → L.parse (joinWith s%" OR " (m.map L.render)) = some (some (.or m))
def LicRdfL (L : LicText) : List LicExpr → Prop
  | [] => True
  | e :: l => LicRdf L e ∧ LicRdfL L l
end

mutual
/-- How deep the reader recurses into the expression. -/
def licHeight : LicExpr → Nat
  | .sym _ => 1
  | .withExc .. => 2
  | .and l => licHeightL l + 1
  | .or l => licHeightL l + 1
def licHeightL : List LicExpr → Nat
  | [] => 0
  | e :: l => max (licHeight e) (licHeightL l)
end

/-- A license expression or a special value. -/
def LicOrRdf (env : RdfEnv) (x : OrSpecial LicExpr) : Prop := ∀ e, x = .val e → LicRdf env.lic e ∧ licHeight e ≤ env.depth

/-- A text or a special value. -/
def TextOr (x : OrSpecial Str) : Prop := ∀ t, x = .val t → CleanVal t

structure FileRdf (env : RdfEnv) (f : File) : Prop where
  id : LocalId f.spdxId
  name : Clean f.name
  checksums : ∀ c ∈ f.checksums, Clean c.value
  types : f.fileTypes.Nodup
  concluded : ∀ x, f.licenseConcluded = some x → LicOrRdf env x
  info : f.licenseInfoInFile.Nodup ∧ ∀ x ∈ f.licenseInfoInFile, LicOrRdf env x
  licenseComment : ∀ t, f.licenseComment = some t → Clean t
  copyright : ∀ x, f.copyrightText = some x → TextOr x
  comment : ∀ t, f.comment = some t → Clean t
  notice : ∀ t, f.notice = some t → Clean t
  contributors : f.contributors.Nodup
  attribution : f.attributionTexts.Nodup

structure CodeRdf (c : PackageVerificationCode) : Prop where
  value : Clean c.value
  excluded : c.excludedFiles.Nodup

structure PackageRefRdf (r : ExternalPackageRef) : Prop where
  locator : Clean r.locator
  comment : ∀ t, r.comment = some t → Clean t

structure PackageRdf (env : RdfEnv) (p : Package) : Prop where
  id : LocalId p.spdxId
  name : Clean p.name
  download : TextOr p.downloadLocation
  version : ∀ t, p.version = some t → Clean t
  fileName : ∀ t, p.fileName = some t → Clean t
  supplier : ∀ a, p.supplier = some (.val a) → C05.Expressible a
  originator : ∀ a, p.originator = some (.val a) → C05.Expressible a
  code : ∀ c, p.verificationCode = some c → CodeRdf c
  checksums : ∀ c ∈ p.checksums, Clean c.value
  /-- NONE and NOASSERTION are read as texts -/
  homepage : ∀ x, p.homepage = some x → ∃ t, x = .val t ∧ Clean t
  sourceInfo : ∀ t, p.sourceInfo = some t → Clean t
  concluded : ∀ x, p.licenseConcluded = some x → LicOrRdf env x
  info : p.licenseInfoFromFiles.Nodup ∧ ∀ x ∈ p.licenseInfoFromFiles, LicOrRdf env x
  declared : ∀ x, p.licenseDeclared = some x → LicOrRdf env x
  licenseComment : ∀ t, p.licenseComment = some t → Clean t
  copyright : ∀ x, p.copyrightText = some x → TextOr x
  summary : ∀ t, p.summary = some t → Clean t
  description : ∀ t, p.description = some t → Clean t
  comment : ∀ t, p.comment = some t → Clean t
  refs : ∀ r ∈ p.externalReferences, PackageRefRdf r
  attribution : p.attributionTexts.Nodup
  release : ∀ t, p.releaseDate = some t → DateOk t
  built : ∀ t, p.builtDate = some t → DateOk t
  validUntil : ∀ t, p.validUntilDate = some t → DateOk t

structure SnippetRdf (env : RdfEnv) (refs : List ExternalDocumentRef) (s : Snippet) : Prop where
  id : LocalId s.spdxId
  file : C38.Usable refs s.fileSpdxId
  bytes : s.byteRange.1 ≠ 0 ∧ s.byteRange.2 ≠ 0
  lines : ∃ r, s.lineRange = some r ∧ r.1 ≠ 0 ∧ r.2 ≠ 0
  concluded : ∀ x, s.licenseConcluded = some x → LicOrRdf env x
  info : s.licenseInfoInSnippet.Nodup ∧ ∀ x ∈ s.licenseInfoInSnippet, LicOrRdf env x
  licenseComment : ∀ t, s.licenseComment = some t → Clean t
  copyright : ∀ x, s.copyrightText = some x → TextOr x
  comment : ∀ t, s.comment = some t → Clean t
  name : ∀ t, s.name = some t → Clean t
  attribution : s.attributionTexts.Nodup

structure AnnotationRdf (refs : List ExternalDocumentRef) (a : Annotation) : Prop where
  id : C38.Usable refs a.spdxId
  annotator : C05.Expressible a.annotator
  date : DateOk a.annotationDate
  comment : Clean a.annotationComment

structure RelationshipRdf (refs : List ExternalDocumentRef) (r : Relationship) : Prop where
  id : C38.Usable refs r.spdxElementId
  related : ∀ t, r.relatedSpdxElementId = .val t → C38.Usable refs t
  comment : ∀ t, r.comment = some t → Clean t

structure LicenseRdf (e : ExtractedLicensingInfo) : Prop where
  id : ∃ i, e.licenseId = some i ∧ Clean i
  text : ∀ t, e.extractedText = some t → Clean t
  name : ∀ t, e.licenseName = some (.val t) → CleanVal t
  cross : e.crossReferences.Nodup
  comment : ∀ t, e.comment = some t → Clean t

structure InfoRdf (c : CreationInfo) : Prop where
  id : c.spdxId ≠ []
  version : Clean c.spdxVersion
  name : Clean c.name
  comment : ∀ t, c.documentComment = some t → Clean t
  created : DateOk c.created
  creators : c.creators ≠ [] ∧ c.creators.Nodup ∧ ∀ a ∈ c.creators, C05.Expressible a
  creatorComment : ∀ t, c.creatorComment = some t → Clean t
  refs : C38.Separate c.documentNamespace c.externalDocumentRefs
  ref : ∀ r ∈ c.externalDocumentRefs, Clean r.documentUri ∧ Clean r.checksum.value

/-- The names of the things in the document that get a reference of their own. -/
def rdfNames (d : Document) : List Str :=
  d.creationInfo.spdxId :: (d.creationInfo.externalDocumentRefs.map (·.documentRefId) ++ d.files.map (·.spdxId) ++ d.packages.map (·.spdxId) ++
    d.snippets.map (·.spdxId) ++ d.extractedLicensingInfo.filterMap (·.licenseId))

structure DocRdf (env : RdfEnv) (d : Document) : Prop where
  ns : NamespaceOk env d.creationInfo.documentNamespace d.creationInfo.spdxId
  info : InfoRdf d.creationInfo
  names : (rdfNames d).Nodup
  files : ∀ f ∈ d.files, FileRdf env f
  packages : ∀ p ∈ d.packages, PackageRdf env p
  snippets : ∀ s ∈ d.snippets, SnippetRdf env d.creationInfo.externalDocumentRefs s
  annotations : ∀ a ∈ d.annotations, AnnotationRdf d.creationInfo.externalDocumentRefs a
  relationships : ∀ r ∈ d.relationships, RelationshipRdf d.creationInfo.externalDocumentRefs r
  licenses : ∀ e ∈ d.extractedLicensingInfo, LicenseRdf e

end Spdx.Spec
