import Verif.Model.Ext
import Verif.Model.Uri
/-
Declarative rules for SPDX documents, independent of the validators: predicates on the data model only.
(`Re.Matches` is the language of a regular expression; the locator and URL patterns themselves are data of the format.)
-/
namespace Spdx.Spec
open Spdx

/-- The rule `P`, also satisfied by a text with one additional final newline (Python's `$`). -/
def OrNewline (P : Str → Prop) (s : Str) : Prop := P s ∨ ∃ t, s = t ++ ['\n'] ∧ P t

/-- Only the characters 0-9 and a-f. -/
def LowerHex (s : Str) : Prop := ∀ c ∈ s, c ∈ s%"0123456789abcdef"

/-- ASCII letters, decimal digits (of any script), dot, hyphen. -/
def IdChar (c : Char) : Prop :=
  ('a' ≤ c ∧ c ≤ 'z') ∨ ('A' ≤ c ∧ c ≤ 'Z') ∨ isPyDigit c = true ∨ c = '.' ∨ c = '-'

/-- `SPDXRef-…` -/
def LocalId (s : Str) : Prop := ∃ t, t ≠ [] ∧ s = s%"SPDXRef-" ++ t ∧ ∀ c ∈ t, IdChar c
/-- `DocumentRef-…` -/
def DocRef (s : Str) : Prop := ∃ t, t ≠ [] ∧ s = s%"DocumentRef-" ++ t ∧ ∀ c ∈ t, IdChar c ∨ c = '+'
/-- `LicenseRef-…` -/
def LicRef (s : Str) : Prop := ∃ t, t ≠ [] ∧ s = s%"LicenseRef-" ++ t ∧ ∀ c ∈ t, IdChar c

/-- The identifiers of the document and of its elements. -/
def InDocument (d : Document) (id : Str) : Prop :=
  id = d.creationInfo.spdxId ∨ (∃ p ∈ d.packages, p.spdxId = id) ∨ (∃ f ∈ d.files, f.spdxId = id) ∨
    (∃ s ∈ d.snippets, s.spdxId = id)
def InFiles (d : Document) (id : Str) : Prop := ∃ f ∈ d.files, f.spdxId = id
/-- A declared external document reference. -/
def Declared (d : Document) (ref : Str) : Prop := ∃ r ∈ d.creationInfo.externalDocumentRefs, r.documentRefId = ref

/-- An identifier that is local (and satisfies `P`) or lies in a declared external document. -/
def IdRule (d : Document) (P : Str → Prop) (id : Str) : Prop :=
  (OrNewline LocalId id ∧ P id) ∨
  ∃ ref loc, id = ref ++ ':' :: loc ∧ OrNewline DocRef ref ∧ OrNewline LocalId loc ∧ Declared d ref

/-- Number of hex digits the validator wants for an algorithm. -/
def HexDigits : ChecksumAlgorithm → Nat → Prop
  | .SHA1, n => n = 40
  | .SHA224, n => n = 56
  | .SHA256, n | .SHA3_256, n | .BLAKE2B_256, n => n = 64
  | .SHA384, n | .SHA3_384, n | .BLAKE2B_384, n => n = 96
  | .SHA512, n | .SHA3_512, n | .BLAKE2B_512, n => n = 128
  | .BLAKE3, n => 256 ≤ n
  | .MD2, n | .MD4, n | .MD5, n => n = 32
  | .MD6, n => n ≤ 512
  | .ADLER32, n => n = 8

/-- Algorithms that SPDX-2.2 does not have. -/
def Only23 : ChecksumAlgorithm → Prop
  | .SHA3_256 | .SHA3_384 | .SHA3_512 | .BLAKE2B_256 | .BLAKE2B_384 | .BLAKE2B_512 | .BLAKE3 | .ADLER32 => True
  | _ => False

def ChecksumRule (is22 : Prop) (c : Checksum) : Prop :=
  ¬ (is22 ∧ Only23 c.algorithm) ∧ OrNewline (fun v => LowerHex v ∧ HexDigits c.algorithm v.length) c.value

def ActorRule (a : Actor) : Prop := a.actorType = .TOOL → a.email = none

def UriRule (X : Ext) (u : Str) : Prop := X.isAbsUri u = true ∧ X.uriHasScheme u = true
/-- Some prefix is a URL. -/
def UrlRule (X : Ext) (u : Str) : Prop := ∃ a b, u = a ++ b ∧ Re.Matches (urlPattern X) a
def DownloadRule (X : Ext) (u : Str) : Prop := UrlRule X u ∨ OrNewline (Re.Matches (downloadLocationPattern X)) u

def ExternalDocumentRefRule (X : Ext) (is22 : Prop) (r : ExternalDocumentRef) : Prop :=
  OrNewline DocRef r.documentRefId ∧ UriRule X r.documentUri ∧ ChecksumRule is22 r.checksum

def CreationInfoRule (X : Ext) (is22 : Prop) (ci : CreationInfo) : Prop :=
  ci.spdxId = s%"SPDXRef-DOCUMENT" ∧ ci.dataLicense = s%"CC0-1.0" ∧ UriRule X ci.documentNamespace ∧
  (∀ a ∈ ci.creators, ActorRule a) ∧ (∀ r ∈ ci.externalDocumentRefs, ExternalDocumentRefRule X is22 r)

/-- A license symbol that is not on the SPDX license list is an extracted license of the document or
    `DocumentRef-x:LicenseRef-y` with a declared `DocumentRef-x`. -/
def LicSymbolRule (d : Document) (t : Str) : Prop :=
  (':' ∉ t ∧ ∃ e ∈ d.extractedLicensingInfo, e.licenseId = some t) ∨
  (∃ ref loc, t = ref ++ ':' :: loc ∧ ':' ∉ ref ∧ ':' ∉ loc ∧ s%"LicenseRef-" <+: loc ∧ Declared d ref)

def LicRule (X : Ext) (d : Document) : OrSpecial LicExpr → Prop
  | .val e => (∀ t ∈ X.licInvalidSymbols e, LicSymbolRule d t) ∧ X.licStrictParseError e = none
  | _ => True
def LicRuleOpt (X : Ext) (d : Document) (e : Option (OrSpecial LicExpr)) : Prop := ∀ x, e = some x → LicRule X d x

def VerificationCodeRule (v : PackageVerificationCode) : Prop :=
  (∀ f ∈ v.excludedFiles, ¬ s%"/" <+: f) ∧ OrNewline (fun x => LowerHex x ∧ x.length = 40) v.value

/-- Locator syntax per reference type. -/
def LocatorRule (X : Ext) (t locator : Str) : Prop :=
  ((t = s%"advisory" ∨ t = s%"fix" ∨ t = s%"url") ∧ UrlRule X locator) ∨
  (t = s%"swid" ∧ X.isUri locator = true ∧ s%"swid" <+: locator) ∨
  (∃ r, (t, r) ∈ typeToRegex ∧ OrNewline (Re.Matches r) locator)

/-- Reference types by category. -/
def RefTypeRule : ExternalPackageRefCategory → Str → Prop
  | .SECURITY, t => t = s%"cpe22Type" ∨ t = s%"cpe23Type" ∨ t = s%"advisory" ∨ t = s%"fix" ∨ t = s%"url" ∨ t = s%"swid"
  | .PACKAGE_MANAGER, t => t = s%"maven-central" ∨ t = s%"npm" ∨ t = s%"nuget" ∨ t = s%"bower" ∨ t = s%"purl"
  | .PERSISTENT_ID, t => t = s%"swh" ∨ t = s%"gitoid"
  | .OTHER, _ => True

/-- Types introduced by SPDX-2.3. -/
def RefOnly23 (t : Str) : Prop := t = s%"advisory" ∨ t = s%"fix" ∨ t = s%"url" ∨ t = s%"swid"

def ExternalPackageRefRule (X : Ext) (is22 : Prop) (r : ExternalPackageRef) : Prop :=
  if r.category = .OTHER then ' ' ∉ r.locator
  else ¬ (is22 ∧ RefOnly23 r.referenceType) ∧ RefTypeRule r.category r.referenceType ∧
    LocatorRule X r.referenceType r.locator

/-- Is the relationship between package `p` and a file of the document? (A file whose identifier is also a package's does
    not count.) -/
def LinksFile (d : Document) (p : Package) (r : Relationship) : Prop :=
  (r.relationshipType = .CONTAINS ∧ r.spdxElementId = p.spdxId ∧
    ∃ id, r.relatedSpdxElementId = .val id ∧ InFiles d id ∧ ¬ ∃ q ∈ d.packages, q.spdxId = id) ∨
  (r.relationshipType = .CONTAINED_BY ∧ r.relatedSpdxElementId = .val p.spdxId ∧
    InFiles d r.spdxElementId ∧ ¬ ∃ q ∈ d.packages, q.spdxId = r.spdxElementId)

def PackageRule (X : Ext) (is22 : Prop) (d : Document) (p : Package) : Prop :=
  IdRule d (fun _ => True) p.spdxId ∧
  (p.filesAnalyzed = false →
    (∀ r ∈ d.relationships, ¬ LinksFile d p r) ∧ p.licenseInfoFromFiles = [] ∧ p.verificationCode = none) ∧
  LicRuleOpt X d p.licenseConcluded ∧ LicRuleOpt X d p.licenseDeclared ∧
  (∀ e ∈ p.licenseInfoFromFiles, LicRule X d e) ∧
  (∀ l, p.downloadLocation = .val l → DownloadRule X l) ∧
  (∀ u, p.homepage = some (.val u) → UrlRule X u) ∧
  (∀ v, p.verificationCode = some v → VerificationCodeRule v) ∧
  (∀ c ∈ p.checksums, ChecksumRule is22 c) ∧
  (∀ r ∈ p.externalReferences, ExternalPackageRefRule X is22 r) ∧
  (is22 → p.primaryPackagePurpose = none ∧ p.builtDate = none ∧ p.releaseDate = none ∧ p.validUntilDate = none ∧
    p.licenseConcluded ≠ none ∧ p.licenseDeclared ≠ none ∧ p.copyrightText ≠ none)

def FileRule (X : Ext) (is22 : Prop) (d : Document) (f : File) : Prop :=
  IdRule d (fun _ => True) f.spdxId ∧
  LicRuleOpt X d f.licenseConcluded ∧ (∀ e ∈ f.licenseInfoInFile, LicRule X d e) ∧
  ¬ s%"/" <+: f.name ∧ (∃ c ∈ f.checksums, c.algorithm = .SHA1) ∧ (∀ c ∈ f.checksums, ChecksumRule is22 c) ∧
  (is22 → f.licenseConcluded ≠ none ∧ f.licenseInfoInFile ≠ [] ∧ f.copyrightText ≠ none)

def SnippetRule (X : Ext) (is22 : Prop) (d : Document) (s : Snippet) : Prop :=
  IdRule d (fun _ => True) s.spdxId ∧ IdRule d (InFiles d) s.fileSpdxId ∧
  LicRuleOpt X d s.licenseConcluded ∧ (∀ e ∈ s.licenseInfoInSnippet, LicRule X d e) ∧
  1 ≤ s.byteRange.1 ∧ s.byteRange.1 ≤ s.byteRange.2 ∧
  (∀ r, s.lineRange = some r → 1 ≤ r.1 ∧ r.1 ≤ r.2) ∧
  (is22 → s.licenseConcluded ≠ none ∧ s.copyrightText ≠ none)

def AnnotationRule (d : Document) (a : Annotation) : Prop := ActorRule a.annotator ∧ IdRule d (InDocument d) a.spdxId

def RelationshipRule (is22 : Prop) (d : Document) (r : Relationship) : Prop :=
  IdRule d (InDocument d) r.spdxElementId ∧
  (∀ id, r.relatedSpdxElementId = .val id → IdRule d (InDocument d) id) ∧
  ¬ (is22 ∧ (r.relationshipType = .SPECIFICATION_FOR ∨ r.relationshipType = .REQUIREMENT_DESCRIPTION_FOR))

def ExtractedRule (X : Ext) (e : ExtractedLicensingInfo) : Prop :=
  (∀ id, e.licenseId = some id → id ≠ [] → OrNewline LicRef id ∧ ∃ t, e.extractedText = some t ∧ t ≠ []) ∧
  ∀ u ∈ e.crossReferences, UrlRule X u

/-- The document is described by a relationship, or consists of one package only. -/
def DescribesRule (d : Document) : Prop :=
  (d.packages.length = 1 ∧ d.files = [] ∧ d.snippets = []) ∨
  ∃ r ∈ d.relationships,
    (r.relationshipType = .DESCRIBES ∧ r.spdxElementId = d.creationInfo.spdxId) ∨
    (r.relationshipType = .DESCRIBED_BY ∧ r.relatedSpdxElementId = .val d.creationInfo.spdxId)

/-- All identifiers: document, packages, files, snippets. -/
def elementIds (d : Document) : List Str :=
  d.creationInfo.spdxId ::
    (d.packages.map (·.spdxId) ++ d.files.map (·.spdxId) ++ d.snippets.map (·.spdxId))

/-- The rules for the parts of a document of the given version (2.2 or not). -/
structure Parts (X : Ext) (is22 : Prop) (d : Document) : Prop where
  creationInfo : CreationInfoRule X is22 d.creationInfo
  packages : ∀ p ∈ d.packages, PackageRule X is22 d p
  files : ∀ f ∈ d.files, FileRule X is22 d f
  snippets : ∀ s ∈ d.snippets, SnippetRule X is22 d s
  annotations : ∀ a ∈ d.annotations, AnnotationRule d a
  relationships : ∀ r ∈ d.relationships, RelationshipRule is22 d r
  extracted : ∀ e ∈ d.extractedLicensingInfo, ExtractedRule X e

/-- A valid document. -/
structure Valid (X : Ext) (d : Document) : Prop where
  version : d.creationInfo.spdxVersion = s%"SPDX-2.2" ∨ d.creationInfo.spdxVersion = s%"SPDX-2.3"
  parts : Parts X (d.creationInfo.spdxVersion = s%"SPDX-2.2") d
  describes : DescribesRule d
  unique : (elementIds d).Nodup

end Spdx.Spec
