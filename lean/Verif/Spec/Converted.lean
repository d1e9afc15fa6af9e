import Verif.Spec.TvDoc
import Verif.Spec.RdfOk
import Verif.Spec.XmlOk
import Verif.Props.C27
import Verif.Props.C48
/-
What stays of a document that is written and read again and again, in any of the formats; and which documents every format can hold,
however often they were written and read before.
-/
namespace Spdx.Spec

/-! ### The same document -/

instance (r : Relationship) : Decidable (NoComment r) := inferInstanceAs (Decidable (_ ∨ _))

/-- The relationship is written as such in every format: it does not place a file in a package, or it has a comment. -/
def outright (d : Document) (r : Relationship) : Bool := decide (C27.packagedIds d r = none ∨ ¬ NoComment r)

/-- How many relationships without a comment say that the package contains the file. -/
def placements (d : Document) (p f : Str) : Nat := d.relationships.countP fun r => decide (C27.packagedIds d r = some (p, f) ∧ NoComment r)

/-- How many relationships with a comment do. -/
def remarked (d : Document) (p f : Str) : Nat := d.relationships.countP fun r => decide (C27.packagedIds d r = some (p, f) ∧ ¬ NoComment r)

/-- `e` is the document `d` after it was written and read a number of times, `k` times as tag-value: the same up to the order of entries,
    of their lists of values, and of the arguments in license expressions; a relationship without comment that places a file in a
    package may have become `package CONTAINS file`; and one with a comment has got `k` times this relationship in addition. -/
structure Conveys (k : Nat) (d e : Document) : Prop where
  info : SameInfo d.creationInfo e.creationInfo
  packages : Rearranged2 SamePackage d.packages e.packages
  files : Rearranged2 SameFile d.files e.files
  snippets : Rearranged2 SameSnippet d.snippets e.snippets
  annotations : e.annotations.Perm d.annotations
  licenses : Rearranged2 SameLicense d.extractedLicensingInfo e.extractedLicensingInfo
  outright : (e.relationships.filter (outright e)).Perm (d.relationships.filter (outright d))
  others : ∀ r ∈ e.relationships, r ∈ d.relationships ∨ ∃ p f, r = contains p f ∧ ∃ r' ∈ d.relationships, C27.packagedIds d r' = some (p, f)
  placed : ∀ p f, placements e p f = placements d p f + k * remarked d p f

/-! ### Which documents -/

/-- A license expression that the library reads back from its text, in every format and whatever the order of its arguments. -/
def LicAnywhere (L : LicText) (depth : Nat) (e : LicExpr) : Prop :=
  ∀ m, SameLic e m → LicOk L m ∧ Plain (L.render m) ∧ LicRdf L m ∧ licHeight m ≤ depth ∧ XmlText (L.render m)

/-- The license expressions of the elements. -/
def fileLics (f : File) : List (OrSpecial LicExpr) := f.licenseConcluded.toList ++ f.licenseInfoInFile
def packageLics (p : Package) : List (OrSpecial LicExpr) := p.licenseConcluded.toList ++ p.licenseDeclared.toList ++ p.licenseInfoFromFiles
def snippetLics (s : Snippet) : List (OrSpecial LicExpr) := s.licenseConcluded.toList ++ s.licenseInfoInSnippet

/-- The texts of the elements, their dates and actors as they are written, without license expressions. -/
def fileTexts (f : File) : List Str :=
  [f.name, f.spdxId] ++ f.checksums.map (·.value) ++ f.licenseComment.toList ++ f.copyrightText.toList.map OrSpecial.text ++ f.comment.toList ++
  f.notice.toList ++ f.contributors ++ f.attributionTexts
def packageTexts (p : Package) : List Str :=
  [p.spdxId, p.name, p.downloadLocation.text] ++ p.version.toList ++ p.fileName.toList ++ p.supplier.toList.map actorOrText ++
  p.originator.toList.map actorOrText ++ p.verificationCode.toList.flatMap (fun c => c.value :: c.excludedFiles) ++ p.checksums.map (·.value) ++
  p.homepage.toList.map OrSpecial.text ++ p.sourceInfo.toList ++ p.licenseComment.toList ++ p.copyrightText.toList.map OrSpecial.text ++
  p.summary.toList ++ p.description.toList ++ p.comment.toList ++
  p.externalReferences.flatMap (fun r => [r.referenceType, r.locator] ++ r.comment.toList) ++ p.attributionTexts ++
  (p.releaseDate.toList ++ p.builtDate.toList ++ p.validUntilDate.toList).flatMap (fun t => (datetimeToIso t).toList)
def snippetTexts (s : Snippet) : List Str :=
  [s.spdxId, s.fileSpdxId] ++ s.licenseComment.toList ++ s.copyrightText.toList.map OrSpecial.text ++ s.comment.toList ++ s.name.toList ++
  s.attributionTexts
def annotationTexts (a : Annotation) : List Str :=
  [a.spdxId, a.annotationComment, a.annotator.toSerialized] ++ (datetimeToIso a.annotationDate).toList
def relationshipTexts (r : Relationship) : List Str := [r.spdxElementId, r.relatedSpdxElementId.text] ++ r.comment.toList
def licenseTexts (e : ExtractedLicensingInfo) : List Str :=
  e.licenseId.toList ++ e.extractedText.toList ++ e.licenseName.toList.map OrNoAssertion.text ++ e.crossReferences ++ e.comment.toList
def infoTexts (c : CreationInfo) : List Str :=
  [c.spdxVersion, c.spdxId, c.name, c.documentNamespace, c.dataLicense] ++ c.documentComment.toList ++ c.creatorComment.toList ++
  c.creators.map Actor.toSerialized ++ (datetimeToIso c.created).toList ++ c.licenseListVersion.toList.map Version.toStr ++
  c.externalDocumentRefs.flatMap fun r => [r.documentRefId, r.documentUri, r.checksum.value]

/-- Every text of the document. -/
structure AllTexts (P : Str → Prop) (d : Document) : Prop where
  info : ∀ t ∈ infoTexts d.creationInfo, P t
  packages : ∀ p ∈ d.packages, ∀ t ∈ packageTexts p, P t
  files : ∀ f ∈ d.files, ∀ t ∈ fileTexts f, P t
  snippets : ∀ s ∈ d.snippets, ∀ t ∈ snippetTexts s, P t
  annotations : ∀ a ∈ d.annotations, ∀ t ∈ annotationTexts a, P t
  relationships : ∀ r ∈ d.relationships, ∀ t ∈ relationshipTexts r, P t
  licenses : ∀ e ∈ d.extractedLicensingInfo, ∀ t ∈ licenseTexts e, P t

/-- Every license expression of the document. -/
structure AllLics (P : LicExpr → Prop) (d : Document) : Prop where
  packages : ∀ p ∈ d.packages, ∀ x, .val x ∈ packageLics p → P x
  files : ∀ f ∈ d.files, ∀ x, .val x ∈ fileLics f → P x
  snippets : ∀ s ∈ d.snippets, ∀ x, .val x ∈ snippetLics s → P x

/-- Every format can hold the document, and it has no repeated values. `b` are the prefixes a new graph has. -/
structure Portable (X : Ext) (R : RdfEnv) (b : Bindings) (d : Document) : Prop where
  json : JsonOk R.lic d
  tagValue : C48.DocTv R.lic d
  rdf : DocRdf R d
  fresh : C38.Fresh d.creationInfo.externalDocumentRefs b
  texts : AllTexts XmlText d
  lics : AllLics (LicAnywhere R.lic R.depth) d
  settled : dedupDocument X d = d

/-- Equality of license expressions, as the library decides it, does not look at the order of arguments. -/
structure LicEqUnordered (X : Ext) : Prop where
  refl : ∀ a, X.licEq a a = true
  symm : ∀ a b, X.licEq a b = X.licEq b a
  same : ∀ a a' b b', SameLic a a' → SameLic b b' → X.licEq a' b' = X.licEq a b

end Spdx.Spec
