import Verif.Model.TagValueWriter
/-
The order in which the parts of a tag-value file appear.
-/
namespace Spdx.Spec

/-- A file, and the snippets that follow it. -/
structure TvFile where
  file : File
  snippets : List Snippet

/-- A package, and the files that follow it. -/
structure TvGroup where
  package : Package
  files : List TvFile

structure TvLayout where
  /-- snippets before any file -/
  snippets : List Snippet
  /-- files before any package -/
  files : List TvFile
  groups : List TvGroup
  extracted : List ExtractedLicensingInfo
  relationships : List Relationship
  annotations : List Annotation

/-- `package CONTAINS file` -/
def contains (p f : Str) : Relationship := ⟨p, .CONTAINS, .val f, none⟩

namespace TvLayout

/-- All the files, with their snippets, in the order in which they appear. -/
def tvFiles (l : TvLayout) : List TvFile := l.files ++ l.groups.flatMap (·.files)

/-- The packages, files and snippets in the order in which they appear. -/
def packages (l : TvLayout) : List Package := l.groups.map (·.package)
def allFiles (l : TvLayout) : List File := l.tvFiles.map (·.file)
def allSnippets (l : TvLayout) : List Snippet := l.snippets ++ l.tvFiles.flatMap (·.snippets)

/-- What follows from a file's standing after a package. -/
def implied (l : TvLayout) : List Relationship := l.groups.flatMap fun g => g.files.map fun f => contains g.package.spdxId f.file.spdxId

end TvLayout

def writeTvFile (L : LicText) (f : TvFile) : TvSteps :=
  writeFile L f.file ++ [some .blank] ++ f.snippets.flatMap fun s => writeSnippet L s ++ [some .blank]

def writeGroup (L : LicText) (g : TvGroup) : TvSteps := writePackage L g.package ++ [some .blank] ++ g.files.flatMap (writeTvFile L)

/-- The text of a file with this layout: one section after the other. -/
def writeLayout (L : LicText) (c : CreationInfo) (l : TvLayout) : TvSteps :=
  [some (.heading s%"## Document Information")] ++ writeCreationInfo c ++ [some .blank] ++
  l.snippets.flatMap (fun s => writeSnippet L s ++ [some .blank]) ++
  l.files.flatMap (writeTvFile L) ++
  l.groups.flatMap (writeGroup L) ++
  (if l.extracted = [] then [] else [some (.heading s%"## License Information")]) ++
  l.extracted.flatMap (fun e => writeExtracted e ++ [some .blank]) ++
  (if l.relationships = [] then [] else [some (.heading s%"## Relationships")]) ++
  l.relationships.flatMap writeRelationship ++
  [some .blank] ++
  (if l.annotations = [] then [] else [some (.heading s%"## Annotations")]) ++
  l.annotations.flatMap (fun a => writeAnnotation a ++ [some .blank])

/-- No two packages, files or snippets have the same id. -/
structure UniqueIds (d : Document) : Prop where
  packages : (d.packages.map (·.spdxId)).Nodup
  files : (d.files.map (·.spdxId)).Nodup
  snippets : (d.snippets.map (·.spdxId)).Nodup

/-- The relationship says that a file of the document is contained in a package of the document; the ids. -/
def Packaged (d : Document) (r : Relationship) (p f : Str) : Prop :=
  p ∈ d.packages.map (·.spdxId) ∧ f ∈ d.files.map (·.spdxId) ∧
  ((r.relationshipType = .CONTAINS ∧ r.spdxElementId = p ∧ r.relatedSpdxElementId = .val f) ∨
   (r.relationshipType = .CONTAINED_BY ∧ r.spdxElementId = f ∧ r.relatedSpdxElementId = .val p))

/-- The relationship has no comment, or an empty one. -/
def NoComment (r : Relationship) : Prop := r.comment = none ∨ r.comment = some []

end Spdx.Spec
