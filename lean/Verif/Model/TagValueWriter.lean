import Verif.Model.JsonWriter
import Verif.Py.Dict
import Verif.Py.Sort
/-
spdx/writer/tagvalue/*.py.  A writer is modelled by the list of the steps it takes: each step writes one line (or one wrapped text), or
raises an exception (`none`), after which no further step is taken.
-/
namespace Spdx

/-- What one `write` puts out. -/
inductive TvLine where
  /-- `text_output.write(heading)`, a comment line -/
  | heading (s : Str)
  /-- `write_separator` -/
  | blank
  /-- `f"{tag}: {value}\n"` -/
  | field (tag value : Str)
  /-- `f"{tag}: <text>{value}</text>\n"` -/
  | text (tag value : Str)
deriving Repr, DecidableEq

/-- The characters written. -/
def TvLine.render : TvLine → Str
  | .heading s => s ++ s%"\n"
  | .blank => s%"\n"
  | .field tag value => tag ++ s%": " ++ value ++ s%"\n"
  | .text tag value => tag ++ s%": <text>" ++ value ++ s%"</text>\n"

/-- A writer's steps; `none` raises. -/
abbrev TvSteps := List (Option TvLine)

/-- The lines written before an exception, if any, is raised. -/
def TvSteps.written (w : TvSteps) : List TvLine := (w.takeWhile Option.isSome).filterMap id

/-- Does the writer raise? -/
def TvSteps.raises (w : TvSteps) : Bool := w.any Option.isNone

/-- tagvalue_writer_helper_functions.py L31-35 `write_value`, of a text -/
def writeValue (tag value : Str) : TvSteps := [some (.field tag value)]

/-- L31-35 `write_value`, of an optional text -/
def writeValue? (tag : Str) (value : Option Str) : TvSteps := value.toList.flatMap (writeValue tag)

/-- L38-40 `write_range` (a pair is truthy) -/
def writeRange (tag : Str) (r : Option (Int × Int)) : TvSteps :=
  r.toList.flatMap fun r => writeValue tag (intStr r.1 ++ s%":" ++ intStr r.2)

/-- L43-47 `write_text_value`, of a text -/
def writeText (tag value : Str) : TvSteps :=
  if hasChar '\n' value then [some (.text tag value)] else writeValue tag value

/-- L43-47 `write_text_value`, of an optional text -/
def writeText? (tag : Str) (value : Option Str) : TvSteps := value.toList.flatMap (writeText tag)

/-- L43-47 `write_text_value`, of an optional text, NONE or NOASSERTION -/
def writeTextSpecial? (tag : Str) (value : Option (OrSpecial Str)) : TvSteps :=
  value.toList.flatMap fun v => match v with
    | .val s => writeText tag s
    | v => writeValue tag v.text

/-- L50-51 `transform_enum_name_to_tv` -/
def enumNameToTv (s : Str) : Str := replaceChar '_' ['-'] s

/-- L54-56 `write_optional_heading` -/
def writeHeading (some? : Bool) (h : TvSteps) : TvSteps := if some? then h else []

/-- L71-75 `write_actor` -/
def writeActor? (tag : Str) (a : Option (OrNoAssertion Actor)) : TvSteps := writeValue? tag (a.map actorOrText)

/-- `write_value(tag, datetime_to_iso_string(date), out)`; the conversion may raise `OverflowError` -/
def writeDate (tag : Str) (t : DateTime) : TvSteps :=
  match datetimeToIso t with
  | some s => writeValue tag s
  | none => [none]

/-- `write_value(tag, write_checksum_to_tag_value(checksum), out)`; the conversion may raise `ValueError` -/
def writeChecksum (tag : Str) (c : Checksum) : TvSteps :=
  match checksumToTv c with
  | some s => writeValue tag s
  | none => [none]

/-- creation_info_writer.py L33-41: the value of an external document reference -/
def externalDocumentRefToTv (r : ExternalDocumentRef) : Str :=
  joinWith s%" " [r.documentRefId, r.documentUri, r.checksum.algorithm.name ++ s%": " ++ r.checksum.value]

/-- spdx/writer/tagvalue/creation_info_writer.py L24-49 `write_creation_info` -/
def writeCreationInfo (c : CreationInfo) : TvSteps :=
  writeValue s%"SPDXVersion" c.spdxVersion ++
  writeValue s%"DataLicense" c.dataLicense ++
  writeValue s%"SPDXID" c.spdxId ++
  writeValue s%"DocumentName" c.name ++
  writeValue s%"DocumentNamespace" c.documentNamespace ++
  writeText? s%"DocumentComment" c.documentComment ++
  writeHeading (!c.externalDocumentRefs.isEmpty) [some .blank, some (.heading s%"## External Document References")] ++
  c.externalDocumentRefs.flatMap (fun r => writeValue s%"ExternalDocumentRef" (externalDocumentRefToTv r)) ++
  [some .blank, some (.heading s%"## Creation Information")] ++
  writeValue? s%"LicenseListVersion" (c.licenseListVersion.map Version.toStr) ++
  c.creators.flatMap (fun a => writeValue s%"Creator" a.toSerialized) ++
  writeDate s%"Created" c.created ++
  writeText? s%"CreatorComment" c.creatorComment

/-- spdx/writer/tagvalue/package_writer.py L86-91 `get_package_verification_code_string` -/
def verificationCodeToTv (v : PackageVerificationCode) : Str :=
  if v.excludedFiles = [] then v.value
  else v.value ++ (s%" (excludes: " ++ joinWith s%" " v.excludedFiles ++ s%")")

/-- package_writer.py L58-68: one external reference -/
def writeExternalRef (r : ExternalPackageRef) : TvSteps :=
  writeValue s%"ExternalRef" (joinWith s%" " [enumNameToTv r.category.name, r.referenceType, r.locator]) ++
  (match r.comment with
   | some c => if c = [] then [] else writeText s%"ExternalRefComment" c
   | none => [])

/-- spdx/writer/tagvalue/package_writer.py L25-83 `write_package` (a verification code is truthy) -/
def writePackage (L : LicText) (p : Package) : TvSteps :=
  [some (.heading s%"## Package Information")] ++
  writeValue s%"PackageName" p.name ++
  writeValue s%"SPDXID" p.spdxId ++
  writeValue? s%"PackageVersion" p.version ++
  writeValue? s%"PackageFileName" p.fileName ++
  writeActor? s%"PackageSupplier" p.supplier ++
  writeActor? s%"PackageOriginator" p.originator ++
  writeValue s%"PackageDownloadLocation" p.downloadLocation.text ++
  writeValue s%"FilesAnalyzed" (if p.filesAnalyzed then s%"true" else s%"false") ++
  writeValue? s%"PackageVerificationCode" (p.verificationCode.map verificationCodeToTv) ++
  p.checksums.flatMap (writeChecksum s%"PackageChecksum") ++
  writeValue? s%"PackageHomePage" (p.homepage.map OrSpecial.text) ++
  writeText? s%"PackageSourceInfo" p.sourceInfo ++
  writeValue? s%"PackageLicenseConcluded" (p.licenseConcluded.map L.str) ++
  p.licenseInfoFromFiles.flatMap (fun l => writeValue s%"PackageLicenseInfoFromFiles" (L.str l)) ++
  writeValue? s%"PackageLicenseDeclared" (p.licenseDeclared.map L.str) ++
  writeText? s%"PackageLicenseComments" p.licenseComment ++
  writeTextSpecial? s%"PackageCopyrightText" p.copyrightText ++
  writeText? s%"PackageSummary" p.summary ++
  writeText? s%"PackageDescription" p.description ++
  writeText? s%"PackageComment" p.comment ++
  p.externalReferences.flatMap writeExternalRef ++
  p.attributionTexts.flatMap (writeText s%"PackageAttributionText") ++
  writeValue? s%"PrimaryPackagePurpose" (p.primaryPackagePurpose.map fun x => enumNameToTv x.name) ++
  p.releaseDate.toList.flatMap (writeDate s%"ReleaseDate") ++
  p.builtDate.toList.flatMap (writeDate s%"BuiltDate") ++
  p.validUntilDate.toList.flatMap (writeDate s%"ValidUntilDate")

/-- spdx/writer/tagvalue/file_writer.py L19-44 `write_file` -/
def writeFile (L : LicText) (f : File) : TvSteps :=
  [some (.heading s%"## File Information")] ++
  writeValue s%"FileName" f.name ++
  writeValue s%"SPDXID" f.spdxId ++
  f.fileTypes.flatMap (fun t => writeValue s%"FileType" t.name) ++
  f.checksums.flatMap (writeChecksum s%"FileChecksum") ++
  writeValue? s%"LicenseConcluded" (f.licenseConcluded.map L.str) ++
  f.licenseInfoInFile.flatMap (fun l => writeValue s%"LicenseInfoInFile" (L.str l)) ++
  writeText? s%"LicenseComments" f.licenseComment ++
  writeTextSpecial? s%"FileCopyrightText" f.copyrightText ++
  writeText? s%"FileComment" f.comment ++
  writeText? s%"FileNotice" f.notice ++
  (sortStr f.contributors).flatMap (writeValue s%"FileContributor") ++
  f.attributionTexts.flatMap (writeText s%"FileAttributionText")

/-- spdx/writer/tagvalue/snippet_writer.py L18-36 `write_snippet` -/
def writeSnippet (L : LicText) (s : Snippet) : TvSteps :=
  [some (.heading s%"## Snippet Information")] ++
  writeValue s%"SnippetSPDXID" s.spdxId ++
  writeValue s%"SnippetFromFileSPDXID" s.fileSpdxId ++
  writeRange s%"SnippetByteRange" (some s.byteRange) ++
  writeRange s%"SnippetLineRange" s.lineRange ++
  writeValue? s%"SnippetLicenseConcluded" (s.licenseConcluded.map L.str) ++
  s.licenseInfoInSnippet.flatMap (fun l => writeValue s%"LicenseInfoInSnippet" (L.str l)) ++
  writeText? s%"SnippetLicenseComments" s.licenseComment ++
  writeTextSpecial? s%"SnippetCopyrightText" s.copyrightText ++
  writeText? s%"SnippetComment" s.comment ++
  writeValue? s%"SnippetName" s.name ++
  s.attributionTexts.flatMap (writeText s%"SnippetAttributionText")

/-- spdx/writer/tagvalue/annotation_writer.py L19-24 `write_annotation` -/
def writeAnnotation (a : Annotation) : TvSteps :=
  writeValue s%"Annotator" a.annotator.toSerialized ++
  writeDate s%"AnnotationDate" a.annotationDate ++
  writeValue s%"AnnotationType" a.annotationType.name ++
  writeValue s%"SPDXREF" a.spdxId ++
  writeText s%"AnnotationComment" a.annotationComment

/-- spdx/writer/tagvalue/relationship_writer.py L18-30 `write_relationship` -/
def writeRelationship (r : Relationship) : TvSteps :=
  writeValue s%"Relationship" (joinWith s%" " [r.spdxElementId, r.relationshipType.name, r.relatedSpdxElementId.text]) ++
  writeText? s%"RelationshipComment" r.comment

/-- spdx/writer/tagvalue/extracted_licensing_info_writer.py L18-26 `write_extracted_licensing_info` -/
def writeExtracted (e : ExtractedLicensingInfo) : TvSteps :=
  writeValue? s%"LicenseID" e.licenseId ++
  writeText? s%"ExtractedText" e.extractedText ++
  writeValue? s%"LicenseName" (e.licenseName.map OrNoAssertion.text) ++
  (sortStr e.crossReferences).flatMap (writeValue s%"LicenseCrossReference") ++
  writeText? s%"LicenseComment" e.comment

/-- The relationship's comment is a non-empty text. -/
def Relationship.hasComment (r : Relationship) : Bool := r.comment ≠ none ∧ r.comment ≠ some []

/-- tagvalue_writer_helper_functions.py L86-109: the package and the file that a relationship says to be contained in it, if both are
    in the document -/
def packagedFile (packageIds : List Str) (files : Dict Str File) (r : Relationship) : Option (Str × File) :=
  match r.relatedSpdxElementId with
  | .val related =>
    if r.relationshipType = .CONTAINS ∧ r.spdxElementId ∈ packageIds ∧ (files.get? related).isSome then
      (files.get? related).map (r.spdxElementId, ·)
    else if r.relationshipType = .CONTAINED_BY ∧ related ∈ packageIds ∧ (files.get? r.spdxElementId).isSome then
      (files.get? r.spdxElementId).map (related, ·)
    else none
  | _ => none

/-- One pass of the loop in `scan_relationships`. -/
def scanStep (packageIds : List Str) (files : Dict Str File) (s : List Relationship × Dict Str (List File)) (r : Relationship) :
    List Relationship × Dict Str (List File) :=
  match packagedFile packageIds files r with
  | some (p, f) => (if r.hasComment then s.1 ++ [r] else s.1, s.2.push p f)
  | none => (s.1 ++ [r], s.2)

/-- tagvalue_writer_helper_functions.py L78-111 `scan_relationships` -/
def scanRelationships (rs : List Relationship) (ps : List Package) (fs : List File) : List Relationship × Dict Str (List File) :=
  rs.foldl (scanStep (ps.map (·.spdxId)) (Dict.update [] (fs.map fun f => (f.spdxId, f)))) ([], [])

/-- tagvalue_writer_helper_functions.py L114-121 `get_file_ids_with_contained_snippets` -/
def snippetsByFile (ss : List Snippet) (fs : List File) : Dict Str (List Snippet) :=
  ss.foldl (fun d s => if s.fileSpdxId ∈ fs.map (·.spdxId) then d.push s.fileSpdxId s else d) []

/-- tagvalue_writer.py: a file, followed by the snippets taken from it -/
def writeFileWithSnippets (L : LicText) (snippets : Dict Str (List Snippet)) (f : File) : TvSteps :=
  writeFile L f ++ [some .blank] ++ ((snippets.get? f.spdxId).getD []).flatMap (fun s => writeSnippet L s ++ [some .blank])

/-- What the loop over the packages carries along (tagvalue_writer.py L72-92): the ids of the files already written, the relationships
    to write, the steps so far. -/
structure PackageLoop where
  seen : List Str
  relationships : List Relationship
  steps : TvSteps

/-- tagvalue_writer.py L77-92: one file of a package -/
def packagedFileStep (L : LicText) (snippets : Dict Str (List Snippet)) (packageId : Str) (s : PackageLoop) (f : File) : PackageLoop :=
  if f.spdxId ∈ s.seen then
    { s with relationships := s.relationships ++
        [{ spdxElementId := packageId, relationshipType := .CONTAINS, relatedSpdxElementId := .val f.spdxId }] }
  else { s with seen := s.seen ++ [f.spdxId], steps := s.steps ++ writeFileWithSnippets L snippets f }

/-- tagvalue_writer.py L73-92: one package -/
def packageStep (L : LicText) (snippets : Dict Str (List Snippet)) (contained : Dict Str (List File)) (s : PackageLoop) (p : Package) :
    PackageLoop :=
  ((contained.get? p.spdxId).getD []).foldl (packagedFileStep L snippets p.spdxId)
    { s with steps := s.steps ++ (writePackage L p ++ [some .blank]) }

/-- spdx/writer/tagvalue/tagvalue_writer.py L42-102 `write_document` -/
def writeTagValue (L : LicText) (d : Document) : TvSteps :=
  let scanned := scanRelationships d.relationships d.packages d.files
  let snippets := snippetsByFile d.snippets d.files
  let packagedFileIds := scanned.2.vals.flatten.map (·.spdxId)
  let filedSnippetIds := snippets.vals.flatten.map (·.spdxId)
  let packages := d.packages.foldl (packageStep L snippets scanned.2) { seen := [], relationships := scanned.1, steps := [] }
  [some (.heading s%"## Document Information")] ++ writeCreationInfo d.creationInfo ++ [some .blank] ++
  (d.snippets.filter (fun s => s.spdxId ∉ filedSnippetIds)).flatMap (fun s => writeSnippet L s ++ [some .blank]) ++
  (d.files.filter (fun f => f.spdxId ∉ packagedFileIds)).flatMap (writeFileWithSnippets L snippets) ++
  packages.steps ++
  writeHeading (!d.extractedLicensingInfo.isEmpty) [some (.heading s%"## License Information")] ++
  d.extractedLicensingInfo.flatMap (fun e => writeExtracted e ++ [some .blank]) ++
  writeHeading (!packages.relationships.isEmpty) [some (.heading s%"## Relationships")] ++
  packages.relationships.flatMap writeRelationship ++
  [some .blank] ++
  writeHeading (!d.annotations.isEmpty) [some (.heading s%"## Annotations")] ++
  d.annotations.flatMap (fun a => writeAnnotation a ++ [some .blank])

/-- The text written. -/
def TvSteps.text (w : TvSteps) : Str := w.written.flatMap TvLine.render

end Spdx
