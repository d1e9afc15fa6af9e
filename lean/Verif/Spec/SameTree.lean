import Verif.Spec.JsonRead
/-
Trees that differ only in the order of members and in members nobody asks for, for C81.
-/
namespace Spdx.Spec
open JsonSays (Obj)

/-- The names of members that hold lists. -/
def listKeys : List Str :=
  [s%"creators", s%"externalDocumentRefs", s%"checksums", s%"licenseInfoFromFiles", s%"externalRefs", s%"fileTypes", s%"licenseInfoInFiles",
   s%"ranges", s%"licenseInfoInSnippets", s%"annotations", s%"packages", s%"files", s%"snippets", s%"revieweds", s%"relationships",
   s%"documentDescribes", s%"hasFiles", s%"hasExtractedLicensingInfos", s%"packageVerificationCodeExcludedFiles", s%"attributionTexts",
   s%"fileContributors", s%"seeAlsos"]

/-- The names of members that hold other values. -/
def otherKeys : List Str :=
  [s%"spdxVersion", s%"SPDXID", s%"name", s%"documentNamespace", s%"creationInfo", s%"created", s%"comment", s%"dataLicense", s%"licenseListVersion",
   s%"algorithm", s%"checksumValue", s%"externalDocumentId", s%"spdxDocument", s%"checksum", s%"referenceCategory", s%"referenceType",
   s%"referenceLocator", s%"packageVerificationCodeValue", s%"packageVerificationCode", s%"downloadLocation", s%"versionInfo",
   s%"packageFileName", s%"supplier", s%"originator", s%"filesAnalyzed", s%"homepage", s%"sourceInfo", s%"licenseConcluded", s%"licenseDeclared",
   s%"licenseComments", s%"copyrightText", s%"summary", s%"description", s%"primaryPackagePurpose", s%"releaseDate", s%"builtDate",
   s%"validUntilDate", s%"fileName", s%"noticeText", s%"offset", s%"lineNumber", s%"startPointer", s%"endPointer", s%"snippetFromFile",
   s%"annotationType", s%"annotator", s%"annotationDate", s%"reviewer", s%"reviewDate", s%"spdxElementId", s%"relationshipType",
   s%"relatedSpdxElement", s%"licenseId", s%"extractedText"]

/-- The same tree, at every depth, up to the order of members and up to members of other names.  (An empty object stays empty; an object where a
    list belongs is left as it is, for its members would be read as the entries.) -/
inductive SameTree : Json → Json → Prop
  | same (v : Json) : SameTree v v
  | arr {l l' : List Json} : l.length = l'.length → (∀ (i : Nat) v v', l[i]? = some v → l'[i]? = some v' → SameTree v v') → SameTree (.arr l) (.arr l')
  | obj {o o' : Obj} : (∀ k ∈ listKeys ++ otherKeys, o.lookup k = none ↔ o'.lookup k = none) →
      (∀ k ∈ listKeys ++ otherKeys, ∀ v v', o.lookup k = some v → o'.lookup k = some v' → SameTree v v') →
      (∀ k ∈ listKeys, ∀ m, o.lookup k = some (.obj m) → o'.lookup k = some (.obj m)) → (o = [] ↔ o' = []) → SameTree (.obj o) (.obj o')

end Spdx.Spec
