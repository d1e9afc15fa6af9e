import Verif.Spec.JsonRead
/-
What the reader of JSON-like trees complains about: the messages about a tree, in their order.

A complaint about an object lists the faults of its values.  Only if there are none, the fields that are missing or have a wrong type are
listed.  The texts of Python's own `TypeError`s are abbreviated, as in the model.
-/
namespace Spdx.Spec.JsonFaults
open Spdx
open JsonSays
open RdfSays (All2)

/-- `A v ms`: the messages about the value `v` are `ms`; none if it is good. -/
abbrev About := Json → List PMsg → Prop

/-- The messages are those of the parts, one after the other. -/
def Concat (parts : List (List PMsg → Prop)) (ms : List PMsg) : Prop := ∃ mss, All2 (fun (F : List PMsg → Prop) ms => F ms) parts mss ∧ ms = mss.flatten

/-- One message for all of them, if there are any. -/
def wrap (what : Str) (faults ms : List PMsg) : Prop := (faults = [] ∧ ms = []) ∨ (faults ≠ [] ∧ ms = [.wrapped what faults])

/-! ### Single values -/

/-- A value with a meaning is good; there is one message about any other. -/
def expect {α : Type} (R : Json → α → Prop) (message : Json → PMsg → Prop) : About := fun v ms =>
  ((∃ a, R v a) ∧ ms = []) ∨ ((¬ ∃ a, R v a) ∧ ∃ m, message v m ∧ ms = [m])

def NoText (v : Json) : Prop := ∀ s, v ≠ .str s

/-- Python's name of the value's type. -/
def kind : Json → Str
  | .null => s%"NoneType"
  | .bool _ => s%"bool"
  | .num _ => s%"int"
  | .str _ => s%"str"
  | .arr _ => s%"list"
  | .obj _ => s%"dict"

/-- The message about a text, or else about any other value. -/
def textOr (T : Str → PMsg → Prop) (other : Json → PMsg) (v : Json) (m : PMsg) : Prop :=
  (∃ s, v = .str s ∧ T s m) ∨ (NoText v ∧ m = other v)

def aboutDate : About := expect Date
  (textOr (fun _ m => m = .text s%"time data does not match format") fun v => .text (s%"Could not convert str to datetime, invalid type: " ++ kind v))

/-- `TypeError` of a search in something that is no text. -/
def noSearch (_ : Json) : PMsg := .text s%"expected string or bytes-like object"

/-- What is said about a text that is no actor. -/
def actorMessage (s : Str) : ActorError → PMsg
  | .noToolName => .text (s%"No name for Tool provided: " ++ s ++ s%".")
  | .noName => .text (s%"No name for Actor provided: " ++ s ++ s%".")
  | .noMatch => .text (s%"Actor " ++ s ++ s%" doesn't match any of person, organization or tool.")

def actorMessages : Json → PMsg → Prop := textOr (fun s m => ∃ e, parseActor s = .error e ∧ m = actorMessage s e) noSearch
def aboutActor : About := expect IsActor actorMessages
def aboutActorOrNoAssertion : About := expect ActorOrNoAssertion actorMessages

def aboutVersion : About := expect IsVersion
  (textOr (fun s m => m = .text (s%"Error while parsing version " ++ s ++ s%": " ++ s ++ s%" is not a valid version string")) noSearch)

def wrongKind (v : Json) : PMsg := .text (s%"Type for enum must be str not " ++ kind v)
def aboutMember {α : Type} (what : Str) (name : α → Str) : About := expect (Member name) (textOr (fun s m => m = .invalid what (.str s)) wrongKind)

def aboutLicense (L : LicText) : About := expect (LicenseText L) fun v m => m = .invalid s%"LicenseExpression" v

/-- Lists and objects cannot be looked up. -/
def Unhashable (v : Json) : Prop := (∃ l, v = .arr l) ∨ ∃ o, v = .obj o
def unhashable : PMsg := .text s%"unhashable type"

def aboutAnnotationType : About := expect (ExactMember AnnotationType.name) fun v m =>
  (Unhashable v ∧ m = unhashable) ∨ (¬ Unhashable v ∧ m = .invalid s%"AnnotationType" v)

/-! ### Values of members, and lists -/

/-- A blank value is good. -/
def orBlank (A : About) : About := fun v ms => (Blank v ∧ ms = []) ∨ (¬ Blank v ∧ A v ms)

/-- The messages about the value of a member, which may be blank. -/
def member (o : Obj) (k : Str) (A : About) : List PMsg → Prop := orBlank A (valueAt o k)

def NoItems (v : Json) : Prop := ¬ ∃ l, Items v l
def notIterable : PMsg := .text s%"not iterable"

/-- The messages about the items, one after the other. -/
def items (A : About) : About := fun v ms => ∃ l mss, Items v l ∧ All2 A l mss ∧ ms = mss.flatten

/-- The same; also for a value without items. -/
def each (A : About) : About := fun v ms => items A v ms ∨ (NoItems v ∧ ms = [notIterable])

/-- An object with these messages. -/
abbrev object (A : Obj → List PMsg → Prop) : About := Object A

/-! ### Objects -/

/-- The names of those of the fields that are wrong. -/
inductive Named : List (Str × Prop) → List Str → Prop
  | nil : Named [] []
  | wrong {name Q l names} : Q → Named l names → Named ((name, Q) :: l) (name :: names)
  | right {name Q l names} : ¬ Q → Named l names → Named ((name, Q) :: l) names

/-- The messages about the fields. -/
def fields (cls : Str) (wrong : List (Str × Prop)) (ms : List PMsg) : Prop :=
  ∃ names, Named wrong names ∧ ((names = [] ∧ ms = []) ∨ (names ≠ [] ∧ ms = [.constructing cls names]))

/-- The messages about an object: one with the faults of its values, or, if there are none, one with the fields that are wrong. -/
def element (what cls : Str) (faults : List (List PMsg → Prop)) (wrong : List (Str × Prop)) (ms : List PMsg) : Prop :=
  (∃ fs, Concat faults fs ∧ fs ≠ [] ∧ ms = [.wrapped what fs]) ∨ (Concat faults [] ∧ fields cls wrong ms)

def NoOptText (v : Json) : Prop := ¬ ∃ x, OptText v x
def NoTexts (v : Json) : Prop := ¬ ∃ l, Texts v l
def NoSpecial (v : Json) : Prop := ¬ ∃ x, Special v x
def NoOptSpecial (v : Json) : Prop := ¬ ∃ x, OptSpecial v x
/-- One of the items is a text without a license. -/
def SomeNoLicense (L : LicText) (v : Json) : Prop := ∃ l, Items v l ∧ ∃ x ∈ l, LicenseText L x none

inductive aboutChecksum (o : Obj) : List PMsg → Prop
  | kind {v} : o.lookup s%"algorithm" = some v → NoText v → aboutChecksum o [wrongKind v]
  /-- Without an algorithm, it is taken to be empty. -/
  | algorithm {s} : (o.lookup s%"algorithm" = some (.str s) ∨ (o.lookup s%"algorithm" = none ∧ s = [])) → (∀ a, ¬ Member ChecksumAlgorithm.name (.str s) a) →
      aboutChecksum o [.wrapped s%"Checksum" [.invalid s%"ChecksumAlgorithm" (.str (upperAscii (replaceChar '-' ['_'] s)))]]
  | value {a ms} : Member ChecksumAlgorithm.name (valueAt o s%"algorithm") a →
      fields s%"Checksum" [(s%"value", NoText (valueAt o s%"checksumValue"))] ms → aboutChecksum o ms

def aboutExternalDocumentRef (o : Obj) : List PMsg → Prop := element s%"ExternalDocumentRef" s%"ExternalDocumentRef"
  [member o s%"checksum" (object aboutChecksum)]
  [(s%"document_ref_id", NoText (valueAt o s%"externalDocumentId")), (s%"document_uri", NoText (valueAt o s%"spdxDocument")),
   (s%"checksum", Blank (valueAt o s%"checksum"))]

/-- The document's creation information. Blank references are passed over, and then found missing. -/
def aboutInfo (o i : Obj) : List PMsg → Prop := element s%"Document" s%"CreationInfo"
  [member i s%"creators" (each aboutActor), member i s%"created" aboutDate,
   member o s%"externalDocumentRefs" (each (orBlank (object aboutExternalDocumentRef))), member i s%"licenseListVersion" aboutVersion]
  [(s%"spdx_version", NoText (valueAt o s%"spdxVersion")), (s%"spdx_id", NoText (valueAt o s%"SPDXID")), (s%"name", NoText (valueAt o s%"name")),
   (s%"document_namespace", NoText (valueAt o s%"documentNamespace")), (s%"creators", Blank (valueAt i s%"creators")),
   (s%"created", Blank (valueAt i s%"created")), (s%"creator_comment", NoOptText (valueAt i s%"comment")),
   (s%"data_license", NoText (valueAt o s%"dataLicense")),
   (s%"external_document_refs", ∃ l, Items (valueAt o s%"externalDocumentRefs") l ∧ ∃ x ∈ l, Blank x),
   (s%"document_comment", NoOptText (valueAt o s%"comment"))]

inductive aboutCreationInfo (o : Obj) : List PMsg → Prop
  | missing : valueAt o s%"creationInfo" = .null → aboutCreationInfo o [.wrapped s%"document" [.text s%"CreationInfo does not exist."]]
  | given {i ms} : valueAt o s%"creationInfo" = .obj i → aboutInfo o i ms → aboutCreationInfo o ms

def aboutExternalRef (o : Obj) : List PMsg → Prop := element s%"ExternalPackageRef" s%"ExternalPackageRef"
  [member o s%"referenceCategory" (aboutMember s%"ExternalPackageRefCategory" ExternalPackageRefCategory.name)]
  [(s%"category", Blank (valueAt o s%"referenceCategory")), (s%"reference_type", NoText (valueAt o s%"referenceType")),
   (s%"locator", NoText (valueAt o s%"referenceLocator")), (s%"comment", NoOptText (valueAt o s%"comment"))]

def aboutVerificationCode (o : Obj) : List PMsg → Prop := fields s%"PackageVerificationCode"
  [(s%"value", NoText (valueAt o s%"packageVerificationCodeValue")), (s%"excluded_files", NoTexts (valueAt o s%"packageVerificationCodeExcludedFiles"))]

/-- Faulty references are reported apart from their package; here it matters only that they can be gone through. -/
def goneThrough : About := fun v ms => ((∃ fs, items (object aboutExternalRef) v fs) ∧ ms = []) ∨ (NoItems v ∧ ms = [notIterable])
def itemsIfAny (A : About) : About := fun v ms => items A v ms ∨ (NoItems v ∧ ms = [])

def aboutPackage (L : LicText) (o : Obj) : List PMsg → Prop := element s%"Package" s%"Package"
  [member o s%"builtDate" aboutDate, member o s%"checksums" (each (object aboutChecksum)), member o s%"externalRefs" goneThrough,
   member o s%"licenseConcluded" (aboutLicense L), member o s%"licenseDeclared" (aboutLicense L),
   member o s%"licenseInfoFromFiles" (each (aboutLicense L)), member o s%"originator" aboutActorOrNoAssertion,
   member o s%"packageVerificationCode" (object aboutVerificationCode),
   member o s%"primaryPackagePurpose" (aboutMember s%"PrimaryPackagePurpose" PackagePurpose.name), member o s%"releaseDate" aboutDate,
   member o s%"supplier" aboutActorOrNoAssertion, member o s%"validUntilDate" aboutDate]
  [(s%"spdx_id", NoText (valueAt o s%"SPDXID")), (s%"name", NoText (valueAt o s%"name")),
   (s%"download_location", NoSpecial (valueAt o s%"downloadLocation")), (s%"version", NoOptText (valueAt o s%"versionInfo")),
   (s%"file_name", NoOptText (valueAt o s%"packageFileName")), (s%"files_analyzed", ¬ ∃ b, FilesAnalyzed (valueAt o s%"filesAnalyzed") b),
   (s%"homepage", NoOptSpecial (valueAt o s%"homepage")), (s%"source_info", NoOptText (valueAt o s%"sourceInfo")),
   (s%"license_info_from_files", SomeNoLicense L (valueAt o s%"licenseInfoFromFiles")), (s%"license_comment", NoOptText (valueAt o s%"licenseComments")),
   (s%"copyright_text", NoOptSpecial (valueAt o s%"copyrightText")), (s%"summary", NoOptText (valueAt o s%"summary")),
   (s%"description", NoOptText (valueAt o s%"description")), (s%"comment", NoOptText (valueAt o s%"comment")),
   (s%"attribution_texts", NoTexts (valueAt o s%"attributionTexts"))]

/-- The messages about the package's references, and then about the package. -/
def aboutPackageEntry (L : LicText) (o : Obj) : List PMsg → Prop :=
  Concat [member o s%"externalRefs" (itemsIfAny (object aboutExternalRef)), aboutPackage L o]

inductive aboutFileTypes (v : Json) : List PMsg → Prop
  | noItems : NoItems v → aboutFileTypes v [notIterable]
  | unhashable {l x} : Items v l → x ∈ l → Unhashable x → aboutFileTypes v [unhashable]
  | names {l mss ms} : Items v l → (∀ x ∈ l, ¬ Unhashable x) → All2 (expect (ExactMember FileType.name) fun v m => m = .invalid s%"FileType" v) l mss →
      wrap s%"FileType" mss.flatten ms → aboutFileTypes v ms

def aboutFile (L : LicText) (o : Obj) : List PMsg → Prop := element s%"File" s%"File"
  [member o s%"checksums" (each (object aboutChecksum)), member o s%"fileTypes" aboutFileTypes, member o s%"licenseConcluded" (aboutLicense L),
   member o s%"licenseInfoInFiles" (each (aboutLicense L))]
  [(s%"name", NoText (valueAt o s%"fileName")), (s%"spdx_id", NoText (valueAt o s%"SPDXID")), (s%"checksums", Blank (valueAt o s%"checksums")),
   (s%"license_info_in_file", SomeNoLicense L (valueAt o s%"licenseInfoInFiles")), (s%"license_comment", NoOptText (valueAt o s%"licenseComments")),
   (s%"copyright_text", NoOptSpecial (valueAt o s%"copyrightText")), (s%"comment", NoOptText (valueAt o s%"comment")),
   (s%"notice", NoOptText (valueAt o s%"noticeText")), (s%"contributors", NoTexts (valueAt o s%"fileContributors")),
   (s%"attribution_texts", NoTexts (valueAt o s%"attributionTexts"))]

/-! ### Ranges of snippets -/

/-- What is wrong with a range. -/
inductive RangeFault where
  /-- This is said, together with what is said about the other ranges. -/
  | said (m : Str)
  /-- Only this is said. -/
  | only (m : Str)

/-- Something in which one can look for a word: an object, a list or a text. -/
def Searchable (v : Json) : Prop := (∃ o, v = .obj o) ∨ (∃ l, v = .arr l) ∨ ∃ s, v = .str s

/-- The word is a key, an entry or a part of the value. -/
def Mentions (k : Str) (v : Json) : Prop :=
  (∃ o x, v = .obj o ∧ o.lookup k = some x) ∨ (∃ l, v = .arr l ∧ .str k ∈ l) ∨ ∃ s, v = .str s ∧ ∃ a b, s = a ++ k ++ b

def NoObject (v : Json) : Prop := ∀ o, v ≠ .obj o

/-- The word by which the kinds of pointers are told. -/
def pointerKey : RangeType → Str
  | .BYTE => s%"offset"
  | .LINE => s%"lineNumber"

/-- A pointer of the kind -/
def PointerKind (v : Json) (t : RangeType) : Prop :=
  Searchable v ∧ Mentions (pointerKey t) v ∧ ∀ t', t' ≠ t → ¬ Mentions (pointerKey t') v

inductive badPointer (v : Json) : RangeFault → Prop
  | search : ¬ Searchable v → badPointer v (.only s%"not iterable")
  | both : Mentions s%"offset" v → Mentions s%"lineNumber" v →
      badPointer v (.said s%"Couldn't determine type of pointer: \"offset\" and \"lineNumber\" provided as key.")
  | neither : Searchable v → ¬ Mentions s%"offset" v → ¬ Mentions s%"lineNumber" v →
      badPointer v (.said s%"Couldn't determine type of pointer: neither \"offset\" nor \"lineNumber\" provided as key.")

inductive badRange (v : Json) : RangeFault → Prop
  | search : ¬ Searchable v → badRange v (.only s%"not iterable")
  | noStart : Searchable v → ¬ Mentions s%"startPointer" v → badRange v (.said s%"Startpointer missing in snippet ranges.")
  | noEnd : Mentions s%"startPointer" v → ¬ Mentions s%"endPointer" v → badRange v (.said s%"Endpointer missing in snippet ranges.")
  | noObject : Mentions s%"startPointer" v → Mentions s%"endPointer" v → NoObject v → badRange v (.only s%"not subscriptable")
  | start {o s e f} : v = .obj o → o.lookup s%"startPointer" = some s → o.lookup s%"endPointer" = some e → badPointer s f → badRange v f
  | stop {o s e t f} : v = .obj o → o.lookup s%"startPointer" = some s → o.lookup s%"endPointer" = some e → PointerKind s t → badPointer e f →
      badRange v f
  | kinds {o s e t t'} : v = .obj o → o.lookup s%"startPointer" = some s → o.lookup s%"endPointer" = some e → PointerKind s t → PointerKind e t' → t ≠ t' →
      badRange v (.said s%"Type of startpointer is not the same as type of endpointer.")
  | pointers {o s e t} : v = .obj o → o.lookup s%"startPointer" = some s → o.lookup s%"endPointer" = some e → PointerKind s t → PointerKind e t →
      NoObject s ∨ NoObject e → badRange v (.only s%"not subscriptable")

/-- The messages about a range, if nothing of the second kind is wrong with it. -/
def aboutRange : About := fun v ms => ((∃ r, IsRange v r) ∧ ms = []) ∨ ∃ m, badRange v (.said m) ∧ ms = [.text m]

inductive aboutRanges (v : Json) : List PMsg → Prop
  | noItems : NoItems v → aboutRanges v [notIterable]
  | only {l r l' mss m} : Items v (l ++ r :: l') → All2 aboutRange l mss → badRange r (.only m) → aboutRanges v [.text m]
  | all {l mss ms} : Items v l → All2 aboutRange l mss → wrap s%"snippet ranges" mss.flatten ms → aboutRanges v ms

/-- The last range of the kind. -/
def Last (v : Json) (t : RangeType) (a b : Json) : Prop := ∃ l, Required (ListOf IsRange) v l ∧ lastRange l t = some (a, b)
def Numbers (a b : Json) : Prop := (∃ x, Number a x) ∧ ∃ y, Number b y

def aboutSnippet (L : LicText) (o : Obj) : List PMsg → Prop := element s%"snippet" s%"Snippet"
  [member o s%"ranges" aboutRanges, member o s%"licenseConcluded" (aboutLicense L), member o s%"licenseInfoInSnippets" (each (aboutLicense L))]
  [(s%"spdx_id", NoText (valueAt o s%"SPDXID")), (s%"file_spdx_id", NoText (valueAt o s%"snippetFromFile")),
   (s%"byte_range", ¬ ∃ a b, Last (valueAt o s%"ranges") .BYTE a b ∧ Numbers a b),
   (s%"line_range", ∃ a b, Last (valueAt o s%"ranges") .LINE a b ∧ ¬ Numbers a b),
   (s%"license_info_in_snippet", SomeNoLicense L (valueAt o s%"licenseInfoInSnippets")), (s%"license_comment", NoOptText (valueAt o s%"licenseComments")),
   (s%"copyright_text", NoOptSpecial (valueAt o s%"copyrightText")), (s%"comment", NoOptText (valueAt o s%"comment")),
   (s%"name", NoOptText (valueAt o s%"name")), (s%"attribution_texts", NoTexts (valueAt o s%"attributionTexts"))]

/-! ### Annotations -/

/-- An annotation of the element with the given id, unless it has an id of its own. -/
def aboutAnnotation (element' : Json) (o : Obj) : List PMsg → Prop := element s%"Annotation" s%"Annotation"
  [member o s%"annotationType" aboutAnnotationType, member o s%"annotator" aboutActor, member o s%"annotationDate" aboutDate]
  [(s%"spdx_id", (¬ Blank (valueAt o s%"SPDXID") ∧ NoText (valueAt o s%"SPDXID")) ∨ (Blank (valueAt o s%"SPDXID") ∧ NoText element')),
   (s%"annotation_type", Blank (valueAt o s%"annotationType")), (s%"annotator", Blank (valueAt o s%"annotator")),
   (s%"annotation_date", Blank (valueAt o s%"annotationDate")), (s%"annotation_comment", NoText (valueAt o s%"comment"))]

def aboutReview (docId : Json) (o : Obj) : List PMsg → Prop := element s%"Annotation from revieweds" s%"Annotation"
  [member o s%"reviewer" aboutActor, member o s%"reviewDate" aboutDate]
  [(s%"spdx_id", NoText docId), (s%"annotator", Blank (valueAt o s%"reviewer")), (s%"annotation_date", Blank (valueAt o s%"reviewDate")),
   (s%"annotation_comment", NoText (valueAt o s%"comment"))]

/-- The annotations of an element -/
def ofElement (o : Obj) : List PMsg → Prop := member o s%"annotations" (each (object (aboutAnnotation (valueAt o s%"SPDXID"))))

/-- The messages about the entries of a member; there are none if the member is not there. -/
def entries (o : Obj) (k : Str) (A : About) (ms : List PMsg) : Prop := ∃ l mss, Entries o k l ∧ All2 A l mss ∧ ms = mss.flatten

def aboutAnnotations (o : Obj) (ms : List PMsg) : Prop := ∃ fs, Concat
    [ofElement o, entries o s%"revieweds" (object (aboutReview (valueAt o s%"SPDXID"))), entries o s%"packages" (object ofElement),
     entries o s%"files" (object ofElement), entries o s%"snippets" (object ofElement)] fs ∧
  wrap s%"annotations" fs ms

/-! ### Relationships -/

def aboutRelationship (o : Obj) : List PMsg → Prop := element s%"Relationship" s%"Relationship"
  [member o s%"relationshipType" (aboutMember s%"RelationshipType" RelationshipType.name)]
  [(s%"spdx_element_id", NoText (valueAt o s%"spdxElementId")), (s%"relationship_type", Blank (valueAt o s%"relationshipType")),
   (s%"related_spdx_element_id", NoSpecial (valueAt o s%"relatedSpdxElement")), (s%"comment", NoOptText (valueAt o s%"comment"))]

/-- The relationship between two elements that are given by their ids only. -/
def aboutPair (id : Json) : About := fun v => fields s%"Relationship" [(s%"spdx_element_id", NoText id), (s%"related_spdx_element_id", NoText v)]

/-- Equal for Python: true is one. -/
def Alike (a b : Json) : Prop :=
  a = b ∨ ∃ t : Bool, (a = .bool t ∧ b = .num (if t then 1 else 0)) ∨ (b = .bool t ∧ a = .num (if t then 1 else 0))

/-- The entries without those that were there before. -/
inductive Firsts : List Json → List Json → Prop
  | nil : Firsts [] []
  | new {l l' x} : Firsts l l' → (∀ y ∈ l', ¬ Alike y x) → Firsts (l ++ [x]) (l' ++ [x])
  | old {l l' x y} : Firsts l l' → y ∈ l' → Alike y x → Firsts (l ++ [x]) l'

/-- The relationships to the entries of a member. -/
def pairs (o : Obj) (k : Str) (ms : List PMsg) : Prop := ∃ l l' mss,
  Entries o k l ∧ (∀ x ∈ l, ¬ Unhashable x) ∧ Firsts l l' ∧ All2 (aboutPair (valueAt o s%"SPDXID")) l' mss ∧ ms = mss.flatten

def aboutDescribes (o : Obj) (ms : List PMsg) : Prop := ∃ fs, pairs o s%"documentDescribes" fs ∧ wrap s%"document describes relationships" fs ms

/-- What stops the search for contained files. -/
inductive stops (o : Obj) (k : Str) : PMsg → Prop
  | noItems {v} : o.lookup k = some v → NoItems v → stops o k notIterable
  | unhashable {l x} : Entries o k l → x ∈ l → Unhashable x → stops o k unhashable

inductive aboutContains (v : Json) : List PMsg → Prop
  | noItems : NoItems v → aboutContains v [notIterable]
  | stopped {l o l' mss m} : Items v (l ++ .obj o :: l') → All2 (object fun o => pairs o s%"hasFiles") l mss → stops o s%"hasFiles" m → aboutContains v [m]
  | all {fs ms} : items (object fun o => pairs o s%"hasFiles") v fs → wrap s%"package contains relationships" fs ms → aboutContains v ms

def aboutRelationships (o : Obj) : List PMsg → Prop := Concat
  [member o s%"relationships" (each (object aboutRelationship)), aboutDescribes o, member o s%"packages" aboutContains]

/-! ### The document -/

def aboutExtracted (o : Obj) : List PMsg → Prop := fields s%"ExtractedLicensingInfo"
  [(s%"license_id", NoOptText (valueAt o s%"licenseId")), (s%"extracted_text", NoOptText (valueAt o s%"extractedText")),
   (s%"license_name", ¬ ∃ x, OptNoAssertion (valueAt o s%"name") x), (s%"cross_references", NoTexts (valueAt o s%"seeAlsos")),
   (s%"comment", NoOptText (valueAt o s%"comment"))]

/-- All the messages about a document. -/
def aboutDocument (L : LicText) (o : Obj) : List PMsg → Prop := Concat
  [aboutCreationInfo o, member o s%"packages" (items (object (aboutPackageEntry L))), member o s%"files" (items (object (aboutFile L))),
   aboutAnnotations o, member o s%"snippets" (items (object (aboutSnippet L))), aboutRelationships o,
   member o s%"hasExtractedLicensingInfos" (items (object aboutExtracted))]

end Spdx.Spec.JsonFaults
