import Verif.Spec.RdfCrash
import Verif.Model.RdfReport
/-
What the RDF reader complains about: which messages each fault of a graph gives, and which messages there are.
-/
namespace Spdx.Spec.RdfSays
open Spdx

/-! ### Complaints about single values -/

/-- A property that wants one value has several. -/
def Twice (g : RdfGraph) (n : RdfNode) (p : Pred) (m : PMsg) : Prop :=
  2 ≤ (values g n p).length ∧ m = .text (s%"Multiple values for unique value " ++ p.uri ++ s%" found.")

/-- A property that wants one value has several, or one that `C` complains about. -/
def once (g : RdfGraph) (n : RdfNode) (p : Pred) (C : RdfNode → PMsg → Prop) (m : PMsg) : Prop :=
  Twice g n p m ∨ ∃ v, values g n p = [v] ∧ ¬ Blank v ∧ C v m

/-- `C` complains about one of the values. -/
def each (g : RdfGraph) (n : RdfNode) (p : Pred) (C : RdfNode → PMsg → Prop) (m : PMsg) : Prop := ∃ v ∈ values g n p, C v m

/-- Every value is good. -/
def plain (_ : RdfNode) (_ : PMsg) : Prop := False

/-- Special values are good. -/
def special (C : RdfNode → PMsg → Prop) (v : RdfNode) (m : PMsg) : Prop := ¬ NoAssertion v ∧ ¬ IsNone v ∧ C v m

def badDate (v : RdfNode) (m : PMsg) : Prop := (∀ t, ¬ Date v t) ∧ m = .text s%"time data does not match format"
def badVersion (v : RdfNode) (m : PMsg) : Prop := (∀ t, ¬ IsVersion v t) ∧ m = .text (v.text ++ s%" is not a valid version string")
def badMember {α : Type} (cls : Str) (ofName? : Str → Option α) (pre : Str) (v : RdfNode) (m : PMsg) : Prop :=
  (∀ a, ¬ Member ofName? pre v a) ∧ m = .text (s%"Invalid value for <enum '" ++ cls ++ s%"'>: " ++ v.text)

/-- What is said about a text that is no actor. -/
def actorComplaint (s : Str) : ActorError → PMsg
  | .noToolName => .text (s%"No name for Tool provided: " ++ s ++ s%".")
  | .noName => .text (s%"No name for Actor provided: " ++ s ++ s%".")
  | .noMatch => .text (s%"Actor " ++ s ++ s%" doesn't match any of person, organization or tool.")

def badActor (v : RdfNode) (m : PMsg) : Prop := ∃ e, parseActor v.text = .error e ∧ m = actorComplaint v.text e

/-- No algorithm is named; what is said has the name looked up. -/
def badAlgorithm (v : RdfNode) (m : PMsg) : Prop :=
  (∀ a, ¬ Algorithm v a) ∧ m = .text (s%"Invalid value for ChecksumAlgorithm: " ++ algorithmName v.text)

/-! ### Complaints about nodes -/

/-- The one message about a node: the faults of its values, or, if there are none, the fields that are missing or of a wrong type. -/
inductive Complaint (cls : Str) (faults : List (PMsg → Prop)) (missing : List (Str × Prop)) : PMsg → Prop
  | faults {ms} : ms ≠ [] → (∀ m, m ∈ ms ↔ ∃ F ∈ faults, F m) → Complaint cls faults missing (.wrapped cls ms)
  | missing {fs} : (∀ F ∈ faults, ∀ m, ¬ F m) → fs ≠ [] → (∀ f, f ∈ fs ↔ ∃ x ∈ missing, x.1 = f ∧ x.2) →
      Complaint cls faults missing (.constructing cls fs)

/-- The value is not given. -/
def Absent {α : Type} (g : RdfGraph) (n : RdfNode) (p : Pred) (R : RdfNode → α → Prop) : Prop := Optional (values g n p) R none
def AbsentSpecial {α : Type} (g : RdfGraph) (n : RdfNode) (p : Pred) (R : RdfNode → Option α → Prop) : Prop :=
  OptionalSpecial (values g n p) R none
/-- The value is NONE. -/
def GivenNone {α : Type} (g : RdfGraph) (n : RdfNode) (p : Pred) (R : RdfNode → Option α → Prop) : Prop :=
  OptionalSpecial (values g n p) R (some .none)
/-- One of the values is no text. -/
def someNoText (g : RdfGraph) (n : RdfNode) (p : Pred) : Prop := ∃ v ∈ values g n p, NoText v
/-- One of the licenses is blank. -/
def someNoLicense (env : RdfEnv) (g : RdfGraph) (ns : Str) (n : RdfNode) (p : Pred) : Prop :=
  ∃ v ∈ values g n p, Special (License env g ns env.depth) v none
/-- The node has no identifier. -/
def NoId (b : Bindings) (ns : Str) (n : RdfNode) : Prop := ∀ id, ¬ Id b ns n id

def aboutChecksum (g : RdfGraph) (n : RdfNode) : PMsg → Prop := Complaint s%"Checksum"
  [once g n .algorithm badAlgorithm, once g n .checksumValue plain]
  [(s%"value", Absent g n .checksumValue Text), (s%"algorithm", Absent g n .algorithm Algorithm)]

/-- of a verification code, whose value or excluded files may be at fault -/
inductive aboutCode (g : RdfGraph) (n : RdfNode) : PMsg → Prop
  | twice {t} : Twice g n .packageVerificationCodeValue t → aboutCode g n (.wrapped s%"PackageVerificationCode" [t])
  | value : Absent g n .packageVerificationCodeValue Text → ¬ someNoText g n .packageVerificationCodeExcludedFile →
      aboutCode g n (.constructing s%"PackageVerificationCode" [s%"value"])
  | files {t} : Optional (values g n .packageVerificationCodeValue) Text (some t) → someNoText g n .packageVerificationCodeExcludedFile →
      aboutCode g n (.constructing s%"PackageVerificationCode" [s%"excluded_files"])
  | both : Absent g n .packageVerificationCodeValue Text → someNoText g n .packageVerificationCodeExcludedFile →
      aboutCode g n (.constructing s%"PackageVerificationCode" [s%"value", s%"excluded_files"])

/-- The type of a reference is not given, or no text. -/
def NoRefType (g : RdfGraph) (ns : Str) (n : RdfNode) : Prop := ∀ t, ¬ Optional (values g n .referenceType) (RefType ns) (some t)

def aboutPackageRef (g : RdfGraph) (ns : Str) (n : RdfNode) : PMsg → Prop := Complaint s%"ExternalPackageRef"
  [once g n .referenceLocator plain,
   once g n .referenceCategory (badMember s%"ExternalPackageRefCategory" ExternalPackageRefCategory.ofName? s%"referenceCategory_"),
   once g n .referenceType plain, once g n .rdfsComment plain]
  [(s%"locator", Absent g n .referenceLocator Text), (s%"reference_type", NoRefType g ns n),
   (s%"category", Absent g n .referenceCategory (Member ExternalPackageRefCategory.ofName? s%"referenceCategory_"))]

/-- The faults of a package's values. -/
def packageFaults (g : RdfGraph) (n : RdfNode) : List (PMsg → Prop) :=
  [once g n .name plain, once g n .downloadLocation (special plain), once g n .versionInfo plain, once g n .packageFileName plain,
   once g n .supplier (special badActor), once g n .originator (special badActor), once g n .packageVerificationCode (aboutCode g),
   once g n .licenseConcluded (special plain), once g n .licenseDeclared (special plain), once g n .licenseComments plain, once g n .rdfsComment plain,
   once g n .summary plain, once g n .description plain, once g n .copyrightText (special plain), once g n .sourceInfo plain,
   once g n .primaryPackagePurpose (badMember s%"PackagePurpose" PackagePurpose.ofName? s%"purpose_"), once g n .homepage plain,
   once g n .releaseDate badDate, once g n .builtDate badDate, once g n .validUntilDate badDate]

/-- The fields of a package that must be given, with when they are not. -/
def packageMissing (env : RdfEnv) (g : RdfGraph) (b : Bindings) (ns : Str) (n : RdfNode) : List (Str × Prop) :=
  [(s%"attribution_texts", someNoText g n .attributionText), (s%"license_info_from_files", someNoLicense env g ns n .licenseInfoFromFiles),
   (s%"originator", GivenNone g n .originator ActorS), (s%"supplier", GivenNone g n .supplier ActorS),
   (s%"download_location", AbsentSpecial g n .downloadLocation TextS), (s%"name", Absent g n .name Text), (s%"spdx_id", NoId b ns n)]

/-- The message about a package: about its first unreadable checksum, else its first unreadable reference, else itself. -/
inductive aboutPackage (env : RdfEnv) (g : RdfGraph) (b : Bindings) (ns : Str) (n : RdfNode) (m : PMsg) : Prop
  | checksum : FirstBad (fun v => ∃ c, IsChecksum g v c) (fun v => aboutChecksum g v m) (values g n .checksum) → aboutPackage env g b ns n m
  | reference : GoodChecksums g n → FirstBad (fun v => ∃ r, IsPackageRef g ns v r) (fun v => aboutPackageRef g ns v m) (values g n .externalRef) →
      aboutPackage env g b ns n m
  | package : GoodChecksums g n → (∀ v ∈ values g n .externalRef, ∃ r, IsPackageRef g ns v r) →
      Complaint s%"Package" (packageFaults g n) (packageMissing env g b ns n) m → aboutPackage env g b ns n m

def fileFaults (g : RdfGraph) (n : RdfNode) : List (PMsg → Prop) :=
  [once g n .fileName plain, each g n .fileType (badMember s%"FileType" FileType.ofName? s%"fileType_"), once g n .licenseConcluded (special plain),
   once g n .licenseComments plain, once g n .copyrightText (special plain), once g n .noticeText plain, once g n .rdfsComment plain]

def fileMissing (env : RdfEnv) (g : RdfGraph) (b : Bindings) (ns : Str) (n : RdfNode) : List (Str × Prop) :=
  [(s%"attribution_texts", someNoText g n .attributionText), (s%"contributors", someNoText g n .fileContributor),
   (s%"license_info_in_file", someNoLicense env g ns n .licenseInfoInFile), (s%"spdx_id", NoId b ns n), (s%"name", Absent g n .fileName Text)]

inductive aboutFile (env : RdfEnv) (g : RdfGraph) (b : Bindings) (ns : Str) (n : RdfNode) (m : PMsg) : Prop
  | checksum : FirstBad (fun v => ∃ c, IsChecksum g v c) (fun v => aboutChecksum g v m) (values g n .checksum) → aboutFile env g b ns n m
  | file : GoodChecksums g n → Complaint s%"File" (fileFaults g n) (fileMissing env g b ns n) m → aboutFile env g b ns n m

/-- The only value of a property, if it is not blank. -/
def ThePointer (g : RdfGraph) (n : RdfNode) (p : Pred) (q : RdfNode) : Prop := values g n p = [q] ∧ ¬ Blank q

def pointerFault (g : RdfGraph) (n : RdfNode) (p : Pred) (name : Str) (m : PMsg) : Prop :=
  (2 ≤ (values g n p).length ∧ m = .text (s%"Multiple values for " ++ name)) ∨
  ((values g n p).length ≤ 1 ∧ (∀ v ∈ values g n p, Blank v) ∧ m = .text (s%"Couldn't find pointer of type " ++ name ++ s%"."))

def numberFault (g : RdfGraph) (q : RdfNode) (p : Pred) (name : Str) (m : PMsg) : Prop :=
  (2 ≤ (values g q p).length ∧ m = .text (s%"Multiple values for " ++ name ++ s%" found.")) ∨
  ∃ v, values g q p = [v] ∧ ¬ Blank v ∧ (∀ i, ¬ Number v i) ∧ m = .text s%"invalid literal for int() with base 10"

/-- The classes of pointers, with the property of their number and its name. -/
def pointerClasses : List (Str × Pred × Str) :=
  [(s%"ByteOffsetPointer", .offset, s%"offset"), (s%"LineCharPointer", .lineNumber, s%"lineNumber")]

def HasPointerClass (g : RdfGraph) (q : RdfNode) (cls : Str) : Prop :=
  (values g q .type).head? = some (.uri (s%"http://www.w3.org/2009/pointers#" ++ cls))

/-- What is wrong with a range: the first of these. -/
inductive badRange (g : RdfGraph) (n : RdfNode) (m : PMsg) : Prop
  | start : pointerFault g n .startPointer s%"startPointer" m → badRange g n m
  | stop {p} : ThePointer g n .startPointer p → pointerFault g n .endPointer s%"endPointer" m → badRange g n m
  | classes {p q} : ThePointer g n .startPointer p → ThePointer g n .endPointer q → (values g p .type).head? ≠ (values g q .type).head? →
      m = .text s%"Types of startPointer and endPointer don't match" → badRange g n m
  | startNumber {p q c} : ThePointer g n .startPointer p → ThePointer g n .endPointer q → c ∈ pointerClasses → HasPointerClass g p c.1 →
      HasPointerClass g q c.1 → numberFault g p c.2.1 c.2.2 m → badRange g n m
  | stopNumber {p q c o} : ThePointer g n .startPointer p → ThePointer g n .endPointer q → c ∈ pointerClasses → HasPointerClass g p c.1 →
      HasPointerClass g q c.1 → Optional (values g p c.2.1) Number o → numberFault g q c.2.1 c.2.2 m → badRange g n m

/-- A pointer whose number may be missing. -/
def SomePointer (g : RdfGraph) (n : RdfNode) (p : Pred) (c : Str × Pred × Str) (o : Option Int) : Prop :=
  ∃ q, ThePointer g n p q ∧ HasPointerClass g q c.1 ∧ Optional (values g q c.2.1) Number o

/-- A range whose numbers may be missing, of one class. -/
def SomeRange (g : RdfGraph) (c : Str × Pred × Str) (n : RdfNode) : Prop :=
  (∃ o, SomePointer g n .startPointer c o) ∧ ∃ o, SomePointer g n .endPointer c o

/-- There are two ranges of one class. -/
def twoRanges (g : RdfGraph) (n : RdfNode) (c : Str × Pred × Str) (m : PMsg) : Prop :=
  (∃ r s, [r, s].Sublist (values g n .range) ∧ SomeRange g c r ∧ SomeRange g c s) ∧ m = .text (s%"Multiple " ++ c.1 ++ s%" found.")

def snippetFaults (g : RdfGraph) (n : RdfNode) : List (PMsg → Prop) :=
  [each g n .range (badRange g), twoRanges g n (s%"ByteOffsetPointer", .offset, s%"offset"),
   twoRanges g n (s%"LineCharPointer", .lineNumber, s%"lineNumber"), once g n .licenseConcluded (special plain), once g n .licenseComments plain,
   once g n .copyrightText (special plain), once g n .rdfsComment plain, once g n .name plain]

def snippetMissing (env : RdfEnv) (g : RdfGraph) (b : Bindings) (ns : Str) (n : RdfNode) : List (Str × Prop) :=
  [(s%"attribution_texts", someNoText g n .attributionText), (s%"license_info_in_snippet", someNoLicense env g ns n .licenseInfoInSnippet),
   (s%"line_range", ∃ r ∈ values g n .range, SomeRange g (s%"LineCharPointer", .lineNumber, s%"lineNumber") r ∧ ∀ x, ¬ Range g r (.line, x)),
   (s%"byte_range", ∀ r ∈ values g n .range, ∀ x, ¬ Range g r (.byte, x)),
   (s%"file_spdx_id", ∀ f, (values g n .snippetFromFile).head? = some f → NoId b ns f), (s%"spdx_id", NoId b ns n)]

def aboutSnippet (env : RdfEnv) (g : RdfGraph) (b : Bindings) (ns : Str) (n : RdfNode) : PMsg → Prop :=
  Complaint s%"Snippet" (snippetFaults g n) (snippetMissing env g b ns n)

def annotationFaults (g : RdfGraph) (n : RdfNode) : List (PMsg → Prop) :=
  [once g n .annotator badActor, once g n .annotationType (badMember s%"AnnotationType" AnnotationType.ofName? s%"annotationType_"),
   once g n .annotationDate badDate, once g n .rdfsComment plain]

def annotationMissing (g : RdfGraph) (b : Bindings) (ns : Str) (e : RdfNode × RdfNode) : List (Str × Prop) :=
  [(s%"annotation_comment", Absent g e.2 .rdfsComment Text), (s%"annotation_date", Absent g e.2 .annotationDate Date),
   (s%"annotator", Absent g e.2 .annotator IsActor),
   (s%"annotation_type", Absent g e.2 .annotationType (Member AnnotationType.ofName? s%"annotationType_")), (s%"spdx_id", NoId b ns e.1)]

def aboutAnnotation (g : RdfGraph) (b : Bindings) (ns : Str) (e : RdfNode × RdfNode) : PMsg → Prop :=
  Complaint s%"Annotation" (annotationFaults g e.2) (annotationMissing g b ns e)

def relationshipFaults (g : RdfGraph) (n : RdfNode) : List (PMsg → Prop) :=
  [once g n .relationshipType (badMember s%"RelationshipType" RelationshipType.ofName? s%"relationshipType_"),
   once g n .relatedSpdxElement (special plain), once g n .rdfsComment plain]

def relationshipMissing (g : RdfGraph) (b : Bindings) (ns : Str) (e : RdfNode × RdfNode) : List (Str × Prop) :=
  [(s%"related_spdx_element_id", AbsentSpecial g e.2 .relatedSpdxElement (IdS b ns)),
   (s%"relationship_type", Absent g e.2 .relationshipType (Member RelationshipType.ofName? s%"relationshipType_")),
   (s%"spdx_element_id", NoId b ns e.1)]

def aboutRelationship (g : RdfGraph) (b : Bindings) (ns : Str) (e : RdfNode × RdfNode) : PMsg → Prop :=
  Complaint s%"Relationship" (relationshipFaults g e.2) (relationshipMissing g b ns e)

/-- of a relationship given by a property of its own -/
def aboutImplicit (b : Bindings) (ns : Str) (e : RdfNode × RdfNode) : PMsg → Prop :=
  Complaint s%"Relationship" [] [(s%"related_spdx_element_id", NoId b ns e.2), (s%"spdx_element_id", NoId b ns e.1)]

def extractedFaults (g : RdfGraph) (n : RdfNode) : List (PMsg → Prop) :=
  [once g n .licenseId plain, once g n .extractedText plain, once g n .rdfsComment plain, once g n .name (special plain)]

def extractedMissing (g : RdfGraph) (ns : Str) (n : RdfNode) : List (Str × Prop) :=
  [(s%"cross_references", someNoText g n .seeAlso), (s%"license_name", GivenNone g n .name TextS), (s%"license_id", ∀ id, ¬ LicenseId g ns n id)]

def aboutExtracted (g : RdfGraph) (ns : Str) (n : RdfNode) : PMsg → Prop :=
  Complaint s%"ExtractedLicensingInfo" (extractedFaults g n) (extractedMissing g ns n)

/-! ### All elements, and the creation information -/

/-- One message for each node that cannot be read, in order. -/
inductive Reported {ν : Type} (Read : ν → Prop) (About : ν → PMsg → Prop) : List ν → List PMsg → Prop
  | nil : Reported Read About [] []
  | read {n l ms} : Read n → Reported Read About l ms → Reported Read About (n :: l) ms
  | unread {n l m ms} : (¬ Read n) → About n m → Reported Read About l ms → Reported Read About (n :: l) (m :: ms)

/-- The messages of a graph with readable creation information. -/
structure Messages (env : RdfEnv) (b : Bindings) (g : RdfGraph) (ns : Str) (ms : List PMsg) : Prop where
  parts : ∃ p f s a r c d x, ms = p ++ f ++ s ++ a ++ r ++ c ++ d ++ x ∧
    Reported (fun n => ∃ x, IsPackage env g b ns n x) (aboutPackage env g b ns) (nodes g s%"Package") p ∧
    Reported (fun n => ∃ x, IsFile env g b ns n x) (aboutFile env g b ns) (nodes g s%"File") f ∧
    Reported (fun n => ∃ x, IsSnippet env g b ns n x) (aboutSnippet env g b ns) (nodes g s%"Snippet") s ∧
    Reported (fun e => ∃ x, IsAnnotation g b ns e x) (aboutAnnotation g b ns) (related g .annotation) a ∧
    Reported (fun e => ∃ x, IsRelationship g b ns e x) (aboutRelationship g b ns) (related g .relationship) r ∧
    Reported (fun e => ∃ x, IsImplicit b ns .CONTAINS e x) (aboutImplicit b ns) (related g .hasFile) c ∧
    Reported (fun e => ∃ x, IsImplicit b ns .DESCRIBES e x) (aboutImplicit b ns) (related g .describesPackage) d ∧
    Reported (fun e => ∃ x, IsExtracted g ns e.2 x) (fun e => aboutExtracted g ns e.2) (related g .hasExtractedLicensingInfo) x

def documentFaults (g : RdfGraph) (doc : RdfNode) : List (PMsg → Prop) :=
  [once g doc .specVersion plain, once g doc .dataLicense plain, once g doc .rdfsComment plain, once g doc .name plain]

def infoFaults (g : RdfGraph) (i : RdfNode) : List (PMsg → Prop) :=
  [once g i .created badDate, once g i .licenseListVersion badVersion, once g i .rdfsComment plain,
   fun m => values g i .creator = [] ∧ m = .text s%"No creators provided."]

def infoMissing (g : RdfGraph) (doc i : RdfNode) : List (Str × Prop) :=
  [(s%"data_license", Absent g doc .dataLicense DataLicense), (s%"created", Absent g i .created Date), (s%"name", Absent g doc .name Text),
   (s%"spdx_id", fragmentOf doc.text = []), (s%"spdx_version", Absent g doc .specVersion Text)]

/-- of a reference to another document -/
def aboutExternalRef (g : RdfGraph) (b : Bindings) (ns : Str) (n : RdfNode) : PMsg → Prop := Complaint s%"ExternalDocumentRef" []
  [(s%"checksum", ∀ c, ¬ Optional (values g n .checksum) (IsChecksum g) (some c)), (s%"document_uri", ∀ u, ¬ Optional (values g n .spdxDocument) Text (some u)),
   (s%"document_ref_id", NoId b ns n)]

/-- The message is about the first reference to another document that is not read. -/
inductive aboutExternalRefs (g : RdfGraph) (ns : Str) (m : PMsg) : Bindings → List RdfNode → Prop
  | here {b n l} : aboutExternalRef g b ns n m → aboutExternalRefs g ns m b (n :: l)
  | later {b n l r} : IsExternalRef g b ns n r → aboutExternalRefs g ns m (b.bind r.documentRefId (r.documentUri ++ s%"#")) l →
      aboutExternalRefs g ns m b (n :: l)

/-- How the document's name is shown: as it is read, else as "None". -/
def ShownName (g : RdfGraph) (doc : RdfNode) (name : Str) : Prop :=
  Optional (values g doc .name) Text (some name) ∨ (∀ s, ¬ Optional (values g doc .name) Text (some s)) ∧ name = s%"None"

/-- The one message about the creation information of the document at `doc`. -/
inductive aboutInfo (env : RdfEnv) (g : RdfGraph) (b : Bindings) (doc : RdfNode) (m : PMsg) : Prop
  | noInfo {name ms} : (∀ i, (nodes g s%"CreationInfo").head? = some i → Blank i) → ShownName g doc name → m = .wrapped (s%"document " ++ name) ms →
      (∀ x, x ∈ ms ↔ (∃ F ∈ documentFaults g doc, F x) ∨ x = .text s%"CreationInfo does not exist.") → aboutInfo env g b doc m
  | creator {i} : (nodes g s%"CreationInfo").head? = some i → ¬ Blank i →
      FirstBad GoodCreator (fun v => ∃ s e, Raw v s ∧ parseActor s = .error e ∧ m = actorComplaint s e) (values g i .creator) → aboutInfo env g b doc m
  | reference {i} : (nodes g s%"CreationInfo").head? = some i → ¬ Blank i → (∀ v ∈ values g i .creator, GoodCreator v) →
      aboutExternalRefs g (env.defrag doc.text) m b (values g doc .externalDocumentRef) → aboutInfo env g b doc m
  | info {i} : (nodes g s%"CreationInfo").head? = some i → ¬ Blank i → (∀ v ∈ values g i .creator, GoodCreator v) →
      (∃ rs b', ExternalRefs g (env.defrag doc.text) b (values g doc .externalDocumentRef) rs b') →
      Complaint s%"CreationInfo" (documentFaults g doc ++ infoFaults g i) (infoMissing g doc i) m → aboutInfo env g b doc m

end Spdx.Spec.RdfSays
