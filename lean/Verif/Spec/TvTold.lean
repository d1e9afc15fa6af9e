import Verif.Spec.TvRead
import Verif.Spec.TvSlots
/-
The messages with which a tag-value document is refused, read off its attributes.
-/
namespace Spdx.Spec

/-- An attribute, and what stands before it. -/
structure Place where
  before : List TvAttr
  attr : TvAttr

/-- The kind of element that the attribute stands in or begins. -/
def Place.element (p : Place) : Option TvClass := current (p.before ++ [p.attr])

/-! ## The elements -/

/-- The elements that have begun: those that are complete, and the attributes of the last one. -/
structure Sections where
  complete : List (TvClass × List Place) := []
  last : List Place := []

/-- A new element completes the one before; what stands before the first element counts as part of it. -/
def Sections.opened (P : Sections) (pre : List TvAttr) (a : TvAttr) : Sections :=
  match opens a, current pre with
  | some _, some c => ⟨P.complete ++ [(c, P.last)], []⟩
  | _, _ => P

/-- One more attribute. -/
def Sections.add (P : Sections) (pre : List TvAttr) (a : TvAttr) : Sections :=
  ⟨(P.opened pre a).complete, (P.opened pre a).last ++ [⟨pre, a⟩]⟩

def partsFrom (pre : List TvAttr) (P : Sections) : List TvAttr → Sections
  | [] => P
  | a :: as => partsFrom (pre ++ [a]) (P.add pre a) as

def parts (as : List TvAttr) : Sections := partsFrom [] {} as

/-! ## Faults of values -/

def complain (ok : Bool) (m : PMsg) : Option PMsg := if ok then none else some m

/-- What is wrong with the value, if anything. -/
def faultOf (tag : Str) (v : Tok) : Option PMsg :=
  if tag ∈ dateTags then complain (asDate v).isSome (.invalid s%"date" (.str v.value))
  else if tag = s%"Annotator" then match parseActor v.value with
    | .ok _ => none
    | .error e => some (actorMsg e)
  else if tag = s%"ExternalDocumentRef" then match parseDocRef v.value with
    | .ok _ => none
    | .error m => some m
  else if tag = s%"LicenseListVersion" then complain (asVersion v).isSome (.invalid tag (.str v.value))
  else if tag = s%"FileType" then complain (asFileType v).isSome (.invalid tag (.str v.value))
  else if tag = s%"PrimaryPackagePurpose" then complain (asPurpose v).isSome (.invalid tag (.str v.value))
  else if tag = s%"AnnotationType" then complain (asAnnotationType v).isSome (.invalid tag (.str v.value))
  else if tag = s%"PackageVerificationCode" then complain (asCode v).isSome (.invalid tag (.str v.value))
  else if tag = s%"FilesAnalyzed" then complain (asBool v).isSome (.invalid tag (.str v.value))
  else if tag = s%"SnippetByteRange" ∨ tag = s%"SnippetLineRange" then complain (asRange v).isSome (.invalid tag (.str v.value))
  else none

/-- A license that is no license expression.  This is noticed even where the tag does not belong. -/
def licenseFault (L : LicText) (tag : Str) (v : Tok) : Option PMsg :=
  if tag ∈ licenseTags ∧ v ≠ .noAssertion ∧ v ≠ .none ∧ L.parse v.value = none then
    some (.invalid s%"license expression" (.str v.value))
  else none

/-- What is wrong with a relationship. -/
def relationshipFault (line : Str) : Option PMsg :=
  match splitOn ' ' line with
  | [_, t, _] => complain (RelationshipType.ofName? t).isSome (.invalid s%"RelationshipType" (.str t))
  | _ => some (.text s%"Relationship couldn't be split in spdx_element_id, relationship_type and related_spdx_element")

/-- What is wrong with an external reference. -/
def externalRefFault (line : Str) (comment : Option Tok) : Option PMsg :=
  match parseTvExtRef line (comment.map textOrLineValue) with
  | .ok _ => none
  | .error m => some m

/-- An `SPDXID` has been given. -/
def idGiven (as : List TvAttr) : Bool := !(ids as).isEmpty

/-- The fields of the element that the attribute fills.  The first `SPDXID` is that of the document.  A `PackageAttributionText` is taken
    in by any element. -/
def Place.gives (p : Place) : List Str :=
  match p.attr with
  | .value tag v => match slots.lookup tag with
    | some (c, f, _) => if (p.element = some c ∨ tag = s%"PackageAttributionText") ∧ faultOf tag v = none then [f] else []
    | none => []
  | .spdxId _ => if idGiven p.before then [s%"spdx_id"] else []
  | .commented tag line comment =>
    if tag = s%"Relationship" then
      match splitOn ' ' line with
      | [_, t, _] => (if (RelationshipType.ofName? t).isSome then [s%"relationship_type"] else []) ++
          [s%"related_spdx_element_id", s%"spdx_element_id"] ++ (if comment.isSome then [s%"comment"] else [])
      | _ => []
    else if p.element = some .package ∧ externalRefFault line comment = none then [s%"external_references"] else []
  | .bad _ | .unknown => []

/-- The fields filled. -/
def filled (b : List Place) : List Str := b.flatMap Place.gives

/-! ## What the reader says -/

/-- About an attribute that is not at its place, or unknown. -/
def Place.misplaced (p : Place) : List PMsg :=
  let outside (c : TvClass) : List PMsg :=
    if p.element = some c then [] else [.text (s%"Element " ++ c.name ++ s%" is not the current element in scope")]
  match p.attr with
  | .unknown => [.text s%"Unknown tag provided"]
  | .value tag _ => match slots.lookup tag with
    | some (c, _, _) => outside c
    | none => []
  | .commented tag _ _ => if tag = s%"Relationship" then [] else outside .package
  | .spdxId _ | .bad _ => []

/-- About an attribute of an element.  `earlier`: the attributes of the element before. -/
def Place.complaints (L : LicText) (earlier : List Place) (p : Place) : List PMsg :=
  match p.attr with
  | .value tag v => (licenseFault L tag v).toList ++ match slots.lookup tag with
    | some (c, f, many) =>
      if p.element = some c then
        if many = false ∧ f ∈ filled earlier then [.text (s%"Multiple values for " ++ tag ++ s%" found")] else (faultOf tag v).toList
      else []
    | none => []
  | .bad tag => if tag ∈ creationTags then [] else [.text (s%"Error while parsing " ++ tag)]
  | .commented tag line comment =>
    if tag = s%"Relationship" then (relationshipFault line).toList
    else if p.element = some .package then (externalRefFault line comment).toList else []
  | .spdxId _ | .unknown => []

def complaintsFrom (L : LicText) (earlier : List Place) : List Place → List PMsg
  | [] => []
  | p :: ps => p.complaints L earlier ++ complaintsFrom L (earlier ++ [p]) ps

/-- All the complaints about the attributes of an element. -/
def elementComplaints (L : LicText) (b : List Place) : List PMsg := complaintsFrom L [] b

/-- The fields that an object can have, in the order in which they are checked. -/
def argsOf : TvClass → List Str
  | .file => [s%"name", s%"spdx_id", s%"checksums", s%"file_types", s%"license_concluded", s%"license_info_in_file", s%"license_comment",
      s%"copyright_text", s%"comment", s%"notice", s%"contributors", s%"attribution_texts"]
  | .package => [s%"spdx_id", s%"name", s%"download_location", s%"version", s%"file_name", s%"supplier", s%"originator", s%"files_analyzed",
      s%"verification_code", s%"checksums", s%"homepage", s%"source_info", s%"license_concluded", s%"license_info_from_files",
      s%"license_declared", s%"license_comment", s%"copyright_text", s%"summary", s%"description", s%"comment", s%"external_references",
      s%"attribution_texts", s%"primary_package_purpose", s%"release_date", s%"built_date", s%"valid_until_date"]
  | .snippet => [s%"spdx_id", s%"file_spdx_id", s%"byte_range", s%"line_range", s%"license_concluded", s%"license_info_in_snippet",
      s%"license_comment", s%"copyright_text", s%"comment", s%"name", s%"attribution_texts"]
  | .annotation => [s%"spdx_id", s%"annotation_type", s%"annotator", s%"annotation_date", s%"annotation_comment"]
  | .relationship => [s%"spdx_element_id", s%"relationship_type", s%"related_spdx_element_id", s%"comment"]
  | .extracted => [s%"license_id", s%"extracted_text", s%"license_name", s%"cross_references", s%"comment"]

/-- The fields that must be there. -/
def mandatory : TvClass → List Str
  | .file => [s%"name", s%"spdx_id", s%"checksums"]
  | .package => [s%"spdx_id", s%"name", s%"download_location"]
  | .snippet => [s%"spdx_id", s%"file_spdx_id", s%"byte_range"]
  | .annotation => [s%"spdx_id", s%"annotation_type", s%"annotator", s%"annotation_date", s%"annotation_comment"]
  | .relationship => [s%"spdx_element_id", s%"relationship_type", s%"related_spdx_element_id"]
  | .extracted => []

/-- The attribute adds a blank license expression to the list `f`. -/
def Place.blankIn (L : LicText) (f : Str) (p : Place) : Bool :=
  match p.attr with
  | .value tag v => (p.element.any fun c => slots.lookup tag == some (c, f, true)) && tag ∈ licenseTags && v ≠ .noAssertion && v ≠ .none &&
      L.parse v.value = some none
  | _ => false

/-- The fields that the object does not have. -/
def unexpected (c : TvClass) (b : List Place) : List Str := (filled b).filter (· ∉ argsOf c)

/-- The fields that are missing. -/
def missing (c : TvClass) (b : List Place) : List Str := (mandatory c).filter (· ∉ filled b)

/-- The lists that hold something else than licenses. -/
def blank (L : LicText) (c : TvClass) (b : List Place) : List Str := (argsOf c).filter fun f => b.any (·.blankIn L f)

/-- The identifier that the attribute gives to the element. -/
def Place.newId (p : Place) : Option Str :=
  match p.attr with
  | .spdxId v => if idGiven p.before then some v else none
  | _ => none

/-- The identifier of the element: the last `SPDXID` but for that of the document. -/
def lastId (b : List Place) : Option Str := (b.filterMap Place.newId).getLast?

/-- The element can be built. -/
def Sane (L : LicText) (c : TvClass) (b : List Place) : Prop :=
  elementComplaints L b = [] ∧ unexpected c b = [] ∧ missing c b = [] ∧ blank L c b = []

instance (L : LicText) (c : TvClass) (b : List Place) : Decidable (Sane L c b) := inferInstanceAs (Decidable (_ ∧ _))

/-- About the last element, when it is complete: all complaints about its attributes; if there are none, the first field that it does not
    have; if there is none, the fields that are missing, or else the lists with blank licenses.  A file that follows packages of which none
    could be built has no place. -/
def Sections.closing (L : LicText) (P : Sections) (c : TvClass) : List PMsg :=
  let b := P.last
  if elementComplaints L b ≠ [] then [.wrapped c.name (elementComplaints L b)]
  else if unexpected c b ≠ [] then [.constructing c.name ((unexpected c b).take 1)]
  else if missing c b ≠ [] then [.constructing c.name (missing c b)]
  else if blank L c b ≠ [] then [.constructing c.name (blank L c b)]
  else if c = .file ∧ (∃ p ∈ P.complete, p.1 = .package ∧ elementComplaints L p.2 = []) ∧ ¬ ∃ p ∈ P.complete, p.1 = .package ∧ Sane L .package p.2 then
    [.text (s%"Error while building contains relationship for file " ++ (lastId b).getD [])]
  else []

def closing (L : LicText) (as : List TvAttr) : List PMsg :=
  match current as with
  | none => []
  | some c => (parts as).closing L c

/-- About the elements: an element is reported on when the next one begins, or at the end. -/
def toldFrom (L : LicText) (pre : List TvAttr) : List TvAttr → List PMsg
  | [] => closing L pre
  | a :: as => (if (opens a).isSome then closing L pre else []) ++ Place.misplaced ⟨pre, a⟩ ++ toldFrom L (pre ++ [a]) as

/-- The fields of the creation information that an attribute fills. -/
def givesInfo (a : TvAttr) : List Str :=
  match a with
  | .value tag v => match infoSlots.lookup tag with
    | some (f, _) => if faultOf tag v = none then [f] else []
    | none => []
  | .spdxId _ => [s%"spdx_id"]
  | _ => []

/-- About an attribute of the creation information. -/
def infoComplaints (pre : List TvAttr) (a : TvAttr) : List PMsg :=
  match a with
  | .value tag v => match infoSlots.lookup tag with
    | some (f, many) =>
      if many = false ∧ f ∈ pre.flatMap givesInfo then [.text (s%"Multiple values for " ++ tag ++ s%" found")] else (faultOf tag v).toList
    | none => []
  | .bad tag => if tag ∈ creationTags then [.text (s%"Error while parsing " ++ tag)] else []
  | _ => []

def infoComplaintsFrom (pre : List TvAttr) : List TvAttr → List PMsg
  | [] => []
  | a :: as => infoComplaints pre a ++ infoComplaintsFrom (pre ++ [a]) as

/-- The fields of the creation information that must be there, and are missing. -/
def infoMissing (as : List TvAttr) : List Str :=
  [s%"spdx_version", s%"spdx_id", s%"name", s%"document_namespace", s%"creators", s%"created"].filter (· ∉ as.flatMap givesInfo)

/-- All the messages.  Those about the creation information come last; what is missing in it is told only if there is nothing else. -/
def told (L : LicText) (as : List TvAttr) : List PMsg :=
  let ms := toldFrom L [] as ++
    (if infoComplaintsFrom [] as = [] then [] else [.wrapped s%"CreationInfo" (infoComplaintsFrom [] as)])
  if ms ≠ [] then ms else if infoMissing as = [] then [] else [.constructing s%"CreationInfo" (infoMissing as)]

end Spdx.Spec
