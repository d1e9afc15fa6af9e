import Verif.Model.Spdx3
import Verif.Model.DocumentUtils
/-
spdx3/bump_from_spdx2: the migration from SPDX 2 to SPDX 3. Messages printed for missing conversions are not modelled.

Python objects that are changed after they were put into the payload are represented by their final state: the creation information (its
creators are set last, creation_info.py L59-60) and the document (its imports grow, its element list is set last).
-/
namespace Spdx

/-- What the migration can raise. -/
inductive BumpError where
  /-- `ValueError` of `get_full_element_spdx_id` -/
  | fullId (e : FullIdError)
  /-- `ConstructorTypeErrors` for the fields named -/
  | typeErrors (fields : List Str)
deriving Repr, DecidableEq

/-- checksum.py L16-21 `convert_checksum_algorithm_to_hash_algorithm`; `none` models `KeyError` -/
def bumpAlgorithm (a : ChecksumAlgorithm) : Option HashAlgorithm :=
  if startsWith a.name s%"BLAKE" then HashAlgorithm.ofName? (replaceChar '_' [] a.name)
  else if a = .ADLER32 then some .OTHER
  else HashAlgorithm.ofName? a.name

/-- checksum.py L9-21 `bump_checksum`. (The `KeyError` does not occur, see C33; the list has one entry.) -/
def bumpChecksum (c : Checksum) : List Hash3 := ((bumpAlgorithm c.algorithm).map fun a => ⟨a, c.value⟩).toList

/-- actor.py L23-31: the identifier of a migrated actor -/
def actorId (ns : Str) (a : Actor) : Str :=
  ns ++ s%"#SPDXRef-Actor-" ++ a.name.filter (fun c => !isPySpace c) ++
    (match a.email with
     | some e => if e = [] then [] else s%"-" ++ e
     | none => [])

/-- actor.py L33-52: the actor constructed -/
def bumpedActor (ns : Str) (ci : Option CreationInfo3) (a : Actor) : Agent3 :=
  { kind := a.actorType, spdxId := actorId ns a, creationInfo := ci, name := a.name
    externalIdentifier :=
      (match a.email with
       | some e => if e = [] then [] else [{ type := .EMAIL, identifier := e }]
       | none => []) }

/-- actor.py L14-53 `bump_actor`, the payload it leaves -/
def bumpActor (ns : Str) (ci : Option CreationInfo3) (a : Actor) (p : Payload) : Payload :=
  if actorId ns a ∈ p.keys then p else p.add (.agent (bumpedActor ns ci a))

/-- external_document_ref.py L10-17 -/
def bumpExternalDocumentRef (r : ExternalDocumentRef) : NamespaceMap3 × ExternalMap3 :=
  (⟨r.documentRefId, r.documentUri ++ s%"#"⟩,
   { externalId := r.documentRefId ++ s%":SPDXRef-DOCUMENT", verifiedUsing := bumpChecksum r.checksum })

/-- creation_info.py L34-60: the creation information -/
def bumpedInfo (c : CreationInfo) : CreationInfo3 :=
  { created := c.created
    createdBy := (c.creators.filter (fun a => a.actorType ≠ .TOOL)).map (actorId c.documentNamespace)
    createdUsing := (c.creators.filter (fun a => a.actorType = .TOOL)).map (actorId c.documentNamespace)
    dataLicense := s%"https://spdx.org/licenses/" ++ c.dataLicense }

/-- creation_info.py L43-48: the creators -/
def bumpCreators (c : CreationInfo) (p : Payload) : Payload :=
  c.creators.foldl (fun p a => bumpActor c.documentNamespace (some (bumpedInfo c)) a p) p

/-- creation_info.py L15-79 and spdx_document.py L24-30: the document, with no imports of elements and no elements yet -/
def bumpedDocument (d : Document) : SpdxDocument3 :=
  let c := d.creationInfo
  { spdxId := c.documentNamespace ++ s%"#" ++ c.spdxId, name := c.name, comment := c.documentComment, creationInfo := bumpedInfo c
    element := []
    rootElement :=
      (d.relationships.filter fun r => r.relationshipType = .DESCRIBES ∧ r.spdxElementId = s%"SPDXRef-DOCUMENT").map fun r =>
        c.documentNamespace ++ s%"#" ++ (match r.relatedSpdxElementId with | .val id => id | .none => s%"NONE" | .noAssertion => s%"NOASSERTION")
    imports := c.externalDocumentRefs.map fun r => (bumpExternalDocumentRef r).2
    namespaces := c.externalDocumentRefs.map fun r => (bumpExternalDocumentRef r).1 }

/-- The state of the migration: the payload and the imports added for elements of other documents. -/
structure BumpState where
  payload : Payload
  imports : List ExternalMap3

/-- package.py L34-40, file.py L23-29, snippet.py L28-34: the import entry for an element with a qualified identifier; `split(':')[0]` is
    the text before the first colon -/
def importOf (id : Str) : List ExternalMap3 :=
  if ':' ∈ id then
    [{ externalId := id, definingDocument := some (id.takeWhile (· ≠ ':') ++ s%":SPDXRef-DOCUMENT") }]
  else []

/-- bump_utils.py L9-17 `handle_no_assertion_or_none`; also package.py L57-61 for the copyright text -/
def onlyText : OrSpecial Str → Option Str
  | .val s => some s
  | _ => none

/-- package.py L117-131 `external_ref_type_map`: `none` – not in the map; `some none` – the value is `None` -/
def externalRefTypeMap (t : Str) : Option (Option (ExternalIdentifierType ⊕ ExternalReferenceType)) :=
  if t = s%"cpe22Type" then some (some (.inl .CPE22))
  else if t = s%"cpe23Type" then some (some (.inl .CPE23))
  else if t = s%"advisory" then some (some (.inr .SECURITY_ADVISORY))
  else if t = s%"fix" then some (some (.inr .SECURITY_FIX))
  else if t = s%"url" then some none
  else if t = s%"swid" then some (some (.inl .SWID))
  else if t = s%"maven-central" then some none
  else if t = s%"npm" then some none
  else if t = s%"nuget" then some none
  else if t = s%"bower" then some none
  else if t = s%"purl" then some (some (.inl .PURL))
  else if t = s%"swh" then some (some (.inl .SWHID))
  else if t = s%"gitoid" then some (some (.inl .GITOID))
  else none

/-- package.py L134-155 `bump_external_package_ref` -/
def bumpExternalRef (r : ExternalPackageRef) : Option (ExternalIdentifier3 ⊕ ExternalReference3) :=
  match externalRefTypeMap r.referenceType with
  | none => none
  | some none => none
  | some (some (.inr t)) => some (.inr { type := t, locator := [r.locator], comment := r.comment })
  | some (some (.inl t)) => some (.inl { type := t, identifier := r.locator, comment := r.comment })

/-- package.py L70-73 -/
def purlRefs (rs : List ExternalPackageRef) : List ExternalPackageRef := rs.filter fun r => r.referenceType = s%"purl"

/-- package.py L73-76: `exactly_one_purl_without_comment` -/
def onePurl (rs : List ExternalPackageRef) : Option ExternalPackageRef :=
  match purlRefs rs with
  | [r] => if r.comment = none then some r else none
  | _ => none

/-- package.py L77-84: the references that become identifiers or references -/
def otherRefs (rs : List ExternalPackageRef) : List (ExternalIdentifier3 ⊕ ExternalReference3) :=
  (rs.filter fun r => ¬ ((onePurl rs).isSome ∧ r.referenceType = s%"purl")).filterMap bumpExternalRef

/-- package.py L68-84: package URL, external identifiers and external references -/
def bumpExternalRefs (rs : List ExternalPackageRef) : Option Str × List ExternalIdentifier3 × List ExternalReference3 :=
  ((onePurl rs).map (·.locator),
   (otherRefs rs).filterMap (fun x => match x with | .inl i => some i | .inr _ => none),
   (otherRefs rs).filterMap (fun x => match x with | .inr i => some i | .inl _ => none))

/-- package.py L44-51: supplier and originator; `bump_actor` is called without creation information -/
def bumpActorOpt (ns : Str) (a : Option (OrNoAssertion Actor)) (p : Payload) : Payload :=
  match a with
  | some (.val a) => bumpActor ns none a p
  | _ => p

/-- the list of identifiers passed as `supplied_by` or `originated_by` -/
def actorIds (ns : Str) : Option (OrNoAssertion Actor) → List Str
  | some (.val a) => [actorId ns a]
  | _ => []

/-- package.py L90-114: the package constructed. The homepage is passed on as it is; `SpdxNone` or `SpdxNoAssertion` is a type error. -/
def bumpedPackage (ns : Str) (id : Str) (p : Package) : Except BumpError Package3 :=
  match p.homepage with
  | some .none | some .noAssertion => .error (.typeErrors [s%"homepage"])
  | none | some (.val _) => .ok
    { spdxId := id, name := p.name, summary := p.summary, description := p.description, comment := p.comment
      verifiedUsing := p.checksums.flatMap bumpChecksum
      externalReference := (bumpExternalRefs p.externalReferences).2.2
      externalIdentifier := (bumpExternalRefs p.externalReferences).2.1
      originatedBy := actorIds ns p.originator, suppliedBy := actorIds ns p.supplier
      builtTime := p.builtDate, releaseTime := p.releaseDate, validUntilTime := p.validUntilDate
      primaryPurpose := p.primaryPackagePurpose, packageVersion := p.version
      downloadLocation := onlyText p.downloadLocation
      packageUrl := (bumpExternalRefs p.externalReferences).1
      homepage := p.homepage.bind onlyText, sourceInfo := p.sourceInfo
      copyrightText := p.copyrightText.bind onlyText
      attributionText := joinWith s%", " p.attributionTexts }

/-- package.py L26-114 `bump_package` -/
def bumpPackage (ns : Str) (refs : List ExternalDocumentRef) (st : BumpState) (p : Package) : Except BumpError BumpState :=
  match getFullElementId p.spdxId ns refs with
  | .error e => .error (.fullId e)
  | .ok id =>
    match bumpedPackage ns id p with
    | .error e => .error e
    | .ok q => .ok
      { payload := (bumpActorOpt ns p.originator (bumpActorOpt ns p.supplier st.payload)).add (.package q)
        imports := st.imports ++ importOf p.spdxId }

/-- file.py L47-55: the file constructed -/
def bumpedFile (id : Str) (f : File) : File3 :=
  { spdxId := id, name := f.name, comment := f.comment, verifiedUsing := f.checksums.flatMap bumpChecksum
    copyrightText := f.copyrightText.bind onlyText, attributionText := joinWith s%", " f.attributionTexts }

/-- file.py L15-56 `bump_file` -/
def bumpFile (ns : Str) (refs : List ExternalDocumentRef) (st : BumpState) (f : File) : Except BumpError BumpState :=
  match getFullElementId f.spdxId ns refs with
  | .error e => .error (.fullId e)
  | .ok id => .ok { payload := st.payload.add (.file (bumpedFile id f)), imports := st.imports ++ importOf f.spdxId }

/-- snippet.py L48-58: the snippet constructed -/
def bumpedSnippet (id : Str) (s : Snippet) : Snippet3 :=
  { spdxId := id, name := s.name, comment := s.comment, byteRange := s.byteRange, lineRange := s.lineRange
    copyrightText := s.copyrightText.bind onlyText, attributionText := joinWith s%", " s.attributionTexts }

/-- snippet.py L20-58 `bump_snippet` -/
def bumpSnippet (ns : Str) (refs : List ExternalDocumentRef) (st : BumpState) (s : Snippet) : Except BumpError BumpState :=
  match getFullElementId s.spdxId ns refs with
  | .error e => .error (.fullId e)
  | .ok id => .ok { payload := st.payload.add (.snippet (bumpedSnippet id s)), imports := st.imports ++ importOf s.spdxId }

/-- A value of `relationship_mapping`: the class, the type and the parameters. -/
structure RelMapping where
  software : Bool
  type : RelationshipType3
  swap : Bool := false
  scope : Option Scope := none
  linkage : Option Linkage := none
  conditionality : Option Conditionality := none
deriving Repr, DecidableEq

/-- relationship.py L24-149 `relationship_mapping`; `none` for `(None, None, {})` -/
def relationshipMapping : List (RelationshipType × Option RelMapping) :=
  [(.AMENDS, some ⟨false, .AMENDS, false, none, none, none⟩),
   (.ANCESTOR_OF, some ⟨false, .ANCESTOR, false, none, none, none⟩),
   (.BUILD_DEPENDENCY_OF, some ⟨true, .DEPENDS_ON, false, some .BUILD, some .TOOL, none⟩),
   (.BUILD_TOOL_OF, some ⟨true, .DEPENDS_ON, false, some .BUILD, some .TOOL, none⟩),
   (.CONTAINED_BY, some ⟨false, .CONTAINS, true, none, none, none⟩),
   (.CONTAINS, some ⟨false, .CONTAINS, false, none, none, none⟩),
   (.COPY_OF, some ⟨false, .COPY, false, none, none, none⟩),
   (.DATA_FILE_OF, none),
   (.DEPENDENCY_MANIFEST_OF, some ⟨true, .DEPENDS_ON, false, none, none, none⟩),
   (.DEPENDENCY_OF, some ⟨true, .DEPENDS_ON, true, none, none, none⟩),
   (.DEPENDS_ON, some ⟨true, .DEPENDS_ON, false, none, none, none⟩),
   (.DESCENDANT_OF, some ⟨false, .ANCESTOR, true, none, none, none⟩),
   (.DESCRIBED_BY, some ⟨false, .DESCRIBES, true, none, none, none⟩),
   (.DESCRIBES, some ⟨false, .DESCRIBES, false, none, none, none⟩),
   (.DEV_DEPENDENCY_OF, some ⟨true, .DEPENDS_ON, false, some .DEVELOPMENT, none, none⟩),
   (.DEV_TOOL_OF, some ⟨true, .DEPENDS_ON, false, some .DEVELOPMENT, some .TOOL, none⟩),
   (.DISTRIBUTION_ARTIFACT, none),
   (.DOCUMENTATION_OF, some ⟨false, .DOCUMENTATION, false, none, none, none⟩),
   (.DYNAMIC_LINK, some ⟨true, .DEPENDS_ON, false, none, some .DYNAMIC, none⟩),
   (.EXAMPLE_OF, some ⟨false, .EXAMPLE, false, none, none, none⟩),
   (.EXPANDED_FROM_ARCHIVE, some ⟨false, .EXPANDED_FROM_ARCHIVE, false, none, none, none⟩),
   (.FILE_ADDED, some ⟨false, .FILE_ADDED, false, none, none, none⟩),
   (.FILE_DELETED, some ⟨false, .FILE_DELETED, false, none, none, none⟩),
   (.FILE_MODIFIED, some ⟨false, .FILE_MODIFIED, false, none, none, none⟩),
   (.GENERATED_FROM, some ⟨false, .GENERATES, true, none, none, none⟩),
   (.GENERATES, some ⟨false, .GENERATES, false, none, none, none⟩),
   (.HAS_PREREQUISITE, some ⟨true, .DEPENDS_ON, false, none, none, some .PREREQUISITE⟩),
   (.METAFILE_OF, some ⟨false, .METAFILE, false, none, none, none⟩),
   (.OPTIONAL_COMPONENT_OF, none),
   (.OPTIONAL_DEPENDENCY_OF, some ⟨true, .DEPENDS_ON, false, none, none, some .OPTIONAL⟩),
   (.OTHER, some ⟨false, .OTHER, false, none, none, none⟩),
   (.PACKAGE_OF, some ⟨true, .DEPENDS_ON, false, none, none, none⟩),
   (.PATCH_APPLIED, some ⟨false, .PATCH, true, none, none, none⟩),
   (.PATCH_FOR, some ⟨false, .PATCH, false, none, none, none⟩),
   (.PREREQUISITE_FOR, some ⟨true, .DEPENDS_ON, false, none, none, some .PREREQUISITE⟩),
   (.PROVIDED_DEPENDENCY_OF, some ⟨true, .DEPENDS_ON, false, some .BUILD, none, some .PROVIDED⟩),
   (.RUNTIME_DEPENDENCY_OF, some ⟨true, .DEPENDS_ON, false, some .RUNTIME, none, none⟩),
   (.STATIC_LINK, some ⟨true, .DEPENDS_ON, false, none, some .STATIC, none⟩),
   (.TEST_CASE_OF, some ⟨false, .TEST_CASE, false, none, none, none⟩),
   (.TEST_DEPENDENCY_OF, some ⟨true, .DEPENDS_ON, false, some .TEST, none, none⟩),
   (.TEST_OF, some ⟨false, .TEST, false, none, none, none⟩),
   (.TEST_TOOL_OF, some ⟨true, .DEPENDS_ON, false, some .TEST, some .TOOL, none⟩),
   (.VARIANT_OF, some ⟨false, .VARIANT, false, none, none, none⟩),
   (.REQUIREMENT_DESCRIPTION_FOR, some ⟨false, .REQUIREMENT_FOR, false, none, none, none⟩),
   (.SPECIFICATION_FOR, some ⟨false, .SPECIFICATION_FOR, false, none, none, none⟩)]

/-- `relationship_mapping[t]`; the outer `none` models `KeyError` (it does not occur, see C34) -/
def relMapping (t : RelationshipType) : Option (Option RelMapping) := Dict.get? relationshipMapping t

/-- relationship.py L220-232 `determine_completeness_and_to` -/
def completenessAndTo : OrSpecial Str → Option Completeness × List Str
  | .noAssertion => (some .NOASSERTION, [])
  | .none => (some .COMPLETE, [])
  | .val id => (none, [id])

/-- the identifier of the relationship with the given number (relationship.py L178) -/
def relationshipId (ns : Str) (n : Nat) : Str := ns ++ s%"#" ++ (s%"SPDXRef-Relationship-" ++ natStr n)

/-- relationship.py L172-217 `bump_relationship` -/
def bumpRelationship (ns : Str) (n : Nat) (r : Relationship) : Option Relationship3 :=
  let (completeness, to) := completenessAndTo r.relatedSpdxElementId
  match relMapping r.relationshipType with
  | none | some none => none
  | some (some m) =>
    let make (fromElement : Str) (to : List Str) : Relationship3 :=
      { spdxId := relationshipId ns n, fromElement := ns ++ s%"#" ++ fromElement, relationshipType := m.type
        to := to.map (ns ++ s%"#" ++ ·), comment := r.comment, completeness := completeness
        software := if m.software then some (m.scope, m.linkage, m.conditionality) else none }
    if m.swap then
      match to with
      | [] => none
      | t :: _ =>
        -- L195-196: for software dependencies `from_element` is set back, `to` is not
        if m.software then some (make r.spdxElementId [r.spdxElementId]) else some (make t [r.spdxElementId])
    else some (make r.spdxElementId to)

/-- a non-empty comment -/
def Relationship3.hasComment (r : Relationship3) : Bool := r.comment ≠ none ∧ r.comment ≠ some []

/-- relationship.py L244-250: the first completeness given wins -/
def mergedCompleteness (rs : List Relationship3) : Option Completeness := rs.findSome? (·.completeness)

/-- relationship.py L254-259: the object of the last relationship, changed -/
def mergedRelationship (last : Relationship3) (plain : List Relationship3) : Relationship3 :=
  { last with
    spdxId := match plain.getLast? with | some p => p.spdxId | none => last.spdxId
    to := plain.flatMap (·.to), completeness := mergedCompleteness plain, comment := none }

/-- relationship.py L235-259 `_merge_relationships_and_add_to_payload`, for a group with the given last member. The relationships with a
    comment are put into the payload as they are; if the last one has a comment, it is the same object that is changed into the merged one
    afterwards, so that it is found under two identifiers. -/
def mergeInto (p : Payload) (group : List Relationship3) (last : Relationship3) : Payload :=
  let plain := group.filter (fun r => !r.hasComment)
  if plain.flatMap (·.to) = [] then
    (group.filter (·.hasComment)).foldl (fun p r => p.add (.relationship r)) p
  else
    let merged := mergedRelationship last plain
    ((group.filter (·.hasComment)).foldl
      (fun p r => p.set r.spdxId (.relationship (if r.spdxId = last.spdxId then merged else r))) p).add (.relationship merged)

/-- relationship.py L165-169: one group -/
def addGroup (p : Payload) (group : List Relationship3) : Payload :=
  match group with
  | [] => p
  | [r] => p.add (.relationship r)
  | r :: r' :: rs => mergeInto p group ((r' :: rs).getLast (by simp))

/-- relationship.py L158-163: the migrated relationships, in order -/
def bumpedRelationships (ns : Str) (rs : List Relationship) : List Relationship3 :=
  (rs.zipIdx).filterMap fun (r, i) => bumpRelationship ns i r

/-- relationship.py L152-169 `bump_relationships`. The groups are by `(from_element, relationship_type.name)`; names are distinct, so the
    type itself is used. -/
def bumpRelationships (ns : Str) (rs : List Relationship) (p : Payload) : Payload :=
  (Dict.groupBy (fun r => (r.fromElement, r.relationshipType)) (bumpedRelationships ns rs)).foldl (fun p g => addGroup p g.2) p

/-- annotation.py L21 -/
def annotationId (ns : Str) (n : Nat) : Str := ns ++ s%"#" ++ (s%"SPDXRef-Annotation-" ++ natStr n)

/-- annotation.py L22-39: the creation information of the annotation -/
def annotationInfo (ns : Str) (ci : CreationInfo3) (a : Annotation) : CreationInfo3 :=
  { ci with
    created := a.annotationDate
    createdBy := if a.annotator.actorType = .TOOL then ci.createdBy else [actorId ns a.annotator] }

/-- annotation.py L14-49 `bump_annotation` -/
def bumpAnnotation (ns : Str) (ci : CreationInfo3) (p : Payload) (an : Annotation × Nat) : Payload :=
  (bumpActor ns (some (annotationInfo ns ci an.1)) an.1.annotator p).add (.annotation
    { spdxId := annotationId ns an.2, annotationType := an.1.annotationType, subject := ns ++ s%"#" ++ an.1.spdxId
      creationInfo := annotationInfo ns ci an.1, statement := an.1.annotationComment })

/-- spdx_document.py L68, and the imports gathered: the final state of the document's object, wherever it is in the payload -/
def finishDocument (docId : Str) (imports : List ExternalMap3) (p : Payload) : Payload :=
  p.map fun (k, e) => (k, match e with
    | .document d => .document { d with imports := d.imports ++ imports, element := p.keys.filter (· ≠ docId) }
    | e => e)

/-- spdx_document.py L36-61: the elements -/
def bumpElements (d : Document) (st : BumpState) : Except BumpError BumpState := do
  let ns := d.creationInfo.documentNamespace
  let refs := d.creationInfo.externalDocumentRefs
  let st ← d.packages.foldlM (bumpPackage ns refs) st
  let st ← d.files.foldlM (bumpFile ns refs) st
  d.snippets.foldlM (bumpSnippet ns refs) st

/-- spdx_document.py L63-66: relationships and annotations -/
def bumpLinks (d : Document) (p : Payload) : Payload :=
  let ns := d.creationInfo.documentNamespace
  d.annotations.zipIdx.foldl (bumpAnnotation ns (bumpedInfo d.creationInfo)) (bumpRelationships ns d.relationships p)

/-- spdx_document.py L21-70 `bump_spdx_document` -/
def bumpDocument (d : Document) : Except BumpError Payload := do
  let doc := bumpedDocument d
  let st ← bumpElements d { payload := (bumpCreators d.creationInfo []).add (.document doc), imports := [] }
  return finishDocument doc.spdxId st.imports (bumpLinks d st.payload)

/-! Licenses (license_expression.py) -/

/-- The license classes of spdx3/model/licensing. -/
inductive License3 where
  /-- `ListedLicense(license_id, license_name, license_text)` -/
  | listed (id name text : Str)
  /-- `CustomLicense(license_id, license_name, license_text)` -/
  | custom (id name text : Str)
  /-- `WithAdditionOperator(subject_addition, subject_license)`; the flag tells a listed from a custom addition -/
  | withAddition (license : License3) (listedAddition : Bool) (id name text : Str)
  | conjunctive (member : List License3)
  | disjunctive (member : List License3)
  | noAssertion
  | none

/-- `str(x)` for an optional text -/
def strOpt : Option Str → Str
  | some s => s
  | none => s%"None"

/-- `str(license_name)` -/
def strName : Option (OrNoAssertion Str) → Str
  | some (.val s) => s
  | some .noAssertion => s%"NOASSERTION"
  | none => s%"None"

/-- license_expression.py L61-71 and L79-89: identifier, name and text found for an unlisted symbol -/
def extractedLicense (infos : List ExtractedLicensingInfo) (key : Str) : Str × Str × Str :=
  match infos.find? (fun i => i.licenseId = some key) with
  | some i => (strOpt i.licenseId, strName i.licenseName, strOpt i.extractedText)
  | none => (key, [], [])

/-- license_expression.py L57-71: a symbol; `known` is `not spdx_licensing.validate(symbol).invalid_symbols` -/
def bumpSymbol (known : Str → Bool) (infos : List ExtractedLicensingInfo) (key : Str) : License3 :=
  if known key then .listed key key s%"blank"
  else let (i, n, t) := extractedLicense infos key; .custom i n t

/-- license_expression.py L49-56, L74-89: a license with an exception -/
def bumpWith (known : Str → Bool) (infos : List ExtractedLicensingInfo) (lic exc : Str) : License3 :=
  if known exc then .withAddition (bumpSymbol known infos lic) true exc [] []
  else let (i, n, t) := extractedLicense infos exc; .withAddition (bumpSymbol known infos lic) false i n t

mutual
/-- license_expression.py L38-71 `bump_license_expression` -/
def bumpLicense (known : Str → Bool) (infos : List ExtractedLicensingInfo) : LicExpr → License3
  | .and args => .conjunctive (bumpLicenses known infos args)
  | .or args => .disjunctive (bumpLicenses known infos args)
  | .withExc lic exc => bumpWith known infos lic exc
  | .sym key => bumpSymbol known infos key
def bumpLicenses (known : Str → Bool) (infos : List ExtractedLicensingInfo) : List LicExpr → List License3
  | [] => []
  | e :: es => bumpLicense known infos e :: bumpLicenses known infos es
end

/-- license_expression.py L26-35 `bump_license_expression_or_none_or_no_assertion` -/
def bumpLicenseField (known : Str → Bool) (infos : List ExtractedLicensingInfo) : OrSpecial LicExpr → License3
  | .none => .none
  | .noAssertion => .noAssertion
  | .val e => bumpLicense known infos e

end Spdx
