import Verif.Model.TagValueLines
/-
The tag-value reader once more, with the line numbers in its messages (`Line: {p.lineno(1)}`).  `Model/TagValueParser` leaves them out; here
every message that the code writes with a line number is an `atLine`.  The actions are those of `Model/TagValueParser`, function by function.
-/
namespace Spdx

/-- parser.py L563-571 `check_that_current_element_matches_class_for_value` with its `line_number` -/
def TvState.inScopeAt (n : Nat) (s : TvState) (c : TvClass) (k : TvState → TvState) : TvState :=
  if s.cls = some c then k s
  else { s with log := s.log ++ [.atLine n (.text (s%"Element " ++ c.name ++ s%" is not the current element in scope"))] }

/-- helper_methods.py L53-71 `set_value` for the current element.  The message about a second value (L62) has a line number; that of an
    exception has one if the exception is a `KeyError` (L71), and none for `SPDXParsingError` and `ValueError` (L66-69). -/
def TvState.setElemAt (n : Nat) (s : TvState) (tag : Str) (v : Except PMsg TvItem) : TvState :=
  if (s.elem.get? (propertyName tag)).isSome then s.logElem (.atLine n (multipleMsg tag))
  else match v with
    | .ok x => { s with elem := s.elem.set (propertyName tag) (.one x) }
    | .error m => s.logElem m

/-- helper_methods.py L53-71 `set_value` for the creation info -/
def TvState.setInfoAt (n : Nat) (s : TvState) (tag : Str) (v : Except PMsg TvItem) : TvState :=
  if (s.info.get? (propertyName tag)).isSome then s.logInfo (.atLine n (multipleMsg tag))
  else match v with
    | .ok x => { s with info := s.info.set (propertyName tag) (.one x) }
    | .error m => s.logInfo m

/-- parser.py L511-533 `p_relationship`, L517-520 and L525 -/
def TvState.setRelationshipAt (n : Nat) (s : TvState) (line : Str) (comment : Option Str) : TvState :=
  match splitOn ' ' line with
  | [a, t, b] =>
    let s := match RelationshipType.ofName? t with
      | some t => { s with elem := s.elem.set s%"relationship_type" (.one (.relationshipType t)) }
      | none => s.logElem (.atLine n (.invalid s%"RelationshipType" (.str t)))
    let s := { s with elem := (s.elem.set s%"related_spdx_element_id" (.one (relatedItem b))).set s%"spdx_element_id" (.one (.str a)) }
    match comment with
    | some c => { s with elem := s.elem.set s%"comment" (.one (.str c)) }
    | none => s
  | _ => s.logElem (.atLine n (.text s%"Relationship couldn't be split in spdx_element_id, relationship_type and related_spdx_element"))

/-- parser.py L202-207 `p_generic_value` -/
def TvState.genericAt (n : Nat) (s : TvState) (tag : Str) (v : TvItem) : Py TvState :=
  match tagClass tag with
  | none => .error (.other s%"KeyError")
  | some c =>
    let s := if (startTag tag).isSome then s.start c else s
    .ok (s.inScopeAt n c fun s => s.setElemAt n tag (.ok v))

/-- parser.py L350-355 `p_file_checksum`, L402-407 `p_pkg_checksum` -/
def TvState.checksumAttrAt (n : Nat) (s : TvState) (c : TvClass) (v : Str) : Py TvState :=
  if s.cls = some c then
    match checksumFromTv v with
    | some x => .ok (s.appendElem s%"checksums" (.checksum x))
    | none => .error (.value s%"checksum")
  else .ok (s.inScopeAt n c id)

/-- parser.py L174-509: the action for `TAG value`.  No line number in the messages about licenses (L241-244), dates, actors, the license
    list version (`set_value`) and `FilesAnalyzed` (L445-447). -/
def TvState.attrAt (L : LicText) (n : Nat) (s : TvState) (tag : Str) (v : Tok) : Py TvState :=
  if tag ∈ genericTextTags then s.genericAt n tag (.str (textOrLineValue v))
  else if tag ∈ genericSpecialTags then s.genericAt n tag (lineOrSpecialValue v)
  else if tag ∈ genericLicenseTags then (s.logLicense (licenseValue L v).2).genericAt n tag (licenseValue L v).1
  else if tag = s%"PackageSupplier" ∨ tag = s%"PackageOriginator" then
    match v with
    | .noAssertion => s.genericAt n tag .noAssertion
    | v => match parseActor v.value with
      | .ok a => s.genericAt n tag (.actor a)
      | .error e => .error (.parsing [actorMsg e])
  else if tag ∈ genericInfoTags then .ok (s.setInfoAt n tag (.ok (.str (textOrLineValue v))))
  else if tag = s%"LicenseListVersion" then
    .ok (s.setInfoAt n tag (match versionFromString v.value with
      | some x => .ok (.version x)
      | none => .error (.invalid tag (.str v.value))))
  else if tag = s%"ExternalDocumentRef" then
    .ok (match parseDocRef v.value with
      | .ok r => s.appendInfo s%"external_document_refs" (.docRef r)
      | .error m => s.logInfo (.atLine n m))
  else if tag = s%"Creator" then
    match parseActor v.value with
    | .ok a => .ok (s.appendInfo s%"creators" (.actor a))
    | .error e => .error (.parsing [actorMsg e])
  else if tag = s%"Created" then .ok (s.setInfoAt n tag (dateItem v.value))
  else if tag = s%"FileType" then
    .ok (s.inScopeAt n .file fun s => match FileType.ofName? (strip v.value) with
      | some t => s.appendElem s%"file_types" (.fileType t)
      | none => s.logElem (.atLine n (.invalid tag (.str v.value))))
  else if tag = s%"FileChecksum" then s.checksumAttrAt n .file v.value
  else if tag = s%"PackageChecksum" then s.checksumAttrAt n .package v.value
  else if tag = s%"PackageAttributionText" then
    .ok ((s.inScopeAt n .package id).appendElem s%"attribution_texts" (.str (textOrLineValue v)))
  else if tag = s%"PackageVerificationCode" then
    .ok (s.inScopeAt n .package fun s =>
      if (s.elem.get? s%"verification_code").isSome then s.logElem (.atLine n (multipleMsg tag))
      else match parseTvCode v.value with
        | some c => { s with elem := s.elem.set s%"verification_code" (.one (.code c)) }
        | none => s.logElem (.atLine n (.invalid tag (.str v.value))))
  else if tag = s%"FilesAnalyzed" then
    .ok (s.inScopeAt n .package fun s =>
      if (s.elem.get? s%"files_analyzed").isSome then s.logElem (.atLine n (multipleMsg tag))
      else if v.value = s%"true" then { s with elem := s.elem.set s%"files_analyzed" (.one (.bool true)) }
      else if v.value = s%"false" then { s with elem := s.elem.set s%"files_analyzed" (.one (.bool false)) }
      else s.logElem (.invalid tag (.str v.value)))
  else if tag = s%"PrimaryPackagePurpose" then
    .ok (s.inScopeAt n .package fun s => s.setElemAt n tag (match PackagePurpose.ofName? (replaceChar '-' ['_'] v.value) with
      | some p => .ok (.purpose p)
      | none => .error (.atLine n (.invalid tag (.str v.value)))))
  else if tag = s%"BuiltDate" ∨ tag = s%"ReleaseDate" ∨ tag = s%"ValidUntilDate" then
    .ok (s.inScopeAt n .package fun s => s.setElemAt n tag (dateItem v.value))
  else if tag = s%"SnippetByteRange" ∨ tag = s%"SnippetLineRange" then
    .ok (s.inScopeAt n .snippet fun s =>
      if (s.elem.get? (propertyName tag)).isSome then s.logElem (.atLine n (multipleMsg tag))
      else match parseTvRange v.value with
        | some r => { s with elem := s.elem.set (propertyName tag) (.one (.range r)) }
        | none => s.logElem (.atLine n (.invalid tag (.str v.value))))
  else if tag = s%"Annotator" then .ok ((s.start .annotation).setElemAt n tag (actorItem v.value))
  else if tag = s%"AnnotationDate" then .ok (s.inScopeAt n .annotation fun s => s.setElemAt n tag (dateItem v.value))
  else if tag = s%"AnnotationType" then
    .ok (s.inScopeAt n .annotation fun s => s.setElemAt n tag (match AnnotationType.ofName? v.value with
      | some t => .ok (.annotationType t)
      | none => .error (.atLine n (.invalid tag (.str v.value)))))
  else match textListTags.lookup tag with
  | some (c, k) => .ok (s.inScopeAt n c fun s => s.appendElem k (.str (textOrLineValue v)))
  | none => match licenseListTags.lookup tag with
  | some (c, k) => .ok ((s.logLicense (licenseValue L v).2).inScopeAt n c fun s => s.appendElem k (licenseValue L v).1)
  | none => .error (.other s%"no rule")

/-- parser.py L133-172 `p_current_element_error` and L263-272 `p_creation_info_value_error` -/
def TvState.badAttrAt (n : Nat) (s : TvState) (tag : Str) : Py TvState :=
  if tag ∈ infoTags then .ok (s.logInfo (.atLine n (.text (s%"Error while parsing " ++ tag))))
  else if (startTag tag).isSome then
    match tagClass tag with
    | none => .error (.other s%"KeyError")
    | some c => .ok ((s.start c).logElem (.atLine n (.text (s%"Error while parsing " ++ tag))))
  else .ok (s.logElem (.atLine n (.text (s%"Error while parsing " ++ tag))))

/-- The action of one attribute, whose tag is on the line `n`. -/
def TvState.stepAt (L : LicText) (n : Nat) (s : TvState) : TvAttr → Py TvState
  | .value tag v => s.attrAt L n tag v
  | .bad tag => s.badAttrAt n tag
  -- parser.py L251-259 `p_spdx_id`
  | .spdxId v =>
    .ok (if (s.info.get? s%"spdx_id").isSome then { s with elem := s.elem.set s%"spdx_id" (.one (.str v)) }
      else { s with info := s.info.set s%"spdx_id" (.one (.str v)) })
  -- parser.py L212-213 `p_unknown_tag`
  | .unknown => .ok { s with log := s.log ++ [.atLine n (.text s%"Unknown tag provided")] }
  | .commented tag line comment =>
    if tag = s%"Relationship" then .ok ((s.start .relationship).setRelationshipAt n line (comment.map textOrLineValue))
    -- parser.py L364-395 `p_pkg_external_refs`
    else .ok (s.inScopeAt n .package fun s => match parseTvExtRef line (comment.map textOrLineValue) with
      | .ok r => s.appendElem s%"external_references" (.extRef r)
      | .error m => s.logElem (.atLine n m))

/-- All the attributes in turn. -/
def TvState.runAt (L : LicText) : TvState → List (TvAttr × Nat) → Py TvState
  | s, [] => .ok s
  | s, (a, n) :: as => match s.stepAt L n a with
    | .ok s' => s'.runAt L as
    | .error e => .error e

/-- parser.py L538-557 `Parser.parse`, by a parser whose line number is `line` at the start of the text -/
def parseTagValueAt (L : LicText) (line : Nat) (text : Str) : Py Document :=
  match TvState.runAt L {} (readLines line text) with
  | .ok s => s.result
  | .error e => .error e

end Spdx
