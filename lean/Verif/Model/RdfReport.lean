import Verif.Model.RdfParser
import Verif.Model.JsonParser
/- The RDF reader again (spdx/parser/rdf/*.py), with its loggers and exceptions: what `parse_from_file` returns or raises after the graph is
   there. `Model/RdfParser` has the same functions with `none` for every failure. The warnings of `get_correctly_typed_triples` and
   `get_value_from_graph` about nodes that are neither `URIRef`, `BNode` nor `Literal` are left out: there are no such nodes here, and
   subjects of triples in files are no literals. -/
namespace Spdx

/-- the URI of a predicate (spdx/rdfschema/namespace.py L6-9, and `RDF`, `RDFS`, `DOAP` of rdflib) -/
def Pred.uri : Pred → Str
  | .type => s%"http://www.w3.org/1999/02/22-rdf-syntax-ns#type"
  | .rdfsComment => s%"http://www.w3.org/2000/01/rdf-schema#comment"
  | .seeAlso => s%"http://www.w3.org/2000/01/rdf-schema#seeAlso"
  | .homepage => s%"http://usefulinc.com/ns/doap#homepage"
  | .specVersion => spdxNamespace ++ s%"specVersion"
  | .dataLicense => spdxNamespace ++ s%"dataLicense"
  | .name => spdxNamespace ++ s%"name"
  | .created => spdxNamespace ++ s%"created"
  | .creator => spdxNamespace ++ s%"creator"
  | .licenseListVersion => spdxNamespace ++ s%"licenseListVersion"
  | .creationInfo => spdxNamespace ++ s%"creationInfo"
  | .spdxDocument => spdxNamespace ++ s%"spdxDocument"
  | .externalDocumentRef => spdxNamespace ++ s%"externalDocumentRef"
  | .algorithm => spdxNamespace ++ s%"algorithm"
  | .checksumValue => spdxNamespace ++ s%"checksumValue"
  | .checksum => spdxNamespace ++ s%"checksum"
  | .annotationType => spdxNamespace ++ s%"annotationType"
  | .annotator => spdxNamespace ++ s%"annotator"
  | .annotationDate => spdxNamespace ++ s%"annotationDate"
  | .annotation => spdxNamespace ++ s%"annotation"
  | .fileName => spdxNamespace ++ s%"fileName"
  | .fileType => spdxNamespace ++ s%"fileType"
  | .licenseConcluded => spdxNamespace ++ s%"licenseConcluded"
  | .licenseInfoInFile => spdxNamespace ++ s%"licenseInfoInFile"
  | .licenseComments => spdxNamespace ++ s%"licenseComments"
  | .copyrightText => spdxNamespace ++ s%"copyrightText"
  | .noticeText => spdxNamespace ++ s%"noticeText"
  | .fileContributor => spdxNamespace ++ s%"fileContributor"
  | .attributionText => spdxNamespace ++ s%"attributionText"
  | .versionInfo => spdxNamespace ++ s%"versionInfo"
  | .packageFileName => spdxNamespace ++ s%"packageFileName"
  | .supplier => spdxNamespace ++ s%"supplier"
  | .originator => spdxNamespace ++ s%"originator"
  | .downloadLocation => spdxNamespace ++ s%"downloadLocation"
  | .filesAnalyzed => spdxNamespace ++ s%"filesAnalyzed"
  | .sourceInfo => spdxNamespace ++ s%"sourceInfo"
  | .licenseInfoFromFiles => spdxNamespace ++ s%"licenseInfoFromFiles"
  | .licenseDeclared => spdxNamespace ++ s%"licenseDeclared"
  | .summary => spdxNamespace ++ s%"summary"
  | .description => spdxNamespace ++ s%"description"
  | .primaryPackagePurpose => spdxNamespace ++ s%"primaryPackagePurpose"
  | .releaseDate => spdxNamespace ++ s%"releaseDate"
  | .builtDate => spdxNamespace ++ s%"builtDate"
  | .validUntilDate => spdxNamespace ++ s%"validUntilDate"
  | .packageVerificationCodeValue => spdxNamespace ++ s%"packageVerificationCodeValue"
  | .packageVerificationCodeExcludedFile => spdxNamespace ++ s%"packageVerificationCodeExcludedFile"
  | .packageVerificationCode => spdxNamespace ++ s%"packageVerificationCode"
  | .referenceCategory => spdxNamespace ++ s%"referenceCategory"
  | .referenceType => spdxNamespace ++ s%"referenceType"
  | .referenceLocator => spdxNamespace ++ s%"referenceLocator"
  | .externalRef => spdxNamespace ++ s%"externalRef"
  | .relationshipType => spdxNamespace ++ s%"relationshipType"
  | .relatedSpdxElement => spdxNamespace ++ s%"relatedSpdxElement"
  | .relationship => spdxNamespace ++ s%"relationship"
  | .snippetFromFile => spdxNamespace ++ s%"snippetFromFile"
  | .licenseInfoInSnippet => spdxNamespace ++ s%"licenseInfoInSnippet"
  | .range => spdxNamespace ++ s%"range"
  | .licenseId => spdxNamespace ++ s%"licenseId"
  | .extractedText => spdxNamespace ++ s%"extractedText"
  | .hasExtractedLicensingInfo => spdxNamespace ++ s%"hasExtractedLicensingInfo"
  | .member => spdxNamespace ++ s%"member"
  | .licenseException => spdxNamespace ++ s%"licenseException"
  | .licenseExceptionId => spdxNamespace ++ s%"licenseExceptionId"
  | .hasFile => spdxNamespace ++ s%"hasFile"
  | .describesPackage => spdxNamespace ++ s%"describesPackage"
  | .startPointer => pointerNamespace ++ s%"startPointer"
  | .endPointer => pointerNamespace ++ s%"endPointer"
  | .reference => pointerNamespace ++ s%"reference"
  | .offset => pointerNamespace ++ s%"offset"
  | .lineNumber => pointerNamespace ++ s%"lineNumber"

/-- `AttributeError`: `fragment` of a literal, a method of `None` -/
def attributeError : PyErr := .other s%"AttributeError"
/-- `sys.exit(1)` -/
def systemExit : PyErr := .other s%"SystemExit"
/-- `KeyError` -/
def keyError : PyErr := .other s%"KeyError"

/-- graph_parsing_functions.py L76: the message -/
def multipleValues (p : Pred) : PMsg := .text (s%"Multiple values for unique value " ++ p.uri ++ s%" found.")

/-- graph_parsing_functions.py L71-77 `get_unique_value` -/
def readUnique (g : RdfGraph) (s : RdfNode) (p : Pred) : P (Option RdfNode) :=
  match g.objects s p with
  | [] => .ok ([], none)
  | [v] => .ok ([], some v)
  | _ => .ok ([multipleValues p], none)

/-- graph_parsing_functions.py L34-43 `apply_parsing_method_or_log_error` -/
def applyOrLog (m : RdfNode → Py α) (v : RdfNode) : P (Option α) :=
  match m v with
  | .ok a => .ok ([], some a)
  | .error e => match e.logged with
    | some ms => .ok (ms, none)
    | none => .error e

/-- graph_parsing_functions.py L20-31 `parse_literal` -/
def readLiteral (g : RdfGraph) (s : RdfNode) (p : Pred) (m : RdfNode → Py α) : P (Option α) := do
  match ← readUnique g s p with
  | none => return none
  | some v => if v.truthy then applyOrLog m v else return none

/-- the default method, `x.strip()` -/
def readStrip (n : RdfNode) : Py Str := .ok (strip n.text)

/-- the default method where a special value may stand -/
def readStripSpecial (n : RdfNode) : Py (Option Str) := .ok (some (strip n.text))

/-- a value read as an ordinary one -/
def asVal : Option (Option α) → Option (OrSpecial α)
  | some (some a) => some (.val a)
  | _ => none

/-- graph_parsing_functions.py L58-67 `get_correctly_typed_value` of a value; the method may give `None` -/
def readTyped (m : RdfNode → Py (Option α)) (v : RdfNode) : P (Option (OrSpecial α)) :=
  if ¬ v.truthy then pure none
  else if v = spdxTerm s%"noassertion" ∨ v.toPyStr = some s%"NOASSERTION" then pure (some .noAssertion)
  else if v = spdxTerm s%"none" ∨ v.toPyStr = some s%"NONE" then pure (some .none)
  else do return asVal (← applyOrLog m v)

/-- graph_parsing_functions.py L46-55 `parse_literal_or_no_assertion_or_none` -/
def readSpecial (g : RdfGraph) (s : RdfNode) (p : Pred) (m : RdfNode → Py (Option α)) : P (Option (OrSpecial α)) := do
  match ← readUnique g s p with
  | none => return none
  | some v => readTyped m v

/-- graph_parsing_functions.py L80-86 `parse_enum_value`; `cls` is the name of the class -/
def readEnum (cls : Str) (ofName? : Str → Option α) (pre : Str) (n : RdfNode) : Py α :=
  match enumFromRdf ofName? pre n.text with
  | some a => .ok a
  | none => .error (.parsing [.text (s%"Invalid value for <enum '" ++ cls ++ s%"'>: " ++ n.text)])

/-- graph_parsing_functions.py L89-97 `parse_spdx_id` -/
def readId (b : Bindings) (ns : Str) (n : RdfNode) : Py (Option Str) :=
  match parseRdfId b ns n with
  | some o => .ok o
  | none => .error attributeError

/-- spdx/parser/actor_parser.py L15-53 of a text -/
def readActor (s : Str) : Py Actor :=
  match parseActor s with
  | .ok a => .ok a
  | .error .noToolName => .error (.parsing [.text (s%"No name for Tool provided: " ++ s ++ s%".")])
  | .error .noName => .error (.parsing [.text (s%"No name for Actor provided: " ++ s ++ s%".")])
  | .error .noMatch => .error (.parsing [.text (s%"Actor " ++ s ++ s%" doesn't match any of person, organization or tool.")])

/-- spdx/datetime_conversions.py L7-12: all terms of rdflib are `str` -/
def readDate (n : RdfNode) : Py DateTime :=
  match datetimeFromStr n.text with
  | some t => .ok t
  | none => .error (.value s%"time data does not match format")

/-- model/version.py L23-28 `Version.from_string` -/
def readVersion (n : RdfNode) : Py Version :=
  match versionFromString n.text with
  | some v => .ok v
  | none => .error (.value (n.text ++ s%" is not a valid version string"))

/-- checksum_parser.py L30-32: the name looked up -/
def algorithmName (s : Str) : Str :=
  let t := upperAscii (removePrefix s (spdxNamespace ++ s%"checksumAlgorithm_"))
  if isInfix s%"BLAKE2B" t then replaceStr s%"BLAKE2B" s%"BLAKE2B_" t else t

/-- checksum_parser.py L29-37 `convert_rdf_to_algorithm` -/
def readAlgorithm (n : RdfNode) : Py ChecksumAlgorithm :=
  match algorithmFromRdf n.text with
  | some a => .ok a
  | none => .error (.parsing [.text (s%"Invalid value for ChecksumAlgorithm: " ++ algorithmName n.text)])

/-- checksum_parser.py L17-26 `parse_checksum` -/
def readChecksum (g : RdfGraph) (n : RdfNode) : Py Checksum := do
  let (algorithm, value) ← P.orRaiseIn s%"Checksum" do
    let algorithm ← readLiteral g n .algorithm readAlgorithm
    let value ← readLiteral g n .checksumValue readStrip
    return (algorithm, value)
  construct s%"Checksum" (.ok Checksum.mk ⊛ chkSome s%"algorithm" algorithm ⊛ chkSome s%"value" value)

/-- `spdx_licensing.parse(expression)`: the exceptions of `license_expression` are neither `TypeError` nor `ValueError` -/
def readLicText (env : RdfEnv) (s : Str) : Py (Option LicExpr) :=
  match env.lic.parse s with
  | some o => .ok o
  | none => .error (.other s%"ExpressionError")

/-- `value.toPython()` etc. of a value that may be `None` -/
def notNone (o : Option α) : Py α :=
  match o with
  | some a => .ok a
  | none => .error attributeError

/-- license_expression_parser.py L16-54 `parse_license_expression`; `depth` is how deep the interpreter may still recurse -/
def readLicense (env : RdfEnv) (g : RdfGraph) (ns : Str) : Nat → RdfNode → Py (Option LicExpr)
  | 0, _ => .error (.other s%"RecursionError")
  | depth + 1, n =>
    if startsWith n.text licenseNamespace then readLicText env (removePrefix n.text licenseNamespace)
    else if startsWith n.text ns then
      match n with
      | .uri s => readLicText env (fragmentOf s)
      | _ => .error attributeError
    else match someValue g n .type with
      | none => readLicText env []
      | some ty =>
        if ty = spdxTerm s%"ConjunctiveLicenseSet" then do
          let ms ← (g.objects n .member).mapM (readLicense env g ns depth)
          readLicText env (joinWith s%" AND " (ms.map (licStr env)))
        else if ty = spdxTerm s%"DisjunctiveLicenseSet" then do
          let ms ← (g.objects n .member).mapM (readLicense env g ns depth)
          readLicText env (joinWith s%" OR " (ms.map (licStr env)))
        else if ty = spdxTerm s%"WithExceptionOperator" then do
          let m ← notNone (someValue g n .member)
          let l ← readLicense env g ns depth m
          let x ← notNone (someValue g n .licenseException)
          let e ← notNone (parseException g x)
          readLicText env (licStr env l ++ s%" WITH " ++ e)
        else readLicText env []

/-- `get_correctly_typed_value` for each license of a list -/
def readLicenses (env : RdfEnv) (g : RdfGraph) (ns : Str) : List RdfNode → P (List (Option (OrSpecial LicExpr)))
  | [] => return []
  | v :: l => do
    let a ← readTyped (readLicense env g ns env.depth) v
    let as ← readLicenses env g ns l
    return a :: as

/-- `apply_parsing_method_or_log_error` for each node of a list -/
def readEach (m : RdfNode → Py α) : List RdfNode → P (List (Option α))
  | [] => return []
  | v :: l => do
    let a ← applyOrLog m v
    let as ← readEach m l
    return a :: as

/-- the type check of a list of `x.toPython()`; as in `Model/PyParse`, all its items are looked at -/
def chkTexts (fld : Str) (l : List RdfNode) : Check (List Str) :=
  match l.mapM RdfNode.toPyStr with
  | some ss => .ok ss
  | none => .error [fld]

/-- the type check of a value that must not be `SpdxNone` -/
def chkNoNone (fld : Str) : Option (OrSpecial α) → Check (Option (OrNoAssertion α))
  | none => .ok none
  | some (.val a) => .ok (some (.val a))
  | some .noAssertion => .ok (some .noAssertion)
  | some .none => .error [fld]

/-- the value, whatever was logged: the logger of L127 is not looked at -/
def P.unheard (p : P α) : Py α :=
  match p with
  | .ok (_, a) => .ok a
  | .error e => .error e

/-- creation_info_parser.py L124-145 `parse_external_document_refs`; `graph.bind` raises a `KeyError` for a prefix with a blank -/
def readExtRef (g : RdfGraph) (ns : Str) (b : Bindings) (n : RdfNode) : Py (ExternalDocumentRef × Bindings) := do
  let id ← readId b ns n
  let (uri, checksum) ← P.unheard do
    let uri ← readLiteral g n .spdxDocument readStrip
    let checksum ← readLiteral g n .checksum (readChecksum g)
    return (uri, checksum)
  let r ← construct s%"ExternalDocumentRef"
    (.ok ExternalDocumentRef.mk ⊛ chkSome s%"document_ref_id" id ⊛ chkSome s%"document_uri" uri ⊛ chkSome s%"checksum" checksum)
  if ' ' ∈ r.documentRefId then .error keyError else .ok (r, b.bind r.documentRefId (r.documentUri ++ s%"#"))

/-- creation_info_parser.py L66-70, the loop -/
def readExtRefs (g : RdfGraph) (ns : Str) : Bindings → List RdfNode → Py (List ExternalDocumentRef × Bindings)
  | b, [] => .ok ([], b)
  | b, n :: l => do
    let (r, b) ← readExtRef g ns b n
    let (rs, b) ← readExtRefs g ns b l
    return (r :: rs, b)

/-- creation_info_parser.py L92-121 `parse_namespace_and_spdx_id` -/
def readNamespace (env : RdfEnv) (g : RdfGraph) : Py (Str × Option Str × RdfNode) :=
  match g.subjects .type (spdxTerm s%"SpdxDocument") with
  | [n] =>
    if '#' ∈ n.text then
      if env.defrag n.text = [] then .error systemExit
      else .ok (env.defrag n.text, if fragmentOf n.text = [] then none else some (fragmentOf n.text), n)
    else .error systemExit
  | _ => .error systemExit

/-- creation_info_parser.py L60-63: one creator, `ActorParser.parse_actor(creator_literal.toPython())`; a number is no subject of a pattern -/
def readCreator (n : RdfNode) : Py Actor :=
  match n.toPyStr with
  | some s => readActor s
  | none => .error (.type s%"expected string or bytes-like object")

/-- the text of a value that may be `None` in a message -/
def shownName : Option Str → Str
  | some s => s
  | none => s%"None"

/-- creation_info_parser.py L36-45: what the document's node says: version, data license, comment and name -/
def readDocFields (g : RdfGraph) (doc : RdfNode) : P (Option Str × Option Str × Option Str × Option Str) := do
  let version ← readLiteral g doc .specVersion readStrip
  let license ← readLiteral g doc .dataLicense fun n => .ok (removePrefix n.text licenseNamespace)
  let comment ← readLiteral g doc .rdfsComment readStrip
  let name ← readLiteral g doc .name readStrip
  return (version, license, comment, name)

/-- creation_info_parser.py L52-63: the creation node's fields -/
def readInfoFields (g : RdfGraph) (info : RdfNode) : P (Option DateTime × Option Version × Option Str × List Actor) := do
  let created ← readLiteral g info .created readDate
  let listVersion ← readLiteral g info .licenseListVersion readVersion
  let creatorComment ← readLiteral g info .rdfsComment readStrip
  let creators ← Py.lift ((g.objects info .creator).mapM readCreator)
  return (created, listVersion, creatorComment, creators)

/-- creation_info_parser.py L64-65 -/
def logNoCreators : List Actor → P Unit
  | [] => .ok ([.text s%"No creators provided."], ())
  | _ :: _ => .ok ([], ())

/-- a logger with these messages -/
def alreadyLogged (ms : List PMsg) : P Unit := .ok (ms, ())

/-- creation_info_parser.py L52-71: the creation node's fields and the external documents, after `logged` -/
def readInfoNode (b : Bindings) (g : RdfGraph) (ns : Str) (doc info : RdfNode) (logged : List PMsg) :
    Py (Option DateTime × Option Version × Option Str × List Actor × List ExternalDocumentRef × Bindings) :=
  P.orRaiseIn s%"CreationInfo" do
    alreadyLogged logged
    let (created, listVersion, creatorComment, creators) ← readInfoFields g info
    logNoCreators creators
    let (refs, b) ← Py.lift (readExtRefs g ns b (g.objects doc .externalDocumentRef))
    return (created, listVersion, creatorComment, creators, refs, b)

/-- creation_info_parser.py L33-89 `parse_creation_info`: the creation information and the bindings -/
def readCreationInfo (env : RdfEnv) (b : Bindings) (g : RdfGraph) : Py (CreationInfo × Bindings) := do
  let (ns, id, doc) ← readNamespace env g
  match readDocFields g doc with
  | .error e => .error e
  | .ok (logged, version, license, comment, name) =>
    match ((g.subjects .type (spdxTerm s%"CreationInfo")).head?).filter RdfNode.truthy with
    | none => .error (.parsing [.wrapped (s%"document " ++ shownName name) (logged ++ [.text s%"CreationInfo does not exist."])])
    | some info =>
      let (created, listVersion, creatorComment, creators, refs, b) ← readInfoNode b g ns doc info logged
      let c ← construct s%"CreationInfo"
        (.ok CreationInfo.mk ⊛ chkSome s%"spdx_version" version ⊛ chkSome s%"spdx_id" id ⊛ chkSome s%"name" name ⊛ .ok ns ⊛ .ok creators
          ⊛ chkSome s%"created" created ⊛ .ok creatorComment ⊛ chkSome s%"data_license" license ⊛ .ok refs ⊛ .ok listVersion ⊛ .ok comment)
      return (c, b)

/-- annotation_parser.py L18-48 `parse_annotation` -/
def readAnnotation (b : Bindings) (g : RdfGraph) (ns : Str) (e : RdfNode × RdfNode) : Py Annotation := do
  let id ← readId b ns e.1
  let (annotator, type, date, comment) ← P.orRaiseIn s%"Annotation" do
    let annotator ← readLiteral g e.2 .annotator fun n => readActor n.text
    let type ← readLiteral g e.2 .annotationType (readEnum s%"AnnotationType" AnnotationType.ofName? s%"annotationType_")
    let date ← readLiteral g e.2 .annotationDate readDate
    let comment ← readLiteral g e.2 .rdfsComment readStrip
    return (annotator, type, date, comment)
  construct s%"Annotation" (.ok Annotation.mk ⊛ chkSome s%"spdx_id" id ⊛ chkSome s%"annotation_type" type ⊛ chkSome s%"annotator" annotator
    ⊛ chkSome s%"annotation_date" date ⊛ chkSome s%"annotation_comment" comment)

/-- file_parser.py L27-91 `parse_file`. A checksum that cannot be read ends it: its exception is not caught here. -/
def readFile (env : RdfEnv) (b : Bindings) (g : RdfGraph) (ns : Str) (n : RdfNode) : Py File := do
  let id ← readId b ns n
  let (name, checksums, types, concluded, inFile, licenseComment, copyright, notice, comment) ← P.orRaiseIn s%"File" do
    let name ← readLiteral g n .fileName readStrip
    let checksums ← Py.lift ((g.objects n .checksum).mapM (readChecksum g))
    let types ← readEach (readEnum s%"FileType" FileType.ofName? s%"fileType_") (g.objects n .fileType)
    let concluded ← readSpecial g n .licenseConcluded (readLicense env g ns env.depth)
    let inFile ← readLicenses env g ns (g.objects n .licenseInfoInFile)
    let licenseComment ← readLiteral g n .licenseComments readStrip
    let copyright ← readSpecial g n .copyrightText readStripSpecial
    let notice ← readLiteral g n .noticeText readStrip
    let comment ← readLiteral g n .rdfsComment readStrip
    return (name, checksums, types, concluded, inFile, licenseComment, copyright, notice, comment)
  construct s%"File" (.ok File.mk ⊛ chkSome s%"name" name ⊛ chkSome s%"spdx_id" id ⊛ .ok checksums ⊛ chkAll s%"file_types" (some types)
    ⊛ .ok concluded ⊛ chkAll s%"license_info_in_file" (some inFile) ⊛ .ok licenseComment ⊛ .ok copyright ⊛ .ok comment ⊛ .ok notice
    ⊛ chkTexts s%"contributors" (g.objects n .fileContributor) ⊛ chkTexts s%"attribution_texts" (g.objects n .attributionText))

/-- package_parser.py L158-173 `parse_package_verification_code` -/
def readVerificationCode (g : RdfGraph) (n : RdfNode) : Py PackageVerificationCode := do
  let value ← P.orRaiseIn s%"PackageVerificationCode" (readLiteral g n .packageVerificationCodeValue readStrip)
  construct s%"PackageVerificationCode" (.ok PackageVerificationCode.mk ⊛ chkSome s%"value" value
    ⊛ chkTexts s%"excluded_files" (g.objects n .packageVerificationCodeExcludedFile))

/-- package_parser.py L202-207 `parse_external_package_ref_type`: a value, of which only texts pass the type check -/
def readRefType (ns : Str) (n : RdfNode) : Py (Option Str) :=
  if startsWith n.text ns then
    match n with
    | .uri s => .ok (some (fragmentOf s))
    | _ => .error attributeError
  else if startsWith n.text referenceNamespace then .ok (some (replaceStr referenceNamespace [] n.text))
  else .ok n.toPyStr

/-- package_parser.py L176-199 `parse_external_package_ref` -/
def readPackageRef (g : RdfGraph) (ns : Str) (n : RdfNode) : Py ExternalPackageRef := do
  let (locator, category, type, comment) ← P.orRaiseIn s%"ExternalPackageRef" do
    let locator ← readLiteral g n .referenceLocator readStrip
    let category ← readLiteral g n .referenceCategory
      (readEnum s%"ExternalPackageRefCategory" ExternalPackageRefCategory.ofName? s%"referenceCategory_")
    let type ← readLiteral g n .referenceType (readRefType ns)
    let comment ← readLiteral g n .rdfsComment readStrip
    return (locator, category, type, comment)
  construct s%"ExternalPackageRef" (.ok ExternalPackageRef.mk ⊛ chkSome s%"category" category ⊛ chkSome s%"reference_type" type.join
    ⊛ chkSome s%"locator" locator ⊛ .ok comment)

/-- package_parser.py L36-155 `parse_package`. A checksum or an external reference that cannot be read ends it. -/
def readPackage (env : RdfEnv) (b : Bindings) (g : RdfGraph) (ns : Str) (n : RdfNode) : Py Package := do
  let id ← readId b ns n
  let (name, download, checksums, version, fileName, supplier, originator, code, refs, concluded, declared, fromFiles, licenseComment, comment,
      summary, description, copyright, sourceInfo, purpose, homepage, release, built, validUntil) ← P.orRaiseIn s%"Package" do
    let name ← readLiteral g n .name readStrip
    let download ← readSpecial g n .downloadLocation readStripSpecial
    let checksums ← Py.lift ((g.objects n .checksum).mapM (readChecksum g))
    let version ← readLiteral g n .versionInfo readStrip
    let fileName ← readLiteral g n .packageFileName readStrip
    let supplier ← readSpecial g n .supplier fun v => (readActor v.text).map some
    let originator ← readSpecial g n .originator fun v => (readActor v.text).map some
    let code ← readLiteral g n .packageVerificationCode (readVerificationCode g)
    let refs ← Py.lift ((g.objects n .externalRef).mapM (readPackageRef g ns))
    let concluded ← readSpecial g n .licenseConcluded (readLicense env g ns env.depth)
    let declared ← readSpecial g n .licenseDeclared (readLicense env g ns env.depth)
    let fromFiles ← readLicenses env g ns (g.objects n .licenseInfoFromFiles)
    let licenseComment ← readLiteral g n .licenseComments readStrip
    let comment ← readLiteral g n .rdfsComment readStrip
    let summary ← readLiteral g n .summary readStrip
    let description ← readLiteral g n .description readStrip
    let copyright ← readSpecial g n .copyrightText readStripSpecial
    let sourceInfo ← readLiteral g n .sourceInfo readStrip
    let purpose ← readLiteral g n .primaryPackagePurpose (readEnum s%"PackagePurpose" PackagePurpose.ofName? s%"purpose_")
    let homepage ← readLiteral g n .homepage readStrip
    let release ← readLiteral g n .releaseDate readDate
    let built ← readLiteral g n .builtDate readDate
    let validUntil ← readLiteral g n .validUntilDate readDate
    return (name, download, checksums, version, fileName, supplier, originator, code, refs, concluded, declared, fromFiles, licenseComment, comment,
      summary, description, copyright, sourceInfo, purpose, homepage, release, built, validUntil)
  construct s%"Package" (.ok Package.mk ⊛ chkSome s%"spdx_id" id ⊛ chkSome s%"name" name ⊛ chkSome s%"download_location" download ⊛ .ok version
    ⊛ .ok fileName ⊛ chkNoNone s%"supplier" supplier ⊛ chkNoNone s%"originator" originator
    ⊛ .ok ((someValue g n .filesAnalyzed).elim true RdfNode.truthy) ⊛ .ok code ⊛ .ok checksums ⊛ .ok (homepage.map .val) ⊛ .ok sourceInfo
    ⊛ .ok concluded ⊛ chkAll s%"license_info_from_files" (some fromFiles) ⊛ .ok declared ⊛ .ok licenseComment ⊛ .ok copyright ⊛ .ok summary
    ⊛ .ok description ⊛ .ok comment ⊛ .ok refs ⊛ chkTexts s%"attribution_texts" (g.objects n .attributionText) ⊛ .ok purpose ⊛ .ok release
    ⊛ .ok built ⊛ .ok validUntil)

/-- relationship_parser.py L22-53 `parse_relationship` -/
def readRelationship (b : Bindings) (g : RdfGraph) (ns : Str) (e : RdfNode × RdfNode) : Py Relationship := do
  let id ← readId b ns e.1
  let (type, related, comment) ← P.orRaiseIn s%"Relationship" do
    let type ← readLiteral g e.2 .relationshipType (readEnum s%"RelationshipType" RelationshipType.ofName? s%"relationshipType_")
    let related ← readSpecial g e.2 .relatedSpdxElement (readId b ns)
    let comment ← readLiteral g e.2 .rdfsComment readStrip
    return (type, related, comment)
  construct s%"Relationship" (.ok Relationship.mk ⊛ chkSome s%"spdx_element_id" id ⊛ chkSome s%"relationship_type" type
    ⊛ chkSome s%"related_spdx_element_id" related ⊛ .ok comment)

/-- relationship_parser.py L56-73 `parse_implicit_relationship` -/
def readImplicit (b : Bindings) (ns : Str) (type : RelationshipType) (e : RdfNode × RdfNode) : Py Relationship := do
  let id ← readId b ns e.1
  let related ← readId b ns e.2
  construct s%"Relationship" (.ok Relationship.mk ⊛ chkSome s%"spdx_element_id" id ⊛ .ok type
    ⊛ chkSome s%"related_spdx_element_id" (related.map .val) ⊛ .ok none)

/-- the name of a predicate or class after the `#` -/
def Pred.fragment (p : Pred) : Str := fragmentOf p.uri

/-- snippet_parser.py L140-147 `parse_range_value`; `none` is a value that is no number: `None`, or a literal that is false -/
def readRangeValue (g : RdfGraph) (n : RdfNode) (p : Pred) : Py (Option Int) :=
  match g.objects n p with
  | [] => .ok none
  | [v] =>
    if v.truthy then match v.toInt with
      | some i => .ok (some i)
      | none => .error (.value s%"invalid literal for int() with base 10")
    else .ok none
  | _ => .error (.parsing [.text (s%"Multiple values for " ++ p.fragment ++ s%" found.")])

/-- snippet_parser.py L123-131 `get_pointer_type`: the type, if any, and the node -/
def readPointer (g : RdfGraph) (n : RdfNode) (p : Pred) : Py (Option RdfNode × RdfNode) :=
  match g.objects n p with
  | [] => .error (.parsing [.text (s%"Couldn't find pointer of type " ++ p.fragment ++ s%".")])
  | [v] =>
    if v.truthy then .ok (someValue g v .type, v)
    else .error (.parsing [.text (s%"Couldn't find pointer of type " ++ p.fragment ++ s%".")])
  | _ => .error (.parsing [.text (s%"Multiple values for " ++ p.fragment)])

/-- POINTER_MATCHING (snippet_parser.py L134-137) -/
def RangeKind.number : RangeKind → Pred
  | .byte => .offset
  | .line => .lineNumber

/-- snippet_parser.py L109-120 `parse_ranges` -/
def readRange (g : RdfGraph) (n : RdfNode) : Py (RangeKind × (Option Int × Option Int)) := do
  let (startType, start) ← readPointer g n .startPointer
  let (endType, stop) ← readPointer g n .endPointer
  if startType ≠ endType then .error (.parsing [.text s%"Types of startPointer and endPointer don't match"])
  else match startType.bind rangeKind with
    | none => .error keyError
    | some kind => do
      let a ← readRangeValue g start kind.number
      let z ← readRangeValue g stop kind.number
      return (kind, (a, z))

/-- two ranges that may have been found -/
abbrev Ranges := Option (Option Int × Option Int) × Option (Option Int × Option Int)

/-- snippet_parser.py L90-106 `set_range_or_log_error` -/
def setReadRange (rs : Ranges) : Option (RangeKind × (Option Int × Option Int)) → P Ranges
  | none => .ok ([], rs)
  | some (.byte, r) => match rs.1 with
    | none => .ok ([], (some r, rs.2))
    | some _ => .ok ([.text s%"Multiple ByteOffsetPointer found."], rs)
  | some (.line, r) => match rs.2 with
    | none => .ok ([], (rs.1, some r))
    | some _ => .ok ([.text s%"Multiple LineCharPointer found."], rs)

/-- snippet_parser.py L38-42, the loop over the ranges -/
def readRanges (g : RdfGraph) : Ranges → List RdfNode → P Ranges
  | rs, [] => return rs
  | rs, n :: l => do
    let r ← applyOrLog (readRange g) n
    let rs ← setReadRange rs r
    readRanges g rs l

/-- `Tuple[int, int]` -/
def chkInts (fld : Str) : Option (Option Int × Option Int) → Check (Int × Int)
  | some (some a, some z) => .ok (a, z)
  | _ => .error [fld]

/-- `Optional[Tuple[int, int]]` -/
def chkOptInts (fld : Str) : Option (Option Int × Option Int) → Check (Option (Int × Int))
  | none => .ok none
  | some (some a, some z) => .ok (some (a, z))
  | _ => .error [fld]

/-- `parse_spdx_id` of a node that may be missing -/
def readIdOf (b : Bindings) (ns : Str) : Option RdfNode → Py (Option Str)
  | none => .ok none
  | some n => readId b ns n

/-- snippet_parser.py L29-87 `parse_snippet` -/
def readSnippet (env : RdfEnv) (b : Bindings) (g : RdfGraph) (ns : Str) (n : RdfNode) : Py Snippet := do
  let id ← readId b ns n
  let fileId ← readIdOf b ns (someValue g n .snippetFromFile)
  let (ranges, concluded, inSnippet, licenseComment, copyright, comment, name) ← P.orRaiseIn s%"Snippet" do
    let ranges ← readRanges g (none, none) (g.objects n .range)
    let concluded ← readSpecial g n .licenseConcluded (readLicense env g ns env.depth)
    let inSnippet ← readLicenses env g ns (g.objects n .licenseInfoInSnippet)
    let licenseComment ← readLiteral g n .licenseComments readStrip
    let copyright ← readSpecial g n .copyrightText readStripSpecial
    let comment ← readLiteral g n .rdfsComment readStrip
    let name ← readLiteral g n .name readStrip
    return (ranges, concluded, inSnippet, licenseComment, copyright, comment, name)
  construct s%"Snippet" (.ok Snippet.mk ⊛ chkSome s%"spdx_id" id ⊛ chkSome s%"file_spdx_id" fileId ⊛ chkInts s%"byte_range" ranges.1
    ⊛ chkOptInts s%"line_range" ranges.2 ⊛ .ok concluded ⊛ chkAll s%"license_info_in_snippet" (some inSnippet) ⊛ .ok licenseComment
    ⊛ .ok copyright ⊛ .ok comment ⊛ .ok name ⊛ chkTexts s%"attribution_texts" (g.objects n .attributionText))

/-- extracted_licensing_info_parser.py L24-30: the license id, or the name of the node; `none` is a value that is no text -/
def readLicenseId (ns : Str) (n : RdfNode) : Option Str → Py (Option Str)
  | some (c :: id) => .ok (some (c :: id))
  | _ =>
    if startsWith n.text (ns ++ s%"#") then
      match n with
      | .uri s => .ok (some (fragmentOf s))
      | _ => .error attributeError
    else .ok n.toPyStr

/-- the type check of an optional text whose value is not `None` here: what is no text is refused -/
def chkText (fld : Str) : Option Str → Check (Option Str)
  | some s => .ok (some s)
  | none => .error [fld]

/-- extracted_licensing_info_parser.py L20-54 -/
def readExtracted (g : RdfGraph) (ns : Str) (n : RdfNode) : Py ExtractedLicensingInfo := do
  let (id, text, comment, name) ← P.orRaiseIn s%"ExtractedLicensingInfo" do
    let id ← readLiteral g n .licenseId readStrip
    let id ← Py.lift (readLicenseId ns n id)
    let text ← readLiteral g n .extractedText readStrip
    let comment ← readLiteral g n .rdfsComment readStrip
    let name ← readSpecial g n .name readStripSpecial
    return (id, text, comment, name)
  construct s%"ExtractedLicensingInfo" (.ok ExtractedLicensingInfo.mk ⊛ chkText s%"license_id" id
    ⊛ .ok text ⊛ chkNoNone s%"license_name" name ⊛ chkTexts s%"cross_references" (g.objects n .seeAlso) ⊛ .ok comment)

/-- rdf_parser.py L46-53, L59-65, L80-88: the elements that can be read; only `SPDXParsingError` is caught, and its messages are logged -/
def readAll (m : ν → Py α) : List ν → P (List α)
  | [] => .ok ([], [])
  | n :: l => do
    let a ← part (m n)
    let as ← readAll m l
    return a.toList ++ as

/-- rdf_parser.py L67-78: the implicit relationships of one kind, appended unless they are there already -/
def readImplicits (b : Bindings) (ns : Str) (type : RelationshipType) : List Relationship → List (RdfNode × RdfNode) → P (List Relationship)
  | rels, [] => return rels
  | rels, e :: l => do
    let r ← part (readImplicit b ns type e)
    readImplicits b ns type (match r with | some r => if r ∈ rels then rels else rels ++ [r] | none => rels) l

/-- rdf_parser.py L34-96 `translate_graph_to_document`: the document, or what is raised -/
def readRdf (env : RdfEnv) (b : Bindings) (g : RdfGraph) : Py Document := do
  let (info, b) ← readCreationInfo env b g
  let (packages, files, snippets, annotations, rels, extracted) ← P.orRaise do
    let packages ← readAll (readPackage env b g info.documentNamespace) (g.subjects .type (spdxTerm s%"Package"))
    let files ← readAll (readFile env b g info.documentNamespace) (g.subjects .type (spdxTerm s%"File"))
    let snippets ← readAll (readSnippet env b g info.documentNamespace) (g.subjects .type (spdxTerm s%"Snippet"))
    let annotations ← readAll (readAnnotation b g info.documentNamespace) (g.pairs .annotation)
    let rels ← readAll (readRelationship b g info.documentNamespace) (g.pairs .relationship)
    let rels ← readImplicits b info.documentNamespace .CONTAINS rels (g.pairs .hasFile)
    let rels ← readImplicits b info.documentNamespace .DESCRIBES rels (g.pairs .describesPackage)
    let extracted ← readAll (fun e => readExtracted g info.documentNamespace e.2) (g.pairs .hasExtractedLicensingInfo)
    return (packages, files, snippets, annotations, rels, extracted)
  return { creationInfo := info, packages, files, snippets, annotations, relationships := rels, extractedLicensingInfo := extracted }

end Spdx
