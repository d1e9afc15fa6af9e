import Verif.Model.RdfWriter
/- The RDF reader (spdx/parser/rdf/*.py). `none` stands for every failure: an `SPDXParsingError`, the program's exit, or another exception
   (the messages are not modelled). A logged error makes the element and then the document fail, so a log entry is `none` at once. -/
namespace Spdx

/-- `node.toPython()` where a text is needed: numbers and booleans fail the type check of the field -/
def RdfNode.toPyStr : RdfNode → Option Str
  | .uri s | .str s => some s
  | .bnode p => some (RdfNode.bnode p).text
  | .bool _ | .int _ => none

/-- `str(node.toPython())` -/
def RdfNode.pyStr : RdfNode → Str
  | .bool b => if b then s%"True" else s%"False"
  | n => n.text

/-- graph_parsing_functions.py L71-77 `get_unique_value`: several values are an error -/
def uniqueValue (g : RdfGraph) (s : RdfNode) (p : Pred) : Option (Option RdfNode) :=
  match g.objects s p with
  | [] => some none
  | [v] => some (some v)
  | _ => none

/-- `parsing_method(value)` -/
def applyMethod (method : RdfNode → Option α) (v : RdfNode) : Option (Option α) :=
  match method v with
  | none => none
  | some a => some (some a)

/-- graph_parsing_functions.py L20-31 `parse_literal`: an absent or empty value gives `None` -/
def rdfLiteral (g : RdfGraph) (s : RdfNode) (p : Pred) (method : RdfNode → Option α) : Option (Option α) :=
  match uniqueValue g s p with
  | none => none
  | some none => some none
  | some (some v) => if v.truthy then applyMethod method v else some none

/-- the default method, `x.strip()` -/
def stripText (n : RdfNode) : Option Str := some (strip n.text)

/-- graph_parsing_functions.py L58-67 `get_correctly_typed_value`; the method may give `None` -/
def specialOr (method : RdfNode → Option (Option α)) (v : RdfNode) : Option (Option (OrSpecial α)) :=
  if ¬ v.truthy then some none
  else if v = spdxTerm s%"noassertion" ∨ v.toPyStr = some s%"NOASSERTION" then some (some .noAssertion)
  else if v = spdxTerm s%"none" ∨ v.toPyStr = some s%"NONE" then some (some .none)
  else match method v with
    | none => none
    | some none => some none
    | some (some a) => some (some (.val a))

/-- graph_parsing_functions.py L46-55 `parse_literal_or_no_assertion_or_none` -/
def rdfSpecial (g : RdfGraph) (s : RdfNode) (p : Pred) (method : RdfNode → Option (Option α)) : Option (Option (OrSpecial α)) :=
  match uniqueValue g s p with
  | none => none
  | some none => some none
  | some (some v) => specialOr method v

/-- a field that must not be `None` -/
def needed (v : Option (Option α)) : Option α := v.bind id

/-- `graph.value(node, predicate)`: some value, if any -/
def someValue (g : RdfGraph) (s : RdfNode) (p : Pred) : Option RdfNode := (g.objects s p).head?

/-- `str(expression)` where the reader may have found `None` -/
def licStr (env : RdfEnv) : Option LicExpr → Str
  | none => s%"None"
  | some e => env.lic.render e

/-- license_expression_parser.py L57-62 `parse_license_exception` -/
def parseException (g : RdfGraph) (n : RdfNode) : Option Str :=
  if startsWith n.text licenseNamespace then some (removePrefix n.text licenseNamespace)
  else (someValue g n .licenseExceptionId).map RdfNode.pyStr

/-- license_expression_parser.py L16-54 `parse_license_expression`; `depth` is how deep the interpreter may still recurse -/
def parseRdfLic (env : RdfEnv) (g : RdfGraph) (ns : Str) : Nat → RdfNode → Option (Option LicExpr)
  | 0, _ => none
  | depth + 1, n =>
    if startsWith n.text licenseNamespace then env.lic.parse (removePrefix n.text licenseNamespace)
    else if startsWith n.text ns then
      match n with
      | .uri s => env.lic.parse (fragmentOf s)
      | _ => none
    else match someValue g n .type with
      | none => env.lic.parse []
      | some ty =>
        if ty = spdxTerm s%"ConjunctiveLicenseSet" then do
          let ms ← (g.objects n .member).mapM (parseRdfLic env g ns depth)
          env.lic.parse (joinWith s%" AND " (ms.map (licStr env)))
        else if ty = spdxTerm s%"DisjunctiveLicenseSet" then do
          let ms ← (g.objects n .member).mapM (parseRdfLic env g ns depth)
          env.lic.parse (joinWith s%" OR " (ms.map (licStr env)))
        else if ty = spdxTerm s%"WithExceptionOperator" then do
          let m ← someValue g n .member
          let l ← parseRdfLic env g ns depth m
          let x ← someValue g n .licenseException
          let e ← parseException g x
          env.lic.parse (licStr env l ++ s%" WITH " ++ e)
        else env.lic.parse []

/-- the method used for licenses -/
def licMethod (env : RdfEnv) (g : RdfGraph) (ns : Str) (n : RdfNode) : Option (Option LicExpr) := parseRdfLic env g ns env.depth n

/-- a list of licenses: `None` entries fail the type check -/
def rdfLicenses (env : RdfEnv) (g : RdfGraph) (ns : Str) (s : RdfNode) (p : Pred) : Option (List (OrSpecial LicExpr)) :=
  (g.objects s p).mapM fun v => needed (specialOr (licMethod env g ns) v)

/-- a list of texts: `[x.toPython() for x in …]` -/
def rdfTexts (g : RdfGraph) (s : RdfNode) (p : Pred) : Option (List Str) := (g.objects s p).mapM RdfNode.toPyStr

/-- a text method that may succeed with a text or not -/
def textMethod (f : Str → Option α) (n : RdfNode) : Option α := f n.text

/-- `ActorParser.parse_actor` with its errors as `none` -/
def actorOf (s : Str) : Option Actor :=
  match parseActor s with
  | .ok a => some a
  | .error _ => none

/-- the method for a text that may be special -/
def textSpecial (n : RdfNode) : Option (Option Str) := some (some (strip n.text))

/-- the method for an actor that may be special -/
def actorSpecial (n : RdfNode) : Option (Option Actor) := (actorOf n.text).map some

/-- checksum_parser.py L17-26 `parse_checksum` -/
def parseRdfChecksum (g : RdfGraph) (n : RdfNode) : Option Checksum := do
  let algorithm ← needed (rdfLiteral g n .algorithm (textMethod algorithmFromRdf))
  let value ← needed (rdfLiteral g n .checksumValue stripText)
  pure ⟨algorithm, value⟩

/-- creation_info_parser.py L124-145 `parse_external_document_refs`: the reference and the graph's bindings afterwards. `graph.bind` of
    rdflib raises a `KeyError` for a prefix with a blank. -/
def parseExtRef (g : RdfGraph) (ns : Str) (b : Bindings) (n : RdfNode) : Option (ExternalDocumentRef × Bindings) := do
  let id ← needed (parseRdfId b ns n)
  let uri ← needed (rdfLiteral g n .spdxDocument stripText)
  let checksum ← needed (rdfLiteral g n .checksum (parseRdfChecksum g))
  if ' ' ∈ id then none else pure (⟨id, uri, checksum⟩, b.bind id (uri ++ s%"#"))

/-- creation_info_parser.py L66-70, the loop -/
def parseExtRefs (g : RdfGraph) (ns : Str) : Bindings → List RdfNode → Option (List ExternalDocumentRef × Bindings)
  | b, [] => some ([], b)
  | b, n :: l => do
    let (r, b) ← parseExtRef g ns b n
    let (rs, b) ← parseExtRefs g ns b l
    pure (r :: rs, b)

/-- creation_info_parser.py L92-121 `parse_namespace_and_spdx_id` -/
def parseNamespace (env : RdfEnv) (g : RdfGraph) : Option (Str × Str × RdfNode) :=
  match g.subjects .type (spdxTerm s%"SpdxDocument") with
  | [n] =>
    if '#' ∈ n.text then
      if env.defrag n.text = [] then none
      else if fragmentOf n.text = [] then none   -- the id `None` fails the type check of `CreationInfo`
      else some (env.defrag n.text, fragmentOf n.text, n)
    else none
  | _ => none

/-- creation_info_parser.py L33-89 `parse_creation_info`: the creation information and the bindings -/
def parseRdfCreationInfo (env : RdfEnv) (b : Bindings) (g : RdfGraph) : Option (CreationInfo × Bindings) := do
  let (ns, id, doc) ← parseNamespace env g
  let version ← needed (rdfLiteral g doc .specVersion stripText)
  let license ← needed (rdfLiteral g doc .dataLicense (textMethod fun s => some (removePrefix s licenseNamespace)))
  let comment ← rdfLiteral g doc .rdfsComment stripText
  let name ← needed (rdfLiteral g doc .name stripText)
  let info ← ((g.subjects .type (spdxTerm s%"CreationInfo")).head?).filter RdfNode.truthy
  let created ← needed (rdfLiteral g info .created (textMethod datetimeFromStr))
  let listVersion ← rdfLiteral g info .licenseListVersion (textMethod versionFromString)
  let creatorComment ← rdfLiteral g info .rdfsComment stripText
  let creators ← (g.objects info .creator).mapM fun c => c.toPyStr.bind actorOf
  let (refs, b) ← if creators = [] then none else parseExtRefs g ns b (g.objects doc .externalDocumentRef)
  pure (⟨version, id, name, ns, creators, created, creatorComment, license, refs, listVersion, comment⟩, b)

/-- annotation_parser.py L18-48 `parse_annotation` -/
def parseRdfAnnotation (b : Bindings) (g : RdfGraph) (ns : Str) (e : RdfNode × RdfNode) : Option Annotation := do
  let id ← needed (parseRdfId b ns e.1)
  let annotator ← needed (rdfLiteral g e.2 .annotator (textMethod actorOf))
  let type ← needed (rdfLiteral g e.2 .annotationType (textMethod (enumFromRdf AnnotationType.ofName? s%"annotationType_")))
  let date ← needed (rdfLiteral g e.2 .annotationDate (textMethod datetimeFromStr))
  let comment ← needed (rdfLiteral g e.2 .rdfsComment stripText)
  pure ⟨id, type, annotator, date, comment⟩

/-- file_parser.py L27-91 `parse_file` -/
def parseRdfFile (env : RdfEnv) (b : Bindings) (g : RdfGraph) (ns : Str) (n : RdfNode) : Option File := do
  let id ← needed (parseRdfId b ns n)
  let name ← needed (rdfLiteral g n .fileName stripText)
  let checksums ← (g.objects n .checksum).mapM (parseRdfChecksum g)
  let types ← (g.objects n .fileType).mapM (textMethod (enumFromRdf FileType.ofName? s%"fileType_"))
  let concluded ← rdfSpecial g n .licenseConcluded (licMethod env g ns)
  let inFile ← rdfLicenses env g ns n .licenseInfoInFile
  let licenseComment ← rdfLiteral g n .licenseComments stripText
  let copyright ← rdfSpecial g n .copyrightText textSpecial
  let contributors ← rdfTexts g n .fileContributor
  let notice ← rdfLiteral g n .noticeText stripText
  let comment ← rdfLiteral g n .rdfsComment stripText
  let attributions ← rdfTexts g n .attributionText
  pure ⟨name, id, checksums, types, concluded, inFile, licenseComment, copyright, comment, notice, contributors, attributions⟩

/-- package_parser.py L158-173 `parse_package_verification_code` -/
def parseRdfVerificationCode (g : RdfGraph) (n : RdfNode) : Option PackageVerificationCode := do
  let value ← needed (rdfLiteral g n .packageVerificationCodeValue stripText)
  let excluded ← rdfTexts g n .packageVerificationCodeExcludedFile
  pure ⟨value, excluded⟩

/-- package_parser.py L202-207 `parse_external_package_ref_type` -/
def parseRefType (ns : Str) (n : RdfNode) : Option Str :=
  if startsWith n.text ns then
    match n with
    | .uri s => some (fragmentOf s)
    | _ => none
  else if startsWith n.text referenceNamespace then some (replaceStr referenceNamespace [] n.text)
  else n.toPyStr

/-- package_parser.py L176-199 `parse_external_package_ref` -/
def parseRdfPackageRef (g : RdfGraph) (ns : Str) (n : RdfNode) : Option ExternalPackageRef := do
  let locator ← needed (rdfLiteral g n .referenceLocator stripText)
  let category ← needed (rdfLiteral g n .referenceCategory (textMethod (enumFromRdf ExternalPackageRefCategory.ofName? s%"referenceCategory_")))
  let type ← needed (rdfLiteral g n .referenceType (parseRefType ns))
  let comment ← rdfLiteral g n .rdfsComment stripText
  pure ⟨category, type, locator, comment⟩

/-- the type check of a supplier or originator: `SpdxNone` is no valid value -/
def noNone : Option (Option (OrSpecial α)) → Option (Option (OrNoAssertion α))
  | none => none
  | some none => some none
  | some (some (.val a)) => some (some (.val a))
  | some (some .noAssertion) => some (some .noAssertion)
  | some (some .none) => none

/-- package_parser.py L36-155 `parse_package` -/
def parseRdfPackage (env : RdfEnv) (b : Bindings) (g : RdfGraph) (ns : Str) (n : RdfNode) : Option Package := do
  let id ← needed (parseRdfId b ns n)
  let name ← needed (rdfLiteral g n .name stripText)
  let download ← needed (rdfSpecial g n .downloadLocation textSpecial)
  let checksums ← (g.objects n .checksum).mapM (parseRdfChecksum g)
  let version ← rdfLiteral g n .versionInfo stripText
  let fileName ← rdfLiteral g n .packageFileName stripText
  let supplier ← noNone (rdfSpecial g n .supplier actorSpecial)
  let originator ← noNone (rdfSpecial g n .originator actorSpecial)
  let code ← rdfLiteral g n .packageVerificationCode (parseRdfVerificationCode g)
  let refs ← (g.objects n .externalRef).mapM (parseRdfPackageRef g ns)
  let analyzed := (someValue g n .filesAnalyzed).elim true RdfNode.truthy
  let concluded ← rdfSpecial g n .licenseConcluded (licMethod env g ns)
  let declared ← rdfSpecial g n .licenseDeclared (licMethod env g ns)
  let fromFiles ← rdfLicenses env g ns n .licenseInfoFromFiles
  let licenseComment ← rdfLiteral g n .licenseComments stripText
  let comment ← rdfLiteral g n .rdfsComment stripText
  let summary ← rdfLiteral g n .summary stripText
  let description ← rdfLiteral g n .description stripText
  let copyright ← rdfSpecial g n .copyrightText textSpecial
  let sourceInfo ← rdfLiteral g n .sourceInfo stripText
  let purpose ← rdfLiteral g n .primaryPackagePurpose (textMethod (enumFromRdf PackagePurpose.ofName? s%"purpose_"))
  let homepage ← rdfLiteral g n .homepage stripText
  let attributions ← rdfTexts g n .attributionText
  let release ← rdfLiteral g n .releaseDate (textMethod datetimeFromStr)
  let built ← rdfLiteral g n .builtDate (textMethod datetimeFromStr)
  let validUntil ← rdfLiteral g n .validUntilDate (textMethod datetimeFromStr)
  pure ⟨id, name, download, version, fileName, supplier, originator, analyzed, code, checksums, homepage.map .val, sourceInfo, concluded,
    fromFiles, declared, licenseComment, copyright, summary, description, comment, refs, attributions, purpose, release, built, validUntil⟩

/-- relationship_parser.py L22-53 `parse_relationship` -/
def parseRdfRelationship (b : Bindings) (g : RdfGraph) (ns : Str) (e : RdfNode × RdfNode) : Option Relationship := do
  let id ← needed (parseRdfId b ns e.1)
  let type ← needed (rdfLiteral g e.2 .relationshipType (textMethod (enumFromRdf RelationshipType.ofName? s%"relationshipType_")))
  let related ← needed (rdfSpecial g e.2 .relatedSpdxElement (parseRdfId b ns))
  let comment ← rdfLiteral g e.2 .rdfsComment stripText
  pure ⟨id, type, related, comment⟩

/-- relationship_parser.py L56-73 `parse_implicit_relationship` -/
def parseImplicit (b : Bindings) (ns : Str) (type : RelationshipType) (e : RdfNode × RdfNode) : Option Relationship := do
  let id ← needed (parseRdfId b ns e.1)
  let related ← needed (parseRdfId b ns e.2)
  pure ⟨id, type, .val related, none⟩

/-- rdf_parser.py L70-76: one implicit relationship, appended unless it is there already -/
def addImplicit (b : Bindings) (ns : Str) (type : RelationshipType) (rels : List Relationship) (e : RdfNode × RdfNode) :
    Option (List Relationship) := do
  let r ← parseImplicit b ns type e
  pure (if r ∈ rels then rels else rels ++ [r])

/-- the two kinds of snippet ranges (POINTER_MATCHING, snippet_parser.py L134-137) -/
inductive RangeKind where
  | byte | line
deriving Repr, DecidableEq

/-- the kind of a pointer type; other types raise a `KeyError` -/
def rangeKind (n : RdfNode) : Option RangeKind :=
  if n = pointerTerm s%"ByteOffsetPointer" then some .byte
  else if n = pointerTerm s%"LineCharPointer" then some .line
  else none

/-- `int(value.toPython())`; the name of a blank node is no number -/
def RdfNode.toInt : RdfNode → Option Int
  | .int i => some i
  | .bool b => some (if b then 1 else 0)
  | .uri s | .str s => pyIntText s
  | .bnode _ => none

/-- snippet_parser.py L140-147 `parse_range_value`. A literal zero, false or empty text stays a literal, which the type check of the snippet
    refuses, as it does the absent value. -/
def parseRangeValue (g : RdfGraph) (n : RdfNode) (kind : RangeKind) : Option Int :=
  match g.objects n (match kind with | .byte => .offset | .line => .lineNumber) with
  | [v] => if v.truthy then v.toInt else none
  | _ => none

/-- snippet_parser.py L123-131 `get_pointer_type` -/
def pointerOf (g : RdfGraph) (n : RdfNode) (p : Pred) : Option (RdfNode × RdfNode) := do
  let ptr ← (needed (uniqueValue g n p)).filter RdfNode.truthy
  let type ← someValue g ptr .type
  pure (type, ptr)

/-- snippet_parser.py L109-120 `parse_ranges` -/
def parseRdfRange (g : RdfGraph) (n : RdfNode) : Option (RangeKind × (Int × Int)) := do
  let (startType, start) ← pointerOf g n .startPointer
  let (endType, stop) ← pointerOf g n .endPointer
  if startType ≠ endType then none
  else do
    let kind ← rangeKind startType
    let a ← parseRangeValue g start kind
    let z ← parseRangeValue g stop kind
    pure (kind, (a, z))

/-- snippet_parser.py L90-106 `set_range_or_log_error` -/
def setRdfRange (ranges : Option (Int × Int) × Option (Int × Int)) (r : RangeKind × (Int × Int)) :
    Option (Option (Int × Int) × Option (Int × Int)) :=
  match r.1, ranges with
  | .byte, (none, l) => some (some r.2, l)
  | .byte, (some _, _) => none
  | .line, (b, none) => some (b, some r.2)
  | .line, (_, some _) => none

/-- snippet_parser.py L38-42, the loop over the ranges -/
def parseRdfRanges (g : RdfGraph) : Option (Int × Int) × Option (Int × Int) → List RdfNode → Option (Option (Int × Int) × Option (Int × Int))
  | rs, [] => some rs
  | rs, n :: l => do
    let r ← parseRdfRange g n
    let rs ← setRdfRange rs r
    parseRdfRanges g rs l

/-- snippet_parser.py L29-87 `parse_snippet` -/
def parseRdfSnippet (env : RdfEnv) (b : Bindings) (g : RdfGraph) (ns : Str) (n : RdfNode) : Option Snippet := do
  let id ← needed (parseRdfId b ns n)
  let from_ ← someValue g n .snippetFromFile
  let fileId ← needed (parseRdfId b ns from_)
  let (bytes, lines) ← parseRdfRanges g (none, none) (g.objects n .range)
  let bytes ← bytes
  let concluded ← rdfSpecial g n .licenseConcluded (licMethod env g ns)
  let inSnippet ← rdfLicenses env g ns n .licenseInfoInSnippet
  let licenseComment ← rdfLiteral g n .licenseComments stripText
  let copyright ← rdfSpecial g n .copyrightText textSpecial
  let comment ← rdfLiteral g n .rdfsComment stripText
  let name ← rdfLiteral g n .name stripText
  let attributions ← rdfTexts g n .attributionText
  pure ⟨id, fileId, bytes, lines, concluded, inSnippet, licenseComment, copyright, comment, name, attributions⟩

/-- extracted_licensing_info_parser.py L24-30: the license id, or the name of the node -/
def extractedId (ns : Str) (n : RdfNode) : Option Str → Option Str
  | some id => if id = [] then nodeName else some id
  | none => nodeName
where nodeName : Option Str :=
  if startsWith n.text (ns ++ s%"#") then
    match n with
    | .uri s => some (fragmentOf s)
    | _ => none
  else n.toPyStr

/-- extracted_licensing_info_parser.py L20-54 -/
def parseRdfExtracted (g : RdfGraph) (ns : Str) (n : RdfNode) : Option ExtractedLicensingInfo := do
  let id ← rdfLiteral g n .licenseId stripText
  let id ← extractedId ns n id
  let text ← rdfLiteral g n .extractedText stripText
  let comment ← rdfLiteral g n .rdfsComment stripText
  let name ← noNone (rdfSpecial g n .name textSpecial)
  let refs ← rdfTexts g n .seeAlso
  pure ⟨some id, text, name, refs, comment⟩

/-- rdf_parser.py L34-96 `translate_graph_to_document`; `b` are the namespace bindings of the graph that was read -/
def parseRdf (env : RdfEnv) (b : Bindings) (g : RdfGraph) : Option Document := do
  let (info, b) ← parseRdfCreationInfo env b g
  let packages ← (g.subjects .type (spdxTerm s%"Package")).mapM (parseRdfPackage env b g info.documentNamespace)
  let files ← (g.subjects .type (spdxTerm s%"File")).mapM (parseRdfFile env b g info.documentNamespace)
  let snippets ← (g.subjects .type (spdxTerm s%"Snippet")).mapM (parseRdfSnippet env b g info.documentNamespace)
  let annotations ← (g.pairs .annotation).mapM (parseRdfAnnotation b g info.documentNamespace)
  let rels ← (g.pairs .relationship).mapM (parseRdfRelationship b g info.documentNamespace)
  let rels ← (g.pairs .hasFile).foldlM (addImplicit b info.documentNamespace .CONTAINS) rels
  let rels ← (g.pairs .describesPackage).foldlM (addImplicit b info.documentNamespace .DESCRIBES) rels
  let extracted ← (g.pairs .hasExtractedLicensingInfo).mapM fun e => parseRdfExtracted g info.documentNamespace e.2
  pure { creationInfo := info, packages, files, snippets, annotations, relationships := rels, extractedLicensingInfo := extracted }

end Spdx
