import Verif.Model.JsonParser
import Verif.Model.TagValueParser
/-
The parser objects and what they keep from one call of `parse` to the next.  The models in Model/JsonParser and Model/TagValueParser describe
the first call on a new object; here the state of the objects is explicit.

spdx/parser/jsonlikedict/*.py: the loggers of `JsonLikeDictParser` and of its parts.
spdx/parser/tagvalue/parser.py: the attributes of `Parser`.
-/
namespace Spdx

/-! ### Loggers that outlive an exception -/

/-- A computation with a logger (spdx/parser/logger.py): the messages it appends, and whether it then raises or returns.  (`P` of
    Model/PyParse forgets the messages when an exception is raised.) -/
structure W (α : Type) where
  logs : List PMsg
  result : Except PyErr α

def W.pure (a : α) : W α := ⟨[], .ok a⟩

def W.bind (x : W α) (f : α → W β) : W β :=
  match x with
  | ⟨ms, .error e⟩ => ⟨ms, .error e⟩
  | ⟨ms, .ok a⟩ => ⟨ms ++ (f a).logs, (f a).result⟩

instance : Monad W where
  pure := W.pure
  bind := W.bind

/-- A computation that logs nothing. -/
def Py.liftW (x : Py α) : W α := ⟨[], x⟩

/-- dict_parsing_functions.py L18-36 `parse_field_or_log_error` -/
def parseFieldW (j : Json) (m : Json → Py α) : W (Option α) :=
  if j.truthy then
    match m j with
    | .ok a => ⟨[], .ok (some a)⟩
    | .error e => match e.logged with
      | some ms => ⟨ms, .ok none⟩
      | none => ⟨[], .error e⟩
  else ⟨[], .ok none⟩

/-- dict_parsing_functions.py L39-49 `append_parsed_field_or_log_error`, for all items of a list in turn -/
def collectW (m : Json → Py α) : List Json → W (List α)
  | [] => ⟨[], .ok []⟩
  | j :: js =>
    match m j with
    | .ok a => do
      let as ← collectW m js
      return a :: as
    | .error e => match e.logged with
      | some ms => ⟨ms ++ (collectW m js).logs, (collectW m js).result⟩
      | none => ⟨[], .error e⟩

/-- package_parser.py L56-62: whether `parse_package` gets as far as the external references without an exception -/
def reachesExternalRefs (j : Json) : Bool :=
  match (do
    let _ ← parseField (← (pyGet j s%"builtDate").lift) parseDate
    let _ ← parseField (← (pyGet j s%"checksums").lift) (parseList parseChecksum) : P Unit) with
  | .ok _ => true
  | .error _ => false

/-- What `parse_package` appends to the logger shared by all packages (package_parser.py L73-75 and L169-175), whether or not an exception
    is raised afterwards. -/
def packageLogs (j : Json) : List PMsg :=
  if reachesExternalRefs j then
    match pyGet j s%"externalRefs" with
    | .error _ => []
    | .ok refs =>
      if refs.truthy then
        match pyIter refs with
        | .error _ => []
        | .ok l => (collectW parseExternalRef l).logs
      else []
  else []

/-- json_like_dict_parser.py L49 with dict_parsing_functions.py L68-76: the loop over the packages -/
def collectPackagesW (L : LicText) : List Json → W (List Package)
  | [] => ⟨[], .ok []⟩
  | j :: js =>
    match parsePackage L j with
    | .ok a => ⟨packageLogs j ++ (collectPackagesW L js).logs, (collectPackagesW L js).result.map (a :: ·)⟩
    | .error e => match e.logged with
      | some ms => ⟨packageLogs j ++ ms ++ (collectPackagesW L js).logs, (collectPackagesW L js).result⟩
      | none => ⟨packageLogs j, .error e⟩

/-- annotation_parser.py L49-61 `parse_annotations_from_object` -/
def annotationsFromW : List Json → W (List Annotation)
  | [] => return []
  | element :: rest => do
    let id ← (pyGet element s%"SPDXID").liftW
    let annotations ← (pyGetD element s%"annotations" (.arr [])).liftW
    let here ← parseFieldW annotations (parseList (parseAnnotation id))
    return here.getD [] ++ (← annotationsFromW rest)

/-- annotation_parser.py L31-45: `parse_all_annotations` up to the look into the logger -/
def allAnnotationsW (j : Json) : W (List Annotation) := do
  let ofDoc ← annotationsFromW [j]
  let reviews ← (pyGetD j s%"revieweds" (.arr []) >>= pyIter).liftW
  let id ← (pyGet j s%"SPDXID").liftW
  let ofReviews ← collectW (parseReview id) reviews
  let ofPackages ← annotationsFromW (← (pyGetD j s%"packages" (.arr []) >>= pyIter).liftW)
  let ofFiles ← annotationsFromW (← (pyGetD j s%"files" (.arr []) >>= pyIter).liftW)
  let ofSnippets ← annotationsFromW (← (pyGetD j s%"snippets" (.arr []) >>= pyIter).liftW)
  return ofDoc ++ ofReviews ++ ofPackages ++ ofFiles ++ ofSnippets

/-- relationship_parser.py L28-75: `parse_all_relationships` up to the look into the logger -/
def allRelationshipsW (j : Json) : W (List Relationship) := do
  let explicit ← parseFieldW (← (pyGetD j s%"relationships" (.arr [])).liftW) (parseList parseRelationship)
  let explicit := explicit.getD []
  let described ← (pyGetD j s%"documentDescribes" (.arr []) >>= deleteDuplicates).liftW
  let id ← (pyGet j s%"SPDXID").liftW
  let describes ← parseFieldW (.arr described) (fun _ => parseDocumentDescribes id (withoutComments explicit) described)
  let soFar := explicit ++ describes.getD []
  let packages ← (pyGetD j s%"packages" (.arr [])).liftW
  let contains ← parseFieldW packages (parseHasFiles (withoutComments soFar))
  return soFar ++ contains.getD []

/-! ### `JsonLikeDictParser` -/

/-- The loggers of a `JsonLikeDictParser` (json_like_dict_parser.py L33-41) and of its parts that are ever written to. -/
inductive LoggerOf where
  | document | packages | files | annotations | snippets | relationships | extracted
deriving Repr, DecidableEq

/-- The state of a `JsonLikeDictParser`: the messages in its loggers. -/
abbrev JsonObject := LoggerOf → List PMsg

/-- A new object -/
def JsonObject.new : JsonObject := fun _ => []

/-- `logger.extend(messages)` -/
def JsonObject.log (o : JsonObject) (l : LoggerOf) (ms : List PMsg) : JsonObject := fun l' => if l' = l then o l ++ ms else o l'

/-- A computation that changes the object and may raise. -/
def OnObject (α : Type) := JsonObject → JsonObject × Except PyErr α

def OnObject.pure (a : α) : OnObject α := fun o => (o, .ok a)

def OnObject.bind (x : OnObject α) (f : α → OnObject β) : OnObject β := fun o =>
  match x o with
  | (o, .error e) => (o, .error e)
  | (o, .ok a) => f a o

instance : Monad OnObject where
  pure := OnObject.pure
  bind := OnObject.bind

/-- A computation that does not touch the object. -/
def Py.onObject (x : Py α) : OnObject α := fun o => (o, x)

/-- A computation with one of the loggers, and then `raise_parsing_error_if_logger_has_messages` (parsing_functions.py L21-26), which looks at
    everything in the logger; `wrap` is the text made of it. -/
def usingLogger (l : LoggerOf) (wrap : List PMsg → List PMsg) (x : W α) : OnObject α := fun o =>
  let o' := o.log l x.logs
  match x.result with
  | .error e => (o', .error e)
  | .ok a => if o' l = [] then (o', .ok a) else (o', .error (.parsing (wrap (o' l))))

/-- json_like_dict_parser.py L81-86: an optional field is skipped if it is empty; of the exceptions only `SPDXParsingError` is caught, and its
    messages go to the logger of the object itself -/
def partOn (x : OnObject α) : OnObject (Option α) := fun o =>
  match x o with
  | (o, .ok a) => (o, .ok (some a))
  | (o, .error (.parsing ms)) => (o.log .document ms, .ok none)
  | (o, .error e) => (o, .error e)
def optPartOn (j : Json) (x : OnObject α) : OnObject (Option α) := if j.truthy then partOn x else OnObject.pure none

/-- dict_parsing_functions.py L68-77 `parse_list_of_elements` with a logger -/
def listW (m : List Json → W α) (j : Json) : W α := do
  let l ← (pyIter j).liftW
  m l

/-- json_like_dict_parser.py L43-86: the fields, on an object in any state -/
def JsonObject.fields (L : LicText) (j : Json) : OnObject (Option CreationInfo × Option (List Package) × Option (List File) ×
    Option (List Annotation) × Option (List Snippet) × Option (List Relationship) × Option (List ExtractedLicensingInfo)) := do
  let packagesField ← (pyGet j s%"packages").onObject
  let filesField ← (pyGet j s%"files").onObject
  let snippetsField ← (pyGet j s%"snippets").onObject
  let extractedField ← (pyGet j s%"hasExtractedLicensingInfos").onObject
  let info ← partOn (parseCreationInfo j).onObject
  let packages ← optPartOn packagesField (usingLogger .packages id (listW (collectPackagesW L) packagesField))
  let files ← optPartOn filesField (usingLogger .files id (listW (collectW (parseFile L)) filesField))
  let annotations ← optPartOn j (usingLogger .annotations (fun ms => [.wrapped s%"annotations" ms]) (allAnnotationsW j))
  let snippets ← optPartOn snippetsField (usingLogger .snippets id (listW (collectW (parseSnippet L)) snippetsField))
  let relationships ← optPartOn j (usingLogger .relationships id (allRelationshipsW j))
  let extracted ← optPartOn extractedField (usingLogger .extracted id (listW (collectW parseExtracted) extractedField))
  return (info, packages, files, annotations, snippets, relationships, extracted)

/-- json_like_dict_parser.py L43-92 `JsonLikeDictParser.parse`, on an object in any state -/
def JsonObject.parse (L : LicText) (j : Json) : OnObject Document := do
  let (info, packages, files, annotations, snippets, relationships, extracted) ← JsonObject.fields L j
  usingLogger .document id ⟨[], .ok ()⟩
  (construct s%"Document"
    (.ok Document.mk ⊛ chkSome s%"creation_info" info ⊛ .ok (packages.getD []) ⊛ .ok (files.getD [])
      ⊛ .ok (snippets.getD []) ⊛ .ok (annotations.getD []) ⊛ .ok (relationships.getD []) ⊛ .ok (extracted.getD []))).onObject

/-- One call after the other on the same object: the state at the end. -/
def JsonObject.after (L : LicText) (o : JsonObject) : List Json → JsonObject
  | [] => o
  | j :: js => ((JsonObject.parse L j) o).1.after L js

/-! ### The tag-value `Parser` -/

/-- The state of a `Parser` (parser.py L86-94): the logger of the creation information is taken out of its dict at the end of the first
    `parse` (L550 `self.creation_info.pop("logger")`) and never put back. -/
structure TvObject where
  state : TvState := {}
  infoLogger : Bool := true
deriving Repr, DecidableEq

/-- The actions of the attributes in turn, with the state at the end or when an exception is raised.  Without its logger, an action that
    logs to the creation information raises `KeyError` (parser.py L183, L191 and so on: `self.creation_info["logger"]`).  Simplification: an
    action that raises is taken to have changed nothing. -/
def TvObject.run (L : LicText) (infoLogger : Bool) : TvState → List TvAttr → TvState × Option PyErr
  | s, [] => (s, none)
  | s, a :: as => match s.step L a with
    | .ok s' =>
      if infoLogger || s'.infoLog.length = s.infoLog.length then TvObject.run L infoLogger s' as
      else (s, some (.other s%"KeyError"))
    | .error e => (s, some e)

/-- parser.py L538-557 `Parser.parse`, on an object in any state.  Simplification: every call lexes from the first line and in the initial
    state of the lexer.  (The message about the creation information that L552 appends to the logger is
    left out of the new state: no later call looks at it.) -/
def TvObject.parse (L : LicText) (text : Str) (o : TvObject) : TvObject × Py Document :=
  match TvObject.run L o.infoLogger o.state (attrs (lex text)) with
  | (s, some e) => ({ o with state := s }, .error e)
  | (s, none) =>
    if o.infoLogger then ({ state := s.finish, infoLogger := false }, s.result)
    else ({ o with state := s.finish }, .error (.other s%"KeyError"))

/-- One call after the other on the same object: the state at the end. -/
def TvObject.after (L : LicText) (o : TvObject) : List Str → TvObject
  | [] => o
  | t :: ts => (o.parse L t).1.after L ts

end Spdx
