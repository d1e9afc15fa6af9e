import Verif.Model.TagValueWriter
import Verif.Model.DocumentUtils
import Verif.Model.Validation
import Verif.Model.Formats
/- spdx/writer/write_utils.py, spdx/writer/write_anything.py and the entry points of the five writers -/
namespace Spdx

/-- The exceptions that the code tells apart. -/
inductive Exc where
  /-- `ValueError("Document is not valid. ...")` with the messages -/
  | invalidDocument (ms : List VMsg)
  /-- `SPDXParsingError` -/
  | parsing
  /-- `OverflowError` of a date, `ValueError` of a checksum: the document cannot be represented -/
  | unrepresentable
  /-- `NotImplementedError` -/
  | notImplemented
  /-- `JSONDecodeError`, `ScannerError`, `ExpatError`, `SAXParseException` -/
  | malformed (fmt : FileFormat)
  /-- `FileNotFoundError` -/
  | fileNotFound (name : Str)
  /-- `ImportError` -/
  | importError
  /-- any other exception -/
  | other (name : Str)
deriving Repr, DecidableEq

/-- What a writer does to its output stream: the text that it writes, and the exception it ends with, if any. -/
structure Output where
  text : Str
  raised : Option Exc := none
deriving Repr, DecidableEq

/-- The serializers of third-party libraries: `json.dump`, `yaml.safe_dump`, `xmltodict.unparse` (of the given tree) and the RDF writer
    (rdf_writer.py L23-54: building the graph and `graph.serialize`). -/
structure Dumpers where
  json : Json → Output
  yaml : Json → Output
  xml : Json → Output
  rdf : Document → Output

/-- spdx/writer/write_utils.py L13-20 `validate_and_deduplicate` -/
def validateAndDeduplicate (X : Ext) (d : Document) (validate dropDuplicates : Bool) : Except Exc Document :=
  if validate then
    match validateDocument X d with
    | [] => .ok (if dropDuplicates then dedupDocument X d else d)
    | ms => .error (.invalidDocument ms)
  else .ok (if dropDuplicates then dedupDocument X d else d)

/-- Everything external that writing uses. -/
structure WriteEnv where
  ext : Ext
  lic : LicText
  dump : Dumpers

/-- The text of a document in one of the formats (json_writer.py L25-27, yaml_writer.py L25-27, xml_writer.py L25-27,
    tagvalue_writer.py L33-35, rdf_writer.py L23-54; write_utils.py L23-26 `convert` with the default converter). -/
def serialize (E : WriteEnv) (fmt : FileFormat) (d : Document) : Output :=
  match fmt with
  | .JSON => match documentToJson E.lic d with
    | some j => E.dump.json j
    | none => { text := [], raised := some .unrepresentable }
  | .YAML => match documentToJson E.lic d with
    | some j => E.dump.yaml j
    | none => { text := [], raised := some .unrepresentable }
  | .XML => match documentToJson E.lic d with
    | some j => E.dump.xml (.obj [(s%"Document", j)])
    | none => { text := [], raised := some .unrepresentable }
  | .TAG_VALUE =>
    { text := (writeTagValue E.lic d).text, raised := if (writeTagValue E.lic d).raises then some .unrepresentable else none }
  | .RDF_XML => E.dump.rdf d

/-- `write_document_to_stream` of the five writers -/
def writeToStream (E : WriteEnv) (fmt : FileFormat) (d : Document) (validate dropDuplicates : Bool) : Output :=
  match validateAndDeduplicate E.ext d validate dropDuplicates with
  | .ok d => serialize E fmt d
  | .error e => { text := [], raised := some e }

/-- The files (content by name) and what was printed. -/
structure World where
  files : Str → Option Str
  stdout : Str := []

/-- The world with a file's content replaced. -/
def World.put (w : World) (name : Str) (content : Str) : World :=
  { w with files := fun n => if n = name then some content else w.files n }

/-- `write_document_to_file` of the five writers (json_writer.py L30-38 and likewise): the file is opened for writing, which empties it,
    before anything else. `openFails` says which names cannot be opened. After the call the
    content is what was written until the exception, if any. -/
def writeToFile (E : WriteEnv) (openFails : Str → Option Exc) (fmt : FileFormat) (d : Document) (name : Str)
    (validate dropDuplicates : Bool) (w : World) : World × Option Exc :=
  match openFails name with
  | some e => (w, some e)
  | none =>
    let out := writeToStream E fmt d validate dropDuplicates
    (w.put name out.text, out.raised)

/-- spdx/writer/write_anything.py L13-24 `write_file` -/
def writeFileAny (E : WriteEnv) (openFails : Str → Option Exc) (d : Document) (name : Str) (validate : Bool) (w : World) :
    World × Option Exc :=
  match fileNameToFormat name with
  | .ok fmt => writeToFile E openFails fmt d name validate true w
  | .error _ => (w, some .parsing)

end Spdx
