import Verif.Model.Cli
import Verif.Model.JsonText
import Verif.Model.RdfReport
/-
spdx/clitools/pyspdxtools.py once more, with the readers of the five formats instead of a parameter, and with what the user gets to see when
the command fails: a message, or the traceback of an exception that no `except` clause names.
-/
namespace Spdx

/-- What `yaml.safe_load`, `xmltodict.parse` and rdflib's `Graph.parse` may raise. -/
inductive LibErr where
  /-- `yaml.scanner.ScannerError` -/
  | scanner
  /-- `xml.parsers.expat.ExpatError` -/
  | expat
  /-- `xml.sax.SAXParseException` -/
  | sax
  /-- any other exception, such as `yaml.parser.ParserError` or `rdflib.exceptions.ParserError` -/
  | other
deriving Repr, DecidableEq

/-- What reading a file may end with, apart from a document. -/
inductive ReadErr where
  /-- `SPDXParsingError` -/
  | spdx (ms : List PMsg)
  /-- `json.JSONDecodeError` -/
  | decode
  | library (e : LibErr)
  /-- `FileNotFoundError` -/
  | notFound (name : Str)
  /-- `sys.exit(1)`, after a message -/
  | exit
  /-- any other exception -/
  | other
  /-- a JSON file with a float or a lone surrogate: not modelled -/
  | beyond

/-- Everything external: what `WriteEnv` and `CliEnv` have, and the libraries that turn a text into a tree or graph. -/
structure Libraries extends WriteEnv where
  rdf : RdfEnv
  yaml : Str → Except LibErr Json
  xml : Str → Except LibErr Json
  graph : Str → Except LibErr (RdfGraph × Bindings)
  openFails : Str → Option Exc
  exportGraph : Document → Option Str → World → World × Option Exc

/-- What becomes of the outcome of one of the readers. -/
def readEnd : Py Document → Except ReadErr Document
  | .ok d => .ok d
  | .error (.parsing ms) => .error (.spdx ms)
  | .error _ => .error .other

/-- spdx/parser/yaml/yaml_parser.py L11-15 `parse_from_file` -/
def readYamlFile (B : Libraries) (text : Str) : Except ReadErr Document :=
  match B.yaml text with
  | .error e => .error (.library e)
  | .ok j => readEnd (parseDocument B.lic j)

/-- spdx/parser/xml/xml_parser.py L39-48 `parse_from_file`. Simplification: what `xmltodict.parse` delivers is a dict. -/
def readXmlFile (B : Libraries) (text : Str) : Except ReadErr Document :=
  match B.xml text with
  | .error e => .error (.library e)
  | .ok j => match xmlDocument j with
    | none => .error (.spdx [.text s%"Did not find the XML top level tag \"Document\"."])
    | some d => readEnd (parseDocument B.lic d)

/-- spdx/parser/json/json_parser.py L31-35 `parse_from_file` -/
def readJsonFile (B : Libraries) (text : Str) : Except ReadErr Document :=
  match parseJsonFile B.lic text with
  | .malformed => .error .decode
  | .beyond => .error .beyond
  | .parsed r => readEnd r

/-- spdx/parser/rdf/rdf_parser.py L25-31 `parse_from_file`. This reader alone calls `sys.exit`. -/
def readRdfFile (B : Libraries) (text : Str) : Except ReadErr Document :=
  match B.graph text with
  | .error e => .error (.library e)
  | .ok (g, b) => if readRdf B.rdf b g = .error systemExit then .error .exit else readEnd (readRdf B.rdf b g)

/-- spdx/parser/parse_anything.py L30-39: the reader for the format -/
def readText (B : Libraries) (fmt : FileFormat) (text : Str) : Except ReadErr Document :=
  match fmt with
  | .JSON => readJsonFile B text
  | .YAML => readYamlFile B text
  | .XML => readXmlFile B text
  | .TAG_VALUE => readEnd (parseTagValueFile B.lic text)
  | .RDF_XML => readRdfFile B text

/-- spdx/formats.py L29 -/
def unsupportedType (name : Str) : PMsg := .text (s%"Unsupported SPDX file type: " ++ name)

/-- spdx/parser/parse_anything.py L23-39 `parse_file` -/
def readNamed (B : Libraries) (name : Str) (w : World) : Except ReadErr Document :=
  match fileNameToFormat name with
  | .error _ => .error (.spdx [unsupportedType name])
  | .ok fmt => match w.files name with
    | none => .error (.notFound name)
    | some text => readText B fmt text

/-- What the command tells the user before `sys.exit(1)`. -/
inductive Told where
  /-- "There have been issues while parsing the provided document:" and the messages (pyspdxtools.py L112-118) -/
  | parsing (ms : List PMsg)
  /-- "This tool only supports SPDX versions SPDX-2.2 and SPDX-2.3, but got: …" (L71-73) -/
  | unsupportedVersion (v : Str)
  /-- "The document is invalid. The following issues have been found:" and the messages (L76-82) -/
  | invalid (ms : List VMsg)
  /-- "Invalid JSON provided", "Invalid YAML provided", "Invalid XML provided", "Invalid RDF-XML provided" (L120-134) -/
  | malformed (fmt : FileFormat)
  /-- the text of `FileNotFoundError` and the name (L136-138) -/
  | noFile (name : Str)
  /-- networkx and pygraphviz are missing (L93-98) -/
  | noGraphLibraries
  /-- `NotImplementedError` (L102-110) -/
  | notImplemented
  /-- the message of the RDF reader about a missing document or namespace (creation_info_parser.py L92-121) -/
  | noDocument
deriving DecidableEq

/-- How the command ends. -/
inductive CliEnd where
  | success
  | told (t : Told)
  | traceback
  /-- not modelled: see `ReadErr.beyond` -/
  | beyond
deriving DecidableEq

/-- pyspdxtools.py L102-138: the `except` clauses, for an exception of the reader -/
def readErrEnd : ReadErr → CliEnd
  | .spdx ms => .told (.parsing ms)
  | .decode => .told (.malformed .JSON)
  | .library .scanner => .told (.malformed .YAML)
  | .library .expat => .told (.malformed .XML)
  | .library .sax => .told (.malformed .RDF_XML)
  | .library .other => .traceback
  | .notFound name => .told (.noFile name)
  | .exit => .told .noDocument
  | .other => .traceback
  | .beyond => .beyond

/-- the same for an exception of a writer; `SPDXParsingError` comes from the name of the file only -/
def writeErrEnd (name : Str) : Exc → CliEnd
  | .notImplemented => .told .notImplemented
  | .parsing => .told (.parsing [unsupportedType name])
  | .malformed .TAG_VALUE => .traceback
  | .malformed fmt => .told (.malformed fmt)
  | .fileNotFound n => .told (.noFile n)
  | .invalidDocument _ => .traceback
  | .unrepresentable => .traceback
  | .importError => .traceback
  | .other _ => .traceback

/-- pyspdxtools.py L68-69 -/
def cliVersion (a : CliArgs) (d : Document) : Str :=
  match a.version with
  | some v => if v = [] then d.creationInfo.spdxVersion else v
  | none => d.creationInfo.spdxVersion

/-- pyspdxtools.py L67-84 -/
def validationEnd (B : Libraries) (a : CliArgs) (d : Document) : Option CliEnd :=
  if a.novalidation then none
  else if ¬ [v22, v23].contains (cliVersion a d) then some (.told (.unsupportedVersion (cliVersion a d)))
    else match validateDocument B.ext d (some (cliVersion a d)) with
      | [] => none
      | ms => some (.told (.invalid ms))

/-- pyspdxtools.py L86-100 -/
def outputEnd (B : Libraries) (a : CliArgs) (d : Document) (w : World) : CliEnd × World :=
  if a.outfile = some s%"-" then
    let out := serialize B.toWriteEnv .TAG_VALUE d
    (match out.raised with
      | none => .success
      | some e => writeErrEnd s%"-" e, { w with stdout := w.stdout ++ out.text })
  else if a.graph then
    match B.exportGraph d a.outfile w with
    | (w', none) => (.success, w')
    | (w', some .importError) => (.told .noGraphLibraries, w')
    | (w', some e) => (writeErrEnd (a.outfile.getD []) e, w')
  else match a.outfile with
    | some name =>
      if name = [] then (.success, w)
      else match writeFileAny B.toWriteEnv B.openFails d name false w with
        | (w', none) => (.success, w')
        | (w', some e) => (writeErrEnd name e, w')
    | none => (.success, w)

/-- spdx/clitools/pyspdxtools.py L58-138 `main`: how the command ends, and what became of the world -/
def cliReport (B : Libraries) (a : CliArgs) (w : World) : CliEnd × World :=
  match readNamed B a.infile w with
  | .error e => (readErrEnd e, w)
  | .ok d => match validationEnd B a d with
    | some e => (e, w)
    | none => outputEnd B a d w

end Spdx
