import Verif.Model.Cli
import Verif.Model.Bump
import Verif.Model.Console
/- spdx3/clitools/pyspdxtools3.py and spdx3/writer/json_ld/json_ld_writer.py -/
namespace Spdx

/-- The environment of the command: besides the parsers and the files that cannot be opened, the context file of the package, `json.dump`
    with `indent=2`, and the texts of values that are no strings, numbers, dates or enumeration members (console output). -/
structure Cli3Env extends CliEnv where
  context : Json
  dumpJsonLd : Json → Output
  other : Py3 → Str

/-- The command line options (pyspdxtools3.py L20-38). -/
structure CliArgs3 where
  infile : Str
  outfile : Option Str := none
  version : Str := s%"SPDX-2.3"
  novalidation : Bool := false

/-- `print` to the standard output -/
def World.print (w : World) (s : Str) : World := { w with stdout := w.stdout ++ s }

/-- bump_utils.py L12: the line printed to the standard output -/
def missingConversion : Str := s%"package.download_location: Missing conversion for SpdxNone.\n"

/-- What the migration prints to the standard output before it ends or raises an exception: package.py L33 may raise, L42 prints, and the
    constructor called in L90-114 may raise.  Nothing is printed to it before or after the packages (message.py L11 prints to the standard error). -/
def bumpPrinted (ns : Str) (refs : List ExternalDocumentRef) : List Package → Str
  | [] => []
  | p :: ps => match getFullElementId p.spdxId ns refs with
    | .error _ => []
    | .ok id => (if p.downloadLocation = .none then missingConversion else []) ++ (match bumpedPackage ns id p with
      | .error _ => []
      | .ok _ => bumpPrinted ns refs ps)

/-- json_ld_writer.py L12-26 `write_payload`: the elements are converted before the file is opened -/
def writePayload (E : Cli3Env) (p : Payload) (name : Str) (w : World) : World × Bool :=
  match payloadToJsonLd (p.vals.map Element3.toPy) with
  | .error _ => (w, false)
  | .ok js => match E.openFails (name ++ s%".jsonld") with
    | some _ => (w, false)
    | none =>
      let out := E.dumpJsonLd (.obj [(s%"@context", E.context), (s%"@graph", .arr js)])
      (w.put (name ++ s%".jsonld") out.text, out.raised = none)

/-- pyspdxtools3.py L55-60: the world after the output asked for, and whether there was no exception -/
def cliOutput3 (E : Cli3Env) (a : CliArgs3) (d : Document) (w : World) : World × Bool :=
  match a.outfile with
  | none => (w, true)
  | some name =>
    if name = [] then (w, true)
    else
      let printed := bumpPrinted d.creationInfo.documentNamespace d.creationInfo.externalDocumentRefs d.packages
      let w := w.print printed
      match bumpDocument d with
      | .error _ => (w, false)
      | .ok p =>
        if name = s%"-" then
          let steps := consolePayload E.other (p.vals.map Element3.toPy)
          (w.print steps.text, !steps.raises)
        else writePayload E p name w

/-- spdx3/clitools/pyspdxtools3.py L36-63 `main`: the exit status and what became of the world.  Only `NotImplementedError` is caught, which
    no parser and no part of the migration raises; every exception ends with status 1. -/
def cliMain3 (E : Cli3Env) (a : CliArgs3) (w : World) : Nat × World :=
  match parseFileAny E.toCliEnv a.infile w with
  | .error _ => (1, w)
  | .ok d =>
    if a.novalidation = false ∧ validateDocument E.ext d (some a.version) ≠ [] then (1, w)
    else match cliOutput3 E a d w with
      | (w', true) => (0, w')
      | (w', false) => (1, w')

end Spdx
