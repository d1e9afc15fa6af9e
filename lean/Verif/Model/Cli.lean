import Verif.Model.Writing
/- spdx/clitools/pyspdxtools.py and spdx/parser/parse_anything.py -/
namespace Spdx

/-- The environment of the command: the parsers of the five formats (on a file's content), which files cannot be opened for writing, and
    the graph export (graph_generation.py L15-22). -/
structure CliEnv extends WriteEnv where
  parse : FileFormat → Str → Except Exc Document
  openFails : Str → Option Exc
  exportGraph : Document → Option Str → World → World × Option Exc

/-- spdx/parser/parse_anything.py L23-39 `parse_file` -/
def parseFileAny (E : CliEnv) (name : Str) (w : World) : Except Exc Document :=
  match fileNameToFormat name with
  | .error _ => .error .parsing
  | .ok fmt => match w.files name with
    | none => .error (.fileNotFound name)
    | some content => E.parse fmt content

/-- The command line options (pyspdxtools.py L36-58). -/
structure CliArgs where
  infile : Str
  outfile : Option Str := none
  version : Option Str := none
  novalidation : Bool := false
  graph : Bool := false

/-- pyspdxtools.py L67-84: `none` means that the validation does not stop the command -/
def cliValidation (E : CliEnv) (a : CliArgs) (d : Document) : Option Exc :=
  if a.novalidation then none
  else
    let version := match a.version with
      | some v => if v = [] then d.creationInfo.spdxVersion else v
      | none => d.creationInfo.spdxVersion
    if ¬ [v22, v23].contains version then some (.other s%"SystemExit")
    else match validateDocument E.ext d (some version) with
      | [] => none
      | ms => some (.invalidDocument ms)

/-- pyspdxtools.py L86-100: the output, if any is asked for -/
def cliOutput (E : CliEnv) (a : CliArgs) (d : Document) (w : World) : World × Option Exc :=
  if a.outfile = some s%"-" then
    let out := serialize E.toWriteEnv .TAG_VALUE d
    ({ w with stdout := w.stdout ++ out.text }, out.raised)
  else if a.graph then E.exportGraph d a.outfile w
  else match a.outfile with
    | some name => if name = [] then (w, none) else writeFileAny E.toWriteEnv E.openFails d name false w
    | none => (w, none)

/-- spdx/clitools/pyspdxtools.py L58-138 `main`: the exit status and what became of the world. The exceptions listed in the `except`
    clauses are logged and end with `sys.exit(1)`; any other exception ends the interpreter with status 1 as well. -/
def cliMain (E : CliEnv) (a : CliArgs) (w : World) : Nat × World :=
  match parseFileAny E a.infile w with
  | .error _ => (1, w)
  | .ok d => match cliValidation E a d with
    | some _ => (1, w)
    | none => match cliOutput E a d w with
      | (w', none) => (0, w')
      | (w', some _) => (1, w')

end Spdx
