import Verif.Py.Text
/- spdx/formats.py -/
namespace Spdx

/-- spdx/formats.py L9-14 -/
inductive FileFormat where
  | JSON | YAML | XML | TAG_VALUE | RDF_XML
deriving Repr, DecidableEq

/-- spdx/formats.py L17-29 `file_name_to_format`; the error carries the offending name (the message text is
    `"Unsupported SPDX file type: " + name`). -/
def fileNameToFormat (name : Str) : Except Str FileFormat :=
  if endsWith name s%".rdf" || endsWith name s%".rdf.xml" then .ok .RDF_XML
  else if endsWith name s%".tag" || endsWith name s%".spdx" then .ok .TAG_VALUE
  else if endsWith name s%".json" then .ok .JSON
  else if endsWith name s%".xml" then .ok .XML
  else if endsWith name s%".yaml" || endsWith name s%".yml" then .ok .YAML
  else .error name

end Spdx
