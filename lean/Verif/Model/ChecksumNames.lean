import Verif.Model.Enums
/- Names of checksum algorithms in the serialization formats. -/
namespace Spdx

/-- spdx/jsonschema/checksum_converter.py L28-32 `algorithm_to_json_string` -/
def algorithmToJson (a : ChecksumAlgorithm) : Str :=
  let nameWithDash := replaceChar '_' ['-'] a.name
  if isInfix s%"BLAKE2B" nameWithDash then replaceStr s%"BLAKE2B" s%"BLAKE2b" nameWithDash else nameWithDash

/-- spdx/parser/jsonlikedict/dict_parsing_functions.py L12-15 `json_str_to_enum_name` on a text. `str.upper` is modelled on
    ASCII letters only. -/
def jsonStrToEnumName (s : Str) : Str := upperAscii (replaceChar '-' ['_'] s)

/-- spdx/parser/jsonlikedict/checksum_parser.py L25-30: `ChecksumAlgorithm[json_str_to_enum_name(...)]`; `none` is the
    logged "Invalid ChecksumAlgorithm". -/
def algorithmFromJson (s : Str) : Option ChecksumAlgorithm := ChecksumAlgorithm.ofName? (jsonStrToEnumName s)

/-- spdx/writer/tagvalue/checksum_writer.py L18-25 `CHECKSUM_ALGORITHM_TO_TV` -/
def checksumAlgorithmToTv : List (Str × Str) :=
  [(s%"BLAKE2B_256", s%"BLAKE2b-256"), (s%"BLAKE2B_384", s%"BLAKE2b-384"), (s%"BLAKE2B_512", s%"BLAKE2b-512"),
   (s%"SHA3_256", s%"SHA3-256"), (s%"SHA3_384", s%"SHA3-384"), (s%"SHA3_512", s%"SHA3-512")]

/-- spdx/writer/tagvalue/checksum_writer.py L7-15: the algorithm name; `none` is the `ValueError` for a missing rule. -/
def algorithmToTv (a : ChecksumAlgorithm) : Option Str :=
  if hasChar '_' a.name then checksumAlgorithmToTv.lookup a.name else some a.name

/-- spdx/writer/tagvalue/checksum_writer.py L7-15 `write_checksum_to_tag_value` -/
def checksumToTv (c : Checksum) : Option Str := (algorithmToTv c.algorithm).map (· ++ s%": " ++ c.value)

/-- spdx/parser/tagvalue/helper_methods.py L43-50 `parse_checksum`; `none` is the `ValueError` of the tuple unpacking or the
    `KeyError` of the enum lookup. -/
def checksumFromTv (s : Str) : Option Checksum :=
  match splitOn ':' s with
  | [alg, value] =>
    (ChecksumAlgorithm.ofName? (replaceChar '-' ['_'] (upperAscii alg))).map fun a => { algorithm := a, value := strip value }
  | _ => none

/-- `SPDX_NAMESPACE` (spdx/rdfschema/namespace.py L6) -/
def spdxNamespace : Str := s%"http://spdx.org/rdf/terms#"

/-- spdx/writer/rdf/checksum_writer.py L19-25 `algorithm_to_rdf_string` -/
def algorithmToRdf (a : ChecksumAlgorithm) : Str :=
  let t := if isInfix s%"BLAKE2B" a.name then lowerAscii (replaceChar '_' [] a.name) else lowerAscii a.name
  spdxNamespace ++ (s%"checksumAlgorithm_" ++ t)

/-- spdx/parser/rdf/graph_parsing_functions.py L102-105 `remove_prefix` -/
def removePrefix (s p : Str) : Str := if startsWith s p then s.drop p.length else s

/-- spdx/parser/rdf/checksum_parser.py L29-37 `convert_rdf_to_algorithm` -/
def algorithmFromRdf (s : Str) : Option ChecksumAlgorithm :=
  let t := upperAscii (removePrefix s (spdxNamespace ++ s%"checksumAlgorithm_"))
  let t := if isInfix s%"BLAKE2B" t then replaceStr s%"BLAKE2B" s%"BLAKE2B_" t else t
  ChecksumAlgorithm.ofName? t

end Spdx
