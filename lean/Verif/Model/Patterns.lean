import Verif.Model.Uri
import Verif.Model.Enums
/-
The regular expressions of the source, as texts, outside the lexer (whose rules are in Model/PlyLex).  C62 shows that the functions of the
model do what they say.
-/
namespace Spdx.PatText

/-- spdx/validation/uri_validators.py L10-14 `url_pattern` (compiled with `re.IGNORECASE`) -/
def url : Str :=
  s%r"(http:\/\/www\.|https:\/\/www\.|http:\/\/|https:\/\/|ssh:\/\/|git:\/\/|svn:\/\/|sftp:" ++
  s%r"\/\/|ftp:\/\/)?([\w\-.!~*'()%;:&=+$,]+@)?[a-z0-9]+([\-\.]{1}[a-z0-9]+){0,100}\.[a-z]{2,5}" ++
  s%r"(:[0-9]{1,5})?(\/.*)?"

/-- L17 -/
def supportedDownloadRepos : Str := s%r"(git|hg|svn|bzr)"
/-- L18 -/
def gitPattern : Str := s%r"(git\+git@[a-zA-Z0-9\.\-]+:[a-zA-Z0-9/\\.@\-]+)"
/-- L19 -/
def bazaarPattern : Str := s%r"(bzr\+lp:[a-zA-Z0-9\.\-]+)"
/-- L20-22 `download_location_pattern` (compiled with `re.IGNORECASE`) -/
def downloadLocation : Str :=
  s%r"^(((" ++ supportedDownloadRepos ++ s%r"\+)?" ++ url ++ s%r")|" ++ gitPattern ++ s%r"|" ++ bazaarPattern ++ s%r")$"

/-- spdx/validation/external_package_ref_validator.py L14 -/
def cpe22 : Str := s%r"^c[pP][eE]:/[AHOaho]?(:[A-Za-z0-9._\-~%]*){0,6}$"
/-- L15-19 -/
def cpe23 : Str :=
  s%r##"^cpe:2\.3:[aho\*\-](:(((\?*|\*?)([a-zA-Z0-9\-\._]|(\\[\\\*\?!"#$$%&\'\(\)\+,\/:;<=>@\[\]\^"## ++
  s%r"`\{\|}~]))+(\?*|\*?))|[\*\-])){5}(:(([a-zA-Z]{2,3}(-([a-zA-Z]{2}|[0-9]{3}))?)|[\*\-]))(:(((\?*" ++
  s%r##"|\*?)([a-zA-Z0-9\-\._]|(\\[\\\*\?!"#$$%&\'\(\)\+,\/:;<=>@\[\]\^`\{\|}~]))+(\?*|\*?))|[\*\-])){4}$"##
/-- L20 -/
def mavenCentral : Str := s%r"^[^:]+:[^:]+(:[^:]+)?$"
/-- L21 -/
def npm : Str := s%r"^[^@]+@[^@]+$"
/-- L22 -/
def nuget : Str := s%r"^[^/]+/[^/]+$"
/-- L23 -/
def bower : Str := s%r"^[^#]+#[^#]+$"
/-- L24 -/
def purl : Str := s%r"^pkg:.+(\/.+)?\/.+(@.+)?(\?.+)?(#.+)?$"
/-- L25 -/
def swh : Str := s%r"^swh:1:(snp|rel|rev|dir|cnt):[0-9a-fA-F]{40}$"
/-- L26 -/
def gitoid : Str := s%r"^gitoid:(blob|tree|commit|tag):(sha1:[0-9a-fA-F]{40}|sha256:[0-9a-fA-F]{64})$"

/-- L28-38 `TYPE_TO_REGEX` -/
def typeToRegex : List (Str × Str) :=
  [(s%"cpe22Type", cpe22), (s%"cpe23Type", cpe23), (s%"maven-central", mavenCentral), (s%"npm", npm), (s%"nuget", nuget),
   (s%"bower", bower), (s%"purl", purl), (s%"swh", swh), (s%"gitoid", gitoid)]

/-- spdx/validation/spdx_id_validators.py L14 -/
def spdxId : Str := s%r"^SPDXRef-[\da-zA-Z.-]+$"
/-- spdx/validation/spdx_id_validators.py L18 -/
def documentRef : Str := s%r"^DocumentRef-[\da-zA-Z.+-]+$"
/-- spdx/validation/extracted_licensing_info_validator.py L31 -/
def licenseRef : Str := s%r"^LicenseRef-[\da-zA-Z.-]+$"
/-- spdx/validation/package_verification_code_validator.py L26 -/
def verificationCodeValue : Str := s%r"^[0-9a-f]{40}$"

/-- spdx/validation/checksum_validator.py L13-31 `algorithm_length`, as texts -/
def algorithmLength : ChecksumAlgorithm → Str
  | .SHA1 => s%"40"
  | .SHA224 => s%"56"
  | .SHA256 => s%"64"
  | .SHA384 => s%"96"
  | .SHA512 => s%"128"
  | .SHA3_256 => s%"64"
  | .SHA3_384 => s%"96"
  | .SHA3_512 => s%"128"
  | .BLAKE2B_256 => s%"64"
  | .BLAKE2B_384 => s%"96"
  | .BLAKE2B_512 => s%"128"
  | .BLAKE3 => s%"256,"
  | .MD2 => s%"32"
  | .MD4 => s%"32"
  | .MD5 => s%"32"
  | .MD6 => s%"0,512"
  | .ADLER32 => s%"8"
/-- spdx/validation/checksum_validator.py L59 -/
def checksumValue (a : ChecksumAlgorithm) : Str := s%"^[0-9a-f]{" ++ algorithmLength a ++ s%"}$"

/-- spdx/model/version.py L11 -/
def version : Str := s%r"^(\d+)\.(\d+)$"

/-- spdx/parser/actor_parser.py L16 -/
def tool : Str := s%r"^Tool:\s*(.+)"
/-- spdx/parser/actor_parser.py L17 -/
def person : Str := s%r"^Person:\s*(?:(.*)\((.*)\)|(.*))$"
/-- spdx/parser/actor_parser.py L18 -/
def organization : Str := s%r"^Organization:\s*(?:(.*)\((.*)\)|(.*))$"

/-- spdx/parser/tagvalue/parser.py L288 -/
def externalDocRef : Str := s%r"(.*)(\s*SHA1:\s*[a-f0-9]{40})"
/-- spdx/parser/tagvalue/parser.py L417 -/
def verificationCode : Str := s%r"([0-9a-f]{40})\s*(\(excludes:\s*(.+)\))?"
/-- spdx/parser/tagvalue/parser.py L482 -/
def range : Str := s%r"^(\d+):(\d+)$"
/-- spdx/parser/tagvalue/helper_methods.py L33 -/
def textBlock : Str := s%"<text>((.|\n)+)</text>"

/-- spdx/casing_tools.py L8 -/
def separators : Str := s%r"[_\-]+"
/-- spdx/casing_tools.py L13 -/
def capitals : Str := s%r"(?!^)([A-Z]+)"

end Spdx.PatText
