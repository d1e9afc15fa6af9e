import Verif.Model.Ext
import Verif.Py.Regex
/- spdx/validation/uri_validators.py and the locator patterns of spdx/validation/external_package_ref_validator.py -/
namespace Spdx
open Re

/-- Case folding of `re.IGNORECASE` onto ASCII lower case: besides the ASCII letters, `ſ`, `İ`, `ı` and the Kelvin sign fold to
    ASCII letters. -/
def ciFold (c : Char) : Char :=
  if isUpperAZ c then Char.ofNat (c.toNat + 32)
  else if c.toNat = 0x17F then 's'
  else if c.toNat = 0x130 ∨ c.toNat = 0x131 then 'i'
  else if c.toNat = 0x212A then 'k'
  else c

/-- A character class with `re.IGNORECASE`. -/
def ciSet (p : Char → Bool) : Re := .set fun c => p c || p (ciFold c)
/-- A literal text with `re.IGNORECASE` (the texts used are lower case). -/
def ciLit (s : Str) : Re := seqs (s.map fun c => .set fun d => d == c || ciFold d == c)

/-- `.`: anything but a newline. -/
def dot : Re := .set (· != '\n')

/-- `[a-z0-9]` -/
def isLowerNum (c : Char) : Bool := isLowerAZ c || isDigit09 c
/-- `[a-zA-Z0-9]` -/
def isAlnumAscii (c : Char) : Bool := isLowerAZ c || isUpperAZ c || isDigit09 c

/-- spdx/validation/uri_validators.py L10-14 `url_pattern` (compiled with IGNORECASE) -/
def urlPattern (X : Ext) : Re := seqs [
  opt (alts [ciLit s%"http://www.", ciLit s%"https://www.", ciLit s%"http://", ciLit s%"https://", ciLit s%"ssh://",
    ciLit s%"git://", ciLit s%"svn://", ciLit s%"sftp://", ciLit s%"ftp://"]),
  opt (seqs [plus (ciSet fun c => X.isWord c || (s%"-.!~*'()%;:&=+$,").contains c), chr '@']),
  plus (ciSet isLowerNum),
  upTo (seqs [.set (fun c => c == '-' || c == '.'), plus (ciSet isLowerNum)]) 100,
  chr '.',
  between (ciSet isLowerAZ) 2 5,
  opt (seqs [chr ':', between (.set isDigit09) 1 5]),
  opt (seqs [chr '/', .star dot])]

/-- L17-22 `download_location_pattern` without the anchors (compiled with IGNORECASE) -/
def downloadLocationPattern (X : Ext) : Re := alts [
  seqs [opt (seqs [alts [ciLit s%"git", ciLit s%"hg", ciLit s%"svn", ciLit s%"bzr"], chr '+']), urlPattern X],
  seqs [ciLit s%"git+git@", plus (ciSet fun c => isAlnumAscii c || c == '.' || c == '-'), chr ':',
    plus (ciSet fun c => isAlnumAscii c || (s%"/\\.@-").contains c)],
  seqs [ciLit s%"bzr+lp:", plus (ciSet fun c => isAlnumAscii c || c == '.' || c == '-')]]

/-- L26-30 `validate_url`: does it return no message? -/
def urlOk (X : Ext) (s : Str) : Bool := (urlPattern X).pref s

/-- L33-37 `validate_download_location`: does it return no message? -/
def downloadLocationOk (X : Ext) (s : Str) : Bool := urlOk X s || (downloadLocationPattern X).anchored s

/-- spdx/validation/external_package_ref_validator.py L14 `CPE22TYPE_REGEX` -/
def cpe22Re : Re := seqs [
  chr 'c', .set (fun c => c == 'p' || c == 'P'), .set (fun c => c == 'e' || c == 'E'), lit s%":/",
  opt (.set fun c => (s%"AHOaho").contains c),
  upTo (seqs [chr ':', .star (.set fun c => isAlnumAscii c || (s%"._-~%").contains c)]) 6]

/-- One component of a CPE 2.3 name (L16-18): `((\?*|\*?)([a-zA-Z0-9\-\._]|(\\[...]))+(\?*|\*?))|[\*\-]` -/
def cpe23Comp : Re := alts [
  seqs [
    alts [.star (chr '?'), opt (chr '*')],
    plus (alts [.set fun c => isAlnumAscii c || (s%"-._").contains c,
      seqs [chr '\\', .set fun c => (s%"\\*?!\"#$%&'()+,/:;<=>@[]^`{|}~").contains c]]),
    alts [.star (chr '?'), opt (chr '*')]],
  .set fun c => c == '*' || c == '-']

/-- L15-19 `CPE23TYPE_REGEX` -/
def cpe23Re : Re := seqs [
  lit s%"cpe:2.3:", .set (fun c => (s%"aho*-").contains c),
  rep (seqs [chr ':', cpe23Comp]) 5,
  seqs [chr ':', alts [
    seqs [between (.set fun c => isLowerAZ c || isUpperAZ c) 2 3,
      opt (seqs [chr '-', alts [rep (.set fun c => isLowerAZ c || isUpperAZ c) 2, rep (.set isDigit09) 3]])],
    .set fun c => c == '*' || c == '-']],
  rep (seqs [chr ':', cpe23Comp]) 4]

/-- `[^c]+` -/
def notChr (c : Char) : Re := plus (.set (· != c))
/-- `[0-9a-fA-F]` -/
def isHexAny (c : Char) : Bool := isDigit09 c || ('a'.toNat ≤ c.toNat && c.toNat ≤ 'f'.toNat) || ('A'.toNat ≤ c.toNat && c.toNat ≤ 'F'.toNat)

/-- L20 -/
def mavenRe : Re := seqs [notChr ':', chr ':', notChr ':', opt (seqs [chr ':', notChr ':'])]
/-- L21 -/
def npmRe : Re := seqs [notChr '@', chr '@', notChr '@']
/-- L22 -/
def nugetRe : Re := seqs [notChr '/', chr '/', notChr '/']
/-- L23 -/
def bowerRe : Re := seqs [notChr '#', chr '#', notChr '#']
/-- L24 -/
def purlRe : Re := seqs [lit s%"pkg:", plus dot, opt (seqs [chr '/', plus dot]), chr '/', plus dot, opt (seqs [chr '@', plus dot]),
  opt (seqs [chr '?', plus dot]), opt (seqs [chr '#', plus dot])]
/-- L25 -/
def swhRe : Re := seqs [lit s%"swh:1:", alts [lit s%"snp", lit s%"rel", lit s%"rev", lit s%"dir", lit s%"cnt"], chr ':',
  rep (.set isHexAny) 40]
/-- L26 -/
def gitoidRe : Re := seqs [lit s%"gitoid:", alts [lit s%"blob", lit s%"tree", lit s%"commit", lit s%"tag"], chr ':',
  alts [seqs [lit s%"sha1:", rep (.set isHexAny) 40], seqs [lit s%"sha256:", rep (.set isHexAny) 64]]]

/-- L28-38 `TYPE_TO_REGEX` -/
def typeToRegex : List (Str × Re) :=
  [(s%"cpe22Type", cpe22Re), (s%"cpe23Type", cpe23Re), (s%"maven-central", mavenRe), (s%"npm", npmRe), (s%"nuget", nugetRe),
   (s%"bower", bowerRe), (s%"purl", purlRe), (s%"swh", swhRe), (s%"gitoid", gitoidRe)]

end Spdx
