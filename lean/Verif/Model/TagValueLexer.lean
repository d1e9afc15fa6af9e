import Verif.Model.TagValueWriter
/-
spdx/parser/tagvalue/lexer.py, and the behaviour of the PLY lexer that runs its rules: at each position the first rule that matches
is taken, in the order in which the rules are written down.
-/
namespace Spdx

/-- Repeatedly take one item off a list; an item may be swallowed.  `fuel` bounds the number of rounds. -/
def scan (step : List σ → Option (Option α × List σ)) : Nat → List σ → List α
  | 0, _ => []
  | fuel + 1, s => match step s with
    | none => []
    | some (a, r) => a.toList ++ scan step fuel r

/-- lexer.py L20-97 `SPDXLexer.reserved`: the reserved words, except for `NOASSERTION` and `NONE`; the token types correspond to them
    one to one, and the words stand for the types here. -/
def tvTags : List Str :=
  [s%"SPDXVersion", s%"DataLicense", s%"DocumentName", s%"SPDXID", s%"DocumentComment", s%"DocumentNamespace", s%"ExternalDocumentRef",
   s%"Creator", s%"Created", s%"CreatorComment", s%"LicenseListVersion",
   s%"Annotator", s%"AnnotationDate", s%"AnnotationComment", s%"AnnotationType", s%"SPDXREF",
   s%"Relationship", s%"RelationshipComment",
   s%"PackageName", s%"PackageVersion", s%"PackageDownloadLocation", s%"FilesAnalyzed", s%"PackageSummary", s%"PackageSourceInfo",
   s%"PackageFileName", s%"PackageSupplier", s%"PackageOriginator", s%"PackageChecksum", s%"PackageVerificationCode",
   s%"PackageDescription", s%"PackageComment", s%"PackageLicenseDeclared", s%"PackageLicenseConcluded", s%"PackageLicenseInfoFromFiles",
   s%"PackageLicenseComments", s%"PackageCopyrightText", s%"PackageHomePage", s%"ExternalRef", s%"ExternalRefComment",
   s%"PackageAttributionText", s%"PrimaryPackagePurpose", s%"BuiltDate", s%"ReleaseDate", s%"ValidUntilDate",
   s%"FileName", s%"FileType", s%"FileChecksum", s%"LicenseConcluded", s%"LicenseInfoInFile", s%"FileCopyrightText", s%"LicenseComments",
   s%"FileComment", s%"FileNotice", s%"FileContributor", s%"FileAttributionText",
   s%"LicenseID", s%"ExtractedText", s%"LicenseName", s%"LicenseCrossReference", s%"LicenseComment",
   s%"SnippetSPDXID", s%"SnippetName", s%"SnippetComment", s%"SnippetCopyrightText", s%"SnippetLicenseComments", s%"SnippetFromFileSPDXID",
   s%"SnippetLicenseConcluded", s%"LicenseInfoInSnippet", s%"SnippetAttributionText", s%"SnippetByteRange", s%"SnippetLineRange"]

/-- The tokens.  Line numbers, which appear in messages only, are left out. -/
inductive Tok where
  /-- a reserved word, as a tag or as a value -/
  | tag (name : Str)
  /-- `UNKNOWN_TAG` -/
  | unknown (name : Str)
  /-- `TEXT`, with the enclosing `<text>` and `</text>` -/
  | text (s : Str)
  /-- `TOOL_VALUE` -/
  | tool (s : Str)
  /-- `ORGANIZATION_VALUE` -/
  | org (s : Str)
  /-- `PERSON_VALUE` -/
  | person (s : Str)
  /-- `ISO8601_DATE` -/
  | date (s : Str)
  /-- `CHECKSUM` -/
  | checksum (s : Str)
  /-- `LINE` -/
  | line (s : Str)
  /-- `NO_ASSERTION` -/
  | noAssertion
  /-- `NONE` -/
  | none
  /-- the `error` token of `t_error` -/
  | error
deriving Repr, DecidableEq

/-- `self.reserved.get(word, …)` -/
def reservedTok (w : Str) (dflt : Tok) : Tok :=
  if w = s%"NOASSERTION" then .noAssertion else if w = s%"NONE" then .none else if w ∈ tvTags then .tag w else dflt

/-- `.`: any character but a newline -/
def isDot (c : Char) : Bool := c ≠ '\n'

/-- The text before the first occurrence of `p`, and the text after it. -/
def cutFirst (p : Str) : Str → Option (Str × Str)
  | [] => if p = [] then some ([], []) else none
  | c :: r => if p.isPrefixOf (c :: r) then some ([], (c :: r).drop p.length) else (cutFirst p r).map fun x => (c :: x.1, x.2)

/-- lexer.py L143-146: the names in the pattern of `CHECKSUM` -/
def checksumNames : List Str :=
  [s%"ADLER32", s%"BLAKE2b-256", s%"BLAKE2b-384", s%"BLAKE2b-512", s%"BLAKE3", s%"MD2", s%"MD4", s%"MD5", s%"MD6", s%"SHA1", s%"SHA224",
   s%"SHA256", s%"SHA384", s%"SHA512", s%"SHA3-256", s%"SHA3-384", s%"SHA3-512"]

/-- `[a-f0-9]` -/
def isLowerHex (c : Char) : Bool := isDigit09 c || ('a'.toNat ≤ c.toNat && c.toNat ≤ 'f'.toNat)

/-- `(ADLER32|…):\s*([a-f0-9]*)` at the start of the text: what is matched and what is left -/
def matchChecksum (v : Str) : Option (Str × Str) :=
  (checksumNames.find? fun n => startsWith v (n ++ [':'])).map fun n =>
    let r := v.drop (n.length + 1)
    let h := r.dropWhile isPySpace
    (n ++ [':'] ++ r.takeWhile isPySpace ++ h.takeWhile isLowerHex, h.dropWhile isLowerHex)

/-- `Tool:.+` and the like at the start of the text -/
def matchActor (p v : Str) : Option (Str × Str) :=
  if startsWith v p ∧ (v.drop p.length).takeWhile isDot ≠ [] then
    some (p ++ (v.drop p.length).takeWhile isDot, (v.drop p.length).dropWhile isDot)
  else none

/-- A character of `\d\d\d\d-\d\d-\d\dT\d\d:\d\d:\d\dZ`: `d` stands for a digit, the others for themselves. -/
def dateChar (p c : Char) : Bool := if p = 'd' then isPyDigit c else c = p

/-- `\d\d\d\d-\d\d-\d\dT\d\d:\d\d:\d\dZ` at the start of the text -/
def matchDatePat : Str → Str → Option (Str × Str)
  | [], v => some ([], v)
  | _ :: _, [] => none
  | p :: ps, c :: v => if dateChar p c then (matchDatePat ps v).map fun x => (c :: x.1, x.2) else none

def matchDate (v : Str) : Option (Str × Str) := matchDatePat s%"dddd-dd-ddTdd:dd:ddZ" v

/-- lexer.py L111-178: the rules that start with a colon, on the text after the colon.  In the `text` state everything up to the first
    `</text>` belongs to the token; without a `</text>` the rest of the text is swallowed. -/
def lexValue (r : Str) : Option Tok × Str :=
  let v := r.dropWhile isPySpace
  match dropPrefix? s%"<text>" v with
  | some body => match cutFirst s%"</text>" body with
    | some (content, rest) => (some (.text (s%"<text>" ++ content ++ s%"</text>")), rest.dropWhile isPySpace)
    | none => (none, [])
  | none => match matchChecksum v with
  | some (m, rest) => (some (.checksum (strip m)), rest)
  | none => match matchActor s%"Tool:" v with
  | some (m, rest) => (some (.tool (strip m)), rest)
  | none => match matchActor s%"Organization:" v with
  | some (m, rest) => (some (.org (strip m)), rest)
  | none => match matchActor s%"Person:" v with
  | some (m, rest) => (some (.person (strip m)), rest)
  | none => match matchDate v with
  | some (m, rest) => (some (.date (strip m)), rest)
  | none =>
    if r.takeWhile isDot = [] then (some .error, r)
    else (some (reservedTok (strip (r.takeWhile isDot)) (.line (strip (r.takeWhile isDot)))), r.dropWhile isDot)

/-- lexer.py L111-207: one rule of the `INITIAL` state; `none` at the end of the text -/
def lexOne : Str → Option (Option Tok × Str)
  | [] => none
  | c :: r =>
    if c = ':' then some (lexValue r)
    else if isLetterAZ c then
      some (some (reservedTok ((c :: r).takeWhile isLetterAZ) (.unknown ((c :: r).takeWhile isLetterAZ))), (c :: r).dropWhile isLetterAZ)
    else if c = '#' then some (none, r.dropWhile isDot)
    else if c = '\n' then some (none, r.dropWhile (· = '\n'))
    else if c = ' ' ∨ c = '\t' then some (none, r.dropWhile (fun c => c = ' ' ∨ c = '\t'))
    else some (some .error, r)

/-- The tokens of a text. -/
def lex (s : Str) : List Tok := scan lexOne s.length s

end Spdx
