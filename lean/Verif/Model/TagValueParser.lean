import Verif.Model.TagValueLexer
import Verif.Model.PyParse
/-
spdx/parser/tagvalue/parser.py and helper_methods.py, and the behaviour of the PLY parser that runs its grammar.
-/
namespace Spdx

/-! ## The grammar -/

/-- What may follow a tag (the non-terminals of parser.py L215-249, and single terminals). -/
inductive TvSyntax where
  /-- `LINE` -/
  | line
  /-- `text_or_line` -/
  | textOrLine
  /-- `line_or_no_assertion` -/
  | lineOrNoAssertion
  /-- `line_or_no_assertion_or_none` -/
  | lineOrSpecial
  /-- `license_or_no_assertion_or_none` -/
  | license
  /-- `actor_or_no_assertion` -/
  | actorOrNoAssertion
  /-- `PERSON_VALUE | TOOL_VALUE | ORGANIZATION_VALUE` -/
  | actor
  /-- `ISO8601_DATE` -/
  | date
  /-- `CHECKSUM` -/
  | checksum
deriving Repr, DecidableEq

/-- The tokens a non-terminal derives. -/
def TvSyntax.accepts : TvSyntax → Tok → Bool
  | .line, .line _ => true
  | .textOrLine, .text _ | .textOrLine, .line _ | .textOrLine, .noAssertion | .textOrLine, .none => true
  | .lineOrNoAssertion, .line _ | .lineOrNoAssertion, .noAssertion => true
  | .lineOrSpecial, .text _ | .lineOrSpecial, .line _ | .lineOrSpecial, .noAssertion | .lineOrSpecial, .none => true
  | .license, .line _ | .license, .noAssertion | .license, .none => true
  | .actorOrNoAssertion, .person _ | .actorOrNoAssertion, .org _ | .actorOrNoAssertion, .noAssertion => true
  | .actor, .person _ | .actor, .org _ | .actor, .tool _ => true
  | .date, .date _ => true
  | .checksum, .checksum _ => true
  | _, _ => false

/-- The grammar rules `x : TAG value` (parser.py L174-509), except for those of `SPDXID`, unknown tags, `ExternalRef` and
    `Relationship`. -/
def tvSyntax : List (Str × TvSyntax) :=
  [(s%"LicenseName", .lineOrNoAssertion), (s%"ExtractedText", .textOrLine), (s%"LicenseComment", .textOrLine), (s%"LicenseID", .line),
   (s%"FileName", .line), (s%"FileNotice", .textOrLine), (s%"FileCopyrightText", .lineOrSpecial), (s%"LicenseComments", .textOrLine),
   (s%"FileComment", .textOrLine), (s%"LicenseConcluded", .license), (s%"PackageName", .line), (s%"PackageDescription", .textOrLine),
   (s%"PackageSummary", .textOrLine), (s%"PackageSourceInfo", .textOrLine), (s%"PackageHomePage", .lineOrSpecial),
   (s%"PackageDownloadLocation", .lineOrSpecial), (s%"PackageOriginator", .actorOrNoAssertion), (s%"PackageSupplier", .actorOrNoAssertion),
   (s%"PackageComment", .textOrLine), (s%"PackageCopyrightText", .lineOrSpecial), (s%"PackageLicenseDeclared", .license),
   (s%"PackageFileName", .line), (s%"PackageLicenseConcluded", .license), (s%"PackageVersion", .line),
   (s%"PackageLicenseComments", .textOrLine), (s%"SnippetSPDXID", .line), (s%"SnippetName", .line), (s%"SnippetComment", .textOrLine),
   (s%"SnippetCopyrightText", .lineOrSpecial), (s%"SnippetLicenseComments", .textOrLine), (s%"SnippetFromFileSPDXID", .line),
   (s%"SnippetLicenseConcluded", .license), (s%"SPDXREF", .line), (s%"AnnotationComment", .textOrLine),
   (s%"DocumentComment", .textOrLine), (s%"DocumentNamespace", .line), (s%"DataLicense", .line), (s%"SPDXVersion", .line),
   (s%"CreatorComment", .textOrLine), (s%"DocumentName", .line), (s%"LicenseListVersion", .line), (s%"ExternalDocumentRef", .line),
   (s%"Creator", .actor), (s%"Created", .date), (s%"LicenseCrossReference", .line), (s%"FileContributor", .line),
   (s%"FileAttributionText", .textOrLine), (s%"LicenseInfoInFile", .license), (s%"FileType", .line), (s%"FileChecksum", .checksum),
   (s%"PackageAttributionText", .textOrLine), (s%"PackageLicenseInfoFromFiles", .license), (s%"PackageChecksum", .checksum),
   (s%"PackageVerificationCode", .line), (s%"FilesAnalyzed", .line), (s%"PrimaryPackagePurpose", .line), (s%"BuiltDate", .date),
   (s%"ReleaseDate", .date), (s%"ValidUntilDate", .date), (s%"SnippetAttributionText", .textOrLine), (s%"LicenseInfoInSnippet", .license),
   (s%"SnippetByteRange", .line), (s%"SnippetLineRange", .line), (s%"Annotator", .actor), (s%"AnnotationDate", .date),
   (s%"AnnotationType", .line)]

/-- The tags that may be followed by a comment of their own (parser.py L364-366, L511), and the tag of the comment. -/
def commentTag : Str → Option Str
  | s%"ExternalRef" => some s%"ExternalRefComment"
  | s%"Relationship" => some s%"RelationshipComment"
  | _ => none

/-- Can the token start an attribute? -/
def Tok.starts : Tok → Bool
  | .tag t => (tvSyntax.lookup t).isSome || (commentTag t).isSome || t = s%"SPDXID"
  | .unknown _ => true
  | _ => false

/-- The attributes the parser recognises (the reductions to `attrib`). -/
inductive TvAttr where
  /-- `TAG value` -/
  | value (tag : Str) (v : Tok)
  /-- `TAG LINE [COMMENT text_or_line]` -/
  | commented (tag line : Str) (comment : Option Tok)
  /-- `TAG error` -/
  | bad (tag : Str)
  /-- `SPDX_ID LINE` -/
  | spdxId (v : Str)
  /-- `UNKNOWN_TAG …` -/
  | unknown
deriving Repr, DecidableEq

/-- The tokens that may follow an unknown tag as its value (parser.py L214-217) -/
def unknownValue : Tok → Bool
  | .text _ | .line _ | .noAssertion | .none | .date _ | .person _ => true
  | _ => false

/-- Can an attribute end here? The tables reduce an attribute only if the next token starts another one, or at the end of the text. -/
def follows : List Tok → Bool
  | [] => true
  | v :: _ => v.starts

/-- What the tables of the LALR parser and PLY's error recovery make of the next tokens: an attribute, or nothing; and the remaining
    tokens. (`Props/C60` derives this from the grammar as it is written down in parser.py, the construction of the tables and the
    driver of ply/yacc.py.)
    * a tag followed by a token that no rule admits, or by a value that is followed by a token that cannot start an attribute, is reduced
      by `TAG error`, and the token is looked at again;
    * the rule for `SPDXID` has no such alternative: the tag is taken off the stack, and with it everything else; then the offending
      token is dropped; the same happens to an unknown tag;
    * at the end of the text an incomplete attribute is dropped;
    * a token that cannot start an attribute is dropped. -/
def attrOne : List Tok → Option (Option TvAttr × List Tok)
  | [] => none
  | .unknown _ :: [] => some (some .unknown, [])
  | .unknown _ :: v :: r =>
    if unknownValue v then
      if follows r then some (some .unknown, r) else some (none, r.tail)
    else if v.starts then some (some .unknown, v :: r)
    else some (none, r)
  | .tag t :: r =>
    if t = s%"SPDXID" then
      match r with
      | [] => some (none, [])
      | .line s :: r => if follows r then some (some (.spdxId s), r) else some (none, r.tail)
      | _ :: r => some (none, r)
    else match tvSyntax.lookup t with
    | some x => match r with
      | [] => some (none, [])
      | v :: r =>
        if x.accepts v then
          if follows r then some (some (.value t v), r) else some (some (.bad t), r)
        else some (some (.bad t), v :: r)
    | none => match commentTag t with
      | some ct => match r with
        | [] => some (none, [])
        | .line s :: [] => some (some (.commented t s none), [])
        | .line s :: v :: r =>
          if v = .tag ct then
            match r with
            | [] => some (none, [])
            | w :: r =>
              if TvSyntax.textOrLine.accepts w then
                if follows r then some (some (.commented t s (some w)), r) else some (some (.bad t), r)
              else some (some (.bad t), w :: r)
          else if v.starts then some (some (.commented t s none), v :: r)
          else some (some (.bad t), v :: r)
        | r => some (some (.bad t), r)
      | none => some (none, r)
  | _ :: r => some (none, r)

/-- The attributes in a list of tokens. -/
def attrs (ts : List Tok) : List TvAttr := scan attrOne ts.length ts

/-! ## The semantic actions -/

/-- The text before the last occurrence of `p`. -/
def cutLast (p : Str) : Str → Option Str
  | [] => none
  | c :: r => match cutLast p r with
    | some x => some (c :: x)
    | none => if p.isPrefixOf (c :: r) then some [] else none

/-- helper_methods.py L32-40 `str_from_text`: group 1 of `<text>((.|\n)+)</text>`, or the text itself -/
def strFromText (s : Str) : Str :=
  match (dropPrefix? s%"<text>" s).bind (cutLast s%"</text>") with
  | some (c :: x) => c :: x
  | _ => s

/-- A value of the current element or of the creation info. -/
inductive TvItem where
  | str (s : Str)
  | noAssertion
  | none
  /-- Python's `None` -/
  | null
  | lic (e : LicExpr)
  | actor (a : Actor)
  | date (t : DateTime)
  | version (v : Version)
  | purpose (p : PackagePurpose)
  | annotationType (t : AnnotationType)
  | relationshipType (t : RelationshipType)
  | fileType (t : FileType)
  | bool (b : Bool)
  | range (r : Int × Int)
  | code (c : PackageVerificationCode)
  | checksum (c : Checksum)
  | docRef (r : ExternalDocumentRef)
  | extRef (r : ExternalPackageRef)
deriving Repr, DecidableEq

/-- A field: a single value, or a list to which values are appended. -/
inductive TvVal where
  | one (x : TvItem)
  | many (l : List TvItem)
deriving Repr, DecidableEq

inductive TvClass where
  | file | annotation | relationship | snippet | package | extracted
deriving Repr, DecidableEq

/-- `clazz.__name__` -/
def TvClass.name : TvClass → Str
  | .file => s%"File"
  | .annotation => s%"Annotation"
  | .relationship => s%"Relationship"
  | .snippet => s%"Snippet"
  | .package => s%"Package"
  | .extracted => s%"ExtractedLicensingInfo"

/-- parser.py L67-74 `ELEMENT_EXPECTED_START_TAG`, from the tag to the class -/
def startTag : Str → Option TvClass
  | s%"FileName" => some .file
  | s%"Annotator" => some .annotation
  | s%"Relationship" => some .relationship
  | s%"SnippetSPDXID" => some .snippet
  | s%"PackageName" => some .package
  | s%"LicenseID" => some .extracted
  | _ => none

/-- The classes in `TAG_DATA_MODEL_FIELD`. -/
inductive TvOwner where
  | info
  | element (c : TvClass)
deriving Repr, DecidableEq

/-- helper_methods.py L83-134 `TAG_DATA_MODEL_FIELD` -/
def tagDataModelField : List (Str × TvOwner × Str) :=
  [(s%"SPDXVersion", .info, s%"spdx_version"), (s%"DataLicense", .info, s%"data_license"), (s%"DocumentName", .info, s%"name"),
   (s%"DocumentComment", .info, s%"document_comment"), (s%"DocumentNamespace", .info, s%"document_namespace"),
   (s%"Creator", .info, s%"creator"), (s%"Created", .info, s%"created"), (s%"CreatorComment", .info, s%"creator_comment"),
   (s%"LicenseListVersion", .info, s%"license_list_version"), (s%"ExternalDocumentRef", .info, s%"external_document_refs"),
   (s%"FileName", .element .file, s%"name"), (s%"FileType", .element .file, s%"file_type"),
   (s%"FileChecksum", .element .file, s%"checksums"), (s%"FileNotice", .element .file, s%"notice"),
   (s%"FileCopyrightText", .element .file, s%"copyright_text"), (s%"LicenseComments", .element .file, s%"license_comment"),
   (s%"FileComment", .element .file, s%"comment"), (s%"LicenseConcluded", .element .file, s%"license_concluded"),
   (s%"LicenseDeclared", .element .file, s%"license_declared"), (s%"PackageName", .element .package, s%"name"),
   (s%"PackageComment", .element .package, s%"comment"), (s%"PackageCopyrightText", .element .package, s%"copyright_text"),
   (s%"PackageLicenseComments", .element .package, s%"license_comment"),
   (s%"PackageLicenseDeclared", .element .package, s%"license_declared"),
   (s%"PackageLicenseConcluded", .element .package, s%"license_concluded"), (s%"PackageFileName", .element .package, s%"file_name"),
   (s%"PackageVersion", .element .package, s%"version"), (s%"PackageDownloadLocation", .element .package, s%"download_location"),
   (s%"PackageSummary", .element .package, s%"summary"), (s%"PackageSourceInfo", .element .package, s%"source_info"),
   (s%"PackageSupplier", .element .package, s%"supplier"), (s%"PackageOriginator", .element .package, s%"originator"),
   (s%"PackageDescription", .element .package, s%"description"), (s%"PackageHomePage", .element .package, s%"homepage"),
   (s%"SnippetSPDXID", .element .snippet, s%"spdx_id"), (s%"SnippetFromFileSPDXID", .element .snippet, s%"file_spdx_id"),
   (s%"SnippetName", .element .snippet, s%"name"), (s%"SnippetComment", .element .snippet, s%"comment"),
   (s%"SnippetCopyrightText", .element .snippet, s%"copyright_text"),
   (s%"SnippetLicenseComments", .element .snippet, s%"license_comment"),
   (s%"SnippetLicenseConcluded", .element .snippet, s%"license_concluded"), (s%"SnippetByteRange", .element .snippet, s%"byte_range"),
   (s%"SnippetLineRange", .element .snippet, s%"line_range"), (s%"Annotator", .element .annotation, s%"annotator"),
   (s%"SPDXREF", .element .annotation, s%"spdx_id"), (s%"AnnotationComment", .element .annotation, s%"annotation_comment"),
   (s%"LicenseID", .element .extracted, s%"license_id"), (s%"ExtractedText", .element .extracted, s%"extracted_text"),
   (s%"LicenseComment", .element .extracted, s%"comment"), (s%"LicenseName", .element .extracted, s%"license_name")]

/-- helper_methods.py L74-77 `get_property_name` -/
def propertyName (tag : Str) : Str :=
  match tagDataModelField.lookup tag with
  | some (_, n) => n
  | none => camelToSnake tag

/-- `Parser`'s state (parser.py L76-94): the loggers, the values collected, the elements built.  `packages`: `none` when the key is not
    in `elements_built`. -/
structure TvState where
  log : List PMsg := []
  infoLog : List PMsg := []
  info : Dict Str TvVal := []
  cls : Option TvClass := none
  elemLog : List PMsg := []
  elem : Dict Str TvVal := []
  packages : Option (List Package) := none
  files : List File := []
  snippets : List Snippet := []
  annotations : List Annotation := []
  relationships : List Relationship := []
  extracted : List ExtractedLicensingInfo := []
deriving Repr, DecidableEq

/-! ### Constructing the objects: `clazz(**current_element)`.  A missing or unexpected argument and a value of the wrong type are all
`TypeError`s, reported in one message (parsing_functions.py L11-18); of the message only the names of the fields are kept.  (Which
arguments are needed: those without a default in the constructors cited.) -/

def TvItem.str? : TvItem → Option Str
  | .str s => some s
  | _ => Option.none
def TvItem.special? : TvItem → Option (OrSpecial Str)
  | .str s => some (.val s)
  | .noAssertion => some .noAssertion
  | .none => some .none
  | _ => Option.none
def TvItem.strNoAssertion? : TvItem → Option (OrNoAssertion Str)
  | .str s => some (.val s)
  | .noAssertion => some .noAssertion
  | _ => Option.none
def TvItem.lic? : TvItem → Option (OrSpecial LicExpr)
  | .lic e => some (.val e)
  | .noAssertion => some .noAssertion
  | .none => some .none
  | _ => Option.none
def TvItem.actor? : TvItem → Option Actor
  | .actor a => some a
  | _ => Option.none
def TvItem.actorNoAssertion? : TvItem → Option (OrNoAssertion Actor)
  | .actor a => some (.val a)
  | .noAssertion => some .noAssertion
  | _ => Option.none
def TvItem.date? : TvItem → Option DateTime
  | .date t => some t
  | _ => Option.none
def TvItem.version? : TvItem → Option Version
  | .version v => some v
  | _ => Option.none
def TvItem.purpose? : TvItem → Option PackagePurpose
  | .purpose p => some p
  | _ => Option.none
def TvItem.annotationType? : TvItem → Option AnnotationType
  | .annotationType t => some t
  | _ => Option.none
def TvItem.relationshipType? : TvItem → Option RelationshipType
  | .relationshipType t => some t
  | _ => Option.none
def TvItem.fileType? : TvItem → Option FileType
  | .fileType t => some t
  | _ => Option.none
def TvItem.bool? : TvItem → Option Bool
  | .bool b => some b
  | _ => Option.none
def TvItem.range? : TvItem → Option (Int × Int)
  | .range r => some r
  | _ => Option.none
def TvItem.code? : TvItem → Option PackageVerificationCode
  | .code c => some c
  | _ => Option.none
def TvItem.checksum? : TvItem → Option Checksum
  | .checksum c => some c
  | _ => Option.none
def TvItem.docRef? : TvItem → Option ExternalDocumentRef
  | .docRef r => some r
  | _ => Option.none
def TvItem.extRef? : TvItem → Option ExternalPackageRef
  | .extRef r => some r
  | _ => Option.none

/-- A required argument. -/
def tvReq (as? : TvItem → Option α) (d : Dict Str TvVal) (fld : Str) : Check α :=
  match d.get? fld with
  | some (.one x) => chkSome fld (as? x)
  | _ => .error [fld]

/-- An argument that may be missing or `None`. -/
def tvOpt (as? : TvItem → Option α) (d : Dict Str TvVal) (fld : Str) : Check (Option α) :=
  match d.get? fld with
  | none => .ok none
  | some (.one .null) => .ok none
  | some (.one x) => match as? x with
    | some a => .ok (some a)
    | none => .error [fld]
  | some (.many _) => .error [fld]

/-- An argument with a default value. -/
def tvDflt (as? : TvItem → Option α) (dflt : α) (d : Dict Str TvVal) (fld : Str) : Check α :=
  match d.get? fld with
  | none => .ok dflt
  | some (.one x) => chkSome fld (as? x)
  | some (.many _) => .error [fld]

/-- A list that may be missing. -/
def tvList (as? : TvItem → Option α) (d : Dict Str TvVal) (fld : Str) : Check (List α) :=
  match d.get? fld with
  | none => .ok []
  | some (.many l) => chkSome fld (l.mapM as?)
  | some (.one _) => .error [fld]

/-- A required list. -/
def tvReqList (as? : TvItem → Option α) (d : Dict Str TvVal) (fld : Str) : Check (List α) :=
  match d.get? fld with
  | some (.many l) => chkSome fld (l.mapM as?)
  | _ => .error [fld]

/-- The call of a constructor: of unexpected arguments the first is reported; then all those that are missing; then those of the wrong
    type.  (If one of the arguments `needed` is missing, `c` is an error.) -/
def tvMissing (d : Dict Str TvVal) (needed : List Str) (c : Check α) : Check α :=
  match c with
  | .ok x => .ok x
  | .error e => .error (if needed.all fun k => (d.get? k).isSome then e else needed.filter fun k => (d.get? k).isNone)

def tvOnly (d : Dict Str TvVal) (names needed : List Str) (c : Check α) : Check α :=
  match d.keys.filter (· ∉ names) with
  | k :: _ => .error [k]
  | [] => tvMissing d needed c

/-- spdx/model/document.py L24-53, the constructor's arguments -/
def infoArgs : List Str :=
  [s%"spdx_version", s%"spdx_id", s%"name", s%"document_namespace", s%"creators", s%"created", s%"creator_comment", s%"data_license",
   s%"external_document_refs", s%"license_list_version", s%"document_comment"]

def mkInfo (d : Dict Str TvVal) : Check CreationInfo :=
  tvOnly d infoArgs [s%"spdx_version", s%"spdx_id", s%"name", s%"document_namespace", s%"creators", s%"created"]
    (.ok CreationInfo.mk ⊛ tvReq TvItem.str? d s%"spdx_version" ⊛ tvReq TvItem.str? d s%"spdx_id" ⊛
    tvReq TvItem.str? d s%"name" ⊛ tvReq TvItem.str? d s%"document_namespace" ⊛ tvReqList TvItem.actor? d s%"creators" ⊛
    tvReq TvItem.date? d s%"created" ⊛ tvOpt TvItem.str? d s%"creator_comment" ⊛ tvDflt TvItem.str? s%"CC0-1.0" d s%"data_license" ⊛
    tvList TvItem.docRef? d s%"external_document_refs" ⊛ tvOpt TvItem.version? d s%"license_list_version" ⊛
    tvOpt TvItem.str? d s%"document_comment")

/-- spdx/model/file.py L29-68 -/
def fileArgs : List Str :=
  [s%"name", s%"spdx_id", s%"checksums", s%"file_types", s%"license_concluded", s%"license_info_in_file", s%"license_comment",
   s%"copyright_text", s%"comment", s%"notice", s%"contributors", s%"attribution_texts"]

def mkFile (d : Dict Str TvVal) : Check File :=
  tvOnly d fileArgs [s%"name", s%"spdx_id", s%"checksums"]
    (.ok File.mk ⊛ tvReq TvItem.str? d s%"name" ⊛ tvReq TvItem.str? d s%"spdx_id" ⊛
    tvReqList TvItem.checksum? d s%"checksums" ⊛ tvList TvItem.fileType? d s%"file_types" ⊛ tvOpt TvItem.lic? d s%"license_concluded" ⊛
    tvList TvItem.lic? d s%"license_info_in_file" ⊛ tvOpt TvItem.str? d s%"license_comment" ⊛
    tvOpt TvItem.special? d s%"copyright_text" ⊛ tvOpt TvItem.str? d s%"comment" ⊛ tvOpt TvItem.str? d s%"notice" ⊛
    tvList TvItem.str? d s%"contributors" ⊛ tvList TvItem.str? d s%"attribution_texts")

/-- spdx/model/package.py L72-134 -/
def packageArgs : List Str :=
  [s%"spdx_id", s%"name", s%"download_location", s%"version", s%"file_name", s%"supplier", s%"originator", s%"files_analyzed",
   s%"verification_code", s%"checksums", s%"homepage", s%"source_info", s%"license_concluded", s%"license_info_from_files",
   s%"license_declared", s%"license_comment", s%"copyright_text", s%"summary", s%"description", s%"comment", s%"external_references",
   s%"attribution_texts", s%"primary_package_purpose", s%"release_date", s%"built_date", s%"valid_until_date"]

def mkPackage (d : Dict Str TvVal) : Check Package :=
  tvOnly d packageArgs [s%"spdx_id", s%"name", s%"download_location"]
    (.ok Package.mk ⊛ tvReq TvItem.str? d s%"spdx_id" ⊛ tvReq TvItem.str? d s%"name" ⊛
    tvReq TvItem.special? d s%"download_location" ⊛ tvOpt TvItem.str? d s%"version" ⊛ tvOpt TvItem.str? d s%"file_name" ⊛
    tvOpt TvItem.actorNoAssertion? d s%"supplier" ⊛ tvOpt TvItem.actorNoAssertion? d s%"originator" ⊛
    tvDflt TvItem.bool? true d s%"files_analyzed" ⊛ tvOpt TvItem.code? d s%"verification_code" ⊛
    tvList TvItem.checksum? d s%"checksums" ⊛ tvOpt TvItem.special? d s%"homepage" ⊛ tvOpt TvItem.str? d s%"source_info" ⊛
    tvOpt TvItem.lic? d s%"license_concluded" ⊛ tvList TvItem.lic? d s%"license_info_from_files" ⊛
    tvOpt TvItem.lic? d s%"license_declared" ⊛ tvOpt TvItem.str? d s%"license_comment" ⊛ tvOpt TvItem.special? d s%"copyright_text" ⊛
    tvOpt TvItem.str? d s%"summary" ⊛ tvOpt TvItem.str? d s%"description" ⊛ tvOpt TvItem.str? d s%"comment" ⊛
    tvList TvItem.extRef? d s%"external_references" ⊛ tvList TvItem.str? d s%"attribution_texts" ⊛
    tvOpt TvItem.purpose? d s%"primary_package_purpose" ⊛ tvOpt TvItem.date? d s%"release_date" ⊛ tvOpt TvItem.date? d s%"built_date" ⊛
    tvOpt TvItem.date? d s%"valid_until_date")

/-- spdx/model/snippet.py L14-44 -/
def snippetArgs : List Str :=
  [s%"spdx_id", s%"file_spdx_id", s%"byte_range", s%"line_range", s%"license_concluded", s%"license_info_in_snippet", s%"license_comment",
   s%"copyright_text", s%"comment", s%"name", s%"attribution_texts"]

def mkSnippet (d : Dict Str TvVal) : Check Snippet :=
  tvOnly d snippetArgs [s%"spdx_id", s%"file_spdx_id", s%"byte_range"]
    (.ok Snippet.mk ⊛ tvReq TvItem.str? d s%"spdx_id" ⊛ tvReq TvItem.str? d s%"file_spdx_id" ⊛
    tvReq TvItem.range? d s%"byte_range" ⊛ tvOpt TvItem.range? d s%"line_range" ⊛ tvOpt TvItem.lic? d s%"license_concluded" ⊛
    tvList TvItem.lic? d s%"license_info_in_snippet" ⊛ tvOpt TvItem.str? d s%"license_comment" ⊛
    tvOpt TvItem.special? d s%"copyright_text" ⊛ tvOpt TvItem.str? d s%"comment" ⊛ tvOpt TvItem.str? d s%"name" ⊛
    tvList TvItem.str? d s%"attribution_texts")

/-- spdx/model/annotation.py L17-33 -/
def annotationArgs : List Str := [s%"spdx_id", s%"annotation_type", s%"annotator", s%"annotation_date", s%"annotation_comment"]

def mkAnnotation (d : Dict Str TvVal) : Check Annotation :=
  tvOnly d annotationArgs [s%"spdx_id", s%"annotation_type", s%"annotator", s%"annotation_date", s%"annotation_comment"]
    (.ok Annotation.mk ⊛ tvReq TvItem.str? d s%"spdx_id" ⊛ tvReq TvItem.annotationType? d s%"annotation_type" ⊛
    tvReq TvItem.actor? d s%"annotator" ⊛ tvReq TvItem.date? d s%"annotation_date" ⊛ tvReq TvItem.str? d s%"annotation_comment")

/-- spdx/model/relationship.py L61-75 -/
def relationshipArgs : List Str := [s%"spdx_element_id", s%"relationship_type", s%"related_spdx_element_id", s%"comment"]

def mkRelationship (d : Dict Str TvVal) : Check Relationship :=
  tvOnly d relationshipArgs [s%"spdx_element_id", s%"relationship_type", s%"related_spdx_element_id"]
    (.ok Relationship.mk ⊛ tvReq TvItem.str? d s%"spdx_element_id" ⊛
    tvReq TvItem.relationshipType? d s%"relationship_type" ⊛ tvReq TvItem.special? d s%"related_spdx_element_id" ⊛
    tvOpt TvItem.str? d s%"comment")

/-- spdx/model/extracted_licensing_info.py L13-30 -/
def extractedArgs : List Str := [s%"license_id", s%"extracted_text", s%"license_name", s%"cross_references", s%"comment"]

def mkExtracted (d : Dict Str TvVal) : Check ExtractedLicensingInfo :=
  tvOnly d extractedArgs []
    (.ok ExtractedLicensingInfo.mk ⊛ tvOpt TvItem.str? d s%"license_id" ⊛ tvOpt TvItem.str? d s%"extracted_text" ⊛
    tvOpt TvItem.strNoAssertion? d s%"license_name" ⊛ tvList TvItem.str? d s%"cross_references" ⊛ tvOpt TvItem.str? d s%"comment")

/-- parser.py L591-608 `check_for_preceding_package_and_build_contains_relationship` -/
def TvState.addContains (s : TvState) (f : File) : TvState :=
  match s.packages with
  | none => s
  | some ps => match ps.getLast? with
    | none => { s with log := s.log ++ [.text (s%"Error while building contains relationship for file " ++ f.spdxId)] }
    | some p =>
      if ⟨p.spdxId, .CONTAINS, .val f.spdxId, none⟩ ∈ s.relationships then s
      else { s with relationships := s.relationships ++ [⟨p.spdxId, .CONTAINS, .val f.spdxId, none⟩] }

/-- parser.py L579-589: what is built from the current element, or the messages of the exception.  `setdefault` makes the key for the
    packages before the constructor is called. -/
def TvState.build (s : TvState) (c : TvClass) : TvState :=
  if s.elemLog ≠ [] then { s with log := s.log ++ [.wrapped c.name s.elemLog] }
  else match c with
  | .file => match mkFile s.elem with
    | .ok f => TvState.addContains { s with files := s.files ++ [f] } f
    | .error e => { s with log := s.log ++ [.constructing c.name e] }
  | .package => match mkPackage s.elem with
    | .ok p => { s with packages := some (s.packages.getD [] ++ [p]) }
    | .error e => { s with log := s.log ++ [.constructing c.name e], packages := some (s.packages.getD []) }
  | .snippet => match mkSnippet s.elem with
    | .ok x => { s with snippets := s.snippets ++ [x] }
    | .error e => { s with log := s.log ++ [.constructing c.name e] }
  | .annotation => match mkAnnotation s.elem with
    | .ok x => { s with annotations := s.annotations ++ [x] }
    | .error e => { s with log := s.log ++ [.constructing c.name e] }
  | .relationship => match mkRelationship s.elem with
    | .ok x => { s with relationships := s.relationships ++ [x] }
    | .error e => { s with log := s.log ++ [.constructing c.name e] }
  | .extracted => match mkExtracted s.elem with
    | .ok x => { s with extracted := s.extracted ++ [x] }
    | .error e => { s with log := s.log ++ [.constructing c.name e] }

/-- parser.py L573-589 `construct_current_element`; without a class nothing is built and the values stay -/
def TvState.finish (s : TvState) : TvState :=
  match s.cls with
  | none => s
  | some c => { s.build c with cls := none, elemLog := [], elem := [] }

/-- parser.py L559-561 `initialize_new_current_element` -/
def TvState.start (s : TvState) (c : TvClass) : TvState := { s.finish with cls := some c }

/-- parser.py L563-571 `check_that_current_element_matches_class_for_value`, and what follows if it does -/
def TvState.inScope (s : TvState) (c : TvClass) (k : TvState → TvState) : TvState :=
  if s.cls = some c then k s else { s with log := s.log ++ [.text (s%"Element " ++ c.name ++ s%" is not the current element in scope")] }

def TvState.logElem (s : TvState) (m : PMsg) : TvState := { s with elemLog := s.elemLog ++ [m] }
def TvState.logInfo (s : TvState) (m : PMsg) : TvState := { s with infoLog := s.infoLog ++ [m] }

/-- `Multiple values for {tag} found` -/
def multipleMsg (tag : Str) : PMsg := .text (s%"Multiple values for " ++ tag ++ s%" found")

/-- helper_methods.py L53-71 `set_value`, for the current element; the value, or the message of the exception that the method raised -/
def TvState.setElem (s : TvState) (tag : Str) (v : Except PMsg TvItem) : TvState :=
  if (s.elem.get? (propertyName tag)).isSome then s.logElem (multipleMsg tag)
  else match v with
    | .ok x => { s with elem := s.elem.set (propertyName tag) (.one x) }
    | .error m => s.logElem m

/-- helper_methods.py L53-71 `set_value`, for the creation info -/
def TvState.setInfo (s : TvState) (tag : Str) (v : Except PMsg TvItem) : TvState :=
  if (s.info.get? (propertyName tag)).isSome then s.logInfo (multipleMsg tag)
  else match v with
    | .ok x => { s with info := s.info.set (propertyName tag) (.one x) }
    | .error m => s.logInfo m

/-- `d.setdefault(key, []).append(value)`; a key is never used both for a single value and for a list -/
def tvAppend (d : Dict Str TvVal) (k : Str) (x : TvItem) : Dict Str TvVal :=
  match d.get? k with
  | some (.many l) => d.set k (.many (l ++ [x]))
  | some (.one _) => d
  | none => d.set k (.many [x])

def TvState.appendElem (s : TvState) (k : Str) (x : TvItem) : TvState := { s with elem := tvAppend s.elem k x }
def TvState.appendInfo (s : TvState) (k : Str) (x : TvItem) : TvState := { s with info := tvAppend s.info k x }

/-- The text of a value token. -/
def Tok.value : Tok → Str
  | .tag s | .unknown s | .text s | .tool s | .org s | .person s | .date s | .checksum s | .line s => s
  | .noAssertion => s%"NOASSERTION"
  | .none => s%"NONE"
  | .error => s%"Lexer error"

/-- parser.py L215-224 `p_text`, `p_line`: the value of `text_or_line` -/
def textOrLineValue : Tok → Str
  | .text s => strFromText s
  | v => v.value

/-- parser.py L215-235 `p_text`, `p_line`, `p_no_assertion`, `p_none`: the value of `line_or_no_assertion`, `line_or_no_assertion_or_none` -/
def lineOrSpecialValue : Tok → TvItem
  | .text s => .str (strFromText s)
  | .noAssertion => .noAssertion
  | .none => .none
  | v => .str v.value

/-- parser.py L226-245 `p_no_assertion`, `p_none`, `p_license`: the value of `license_or_no_assertion_or_none`, and the message -/
def licenseValue (L : LicText) : Tok → TvItem × Option PMsg
  | .noAssertion => (.noAssertion, none)
  | .none => (.none, none)
  | v => match L.parse v.value with
    | some (some e) => (.lic e, none)
    | some none => (.null, none)
    | none => (.null, some (.invalid s%"license expression" (.str v.value)))

/-- An `SPDXParsingError` of the actor parser. -/
def actorMsg (e : ActorError) : PMsg :=
  .text (match e with
    | .noToolName => s%"No name for Tool provided"
    | .noMatch => s%"doesn't match any of person, organization or tool"
    | .noName => s%"No name for Actor provided")

/-- `set_value` with `ActorParser.parse_actor` -/
def actorItem (s : Str) : Except PMsg TvItem :=
  match parseActor s with
  | .ok a => .ok (.actor a)
  | .error e => .error (actorMsg e)

/-- `set_value` with `datetime_from_str` -/
def dateItem (s : Str) : Except PMsg TvItem :=
  match datetimeFromStr s with
  | some t => .ok (.date t)
  | none => .error (.invalid s%"date" (.str s))

/-- parser.py L286-305 `p_external_document_ref`: the match of `\s*SHA1:\s*[a-f0-9]{40}` at the start of the text without leading white
    space -/
def matchSha1 (s : Str) : Option Str :=
  match dropPrefix? s%"SHA1:" s with
  | some r =>
    let h := r.dropWhile isPySpace
    if (h.take 40).length = 40 ∧ (h.take 40).all isLowerHex then some (s%"SHA1:" ++ r.takeWhile isPySpace ++ h.take 40) else none
  | none => none

/-- Greedy group 1 of `(.*)(\s*SHA1:\s*[a-f0-9]{40})`, and group 2: split at the last place where group 2 matches. -/
def splitSha1 : Str → Option (Str × Str)
  | [] => none
  | c :: r => match splitSha1 r with
    | some (a, b) => some (c :: a, b)
    | none => (matchSha1 (c :: r)).map fun m => ([], m)

/-- parser.py L286-305: the reference, or the message -/
def parseDocRef (s : Str) : Except PMsg ExternalDocumentRef :=
  match splitSha1 s with
  | none => .error (.text s%"Error while parsing ExternalDocumentRef: Couldn't match Checksum")
  | some (g1, g2) => match splitOn ' ' (strip g1), checksumFromTv (strip g2) with
    | [a, b], some c => .ok ⟨a, b, c⟩
    | _, _ => .error (.text s%"Error while parsing ExternalDocumentRef: Couldn't split the first part of the value")

/-- parser.py L364-395 `p_pkg_external_refs` -/
def parseTvExtRef (s : Str) (comment : Option Str) : Except PMsg ExternalPackageRef :=
  match splitOn ' ' s with
  | [cat, ty, loc] => match ExternalPackageRefCategory.ofName? (replaceChar '-' ['_'] cat) with
    | some c => .ok ⟨c, ty, loc, comment⟩
    | none => .error (.invalid s%"ExternalPackageRefCategory" (.str cat))
  | _ => .error (.text s%"Couldn't split PackageExternalRef in category, reference_type and locator")

/-- Group 3 of `\(excludes:\s*(.+)\)` on the text after `(excludes:`: greedy up to the last closing parenthesis.  When there is only
    white space before it, `\s*` leaves the last character. -/
def excludesGroup (s : Str) : Option Str :=
  match splitLast ')' s with
  | none => none
  | some (body, _) => match body.dropWhile isPySpace with
    | [] => body.getLast?.map ([·])
    | g => some g

/-- parser.py L409-430 `p_pkg_verification_code`: the pattern `([0-9a-f]{40})\s*(\(excludes:\s*(.+)\))?` -/
def parseTvCode (s : Str) : Option PackageVerificationCode :=
  if (s.take 40).length = 40 ∧ (s.take 40).all isLowerHex then
    match (dropPrefix? s%"(excludes:" ((s.drop 40).dropWhile isPySpace)).bind excludesGroup with
    | some g => some ⟨s.take 40, splitOn ',' g⟩
    | none => some ⟨s.take 40, []⟩
  else none

/-- parser.py L473-490 `p_snippet_range`: the pattern `^(\d+):(\d+)$` -/
def parseTvRange (s : Str) : Option (Int × Int) :=
  match splitOn ':' (strip s) with
  | [a, b] =>
    if a ≠ [] ∧ b ≠ [] ∧ a.all isPyDigit ∧ b.all isPyDigit then do
      let x ← digitsVal? a
      let y ← digitsVal? b
      some (x, y)
    else none
  | _ => none

/-- `NONE` and `NOASSERTION` in a relationship (parser.py L526-529) -/
def relatedItem (s : Str) : TvItem :=
  if s = s%"NONE" then .none else if s = s%"NOASSERTION" then .noAssertion else .str s

/-- parser.py L511-533 `p_relationship` -/
def TvState.setRelationship (s : TvState) (line : Str) (comment : Option Str) : TvState :=
  match splitOn ' ' line with
  | [a, t, b] =>
    let s := match RelationshipType.ofName? t with
      | some t => { s with elem := s.elem.set s%"relationship_type" (.one (.relationshipType t)) }
      | none => s.logElem (.invalid s%"RelationshipType" (.str t))
    let s := { s with elem := (s.elem.set s%"related_spdx_element_id" (.one (relatedItem b))).set s%"spdx_element_id" (.one (.str a)) }
    match comment with
    | some c => { s with elem := s.elem.set s%"comment" (.one (.str c)) }
    | none => s
  | _ => s.logElem (.text s%"Relationship couldn't be split in spdx_element_id, relationship_type and related_spdx_element")

/-- The tags handled by `p_generic_value` (parser.py L174-206) whose value is not a license or an actor -/
def genericTextTags : List Str :=
  [s%"ExtractedText", s%"LicenseComment", s%"LicenseID", s%"FileName", s%"FileNotice", s%"LicenseComments", s%"FileComment",
   s%"PackageName", s%"PackageDescription", s%"PackageSummary", s%"PackageSourceInfo", s%"PackageComment", s%"PackageFileName",
   s%"PackageVersion", s%"PackageLicenseComments", s%"SnippetSPDXID", s%"SnippetName", s%"SnippetComment", s%"SnippetLicenseComments",
   s%"SnippetFromFileSPDXID", s%"SPDXREF", s%"AnnotationComment"]
def genericSpecialTags : List Str :=
  [s%"LicenseName", s%"FileCopyrightText", s%"PackageHomePage", s%"PackageDownloadLocation", s%"PackageCopyrightText",
   s%"SnippetCopyrightText"]
def genericLicenseTags : List Str :=
  [s%"LicenseConcluded", s%"PackageLicenseDeclared", s%"PackageLicenseConcluded", s%"SnippetLicenseConcluded"]
/-- parser.py L274-280 `p_generic_value_creation_info` -/
def genericInfoTags : List Str :=
  [s%"DocumentComment", s%"DocumentNamespace", s%"DataLicense", s%"SPDXVersion", s%"CreatorComment", s%"DocumentName"]
/-- The tags of the creation info (parser.py L263-272 `p_creation_info_value_error`) -/
def infoTags : List Str :=
  [s%"LicenseListVersion", s%"DocumentComment", s%"DocumentNamespace", s%"DataLicense", s%"DocumentName", s%"ExternalDocumentRef",
   s%"SPDXVersion", s%"CreatorComment", s%"Creator", s%"Created"]

/-- `TAG_DATA_MODEL_FIELD[tag][0]`, for an element's tag -/
def tagClass (tag : Str) : Option TvClass :=
  match tagDataModelField.lookup tag with
  | some (.element c, _) => some c
  | _ => none

/-- parser.py L202-207 `p_generic_value`; a `KeyError` cannot occur, as all its tags are in the table -/
def TvState.generic (s : TvState) (tag : Str) (v : TvItem) : Py TvState :=
  match tagClass tag with
  | none => .error (.other s%"KeyError")
  | some c =>
    let s := if (startTag tag).isSome then s.start c else s
    .ok (s.inScope c fun s => s.setElem tag (.ok v))

/-- The tags whose values are appended to a list of texts, with the class and the list. -/
def textListTags : List (Str × TvClass × Str) :=
  [(s%"LicenseCrossReference", .extracted, s%"cross_references"), (s%"FileContributor", .file, s%"contributors"),
   (s%"FileAttributionText", .file, s%"attribution_texts"), (s%"SnippetAttributionText", .snippet, s%"attribution_texts")]
/-- The same for lists of licenses. -/
def licenseListTags : List (Str × TvClass × Str) :=
  [(s%"LicenseInfoInFile", .file, s%"license_info_in_file"), (s%"PackageLicenseInfoFromFiles", .package, s%"license_info_from_files"),
   (s%"LicenseInfoInSnippet", .snippet, s%"license_info_in_snippet")]

/-- parser.py L350-355 `p_file_checksum`, L402-407 `p_pkg_checksum` -/
def TvState.checksumAttr (s : TvState) (c : TvClass) (v : Str) : Py TvState :=
  if s.cls = some c then
    match checksumFromTv v with
    | some x => .ok (s.appendElem s%"checksums" (.checksum x))
    | none => .error (.value s%"checksum")
  else .ok (s.inScope c id)

/-- The message of `p_license`, logged when the value is reduced. -/
def TvState.logLicense (s : TvState) (m : Option PMsg) : TvState := m.elim s s.logElem

/-- parser.py L174-509: the action for `TAG value`.  The values of the non-terminals are computed first. -/
def TvState.attr (L : LicText) (s : TvState) (tag : Str) (v : Tok) : Py TvState :=
  if tag ∈ genericTextTags then s.generic tag (.str (textOrLineValue v))
  else if tag ∈ genericSpecialTags then s.generic tag (lineOrSpecialValue v)
  else if tag ∈ genericLicenseTags then (s.logLicense (licenseValue L v).2).generic tag (licenseValue L v).1
  else if tag = s%"PackageSupplier" ∨ tag = s%"PackageOriginator" then
    match v with
    | .noAssertion => s.generic tag .noAssertion
    | v => match parseActor v.value with
      | .ok a => s.generic tag (.actor a)
      | .error e => .error (.parsing [actorMsg e])
  else if tag ∈ genericInfoTags then .ok (s.setInfo tag (.ok (.str (textOrLineValue v))))
  else if tag = s%"LicenseListVersion" then
    .ok (s.setInfo tag (match versionFromString v.value with
      | some x => .ok (.version x)
      | none => .error (.invalid tag (.str v.value))))
  else if tag = s%"ExternalDocumentRef" then
    .ok (match parseDocRef v.value with
      | .ok r => s.appendInfo s%"external_document_refs" (.docRef r)
      | .error m => s.logInfo m)
  else if tag = s%"Creator" then
    match parseActor v.value with
    | .ok a => .ok (s.appendInfo s%"creators" (.actor a))
    | .error e => .error (.parsing [actorMsg e])
  else if tag = s%"Created" then .ok (s.setInfo tag (dateItem v.value))
  else if tag = s%"FileType" then
    .ok (s.inScope .file fun s => match FileType.ofName? (strip v.value) with
      | some t => s.appendElem s%"file_types" (.fileType t)
      | none => s.logElem (.invalid tag (.str v.value)))
  else if tag = s%"FileChecksum" then s.checksumAttr .file v.value
  else if tag = s%"PackageChecksum" then s.checksumAttr .package v.value
  else if tag = s%"PackageAttributionText" then
    -- parser.py L359-362: the value is appended whether or not the current element is a package
    .ok ((s.inScope .package id).appendElem s%"attribution_texts" (.str (textOrLineValue v)))
  else if tag = s%"PackageVerificationCode" then
    .ok (s.inScope .package fun s =>
      if (s.elem.get? s%"verification_code").isSome then s.logElem (multipleMsg tag)
      else match parseTvCode v.value with
        | some c => { s with elem := s.elem.set s%"verification_code" (.one (.code c)) }
        | none => s.logElem (.invalid tag (.str v.value)))
  else if tag = s%"FilesAnalyzed" then
    .ok (s.inScope .package fun s =>
      if (s.elem.get? s%"files_analyzed").isSome then s.logElem (multipleMsg tag)
      else if v.value = s%"true" then { s with elem := s.elem.set s%"files_analyzed" (.one (.bool true)) }
      else if v.value = s%"false" then { s with elem := s.elem.set s%"files_analyzed" (.one (.bool false)) }
      else s.logElem (.invalid tag (.str v.value)))
  else if tag = s%"PrimaryPackagePurpose" then
    .ok (s.inScope .package fun s => s.setElem tag (match PackagePurpose.ofName? (replaceChar '-' ['_'] v.value) with
      | some p => .ok (.purpose p)
      | none => .error (.invalid tag (.str v.value))))
  else if tag = s%"BuiltDate" ∨ tag = s%"ReleaseDate" ∨ tag = s%"ValidUntilDate" then
    .ok (s.inScope .package fun s => s.setElem tag (dateItem v.value))
  else if tag = s%"SnippetByteRange" ∨ tag = s%"SnippetLineRange" then
    .ok (s.inScope .snippet fun s =>
      if (s.elem.get? (propertyName tag)).isSome then s.logElem (multipleMsg tag)
      else match parseTvRange v.value with
        | some r => { s with elem := s.elem.set (propertyName tag) (.one (.range r)) }
        | none => s.logElem (.invalid tag (.str v.value)))
  else if tag = s%"Annotator" then .ok ((s.start .annotation).setElem tag (actorItem v.value))
  else if tag = s%"AnnotationDate" then .ok (s.inScope .annotation fun s => s.setElem tag (dateItem v.value))
  else if tag = s%"AnnotationType" then
    .ok (s.inScope .annotation fun s => s.setElem tag (match AnnotationType.ofName? v.value with
      | some t => .ok (.annotationType t)
      | none => .error (.invalid tag (.str v.value))))
  else match textListTags.lookup tag with
  | some (c, k) => .ok (s.inScope c fun s => s.appendElem k (.str (textOrLineValue v)))
  | none => match licenseListTags.lookup tag with
  | some (c, k) => .ok ((s.logLicense (licenseValue L v).2).inScope c fun s => s.appendElem k (licenseValue L v).1)
  | none => .error (.other s%"no rule")

/-- parser.py L133-172 `p_current_element_error` and L263-272 `p_creation_info_value_error`.  `TAG_DATA_MODEL_FIELD` has no entry for
    `Relationship`. -/
def TvState.badAttr (s : TvState) (tag : Str) : Py TvState :=
  if tag ∈ infoTags then .ok (s.logInfo (.text (s%"Error while parsing " ++ tag)))
  else if (startTag tag).isSome then
    match tagClass tag with
    | none => .error (.other s%"KeyError")
    | some c => .ok ((s.start c).logElem (.text (s%"Error while parsing " ++ tag)))
  else .ok (s.logElem (.text (s%"Error while parsing " ++ tag)))

/-- The action of one attribute. -/
def TvState.step (L : LicText) (s : TvState) : TvAttr → Py TvState
  | .value tag v => s.attr L tag v
  | .bad tag => s.badAttr tag
  -- parser.py L251-259 `p_spdx_id`
  | .spdxId v =>
    .ok (if (s.info.get? s%"spdx_id").isSome then { s with elem := s.elem.set s%"spdx_id" (.one (.str v)) }
      else { s with info := s.info.set s%"spdx_id" (.one (.str v)) })
  | .unknown => .ok { s with log := s.log ++ [.text s%"Unknown tag provided"] }
  | .commented tag line comment =>
    if tag = s%"Relationship" then .ok ((s.start .relationship).setRelationship line (comment.map textOrLineValue))
    else .ok (s.inScope .package fun s => match parseTvExtRef line (comment.map textOrLineValue) with
      | .ok r => s.appendElem s%"external_references" (.extRef r)
      | .error m => s.logElem m)

/-- All the attributes in turn. -/
def TvState.run (L : LicText) : TvState → List TvAttr → Py TvState
  | s, [] => .ok s
  | s, a :: as => match s.step L a with
    | .ok s' => s'.run L as
    | .error e => .error e

/-- parser.py L541-557: the end of `Parser.parse`.  (The messages of a logger of an element without a class are not looked at.) -/
def TvState.result (s : TvState) : Py Document :=
  let s := s.finish
  let log := s.log ++ (if s.infoLog = [] then [] else [.wrapped s%"CreationInfo" s.infoLog])
  if log ≠ [] then .error (.parsing log)
  else match construct s%"CreationInfo" (mkInfo s.info) with
    | .ok c => .ok ⟨c, s.packages.getD [], s.files, s.snippets, s.annotations, s.relationships, s.extracted⟩
    | .error e => .error e

/-- parser.py L538-557 `Parser.parse` -/
def parseTagValue (L : LicText) (text : Str) : Py Document :=
  match TvState.run L {} (attrs (lex text)) with
  | .ok s => s.result
  | .error e => .error e

/-- Reading a text file: universal newlines. -/
def universalNewlines : Str → Str
  | [] => []
  | '\r' :: '\n' :: r => '\n' :: universalNewlines r
  | '\r' :: r => '\n' :: universalNewlines r
  | c :: r => c :: universalNewlines r

/-- spdx/parser/tagvalue/tagvalue_parser.py L8-13 `parse_from_file`, of a file with this text -/
def parseTagValueFile (L : LicText) (text : Str) : Py Document := parseTagValue L (universalNewlines text)

end Spdx
