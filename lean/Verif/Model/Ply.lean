import Verif.Model.TagValueLexer
/-
The grammar of spdx/parser/tagvalue/parser.py as it is written down there, how PLY (a library) reads it (ply/yacc.py `parse_grammar`),
and the driver with which PLY runs the tables made from it (ply/yacc.py `parseopt_notrack`). The tables are described in `Spec/Lalr`.
-/
namespace Spdx

/-- The name of a terminal or of a non-terminal -/
abbrev GSym := Str

/-- A production of the grammar, and the method of `Parser` that is called when it is reduced -/
structure Production where
  lhs : GSym
  rhs : List GSym
  handler : Str
deriving DecidableEq

/-- A grammar: the production `S' → start` that PLY adds, and the productions written down. -/
structure Grammar where
  augmented : Production
  rules : List Production
deriving DecidableEq

/-! ## Reading the rules -/

/-- `line.split()`, for lines in which only blanks separate the words -/
def ruleWords (s : Str) : List Str := (splitOn ' ' s).filter (· ≠ [])

/-- ply/yacc.py `parse_grammar`: the lines of one docstring; `last` is the left-hand side a line `| …` belongs to. `none`: the exception
    `SyntaxError`. -/
def parseRuleLines (handler : Str) : Option GSym → List Str → Option (List Production)
  | _, [] => some []
  | last, l :: ls => match ruleWords l with
    | [] => parseRuleLines handler last ls
    | w :: ws =>
      if w = s%"|" then
        match last with
        | some x => (parseRuleLines handler (some x) ls).map (⟨x, ws, handler⟩ :: ·)
        | none => none
      else match ws with
        | c :: ws => if c = s%":" || c = s%"::=" then (parseRuleLines handler (some w) ls).map (⟨w, ws, handler⟩ :: ·) else none
        | [] => none

/-- The productions of all docstrings, in the order of the methods in the file -/
def parseRules : List (Str × List Str) → Option (List Production)
  | [] => some []
  | (handler, doc) :: r => match parseRuleLines handler none (splitOn '\n' doc.flatten), parseRules r with
    | some a, some b => some (a ++ b)
    | _, _ => none

/-- ply/yacc.py `Grammar.set_start`: the start symbol is the left-hand side of the first production. -/
def grammarOf (docs : List (Str × List Str)) : Option Grammar :=
  match parseRules docs with
  | some (p :: ps) => some ⟨⟨s%"S'", [p.lhs], []⟩, p :: ps⟩
  | _ => none

set_option maxRecDepth 10000 in
/-- spdx/parser/tagvalue/parser.py: the methods of `Parser` and the rules given to them by the decorator `grammar_rule`
    (helper_methods.py L23-29), word for word; Python joins adjacent literals -/
def tvRules : List (Str × List Str) :=
  [-- L96
   (s%"p_start_start_attrib",
      [s%"start : start attrib "]),
   -- L100
   (s%"p_start_attrib",
      [s%"start : attrib "]),
   -- L104-128
   (s%"p_attrib",
      [s%"attrib : spdx_version\n| spdx_id\n| data_license\n| doc_name\n| document_comment\n| document_namespace\n| ",
       s%"creator\n| created\n| creator_comment\n| license_list_version\n| ext_doc_ref\n",
       s%"| file_name\n| file_type\n| file_checksum\n| file_license_concluded\n| file_license_info\n",
       s%"| file_copyright_text\n| file_license_comment\n| file_attribution_text\n| file_notice\n| file_comment\n",
       s%"| file_contributor\n",
       s%"| annotator\n| annotation_date\n| annotation_comment\n| annotation_type\n| annotation_spdx_id\n",
       s%"| relationship\n",
       s%"| snippet_spdx_id\n| snippet_name\n| snippet_comment\n| snippet_attribution_text\n| snippet_copyright_text\n",
       s%"| snippet_license_comment\n| file_spdx_id\n| snippet_license_concluded\n| snippet_license_info\n",
       s%"| snippet_byte_range\n| snippet_line_range\n",
       s%"| package_name\n| package_version\n| download_location\n| files_analyzed\n| homepage\n",
       s%"| summary\n| source_info\n| pkg_file_name\n| supplier\n| originator\n| pkg_checksum\n",
       s%"| verification_code\n| description\n| pkg_comment\n| pkg_attribution_text\n| pkg_license_declared\n",
       s%"| pkg_license_concluded\n| pkg_license_info\n| pkg_license_comment\n| pkg_copyright_text\n",
       s%"| pkg_external_ref\n| primary_package_purpose\n| built_date\n| release_date\n| valid_until_date\n",
       s%"| license_id\n| extracted_text\n| license_name\n| license_cross_ref\n| lic_comment\n",
       s%"| unknown_tag "]),
   -- L133-166
   (s%"p_current_element_error",
      [s%"license_id : LICENSE_ID error\n license_cross_ref : LICENSE_CROSS_REF error\n ",
       s%"lic_comment : LICENSE_COMMENT error\n license_name : LICENSE_NAME error\n ",
       s%"extracted_text : LICENSE_TEXT error\n ",
       s%"file_name : FILE_NAME error\n file_contributor : FILE_CONTRIBUTOR error\n ",
       s%"file_notice : FILE_NOTICE error\n file_copyright_text : FILE_COPYRIGHT_TEXT error\n ",
       s%"file_license_comment : FILE_LICENSE_COMMENT error\n ",
       s%"file_license_info : FILE_LICENSE_INFO error\n file_comment : FILE_COMMENT error\n ",
       s%"file_checksum : FILE_CHECKSUM error\n file_license_concluded : FILE_LICENSE_CONCLUDED error\n ",
       s%"file_type : FILE_TYPE error\n file_attribution_text : FILE_ATTRIBUTION_TEXT error\n ",
       s%"package_name : PKG_NAME error\n pkg_attribution_text : PKG_ATTRIBUTION_TEXT error\n ",
       s%"description : PKG_DESCRIPTION error\n pkg_comment : PKG_COMMENT error\n ",
       s%"summary : PKG_SUMMARY error\n pkg_copyright_text : PKG_COPYRIGHT_TEXT error\n ",
       s%"pkg_external_ref : PKG_EXTERNAL_REF error\n pkg_license_comment : PKG_LICENSE_COMMENT error\n ",
       s%"pkg_license_declared : PKG_LICENSE_DECLARED error\n pkg_license_info : PKG_LICENSE_INFO error \n ",
       s%"pkg_license_concluded : PKG_LICENSE_CONCLUDED error\n source_info : PKG_SOURCE_INFO error\n ",
       s%"homepage : PKG_HOMEPAGE error\n pkg_checksum : PKG_CHECKSUM error\n ",
       s%"verification_code : PKG_VERIFICATION_CODE error\n originator : PKG_ORIGINATOR error\n ",
       s%"download_location : PKG_DOWNLOAD_LOCATION error\n files_analyzed : PKG_FILES_ANALYZED error\n ",
       s%"supplier : PKG_SUPPLIER error\n pkg_file_name : PKG_FILE_NAME error\n ",
       s%"package_version : PKG_VERSION error\n primary_package_purpose : PRIMARY_PACKAGE_PURPOSE error\n ",
       s%"built_date : BUILT_DATE error\n release_date : RELEASE_DATE error\n ",
       s%"valid_until_date : VALID_UNTIL_DATE error\n snippet_spdx_id : SNIPPET_SPDX_ID error\n ",
       s%"snippet_name : SNIPPET_NAME error\n snippet_comment : SNIPPET_COMMENT error\n ",
       s%"snippet_attribution_text : SNIPPET_ATTRIBUTION_TEXT error\n ",
       s%"snippet_copyright_text : SNIPPET_COPYRIGHT_TEXT error\n ",
       s%"snippet_license_comment : SNIPPET_LICENSE_COMMENT error\n file_spdx_id : SNIPPET_FILE_SPDXID error\n ",
       s%"snippet_license_concluded : SNIPPET_LICENSE_CONCLUDED error\n ",
       s%"snippet_license_info : SNIPPET_LICENSE_INFO error\n ",
       s%"snippet_byte_range : SNIPPET_BYTE_RANGE error\n snippet_line_range : SNIPPET_LINE_RANGE error\n ",
       s%"annotator : ANNOTATOR error\n annotation_date : ANNOTATION_DATE error\n ",
       s%"annotation_comment : ANNOTATION_COMMENT error\n annotation_type : ANNOTATION_TYPE error\n ",
       s%"annotation_spdx_id : ANNOTATION_SPDX_ID error\n relationship : RELATIONSHIP error"]),
   -- L174-201
   (s%"p_generic_value",
      [s%"license_name : LICENSE_NAME line_or_no_assertion\n extracted_text : LICENSE_TEXT text_or_line\n ",
       s%"lic_comment : LICENSE_COMMENT text_or_line\n license_id : LICENSE_ID LINE\n ",
       s%"file_name : FILE_NAME LINE \n file_notice : FILE_NOTICE text_or_line\n ",
       s%"file_copyright_text : FILE_COPYRIGHT_TEXT line_or_no_assertion_or_none\n ",
       s%"file_license_comment : FILE_LICENSE_COMMENT text_or_line\n ",
       s%"file_comment : FILE_COMMENT text_or_line\n ",
       s%"file_license_concluded : FILE_LICENSE_CONCLUDED license_or_no_assertion_or_none\n ",
       s%"package_name : PKG_NAME LINE\n description : PKG_DESCRIPTION text_or_line\n ",
       s%"summary : PKG_SUMMARY text_or_line\n source_info : PKG_SOURCE_INFO text_or_line\n ",
       s%"homepage : PKG_HOMEPAGE line_or_no_assertion_or_none\n ",
       s%"download_location : PKG_DOWNLOAD_LOCATION line_or_no_assertion_or_none\n ",
       s%"originator : PKG_ORIGINATOR actor_or_no_assertion\n supplier : PKG_SUPPLIER actor_or_no_assertion\n ",
       s%"pkg_comment : PKG_COMMENT text_or_line\n ",
       s%"pkg_copyright_text : PKG_COPYRIGHT_TEXT line_or_no_assertion_or_none\n ",
       s%"pkg_license_declared : PKG_LICENSE_DECLARED license_or_no_assertion_or_none\n ",
       s%"pkg_file_name : PKG_FILE_NAME LINE\n ",
       s%"pkg_license_concluded : PKG_LICENSE_CONCLUDED license_or_no_assertion_or_none\n ",
       s%"package_version : PKG_VERSION LINE\n pkg_license_comment : PKG_LICENSE_COMMENT text_or_line\n ",
       s%"snippet_spdx_id : SNIPPET_SPDX_ID LINE\n snippet_name : SNIPPET_NAME LINE\n ",
       s%"snippet_comment : SNIPPET_COMMENT text_or_line\n ",
       s%"snippet_copyright_text : SNIPPET_COPYRIGHT_TEXT line_or_no_assertion_or_none\n ",
       s%"snippet_license_comment : SNIPPET_LICENSE_COMMENT text_or_line\n ",
       s%"file_spdx_id : SNIPPET_FILE_SPDXID LINE\n ",
       s%"snippet_license_concluded : SNIPPET_LICENSE_CONCLUDED license_or_no_assertion_or_none\n ",
       s%"annotation_spdx_id : ANNOTATION_SPDX_ID LINE\n ",
       s%"annotation_comment : ANNOTATION_COMMENT text_or_line"]),
   -- L208-211
   (s%"p_unknown_tag",
      [s%"unknown_tag : UNKNOWN_TAG text_or_line\n | UNKNOWN_TAG ISO8601_DATE\n | UNKNOWN_TAG PERSON_VALUE \n",
       s%"| UNKNOWN_TAG"]),
   -- L215
   (s%"p_text",
      [s%"text_or_line : TEXT\n line_or_no_assertion_or_none : TEXT"]),
   -- L219-222
   (s%"p_line",
      [s%"text_or_line : LINE\n line_or_no_assertion : LINE\nline_or_no_assertion_or_none : LINE\n",
       s%"text_or_line : NO_ASSERTION\n text_or_line : NONE"]),
   -- L226-229
   (s%"p_no_assertion",
      [s%"license_or_no_assertion_or_none : NO_ASSERTION\n actor_or_no_assertion : NO_ASSERTION\n",
       s%"line_or_no_assertion : NO_ASSERTION\n line_or_no_assertion_or_none : NO_ASSERTION"]),
   -- L233
   (s%"p_none",
      [s%"license_or_no_assertion_or_none : NONE\n line_or_no_assertion_or_none : NONE"]),
   -- L237
   (s%"p_license",
      [s%"license_or_no_assertion_or_none : LINE"]),
   -- L247
   (s%"p_actor_values",
      [s%"actor_or_no_assertion : PERSON_VALUE\n | ORGANIZATION_VALUE"]),
   -- L251
   (s%"p_spdx_id",
      [s%"spdx_id : SPDX_ID LINE"]),
   -- L263-268
   (s%"p_creation_info_value_error",
      [s%"license_list_version : LICENSE_LIST_VERSION error\n document_comment : DOC_COMMENT error\n ",
       s%"document_namespace : DOC_NAMESPACE error\n data_license : DOC_LICENSE error\n ",
       s%"doc_name : DOC_NAME error\n ext_doc_ref : EXT_DOC_REF error\n spdx_version : DOC_VERSION error\n ",
       s%"creator_comment : CREATOR_COMMENT error\n creator : CREATOR error\n created : CREATED error"]),
   -- L274-278
   (s%"p_generic_value_creation_info",
      [s%"document_comment : DOC_COMMENT text_or_line\n document_namespace : DOC_NAMESPACE LINE\n ",
       s%"data_license : DOC_LICENSE LINE\n spdx_version : DOC_VERSION LINE\n ",
       s%"creator_comment : CREATOR_COMMENT text_or_line\n doc_name : DOC_NAME LINE"]),
   -- L282
   (s%"p_license_list_version",
      [s%"license_list_version : LICENSE_LIST_VERSION LINE"]),
   -- L286
   (s%"p_external_document_ref",
      [s%"ext_doc_ref : EXT_DOC_REF LINE"]),
   -- L307
   (s%"p_creator",
      [s%"creator : CREATOR PERSON_VALUE\n| CREATOR TOOL_VALUE\n| CREATOR ORGANIZATION_VALUE"]),
   -- L311
   (s%"p_created",
      [s%"created : CREATED ISO8601_DATE"]),
   -- L317
   (s%"p_extracted_cross_reference",
      [s%"license_cross_ref : LICENSE_CROSS_REF LINE"]),
   -- L324
   (s%"p_file_contributor",
      [s%"file_contributor : FILE_CONTRIBUTOR LINE"]),
   -- L329
   (s%"p_file_attribution_text",
      [s%"file_attribution_text : FILE_ATTRIBUTION_TEXT text_or_line"]),
   -- L334
   (s%"p_file_license_info",
      [s%"file_license_info : FILE_LICENSE_INFO license_or_no_assertion_or_none"]),
   -- L339
   (s%"p_file_type",
      [s%"file_type : FILE_TYPE LINE"]),
   -- L350
   (s%"p_file_checksum",
      [s%"file_checksum : FILE_CHECKSUM CHECKSUM"]),
   -- L359
   (s%"p_pkg_attribution_text",
      [s%"pkg_attribution_text : PKG_ATTRIBUTION_TEXT text_or_line"]),
   -- L364-366
   (s%"p_pkg_external_refs",
      [s%"pkg_external_ref : PKG_EXTERNAL_REF LINE PKG_EXTERNAL_REF_COMMENT text_or_line\n | PKG_EXTERNAL_REF LINE"]),
   -- L397
   (s%"p_pkg_license_info_from_file",
      [s%"pkg_license_info : PKG_LICENSE_INFO license_or_no_assertion_or_none"]),
   -- L402
   (s%"p_pkg_checksum",
      [s%"pkg_checksum : PKG_CHECKSUM CHECKSUM"]),
   -- L409
   (s%"p_pkg_verification_code",
      [s%"verification_code : PKG_VERIFICATION_CODE LINE"]),
   -- L432
   (s%"p_pkg_files_analyzed",
      [s%"files_analyzed : PKG_FILES_ANALYZED LINE"]),
   -- L448
   (s%"p_primary_package_purpose",
      [s%"primary_package_purpose : PRIMARY_PACKAGE_PURPOSE LINE"]),
   -- L453-456
   (s%"p_package_dates",
      [s%"built_date : BUILT_DATE ISO8601_DATE\n release_date : RELEASE_DATE ISO8601_DATE\n ",
       s%"valid_until_date : VALID_UNTIL_DATE ISO8601_DATE"]),
   -- L463
   (s%"p_snippet_attribution_text",
      [s%"snippet_attribution_text : SNIPPET_ATTRIBUTION_TEXT text_or_line"]),
   -- L468
   (s%"p_snippet_license_info",
      [s%"snippet_license_info : SNIPPET_LICENSE_INFO license_or_no_assertion_or_none"]),
   -- L473
   (s%"p_snippet_range",
      [s%"snippet_byte_range : SNIPPET_BYTE_RANGE LINE\n snippet_line_range : SNIPPET_LINE_RANGE LINE"]),
   -- L494
   (s%"p_annotator",
      [s%"annotator : ANNOTATOR PERSON_VALUE\n| ANNOTATOR TOOL_VALUE\n| ANNOTATOR ORGANIZATION_VALUE"]),
   -- L499
   (s%"p_annotation_date",
      [s%"annotation_date : ANNOTATION_DATE ISO8601_DATE"]),
   -- L504
   (s%"p_annotation_type",
      [s%"annotation_type : ANNOTATION_TYPE LINE"]),
   -- L511
   (s%"p_relationship",
      [s%"relationship : RELATIONSHIP LINE RELATIONSHIP_COMMENT text_or_line\n ",
       s%"| RELATIONSHIP LINE"])]

/-! ## Tokens -/

/-- lexer.py L19-102 `SPDXLexer.reserved` -/
def reservedTypes : List (Str × GSym) :=
  [(s%"SPDXVersion", s%"DOC_VERSION"), (s%"DataLicense", s%"DOC_LICENSE"), (s%"DocumentName", s%"DOC_NAME"), (s%"SPDXID", s%"SPDX_ID"),
   (s%"DocumentComment", s%"DOC_COMMENT"), (s%"DocumentNamespace", s%"DOC_NAMESPACE"), (s%"ExternalDocumentRef", s%"EXT_DOC_REF"),
   (s%"Creator", s%"CREATOR"), (s%"Created", s%"CREATED"), (s%"CreatorComment", s%"CREATOR_COMMENT"),
   (s%"LicenseListVersion", s%"LICENSE_LIST_VERSION"), (s%"Annotator", s%"ANNOTATOR"), (s%"AnnotationDate", s%"ANNOTATION_DATE"),
   (s%"AnnotationComment", s%"ANNOTATION_COMMENT"), (s%"AnnotationType", s%"ANNOTATION_TYPE"), (s%"SPDXREF", s%"ANNOTATION_SPDX_ID"),
   (s%"Relationship", s%"RELATIONSHIP"), (s%"RelationshipComment", s%"RELATIONSHIP_COMMENT"), (s%"PackageName", s%"PKG_NAME"),
   (s%"PackageVersion", s%"PKG_VERSION"), (s%"PackageDownloadLocation", s%"PKG_DOWNLOAD_LOCATION"),
   (s%"FilesAnalyzed", s%"PKG_FILES_ANALYZED"), (s%"PackageSummary", s%"PKG_SUMMARY"), (s%"PackageSourceInfo", s%"PKG_SOURCE_INFO"),
   (s%"PackageFileName", s%"PKG_FILE_NAME"), (s%"PackageSupplier", s%"PKG_SUPPLIER"), (s%"PackageOriginator", s%"PKG_ORIGINATOR"),
   (s%"PackageChecksum", s%"PKG_CHECKSUM"), (s%"PackageVerificationCode", s%"PKG_VERIFICATION_CODE"),
   (s%"PackageDescription", s%"PKG_DESCRIPTION"), (s%"PackageComment", s%"PKG_COMMENT"),
   (s%"PackageLicenseDeclared", s%"PKG_LICENSE_DECLARED"), (s%"PackageLicenseConcluded", s%"PKG_LICENSE_CONCLUDED"),
   (s%"PackageLicenseInfoFromFiles", s%"PKG_LICENSE_INFO"), (s%"PackageLicenseComments", s%"PKG_LICENSE_COMMENT"),
   (s%"PackageCopyrightText", s%"PKG_COPYRIGHT_TEXT"), (s%"PackageHomePage", s%"PKG_HOMEPAGE"),
   (s%"ExternalRef", s%"PKG_EXTERNAL_REF"), (s%"ExternalRefComment", s%"PKG_EXTERNAL_REF_COMMENT"),
   (s%"PackageAttributionText", s%"PKG_ATTRIBUTION_TEXT"), (s%"PrimaryPackagePurpose", s%"PRIMARY_PACKAGE_PURPOSE"),
   (s%"BuiltDate", s%"BUILT_DATE"), (s%"ReleaseDate", s%"RELEASE_DATE"), (s%"ValidUntilDate", s%"VALID_UNTIL_DATE"),
   (s%"FileName", s%"FILE_NAME"), (s%"FileType", s%"FILE_TYPE"), (s%"FileChecksum", s%"FILE_CHECKSUM"),
   (s%"LicenseConcluded", s%"FILE_LICENSE_CONCLUDED"), (s%"LicenseInfoInFile", s%"FILE_LICENSE_INFO"),
   (s%"FileCopyrightText", s%"FILE_COPYRIGHT_TEXT"), (s%"LicenseComments", s%"FILE_LICENSE_COMMENT"),
   (s%"FileComment", s%"FILE_COMMENT"), (s%"FileNotice", s%"FILE_NOTICE"), (s%"FileContributor", s%"FILE_CONTRIBUTOR"),
   (s%"FileAttributionText", s%"FILE_ATTRIBUTION_TEXT"), (s%"LicenseID", s%"LICENSE_ID"), (s%"ExtractedText", s%"LICENSE_TEXT"),
   (s%"LicenseName", s%"LICENSE_NAME"), (s%"LicenseCrossReference", s%"LICENSE_CROSS_REF"), (s%"LicenseComment", s%"LICENSE_COMMENT"),
   (s%"SnippetSPDXID", s%"SNIPPET_SPDX_ID"), (s%"SnippetName", s%"SNIPPET_NAME"), (s%"SnippetComment", s%"SNIPPET_COMMENT"),
   (s%"SnippetCopyrightText", s%"SNIPPET_COPYRIGHT_TEXT"), (s%"SnippetLicenseComments", s%"SNIPPET_LICENSE_COMMENT"),
   (s%"SnippetFromFileSPDXID", s%"SNIPPET_FILE_SPDXID"), (s%"SnippetLicenseConcluded", s%"SNIPPET_LICENSE_CONCLUDED"),
   (s%"LicenseInfoInSnippet", s%"SNIPPET_LICENSE_INFO"), (s%"SnippetAttributionText", s%"SNIPPET_ATTRIBUTION_TEXT"),
   (s%"SnippetByteRange", s%"SNIPPET_BYTE_RANGE"), (s%"SnippetLineRange", s%"SNIPPET_LINE_RANGE"), (s%"NOASSERTION", s%"NO_ASSERTION"),
   (s%"NONE", s%"NONE")]

/-- The type of a token. (A `tag` holds a reserved word, see `reservedTok`; there are no others.) -/
def Tok.type : Tok → GSym
  | .tag w => (reservedTypes.lookup w).getD []
  | .unknown _ => s%"UNKNOWN_TAG"
  | .text _ => s%"TEXT"
  | .tool _ => s%"TOOL_VALUE"
  | .org _ => s%"ORGANIZATION_VALUE"
  | .person _ => s%"PERSON_VALUE"
  | .date _ => s%"ISO8601_DATE"
  | .checksum _ => s%"CHECKSUM"
  | .line _ => s%"LINE"
  | .noAssertion => s%"NO_ASSERTION"
  | .none => s%"NONE"
  | .error => s%"error"

/-! ## The driver -/

/-- An entry of the action table -/
inductive PlyAct where
  | shift
  | reduce (p : Production)
  | accept
deriving DecidableEq

/-- The tables. PLY numbers the states; here a state is given by the symbols on the stack that lead to it, the bottom first. -/
structure PlyTables where
  action : List GSym → GSym → Option PlyAct
  /-- ply/yacc.py `LRParser.set_defaulted_states`: the states that are left without looking at the next token -/
  defaulted : List GSym → Option Production

/-- A look-ahead symbol: a token, the end of the text (`$end`), or the symbol `error` made up by the driver -/
inductive PlyLook where
  | tok (t : Tok)
  | fin
  | err
deriving DecidableEq

def PlyLook.type : PlyLook → GSym
  | .tok t => t.type
  | .fin => s%"$end"
  | .err => s%"error"

/-- The tokens a symbol stands for -/
def PlyLook.yield : PlyLook → List Tok
  | .tok t => [t]
  | _ => []

/-- The variables of the driver. `stack`: the symbols and the tokens they stand for, the top first, without the `$end` at the bottom;
    `out`: the reductions so far. -/
structure PlyState where
  stack : List (GSym × List Tok) := []
  look : Option PlyLook := none
  pushed : List PlyLook := []
  input : List Tok
  out : List (Production × List Tok) := []

/-- The state on top of the stack of states -/
def PlyState.state (s : PlyState) : List GSym := (s.stack.map (·.1)).reverse

/-- The tokens of the topmost `n` symbols -/
def topYield (n : Nat) (stack : List (GSym × List Tok)) : List Tok := (stack.take n).reverse.flatMap (·.2)

/-- `parseopt_notrack`: a reduction. (The call of the production's method is recorded in `out`.) -/
def PlyState.reduce (s : PlyState) (p : Production) : PlyState :=
  { s with stack := (p.lhs, topYield p.rhs.length s.stack) :: s.stack.drop p.rhs.length,
           out := s.out ++ [(p, topYield p.rhs.length s.stack)] }

inductive PlyNext where
  | go (s : PlyState)
  | done (out : List (Production × List Tok))

/-- `parseopt_notrack`, when there is no entry for the look-ahead symbol `l`. (`errorcount` only decides whether `p_error` is called,
    which does nothing: parser.py L535-536.) -/
def plyError (s : PlyState) (l : PlyLook) : PlyNext :=
  match s.stack with
  | [] => if l = .fin then .done s.out else .go { s with look := none, pushed := [] }
  | (x, _) :: r =>
    if l = .fin then .done s.out
    else if l.type = s%"error" then .go { s with stack := r }
    else if x = s%"error" then .go { s with look := none }
    else .go { s with look := some .err, pushed := l :: s.pushed }

/-- `parseopt_notrack`: one round of the loop; reading the next token is a round of its own. -/
def plyStep (T : PlyTables) (s : PlyState) : PlyNext :=
  match T.defaulted s.state with
  | some p => .go (s.reduce p)
  | none => match s.look with
    | none => match s.pushed with
      | l :: ls => .go { s with look := some l, pushed := ls }
      | [] => match s.input with
        | t :: r => .go { s with look := some (.tok t), input := r }
        | [] => .go { s with look := some .fin }
    | some l => match T.action s.state l.type with
      | some .shift => .go { s with stack := (l.type, l.yield) :: s.stack, look := none }
      | some (.reduce p) => .go (s.reduce p)
      | some .accept => .done s.out
      | none => plyError s l

/-- The run of the driver from a state ends, with these reductions. -/
inductive PlyRuns (T : PlyTables) : PlyState → List (Production × List Tok) → Prop where
  | done {s : PlyState} {out : List (Production × List Tok)} : plyStep T s = .done out → PlyRuns T s out
  | go {s s' : PlyState} {out : List (Production × List Tok)} : plyStep T s = .go s' → PlyRuns T s' out → PlyRuns T s out

end Spdx
