{"id": "C01", "title": "Format dispatch by file name", "statement": "The file name alone selects exactly one of the five supported formats by its suffix, for reading and for writing; any other name is rejected with a parsing error and never silently read as some format. A name ending in .rdf.xml is RDF, not XML.", "quantifier": "every file name", "why_tests_cant": "File names are unbounded strings with overlapping suffixes (.xml / .rdf.xml); tests try one name per format.", "anchors": ["src/spdx_tools/spdx/formats.py:file_name_to_format"]}
{"id": "C02", "title": "JSON/RDF names of fields and enum members are unambiguous", "statement": "The snake-case to camelCase conversion that produces JSON property names and RDF enum names is injective on every table the tool uses, and converting the produced name back gives the original name; in general the two conversions are mutually inverse on snake names whose words start with a letter and whose inner words have at least two letters.", "quantifier": "every snake_case name with the stated shape, and every member of every enum table", "why_tests_cant": "The general law quantifies over all names; the tables are finite but only a few members are exercised by tests.", "anchors": ["src/spdx_tools/spdx/casing_tools.py:snake_case_to_camel_case", "src/spdx_tools/spdx/casing_tools.py:camel_case_to_snake_case"]}
{"id": "C03", "title": "Timestamps survive writing and reading", "statement": "Writing any timestamp and reading the text back gives the same instant truncated to whole seconds and expressed in UTC; the written text always has the SPDX form YYYY-MM-DDThh:mm:ssZ, and two timestamps get the same text only if they denote the same second. The timestamps that can be read are exactly those on the Gregorian calendar.", "quantifier": "every valid date and time, naive or with any UTC offset", "why_tests_cant": "Unbounded calendar; tests check two or three dates.", "anchors": ["src/spdx_tools/spdx/datetime_conversions.py:datetime_to_iso_string", "src/spdx_tools/spdx/datetime_conversions.py:datetime_from_str"]}
{"id": "C04", "title": "License-list version text round-trips", "statement": "A version prints as major.minor and reading that text gives back the version; text that is not two dot-separated decimal numbers is rejected.", "quantifier": "all pairs of naturals and all strings", "why_tests_cant": "Unbounded numbers and strings.", "anchors": ["src/spdx_tools/spdx/model/version.py:Version"]}
{"id": "C05", "title": "Creator/annotator text round-trips", "statement": "Writing a person, organization or tool as text and reading the text back gives the same actor, whenever its name and e-mail contain no parentheses and no surrounding blanks; text that is no actor is rejected with an error.", "quantifier": "every actor with such a name and e-mail; every string for rejection", "why_tests_cant": "Unbounded strings; parenthesis and whitespace corner cases decide whether the grammar is ambiguous.", "anchors": ["src/spdx_tools/spdx/model/actor.py:Actor.to_serialized_string", "src/spdx_tools/spdx/parser/actor_parser.py:ActorParser.parse_actor"]}
{"id": "C06", "title": "Checksum algorithm names round-trip in all formats", "statement": "In each of tag-value, JSON/YAML/XML and RDF, the name written for a checksum algorithm is read back as the same algorithm, so distinct algorithms never share a written name.", "quantifier": "all 17 algorithms, each format", "why_tests_cant": "Tables in the writers and in the readers are maintained separately; a test per algorithm and format is missing.", "anchors": ["src/spdx_tools/spdx/jsonschema/checksum_converter.py:algorithm_to_json_string", "src/spdx_tools/spdx/parser/jsonlikedict/checksum_parser.py", "src/spdx_tools/spdx/parser/rdf/checksum_parser.py:convert_rdf_to_algorithm", "src/spdx_tools/spdx/writer/rdf/checksum_writer.py:algorithm_to_rdf_string", "src/spdx_tools/spdx/writer/tagvalue/checksum_writer.py", "src/spdx_tools/spdx/parser/tagvalue/helper_methods.py:parse_checksum"]}
{"id": "C07", "title": "Checksum validation decides exactly the documented digests", "statement": "Validating a checksum yields no message exactly when the value is a string of lowercase hex digits whose length is the one the algorithm prescribes and, for SPDX-2.2, the algorithm exists in 2.2.", "quantifier": "every algorithm, every string value, every SPDX version text", "why_tests_cant": "All strings; off-by-one in lengths, upper case, trailing newline.", "anchors": ["src/spdx_tools/spdx/validation/checksum_validator.py:validate_checksum"]}
{"id": "C08", "title": "Identifier validation is exact", "statement": "Validating an identifier yields no message exactly when it is SPDXRef- followed by letters, digits, dots and hyphens, or DocumentRef-...:SPDXRef-... whose document reference is declared by the document, and (where required) the internal part names an element (or a file) of the document.", "quantifier": "every string and every document", "why_tests_cant": "All strings and all documents; number of colons, missing parts, empty parts.", "anchors": ["src/spdx_tools/spdx/validation/spdx_id_validators.py"]}
{"id": "C09", "title": "Duplicate identifiers are always reported", "statement": "Full validation reports the duplicate-identifier problem exactly when two elements of the document share an identifier.", "quantifier": "every document", "why_tests_cant": "All lists of elements of any length and order.", "anchors": ["src/spdx_tools/spdx/validation/document_validator.py:validate_full_spdx_document", "src/spdx_tools/spdx/document_utils.py:get_contained_spdx_element_ids"]}
{"id": "C10", "title": "Unsupported or mismatched version cancels validation", "statement": "If the document's version is not SPDX-2.2 or SPDX-2.3, or differs from the version asked for, validation reports exactly that and that it was cancelled, and nothing else; otherwise every part of the document is validated.", "quantifier": "every document, every version argument", "why_tests_cant": "All combinations of version strings.", "anchors": ["src/spdx_tools/spdx/validation/document_validator.py:validate_full_spdx_document"]}
{"id": "C11", "title": "A valid document describes something", "statement": "A document that validates without messages has a DESCRIBES relationship starting at the document or a DESCRIBED_BY relationship ending at it, unless it consists of exactly one package and no files or snippets.", "quantifier": "every document", "why_tests_cant": "All relationship lists.", "anchors": ["src/spdx_tools/spdx/validation/document_validator.py", "src/spdx_tools/spdx/model/relationship_filters.py"]}
{"id": "C12", "title": "References of a valid document resolve", "statement": "In a document that validates without messages, every relationship end, every annotation target and every snippet's file refers to the document itself, to an element (file) contained in it, or to an element of a declared external document; element identifiers are pairwise distinct.", "quantifier": "every document", "why_tests_cant": "Quantifies over all documents and all references in them.", "anchors": ["src/spdx_tools/spdx/validation/document_validator.py", "src/spdx_tools/spdx/validation/relationship_validator.py", "src/spdx_tools/spdx/validation/annotation_validator.py", "src/spdx_tools/spdx/validation/snippet_validator.py"]}
{"id": "C13", "title": "Packages without file analysis contain no analysis results", "statement": "In a valid document, a package with files_analyzed = False has no verification code, no licenses from files, and no CONTAINS / CONTAINED_BY relationship with a file of the document.", "quantifier": "every document", "why_tests_cant": "Combination of three rules over all relationship lists.", "anchors": ["src/spdx_tools/spdx/validation/package_validator.py:validate_package_within_document"]}
{"id": "C14", "title": "Snippet ranges of valid documents are proper", "statement": "In a valid document every snippet's byte range and line range starts at 1 or later and does not end before it starts.", "quantifier": "every document", "why_tests_cant": "All integers.", "anchors": ["src/spdx_tools/spdx/validation/snippet_validator.py:validate_snippet"]}
{"id": "C15", "title": "SPDX-2.2 validation admits no 2.3-only feature", "statement": "A document that validates as SPDX-2.2 uses no 2.3-only checksum algorithm, external reference type, relationship type, or package field, and has every field that was mandatory in 2.2.", "quantifier": "every document", "why_tests_cant": "The rule is spread over six validators and applies to every element.", "anchors": ["src/spdx_tools/spdx/validation/"]}
{"id": "C16", "title": "Removing duplicates keeps exactly one copy of each entry in order", "statement": "Removing duplicates from a list keeps every entry once, in first-occurrence order, and doing it again changes nothing; for a document every list of every element is treated so, while identifiers, relationships and annotations are untouched.", "quantifier": "all lists; all documents", "why_tests_cant": "Unbounded lists.", "anchors": ["src/spdx_tools/spdx/document_utils.py:create_document_without_duplicates", "src/spdx_tools/spdx/document_utils.py:create_list_without_duplicates"]}
{"id": "C17", "title": "Removing duplicates does not change validity", "statement": "A document validates with no messages exactly when its de-duplicated form does.", "quantifier": "every document", "why_tests_cant": "Interaction of dedup with all validators.", "anchors": ["src/spdx_tools/spdx/document_utils.py", "src/spdx_tools/spdx/validation/document_validator.py", "src/spdx_tools/spdx/writer/write_utils.py"]}
{"id": "C18", "title": "Element lookup is consistent", "statement": "When identifiers are unique, looking up an identifier yields the one element bearing it, and the reported element type is that element's type; for duplicate identifiers the two functions can disagree.", "quantifier": "every document and identifier", "why_tests_cant": "Precedence between files, packages and snippets differs between functions.", "anchors": ["src/spdx_tools/spdx/document_utils.py:get_contained_spdx_elements", "src/spdx_tools/spdx/spdx_element_utils.py:get_element_type_from_spdx_id"]}
{"id": "C19", "title": "Qualified identifiers resolve to the right namespace", "statement": "Resolving an identifier against a document gives namespace#id for local ones, the declared URI of the external document for DocumentRef-x:id, and an error when the reference is undeclared or malformed.", "quantifier": "every identifier, namespace and list of external references", "why_tests_cant": "All strings.", "anchors": ["src/spdx_tools/spdx/spdx_element_utils.py:get_full_element_spdx_id"]}
{"id": "C20", "title": "Package verification code depends only on the set of file digests", "statement": "The verification code does not depend on the order of the files, and uses each file's SHA1 checksum when one is recorded.", "quantifier": "every list of files, every permutation, any hash function", "why_tests_cant": "Quantifies over permutations.", "anchors": ["src/spdx_tools/spdx/spdx_element_utils.py:calculate_package_verification_code"]}
{"id": "C21", "title": "File digests do not depend on the read chunk size", "statement": "Hashing a file in chunks equals hashing the whole content at once.", "quantifier": "every file content and chunk size", "why_tests_cant": "All file sizes around the buffer boundary.", "anchors": ["src/spdx_tools/spdx/spdx_element_utils.py:calculate_file_checksum"]}
{"id": "C22", "title": "Control characters are removed from JSON text values", "statement": "Reading JSON removes every backspace and form feed from every text value at any depth, removes nothing else, and keeps keys, structure and order.", "quantifier": "every JSON tree", "why_tests_cant": "Unbounded nesting.", "anchors": ["src/spdx_tools/spdx/parser/json/json_parser.py:remove_json_control_chars_hook"]}
{"id": "C23", "title": "JSON/YAML/XML documents round-trip", "statement": "Converting a document to its JSON form and parsing that form gives back an equal document (annotations regrouped by element), for documents whose required lists are non-empty and whose texts are not the reserved words.", "quantifier": "every document meeting the stated conditions", "why_tests_cant": "Around seventy fields over unbounded lists of elements.", "anchors": ["src/spdx_tools/spdx/jsonschema/", "src/spdx_tools/spdx/parser/jsonlikedict/"]}
{"id": "C24", "title": "Parsing never drops an error", "statement": "Parsing a JSON-like document succeeds only if every part parses; if any part is faulty an error is raised that contains a message for every faulty list entry, and no partial document is returned.", "quantifier": "every JSON tree", "why_tests_cant": "All combinations of faulty parts.", "anchors": ["src/spdx_tools/spdx/parser/jsonlikedict/json_like_dict_parser.py", "src/spdx_tools/spdx/parser/jsonlikedict/dict_parsing_functions.py"]}
{"id": "C25", "title": "Implicit JSON relationships are completed without duplication", "statement": "Each entry of documentDescribes and each package's hasFiles yields a relationship in the parsed document, unless the same relationship or its inverse is already stated; explicit relationships are kept in order and unchanged.", "quantifier": "every JSON tree's relationship parts", "why_tests_cant": "All combinations of explicit and implicit relationships.", "anchors": ["src/spdx_tools/spdx/parser/jsonlikedict/relationship_parser.py"]}
{"id": "C26", "title": "Invalid documents are not written", "statement": "When validation is requested, writing an invalid document raises an error and produces no document text; without validation, or for a valid document, the de-duplicated document is written. (The file named as target is nevertheless opened first.)", "quantifier": "every document, both flags, every previous file content", "why_tests_cant": "All documents and flag combinations; crash point between open and raise.", "anchors": ["src/spdx_tools/spdx/writer/write_utils.py", "src/spdx_tools/spdx/writer/json/json_writer.py", "src/spdx_tools/spdx/writer/tagvalue/tagvalue_writer.py"]}
{"id": "C27", "title": "Tag-value output mentions every element exactly once", "statement": "Writing tag-value outputs each package, file, snippet, annotation and extracted license exactly once; each relationship is either written explicitly or implied by a file following its package.", "quantifier": "every document with unique identifiers", "why_tests_cant": "All assignments of files to packages and snippets to files.", "anchors": ["src/spdx_tools/spdx/writer/tagvalue/tagvalue_writer.py:write_document", "src/spdx_tools/spdx/writer/tagvalue/tagvalue_writer_helper_functions.py:scan_relationships"]}
{"id": "C28", "title": "Tag-value field encodings round-trip", "statement": "Multi-line text, ranges, checksums, relationships, external references and annotator lines written in tag-value are read back to the same value, on the stated domains.", "quantifier": "every value of each kind", "why_tests_cant": "All strings.", "anchors": ["src/spdx_tools/spdx/writer/tagvalue/", "src/spdx_tools/spdx/parser/tagvalue/"]}
{"id": "C29", "title": "Tag-value reader reports repeated fields", "statement": "Setting a single-valued field twice in one element is always reported and never overwrites the first value.", "quantifier": "every sequence of field assignments", "why_tests_cant": "All sequences.", "anchors": ["src/spdx_tools/spdx/parser/tagvalue/helper_methods.py:set_value"]}
{"id": "C30", "title": "Relationship graph shows every relationship", "statement": "For a document with unique relationship keys, the generated graph contains for each relationship a path element -> relationship node -> related element, a node for the document and for every element, and no other edges.", "quantifier": "every document", "why_tests_cant": "All relationship lists.", "anchors": ["src/spdx_tools/spdx/graph_generation.py:generate_relationship_graph_from_spdx"]}
{"id": "C31", "title": "Migrated SPDX 3 document lists every element", "statement": "After converting to SPDX 3 the document element lists the identifiers of all other elements, each once, and every listed identifier is in the payload.", "quantifier": "every document", "why_tests_cant": "All element lists and creation histories.", "anchors": ["src/spdx_tools/spdx3/bump_from_spdx2/spdx_document.py:bump_spdx_document", "src/spdx_tools/spdx3/payload.py"]}
{"id": "C32", "title": "Migration keeps every element", "statement": "Every package, file and snippet of the source document appears in the SPDX 3 payload under namespace#id, for documents with unique local ids not clashing with generated ones.", "quantifier": "every document", "why_tests_cant": "Generated identifiers (actors, annotations, relationships) could overwrite elements.", "anchors": ["src/spdx_tools/spdx3/bump_from_spdx2/", "src/spdx_tools/spdx3/payload.py"]}
{"id": "C33", "title": "Migration maps every checksum algorithm", "statement": "Every SPDX 2 checksum algorithm maps to an SPDX 3 hash algorithm, keeping the value; only ADLER32 loses its name.", "quantifier": "all algorithms", "why_tests_cant": "Name-based lookup may raise at run time for untested members.", "anchors": ["src/spdx_tools/spdx3/bump_from_spdx2/checksum.py"]}
{"id": "C34", "title": "Migration maps every relationship type", "statement": "Every SPDX 2 relationship type has a migration entry; the direction of the migrated relationship agrees with the type's swap flag.", "quantifier": "all 45 relationship types and all ends", "why_tests_cant": "Table with 45 rows and three shapes.", "anchors": ["src/spdx_tools/spdx3/bump_from_spdx2/relationship.py"]}
{"id": "C35", "title": "Merging migrated relationships keeps every target", "statement": "Relationships with the same source, type and completeness are merged into one whose targets are the concatenation of all targets.", "quantifier": "every list of relationships", "why_tests_cant": "All groupings and orders.", "anchors": ["src/spdx_tools/spdx3/bump_from_spdx2/relationship.py:bump_relationships"]}
{"id": "C36", "title": "Migration preserves license expressions' structure", "statement": "A license expression is migrated to the tree with the same connectives and leaves in the same order; each leaf is a listed license or the document's extracted license.", "quantifier": "every license expression", "why_tests_cant": "Unbounded trees.", "anchors": ["src/spdx_tools/spdx3/bump_from_spdx2/license_expression.py"]}
{"id": "C37", "title": "Migration keeps external references", "statement": "Every external package reference becomes exactly one of package URL, external identifier or external reference; a package URL is set only when there is exactly one purl and it has no comment.", "quantifier": "every list of references", "why_tests_cant": "All combinations of reference types and counts.", "anchors": ["src/spdx_tools/spdx3/bump_from_spdx2/package.py"]}
{"id": "C38", "title": "RDF identifiers round-trip", "statement": "An identifier qualified with its namespace for RDF and read back gives the same identifier.", "quantifier": "every identifier and namespace meeting the stated conditions", "why_tests_cant": "All strings; overlapping namespaces.", "anchors": ["src/spdx_tools/spdx/writer/rdf/writer_utils.py:add_namespace_to_spdx_id", "src/spdx_tools/spdx/parser/rdf/graph_parsing_functions.py:parse_spdx_id"]}
{"id": "C39", "title": "RDF implicit relationships are not duplicated", "statement": "Reading RDF adds the relationships implied by hasFile/describesPackage only when not already present.", "quantifier": "every graph's relationships", "why_tests_cant": "All lists.", "anchors": ["src/spdx_tools/spdx/parser/rdf/rdf_parser.py"]}
{"id": "C40", "title": "RDF enum values round-trip", "statement": "Every enum member written to RDF (file types, purposes, relationship types, annotation types, reference categories) is read back as the same member.", "quantifier": "all members of all enums", "why_tests_cant": "Tables written by two independent code paths.", "anchors": ["src/spdx_tools/spdx/writer/rdf/", "src/spdx_tools/spdx/parser/rdf/graph_parsing_functions.py:parse_enum_value"]}
{"id": "C41", "title": "XML list repair is idempotent and only touches list fields", "statement": "After XML parsing every list-like field is a list; values of other fields are unchanged; applying the repair twice changes nothing more on trees without nested empties.", "quantifier": "every parsed XML tree", "why_tests_cant": "Unbounded nesting.", "anchors": ["src/spdx_tools/spdx/parser/xml/xml_parser.py:_fix_list_like_fields"]}
{"id": "C42", "title": "Command line exit status", "statement": "The command exits with status 0 only when the input parsed, and, unless validation is disabled, validated without messages, and any requested output was produced; otherwise it exits with 1.", "quantifier": "every combination of options and outcomes", "why_tests_cant": "Decision table over all outcomes.", "anchors": ["src/spdx_tools/spdx/clitools/pyspdxtools.py"]}
{"id": "C43", "title": "License expression validation decides membership", "statement": "A license expression validates exactly when every symbol is a known license, an extracted license of the document, or a declared external document's license reference.", "quantifier": "every expression and document", "why_tests_cant": "All expressions.", "anchors": ["src/spdx_tools/spdx/validation/license_expression_validator.py"]}
{"id": "C44", "title": "Constructors report all type errors", "statement": "Constructing a model object reports every wrongly typed argument, and succeeds only if none is.", "quantifier": "every argument tuple", "why_tests_cant": "All subsets of wrong arguments.", "anchors": ["src/spdx_tools/common/typing/type_checks.py"]}
{"id": "C45", "title": "External reference rules form the documented table", "statement": "An external package reference validates exactly per the category/type table and per-type locator syntax.", "quantifier": "every category, type and locator", "why_tests_cant": "All strings.", "anchors": ["src/spdx_tools/spdx/validation/external_package_ref_validator.py"]}
{"id": "C46", "title": "JSON-LD output drops only empty values", "statement": "Converting a payload to JSON-LD keeps every non-empty field under its camelCase name and drops only empty ones.", "quantifier": "every payload tree", "why_tests_cant": "Unbounded nesting.", "anchors": ["src/spdx_tools/spdx3/writer/json_ld/json_ld_converter.py"]}
{"id": "C47", "title": "Validation accepts exactly the documents meeting the listed rules", "statement": "Full validation gives no message exactly when the document meets every rule of a fixed list of rules about its version, creation information, packages, files, snippets, annotations, relationships, extracted licenses, the describes requirement and identifier uniqueness, and the version asked for (if any) is the document's.", "quantifier": "every document, every version argument, every behaviour of the external URI and license libraries", "why_tests_cant": "All combinations of about eighty fields and rules; both directions.", "anchors": ["src/spdx_tools/spdx/validation/"]}
{"id": "C48", "title": "A tag-value document round-trips", "statement": "Writing a document as tag-value does not fail, and reading the written text gives the document again: the same creation information, packages, annotations and extracted licenses in the same order, the same files and snippets possibly in another order, and the same relationships except that those placing a file in a package come back as CONTAINS.", "quantifier": "every document whose identifiers are distinct and whose values are expressible in tag-value (stated conditions), every license text conversion that reads back what it renders", "why_tests_cant": "All documents; the layout moves files and snippets next to their packages and files, so interactions between elements matter; the writer, the lexer, the grammar and the parser are separate code.", "anchors": ["src/spdx_tools/spdx/writer/tagvalue/", "src/spdx_tools/spdx/parser/tagvalue/", "src/spdx_tools/spdx/parser/tagvalue/parser.py:Parser"]}
{"id": "C49", "title": "An RDF document round-trips up to order", "statement": "Writing a document as an RDF graph does not fail, and reading that graph gives the document again up to the order of values, in whatever order the triples are delivered.", "quantifier": "every document meeting the stated conditions (values a set of triples can hold and the reader accepts), every ordering of the written triples, every set of initial prefix bindings that does not clash with the document's references", "why_tests_cant": "All documents; a graph library iterates triples in hash order, so every order must give the same result; writer and reader are separate code, and blank nodes of different elements must not be mixed up.", "anchors": ["src/spdx_tools/spdx/writer/rdf/rdf_writer.py:write_document_to_stream", "src/spdx_tools/spdx/parser/rdf/rdf_parser.py:translate_graph_to_document", "src/spdx_tools/spdx/writer/rdf/", "src/spdx_tools/spdx/parser/rdf/"]}
{"id": "C50", "title": "Reading RDF ignores the names of blank nodes", "statement": "Reading a graph gives the same document, or fails in the same cases, whatever names its blank nodes have.", "quantifier": "every graph in which texts are texts (no blank node is the value of a textual property, an extracted license that is a blank node has an id, the namespace has a colon), every one-to-one renaming of blank nodes; this includes every graph the program writes for a document as in the RDF round trip", "why_tests_cant": "Blank node names are chosen at random by the graph library.", "anchors": ["src/spdx_tools/spdx/parser/rdf/"]}
{"id": "C51", "title": "Tag-value reading reports every faulty line", "statement": "Reading a tag-value text succeeds only if every tag exists, every value is what its tag asks for (a date, a license expression, a known enum member, ...), and every tag of an element stands in an element of its kind.", "quantifier": "every text, every behaviour of the license library", "why_tests_cant": "All texts: messages are collected in four places (document, creation information, current element, finished elements) and must survive every later line.", "anchors": ["src/spdx_tools/spdx/parser/tagvalue/parser.py", "src/spdx_tools/spdx/parser/tagvalue/helper_methods.py"]}
{"id": "C52", "title": "Every element read from tag-value text has the values of its own section", "statement": "Every element of a document read from tag-value text corresponds to one section of the text, in order, and each of its fields is the value given under the field's tag in that section, is absent if the tag is, and the tag is not given twice; the creation information is what the tags of the creation information say; a file is contained in the package before it.", "quantifier": "every text with one SPDXID before the first element, every behaviour of the license library", "why_tests_cant": "All texts: the reader collects values in one shared dictionary, which must be emptied and filled at the right times; values must not leak between elements.", "anchors": ["src/spdx_tools/spdx/parser/tagvalue/parser.py", "src/spdx_tools/spdx/parser/tagvalue/helper_methods.py"]}
{"id": "C53", "title": "The console shows each SPDX 3 element completely", "statement": "Printing an element of an SPDX 3 payload gives a heading and then one line for every attribute shown for its kind, with the attribute's value, in a fixed order; a payload is its elements' blocks in order; every element of a migrated document can be printed.", "quantifier": "every element of the kinds the printer knows with values of their declared types, every payload of such elements, every migrated document", "why_tests_cant": "All elements and combinations of attributes; printers are one per class, with a dispatch table and inherited headings, and an absent entry is only noticed for the element that needs it.", "anchors": ["src/spdx_tools/spdx3/writer/console/", "src/spdx_tools/spdx3/writer/console/payload_writer.py:write_payload"]}
{"id": "C54", "title": "The migration command converts exactly the documents it accepts", "statement": "The command for SPDX 3 exits with 0 only if the input was read, passed the validation asked for and could be migrated; it then wrote one JSON-LD object per element of the migrated document, each with exactly the fields of the element, to the output file with '.jsonld' added, or printed one block per element; no other file is ever changed, and no file is when reading, validation, migration or conversion fails.", "quantifier": "every input, every set of options, every document, every behaviour of the parsers and of opening files; dates that have a text in UTC for the positive part", "why_tests_cant": "All documents and options; the effects depend on the order of conversion and opening, and on state (files) that tests do not look at when a run fails.", "anchors": ["src/spdx_tools/spdx3/clitools/pyspdxtools3.py:main", "src/spdx_tools/spdx3/writer/json_ld/json_ld_writer.py:write_payload", "src/spdx_tools/spdx3/bump_from_spdx2/bump_utils.py"]}
{"id": "C55", "title": "An RDF graph is read exactly as what its triples say", "statement": "Reading an RDF graph gives a document exactly if the graph describes it: the elements correspond one for one, in order, to the nodes of their class, each field is the object of the one triple with the element's node and the field's property, special values, actors, dates, types, licenses and ranges are what the objects mean, and nothing else is in the document. Graphs with two values for a property that may be given once, without a required property, or with a value the property cannot have, are refused.", "quantifier": "every graph, every set of prefixes bound, every behaviour of the license library", "why_tests_cant": "All graphs: about seventy properties read by hand-written code one at a time; whether each is read from its own node, once, with the right meaning, is a statement about all graphs.", "anchors": ["src/spdx_tools/spdx/parser/rdf/rdf_parser.py:translate_graph_to_document", "src/spdx_tools/spdx/parser/rdf/package_parser.py", "src/spdx_tools/spdx/parser/rdf/graph_parsing_functions.py", "src/spdx_tools/spdx/parser/rdf/license_expression_parser.py", "src/spdx_tools/spdx/parser/rdf/snippet_parser.py"]}
{"id": "C56", "title": "A JSON-like tree is read exactly as what it says", "statement": "Reading a tree of JSON, YAML or XML values gives a document exactly if the tree says it: every element is the object at its place in its list, each field is the meaning of the value at the field's key (a text, special value, actor, date, member of an enumeration, license expression, number or list of these), the relationships are those listed, then the ones implied by documentDescribes and hasFiles that are not listed already, and nothing else; a tree with a missing, malformed or unknown value at any of these keys is refused; other members and the order of members make no difference.", "quantifier": "every tree of values, every behaviour of the license library", "why_tests_cant": "All trees: values of the wrong type, nulls, duplicates and unknown names at every depth.", "anchors": ["src/spdx_tools/spdx/parser/jsonlikedict/json_like_dict_parser.py:JsonLikeDictParser", "src/spdx_tools/spdx/parser/jsonlikedict/package_parser.py", "src/spdx_tools/spdx/parser/jsonlikedict/relationship_parser.py", "src/spdx_tools/spdx/parser/jsonlikedict/annotation_parser.py", "src/spdx_tools/spdx/parser/jsonlikedict/snippet_parser.py"]}
{"id": "C57", "title": "An XML document round-trips", "statement": "Writing a document as XML and reading the file gives the document again, with annotations grouped by element; a tree whose texts and lists XML can carry is read from XML exactly as from JSON, though XML has neither lists, numbers nor truth values and delivers a single repeated element as no list.", "quantifier": "every document the JSON form represents whose written texts are not empty, have no white space at the ends, no carriage return and no control character, whose ranges are not negative and whose extracted licenses say something; every behaviour of the license library", "why_tests_cant": "All documents: the single-element lists, numbers and truth values of every element kind must be restored by a table of field names, so one missing name loses data only for documents with exactly one such entry.", "anchors": ["src/spdx_tools/spdx/parser/xml/xml_parser.py:parse_from_file", "src/spdx_tools/spdx/parser/xml/xml_parser.py:_fix_list_like_fields", "src/spdx_tools/spdx/parser/xml/xml_parser.py:LIST_LIKE_FIELDS", "src/spdx_tools/spdx/writer/xml/xml_writer.py:write_document_to_stream", "src/spdx_tools/spdx/parser/jsonlikedict/json_like_dict_parser.py:JsonLikeDictParser.parse"]}
{"id": "C58", "title": "Reordering, or writing and reading back, never changes the verdict", "statement": "Full validation has the same verdict on two documents that differ only in the order of their packages, files, snippets, annotations, relationships, extracted licenses and of the values inside them; and a document that is written in any of the formats and read again is valid exactly if it was valid before.", "quantifier": "every two documents that are the same up to order, every version asked for, every document the format can hold (the conditions of the round trips), every behaviour of the external URI library, and of the license library (for reordering and RDF: as long as its verdict does not depend on the order of the arguments of AND and OR)", "why_tests_cant": "All documents and all reorderings; the formats change order, merge relationships and move annotations, so a rule that looks at order or at how something is said would make a valid file invalid after conversion.", "anchors": ["src/spdx_tools/spdx/validation/document_validator.py:validate_full_spdx_document", "src/spdx_tools/spdx/writer/", "src/spdx_tools/spdx/parser/"]}
{"id": "C59", "title": "Converting a file keeps the document and its verdict", "statement": "When the command converts an input file to an output file and both steps are possible, it exits with 0, the output file is read again as the input's document without repeated values, as far as its format keeps it (JSON, YAML, XML: annotations grouped; tag-value: files and snippets moved, containment spelled CONTAINS; RDF: up to order), the output is valid exactly if the input is, so that the command accepts the output of converting a valid file, and no other file is touched. What is printed with '-o -' reads as the document.", "quantifier": "every input document, output name, set of options and state of the files, every document the output's format can hold, every behaviour of the libraries that delivers again what it was given to write", "why_tests_cant": "All documents and formats; the conversion composes reading, validation, removal of repeated values, writing and reading by separate code for each format.", "anchors": ["src/spdx_tools/spdx/clitools/pyspdxtools.py:main", "src/spdx_tools/spdx/writer/write_anything.py:write_file", "src/spdx_tools/spdx/parser/parse_anything.py:parse_file", "src/spdx_tools/spdx/document_utils.py:create_document_without_duplicates"]}
{"id": "C60", "title": "The tag-value reader does what its grammar says", "statement": "The grammar rules of the tag-value reader have no conflicts; on every text the generated parser stops, and the attributes it acts on (with their values and comments, malformed ones, unknown tags, identifiers), in order, are those the model of the reader acts on; every symbol of the grammar is defined and each method is called for its tags only.", "quantifier": "every text; the LALR(1) tables of the grammar as written in the source; the parser generator's driver with its error recovery", "why_tests_cant": "All token sequences: the tables have hundreds of states, and what error recovery drops or keeps depends on all of them; tests only try well-formed files and a few mistakes.", "anchors": ["src/spdx_tools/spdx/parser/tagvalue/parser.py:Parser", "src/spdx_tools/spdx/parser/tagvalue/helper_methods.py:grammar_rule", "src/spdx_tools/spdx/parser/tagvalue/lexer.py:SPDXLexer"]}
{"id": "C61", "title": "The tag-value reader cuts a text into tokens as its rules say", "statement": "Of every text, the regular expressions of the lexer, tried in their order at each position as PLY does, make exactly one list of tokens, and it is the list the reader works on: <text> blocks, checksums, actors, dates, tags, values, comments, and an error token for a character that no rule matches. The lexer never raises an exception and always ends.", "quantifier": "all texts", "why_tests_cant": "the rules overlap (a value may look like a checksum, an actor, a date or a reserved word), match across lines, and backtrack; a test has a handful of lines", "anchors": ["src/spdx_tools/spdx/parser/tagvalue/lexer.py:SPDXLexer"]}
{"id": "C62", "title": "Accepted values are those the regular expressions in the source match", "statement": "Identifiers, license references, checksum and verification code values, package reference locators, URLs and download locations are accepted exactly if Python's re matches the pattern written in the source for them; versions, snippet ranges, actors, text blocks, external document references and verification codes are read from the groups of that match as the source reads them; and the two case conversions are the substitutions written in the source.", "quantifier": "every text; for external document references and verification codes every text without a newline, which all values the tag-value reader passes to them are; every choice of which characters are word characters", "why_tests_cant": "patterns with nested optional groups, greedy repetition and backtracking, alternatives and end anchors that admit a newline behave differently from what one reads into them; tests have a few accepted and rejected texts each", "anchors": ["src/spdx_tools/spdx/validation/uri_validators.py", "src/spdx_tools/spdx/validation/external_package_ref_validator.py", "src/spdx_tools/spdx/validation/spdx_id_validators.py", "src/spdx_tools/spdx/validation/checksum_validator.py", "src/spdx_tools/spdx/validation/package_verification_code_validator.py", "src/spdx_tools/spdx/validation/extracted_licensing_info_validator.py", "src/spdx_tools/spdx/parser/actor_parser.py:ActorParser.parse_actor", "src/spdx_tools/spdx/model/version.py:Version.from_string", "src/spdx_tools/spdx/parser/tagvalue/parser.py", "src/spdx_tools/spdx/parser/tagvalue/helper_methods.py:str_from_text", "src/spdx_tools/spdx/casing_tools.py"]}
{"id": "C63", "title": "JSON files are exactly JSON and hold the whole document", "statement": "A text is accepted as JSON exactly if it is a text of the JSON grammar, and it stands for one value only. The text written for a document (and for a migrated one) is such a text, in printable ASCII, different for different contents; reading the written file gives the document again (annotations regrouped by element, backspaces and form feeds removed), so converting to JSON on the command line keeps the document whatever its strings contain.", "quantifier": "all texts; all trees of values; all documents the JSON form can hold", "why_tests_cant": "all strings (quotes, backslashes, control characters, characters beyond the basic plane become surrogate pairs), unbounded nesting, all texts that are almost JSON", "anchors": ["src/spdx_tools/spdx/writer/json/json_writer.py:write_document_to_stream", "src/spdx_tools/spdx/parser/json/json_parser.py:parse_from_file", "src/spdx_tools/spdx3/writer/json_ld/json_ld_writer.py:write_payload"]}
{"id": "C64", "title": "Migrated documents mean what the vocabulary says under their context", "statement": "The context file shipped with the library is exactly what its generator makes of the shipped SPDX 3 vocabulary. Under that context, every key, class name, reference and enumeration name in a migrated document expands to something the vocabulary knows (a property of the object's class with a value of the right kind). The full statement is false of the code (tools, purposes, homepages, some hash algorithms, build scopes, unknown completeness and package URLs as identifiers are lost or misread); it is proved for exactly the payloads without these, and for the documents that give such payloads.", "quantifier": "every payload of migrated elements whose dates can be written; every document that can be migrated", "why_tests_cant": "the 240 terms of the context, the 434 nodes of the vocabulary and the inheritance between its classes must agree with names computed from Python attribute names; a test compares one sample output and no test expands it", "anchors": ["src/spdx_tools/spdx3/writer/json_ld/owl_to_context.py:convert_spdx_owl_to_jsonld_context", "src/spdx_tools/spdx3/writer/json_ld/context.json", "src/spdx_tools/spdx3/writer/json_ld/SPDX_OWL.json", "src/spdx_tools/spdx3/writer/json_ld/json_ld_converter.py:convert_payload_to_json_ld_list_of_elements"]}
{"id": "C65", "title": "Which documents migrate to files with all mandatory properties", "statement": "The vocabulary says for each class how often its objects must and may have a property. The file made of a migrated document keeps to these counts, for every object in it, exactly if the document has a name, a creator other than tools, a DESCRIBES relationship of its own, and no empty value where one is wanted. Of a valid document, only the name, the creator, the relationship, empty MD6 values and empty locators of references of the category OTHER are left to ask; each of these five alone makes a valid document fail.", "quantifier": "every document that can be migrated, whose dates can be written and whose identifiers do not clash after migration", "why_tests_cant": "the counts come from inherited shapes in the vocabulary, the objects from several functions that add each other's properties, and empty values are left out when written; a test looks at a complete sample", "anchors": ["src/spdx_tools/spdx3/bump_from_spdx2/spdx_document.py:bump_spdx_document", "src/spdx_tools/spdx3/bump_from_spdx2/creation_info.py:bump_creation_info", "src/spdx_tools/spdx3/writer/json_ld/json_ld_converter.py:convert_payload_to_json_ld_list_of_elements", "src/spdx_tools/spdx3/writer/json_ld/SPDX_OWL.json", "src/spdx_tools/spdx3/validation/json_ld/shacl_validation.py:validate_against_shacl_from_file"]}
{"id": "C66", "title": "Using a parser object again", "statement": "A parser object that was just made reads a tree or text as parse_file does. A parser of JSON, YAML or XML trees that returned a document is as new; messages are never taken out of it; and as long as no call ended in an uncaught exception, a later call returns a document exactly if all earlier calls did and a new parser would, and it is the same document: after one reported error the object returns no document any more and repeats the old messages first. A tag-value parser returns one document at most, whatever it is given afterwards. After an uncaught exception parts of the earlier input may turn up in a later result (witnesses).", "quantifier": "all sequences of calls with all trees and texts, on objects in any state", "why_tests_cant": "what an object keeps in its seven loggers and dicts after a call depends on where the call stopped; tests make a new parser each time", "anchors": ["src/spdx_tools/spdx/parser/jsonlikedict/json_like_dict_parser.py:JsonLikeDictParser.parse", "src/spdx_tools/spdx/parser/jsonlikedict/package_parser.py:PackageParser", "src/spdx_tools/spdx/parser/jsonlikedict/relationship_parser.py:RelationshipParser", "src/spdx_tools/spdx/parser/jsonlikedict/annotation_parser.py:AnnotationParser", "src/spdx_tools/spdx/parser/tagvalue/parser.py:Parser.parse"]}
{"id": "C67", "title": "Which malformed trees raise something other than SPDXParsingError", "statement": "Reading a tree (of a JSON, YAML or XML file) ends with an exception other than SPDXParsingError exactly if the tree has not a certain shape: objects where objects are read (the document, its creation information, the items of its packages, files, snippets, annotations, reviews, relationships, extracted licenses, checksums and references), and a list, text or object where packages, files, snippets, reviews, described elements or extracted licenses are given. What the writer writes for a document has this shape, whether the document is valid or not.", "quantifier": "all trees", "why_tests_cant": "a handler for the wrong exception, or an access before the try, shows only on the one malformed value at the one place that reaches it; the set of malformed trees is unbounded", "anchors": ["src/spdx_tools/spdx/parser/jsonlikedict/json_like_dict_parser.py:JsonLikeDictParser.parse", "src/spdx_tools/spdx/parser/jsonlikedict/dict_parsing_functions.py", "src/spdx_tools/spdx/parser/jsonlikedict/annotation_parser.py:AnnotationParser.parse_all_annotations", "src/spdx_tools/spdx/parser/jsonlikedict/relationship_parser.py:RelationshipParser.parse_all_relationships", "src/spdx_tools/spdx/parser/jsonlikedict/creation_info_parser.py:CreationInfoParser.parse_creation_info"]}
{"id": "C68", "title": "Which malformed tag-value texts raise something else, or hide faults", "statement": "Reading a tag-value text raises something other than SPDXParsingError exactly if the text has a malformed Relationship with no malformed creator, supplier or originator before it. A malformed creator, supplier or originator ends the reading with its one message. In every other text each fault (unknown tag, value of the wrong kind, value not of the form its tag asks for, tag outside its element) is reported with a message about it, whatever else is wrong. Checksum lines never raise anything, as a comment in the source claims of the lexer.", "quantifier": "all texts", "why_tests_cant": "an uncaught exception, or an early exit that hides the other faults, needs one particular fault in one particular place, after or before others", "anchors": ["src/spdx_tools/spdx/parser/tagvalue/parser.py:Parser.p_current_element_error", "src/spdx_tools/spdx/parser/tagvalue/parser.py:Parser.p_creator", "src/spdx_tools/spdx/parser/tagvalue/parser.py:Parser.p_actor_values", "src/spdx_tools/spdx/parser/tagvalue/helper_methods.py:parse_checksum", "src/spdx_tools/spdx/parser/tagvalue/lexer.py:SPDXLexer.t_CHECKSUM"]}
{"id": "C69", "title": "Which malformed RDF graphs raise something other than SPDXParsingError", "statement": "Reading an RDF graph returns exactly the document the graph describes. It ends with another exception than SPDXParsingError, or ends the program, exactly if: there is not one document with a namespace; a creator is a number; a reference to another document is a literal or binds a prefix with a blank; a license is no expression, lacks a part or is nested too deeply; the pointers of a range have no known class; a literal stands where a reference to an element is wanted; or the type of a package reference is a literal in the document's namespace - and nothing that is looked at before it is unreadable. Every other graph that describes no document raises SPDXParsingError.", "quantifier": "all graphs, prefix bindings and license-expression libraries", "why_tests_cant": "each exception comes from one kind of node in one place, and only if the reading got there; what is looked at first hides what comes later", "anchors": ["src/spdx_tools/spdx/parser/rdf/rdf_parser.py:translate_graph_to_document", "src/spdx_tools/spdx/parser/rdf/creation_info_parser.py:parse_creation_info", "src/spdx_tools/spdx/parser/rdf/license_expression_parser.py:parse_license_expression", "src/spdx_tools/spdx/parser/rdf/snippet_parser.py:parse_ranges", "src/spdx_tools/spdx/parser/rdf/graph_parsing_functions.py:parse_spdx_id", "src/spdx_tools/spdx/parser/rdf/package_parser.py:parse_external_package_ref_type"]}
{"id": "C70", "title": "What the error for an RDF graph names", "statement": "The messages of the SPDXParsingError raised for an RDF graph whose header can be read are: one for each package, file, snippet, annotation, relationship and extracted license that cannot be read, in order, and no other. The message about an element holds exactly one complaint for each fault of its values (several values where one is wanted, a date, version, enum member, actor, algorithm, range or verification code that is none) or, if its values have no faults, exactly the names of the required fields it lacks. So every fault of every element is named - except that an unreadable checksum of a package or file, or reference of a package, hides its other faults. If the header cannot be read there is one message, about the header alone; it names all faults of the header, unless there is no creation information, a creator is no actor or a reference to another document cannot be read.", "quantifier": "all graphs, prefix bindings and license-expression libraries", "why_tests_cant": "a message that is dropped, doubled or attributed to another element needs a graph with several faults at particular places; the combinations are unbounded", "anchors": ["src/spdx_tools/spdx/parser/rdf/rdf_parser.py:translate_graph_to_document", "src/spdx_tools/spdx/parser/rdf/graph_parsing_functions.py:parse_literal", "src/spdx_tools/spdx/parser/rdf/graph_parsing_functions.py:apply_parsing_method_or_log_error", "src/spdx_tools/spdx/parser/rdf/graph_parsing_functions.py:get_unique_value", "src/spdx_tools/spdx/parser/parsing_functions.py:construct_or_raise_parsing_error", "src/spdx_tools/spdx/parser/parsing_functions.py:raise_parsing_error_if_logger_has_messages", "src/spdx_tools/spdx/parser/rdf/creation_info_parser.py:parse_creation_info", "src/spdx_tools/spdx/parser/rdf/creation_info_parser.py:parse_external_document_refs", "src/spdx_tools/spdx/parser/rdf/package_parser.py:parse_package", "src/spdx_tools/spdx/parser/rdf/file_parser.py:parse_file", "src/spdx_tools/spdx/parser/rdf/snippet_parser.py:parse_snippet", "src/spdx_tools/spdx/parser/rdf/snippet_parser.py:parse_ranges", "src/spdx_tools/spdx/parser/rdf/annotation_parser.py:parse_annotation", "src/spdx_tools/spdx/parser/rdf/relationship_parser.py:parse_relationship", "src/spdx_tools/spdx/parser/rdf/extracted_licensing_info_parser.py:parse_extracted_licensing_info"]}
{"id": "C71", "title": "Converting again and again", "statement": "A document that all five formats can hold can be converted from any file to any other, any number of times and in any order of the formats, old files being overwritten or not: every command exits with status 0, no file but those named is touched, and the last file is read as the first document up to the order of entries, of their values and of the arguments in license expressions, with the verdict of the validator unchanged. The relationships are the exception: one that places a file in a package and has a comment is accompanied by one more relationship `package CONTAINS file` for each conversion to tag-value, so that after k of these a document with n such relationships has exactly k * n relationships more.", "quantifier": "all documents within the limits of the five formats, all finite sequences of file names, all contents of the other files", "why_tests_cant": "a property of histories: what one format reorders is the input of the next, and a duplicate that is harmless once grows with every round; tests make one round trip in one format", "anchors": ["src/spdx_tools/spdx/clitools/pyspdxtools.py:main", "src/spdx_tools/spdx/parser/parse_anything.py:parse_file", "src/spdx_tools/spdx/writer/write_anything.py:write_file", "src/spdx_tools/spdx/writer/tagvalue/tagvalue_writer.py:write_document", "src/spdx_tools/spdx/writer/tagvalue/tagvalue_writer_helper_functions.py:scan_relationships", "src/spdx_tools/spdx/parser/tagvalue/parser.py:Parser.check_that_current_element_matches_class_for_value", "src/spdx_tools/spdx/parser/tagvalue/parser.py:Parser.construct_current_element", "src/spdx_tools/spdx/document_utils.py"]}
{"id": "C72", "title": "What the user of the command gets to see", "statement": "pyspdxtools ends in one of three ways: successfully; with a message; or with the traceback of an exception it does not expect. For every file and all options: it tells the messages of the reader exactly if the reader refuses the file with these messages, or an ending of a file name is unknown; it says that a text is malformed exactly if it is not in the syntax of its format (for JSON: by the grammar); that a file is missing, that the version is not supported, that the document is invalid (with all messages of the validation), or that an RDF file has no document, exactly if this is so. A traceback comes exactly from: a JSON, YAML or XML text whose tree has not the expected shape; an error of the YAML, XML or RDF library other than the one the command names; a malformed Relationship in tag-value with no malformed creator, supplier or originator before it; an RDF graph that is bad though it has a document; or an output that raises an exception the command does not name.", "quantifier": "all file contents, options, libraries and states of the file system", "why_tests_cant": "which exception reaches the command depends on the depth at which a reader meets a value it did not expect; a test tries a handful of broken files", "anchors": ["src/spdx_tools/spdx/clitools/pyspdxtools.py:main", "src/spdx_tools/spdx/parser/parse_anything.py:parse_file", "src/spdx_tools/spdx/parser/json/json_parser.py:parse_from_file", "src/spdx_tools/spdx/parser/yaml/yaml_parser.py:parse_from_file", "src/spdx_tools/spdx/parser/xml/xml_parser.py:parse_from_file", "src/spdx_tools/spdx/parser/rdf/rdf_parser.py:parse_from_file", "src/spdx_tools/spdx/parser/rdf/creation_info_parser.py:parse_namespace_and_spdx_id"]}
{"id": "C73", "title": "The JSON-LD context made from a vocabulary", "statement": "For every OWL vocabulary, the program that makes the JSON-LD context succeeds exactly if each property has a range and no prefix, and no class before it, has its name. In the context a name then stands for the last class with the name; if there is none, for the first property with the name in the namespace core; if there is none, for the last property with the name; and otherwise for its prefix; values of properties are names of enumeration members, identifiers, or of the range, as their lists say. If names are unique the order of the vocabulary does not matter. Of the vocabulary in the package, all classes and all properties but four get a term.", "quantifier": "all vocabularies (lists of nodes with any types, names and ranges)", "why_tests_cant": "which of two nodes with one name wins depends on their order and namespaces; the one vocabulary in the package shows only a few of the combinations, and the next one will show others", "anchors": ["src/spdx_tools/spdx3/writer/json_ld/owl_to_context.py:convert_spdx_owl_to_jsonld_context", "src/spdx_tools/spdx3/writer/json_ld/context.json", "src/spdx_tools/spdx3/writer/json_ld/SPDX_OWL.json"]}
{"id": "C74", "title": "Exactly which messages a malformed tree is refused with", "statement": "A tree (of a JSON, YAML or XML file) is refused with exactly the messages that a separate description of the faults gives, all of them and in this order: those about the creation information, the packages, the files, the annotations, the snippets, the relationships and the extracted licenses; for each element one message, which lists the faults of its values or, only if there are none, names the fields that are missing or have a wrong type. It is read exactly if there is no message; and it ends in another exception exactly if it has not the shape required. So whatever else is wrong, all messages about each package, file, snippet and extracted license are there, together.", "quantifier": "all trees", "why_tests_cant": "each message depends on the kind of value at its place, and which messages appear on all the other faults around it; tests try one fault at a time in an otherwise good document", "anchors": ["src/spdx_tools/spdx/parser/jsonlikedict/json_like_dict_parser.py:JsonLikeDictParser.parse", "src/spdx_tools/spdx/parser/jsonlikedict/dict_parsing_functions.py", "src/spdx_tools/spdx/parser/parsing_functions.py", "src/spdx_tools/spdx/parser/jsonlikedict/snippet_parser.py:SnippetParser.parse_ranges", "src/spdx_tools/spdx/parser/jsonlikedict/relationship_parser.py:RelationshipParser.parse_all_relationships", "src/spdx_tools/spdx/parser/jsonlikedict/annotation_parser.py:AnnotationParser.parse_all_annotations", "src/spdx_tools/common/typing/constructor_type_errors.py"]}
{"id": "C75", "title": "Exactly which messages an invalid document is refused with", "statement": "For every document of a supported version, the messages of validation are exactly those that a separate list of faults gives: each message says which rule is broken and quotes the offending value, and its context names the element it is about, the element it lies in and their kind. They come grouped: creation information, then package by package, file by file, and so on in the order of the document, an entry that occurs twice getting its messages twice, and last the two about the document as a whole. A document of another version, or of another than the one asked for, gets two messages and no other. The elements named exist in the document. A document is valid exactly if no message is due.", "quantifier": "all documents, versions asked for, and URI and license-expression libraries", "why_tests_cant": "a message that is dropped, doubled, attributed to the wrong element or quoting the wrong value needs its own combination of faults; tests check one fault in an otherwise valid document", "anchors": ["src/spdx_tools/spdx/validation/document_validator.py:validate_full_spdx_document", "src/spdx_tools/spdx/validation/creation_info_validator.py", "src/spdx_tools/spdx/validation/package_validator.py", "src/spdx_tools/spdx/validation/file_validator.py", "src/spdx_tools/spdx/validation/snippet_validator.py", "src/spdx_tools/spdx/validation/annotation_validator.py", "src/spdx_tools/spdx/validation/relationship_validator.py", "src/spdx_tools/spdx/validation/extracted_licensing_info_validator.py", "src/spdx_tools/spdx/validation/license_expression_validator.py", "src/spdx_tools/spdx/validation/external_package_ref_validator.py", "src/spdx_tools/spdx/validation/spdx_id_validators.py", "src/spdx_tools/spdx/validation/validation_message.py:ValidationContext"]}
{"id": "C76", "title": "The line number in a tag-value message", "statement": "The line number that a message of the tag-value reader names is the one its lexer holds when the tag of the attribute is read. For every text, this number and the line breaks that the lexer has stepped over between a colon and its value (a text in <text>, a checksum, a person, organization or tool, a date; for a checksum also after the algorithm) add up to the true number of the line. So it is never too large, and it is right exactly if no earlier value is separated from its colon by a line break; in a text in which each colon is followed by something on its line all numbers are right. A parser that is used again goes on counting.", "quantifier": "all texts, all places in them, and all line numbers at which a lexer that is used again may start", "why_tests_cant": "the number depends on everything that precedes the faulty line; a test has one short text with the fault near its start", "anchors": ["src/spdx_tools/spdx/parser/tagvalue/lexer.py:SPDXLexer.t_newline", "src/spdx_tools/spdx/parser/tagvalue/lexer.py:SPDXLexer.t_text", "src/spdx_tools/spdx/parser/tagvalue/lexer.py:SPDXLexer.t_text_end", "src/spdx_tools/spdx/parser/tagvalue/lexer.py:SPDXLexer.t_CHECKSUM", "src/spdx_tools/spdx/parser/tagvalue/lexer.py:SPDXLexer.input", "src/spdx_tools/spdx/parser/tagvalue/parser.py:Parser.p_unknown_tag", "src/spdx_tools/spdx/parser/tagvalue/parser.py:Parser.p_current_element_error", "src/spdx_tools/spdx/parser/tagvalue/parser.py:Parser.check_that_current_element_matches_class_for_value", "src/spdx_tools/spdx/parser/tagvalue/helper_methods.py:set_value"]}
{"id": "C77", "title": "Dates are read as the format in the source says", "statement": "For every text, the date read from it (in any of the input formats) is what Python's strptime delivers for the format %Y-%m-%dT%H:%M:%SZ: the regular expression that strptime makes of the format must match, ignoring case and with the alternatives tried in their order, and must match the whole text; the number in each group is the value of the field; and there must be such a date. Otherwise the text is refused.", "quantifier": "all texts", "why_tests_cant": "the alternatives of the pattern overlap (one or two digits, a space, digits of other scripts), so which texts are accepted and with which values depends on backtracking; tests try well-formed dates and a few others", "anchors": ["src/spdx_tools/spdx/datetime_conversions.py:datetime_from_str"]}
{"id": "C78", "title": "The messages a tag-value text is refused with", "statement": "Parsing a tag-value text none of whose attributes ends the reading (a malformed creator, supplier or originator, or a malformed relationship line) either returns a document or raises SPDXParsingError with exactly the messages that can be read off the text, in this order: going through the text, a message for every attribute out of place and every unknown tag, and, when an element is complete, one message about it - all the faulty values in it; or if there are none the first field it may not have; or else all the fields that are missing; or else the license lists with a blank entry; or that a file has no package, if no package before it could be built - and last one message with all faults of the creation information; fields missing in the creation information are reported only if there is nothing else to report.", "quantifier": "all texts and all license parsers", "why_tests_cant": "The messages depend on the combination and order of faults across elements and on what is left over from one element to the next; tests check a few error messages each from a single fault.", "anchors": ["src/spdx_tools/spdx/parser/tagvalue/parser.py:Parser.parse", "src/spdx_tools/spdx/parser/tagvalue/parser.py:construct_current_element", "src/spdx_tools/spdx/parser/tagvalue/parser.py:initialize_new_current_element", "src/spdx_tools/spdx/parser/tagvalue/parser.py:check_that_current_element_matches_class_for_value", "src/spdx_tools/spdx/parser/tagvalue/parser.py:check_for_preceding_package_and_build_contains_relationship", "src/spdx_tools/spdx/parser/tagvalue/parser.py:p_generic_value", "src/spdx_tools/spdx/parser/tagvalue/parser.py:p_current_element_error", "src/spdx_tools/spdx/parser/tagvalue/parser.py:p_spdx_id", "src/spdx_tools/spdx/parser/tagvalue/parser.py:p_relationship", "src/spdx_tools/spdx/parser/tagvalue/parser.py:p_pkg_external_refs", "src/spdx_tools/spdx/parser/tagvalue/helper_methods.py:set_value", "src/spdx_tools/spdx/parser/parsing_functions.py:construct_or_raise_parsing_error", "src/spdx_tools/spdx/parser/parsing_functions.py:raise_parsing_error_if_logger_has_messages"]}
{"id": "C79", "title": "The line numbers in the messages about a tag-value text", "statement": "When a tag-value text is refused, every message about one attribute names the line of that attribute's tag, as counted by the lexer (property 76), except for those that come without a line: license expressions, dates, actors, the license list version and FilesAnalyzed. The list of messages with their line numbers is exactly the one read off the text (property 78) with these numbers put in; leaving the numbers out gives the messages of property 78, and the same documents are read. Every number in a message is the number of an attribute of the text, and if every colon is followed by its value on the same line, it is the true line of the tag.", "quantifier": "all texts, all license parsers and all line numbers at which the parser starts", "why_tests_cant": "The number must be right for every message at every place, also after values of several lines and for messages that are kept until the element is complete; tests check a few messages in short texts.", "anchors": ["src/spdx_tools/spdx/parser/tagvalue/parser.py:Parser.parse", "src/spdx_tools/spdx/parser/tagvalue/parser.py:p_generic_value", "src/spdx_tools/spdx/parser/tagvalue/parser.py:p_current_element_error", "src/spdx_tools/spdx/parser/tagvalue/parser.py:p_creation_info_value_error", "src/spdx_tools/spdx/parser/tagvalue/parser.py:p_unknown_tag", "src/spdx_tools/spdx/parser/tagvalue/parser.py:p_relationship", "src/spdx_tools/spdx/parser/tagvalue/parser.py:p_pkg_external_refs", "src/spdx_tools/spdx/parser/tagvalue/parser.py:p_external_document_ref", "src/spdx_tools/spdx/parser/tagvalue/parser.py:check_that_current_element_matches_class_for_value", "src/spdx_tools/spdx/parser/tagvalue/helper_methods.py:set_value", "src/spdx_tools/spdx/parser/tagvalue/lexer.py:SPDXLexer.t_newline", "src/spdx_tools/spdx/parser/tagvalue/lexer.py:SPDXLexer.t_text"]}
{"id": "C80", "title": "Constructing and changing SPDX 3 objects", "statement": "For each of the 46 classes of SPDX 3 that can be instantiated and for every call of its constructor, with arguments by position and by name: an object is made if and only if the call fits the parameters (no position too many, every name that of a parameter not given already, nothing required left out) and every value has a type its field accepts; then every field holds its argument, or the default, with an empty list or dictionary in place of None where the constructor says so. Otherwise all fields with rejected values are named in one exception, in their order. Every parameter is a field and every field a parameter, and whoever keeps to the types of the signature always gets an object. After any sequence of assignments to attributes, each field holds the last value that it accepts, so no field ever holds a value of a wrong type, and a rejected assignment changes nothing. The converse of the signature does not hold: for thirteen required parameters (such as the name of a package) None is accepted although the signature says str.", "quantifier": "all 46 classes, all calls, all values, all sequences of assignments, and all choices of the list item that the type checker looks at", "why_tests_cant": "Each constructor repeats the long parameter lists of its base classes by hand, so one wrong type or forgotten default shows only for one class and parameter; the tests construct each class once or twice.", "anchors": ["src/spdx_tools/spdx3/model/", "src/spdx_tools/common/typing/type_checks.py:check_types_and_set_values", "src/spdx_tools/common/typing/dataclass_with_properties.py:dataclass_with_properties", "src/spdx_tools/common/typing/dataclass_with_properties.py:make_setter"]}
{"id": "C81", "title": "The order of members in a tree makes no difference", "statement": "Two JSON, YAML or XML trees that differ only in the order of the members of objects, at any depth, and in members whose names the readers do not ask for, are read as the same document, or are both refused. Any number of such changes may be made in turn. The exception is an object that stands where a list belongs: it is read as the list of its members' names, so that their order shows; and an empty object must stay empty.", "quantifier": "all trees, all rearrangements of their members, all license parsers", "why_tests_cant": "Writers and libraries sort members as they please; a test reads a document in one order. A reader that depended on the order in one place would show it only for that place.", "anchors": ["src/spdx_tools/spdx/parser/jsonlikedict/json_like_dict_parser.py:JsonLikeDictParser.parse", "src/spdx_tools/spdx/parser/jsonlikedict/dict_parsing_functions.py", "src/spdx_tools/spdx/parser/jsonlikedict/", "src/spdx_tools/spdx/parser/json/json_parser.py:parse_from_file", "src/spdx_tools/spdx/parser/yaml/yaml_parser.py:parse_from_file", "src/spdx_tools/spdx/parser/xml/xml_parser.py:parse_from_file"]}
{"id": "C82", "title": "Blank lines and comments between the lines of a tag-value text make no difference", "statement": "Putting blank lines and comment lines, indented or not, at the start of a tag-value text, or between two of its lines, leaves the document that is read unchanged, and if the text is refused, the messages (but for the line numbers in them). This holds at every place the lexer gets to at the start of a line: between any two lines, if the lines before have their values beside their tags and contain no <text>, and also after texts in <text> and </text> that end their lines. Inside a text, or between a tag and a value on the next line, a comment does make a difference.", "quantifier": "every text, every place in it that the lexer reaches, every number of blank lines and comments with any contents, every license parser", "why_tests_cant": "A test adds one comment to one file. That no comment, whatever it contains, changes how the lines around it are read depends on every pattern of the lexer, several of which run across line ends.", "anchors": ["src/spdx_tools/spdx/parser/tagvalue/lexer.py:SPDXLexer", "src/spdx_tools/spdx/parser/tagvalue/parser.py:Parser.parse"]}
{"id": "C83", "title": "The order in which an RDF graph delivers its triples makes no difference but for the order in lists", "statement": "Reading the same triples in another order gives the same document up to the order of the entries in its lists, with the same verdict of the validation, or is refused as well. This holds for every graph, however it came about. Excepted are several values of a property of a node that should have one and of which the reader takes the first (its class, whether files are analyzed, the file of a snippet, exceptions), several nodes for the creation information, and the members of a license set and references to other documents, whose order is kept: for these the relative order must be kept. If each node has at most one value of these, any order will do.", "quantifier": "every list of triples, every permutation of it that keeps the order of the values named, every license parser and every set of prefixes bound before", "why_tests_cant": "The order depends on the store and on hashing and cannot be set by a test; a test shows one order for one file.", "anchors": ["src/spdx_tools/spdx/parser/rdf/rdf_parser.py:translate_graph_to_document", "src/spdx_tools/spdx/parser/rdf/graph_parsing_functions.py"]}
{"id": "C84", "title": "The order of attributes within the sections of a tag-value document makes no difference", "statement": "Two tag-value texts with the same sections in the same order, each section beginning with the same attribute and having the same attributes about each thing in the same order, are both refused or both accepted; and if there is one SPDXID before the first element, they are read as the same document. So the attributes of an element after the first one, and the creation information before the first element, can be given in any order, as long as attributes with the same tag (or giving an identifier) keep their relative order. The order of values of one tag is that of the list in the document, and an attribute moved out of its section is refused.", "quantifier": "every two texts whose attributes correspond in this way, with any number of sections and attributes, every license parser", "why_tests_cant": "A test reorders some lines of one file. That no order matters depends on every pair of attributes: each of the seventy-odd methods of the parser sets state that the others might read.", "anchors": ["src/spdx_tools/spdx/parser/tagvalue/parser.py:Parser", "src/spdx_tools/spdx/parser/tagvalue/helper_methods.py:set_value"]}
{"id": "C85", "title": "Constructing, copying and changing SPDX 2 objects", "statement": "A class of the SPDX 2 data model called with arguments by position or name makes an object exactly if the call fits the signature and each field accepts its value; the fields then hold the arguments, or the defaults: true for files_analyzed, CC0-1.0 for the data license, None or an empty list for the rest. Otherwise the error names exactly the fields whose values are rejected, or the required arguments that are missing. Whoever keeps to the annotations of the signature gets an object, and None may be given exactly where it is the default. The order of keywords makes no difference. An assignment is made exactly if the field accepts the value, and otherwise changes nothing, so an object never holds a value its field rejects; and giving all its values back to the class makes an equal object.", "quantifier": "every class of spdx/model, every list of positional arguments and keywords with any Python values, every history of assignments, every choice of list items that the type checker looks at", "why_tests_cant": "Tests try a few wrong values for a few fields. Which of the thousands of combinations of classes, fields, kinds of values and ways of passing them are accepted follows from the tables of fields, parameters, defaults and list replacements together.", "anchors": ["src/spdx_tools/spdx/model/package.py:Package.__init__", "src/spdx_tools/spdx/model/document.py:CreationInfo.__init__", "src/spdx_tools/common/typing/type_checks.py:check_types_and_set_values", "src/spdx_tools/common/typing/dataclass_with_properties.py:dataclass_with_properties"]}
{"id": "C86", "title": "The order of the sections of a tag-value document makes no difference but for where files stand", "statement": "Take a tag-value text with everything about the document itself before the first element, with one SPDXID there. Putting its sections into another order gives a text that is refused if this one is, and otherwise read as the same document, provided that sections about the same kind of element, packages and files, and files and relationships keep their order. Whether such a text is accepted is decided section by section: it is accepted exactly if for each section the text with only this section after the same beginning is accepted. Packages and files must keep their order since a file is contained in the package before it; without the SPDXID at the beginning the order can decide whether the text is accepted.", "quantifier": "every two texts whose sections correspond in this way, with any number of sections and attributes, every license parser", "why_tests_cant": "The number of orders is beyond testing, and the parser carries the last element, the identifier of the document and the messages from one section to the next.", "anchors": ["src/spdx_tools/spdx/parser/tagvalue/parser.py:Parser", "src/spdx_tools/spdx/parser/tagvalue/parser.py:Parser.initialize_new_current_element", "src/spdx_tools/spdx/parser/tagvalue/parser.py:Parser.construct_current_element"]}
{"id": "C87", "title": "Line ends and the layout of JSON files make no difference", "statement": "A tag-value or JSON file whose lines end in line feeds, carriage returns or both, in any mixture, is read as the same document or refused with the same messages, by the parsers and by the command. JSON files that differ in white space between tokens, or that stand for the same value in any other way, such as other spellings of characters, have the same outcome too; and files that differ in the order of members, or in members of other names than those of the format, are read as the same document or both refused.", "quantifier": "every two texts that correspond in this way, of any length, every license parser, every tree and every width of indentation", "why_tests_cant": "A repository has its test files with one kind of line end and one layout; the combinations in other people's files are endless.", "anchors": ["src/spdx_tools/spdx/parser/tagvalue/tagvalue_parser.py:parse_from_file", "src/spdx_tools/spdx/parser/json/json_parser.py:parse_from_file", "src/spdx_tools/spdx/parser/parse_anything.py:parse_file"]}
{"id": "C88", "title": "A tag-value text is read as its entries, whatever the blanks around them", "statement": "A tag-value text that consists of entries, each a tag, a colon and a value on the same line or a text in <text> and </text>, is read exactly as the text with one line 'Tag: value' for each entry and nothing else: indentation, blanks and tabs before and after the colon and at the ends of lines, line breaks before a <text>, blank lines, comments between the entries and a missing line break at the end make no difference, neither to the document nor to the messages if the text is refused.", "quantifier": "every list of entries with any tags, known or not, and any values that end with neither white space nor a colon, every way of writing them, every license parser", "why_tests_cant": "The patterns of the lexer for checksums, dates, persons and texts each treat blanks and line ends differently, and what one leaves over the next picks up; a test tries some files.", "anchors": ["src/spdx_tools/spdx/parser/tagvalue/lexer.py:SPDXLexer", "src/spdx_tools/spdx/parser/tagvalue/parser.py:Parser.parse"]}
{"id": "C89", "title": "The order of packages, files and snippets makes no difference to the migrated document but for the order in lists", "statement": "Migrating a document to SPDX 3 with its packages, files and snippets in another order succeeds exactly if it does in this order, and gives the same elements under the same identifiers, except that the document lists its elements and imports in another order. This needs identifiers that are distinct after migration, of which otherwise the last element is kept, and no two different persons, organizations or tools of packages that get the same identifier, of which the first is kept.", "quantifier": "every document, of any size, with such identifiers and every permutation of each of the three lists", "why_tests_cant": "The migration collects elements in one dictionary into which each step writes and from which some read; a test migrates one document in one order.", "anchors": ["src/spdx_tools/spdx3/bump_from_spdx2/spdx_document.py:bump_spdx_document", "src/spdx_tools/spdx3/bump_from_spdx2/package.py:bump_package", "src/spdx_tools/spdx3/bump_from_spdx2/actor.py:bump_actor"]}
{"id": "C90", "title": "A JSON file that was cut short, or has something after its end, is never read as a document", "statement": "If a JSON file is read as a document, the file without its end is refused as malformed, wherever before its last character other than white space it was cut; so is the file with anything but white space after it. Whatever document is being written as JSON: if the writing stops before the end, what was written is refused. The command reports malformed JSON and changes no file. Tag-value files have no such protection: a file with a package can be cut so that it is read as a document without packages.", "quantifier": "all JSON files that are read as documents, with any line ends, and all places to cut them; all documents and all places at which writing can stop; all texts that can follow a file; all worlds and arguments of the command", "why_tests_cant": "A crash or a full disk can stop the writing at any character; a test tries a few places.", "anchors": ["src/spdx_tools/spdx/parser/json/json_parser.py:parse_from_file", "src/spdx_tools/spdx/writer/json/json_writer.py:write_document_to_stream", "src/spdx_tools/spdx/clitools/pyspdxtools.py:main", "src/spdx_tools/spdx/parser/tagvalue/tagvalue_parser.py:parse_from_file"]}
{"id": "C91", "title": "Comparing files is comparing documents", "statement": "Two documents that the JSON form represents faithfully have the same JSON file, character by character, if and only if they are the same up to how the annotations of different elements are mixed. Two documents with the same tag-value text have the same creation information, packages and annotations, the same snippets and statements about relationships up to order, and the same files and extracted licenses up to the order within some of their lists. Two documents with the same RDF graph are the same up to the order in lists.", "quantifier": "all pairs of documents that the form represents faithfully", "why_tests_cant": "That no two different documents share a file cannot be seen from any number of files.", "anchors": ["src/spdx_tools/spdx/writer/json/json_writer.py:write_document_to_stream", "src/spdx_tools/spdx/jsonschema/document_converter.py:DocumentConverter", "src/spdx_tools/spdx/writer/tagvalue/tagvalue_writer.py:write_document", "src/spdx_tools/spdx/writer/rdf/rdf_writer.py:write_document_to_stream"]}
{"id": "C92", "title": "A tag-value document that lost its last sections is read without complaint, without what they said", "statement": "If a tag-value text is read as a document and another text has the same lines up to the beginning of some section, with all about the document itself before that place, the other text is read too: as the same creation information and, for each kind, elements from the beginning of the list, with at least one entry less for each section lost. If lines about the document itself are lost as well, what is left is accepted if and only if it has a version, an identifier, a name, a namespace, a creator and a date.", "quantifier": "all tag-value texts that are read as documents, with one SPDXID before the first section, and all places where a section begins; the last part for all texts", "why_tests_cant": "A crash or a full disk can stop the writing between any two elements of any document; a user has to know that the reader will not notice.", "anchors": ["src/spdx_tools/spdx/parser/tagvalue/parser.py:Parser.parse", "src/spdx_tools/spdx/parser/tagvalue/parser.py:Parser.initialize_new_current_element", "src/spdx_tools/spdx/parser/tagvalue/parser.py:Parser.construct_current_element"]}
{"id": "C93", "title": "A command changes no file but its output, running it again changes nothing, and independent commands can be run in any order", "statement": "However pyspdxtools ends, no file other than the one named as output has changed; so a file that none of a sequence of commands names as output stays as it is. Running a command again, if its output is not its input, ends in the same way and changes no file. Two commands of which neither writes what the other reads or writes end in the same way and leave the same files, whichever is run first. If one reads what the other writes the order can make a difference.", "quantifier": "all worlds, all arguments without a graph, all sequences of commands, all behaviours of the libraries and all files that cannot be opened", "why_tests_cant": "A test runs one command in one world; scripts run many, in changing orders, and some of them twice.", "anchors": ["src/spdx_tools/spdx/clitools/pyspdxtools.py:main", "src/spdx_tools/spdx/writer/write_anything.py:write_file", "src/spdx_tools/spdx/parser/parse_anything.py:parse_file"]}
{"id": "C94", "title": "A document can be written exactly if its dates can be expressed in UTC, and what was read can always be written", "statement": "The JSON, YAML, XML and tag-value writers fail on a document if and only if one of its dates (creation, annotations, release, built, valid until) has an offset and lies outside the years 1 to 9999 once it is expressed in UTC; so the four writers accept the same documents. The dates of a document read from JSON, YAML, XML, RDF or tag-value have no offset. Hence every document that was read can be written again to each of the four formats, with or without the removal of duplicates.", "quantifier": "all documents; all trees, graphs and texts that are read as a document; all four formats; all license libraries", "why_tests_cant": "Tests write documents with ordinary dates. That no other field can make a writer fail, and that no input can produce a date that does, is a statement about every document and every input.", "anchors": ["src/spdx_tools/spdx/datetime_conversions.py:datetime_to_iso_string", "src/spdx_tools/spdx/datetime_conversions.py:datetime_from_str", "src/spdx_tools/spdx/jsonschema/document_converter.py:DocumentConverter.convert", "src/spdx_tools/spdx/writer/tagvalue/tagvalue_writer.py:write_document", "src/spdx_tools/spdx/parser/jsonlikedict/json_like_dict_parser.py:JsonLikeDictParser.parse", "src/spdx_tools/spdx/document_utils.py:create_document_without_duplicates"]}
{"id": "C95", "title": "A document can be written as RDF exactly if its dates can be expressed in UTC and every snippet has a line range", "statement": "The RDF writer makes a graph of a document if and only if each of its dates has no offset or lies in the years 1 to 9999 once it is expressed in UTC, and each of its snippets has a line range; no other field can make it fail, and removing duplicates makes no difference. So a document that was read from any of the formats can be written as RDF exactly if each of its snippets has a line range.", "quantifier": "all documents, and all documents read from any JSON, YAML or XML tree, tag-value text or RDF graph", "why_tests_cant": "Tests write a few complete documents. That the missing line range is the only thing that stops a document that was read from being written as RDF is a statement about all documents and all inputs.", "anchors": ["src/spdx_tools/spdx/writer/rdf/rdf_writer.py:write_document_to_stream", "src/spdx_tools/spdx/writer/rdf/snippet_writer.py:add_range_to_graph", "src/spdx_tools/spdx/datetime_conversions.py:datetime_to_iso_string"]}
{"id": "C96", "title": "A conversion fails only because of its input or its output file, not because of the writer", "statement": "If pyspdxtools is asked to write tag-value, it exits with 0 if and only if the input file is read as a document, the document passes the validation asked for and, unless the output goes to the standard output, the output file can be opened. The same holds for JSON, YAML and XML if the libraries that dump the tree raise nothing. For RDF there is exactly one more reason to fail: a snippet without a line range. A conversion to tag-value, JSON, YAML or XML that fails leaves every file and the standard output as they were. So, as far as the output files can be opened, the inputs that can be converted to JSON, YAML or XML are those that can be converted to tag-value.", "quantifier": "all input files of all five formats, all worlds, all arguments that ask for an output, all behaviours of the reading libraries and all files that cannot be opened", "why_tests_cant": "A test converts a few files. That nothing an accepted input contains can stop the conversion half-way, leaving a truncated output, is a statement about all inputs.", "anchors": ["src/spdx_tools/spdx/clitools/pyspdxtools.py:main", "src/spdx_tools/spdx/parser/parse_anything.py:parse_file", "src/spdx_tools/spdx/writer/write_anything.py:write_file", "src/spdx_tools/spdx/writer/tagvalue/tagvalue_writer.py:write_document", "src/spdx_tools/spdx/writer/rdf/snippet_writer.py:add_range_to_graph"]}
