# Formal model of spdx/tools-python in Lean 4

The code under study is `/repo/src/spdx_tools` (paths below are relative to it).  It was read as text; nothing of
it was built or run.  The properties are listed in `properties.jsonl`; `MANIFEST.json` maps each to theorems.

## Layout

* `lean/Verif/Py/*` – Python primitives used by the code (text as `List Char`, `split`, `strip`, regex character
  classes, dictionaries as association lists, JSON trees).  Text is `Str := List Char`.
* `lean/Verif/Model/*` – the model: one module per source area, functions mirrored branch by branch, exceptions as
  values (`Except`).  Each definition cites the file and lines it models and names its simplifications.
* `lean/Verif/Spec/*` – small specifications, written without reference to the model's helpers.
* `lean/Verif/Lemmas/*` – helper lemmas.
* `lean/Verif/Props/*` – the property theorems, each with a concrete `example` meeting its hypotheses.

## Plan per property

| id | model | proof |
|----|-------|-------|
| C01 | `file_name_to_format` as suffix tests on lists | case analysis; spec = "has suffix" |
| C02 | both casing functions on character lists | induction over words; `decide +kernel` over whole enum tables |
| C03 | naive/aware datetimes as calendar fields, `strptime` grammar as a character parser | digit print/parse lemmas; day-number arithmetic for offsets; `on_calendar`: what can be read is what `Spec/Calendar.lean` says |
| C04 | version regex and printing | digit lemmas |
| C05 | `to_serialized_string`, `parse_actor` with its regexes as list functions | list lemmas; negation for ambiguous names |
| C06 | the name tables of all writers and readers | exhaustive over the 17 algorithms |
| C07, C08, C45 | regexes as list predicates, validators returning message lists | iff with an independent predicate; negation for trailing newline |
| C09–C15, C43 | all validators as functions to message lists | empty message list iff spec |
| C16, C17 | dedup functions over the data model | induction |
| C18, C19 | lookup functions | induction, case analysis |
| C20, C21 | hash function and hash state as parameters | permutation invariance of sort; fold over chunks |
| C22, C41 | recursion over JSON trees | structural induction |
| C23–C25 | converter to JSON tree and dict parser | composition per class, then lists, then document |
| C26, C42 | file system as a value (`World`), exceptions as values; the CLI as a function of options and world | case analysis |
| C27 | tag-value writer as a list of steps (a line, or an exception); layout as a separate specification (`Spec/TvLayout`) | invariants of the three folds, partition lemmas |
| C28 | lexer (`lex`), grammar (`attrs`), value parsers | per value: what the lexer makes of the written line, then the value parser; exact conditions for wrapped texts and ranges |
| C29 | `Parser`'s state (`TvState`) and its step per attribute | invariant "a key once set stays, a message once logged stays" over all attribute sequences |
| C30 | graph as node and edge lists | induction |
| C31–C37 | bump functions with the payload as association list | invariants over the folds |
| C38–C40 | id qualification, implicit relationships, enum tables; RDF graph as list of triples | list lemmas, tables exhaustively |
| C41 | recursion over XML trees | structural induction |
| C43, C45, C47 | validators | equivalence with `Spec/Valid` |
| C44 | constructor check loop, beartype's sampling as a parameter | induction over fields |
| C46 | JSON-LD converter over generic payload objects, class tables as data | structural induction |
| C48 | composition of writer, lexer, grammar and parser | an element written is read as one element (`Lemmas/TagValue*`), then induction along the layout of C27 |
| C49 | composition of the RDF writer and reader over a graph that is a list of triples | every element is a block of triples with its own blank nodes (`Lemmas/RdfBlocks`); what the reader sees of a node in any permutation of the graph is what its block says (`Lemmas/RdfSeen`, `RdfLic`, `RdfFile`, `RdfPackage`, `RdfRest`), then each list of elements |
| C50 | the RDF reader; blank nodes are values compared only with each other | each parsing function commutes with renaming |
| C51 | the tag-value reader, with its four lists of messages | a faulty attribute leaves a message (`Lemmas/TagValueFaults`), messages are never removed (`Lemmas/TagValueStep`), a message makes the result an error |
| C52 | the tag-value reader | what each section says is specified by tag (`Spec/TvRead`); the values collected so far are those given so far in the section (`Lemmas/TagValueHolds`), building the element reads them off (`Lemmas/TagValueMeaning`), induction over the attributes (`Lemmas/TagValueSays`) |
| C53 | the console writers, as a list of steps that may raise | a table of what is shown per class (`Spec/Console`); each writer is run against its table |
| C54 | the command on a world of files and a standard output, as C42 | every kind of migrated element is converted symbolically to the object written out in `Spec/LdMigrated` (`Lemmas/LdMigrated`); the dates of a payload are the document's (`Lemmas/BumpDates`); cases along `main` |
| C55 | the RDF reader as a function on graphs | a specification of what the triples say, one line per field (`Spec/RdfRead`); each primitive of the reader (one value, special value, list, identifier, license, range) is equivalent to its specification, so each element's reader is, and the whole reader (`Lemmas/RdfRead`); refusals follow from the equivalence |
| C56 | the JSON-like reader as a function on trees | a specification of what a tree says, one line per field (`Spec/JsonRead`); each primitive (field, list, enumeration, license, actor, date) is equivalent to its specification (`Reads`), so each element's reader is, and the whole reader is: `parseDocument L j = .ok d ↔ Object (DocumentSays L) j d`; refusals and independence of other members follow |
| C57 | `xmltodict`'s `unparse` followed by `parse` as a function on trees (`Model/Xml`), then the XML reader's list fixing and the common reader | a recursion over trees shows what a tree becomes (`viaFields`); each specification clause of C56 survives that change (`XmlVia*`), so the document said is the same; written trees have the shape required (`XmlWritten`); with C23 and C56 the round trip follows |
| C58 | the rules of `Spec/Valid` on two documents, the round trips of C23, C48, C49, C57 | each rule is shown to ask for nothing that order, grouping or the spelling of containment changes (`Lemmas/ValidSame`); with C47 (validation = rules) and the round trips |
| C59 | the command of `Model/Cli`, with the libraries' faithfulness for the document at hand as a hypothesis (`Delivers`) | composition of C42 (what the command does), C17 (removing repeated values keeps the verdict), C23, C57, C48, C50 (round trips) and C58 (verdicts) |
| C60 | the grammar rules as written in the docstrings, PLY's reading of them, its driver (`Model/Ply`); LALR(1) tables as a relation (`Spec/Lalr`) | the valid items after any stack are described by shape (`Lemmas/TvTables`), which gives the tables' entries; induction over the tokens simulates the driver with its error recovery (`Lemmas/PlyRun`) |
| C61 | the lexer's rules as the texts of their regular expressions, PLY's master pattern and its rounds (`Model/PlyLex`); what a regular expression of Python matches, in backtracking order (`Spec/PyRe`) | the patterns are parsed by evaluation; the matcher is rewritten with continuations (`Lemmas/PatRun`), each rule is shown to match what `lexOne` cuts off (`Lemmas/TvLexing`), and induction over the text joins the rounds (`Lemmas/TvLexed`) |
| C62 | the patterns of validators and readers as their texts in the source (`Model/Patterns`), against `Spec/PyRe` | each text is parsed by evaluation; a pattern without look at groups is turned into the model's expression with the same language (`Lemmas/PatLang`, `PatSame`, `PatUri`, `PatIds`); for patterns with groups, greedy repetition is characterised by its longest successful split (`starK_last`, `starK_none`) and each group computed from that (`Lemmas/PatGroups`, `PatGroups2`) |
| C63 | Python's `json` writer (indentation, escapes) and scanner (`Model/JsonText`); RFC 8259 as a relation between values and texts (`Spec/JsonGrammar`) | scanner sound and complete for the grammar by induction on the fuel (`Lemmas/JsonStrings`, `JsonScan`); written texts derivable by induction on the tree (`Lemmas/JsonDump`); dicts of documents repeat no key; composed with C22, C23, C54, C59 |
| C64 | the vocabulary SPDX_OWL.json and context.json as data (`Model/Owl`, `Model/LdContext`), `owl_to_context.py`; term expansion of JSON-LD 1.1 for such contexts and what the vocabulary knows (`Spec/LdMeaning`) | context by evaluation of the generator in the kernel; a table of all (class, key) pairs migration produces checked against the vocabulary, then one lemma per element (`Lemmas/LdMeaning`, `LdUnderstood`), then from documents to elements (`Lemmas/BumpPlain`) |
| C65 | the counts of properties the shapes of SPDX_OWL.json ask for, collected over superclasses, and what is counted in a written object (`Spec/LdComplete`); pyshacl itself is not modelled | one lemma per kind of element reading its class's counts off the vocabulary (`Lemmas/LdComplete`); every element of a payload has an origin in the document (`Lemmas/BumpOrigin`), so that the conditions on elements become conditions on the document (`Lemmas/BumpFull`) |
| C66 | the loggers of the tree parsers and the attributes of the tag-value `Parser` as explicit state of a call (`Model/ParserObjects`); messages that outlive an exception; every tag-value call is taken to lex from the initial state | the computation on an object with empty loggers simulates the model without state, part by part (closed under bind); monotonicity of the loggers; induction over the calls; witnesses by evaluation |
| C67 | the reader of trees (`Model/JsonParser`, `Model/PyParse`) with every exception as a value; the shape as a separate specification (`Spec/JsonShape`) | for each part the exact condition under which it raises another exception, closed under the combinators (a part raises iff one of its steps does); then classical logic |
| C68 | the tag-value reader (`Model/TagValueParser`) with its exceptions as values; what a message about an attribute is (`Spec.About`) | an invariant of the lexer (a checksum token can be read) and of the grammar (every attribute has a rule); a step raises iff the attribute stops the reading, whatever the state; messages are never dropped |
| C69 | the RDF reader with its loggers and exceptions (`Model/RdfReport`), against the graphs that describe a document (`Spec/RdfRead`) and the bad ones (`Spec/RdfCrash`) | `Model/RdfReport` refines `Model/RdfParser` (`readRdf_val`), so C55's description carries over; for each reading step, when it raises and when it goes on, composed through the loggers, the lists and the `try` blocks |
| C70 | the same reader; the faults of a graph and the message each gives are described in `Spec/RdfFaults`, which does not mention the reader | for each reading step which messages it logs (`Lemmas/RdfSaying`), composed through the loggers into the one message about each element, then through the lists into all messages; a readable element has no faults, so every faulty one is reported |
| C71 | the command line of C59, run any number of times, each on the file the one before has written | a relation between a document and what became of it after k tag-value rounds (`Spec/Converted`), shown to be reflexive and transitive, to follow from each format's round trip (`Lemmas/ConvertedSteps`) and to preserve everything each format asks for (`Lemmas/ConvertedPortable`); induction on the list of commands |
| C72 | `Model/CliReport`: the command once more, with the readers of the five formats in it (the libraries that turn a text into a tree or graph are parameters that may raise the exceptions they have) and how it ends: success, what is told, or a traceback | each ending is characterised (`traceback_iff`, `told_*_iff`) from the exact descriptions of what the readers raise: C63 for JSON texts, C67 for trees, C68 for tag-value, C69 for RDF (`exits_iff` needs that no reader but that of the namespace exits: `Lemmas/RdfExit`); `agrees` ties the command to the one of C42 |
| C73 | `Model/LdContext`: the program that makes the JSON-LD context, on any vocabulary | induction over the nodes, added at the end: after each node the dict maps every name to what `entry` says of the nodes so far; what the vocabulary of the package loses is read off its (finite) tables by `decide +kernel` |
| C74 | the reader of C24 and C67; which messages there are about each value, element and document is described in `Spec/JsonFaults`, which does not mention the reader | for each reading step which messages it logs (`Lemmas/JsonSaying`: values, lists, loggers, checked fields), composed element by element (`JsonSayingElems`, `JsonSayingRanges`) and then for the annotations, relationships and the document (`JsonSayingDoc`) |
| C75 | `Spec/Faults.lean` lists, as inductive relations, when each message of validation is due and its context; one lemma per validator (`Lemmas/Faults.lean`) shows that the messages it gives are exactly those | `message_iff`, `in_order`, `unsupported`, `mismatch`, `valid_iff_no_fault`, `names_found` |
| C76 | `Model/TagValueLines.lean` adds `lexer.lineno` to the lexer: each application of a rule with the number then held; invariant by induction on the rules applied: number + line breaks stepped over = line breaks before | `line_number`, `exact_iff`, `never_too_large`, `line_of_tag`, `same_attributes`, `exact_line`, `too_small`, `reused` |
| C77 | `Spec/Strptime.lean` describes `_strptime.py` (format → pattern, match of the whole text, groups → numbers, constructor); the pattern is read and run by `Spec/PyRe` | `dates`: the model's character parser equals it on every text; each field in continuation style, at most one length of a field can be followed by its separator |
| C78 | `Spec/TvTold.lean`: the elements of a text, the complaints about each attribute, the fields that are unexpected, missing or blank, and from these the list `told` of all messages | `refused_with`, `accepted_iff`, `every_text`: the reader as a fold over the attributes in a normal form (`act`); an invariant says that the values collected for the current element have the keys and kinds that the specification reads off the attributes; each constructor's complaints by an applicative of error lists. Where a list with a blank license is reported, the code's type check looks at one random item of the list and may miss it; the model looks at all |
| C79 | `Model/TagValueMessages`: the reader once more with `Line: …` in its messages; `Spec/TvToldLines.lean`: the messages of C78 with the lines of the attributes put in (`toldLines`), and the messages without their numbers | `refused_with`, `same_without_lines`, `same_document`, `lines_of_attributes`, `true_lines`: step by step the two readers do the same and say the same but for the number (`Says`); what is said is then known from C78's invariant. With C76 the numbers are the true lines. |
| C80 | `Model/Spdx3Classes`: the 46 classes with their fields, parameters, defaults and the statements that replace `None`; calls with positions and keywords; assignments. `Spec/Called.lean`: the argument for a parameter, proper calls, the value for a field, a history of assignments | `made_iff`, `reported_iff`, `missing_iff`: the binding of arguments by induction over the keywords, the loop of the constructor over the fields. `parameters_are_fields`, `fields_written`, `defaults`, `none_accepted` and the comparison of signatures with fields are checks of the whole tables; `respects_signature` then follows with C44 for all values; `last_accepted`, `always_typed` by induction over the history |
| C81 | `Spec/SameTree.lean`: trees that are the same up to the order of members and members of other names | `same_document`, `same_refusal`: what a tree says (C56) is shown to be kept by every relation of the specification; `equivalence`, `any_order`, `other_member`, `inside`, `inside_list` show that the changes in question keep a tree the same |
| C82 | `lexer.py`: all rules, on a text with lines put in. | What is put in reads as what follows it (`Like`); each rule that stops before the place does the same with and without it (step lemma per rule); induction on the rules that lead to the place. Two descriptions of texts in which all line starts are reached; witnesses for the places where a comment matters. |
| C83 | `Spec/RdfOrder.lean`: graphs with the same triples in another order, and the properties for which order shows | `same_document`, `same_refusal`: what a graph says (C55) is shown to be said, up to the order in lists (`SameRdf`, C49), by every reordering, element by element; licenses are the same by induction on the depth. `any_order` for graphs with at most one value of these properties per node; `order_shows` is a witness that the exception is needed. |
| C84 | `Spec/TvOrder.lean`: texts with the same sections up to the order of attributes about different things | `same_verdict`: the messages read off the attributes (C78) are none in both cases, shown for the exchange of two neighbours; any such order is reached by exchanges. `same_document`: the sections say the same (C52), and determine the document. `other_orders_matter` gives witnesses that the order is needed otherwise. |
| C85 | `Model/Spdx2Classes`: the 13 classes of spdx/model with fields, parameters, defaults and the statements that replace `None`; calls and assignments as in C80. `Spec/Called2.lean`: required arguments and defaults as tables | As for C80 (shared in `Lemmas/Called`): `made_iff`, `reported_iff`, `missing_iff`, `respects_signature`, assignments. `keyword_order`: the argument for a parameter does not depend on the order of keywords. `copies`: the values of an object are arguments that fit. `none_given`, `defaults`, `same_tables` (the fields are those of C44) are checks of the whole tables. |
| C86 | `Spec/TvMoved.lean`: texts with the same sections but for the order of sections about independent kinds of elements | `same_document`: lists with the same order of members of dependent kinds differ by exchanges of independent neighbours; exchanging two such sections changes nothing in what the sections say (C52); no message (C78) is equivalent to a condition on each section by itself, which also gives `each_section`. `files_matter` and `identifier_needed` give witnesses that the conditions are needed. |
| C87 | `Spec/LineEnds.lean`: texts with the same lines; `Spec/Minified.lean`: a JSON text without the white space between tokens | `tag_value_line_ends`, `json_line_ends`, `command_line_ends`: induction on the lines, since files are opened with universal newlines; `json_layout` from the grammar (C63); `json_minified`, `json_white_space` by induction on the grammar: what is left out is white space that the grammar allows to be empty; `json_members` from C81; `converted_lines`: replacing each line feed gives a text with the same lines |
| C88 | `Spec/TvLines.lean`: the texts that have given entries | `plain_text`, `same_entries`, `same_file`: the tokens of a line are the same whatever blanks surround its parts and whatever follows it, by induction on what each rule of the lexer leaves of the line; so the tokens of a text are those of its entries, each by itself |
| C89 | `Spec/Reordered.lean`: documents with their elements in another order; payloads that differ in the order of lists | `same_elements`: two neighbouring steps of the migration commute on what is found under each identifier, and permutations are exchanges of neighbours; `same_refusal`; `first_actor_kept`, `last_file_kept`: the conditions are needed |
| C90 | nothing new: the JSON text reader of C63 and the command of C72; a text is cut at a character, a cut within the bytes of a character is not modelled | `cut_short`, `more_after`, `written_cut`: count the open brackets outside strings; the text of a JSON value is balanced, and every part of an object's text without its end has a bracket open; `command_cut`; `tag_value_cut`: a witness |
| C91 | nothing new: the writers and readers of C63, C48, C49 | `same_json_file`: equal files are read as equal documents (C63), and the order in which annotations come back determines those of each element; conversely the writer asks only for the annotations of each element; `same_tag_value_text`, `same_rdf_graph`: from the round trips |
| C92 | nothing new: the tag-value reader of C52 and its messages (C78) | `cut_between_sections`: what is told about a text includes what is told about its part before a section, so nothing is told about the part (C78); its sections say a beginning of what all of them say (C52); `cut_accepted_iff`: of the creation information only what is missing can be told |
| C93 | nothing new: the command of C72, run several times; commands run at the same time are not modelled, nor is what exporting a graph does to files | a command's effect is an ending, a text for the output file and a text printed, which depend only on the content of the input; `other_files`, `history`, `again`, `either_order` follow; `order_matters`: a witness |
| C94 | The list of a document's dates; `InRange` says a date has no offset or its UTC moment is representable | both writers are followed step by step: only date steps can fail (`json_iff`, `tag_value_iff`). The dates of a read document come from the accounts of reading in C56 and C55, an invariant of the tag-value parser's state, and C03 (`read_dates`, `rdf_dates`, `tag_value_dates`, `read_then_write`, …). |
| C95 | nothing new: the graph of C49 and the dates of C94 | every function of the RDF writer is followed; the names of all members of the enumerations have a term (by cases), so only dates and a missing line range can fail (`rdf_iff`, `read_iff`) |
| C96 | the command (`cliMain`) with the modelled readers and writers (`C72.env`); the dumping libraries are parameters | what is read has dates without offset (C94), so the writers reach their end; for RDF the criterion of C95; the exit status by C42 |

Properties that turn out false of the code get a theorem proving the negation with a witness and a `_partial` theorem;
they are listed in the section "Disagreements" below.

## Trusted base

* Lean 4.33.0's kernel.
* The axioms `propext`, `Classical.choice`, `Quot.sound` at most, per theorem as listed in "Axioms" at the end.  There are no axioms of
  our own, no `sorry`, no `native_decide`, no `bv_decide`; `decide +kernel` is evaluated by the kernel.
* The reading of the Python source that the model embodies: every definition in `Verif/Model` and `Verif/Py` cites the file and the lines it
  stands for, and names what it leaves out.

### What is modelled

| source (below `src/spdx_tools`) | module |
|---|---|
| `spdx/model/*`, `spdx/model/actor.py`, `version.py` | `Model/Data`, `Model/Enums`, `Model/Typing`, `Model/Spdx2Classes`, `Model/Actor`, `Model/Version` |
| `spdx/datetime_conversions.py` | `Model/DateTime` |
| `spdx/casing_tools.py` | `Model/Casing` |
| `spdx/formats.py` | `Model/Formats` |
| `spdx/validation/*` | `Model/Validation`, `Model/Uri`, `Model/Ids` |
| `spdx/document_utils.py`, `spdx/spdx_element_utils.py` | `Model/DocumentUtils`, `Model/Ids` |
| `spdx/jsonschema/*` (property names, converters) | `Model/JsonNames`, `Model/JsonWriter` |
| `spdx/parser/jsonlikedict/*`, `json_parser.py` and siblings | `Model/JsonReading`, `Model/JsonText`, `Model/PyParse`, `Model/JsonParser`; the parser objects: `Model/ParserObjects` |
| `spdx/parser/xml/xml_parser.py` (list repair) | `Model/JsonReading` |
| `spdx/parser/tagvalue/*` | `Model/TagValueLexer`, `Model/TagValueParser`, `Model/TagValueLines` and `Model/TagValueMessages` (line numbers), `Model/Ply` (grammar rules) |
| `spdx/writer/tagvalue/*` | `Model/TagValueWriter` |
| `spdx/writer/rdf/*`, `spdx/parser/rdf/*`, `spdx/rdfschema/namespace.py` | `Model/Rdf`, `Model/RdfWriter`, `Model/RdfParser`; with messages and exceptions: `Model/RdfReport` |
| `spdx/writer/write_anything.py`, `writer_utils`, `json_writer.py` and siblings | `Model/Writing` |
| `spdx/clitools/pyspdxtools.py` | `Model/Cli`; `Model/CliReport` (with the readers, and what the user sees) |
| `spdx/graph_generation.py` | `Model/Graph` |
| `common/typing/*` | `Model/Typing` |
| `spdx3/model/*`, `spdx3/bump_from_spdx2/*`, `spdx3/payload.py` | `Model/Spdx3`, `Model/Bump`; constructors and setters: `Model/Spdx3Classes` |
| `spdx3/writer/json_ld/json_ld_converter.py` | `Model/JsonLd`, `Model/LdClasses` |
| `spdx3/writer/json_ld/owl_to_context.py`, `context.json`, `SPDX_OWL.json` (comments, labels and term status left out) | `Model/LdContext`, `Model/Owl` |
| `spdx3/clitools/pyspdxtools3.py`, `spdx3/writer/json_ld/json_ld_writer.py` | `Model/Cli3` (the context file and `json.dump` are parameters; C63 puts `dumpJson` for the latter) |
| `spdx3/writer/console/**` | `Model/Console` (texts of values that are not strings, numbers, dates or enum members are the parameter `R`) |

### What is not modelled, and what stands for it

* **Text syntaxes of libraries.** `yaml`, `xmltodict` and `rdflib`'s (de)serialisation are not modelled; Python's `json` is
  (`Model/JsonText`, a description of the library that is trusted; without its limits on nesting and on the length of numbers, and floats
  are kept as their text).  Elsewhere than in C63 a JSON, YAML or XML
  document is the tree the library delivers (`Json`, no floating point numbers); an RDF document is a list of triples.  For writing, the
  dumpers are parameters (`Dumpers`) that may write any text and may raise.  For C57 `Model/Xml` describes what `xmltodict.parse` delivers for
  the text `xmltodict.unparse(tree, pretty=True)` writes (repeated elements become a list, a single one does not, outer white space is
  stripped, no content is `None`, numbers and truth values become text); this description is trusted.
* **License expressions.** `license_expression` is a parameter: `LicText` (rendering and parsing a text), `Ext.licInvalidSymbols`,
  `Ext.licStrictParseError`, `Ext.licEq`.  Theorems state what they need of it (mostly: parsing a rendered expression gives it back).
  Exceptions of the library other than `ExpressionError` (such as `ParseError` of boolean.py) are not modelled.
* **URI functions.** `uritools` is a parameter (`Ext.isAbsUri`, `isUri`, `uriHasScheme`), as is `urllib.parse.urldefrag` (`RdfEnv.defrag`)
  and the SPDX license list (`RdfEnv.known`).
* **Characters.** Text is a list of Unicode scalar values.  `str.isspace`/`\s` and `\d` are the tables of the characters concerned; `\w` is a
  parameter (`Ext.isWord`); upper and lower casing is ASCII only; case-insensitive patterns fold as Python does for the letters that occur.
* **Hashing.** `hashlib.sha1` is a parameter (`Hasher`) with an update law.
* **Regular expressions** are replaced by list functions.  `Spec/PyRe` describes Python's `re` (parsing of patterns, backtracking order,
  groups, flags); C61 derives the lexer, and C62 the validators, readers and case conversions, from the texts of the patterns in the source.
  C77 does the same for the pattern inside `datetime.strptime`, made from the format by `Spec/Strptime`.  Trusted are `Spec/PyRe`,
  `Spec/Strptime` and the copies of the pattern texts.
* **PLY.** `Model/PlyLex` describes the master pattern and the rounds of the lexer; C61 derives `lex` from the rules.  The grammar (`tvRules`) is the text of the docstrings; `Model/Ply` describes
  how PLY splits it into productions (`parse_grammar`), the driver (`parseopt_notrack`, `set_defaulted_states`), and `Spec/Lalr` the LALR(1)
  tables by the textbook's definition: these descriptions are trusted, and C60 derives `attrOne` from them.  Messages carry no line numbers in
  `Model/TagValueParser`; `Model/TagValueLines` has the numbers (C76) and `Model/TagValueMessages` the reader with them in its messages (C79).
  That `p.lineno(1)` is the number the lexer had when it made the first token of the rule is trusted.
* **rdflib.** A graph is a list of triples without order; `bind`, `normalizeUri` and `split_uri` are modelled for ASCII names; a blank node is
  the path of the place in the writer that makes it, and its name a code of that path (`blankName`; C50 shows which graphs are read
  independently of the names).
* **networkx.** A directed graph is a list of nodes with attributes and a list of edges with attributes.
* **beartype.** A type check of a list looks at one random item; the choice is a parameter (`pick`).
* **The interpreter.** Unbounded integers as in Python; recursion depth only where the RDF reader recurses (`RdfEnv.depth`); memory and I/O
  errors other than those stated are not modelled.  Time of day and UUIDs do not occur in the modelled functions.
* `spdx3/validation/json_ld/shacl_validation.py` only calls `pyshacl` and is not modelled.
* Logging output, click's own argument parsing, and the wording of most messages are not modelled (messages are kept where a property is
  about them).  In the messages of the JSON-like readers (C74) the following are shortened: the texts of Python's own exceptions (`strptime`,
  iteration, hashing, `re`), and the list of type errors of a constructor, of which the names of the fields are kept.

## Disagreements

Where the code does something a reader of its documentation would not expect.  "[…]" names the theorem that proves it about the model.

Identifiers and values
* Patterns anchored with `$` accept a trailing newline [C04.newline_accepted, C07.newline_accepted, C08.newline_accepted]; `\d` accepts other
  scripts' digits [C08.foreign_digit_accepted].
* BLAKE3 digests of the usual 64 hexadecimal digits are rejected, MD6 digests of any even length are accepted [C07.blake3_digest_rejected,
  C07.md6_too_long_accepted].
* An element's own identifier may be `DocumentRef-x:SPDXRef-y` [C08.external_own_id_accepted].
* Different actors have the same text [C05.same_text_different_actor].
* Names with one-letter words do not survive the casing conversions [C02].
* `strptime` accepts lower-case `t`/`z` and unpadded fields, so more than one text denotes a date.
* With duplicate identifiers the element found by id and the type found by id disagree [C18.duplicate_disagreement].

JSON, YAML, XML
* A file without checksums and creation information without creators are written but not read [C23.file_without_checksum_rejected,
  C23.no_creators_rejected]; a copyright text "NONE" becomes the special value [C23.reserved_copyright_changed]; annotations of elements that do not
  exist are reassigned to the document [C23.dangling_annotation_reassigned], annotations are regrouped [C23.annotation_order_changed] and repeated
  when ids are shared [C23.shared_id_annotation_repeated]; fractions of seconds are lost [C23.microseconds_lost].
* Removing control characters does not touch keys [C22.key_not_cleaned].
* Entries that are not objects and null lists crash the reader instead of being reported [C24.non_object_entry_crashes]; some messages are lost
  [C24.range_message_lost, C24.file_type_message_lost].
* Implied CONTAINS relationships are repeated when files share an id [C25.shared_id_contains_twice].
* A text where a list is expected is read as the list of its characters, also for documentDescribes [C56.text_read_as_characters]; of two
  ranges of a kind in a snippet the later one replaces the earlier without a message [C56.earlier_range_lost].
* XML loses white space at the ends of texts, empty texts and carriage returns [C57.outer_space_lost, C57.empty_text_lost,
  C57.carriage_return_changed], cannot carry control characters [C57.control_character_unreadable], and a written document with an empty name, a
  negative range or an empty extracted license is not read again [C57.empty_name_refused, C57.negative_range_refused, C57.empty_extracted_crash].
* `LIST_LIKE_FIELDS` names "reviewers" where the parser reads "revieweds", so a document with one review crashes the XML reader
  [C57.single_review_not_read].
* `LIST_LIKE_FIELDS` names "artifactOf" where the property is "artifactOfs".

Tag-value
* The names of two or more excluded files of a verification code become one [C28.excluded_files_merged, C48.excluded_files_merged].
* References to other documents are only read with a SHA1 [C28.docRef_needs_sha1, C48.other_checksum_refused].
* Suppliers and originators that are tools are not read [C28.tool_supplier_rejected], nor a license name NONE [C28.license_name_none_rejected].
* One-line texts that look like an actor, a checksum, a date or a keyword, that have white space at an end or contain `<text>` are not read
  back [C28.person_text_rejected, C28.checksum_text_rejected, C28.space_lost, C28.open_marker_swallows]; wrapped texts must not contain `</text>`
  [C28.multiline_survives_iff]; a checksum value with a colon is not read [C06.tv_colon_fails].
* CONTAINED_BY becomes CONTAINS [C48.contained_by_changed]; a CONTAINS with a comment comes back twice [C48.commented_contains_twice].
  With each further conversion to tag-value it gets one more companion, without bound [C71.conversions_grow, C71.grows_once].
* A packaged file whose id is shared with a later file is not written [C27.shared_id_file_lost].
* A second SPDXID in an element overwrites the first silently [C29.spdx_id_overwritten].
* PackageAttributionText is appended to whatever element is current; values before the first start tag leak into the first element; messages
  logged before the first element are lost if there is none; an actor that cannot be parsed as a creator aborts reading and loses the other messages; `Relationship:` with a value that is not a LINE raises an
  uncaught KeyError; an SPDXID with a value that is not a LINE, a stray RelationshipComment or ExternalRefComment, an incomplete last
  attribute, and all text after an unterminated `<text>` are ignored silently.

RDF
* A snippet without a line range crashes the writer; range values of 0 are refused by the reader; special homepages come back as text; expressions are joined
  without parentheses; literals are stripped, empty ones become None, repeated ones collapse, order is lost; an extracted license without id
  gets the name of a blank node; identifiers change when namespaces coincide or overlap [C38.shared_uri_changes_reference,
  C38.own_namespace_loses_reference, C38.newline_not_read].
* An RDF license expression loses its parentheses: members of a set are joined as texts, so `A AND (B OR C)` is read as
  `(A AND B) OR C` [C49.parentheses_lost].
* An extracted license without an identifier is valid, but after writing and reading RDF it has the name of its blank node for an identifier,
  and the document is invalid [C49.anonymous_license_named].
* RDF: a homepage NONE is read as the text of a URI [C49.homepage_none]; texts equal to a special value become it
  [C49.reserved_copyright]; texts are stripped [C49.comment_stripped], empty texts are lost [C49.empty_comment_lost], equal
  attribution texts become one [C49.attribution_once]; a range at 0 is refused [C49.zero_range_rejected]; a snippet without line
  range is not written at all [C49.no_line_range_crash].
* RDF: where a text is expected and a blank node is found, the blank node's random name becomes the text [C50.name_visible]; so does the
  id of an extracted license without one [C50.license_name_visible].
* Tag-value: line breaks between a colon and a text, checksum, actor or date are not counted, so that later messages name a line that is too
  small [C76.too_small]; a parser that is used again goes on counting [C76.reused].
* Tag-value: a value of the wrong kind in a text without any element is lost silently [C51.wrong_kind_lost].
* Tag-value: a value followed by a stray token is not used: the attribute is reported as an error [C60.value_void], but an `SPDXID` is lost
  without a message, together with the token [C60.id_lost].
* Tag-value: a second `SPDXID` before the first element becomes the identifier of that element [C52.id_leaks]; the first `SPDXID` of the text
  is taken to be the document's wherever it stands [C52.id_taken]; and of several `SPDXID`s in one element the last is taken without a
  message (`getLast?` in `Spec.SaysPackage` etc.), unlike every other tag, whose second value is an error.

Writing and command line
* Writing an invalid document empties the target file [C26.invalid_empties_file].
* The command has a message for many faults of its input, but ends with a traceback for others: `"packages": null` in JSON
  [C72.null_packages], a `Relationship` line that is none [C72.bad_relationship], a YAML text that is wrong for another part of the library
  than its scanner (`ParserError`, `ComposerError`) [C72.yaml_errors]; all cases: C72.traceback_iff.
* If the name of the output file has an unknown ending, the command says that there were issues while parsing the provided document
  [C72.told_parsing_iff].

Graph
* Of several relationships between the same elements, one comment overwrites the other [C30.comment_overwritten].

Migration to SPDX 3
* Four properties of the vocabulary of SPDX 3 have no term in the context: `sensitivePersonalInformation` of an AI package is read as that of a
  dataset, `locator` and `suppliedBy` of vulnerabilities and their assessments and `contentType` of a file as the properties of `core`
  [C73.properties_lost, C73.taken_for].
* The command for SPDX 3 compares with version 2.3 unless a version is named, so valid SPDX 2.2 documents are refused by default
  [C54.default_refuses_old]; remarks about download locations NONE are printed to the standard output and precede the converted document
  there [C54.console_written].
* The console never shows licenses, copyright, attribution, purposes and content identifiers of artifacts, root elements, extensions, SBOM types
  and defining documents [C53.hidden_attributes, C53.others_hidden]; a Dataset with a dataset type raises a TypeError (join of enum members)
  [C53.dataset_fails]; classes missing from the dispatch table raise a KeyError [C53.unlisted_fails]; the heading "config_source_digest" is
  written without a newline.
* DEPENDENCY_OF becomes a relationship of the element with itself [C34.dependency_of_self_loop]; the other `*_DEPENDENCY_OF` types are not reversed
  [C34.dependency_types_not_reversed].
* Merging loses targets, empty groups and scopes [C35.target_lost, C35.empty_group_dropped, C35.scope_lost, C31.listed_id_of_no_element].
* Homepages NONE and NOASSERTION crash the migration [C32.special_homepage_fails]; an element whose id equals a generated relationship id is overwritten
  [C32.clash_loses_package]; external references of other types are dropped [C37.unsupported_dropped]; a missing license name becomes
  "None" [C36.missing_name_becomes_text]; identifiers of actors may collide.
* JSON-LD: fields that are dictionaries crash the converter, `False` and `0` are dropped [C46.dict_field_fails, C46.false_dropped].
* Under the context written into the file, parts of a migrated document mean nothing or something else than intended: `homepage` and
  `extension` are not terms (the vocabulary has `homePage`) [C64.homepage_dropped]; purposes and tools are texts of an unknown datatype
  [C64.purpose_literal, C64.tools_literal]; the scope `build` is the namespace of a profile [C64.build_is_namespace]; the names of the SHA3,
  BLAKE2b and package verification code algorithms are not those of the vocabulary [C64.algorithm_iff, C64.sha3_unknown].  So hardly any
  real package is understood completely [C64.package_not_understood].
* Valid documents do not always migrate to complete files.  Valid is a document whose only creator is a tool, but an SPDX 3 creation
  information needs a creator and tools are not counted [C65.tool_only]; a document with an empty name [C65.no_name]; a document of one
  package without a DESCRIBES relationship, whose SPDX 3 document has no root element [C65.no_root]; an empty MD6 value [C65.empty_md6];
  an empty locator [C65.empty_locator].  There are no other cases [C65.valid_iff, C65.valid_document_iff].

Malformed trees
* An object where a list belongs is read as the list of its members' names, so that the order of members shows [C81.names_as_entries].
* Trees that are no objects where objects belong, and `null` for `packages`, `files`, `snippets`, `revieweds` or `documentDescribes`, end in
  `AttributeError` or `TypeError` instead of `SPDXParsingError` [C67.uncaught_iff, C67.null_packages].
* If no `SPDXID` stands before the first element, the first one in any section is taken for that of the document, so the order of sections
  decides whether a text is accepted [C86.identifier_needed].
* A malformed `Relationship` in a tag-value text ends in `KeyError` [C68.uncaught_iff, C68.crash_raises]; a malformed creator, supplier or
  originator hides all other faults [C68.bad_actor, C68.abort_message].
* An RDF graph without exactly one document ends the program [C69.exits]; malformed licenses, ranges, creators and references raise
  exceptions of several kinds [C69.crashes_exactly], unless the creation information cannot be read [C69.info_first].
* An unreadable checksum hides all other faults of its package [C70.checksum_hides]; an unreadable header hides the faults of all elements
  [C70.header_message].  What is wrong with the values of a reference to another document is never said, because its logger is not asked
  (creation_info_parser.py L124-139): only that they are missing [example in C70].

Parser objects
* A parser object used again after a reported error returns no document any more and repeats the old messages
  [C66.old_messages_first, C66.history_iff]; after an uncaught exception it may report faults of the earlier tree [C66.leftover_messages] or
  put a package of the earlier text into the document [C66.leftover_package]; a tag-value parser gives one document at most
  [C66.one_document, C66.no_document_after_report].  (`parse_file` makes a new parser each time.)

Type checks
* A list with one wrongly typed item may be accepted, as one item is sampled [C44.mixed_list_accepted].
* Thirteen required parameters of SPDX 3 constructors take `None` although their annotation excludes it, since the fields of the class they are
  inherited from are optional: `Package(spdx_id, None)` makes a package [C80.none_accepted, C80.package_without_name].
* A person and an organization of the same name become one element in the migration, the first of them; of two files with the same
  identifier the last is kept
  [C89.first_actor_kept, C89.last_file_kept].
* A tag-value file cut between two elements is read without a complaint [C90.tag_value_cut,
  C92.cut_between_sections].

## Axioms

<!-- axioms -->
* no axioms (27 theorems): C02: json_names_distinct, json_names_invert; C05: same_text_different_actor; C06: json_name, json_roundtrip, tv_name, rdf_roundtrip, tv_names_distinct; C18: duplicate_disagreement; C23: keys_from_tables; C33: injective, other_iff; C36: missing_name_becomes_text; C40: file_types, purposes, annotation_types, reference_categories, relationship_types, distinct; C44: fields_distinct; C53: hidden_attributes; C64: context_generated; C73: taken_for; C80: required_once, fields_written; C85: parameters_in_order, required_once
* `propext` (120 theorems): C02: single_letter_words_collide; C04: newline_accepted; C05: roundtrip_fails; C06: json_names_distinct, rdf_names_distinct, tv_colon_fails; C07: one_message; C10: unsupported, mismatch; C16: document_untouched, file_fields, package_fields, snippet_fields, other_fields; C19: local_id, injective; C22: key_not_cleaned; C24: returned_only_if_all_parsed, package_faults, file_faults, snippet_faults, annotation_faults, relationship_faults, external_reference_faults, creation_info_faults, external_document_ref_entries, missing_creation_info, range_message_lost, file_type_message_lost, creation_info_reported, document_entries, package_entries, external_reference_entries, relationship_entries, annotation_entries, review_entries, faultyTree_error, non_object_entry_crashes; C25: shared_id_contains_twice, duplicates_are_equal, inverse_of_inverse; C27: packagedIds_iff, said_plain, relationships_once; C28: excluded_files_merged, docRef_needs_sha1, tool_supplier_rejected, person_text_rejected, checksum_text_rejected, space_lost, license_name_none_rejected, open_marker_swallows; C29: spdx_id_overwritten; C30: comment_overwritten; C33: algorithm, checksum, external_document_hash; C34: has_entry, one_row; C37: in_package; C40: read_is_member; C41: entries; C43: special_accepted; C44: accepts_of_type, all_reported, setter_checked, required_fields, flag_fields, range_fields, text_fields, special_fields, mixed_list_accepted; C45: categories_disjoint; C46: field_kept, field_given, dict_field_fails, false_dropped; C48: roundtrip_relationships; C52: says_unique, id_leaks, id_taken; C54: named_version; C56: tree_read, text_read_as_characters, earlier_range_lost; C60: runs_unique, symbols_defined; C61: rules_compile; C64: homepage_dropped, purpose_literal, tools_literal; C66: first_call_tagvalue, elements_stay, leftover_messages, leftover_annotation, no_leftover, leftover_package, repeated_field_raises, logging_raises; C67: null_packages; C70: property_names, property_named; C73: classes_kept; C75: unsupported, mismatch; C76: too_small; C77: pattern_text; C80: parameters_are_fields, none_accepted; C81: other_member, inside_list, names_as_entries; C84: other_orders_matter; C85: parameters_are_fields, defaults, same_tables; C86: files_matter, identifier_needed; C87: tag_value_line_ends; C90: tag_value_cut
* `Quot.sound`, `propext` (193 theorems): C03: day_number_counts, naive_roundtrip, read_valid; C04: roundtrip, toStr_injective, read_iff; C05: foreign_rejected; C06: tv_roundtrip; C10: empty_version; C16: same_entries, each_once, first_occurrence_order, idempotent, licenses_kept_up_to_equality, document_idempotent; C18: found_is_element; C19: external_id, undeclared, malformed, success_only; C20: recorded_used, unrecorded; C21: chunked_eq_whole, chunk_size_irrelevant; C22: reads_stripped, result_clean_distinct, clean_unchanged, result_clean, last_key_wins; C23: file_without_checksum_rejected, no_creators_rejected, reserved_copyright_changed, dangling_annotation_reassigned, shared_id_annotation_repeated, annotation_order_changed, microseconds_lost; C24: file_type_reported, range_reported; C26: refused_untouched, unrepresentable_tree; C27: relationship_kept, relationship_only, shared_id_file_lost; C28: text_survives, multiline_survives_iff, checksum_survives, externalRef_survives, date_survives, docRef_survives, code_survives, version_survives, negative_range_rejected; C29: repeated_rejected_partial, repeated_info_rejected, second_value_reported_partial, first_value_kept_partial, first_info_value_kept; C31: listed_id_of_no_element; C32: simple_apart, succeeds_iff, clash_loses_package, special_homepage_fails; C33: package_hashes, file_hashes; C34: dropped_iff, direction_partial, special_target, dependency_of_self_loop, dependency_types_not_reversed; C35: target_lost, empty_group_dropped, scope_lost; C36: mirrors, leaves, special; C37: kept_partial, count_partial, unsupported_dropped, npm_reference_lost; C38: shared_uri_changes_reference, newline_not_read, own_namespace_loses_reference; C39: relationships; C41: repaired, unchanged, idempotent, fields; C42: status_zero_or_one, validate_only_untouched; C43: list_iff, undeclared_reported; C44: accepts_iff; C45: one_message, regex_defined; C48: contained_by_changed, commented_contains_twice, microseconds_lost, excluded_files_merged, other_checksum_refused, no_creator_refused, no_checksum_refused, tool_supplier_refused; C49: plain_package, homepage_none, reserved_copyright, comment_stripped, empty_comment_lost, attribution_once, zero_range_rejected, no_line_range_crash, anonymous_license_named, parentheses_lost; C50: names_ignored, written_proper, name_visible, license_name_visible; C51: faults_reported, misplaced_reported, misplaced_external_ref_reported, wrong_kind_reported_partial, wrong_kind_lost; C53: plain, attribute_shown, hash_shown, dataset_fails, unlisted_fails, date_shown; C54: status_zero_or_one, other_files; C55: written_reads; C57: outer_space_lost, empty_text_lost, empty_name_refused, carriage_return_changed, control_character_unreadable, empty_extracted_lost, empty_extracted_crash, negative_range_refused, single_review_not_read; C60: tables_unique, handlers, id_lost, value_void; C62: line_values, casing; C63: written_ascii, document_distinct, backspace_lost; C64: build_is_namespace, algorithm_iff, sha3_unknown; C66: messages_stay, old_messages_first, one_document, no_document_after_report; C68: checksums_read; C69: exits, exits_iff; C71: grows_once; C73: properties_lost, local_name; C76: line_number, token_there, never_too_large, same_attributes, line_of_tag, reused; C77: dates; C79: same_without_lines, same_document, lines_of_attributes; C80: missing_iff, without_arguments, defaults; C81: any_order; C82: elsewhere_matters; C83: others_anywhere, order_shows; C85: missing_iff, without_arguments, none_given; C87: json_line_ends, command_line_ends, converted_lines; C89: same_refusal, first_actor_kept, last_file_kept; C93: other_files, history, again, either_order, order_matters; C94: tag_value_dates
* `Classical.choice`, `Quot.sound`, `propext` (362 theorems): C01: format_iff, belongs_unique, format_error_iff; C02: snakeToCamel_words, camelToSnake_words, snake_camel_snake, camel_snake_camel, snakeToCamel_injective; C03: roundtrip, overflow, same_text_same_second, on_calendar; C05: roundtrip, roundtrip_only; C07: accepts_iff, documented_partial, blake3_digest_rejected, md6_too_long_accepted, newline_accepted; C08: validate_iff, documented_partial, too_many_colons, external_own_id_accepted, newline_accepted, foreign_digit_accepted; C09: reported_iff, listed, listed_once, listed_sorted, shared_iff; C10: otherwise; C11: valid_describes, reported_iff; C12: relationships_resolve, annotations_resolve, snippet_files_resolve, ids_distinct, dangling_reported; C13: no_analysis_results; C14: ranges_proper, snippet_iff; C15: no_new_algorithm, packages22, files22, snippets22, relationships22; C17: validity_preserved; C18: found_iff, lookup_unique, type_agrees, valid_unique; C20: value_iff, order_irrelevant; C23: round_trip, element_annotations_kept, annotations_permuted, round_trip_exact, regroup_idempotent, second_round_trip, written_alike; C25: implied_completed, implied_stated, document_relationships; C26: invalid_refused, written, text_only_if_valid, file_written, invalid_empties_file; C27: written_once; C28: range_survives_iff, relationship_survives, actor_survives, supplier_survives; C30: edges_iff, nodes_iff, nodup, element_node, relationship_comment, key_tells, one_path, colored; C31: element_list, document_present, keys_are_ids_partial, keys_are_ids_iff; C32: package_in_payload, file_in_payload, snippet_in_payload, elements_kept, annotation_in_payload, nothing_else; C35: merged_partial, targets_partial, commented_kept, nothing_added, stored_iff, targets_iff, document_stored_iff; C37: package_url_iff; C38: round_trip, injective, written; C40: member_names; C42: status_zero_iff, rejected_untouched; C43: accepts_iff; C44: ok_iff, by_type; C45: accepts_iff, npm_iff, nuget_iff, bower_iff, maven_iff, swh_iff, gitoid_iff, purl_iff, table; C46: names_distinct, converts, payload_partial, migrated, migrated_objects, file_fields, member_names; C47: valid_iff; C48: roundtrip, file_roundtrip; C49: round_trip, example_ok; C50: round_trip_any_names; C52: read_says_partial, elements_partial; C53: element_printed, payload_printed, others_hidden, element_printable, migrated; C54: file_written, console_written, rejected_untouched, validates, failure_keeps_file, zero_means, default_refuses_old; C55: reads_exactly, twice_refused, missing_refused, wrong_refused, counts, one_byte_range, bound_again; C56: reads_exactly, says_one, refused_iff, only_objects, none_dropped, faulty_package_refused, faulty_file_refused, faulty_snippet_refused, relationship_read, extracted_read, other_members_ignored, unknown_purpose_refused; C57: read_as_json, round_trip, round_trip_exact, told_apart; C58: regroup_verdict, order_irrelevant, json_verdict, xml_verdict, rdf_verdict, tagvalue_verdict_same, tagvalue_verdict; C59: convert, converted_passes, print; C60: no_conflicts, parser_is_lalr, parse_by_calls; C61: tokens, lexer_total, token_determined; C62: identifiers, verification_code, checksum_values, locators, urls, download_locations, versions, ranges, actors, text_blocks, document_refs, verification_codes; C63: accepts_iff, unambiguous, written_is_json, read_written, written_injective, reads_stripped, file_round_trip, delivers, convert, migrated_file; C64: understood_iff, document_understood_partial, package_not_understood; C65: payload_iff, document_iff, valid_iff, valid_document_iff, tool_only, no_name, no_root, empty_md6, empty_locator; C66: first_call, as_new_after_document, history_iff; C67: uncaught_iff, shaped, written; C68: uncaught_iff, bad_actor, each_fault_reported, each_misplaced_reported, each_wrong_kind_reported, crash_raises, abort_message; C69: reads_exactly, crashes_exactly, otherwise_refused, readable_not_bad, info_first; C70: messages_exactly, header_message, package_faults, package_missing, file_faults, file_missing, snippet_faults, snippet_missing, annotation_faults, annotation_missing, relationship_faults, relationship_missing, extracted_faults, extracted_missing, checksum_hides, header_faults, header_missing; C71: conversions, growth, conversions_grow; C72: agrees, success_iff, traceback_iff, told_parsing_iff, told_malformed_iff, told_noFile_iff, told_invalid_iff, told_version_iff, told_noDocument_iff, validate_traceback_iff, told_input_untouched, null_packages, bad_relationship, yaml_errors, xml_no_content; C73: succeeds_iff, entries, order_free, core_first; C74: messages_exactly, read_iff_nothing_said, crashes_iff_undescribed, described_iff_shaped, messages_unique, entries_reported, one_message_per_file; C75: message_iff, cases_complete, valid_iff_no_fault, in_order, names_found; C76: exact_iff, exact_line; C78: refused_with, accepted_iff, every_text, accepted_tells_nothing; C79: refused_with, true_lines; C80: made_iff, reported_iff, respects_signature, package_without_name, assigned_iff, last_accepted, always_typed; C81: same_document, same_refusal, equivalence, inside; C82: anywhere, at_start, between_lines, in_tidy; C83: same_document, same_refusal, any_order, same_verdict; C84: same_verdict, same_document; C85: made_iff, reported_iff, respects_signature, assigned_iff, last_accepted, always_typed, copies, keyword_order; C86: same_document, each_section; C87: json_layout, json_members, json_minified, json_white_space, json_indentation; C88: same_entries, same_file, plain_text; C89: same_elements; C90: cut_short, more_after, prefix_free, written_cut, command_cut; C91: same_json_file, same_tag_value_text, same_rdf_graph; C92: cut_between_sections, cut_accepted_iff; C94: json_iff, tag_value_iff, same_documents, read_dates, rdf_dates, read_then_write, rdf_then_write, tag_value_then_write; C95: rdf_iff, rdf_or_json, read_iff, without_duplicates; C96: source, to_tag_value, to_stdout, to_tree, to_rdf, same_inputs
<!-- /axioms -->
