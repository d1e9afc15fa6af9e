import Verif.Model.CliReport
import Verif.Props.C42
import Verif.Props.C63
import Verif.Props.C67
import Verif.Props.C68
import Verif.Props.C69
/-
C72 — What the user of `pyspdxtools` gets to see.

C42 says when the command succeeds.  Here: when it tells the user what was wrong, what it tells, and which files and documents end in the
traceback of an exception that the command does not expect.
-/
namespace Spdx.C72
open Spdx Spec Spec.JsonGrammar Spec.JsonShape

/-! ### Specification -/

/-- How the outcome of reading looks to those who do not care for messages. -/
def seen : ReadErr → Exc
  | .spdx _ => .parsing
  | .decode => .malformed .JSON
  | .library .scanner => .malformed .YAML
  | .library .expat => .malformed .XML
  | .library .sax => .malformed .RDF_XML
  | .library .other => .other s%"other"
  | .notFound n => .fileNotFound n
  | .exit => .other s%"SystemExit"
  | .other => .other s%"other"
  | .beyond => .other s%"other"

/-- The environment of C42 with these libraries. -/
def env (B : Libraries) : CliEnv where
  toWriteEnv := B.toWriteEnv
  parse fmt t := match readText B fmt t with
    | .ok d => .ok d
    | .error e => .error (seen e)
  openFails := B.openFails
  exportGraph := B.exportGraph

/-- A malformed `Relationship` with no malformed actor before it (C68). -/
def BadLine (text : Str) : Prop :=
  ∃ pre post, attrs (lex text) = pre ++ C68.badRelationship :: post ∧ ∀ a ∈ pre, ∀ e, ¬ C68.BadActor a e

/-- The text is one that the reader of the format has no message for: the library that reads it raises an exception the command does not
    know, or the tree has not the expected shape (C67), or a tag-value line is of the kind of C68, or the graph is bad (C69) although it
    has a document. -/
def Crashing (B : Libraries) : FileFormat → Str → Prop
  | .JSON, t => ∃ v j, JsonText v (universalNewlines t) ∧ v.toJson = some j ∧ ¬ Shaped (loadJson j)
  | .YAML, t => B.yaml t = .error .other ∨ ∃ j, B.yaml t = .ok j ∧ ¬ Shaped j
  | .XML, t => B.xml t = .error .other ∨ ∃ j d, B.xml t = .ok j ∧ xmlDocument j = some d ∧ ¬ Shaped d
  | .TAG_VALUE, t => BadLine (universalNewlines t)
  | .RDF_XML, t => B.graph t = .error .other ∨
      ∃ g b, B.graph t = .ok (g, b) ∧ Spec.RdfSays.Bad B.rdf b g ∧ ¬ Spec.RdfSays.NoDocument B.rdf g

/-- The text is not in the syntax of its format, as far as the command knows. -/
def Malformed (B : Libraries) : FileFormat → Str → FileFormat → Prop
  | .JSON, t, f => (¬ ∃ v, JsonText v (universalNewlines t)) ∧ f = .JSON
  | .YAML, t, f => ∃ e, B.yaml t = .error e ∧ (e, f) ∈ [(.scanner, .YAML), (.expat, .XML), (.sax, .RDF_XML)]
  | .XML, t, f => ∃ e, B.xml t = .error e ∧ (e, f) ∈ [(.scanner, .YAML), (.expat, .XML), (.sax, .RDF_XML)]
  | .TAG_VALUE, _, _ => False
  | .RDF_XML, t, f => ∃ e, B.graph t = .error e ∧ (e, f) ∈ [(.scanner, .YAML), (.expat, .XML), (.sax, .RDF_XML)]

/-- The reader of the format raises `SPDXParsingError` with these messages. -/
def Refused (B : Libraries) : FileFormat → Str → List PMsg → Prop
  | .JSON, t, ms => ∃ v j, JsonText v (universalNewlines t) ∧ v.toJson = some j ∧ parseDocument B.lic (loadJson j) = .error (.parsing ms)
  | .YAML, t, ms => ∃ j, B.yaml t = .ok j ∧ parseDocument B.lic j = .error (.parsing ms)
  | .XML, t, ms => ∃ j, B.xml t = .ok j ∧
      ((xmlDocument j = none ∧ ms = [.text s%"Did not find the XML top level tag \"Document\"."]) ∨
        ∃ d, xmlDocument j = some d ∧ parseDocument B.lic d = .error (.parsing ms))
  | .TAG_VALUE, t, ms => parseTagValue B.lic (universalNewlines t) = .error (.parsing ms)
  | .RDF_XML, t, ms => ∃ g b, B.graph t = .ok (g, b) ∧ readRdf B.rdf b g = .error (.parsing ms)

/-- The content of a file with a name that stands for a format. -/
def Holds (w : World) (name : Str) (fmt : FileFormat) (t : Str) : Prop := fileNameToFormat name = .ok fmt ∧ w.files name = some t

/-- The exception that writing the output ends with. -/
def OutputRaises (B : Libraries) (a : CliArgs) (d : Document) (w : World) (e : Exc) : Prop :=
  match a.outfile, a.graph with
  | some ['-'], _ => (writeTagValue B.lic d).raises = true ∧ e = .unrepresentable
  | out, true => ∃ w', B.exportGraph d out w = (w', some e)
  | none, false | some [], false => False
  | some name, false => (fileNameToFormat name = .error name ∧ e = .parsing) ∨
      ∃ fmt, fileNameToFormat name = .ok fmt ∧
        (B.openFails name = some e ∨ (B.openFails name = none ∧ (serialize B.toWriteEnv fmt (dedupDocument B.ext d)).raised = some e))

/-- A picture is asked for. -/
def Drawing (a : CliArgs) : Prop := a.graph = true ∧ a.outfile ≠ some s%"-"

/-- The exceptions that no `except` clause names.  An `ImportError` is expected when a picture is asked for, and only then. -/
def Unexpected (a : CliArgs) : Exc → Prop
  | .invalidDocument _ | .unrepresentable | .other _ => True
  | .importError => ¬ Drawing a
  | .malformed fmt => fmt = .TAG_VALUE
  | .parsing | .notImplemented | .fileNotFound _ => False

/-- The input is read and passes the validation asked for, but writing the output ends with this exception. -/
def OutputFails (B : Libraries) (a : CliArgs) (w : World) (e : Exc) : Prop :=
  ∃ d, C42.Reads (env B) w a.infile d ∧ C42.Passes (env B) a d ∧ OutputRaises B a d w e

/-- The version the document is validated for. -/
def versionFor (a : CliArgs) (d : Document) : Str :=
  match a.version with
  | none | some [] => d.creationInfo.spdxVersion
  | some v => v

/-! ### Lemmas -/

private theorem end_spdx {r : Py Document} {ms : List PMsg} : readEnd r = .error (.spdx ms) ↔ r = .error (.parsing ms) := by
  rcases r with (_ | _) | d <;> simp [readEnd]

private theorem end_ok {r : Py Document} {d : Document} : readEnd r = .ok d ↔ r = .ok d := by
  rcases r with (_ | _) | d <;> simp [readEnd]

private theorem end_cases (r : Py Document) : (∃ d, readEnd r = .ok d) ∨ (∃ ms, readEnd r = .error (.spdx ms)) ∨ readEnd r = .error .other := by
  rcases r with (_ | _) | d <;> simp [readEnd]

private theorem end_other {r : Py Document} : readEnd r = .error .other ↔ C66.Uncaught r := by
  unfold C66.Uncaught
  rcases r with (ms | x) | d <;> simp [readEnd]

/-- The outcome of a reader never is one of these. -/
private theorem end_not {r : Py Document} {e : ReadErr} (h : readEnd r = .error e) : (∃ ms, e = .spdx ms) ∨ e = .other := by
  rcases r with (_ | _) | d <;> simp [readEnd] at h <;> simp [← h]

private theorem refused_iff (B : Libraries) (fmt : FileFormat) (t : Str) (ms : List PMsg) :
    readText B fmt t = .error (.spdx ms) ↔ Refused B fmt t ms := by
  cases fmt with
  | JSON =>
    simp only [readText, readJsonFile, parseJsonFile, Refused, ← C63.accepts_iff]
    cases loadText (universalNewlines t) with
    | none => simp
    | some v =>
      cases hj : v.toJson with
      | none => simp [hj]
      | some j => simp [hj, end_spdx]
  | YAML =>
    simp only [readText, readYamlFile, Refused]
    cases B.yaml t <;> simp [end_spdx]
  | XML =>
    simp only [readText, readXmlFile, Refused]
    cases B.xml t with
    | error e => simp
    | ok j => cases hd : xmlDocument j <;> simp [end_spdx, hd, eq_comm]
  | TAG_VALUE => exact end_spdx
  | RDF_XML =>
    simp only [readText, readRdfFile, Refused]
    cases B.graph t with
    | error e => simp
    | ok p =>
      obtain ⟨g, b⟩ := p
      simp only [Except.ok.injEq, Prod.mk.injEq]
      constructor
      · intro h
        split at h
        · cases h
        · exact ⟨g, b, ⟨rfl, rfl⟩, end_spdx.1 h⟩
      · rintro ⟨_, _, ⟨rfl, rfl⟩, h⟩
        rw [h, if_neg (by simp [systemExit])]
        rfl

private theorem crashing_iff (B : Libraries) (fmt : FileFormat) (t : Str) :
    (readText B fmt t = .error .other ∨ readText B fmt t = .error (.library .other)) ↔ Crashing B fmt t := by
  cases fmt with
  | JSON =>
    simp only [readText, readJsonFile, parseJsonFile, Crashing, ← C63.accepts_iff]
    cases loadText (universalNewlines t) with
    | none => simp
    | some v =>
      cases hj : v.toJson with
      | none => simp [hj]
      | some j =>
        simp only [hj, end_other, C67.uncaught_iff, Option.some.injEq, exists_and_left]
        constructor
        · rintro (h | h)
          · exact ⟨v, rfl, j, hj, h⟩
          · rcases end_not h with ⟨_, e⟩ | e <;> cases e
        · rintro ⟨_, rfl, j', h', h⟩
          rw [hj] at h'
          cases h'
          exact .inl h
  | YAML =>
    simp only [readText, readYamlFile, Crashing]
    cases B.yaml t with
    | error e => simp
    | ok j =>
      simp only [end_other, C67.uncaught_iff, Except.ok.injEq, reduceCtorEq, false_or, exists_eq_left']
      refine ⟨?_, .inl⟩
      rintro (h | h)
      · exact h
      · rcases end_not h with ⟨_, e⟩ | e <;> cases e
  | XML =>
    simp only [readText, readXmlFile, Crashing]
    cases B.xml t with
    | error e => simp
    | ok j =>
      cases hd : xmlDocument j with
      | none => simp [hd]
      | some d =>
        simp only [end_other, C67.uncaught_iff, Except.ok.injEq, reduceCtorEq, false_or, exists_and_left, exists_eq_left', hd, Option.some.injEq]
        refine ⟨?_, .inl⟩
        rintro (h | h)
        · exact h
        · rcases end_not h with ⟨_, e⟩ | e <;> cases e
  | TAG_VALUE =>
    simp only [readText, Crashing, BadLine]
    rw [end_other, parseTagValueFile, C68.uncaught_iff]
    refine ⟨?_, .inl⟩
    rintro (h | h)
    · exact h
    · rcases end_not h with ⟨_, e⟩ | e <;> cases e
  | RDF_XML =>
    simp only [readText, readRdfFile, Crashing]
    cases B.graph t with
    | error e => simp
    | ok p =>
      obtain ⟨g, b⟩ := p
      simp only [reduceCtorEq, false_or, Except.ok.injEq, Prod.mk.injEq]
      constructor
      · intro h
        by_cases hx : readRdf B.rdf b g = .error systemExit
        · rw [if_pos hx] at h
          rcases h with h | h <;> cases h
        · rw [if_neg hx] at h
          refine ⟨g, b, ⟨rfl, rfl⟩, ?_, fun hn => hx (C69.exits hn)⟩
          rcases h with h | h
          · exact (C69.crashes_exactly B.rdf b g).1 (end_other.1 h)
          · rcases end_not h with ⟨_, e⟩ | e <;> cases e
      · rintro ⟨_, _, ⟨rfl, rfl⟩, hb, hn⟩
        rw [if_neg fun hx : _ = Except.error systemExit => hn ((C69.exits_iff B.rdf b g).1 hx)]
        exact .inl (end_other.2 ((C69.crashes_exactly B.rdf b g).2 hb))

private theorem told_library {e : LibErr} {f : FileFormat} :
    readErrEnd (.library e) = .told (.malformed f) ↔ (e, f) ∈ [(LibErr.scanner, FileFormat.YAML), (.expat, .XML), (.sax, .RDF_XML)] := by
  cases e <;> cases f <;> simp [readErrEnd]

private theorem told_end {r : Py Document} {e : ReadErr} {f : FileFormat} (h : readEnd r = .error e) : ¬ readErrEnd e = .told (.malformed f) := by
  rcases end_not h with ⟨_, rfl⟩ | rfl <;> simp [readErrEnd]

private theorem malformed_iff (B : Libraries) (fmt : FileFormat) (t : Str) (f : FileFormat) :
    (∃ e, readText B fmt t = .error e ∧ readErrEnd e = .told (.malformed f)) ↔ Malformed B fmt t f := by
  cases fmt with
  | JSON =>
    simp only [readText, readJsonFile, parseJsonFile, Malformed, ← C63.accepts_iff]
    cases loadText (universalNewlines t) with
    | none => cases f <;> simp [readErrEnd]
    | some v =>
      cases hj : v.toJson with
      | none => simp [hj, readErrEnd]
      | some j =>
        simp only [hj, Option.some.injEq, exists_eq', not_true_eq_false, false_and, iff_false]
        rintro ⟨e, h, he⟩
        exact told_end h he
  | YAML =>
    simp only [readText, readYamlFile, Malformed]
    cases B.yaml t with
    | error e => simp only [Except.error.injEq, exists_eq_left', told_library]
    | ok j =>
      simp only [reduceCtorEq, false_and, exists_false, iff_false]
      rintro ⟨e, h, he⟩
      exact told_end h he
  | XML =>
    simp only [readText, readXmlFile, Malformed]
    cases B.xml t with
    | error e => simp only [Except.error.injEq, exists_eq_left', told_library]
    | ok j =>
      simp only [reduceCtorEq, false_and, exists_false, iff_false]
      rintro ⟨e, h, he⟩
      split at h
      · cases h
        cases he
      · exact told_end h he
  | TAG_VALUE =>
    simp only [Malformed, iff_false]
    rintro ⟨e, h, he⟩
    exact told_end h he
  | RDF_XML =>
    simp only [readText, readRdfFile, Malformed]
    cases B.graph t with
    | error e => simp only [Except.error.injEq, exists_eq_left', told_library]
    | ok p =>
      obtain ⟨g, b⟩ := p
      simp only [reduceCtorEq, false_and, exists_false, iff_false]
      rintro ⟨e, h, he⟩
      split at h
      · cases h
        cases he
      · exact told_end h he

private theorem exit_iff (B : Libraries) (fmt : FileFormat) (t : Str) :
    readText B fmt t = .error .exit ↔ fmt = .RDF_XML ∧ ∃ g b, B.graph t = .ok (g, b) ∧ Spec.RdfSays.NoDocument B.rdf g := by
  have plain : ∀ r : Py Document, ¬ readEnd r = .error .exit := fun r h => by rcases end_not h with ⟨_, e⟩ | e <;> cases e
  cases fmt with
  | JSON =>
    simp only [readText, readJsonFile, reduceCtorEq, false_and, iff_false]
    cases parseJsonFile B.lic t <;> simp [plain]
  | YAML =>
    simp only [readText, readYamlFile, reduceCtorEq, false_and, iff_false]
    cases B.yaml t <;> simp [plain]
  | XML =>
    simp only [readText, readXmlFile, reduceCtorEq, false_and, iff_false]
    cases B.xml t with
    | error e => simp
    | ok j => cases hd : xmlDocument j <;> simp [plain, hd]
  | TAG_VALUE => simp [readText, plain]
  | RDF_XML =>
    simp only [readText, readRdfFile, true_and]
    cases B.graph t with
    | error e => simp
    | ok p =>
      obtain ⟨g, b⟩ := p
      simp only [Except.ok.injEq, Prod.mk.injEq]
      constructor
      · intro h
        split at h
        · rename_i hx
          exact ⟨g, b, ⟨rfl, rfl⟩, (C69.exits_iff B.rdf b g).1 hx⟩
        · exact absurd h (plain _)
      · rintro ⟨_, _, ⟨rfl, rfl⟩, h⟩
        exact if_pos (C69.exits h)

private theorem not_found (B : Libraries) (fmt : FileFormat) (t n : Str) : ¬ readText B fmt t = .error (.notFound n) := by
  have plain : ∀ r : Py Document, ¬ readEnd r = .error (.notFound n) := fun r h => by rcases end_not h with ⟨_, e⟩ | e <;> cases e
  cases fmt with
  | JSON =>
    simp only [readText, readJsonFile]
    cases parseJsonFile B.lic t <;> simp [plain]
  | YAML =>
    simp only [readText, readYamlFile]
    cases B.yaml t <;> simp [plain]
  | XML =>
    simp only [readText, readXmlFile]
    cases B.xml t with
    | error e => simp
    | ok j => cases hd : xmlDocument j <;> simp [plain, hd]
  | TAG_VALUE => simp [readText, plain]
  | RDF_XML =>
    simp only [readText, readRdfFile]
    cases B.graph t with
    | error e => simp
    | ok p =>
      obtain ⟨g, b⟩ := p
      intro h
      dsimp only at h
      split at h
      · cases h
      · exact plain _ h

/-- Reading the file ends with a document, as in C42. -/
private theorem read_ok (B : Libraries) (w : World) (name : Str) (d : Document) :
    readNamed B name w = .ok d ↔ C42.Reads (env B) w name d := by
  rw [← C42.reads_iff]
  unfold readNamed parseFileAny
  cases fileNameToFormat name with
  | error e => simp
  | ok fmt =>
    cases w.files name with
    | none => simp
    | some t =>
      simp only [env]
      cases readText B fmt t <;> simp

/-- Reading the file ends with an exception. -/
private theorem read_error (B : Libraries) (w : World) (name : Str) (e : ReadErr) : readNamed B name w = .error e ↔
    (fileNameToFormat name = .error name ∧ e = .spdx [unsupportedType name]) ∨
    (∃ fmt, fileNameToFormat name = .ok fmt ∧ w.files name = none ∧ e = .notFound name) ∨
    ∃ fmt t, Holds w name fmt t ∧ readText B fmt t = .error e := by
  unfold readNamed Holds
  cases hf : fileNameToFormat name with
  | error x =>
    have hx : x = name := by
      unfold fileNameToFormat at hf
      repeat' split at hf
      all_goals first | (cases hf; done) | (cases hf; rfl)
    simp [hx, eq_comm]
  | ok fmt =>
    cases w.files name with
    | none => simp [eq_comm]
    | some t =>
      simp only [reduceCtorEq, false_and, false_or, and_false, exists_false, Except.ok.injEq, Option.some.injEq]
      constructor
      · exact fun h => ⟨fmt, t, ⟨rfl, rfl⟩, h⟩
      · rintro ⟨_, _, ⟨rfl, rfl⟩, h⟩
        exact h

private theorem validation_iff (B : Libraries) (a : CliArgs) (d : Document) (x : CliEnd) : validationEnd B a d = some x ↔
    a.novalidation = false ∧
      ((versionFor a d ∉ [v22, v23] ∧ x = .told (.unsupportedVersion (versionFor a d))) ∨
        (versionFor a d ∈ [v22, v23] ∧ validateDocument B.ext d (some (versionFor a d)) ≠ [] ∧
          x = .told (.invalid (validateDocument B.ext d (some (versionFor a d)))))) := by
  have hv : cliVersion a d = versionFor a d := by
    unfold versionFor cliVersion
    rcases a.version with _ | _ | ⟨c, v⟩ <;> simp
  unfold validationEnd
  rw [hv]
  cases a.novalidation with
  | true => simp
  | false =>
    simp only [Bool.false_eq_true, if_false, true_and, List.contains_iff_mem]
    by_cases hc : versionFor a d ∈ [v22, v23]
    · rw [if_neg (not_not_intro hc)]
      simp only [hc, not_true_eq_false, false_and, false_or, true_and]
      cases hm : validateDocument B.ext d (some (versionFor a d)) with
      | nil => simp
      | cons m ms => simp only [Option.some.injEq, ne_eq, reduceCtorEq, not_false_eq_true, true_and]; exact eq_comm
    · rw [if_pos hc]
      simp only [hc, not_false_eq_true, true_and, false_and, or_false, Option.some.injEq]
      exact eq_comm

private theorem validation_none (B : Libraries) (a : CliArgs) (d : Document) : validationEnd B a d = none ↔ C42.Passes (env B) a d := by
  rw [← C42.passes_iff]
  unfold validationEnd cliValidation
  cases a.novalidation with
  | true => simp
  | false =>
    show (if ¬ [v22, v23].contains (cliVersion a d) = true then _ else _) = none ↔
      (if ¬ [v22, v23].contains (cliVersion a d) = true then some (Exc.other s%"SystemExit")
        else match validateDocument B.ext d (some (cliVersion a d)) with | [] => none | ms => some (Exc.invalidDocument ms)) = none
    split
    · simp
    · cases validateDocument B.ext d (some (cliVersion a d)) <;> simp

/-- What the exception of the output looks like to the user. -/
private noncomputable def ended (a : CliArgs) (e : Exc) : CliEnd :=
  open Classical in if Drawing a ∧ e = .importError then .told .noGraphLibraries else writeErrEnd (a.outfile.getD []) e

private theorem not_success (name : Str) (e : Exc) : writeErrEnd name e ≠ .success := by
  cases e with
  | malformed fmt => cases fmt <;> simp [writeErrEnd]
  | _ => simp [writeErrEnd]

private theorem name_error {name x : Str} (h : fileNameToFormat name = .error x) : x = name := by
  unfold fileNameToFormat at h
  repeat' split at h
  all_goals first | (cases h; done) | (cases h; rfl)

private theorem file_raises (B : Libraries) (d : Document) (name : Str) (w : World) (e : Exc) :
    (writeFileAny B.toWriteEnv B.openFails d name false w).2 = some e ↔
      (fileNameToFormat name = .error name ∧ e = .parsing) ∨
      ∃ fmt, fileNameToFormat name = .ok fmt ∧
        (B.openFails name = some e ∨ (B.openFails name = none ∧ (serialize B.toWriteEnv fmt (dedupDocument B.ext d)).raised = some e)) := by
  unfold writeFileAny
  cases hn : fileNameToFormat name with
  | error x =>
    rw [name_error hn]
    simp [eq_comm]
  | ok fmt =>
    simp only [writeToFile]
    cases ho : B.openFails name with
    | some x => simp
    | none =>
      have : writeToStream B.toWriteEnv fmt d false true = serialize B.toWriteEnv fmt (dedupDocument B.ext d) :=
        C26.written B.toWriteEnv fmt d false true (by simp)
      simp [this]

/-- The end of the output, with the exception it ends with. -/
private theorem output_raises (B : Libraries) (a : CliArgs) (d : Document) (w : World) :
    ((outputEnd B a d w).1 = .success ∧ ∀ e, ¬ OutputRaises B a d w e) ∨
      ∃ e, (∀ e', OutputRaises B a d w e' ↔ e' = e) ∧ (outputEnd B a d w).1 = ended a e := by
  unfold outputEnd
  by_cases h1 : a.outfile = some s%"-"
  · rw [if_pos h1]
    have hd : ¬ Drawing a := fun h => h.2 h1
    have hr : ∀ e, OutputRaises B a d w e ↔ (writeTagValue B.lic d).raises = true ∧ e = .unrepresentable := by
      intro e
      unfold OutputRaises
      rw [h1]
      cases a.graph <;> exact Iff.rfl
    simp only [hr, serialize]
    cases (writeTagValue B.lic d).raises with
    | false => exact .inl ⟨rfl, fun e h => by cases h.1⟩
    | true =>
      refine .inr ⟨.unrepresentable, fun e => by simp, ?_⟩
      unfold ended
      rw [if_neg fun h : Drawing a ∧ _ => hd h.1]
      rfl
  · rw [if_neg h1]
    cases hg : a.graph with
    | true =>
      have hr : ∀ e, OutputRaises B a d w e ↔ ∃ w', B.exportGraph d a.outfile w = (w', some e) := by
        intro e
        unfold OutputRaises
        rw [hg]
        split
        · rename_i h; exact absurd h h1
        · rfl
        · simp_all
        · simp_all
        · simp_all
      simp only [hr, if_true]
      have hd : Drawing a := ⟨hg, h1⟩
      rcases B.exportGraph d a.outfile w with ⟨w', _ | e⟩
      · exact .inl ⟨rfl, fun e ⟨w'', h⟩ => by cases h⟩
      · refine .inr ⟨e, fun e' => ⟨fun ⟨w'', h⟩ => by cases h; rfl, fun h => ⟨w', by rw [h]⟩⟩, ?_⟩
        unfold ended
        by_cases he : e = .importError
        · subst he
          rw [if_pos ⟨hd, rfl⟩]
        · rw [if_neg fun h => he h.2]
          cases e <;> first | rfl | exact absurd rfl he
    | false =>
      have hd : ¬ Drawing a := fun h => by have := h.1; rw [hg] at this; cases this
      simp only [Bool.false_eq_true, if_false]
      cases ho : a.outfile with
      | none =>
        refine .inl ⟨rfl, fun e h => ?_⟩
        unfold OutputRaises at h
        rw [hg, ho] at h
        exact h
      | some name =>
        by_cases he : name = []
        · subst he
          refine .inl ⟨rfl, fun e h => ?_⟩
          unfold OutputRaises at h
          rw [hg, ho] at h
          exact h
        · have hr : ∀ e, OutputRaises B a d w e ↔ (writeFileAny B.toWriteEnv B.openFails d name false w).2 = some e := by
            intro e
            rw [file_raises]
            unfold OutputRaises
            rw [hg, ho]
            split
            · rename_i h; exact absurd (ho.trans h) h1
            · rename_i h _; cases h
            · rename_i h _; cases h
            · rename_i h _; exact absurd (Option.some.inj h) he
            · rename_i h _; cases h; rfl
          simp only [hr, if_neg he]
          rcases writeFileAny B.toWriteEnv B.openFails d name false w with ⟨w', _ | e⟩
          · exact .inl ⟨rfl, fun e h => by cases h⟩
          · refine .inr ⟨e, fun e' => ⟨fun h => (Option.some.inj h).symm, fun h => by rw [h]⟩, ?_⟩
            unfold ended
            rw [if_neg fun h : Drawing a ∧ _ => hd h.1, ho]
            rfl

private theorem ended_success (a : CliArgs) (e : Exc) : ended a e ≠ .success := by
  unfold ended
  split
  · simp
  · exact not_success _ _

private theorem output_iff (B : Libraries) (a : CliArgs) (d : Document) (w : World) {x : CliEnd} (hx : x ≠ .success) :
    (outputEnd B a d w).1 = x ↔ ∃ e, OutputRaises B a d w e ∧ ended a e = x := by
  rcases output_raises B a d w with ⟨h, hn⟩ | ⟨e, hr, h⟩
  · rw [h]
    exact ⟨fun e => absurd e.symm hx, fun ⟨e, he, _⟩ => absurd he (hn e)⟩
  · rw [h]
    constructor
    · exact fun hh => ⟨e, (hr e).2 rfl, hh⟩
    · rintro ⟨e', h1, h2⟩
      rw [← (hr e').1 h1, h2]

/-- How the command ends, unless successfully. -/
private theorem report_iff (B : Libraries) (a : CliArgs) (w : World) {x : CliEnd} (hx : x ≠ .success) : (cliReport B a w).1 = x ↔
    (∃ e, readNamed B a.infile w = .error e ∧ readErrEnd e = x) ∨
    (∃ d, C42.Reads (env B) w a.infile d ∧ validationEnd B a d = some x) ∨
    ∃ e, OutputFails B a w e ∧ ended a e = x := by
  unfold cliReport OutputFails
  simp only [← read_ok, ← validation_none]
  cases readNamed B a.infile w with
  | error e => simp
  | ok d =>
    simp only [reduceCtorEq, false_and, exists_false, false_or, Except.ok.injEq, exists_eq_left']
    cases hv : validationEnd B a d with
    | some y => simp
    | none =>
      simp only [reduceCtorEq, false_or]
      rw [output_iff B a d w hx]
      constructor
      · rintro ⟨e, h1, h2⟩
        exact ⟨e, ⟨trivial, h1⟩, h2⟩
      · rintro ⟨e, ⟨_, h1⟩, h2⟩
        exact ⟨e, h1, h2⟩

private theorem read_end_iff (B : Libraries) (w : World) (name : Str) (x : CliEnd) : (∃ e, readNamed B name w = .error e ∧ readErrEnd e = x) ↔
    (fileNameToFormat name = .error name ∧ x = .told (.parsing [unsupportedType name])) ∨
    (∃ fmt, fileNameToFormat name = .ok fmt ∧ w.files name = none ∧ x = .told (.noFile name)) ∨
    ∃ fmt t, Holds w name fmt t ∧ ∃ e, readText B fmt t = .error e ∧ readErrEnd e = x := by
  simp only [read_error]
  constructor
  · rintro ⟨e, ⟨h, rfl⟩ | ⟨fmt, h, hn, rfl⟩ | ⟨fmt, t, h, he⟩, rfl⟩
    · exact .inl ⟨h, rfl⟩
    · exact .inr (.inl ⟨fmt, h, hn, rfl⟩)
    · exact .inr (.inr ⟨fmt, t, h, e, he, rfl⟩)
  · rintro (⟨h, rfl⟩ | ⟨fmt, h, hn, rfl⟩ | ⟨fmt, t, h, e, he, rfl⟩)
    · exact ⟨_, .inl ⟨h, rfl⟩, rfl⟩
    · exact ⟨_, .inr (.inl ⟨fmt, h, hn, rfl⟩), rfl⟩
    · exact ⟨e, .inr (.inr ⟨fmt, t, h, he⟩), rfl⟩

private theorem ended_traceback (a : CliArgs) (e : Exc) : ended a e = .traceback ↔ Unexpected a e := by
  unfold ended
  split
  · rename_i h
    rw [h.2]
    simp [Unexpected, h.1]
  · rename_i h
    cases e with
    | malformed fmt => cases fmt <;> simp [writeErrEnd, Unexpected]
    | importError =>
      simp only [writeErrEnd, Unexpected, true_iff]
      exact fun hd => h ⟨hd, rfl⟩
    | _ => simp [writeErrEnd, Unexpected]

private theorem ended_parsing (a : CliArgs) (e : Exc) (ms : List PMsg) :
    ended a e = .told (.parsing ms) ↔ e = .parsing ∧ ms = [unsupportedType (a.outfile.getD [])] := by
  unfold ended
  split
  · rename_i h
    rw [h.2]
    simp
  · cases e with
    | malformed fmt => cases fmt <;> simp [writeErrEnd]
    | _ => simp [writeErrEnd, eq_comm]

private theorem ended_malformed (a : CliArgs) (e : Exc) (f : FileFormat) :
    ended a e = .told (.malformed f) ↔ e = .malformed f ∧ f ≠ .TAG_VALUE := by
  unfold ended
  split
  · rename_i h
    rw [h.2]
    simp
  · cases e with
    | malformed fmt => cases fmt <;> cases f <;> simp [writeErrEnd]
    | _ => simp [writeErrEnd]

private theorem ended_noFile (a : CliArgs) (e : Exc) (n : Str) : ended a e = .told (.noFile n) ↔ e = .fileNotFound n := by
  unfold ended
  split
  · rename_i h
    rw [h.2]
    simp
  · cases e with
    | malformed fmt => cases fmt <;> simp [writeErrEnd]
    | _ => simp [writeErrEnd]

private theorem ended_not (a : CliArgs) (e : Exc) : (∀ v, ended a e ≠ .told (.unsupportedVersion v)) ∧ (∀ ms, ended a e ≠ .told (.invalid ms)) ∧
    ended a e ≠ .told .noDocument := by
  unfold ended
  split
  · simp
  · cases e with
    | malformed fmt => cases fmt <;> simp [writeErrEnd]
    | _ => simp [writeErrEnd]

private theorem read_not (e : ReadErr) : (∀ v, readErrEnd e ≠ .told (.unsupportedVersion v)) ∧ (∀ ms, readErrEnd e ≠ .told (.invalid ms)) := by
  cases e with
  | library x => cases x <;> simp [readErrEnd]
  | _ => simp [readErrEnd]

private theorem told_by_validation {B : Libraries} {a : CliArgs} {d : Document} {x : CliEnd} (h : validationEnd B a d = some x) :
    (∃ v, x = .told (.unsupportedVersion v)) ∨ ∃ ms, x = .told (.invalid ms) := by
  rcases (validation_iff B a d x).1 h with ⟨_, ⟨_, e⟩ | ⟨_, _, e⟩⟩
  · exact .inl ⟨_, e⟩
  · exact .inr ⟨_, e⟩

private theorem output_agrees (B : Libraries) (a : CliArgs) (d : Document) (w : World) :
    (cliOutput (env B) a d w).1 = (outputEnd B a d w).2 ∧ ((cliOutput (env B) a d w).2 = none ↔ (outputEnd B a d w).1 = .success) := by
  unfold cliOutput outputEnd
  by_cases h1 : a.outfile = some s%"-"
  · rw [if_pos h1, if_pos h1]
    have e : (env B).toWriteEnv = B.toWriteEnv := rfl
    rw [e]
    generalize serialize B.toWriteEnv .TAG_VALUE d = out
    rcases out with ⟨t, _ | x⟩
    · simp
    · simp [not_success]
  · rw [if_neg h1, if_neg h1]
    cases a.graph with
    | true =>
      rw [if_pos rfl, if_pos rfl]
      show (B.exportGraph d a.outfile w).1 = _ ∧ ((B.exportGraph d a.outfile w).2 = none ↔ _)
      rcases B.exportGraph d a.outfile w with ⟨w', _ | e⟩
      · simp
      · cases e <;> simp [not_success]
    | false =>
      rw [if_neg (by simp), if_neg (by simp)]
      cases a.outfile with
      | none => simp
      | some name =>
        dsimp only
        by_cases he : name = []
        · rw [if_pos he, if_pos he]
          simp
        · rw [if_neg he, if_neg he]
          show (writeFileAny B.toWriteEnv B.openFails d name false w).1 = _ ∧ ((writeFileAny B.toWriteEnv B.openFails d name false w).2 = none ↔ _)
          rcases writeFileAny B.toWriteEnv B.openFails d name false w with ⟨w', _ | e⟩
          · simp
          · simp [not_success]

/-! ### Theorems -/

/-- The command with these libraries is the command of C42. -/
theorem agrees (B : Libraries) (a : CliArgs) (w : World) :
    cliMain (env B) a w = (if (cliReport B a w).1 = .success then 0 else 1, (cliReport B a w).2) := by
  cases hr : readNamed B a.infile w with
  | error e =>
    have h : cliReport B a w = (readErrEnd e, w) := by unfold cliReport; rw [hr]
    rw [h]
    unfold cliMain
    cases hp : parseFileAny (env B) a.infile w with
    | error x =>
      cases e with
      | library y => cases y <;> simp [readErrEnd]
      | _ => simp [readErrEnd]
    | ok d => rw [(read_ok B w a.infile d).2 ((C42.reads_iff _ w a.infile d).1 hp)] at hr; cases hr
  | ok d =>
    unfold cliMain
    rw [(C42.reads_iff (env B) w a.infile d).2 ((read_ok B w a.infile d).1 hr)]
    dsimp only
    cases hv : validationEnd B a d with
    | some x =>
      have h : cliReport B a w = (x, w) := by unfold cliReport; rw [hr]; dsimp only; rw [hv]
      rw [h]
      cases hc : cliValidation (env B) a d with
      | none => rw [(validation_none B a d).2 ((C42.passes_iff _ a d).1 hc)] at hv; cases hv
      | some y => rcases told_by_validation hv with ⟨_, rfl⟩ | ⟨_, rfl⟩ <;> simp
    | none =>
      have h : cliReport B a w = outputEnd B a d w := by unfold cliReport; rw [hr]; dsimp only; rw [hv]
      rw [h, (C42.passes_iff (env B) a d).2 ((validation_none B a d).1 hv)]
      dsimp only
      obtain ⟨h1, h2⟩ := output_agrees B a d w
      rcases ho : cliOutput (env B) a d w with ⟨w', _ | e⟩
      · rw [ho] at h1 h2
        rw [if_pos (h2.1 rfl), ← h1]
      · rw [ho] at h1 h2
        rw [if_neg fun h => absurd (h2.2 h) (by simp), ← h1]

/-- The command ends successfully exactly if the file is a document that passes the validation asked for and the output is produced. -/
theorem success_iff (B : Libraries) (a : CliArgs) (w w' : World) :
    cliReport B a w = (.success, w') ↔ ∃ d, C42.Reads (env B) w a.infile d ∧ C42.Passes (env B) a d ∧ C42.Produces (env B) a d w w' := by
  rw [← C42.status_zero_iff, agrees]
  rcases cliReport B a w with ⟨x, w''⟩
  by_cases h : x = .success <;> simp [h]

/-- The command ends with the traceback of an exception it does not expect exactly if the text is one its reader has no message for, or
    the output raises an exception that no `except` clause names. -/
theorem traceback_iff (B : Libraries) (a : CliArgs) (w : World) : (cliReport B a w).1 = .traceback ↔
    (∃ fmt t, Holds w a.infile fmt t ∧ Crashing B fmt t) ∨ ∃ e, OutputFails B a w e ∧ Unexpected a e := by
  rw [report_iff B a w (by simp), read_end_iff]
  simp only [reduceCtorEq, and_false, exists_false, false_or, ended_traceback, ← crashing_iff]
  constructor
  · rintro (⟨fmt, t, h, e, he, hx⟩ | ⟨d, _, hv⟩ | h)
    · refine .inl ⟨fmt, t, h, ?_⟩
      rw [he]
      cases e with
      | library x => cases x <;> simp_all [readErrEnd]
      | _ => simp_all [readErrEnd]
    · rcases told_by_validation hv with ⟨_, e⟩ | ⟨_, e⟩ <;> cases e
    · exact .inr h
  · rintro (⟨fmt, t, h, hc⟩ | h)
    · rcases hc with hc | hc
      · exact .inl ⟨fmt, t, h, _, hc, rfl⟩
      · exact .inl ⟨fmt, t, h, _, hc, rfl⟩
    · exact .inr (.inr h)

/-- The command tells what the reader found, or that it does not know the ending of the name. -/
theorem told_parsing_iff (B : Libraries) (a : CliArgs) (w : World) (ms : List PMsg) : (cliReport B a w).1 = .told (.parsing ms) ↔
    (fileNameToFormat a.infile = .error a.infile ∧ ms = [unsupportedType a.infile]) ∨
    (∃ fmt t, Holds w a.infile fmt t ∧ Refused B fmt t ms) ∨
    (OutputFails B a w .parsing ∧ ms = [unsupportedType (a.outfile.getD [])]) := by
  rw [report_iff B a w (by simp), read_end_iff]
  simp only [ended_parsing, ← refused_iff]
  constructor
  · rintro ((⟨h, e⟩ | ⟨_, _, _, e⟩ | ⟨fmt, t, h, e, he, hx⟩) | ⟨d, _, hv⟩ | ⟨e, h, rfl, hm⟩)
    · cases e
      exact .inl ⟨h, rfl⟩
    · cases e
    · refine .inr (.inl ⟨fmt, t, h, ?_⟩)
      rw [he]
      cases e with
      | library x => cases x <;> simp_all [readErrEnd]
      | _ => simp_all [readErrEnd]
    · rcases told_by_validation hv with ⟨_, e⟩ | ⟨_, e⟩ <;> cases e
    · exact .inr (.inr ⟨h, hm⟩)
  · rintro (⟨h, rfl⟩ | ⟨fmt, t, h, he⟩ | ⟨h, rfl⟩)
    · exact .inl (.inl ⟨h, rfl⟩)
    · exact .inl (.inr (.inr ⟨fmt, t, h, _, he, rfl⟩))
    · exact .inr (.inr ⟨_, h, rfl, rfl⟩)

/-- The command tells that a text is malformed exactly if it is not in the syntax of its format; a tag-value text never is. -/
theorem told_malformed_iff (B : Libraries) (a : CliArgs) (w : World) (f : FileFormat) : (cliReport B a w).1 = .told (.malformed f) ↔
    (∃ fmt t, Holds w a.infile fmt t ∧ Malformed B fmt t f) ∨ (OutputFails B a w (.malformed f) ∧ f ≠ .TAG_VALUE) := by
  rw [report_iff B a w (by simp), read_end_iff]
  simp only [ended_malformed, ← malformed_iff]
  constructor
  · rintro ((⟨_, e⟩ | ⟨_, _, _, e⟩ | h) | ⟨d, _, hv⟩ | ⟨e, h, rfl, hm⟩)
    · cases e
    · cases e
    · exact .inl h
    · rcases told_by_validation hv with ⟨_, e⟩ | ⟨_, e⟩ <;> cases e
    · exact .inr ⟨h, hm⟩
  · rintro (h | ⟨h, hm⟩)
    · exact .inl (.inr (.inr h))
    · exact .inr (.inr ⟨_, h, rfl, hm⟩)

/-- The command tells that a file is missing. -/
theorem told_noFile_iff (B : Libraries) (a : CliArgs) (w : World) (n : Str) : (cliReport B a w).1 = .told (.noFile n) ↔
    (∃ fmt, fileNameToFormat a.infile = .ok fmt ∧ w.files a.infile = none ∧ n = a.infile) ∨ OutputFails B a w (.fileNotFound n) := by
  rw [report_iff B a w (by simp), read_end_iff]
  simp only [ended_noFile]
  constructor
  · rintro ((⟨_, e⟩ | ⟨fmt, h, hn, e⟩ | ⟨fmt, t, h, e, he, hx⟩) | ⟨d, _, hv⟩ | ⟨e, h, rfl⟩)
    · cases e
    · cases e
      exact .inl ⟨fmt, h, hn, rfl⟩
    · cases e with
      | library x => cases x <;> cases hx
      | notFound m => exact absurd he (not_found B fmt t m)
      | _ => cases hx
    · rcases told_by_validation hv with ⟨_, e⟩ | ⟨_, e⟩ <;> cases e
    · exact .inr h
  · rintro (⟨fmt, h, hn, rfl⟩ | h)
    · exact .inl (.inr (.inl ⟨fmt, h, hn, rfl⟩))
    · exact .inr (.inr ⟨_, h, rfl⟩)

/-- The command tells that the document is invalid exactly if the validation has messages, and tells these. -/
theorem told_invalid_iff (B : Libraries) (a : CliArgs) (w : World) (ms : List VMsg) : (cliReport B a w).1 = .told (.invalid ms) ↔
    ms ≠ [] ∧ a.novalidation = false ∧ ∃ d, C42.Reads (env B) w a.infile d ∧ versionFor a d ∈ [s%"SPDX-2.2", s%"SPDX-2.3"] ∧
      ms = validateDocument B.ext d (some (versionFor a d)) := by
  rw [report_iff B a w (by simp)]
  constructor
  · rintro (⟨e, _, h⟩ | ⟨d, hd, hv⟩ | ⟨e, _, h⟩)
    · exact absurd h ((read_not e).2 ms)
    · rcases (validation_iff B a d _).1 hv with ⟨h1, ⟨_, e⟩ | ⟨h2, h3, e⟩⟩
      · cases e
      · cases e
        exact ⟨h3, h1, d, hd, h2, rfl⟩
    · exact absurd h ((ended_not a e).2.1 ms)
  · rintro ⟨h3, h1, d, hd, h2, rfl⟩
    exact .inr (.inl ⟨d, hd, (validation_iff B a d _).2 ⟨h1, .inr ⟨h2, h3, rfl⟩⟩⟩)

/-- The command tells that it does not support the version exactly if the one to be validated for is another than these two. -/
theorem told_version_iff (B : Libraries) (a : CliArgs) (w : World) (v : Str) : (cliReport B a w).1 = .told (.unsupportedVersion v) ↔
    v ∉ [s%"SPDX-2.2", s%"SPDX-2.3"] ∧ a.novalidation = false ∧ ∃ d, C42.Reads (env B) w a.infile d ∧ v = versionFor a d := by
  rw [report_iff B a w (by simp)]
  constructor
  · rintro (⟨e, _, h⟩ | ⟨d, hd, hv⟩ | ⟨e, _, h⟩)
    · exact absurd h ((read_not e).1 v)
    · rcases (validation_iff B a d _).1 hv with ⟨h1, ⟨h2, e⟩ | ⟨h2, h3, e⟩⟩
      · cases e
        exact ⟨h2, h1, d, hd, rfl⟩
      · cases e
    · exact absurd h ((ended_not a e).1 v)
  · rintro ⟨h2, h1, d, hd, rfl⟩
    exact .inr (.inl ⟨d, hd, (validation_iff B a d _).2 ⟨h1, .inl ⟨h2, rfl⟩⟩⟩)

/-- The command tells that there is no document exactly if the file is RDF/XML and its graph has none. -/
theorem told_noDocument_iff (B : Libraries) (a : CliArgs) (w : World) : (cliReport B a w).1 = .told .noDocument ↔
    ∃ t g b, Holds w a.infile .RDF_XML t ∧ B.graph t = .ok (g, b) ∧ Spec.RdfSays.NoDocument B.rdf g := by
  rw [report_iff B a w (by simp), read_end_iff]
  constructor
  · rintro ((⟨_, e⟩ | ⟨_, _, _, e⟩ | ⟨fmt, t, h, e, he, hx⟩) | ⟨d, _, hv⟩ | ⟨e, _, h⟩)
    · cases e
    · cases e
    · cases e with
      | library x => cases x <;> cases hx
      | exit =>
        obtain ⟨rfl, g, b, h1, h2⟩ := (exit_iff B fmt t).1 he
        exact ⟨t, g, b, h, h1, h2⟩
      | _ => cases hx
    · rcases told_by_validation hv with ⟨_, e⟩ | ⟨_, e⟩ <;> cases e
    · exact absurd h (ended_not a e).2.2
  · rintro ⟨t, g, b, h, h1, h2⟩
    exact .inl (.inr (.inr ⟨.RDF_XML, t, h, _, (exit_iff B .RDF_XML t).2 ⟨rfl, g, b, h1, h2⟩, rfl⟩))

/-- If nothing is to be written, only the file can lead to a traceback. -/
theorem validate_traceback_iff (B : Libraries) (a : CliArgs) (w : World) (ho : a.outfile = none ∨ a.outfile = some []) (hg : a.graph = false) :
    (cliReport B a w).1 = .traceback ↔ ∃ fmt t, Holds w a.infile fmt t ∧ Crashing B fmt t := by
  rw [traceback_iff]
  refine ⟨?_, .inl⟩
  rintro (h | ⟨e, ⟨d, _, _, h⟩, _⟩)
  · exact h
  · unfold OutputRaises at h
    rcases ho with ho | ho <;> rw [ho, hg] at h <;> exact h.elim

/-- Whatever is wrong with the input, the files and the output are as before. -/
theorem told_input_untouched (B : Libraries) (a : CliArgs) (w : World) (h : ∀ d, ¬ C42.Reads (env B) w a.infile d) : (cliReport B a w).2 = w := by
  have := C42.rejected_untouched (env B) a w fun d hd => absurd hd (h d)
  rw [agrees] at this
  exact (Prod.mk.inj this).2

/-- A JSON text in which the value of `packages` is `null`, rather than missing, gives a traceback. -/
theorem null_packages (B : Libraries) (a : CliArgs) (w : World) (h : Holds w a.infile .JSON s%"{\"packages\": null}") :
    (cliReport B a w).1 = .traceback := by
  refine (traceback_iff B a w).2 (.inl ⟨_, _, h, ?_⟩)
  refine ⟨.obj [(s%"packages".map Char.toNat, .null)], .obj [(s%"packages", .null)], (C63.accepts_iff _ _).1 rfl, rfl, ?_⟩
  exact (C67.null_packages B.lic).2.2.2.2.2 []

/-- So does a `Relationship` line in tag-value that is no relationship. -/
theorem bad_relationship (B : Libraries) (a : CliArgs) (w : World) (h : Holds w a.infile .TAG_VALUE s%"Relationship: NONE\n") :
    (cliReport B a w).1 = .traceback := by
  refine (traceback_iff B a w).2 (.inl ⟨_, _, h, ?_⟩)
  have e : attrs (lex (universalNewlines s%"Relationship: NONE\n")) = [C68.badRelationship] := by decide +kernel
  exact ⟨[], [], e, fun a ha => by cases ha⟩

/-- Of the errors of the YAML library, only those of the scanner are expected. -/
theorem yaml_errors (B : Libraries) (a : CliArgs) (w : World) (t : Str) (e : LibErr) (h : Holds w a.infile .YAML t) (he : B.yaml t = .error e) :
    (e = .scanner → (cliReport B a w).1 = .told (.malformed .YAML)) ∧ (e = .other → (cliReport B a w).1 = .traceback) := by
  refine ⟨fun hs => (told_malformed_iff ..).2 (.inl ⟨_, _, h, _, he, ?_⟩), fun ho => (traceback_iff ..).2 (.inl ⟨_, _, h, .inl ?_⟩)⟩
  · rw [hs]; simp
  · rw [he, ho]

private theorem fixed_get (l : List (Str × Json)) : dictGet (fixFields l) s%"Document" = (dictGet l s%"Document").map fixLists := by
  unfold dictGet
  induction l with
  | nil => rw [fixFields]; rfl
  | cons x l ih =>
    obtain ⟨k, v⟩ := x
    rw [fixFields]
    by_cases hk : k = s%"Document"
    · subst hk
      have : s%"Document" ∉ listLikeFields := by decide
      simp [this]
    · have : (s%"Document" == k) = false := by simpa using fun e => hk e.symm
      rw [List.lookup_cons, List.lookup_cons, this]
      exact ih

/-- Of the tree that the XML library delivers: the element `Document` is missing or has nothing in it. -/
def NoContent (l : List (Str × Json)) : Prop :=
  ∀ v, dictGet l s%"Document" = some v → v ∈ [Json.null, .bool false, .num 0, .str [], .arr [], .obj []]

/-- An XML file is refused for want of a document exactly if the element `Document` is missing or empty. -/
theorem xml_no_content (B : Libraries) (t : Str) (l : List (Str × Json)) (h : B.xml t = .ok (.obj l)) :
    (NoContent l → readText B .XML t = .error (.spdx [.text s%"Did not find the XML top level tag \"Document\"."])) ∧
    (¬ NoContent l → ∃ d, dictGet l s%"Document" = some d ∧ readText B .XML t = readEnd (parseDocument B.lic (fixLists d))) := by
  have read : readText B .XML t = (match (dictGet l s%"Document").map fixLists with
      | some d => if d.truthy then readEnd (parseDocument B.lic d) else .error (.spdx [.text s%"Did not find the XML top level tag \"Document\"."])
      | none => .error (.spdx [.text s%"Did not find the XML top level tag \"Document\"."])) := by
    show readXmlFile B t = _
    unfold readXmlFile
    rw [h]
    simp only [xmlDocument, fixLists, fixed_get]
    cases (dictGet l s%"Document").map fixLists with
    | none => rfl
    | some d => dsimp only; cases d.truthy <;> rfl
  have empty : ∀ v : Json, (fixLists v).truthy = false ↔ v ∈ [Json.null, .bool false, .num 0, .str [], .arr [], .obj []] := by
    intro v
    cases v with
    | null => simp [fixLists, Json.truthy]
    | bool b => cases b <;> simp [fixLists, Json.truthy]
    | num i => simp [fixLists, Json.truthy]
    | str s => cases s <;> simp [fixLists, Json.truthy]
    | arr l => cases l <;> simp [fixLists, fixElems, Json.truthy]
    | obj l => cases l <;> simp [fixLists, fixFields, Json.truthy]
  rw [read]
  unfold NoContent
  cases dictGet l s%"Document" with
  | none => exact ⟨fun _ => rfl, fun hn => absurd (fun v hv => by cases hv) hn⟩
  | some v =>
    have e : (∀ x, some v = some x → x ∈ [Json.null, .bool false, .num 0, .str [], .arr [], .obj []]) ↔ (fixLists v).truthy = false := by
      rw [empty]
      exact ⟨fun h => h v rfl, fun h x hx => by cases hx; exact h⟩
    rw [e]
    dsimp only [Option.map_some]
    constructor
    · intro hf; rw [hf]; rfl
    · intro hf; rw [Bool.not_eq_false] at hf; exact ⟨v, rfl, by rw [hf]; rfl⟩

/-! ### Cases -/

private def tree : Json := (documentToJson C23.exampleLic Example.doc).getD .null

/-- Libraries that read a few texts. -/
def libs : Libraries :=
  { C26.env with
    rdf := C49.exampleEnv
    yaml := fun t => if t = s%"scan" then .error .scanner else if t = s%"parse" then .error .other else .ok tree
    xml := fun t => if t = s%"expat" then .error .expat else if t = s%"other" then .ok (.obj [(s%"Other", tree)])
      else if t = s%"text" then .ok (.obj [(s%"Document", .str s%"text")]) else .ok (.obj [(s%"Document", tree)])
    graph := fun t => if t = s%"sax" then .error .sax else if t = s%"empty" then .ok ([], []) else .ok (C55.written, [])
    openFails := fun n => if n = s%"no/o.json" then some (.fileNotFound n) else if n = s%"locked.json" then some (.other s%"PermissionError") else none
    exportGraph := fun _ _ w => (w, some .importError) }

/-- How the command ends for a file with this name and content. -/
def ends (name text : Str) (out : Option Str := none) (version : Option Str := none) (graph : Bool := false) : CliEnd :=
  (cliReport libs { infile := name, outfile := out, version, graph } { files := fun n => if n = name then some text else none }).1

example : ends s%"a.yaml" s%"good" = .success := by decide +kernel
example : ends s%"a.yaml" s%"good" (some s%"-") = .success := by decide +kernel
example : ends s%"a.yaml" s%"scan" = .told (.malformed .YAML) := by decide +kernel
example : ends s%"a.yaml" s%"parse" = .traceback := by decide +kernel
example : ends s%"a.xml" s%"expat" = .told (.malformed .XML) := by decide +kernel
example : ends s%"a.xml" s%"other" = .told (.parsing [.text s%"Did not find the XML top level tag \"Document\"."]) := by decide +kernel
example : NoContent [(s%"Document", .null)] ∧ ¬ NoContent [(s%"Document", tree)] := by
  constructor
  · intro v hv; cases hv; simp
  · intro h; exact absurd (h tree rfl) (by decide +kernel)
example : ends s%"a.xml" s%"text" = .traceback := by decide +kernel
example : ends s%"a.rdf" s%"sax" = .told (.malformed .RDF_XML) := by decide +kernel
example : ends s%"a.rdf" s%"good" = .success := by decide +kernel
example : ends s%"a.rdf" s%"empty" = .told .noDocument := by decide +kernel
example : ends s%"a.json" s%"{" = .told (.malformed .JSON) := by decide +kernel
example : ends s%"a.json" s%"[]" = .traceback := by decide +kernel
example : ends s%"a.tag" s%"Relationship: NONE\n" = .traceback := by decide +kernel
example : ends s%"a.txt" s%"good" = .told (.parsing [.text s%"Unsupported SPDX file type: a.txt"]) := by decide +kernel
example : ends s%"a.yaml" s%"good" (some s%"o.txt") = .told (.parsing [.text s%"Unsupported SPDX file type: o.txt"]) := by decide +kernel
example : ends s%"a.yaml" s%"good" (some s%"no/o.json") = .told (.noFile s%"no/o.json") := by decide +kernel
example : ends s%"a.yaml" s%"good" (some s%"locked.json") = .traceback := by decide +kernel
example : ends s%"a.yaml" s%"good" none none true = .told .noGraphLibraries := by decide +kernel
example : ends s%"a.yaml" s%"good" none (some s%"SPDX-3.0") = .told (.unsupportedVersion s%"SPDX-3.0") := by decide +kernel
example : (match ends s%"a.yaml" s%"good" none (some s%"SPDX-2.2") with | .told (.invalid (_ :: _)) => true | _ => false) = true := by decide +kernel
example : (cliReport libs { infile := s%"b.json" } { files := fun _ => none }).1 = .told (.noFile s%"b.json") := by decide +kernel

end Spdx.C72
