import Verif.Props.C95
import Verif.Props.C72
import Verif.Props.C69
/-
C96: A conversion with pyspdxtools fails only because of its input or because of the output file: the writer is never the reason, except
for RDF, where a snippet without a line range is the only one.
-/
namespace Spdx.C96
open C42 (Passes Produces)

/-! ### Specification -/

/-- The input is read and passes the validation that is asked for. -/
def Accepted (B : Libraries) (a : CliArgs) (w : World) (d : Document) : Prop :=
  C42.Reads (C72.env B) w a.infile d ∧ Passes (C72.env B) a d

/-- The programs `json.dump`, `yaml.safe_dump` and `xmltodict.unparse` raise nothing on the trees they are given. -/
structure Dumps (B : Libraries) : Prop where
  json : ∀ t, (B.dump.json t).raised = none
  yaml : ∀ t, (B.dump.yaml t).raised = none
  xml : ∀ t, (B.dump.xml t).raised = none

/-- Writing RDF raises nothing exactly if the graph can be made. -/
def DumpsRdf (B : Libraries) : Prop := ∀ d, (B.dump.rdf d).raised = none ↔ (rdfGraph B.rdf d).isSome

/-- The command is asked to write a file of this format. -/
def Writes (a : CliArgs) (name : Str) (fmt : FileFormat) : Prop :=
  a.outfile = some name ∧ name ≠ s%"-" ∧ a.graph = false ∧ fileNameToFormat name = .ok fmt

/-! ### Theorems -/

private theorem readEnd_ok {r : Py Document} {d : Document} (h : readEnd r = .ok d) : r = .ok d := by
  unfold readEnd at h
  split at h <;> simp_all

/-- Whatever file is read, it is a tree, a tag-value text or a graph that is read. -/
theorem source (B : Libraries) (fmt : FileFormat) (text : Str) (d : Document) (h : readText B fmt text = .ok d) :
    (∃ L j, parseDocument L j = .ok d) ∨ (∃ L text, parseTagValue L text = .ok d) ∨ ∃ e b g, parseRdf e b g = some d := by
  cases fmt with
  | JSON =>
    simp only [readText, readJsonFile, parseJsonFile] at h
    left
    cases h1 : loadText (universalNewlines text) with
    | none => rw [h1] at h; cases h
    | some r =>
      rw [h1] at h
      cases h2 : r.toJson with
      | none => simp only [h2] at h; cases h
      | some j => simp only [h2] at h; exact ⟨_, _, readEnd_ok h⟩
  | YAML =>
    simp only [readText, readYamlFile] at h
    left
    cases h1 : B.yaml text with
    | error e => rw [h1] at h; cases h
    | ok j => rw [h1] at h; exact ⟨_, _, readEnd_ok h⟩
  | XML =>
    simp only [readText, readXmlFile] at h
    left
    cases h1 : B.xml text with
    | error e => rw [h1] at h; cases h
    | ok j =>
      rw [h1] at h
      cases h2 : xmlDocument j with
      | none => simp only [h2] at h; cases h
      | some j => simp only [h2] at h; exact ⟨_, _, readEnd_ok h⟩
  | TAG_VALUE => exact .inr (.inl ⟨_, _, readEnd_ok h⟩)
  | RDF_XML =>
    simp only [readText, readRdfFile] at h
    cases h1 : B.graph text with
    | error e => rw [h1] at h; cases h
    | ok p =>
      obtain ⟨g, b⟩ := p
      simp only [h1] at h
      split at h
      · cases h
      · have := readEnd_ok h
        exact .inr (.inr ⟨B.rdf, b, g, (C55.reads_exactly _ _ _ _).2 ((C69.reads_exactly _ _ _ _).1 this)⟩)

private theorem reads_source {B : Libraries} {w : World} {name : Str} {d : Document} (h : C42.Reads (C72.env B) w name d) :
    (∃ L j, parseDocument L j = .ok d) ∨ (∃ L text, parseTagValue L text = .ok d) ∨ ∃ e b g, parseRdf e b g = some d := by
  obtain ⟨fmt, t, -, -, h⟩ := h
  refine source B fmt t d ?_
  simp only [C72.env] at h
  split at h <;> simp_all

private theorem reads_writable {B : Libraries} {w : World} {name : Str} {d : Document} (h : C42.Reads (C72.env B) w name d) :
    C94.Writable B.toWriteEnv d := by
  rcases reads_source h with ⟨L, j, h⟩ | ⟨L, t, h⟩ | ⟨e, b, g, h⟩
  · exact C94.read_then_write _ L j d h
  · exact C94.tag_value_then_write _ L t d h
  · exact C94.rdf_then_write _ e b g d h

private theorem produces_file {B : Libraries} {a : CliArgs} {name : Str} {fmt : FileFormat} (hw : Writes a name fmt) (d : Document) (w w' : World) :
    Produces (C72.env B) a d w w' ↔ B.openFails name = none ∧ (serialize B.toWriteEnv fmt (dedupDocument B.ext d)).raised = none ∧
      w' = w.put name (serialize B.toWriteEnv fmt (dedupDocument B.ext d)).text := by
  obtain ⟨ho, hn, hg, hf⟩ := hw
  have ne : name ≠ [] := by rintro rfl; revert hf; cases fmt <;> decide
  unfold Produces
  rw [ho, hg]
  have last : (∃ f, fileNameToFormat name = .ok f ∧ B.openFails name = none ∧ (serialize B.toWriteEnv f (dedupDocument B.ext d)).raised = none ∧
      w' = w.put name (serialize B.toWriteEnv f (dedupDocument B.ext d)).text) ↔ B.openFails name = none ∧
      (serialize B.toWriteEnv fmt (dedupDocument B.ext d)).raised = none ∧
      w' = w.put name (serialize B.toWriteEnv fmt (dedupDocument B.ext d)).text := by
    rw [hf]
    constructor
    · rintro ⟨f, e, h⟩; cases e; exact h
    · intro h; exact ⟨fmt, rfl, h⟩
  split
  · simp_all
  · simp_all
  · simp_all
  · simp_all
  · rename_i h _
    cases h
    exact last

private theorem status {B : Libraries} {a : CliArgs} {w : World} :
    (cliMain (C72.env B) a w).1 = 0 ↔ ∃ d w', Accepted B a w d ∧ Produces (C72.env B) a d w w' := by
  constructor
  · intro h
    obtain ⟨d, h1, h2, h3⟩ := (C42.status_zero_iff (C72.env B) a w (cliMain (C72.env B) a w).2).1 (Prod.ext h rfl)
    exact ⟨d, _, ⟨h1, h2⟩, h3⟩
  · rintro ⟨d, w', ⟨h1, h2⟩, h3⟩
    rw [(C42.status_zero_iff (C72.env B) a w w').2 ⟨d, h1, h2, h3⟩]

private theorem serialized {E : WriteEnv} {fmt : FileFormat} {d : Document} :
    writeToStream E fmt d false true = serialize E fmt (dedupDocument E.ext d) := rfl

/-- A file converted to tag-value: the command succeeds exactly if the input is accepted and the output file can be opened. -/
theorem to_tag_value (B : Libraries) (a : CliArgs) (w : World) (name : Str) (hw : Writes a name .TAG_VALUE) :
    (cliMain (C72.env B) a w).1 = 0 ↔ (∃ d, Accepted B a w d) ∧ B.openFails name = none := by
  rw [status]
  constructor
  · rintro ⟨d, w', h, hp⟩
    exact ⟨⟨d, h⟩, ((produces_file hw d w w').1 hp).1⟩
  · rintro ⟨⟨d, h⟩, ho⟩
    exact ⟨d, _, h, (produces_file hw d w _).2 ⟨ho, serialized ▸ (reads_writable h.1).tagValue true, rfl⟩⟩

/-- Written to the standard output: exactly if the input is accepted. -/
theorem to_stdout (B : Libraries) (a : CliArgs) (w : World) (ho : a.outfile = some s%"-") :
    (cliMain (C72.env B) a w).1 = 0 ↔ ∃ d, Accepted B a w d := by
  rw [status]
  constructor
  · rintro ⟨d, w', h, -⟩
    exact ⟨d, h⟩
  · rintro ⟨d, h⟩
    have hr := (reads_writable h.1).tagValue false
    have hr : (writeTagValue B.lic d).raises = false := by
      have e : writeToStream B.toWriteEnv .TAG_VALUE d false false = serialize B.toWriteEnv .TAG_VALUE d := rfl
      rw [e] at hr
      simp only [serialize] at hr
      cases hc : (writeTagValue B.lic d).raises with
      | false => rfl
      | true => rw [hc] at hr; cases hr
    refine ⟨d, { w with stdout := w.stdout ++ (writeTagValue B.lic d).text }, h, ?_⟩
    unfold Produces
    rw [ho]
    exact ⟨hr, rfl⟩

/-- A file converted to JSON, YAML or XML by programs that raise nothing: likewise. -/
theorem to_tree (B : Libraries) (hB : Dumps B) (a : CliArgs) (w : World) (name : Str) (fmt : FileFormat)
    (hf : fmt = .JSON ∨ fmt = .YAML ∨ fmt = .XML) (hw : Writes a name fmt) :
    (cliMain (C72.env B) a w).1 = 0 ↔ (∃ d, Accepted B a w d) ∧ B.openFails name = none := by
  rw [status]
  constructor
  · rintro ⟨d, w', h, hp⟩
    exact ⟨⟨d, h⟩, ((produces_file hw d w w').1 hp).1⟩
  · rintro ⟨⟨d, h⟩, ho⟩
    have hW := reads_writable h.1
    refine ⟨d, _, h, (produces_file hw d w _).2 ⟨ho, ?_, rfl⟩⟩
    rw [← serialized]
    rcases hf with rfl | rfl | rfl
    · obtain ⟨t, e⟩ := hW.json true; rw [e]; exact hB.json t
    · obtain ⟨t, e⟩ := hW.yaml true; rw [e]; exact hB.yaml t
    · obtain ⟨t, e⟩ := hW.xml true; rw [e]; exact hB.xml t

/-- A file converted to RDF: there is one more reason to fail, a snippet without a line range. -/
theorem to_rdf (B : Libraries) (hB : DumpsRdf B) (a : CliArgs) (w : World) (name : Str) (hw : Writes a name .RDF_XML) :
    (cliMain (C72.env B) a w).1 = 0 ↔
      (∃ d, Accepted B a w d ∧ ∀ s ∈ d.snippets, s.lineRange ≠ none) ∧ B.openFails name = none := by
  have key : ∀ d, Accepted B a w d →
      ((serialize B.toWriteEnv .RDF_XML (dedupDocument B.ext d)).raised = none ↔ ∀ s ∈ d.snippets, s.lineRange ≠ none) := by
    intro d h
    rw [← C95.read_iff B.rdf d (reads_source h.1), ← C95.without_duplicates B.rdf B.ext d]
    exact hB _
  rw [status]
  constructor
  · rintro ⟨d, w', h, hp⟩
    obtain ⟨ho, hr, -⟩ := (produces_file hw d w w').1 hp
    exact ⟨⟨d, h, (key d h).1 hr⟩, ho⟩
  · rintro ⟨⟨d, h, hs⟩, ho⟩
    exact ⟨d, _, h, (produces_file hw d w _).2 ⟨ho, (key d h).2 hs, rfl⟩⟩

/-- So every input that can be converted to one of the first four formats can be converted to tag-value. -/
theorem same_inputs (B : Libraries) (hB : Dumps B) (a a' : CliArgs) (w : World) (name name' : Str) (fmt : FileFormat)
    (hf : fmt = .JSON ∨ fmt = .YAML ∨ fmt = .XML) (hw : Writes a name fmt) (hw' : Writes a' name' .TAG_VALUE)
    (same : a'.infile = a.infile ∧ a'.version = a.version ∧ a'.novalidation = a.novalidation)
    (ho : B.openFails name = none) (ho' : B.openFails name' = none) :
    (cliMain (C72.env B) a w).1 = 0 ↔ (cliMain (C72.env B) a' w).1 = 0 := by
  rw [to_tree B hB a w name fmt hf hw, to_tag_value B a' w name' hw']
  simp only [ho, ho', and_true, Accepted, Passes, same.1, same.2.1, same.2.2]

/-- A conversion to tag-value, JSON, YAML or XML that fails changes nothing: no output is ever left half-written. -/
theorem all_or_nothing (B : Libraries) (hB : Dumps B) (a : CliArgs) (w : World) (name : Str) (fmt : FileFormat)
    (hf : fmt ≠ .RDF_XML) (hw : Writes a name fmt) (h : (cliMain (C72.env B) a w).1 ≠ 0) : (cliMain (C72.env B) a w).2 = w := by
  have hs : (∃ d, Accepted B a w d) → B.openFails name = none → False := by
    intro hd ho
    cases fmt with
    | TAG_VALUE => exact h ((to_tag_value B a w name hw).2 ⟨hd, ho⟩)
    | RDF_XML => exact hf rfl
    | JSON => exact h ((to_tree B hB a w name _ (.inl rfl) hw).2 ⟨hd, ho⟩)
    | YAML => exact h ((to_tree B hB a w name _ (.inr (.inl rfl)) hw).2 ⟨hd, ho⟩)
    | XML => exact h ((to_tree B hB a w name _ (.inr (.inr rfl)) hw).2 ⟨hd, ho⟩)
  obtain ⟨ho, hn, hg, hF⟩ := hw
  have ne : name ≠ [] := by rintro rfl; revert hF; cases fmt <;> decide
  unfold cliMain
  cases hp : parseFileAny (C72.env B) a.infile w with
  | error e => rfl
  | ok d =>
    cases hv : cliValidation (C72.env B) a d with
    | some e => simp only [hv]
    | none =>
      have acc : Accepted B a w d := ⟨(C42.reads_iff _ _ _ _).1 hp, (C42.passes_iff _ _ _).1 hv⟩
      cases hopen : B.openFails name with
      | none => exact (hs ⟨d, acc⟩ hopen).elim
      | some e =>
        have hopen' : (C72.env B).openFails name = some e := hopen
        have out : cliOutput (C72.env B) a d w = (w, some e) := by
          simp [cliOutput, ho, hn, hg, ne, writeFileAny, hF, writeToFile, hopen']
        simp only [hv, out]

/-- Written to the standard output: likewise. -/
theorem all_or_nothing_stdout (B : Libraries) (a : CliArgs) (w : World) (ho : a.outfile = some s%"-")
    (h : (cliMain (C72.env B) a w).1 ≠ 0) : (cliMain (C72.env B) a w).2 = w := by
  have hs : ¬ ∃ d, Accepted B a w d := fun hd => h ((to_stdout B a w ho).2 hd)
  unfold cliMain
  cases hp : parseFileAny (C72.env B) a.infile w with
  | error e => rfl
  | ok d =>
    cases hv : cliValidation (C72.env B) a d with
    | some e => simp only [hv]
    | none => exact (hs ⟨d, (C42.reads_iff _ _ _ _).1 hp, (C42.passes_iff _ _ _).1 hv⟩).elim

/-! ### Cases -/

private def args : CliArgs := { infile := s%"a.yaml", outfile := some s%"o.spdx" }
private def world : World := { files := fun n => if n = s%"a.yaml" then some s%"good" else none }

example : Writes args s%"o.spdx" .TAG_VALUE := ⟨rfl, by decide, rfl, by decide +kernel⟩
example : ∃ d, Accepted C72.libs args world d :=
  ((to_tag_value C72.libs args world s%"o.spdx" ⟨rfl, by decide, rfl, by decide +kernel⟩).1 (by decide +kernel)).1

/-- Programs that raise nothing, and a writer of RDF that fails without a graph. -/
private def quiet : Libraries :=
  { C72.libs with dump := { C72.libs.dump with
      json := fun _ => { text := [] }, yaml := fun _ => { text := [] }, xml := fun _ => { text := [] }
      rdf := fun d => { text := [], raised := if (rdfGraph C72.libs.rdf d).isSome then none else some .unrepresentable } } }
example : Dumps quiet := ⟨fun _ => rfl, fun _ => rfl, fun _ => rfl⟩
example : DumpsRdf quiet := by
  intro d
  show (if (rdfGraph C72.libs.rdf d).isSome then none else some Exc.unrepresentable) = none ↔ (rdfGraph C72.libs.rdf d).isSome
  by_cases h : (rdfGraph C72.libs.rdf d).isSome <;> simp [h]

/-- A conversion that fails: the output cannot be opened. -/
example : (cliMain (C72.env quiet) { infile := s%"a.yaml", outfile := some s%"locked.json" } world).1 ≠ 0 := by decide +kernel
example : (cliMain (C72.env quiet) { infile := s%"b.yaml", outfile := some s%"-" } world).1 ≠ 0 := by decide +kernel

/-- Not so for RDF: if a snippet has no line range, the conversion fails and the output file has been overwritten. -/
private def noLines : Libraries :=
  { quiet with yaml := fun _ => .ok ((documentToJson C23.exampleLic
      { Example.doc with snippets := Example.doc.snippets.map fun s => { s with lineRange := none } }).getD .null) }
private def before : World := { files := fun n => if n = s%"a.yaml" then some s%"good" else if n = s%"o.rdf" then some s%"old" else none }
example : let r := cliMain (C72.env noLines) { infile := s%"a.yaml", outfile := some s%"o.rdf" } before
    r.1 = 1 ∧ before.files s%"o.rdf" = some s%"old" ∧ r.2.files s%"o.rdf" = some [] := by decide +kernel

end Spdx.C96
