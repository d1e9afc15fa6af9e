import Verif.Props.C17
import Verif.Props.C42
import Verif.Props.C50
import Verif.Props.C58
/-
C59 — Converting a file with the command: the written file is read again as the same document, with the same verdict.
-/
namespace Spdx.C59
open Spdx Spec

/-! ### Specification -/

/-- The format can hold the document: the conditions of the round trips (C23, C57, C48, C49). `b` are the prefixes a new graph has. -/
def Fits (E : CliEnv) (R : RdfEnv) (b : Bindings) (d : Document) : FileFormat → Prop
  | .JSON | .YAML => JsonOk E.lic d
  | .XML => JsonOk E.lic d ∧ (∀ s ∈ d.snippets, NonNegative s) ∧ (∀ e ∈ d.extractedLicensingInfo, SaysSomething e) ∧
      ∀ j, documentToJson E.lic d = some j → ∀ s ∈ texts j, XmlText s
  | .TAG_VALUE => C48.DocTv E.lic d ∧ '\r' ∉ (writeTagValue E.lic d).text
  | .RDF_XML => DocRdf R d ∧ C38.Fresh d.creationInfo.externalDocumentRefs b

/-- The library of the format works for this document: it can write what it is given and, when reading, delivers what was written (an
    XML library as in `Model/Xml`; a graph library the same triples in any order, with blank nodes named in any way).  Tag-value needs
    none. The parser of the command is then the program's reader. -/
def Delivers (E : CliEnv) (R : RdfEnv) (b : Bindings) (d : Document) : FileFormat → Prop
  | .JSON => ∀ j, documentToJson E.lic d = some j → (E.dump.json j).raised = none ∧
      ∀ e, parseDocument E.lic j = .ok e → E.parse .JSON (E.dump.json j).text = .ok e
  | .YAML => ∀ j, documentToJson E.lic d = some j → (E.dump.yaml j).raised = none ∧
      ∀ e, parseDocument E.lic j = .ok e → E.parse .YAML (E.dump.yaml j).text = .ok e
  | .XML => ∀ j, documentToJson E.lic d = some j → (E.dump.xml (.obj [(s%"Document", j)])).raised = none ∧
      ∀ e, readXml E.lic j = some (.ok e) → E.parse .XML (E.dump.xml (.obj [(s%"Document", j)])).text = .ok e
  | .TAG_VALUE => ∀ e, parseTagValueFile E.lic (writeTagValue E.lic d).text = .ok e →
      E.parse .TAG_VALUE (writeTagValue E.lic d).text = .ok e
  | .RDF_XML => ∀ w, rdfGraph R d = some w → (E.dump.rdf d).raised = none ∧ ∃ σ g, C50.OneToOne σ ∧ SameTriples g (w.rename σ) ∧
      ∀ e, parseRdf R b g = some e → E.parse .RDF_XML (E.dump.rdf d).text = .ok e

/-- What each format keeps. -/
def Kept (d e : Document) : FileFormat → Prop
  | .JSON | .YAML | .XML => e = { d with annotations := regroup d }
  | .TAG_VALUE => C48.SameTv d e
  | .RDF_XML => SameRdf d e

/-! ### Theorems -/

/-- One write and read. -/
private theorem reread {E : CliEnv} {R : RdfEnv} {b : Bindings} {d : Document} {fmt : FileFormat} (hf : Fits E R b d fmt)
    (hd : Delivers E R b d fmt) : (serialize E.toWriteEnv fmt d).raised = none ∧
      ∃ e, E.parse fmt (serialize E.toWriteEnv fmt d).text = .ok e ∧ Kept d e fmt := by
  cases fmt with
  | JSON =>
    obtain ⟨j, h1, h2⟩ := C23.round_trip E.lic d hf
    obtain ⟨h3, h4⟩ := hd j h1
    simp only [serialize, h1]
    exact ⟨h3, _, h4 _ h2, rfl⟩
  | YAML =>
    obtain ⟨j, h1, h2⟩ := C23.round_trip E.lic d hf
    obtain ⟨h3, h4⟩ := hd j h1
    simp only [serialize, h1]
    exact ⟨h3, _, h4 _ h2, rfl⟩
  | XML =>
    obtain ⟨j, h1, h2⟩ := C57.round_trip E.lic d hf.1 hf.2.1 hf.2.2.1 hf.2.2.2
    obtain ⟨h3, h4⟩ := hd j h1
    simp only [serialize, h1]
    exact ⟨h3, _, h4 _ h2, rfl⟩
  | TAG_VALUE =>
    obtain ⟨e, h1, h2⟩ := C48.file_roundtrip E.lic d hf.1 hf.2
    refine ⟨?_, e, hd e h1, h2⟩
    simp only [serialize, (C48.roundtrip E.lic d hf.1).1]
    rfl
  | RDF_XML =>
    obtain ⟨w, h1, h2⟩ := C50.round_trip_any_names R d hf.1
    obtain ⟨h3, σ, g, hσ, hg, h4⟩ := hd w h1
    obtain ⟨e, h5, h6⟩ := h2 σ g b hσ hg hf.2
    exact ⟨h3, e, h4 e h5, h6⟩

private theorem kept_verdict {X : Ext} (hX : Unordered X) {d e : Document} {fmt : FileFormat} (h : Kept d e fmt) : C58.SameVerdict X d e := by
  cases fmt with
  | JSON => subst h; exact C58.regroup_verdict X d
  | YAML => subst h; exact C58.regroup_verdict X d
  | XML => subst h; exact C58.regroup_verdict X d
  | TAG_VALUE => exact C58.tagvalue_verdict_same h
  | RDF_XML => exact C58.order_irrelevant hX h

/-- Converting: the command exits with 0; the new file is read as the document, without repeated values, as the format keeps it; it
    has the verdict of the document; no other file is touched and nothing is printed. -/
theorem convert (E : CliEnv) (R : RdfEnv) (b : Bindings) (hX : Unordered E.ext) (hE : C17.LicEqOk E.ext) (a : CliArgs) (w : World)
    (d : Document) (name : Str) (fmt : FileFormat) (ha : a.outfile = some name) (hg : a.graph = false) (hr : C42.Reads E w a.infile d)
    (hp : C42.Passes E a d) (hn : fileNameToFormat name = .ok fmt) (ho : E.openFails name = none)
    (hf : Fits E R b (dedupDocument E.ext d) fmt) (hd : Delivers E R b (dedupDocument E.ext d) fmt) :
    ∃ w' e, cliMain E a w = (0, w') ∧ C42.Reads E w' name e ∧ Kept (dedupDocument E.ext d) e fmt ∧ C58.SameVerdict E.ext d e ∧
      (∀ other, other ≠ name → w'.files other = w.files other) ∧ w'.stdout = w.stdout := by
  obtain ⟨h1, e, h2, h3⟩ := reread hf hd
  have hne : name ≠ [] := by rintro rfl; cases fmt <;> exact absurd hn (by decide)
  have hnd : name ≠ ['-'] := by rintro rfl; cases fmt <;> exact absurd hn (by decide)
  refine ⟨_, e, (C42.status_zero_iff E a w (w.put name (serialize E.toWriteEnv fmt (dedupDocument E.ext d)).text)).2 ⟨d, hr, hp, ?_⟩, ?_, h3,
    ?_, ?_, rfl⟩
  · unfold C42.Produces
    rw [ha, hg]
    split
    · rename_i h; exact absurd (Option.some.inj h) hnd
    · rename_i h _; cases h
    · rename_i h _; cases h
    · rename_i h _; exact absurd (Option.some.inj h) hne
    · rename_i h _; cases h; exact ⟨fmt, hn, ho, h1, rfl⟩
  · exact ⟨fmt, _, hn, by simp [World.put], h2⟩
  · exact fun ver => (C17.validity_preserved E.ext hE d ver).symm.trans (kept_verdict hX h3 ver)
  · intro other h
    simp [World.put, h]

/-- A file made from a valid document passes the command's validation. -/
theorem converted_passes (E : CliEnv) (R : RdfEnv) (b : Bindings) (hX : Unordered E.ext) (hE : C17.LicEqOk E.ext) (a : CliArgs) (w : World)
    (d : Document) (name : Str) (fmt : FileFormat) (ha : a.outfile = some name) (hg : a.graph = false) (hr : C42.Reads E w a.infile d)
    (hv : a.novalidation = false) (hp : C42.Passes E a d) (hn : fileNameToFormat name = .ok fmt) (ho : E.openFails name = none)
    (hf : Fits E R b (dedupDocument E.ext d) fmt) (hd : Delivers E R b (dedupDocument E.ext d) fmt) :
    ∃ w', cliMain E a w = (0, w') ∧ cliMain E { infile := name } w' = (0, w') := by
  obtain ⟨w', e, h1, h2, _, h3, _⟩ := convert E R b hX hE a w d name fmt ha hg hr hp hn ho hf hd
  refine ⟨w', h1, (C42.status_zero_iff _ _ _ _).2 ⟨e, h2, .inr ⟨?_, .inl rfl⟩, rfl⟩⟩
  rcases hp with hp | hp
  · rw [hv] at hp; cases hp
  · exact ((C47.valid_iff E.ext e none).1 ((h3 none).1 ((C47.valid_iff E.ext d none).2 ⟨hp.1, .inl rfl⟩))).1

/-- Printing ("-o -"): what is printed is read as tag-value as the document (with its repeated values). -/
theorem print (E : CliEnv) (a : CliArgs) (w : World) (d : Document) (ha : a.outfile = some s%"-") (hr : C42.Reads E w a.infile d)
    (hp : C42.Passes E a d) (hf : C48.DocTv E.lic d) : ∃ w' text e, cliMain E a w = (0, w') ∧ w'.files = w.files ∧
      w'.stdout = w.stdout ++ text ∧ parseTagValue E.lic text = .ok e ∧ C48.SameTv d e ∧ C58.SameVerdict E.ext d e := by
  obtain ⟨h1, e, h2, h3⟩ := C48.roundtrip E.lic d hf
  refine ⟨_, _, e, (C42.status_zero_iff E a w { w with stdout := w.stdout ++ (writeTagValue E.lic d).text }).2 ⟨d, hr, hp, ?_⟩, rfl, rfl, h2, h3,
    C58.tagvalue_verdict_same h3⟩
  unfold C42.Produces
  rw [ha]
  exact ⟨h1, rfl⟩

/-! ### Non-vacuity: a command with working libraries for one document -/

/-- The example's libraries write one text per format and read it as what C23 and C49 say; its tag-value parser is the program's. -/
def env : CliEnv :=
  { ext := Example.ext, lic := C23.exampleLic
    dump := { json := fun _ => { text := s%"J" }, yaml := fun _ => { text := s%"Y" }, xml := fun _ => { text := s%"X" }, rdf := fun _ => { text := s%"R" } }
    parse := fun fmt t => match fmt with
      | .TAG_VALUE => match parseTagValueFile C23.exampleLic t with
        | .ok d => .ok d
        | .error _ => .error .parsing
      | _ => .ok Example.doc
    openFails := fun _ => none
    exportGraph := fun _ _ w => (w, some .importError) }

def world : World := { files := fun n => if n = s%"a.json" then some s%"J" else none }

protected theorem example_dedup : dedupDocument env.ext Example.doc = Example.doc := by decide +kernel

protected theorem example_licEq : C17.LicEqOk env.ext where
  refl e := decide_eq_true rfl
  symbols a b h := by rw [of_decide_eq_true h]; exact fun _ => .rfl
  parse a b h := .rfl

protected theorem example_reads : C42.Reads env world s%"a.json" Example.doc := ⟨.JSON, s%"J", by decide +kernel, by decide +kernel, rfl⟩

protected theorem example_valid : Valid env.ext Example.doc :=
  ((C47.valid_iff _ _ _).1 (by decide +kernel : validateDocument Example.ext Example.doc none = [])).1

protected theorem example_passes (a : CliArgs) (h : a.version = none) : C42.Passes env a Example.doc := .inr ⟨C59.example_valid, .inl h⟩

/-- From JSON to YAML. -/
example : ∃ w', cliMain env { infile := s%"a.json", outfile := some s%"b.yaml" } world = (0, w') ∧ cliMain env { infile := s%"b.yaml" } w' = (0, w') := by
  refine converted_passes env C49.exampleEnv [] C58.example_unordered C59.example_licEq _ _ _ _ .YAML rfl rfl C59.example_reads rfl (C59.example_passes _ rfl)
    (by decide) rfl ?_ ?_
  · rw [C59.example_dedup]; exact C23.example_ok
  · rw [C59.example_dedup]
    intro j hj
    refine ⟨rfl, fun e he => ?_⟩
    obtain ⟨j', h1, h2⟩ := C23.round_trip _ _ C23.example_ok
    have h1' : documentToJson env.lic Example.doc = some j' := h1
    rw [h1'] at hj
    cases hj
    have h2' : parseDocument env.lic j = .ok _ := h2
    rw [h2'] at he
    cases he
    have : { Example.doc with annotations := regroup Example.doc } = Example.doc := by decide +kernel
    rw [this]
    rfl

private theorem env_tagvalue (t : Str) (e : Document) (h : parseTagValueFile env.lic t = .ok e) : env.parse .TAG_VALUE t = .ok e := by
  have h' : parseTagValueFile C23.exampleLic t = .ok e := h
  simp only [env, h']

/-- From JSON to tag-value: no library is involved. -/
example (d : Document) : Delivers env C49.exampleEnv [] d .TAG_VALUE := fun e he => env_tagvalue _ e he

end Spdx.C59
