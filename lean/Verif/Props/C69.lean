import Verif.Lemmas.RdfExit
import Verif.Props.C55
/-
C69: reading an RDF graph gives the document it describes, and otherwise raises `SPDXParsingError`; another exception, or the end of the
program, comes from exactly the graphs described here.
-/
namespace Spdx.C69
open Spdx Spec.RdfSays

/-! ### Theorems

`Spec/RdfRead` says which document a graph describes (`IsRdf`), `Spec/RdfCrash` what makes the reader fail in another way (`Bad`). -/

/-- The reader, with its loggers and exceptions, returns exactly the document the graph describes. -/
theorem reads_exactly (env : RdfEnv) (b : Bindings) (g : RdfGraph) (d : Document) :
    readRdf env b g = .ok d ↔ ∃ b' ns, IsRdf env b g d b' ns := by
  rw [← RdfSays.rdf_iff, ← RdfReport.readRdf_val]
  exact RdfReport.val_ok.symm

/-- It ends with another exception than `SPDXParsingError` exactly if the graph is bad. -/
theorem crashes_exactly (env : RdfEnv) (b : Bindings) (g : RdfGraph) :
    (∃ e, readRdf env b g = .error e ∧ ∀ ms, e ≠ .parsing ms) ↔ Spec.RdfSays.Bad env b g :=
  ⟨fun ⟨e, h, n⟩ => (RdfCrash.crash_rdf env b g).1 ⟨e, n, h⟩, fun h => by obtain ⟨e, n, h⟩ := (RdfCrash.crash_rdf env b g).2 h; exact ⟨e, h, n⟩⟩

/-- A graph that is not bad and describes no document raises `SPDXParsingError`. -/
theorem otherwise_refused {env : RdfEnv} {b : Bindings} {g : RdfGraph} (hb : ¬ Spec.RdfSays.Bad env b g)
    (hn : ¬ ∃ d b' ns, IsRdf env b g d b' ns) : ∃ ms, readRdf env b g = .error (.parsing ms) := by
  cases h : readRdf env b g with
  | ok d => exact absurd ⟨d, (reads_exactly env b g d).1 h⟩ hn
  | error e =>
    refine Classical.byContradiction fun hc => hb ((crashes_exactly env b g).1 ⟨e, h, fun ms hm => hc ⟨ms, ?_⟩⟩)
    rw [hm]

/-- A graph that describes a document is not bad. -/
theorem readable_not_bad {env : RdfEnv} {b b' : Bindings} {g : RdfGraph} {d : Document} {ns : Str} (h : IsRdf env b g d b' ns) :
    ¬ Spec.RdfSays.Bad env b g := fun hb => by
  obtain ⟨e, he, _⟩ := (crashes_exactly env b g).2 hb
  rw [(reads_exactly env b g d).2 ⟨b', ns, h⟩] at he
  cases he

/-- Without exactly one document with a namespace the program is ended. -/
theorem exits {env : RdfEnv} {b : Bindings} {g : RdfGraph} (h : NoDocument env g) : readRdf env b g = .error (.other s%"SystemExit") := by
  unfold readRdf readCreationInfo
  rcases RdfCrash.namespace_cases env g with ⟨_, e⟩ | ⟨hn, _⟩
  · rw [e]; rfl
  · exact absurd h hn

/-- Only then. -/
theorem exits_iff (env : RdfEnv) (b : Bindings) (g : RdfGraph) : readRdf env b g = .error (.other s%"SystemExit") ↔ NoDocument env g := by
  refine ⟨fun h => ?_, exits⟩
  rcases RdfCrash.namespace_cases env g with ⟨hn, _⟩ | ⟨_, doc, id, _, e⟩
  · exact hn
  · exact absurd h (RdfExit.rdf env b g _ e)

/-- Faults of the creation information hide bad elements: they are not looked at. -/
theorem info_first {env : RdfEnv} {b : Bindings} {g : RdfGraph} (hd : ¬ NoDocument env g) (hb : ¬ BadInfo env b g)
    (hi : ¬ ∃ c b' doc i, IsInfo env g b c b' doc i) : ∃ ms, readRdf env b g = .error (.parsing ms) := by
  refine otherwise_refused (fun h => ?_) fun ⟨d, b', ns, h⟩ => ?_
  · cases h with
    | document h => exact hd h
    | info _ h => exact hb h
    | element h _ => exact hi ⟨_, _, _, _, h⟩
  · have := (reads_exactly env b g d).2 ⟨b', ns, h⟩
    unfold readRdf at this
    cases hc : readCreationInfo env b g with
    | error e => rw [hc] at this; cases this
    | ok x =>
      obtain ⟨c, b'⟩ := x
      obtain ⟨doc, i, h⟩ := (RdfSays.info_iff ..).1 ((RdfReport.creationInfo_val ..).symm.trans (RdfReport.val_ok.2 hc))
      exact hi ⟨c, b', doc, i, h⟩

/-! ### The hypotheses are met

The graph written for the example document, with one property changed. -/

abbrev written := C55.written
abbrev withObject := C55.withObject

/-- how reading ends -/
def ending (env : RdfEnv) (g : RdfGraph) : Str :=
  match readRdf env [] g with
  | .ok _ => s%"document"
  | .error (.parsing _) => s%"SPDXParsingError"
  | .error (.type _) => s%"TypeError"
  | .error (.value _) => s%"ValueError"
  | .error (.other e) => e

example : ∃ d b' ns, IsRdf C49.exampleEnv [] written d b' ns := by
  have h := C55.written_reads
  cases h' : parseRdf C49.exampleEnv [] written with
  | none => rw [h'] at h; cases h
  | some d => exact ⟨d, (RdfSays.rdf_iff ..).1 h'⟩

example : ending C49.exampleEnv written = s%"document" := by decide +kernel
example : ending C49.exampleEnv (withObject .supplier (.str s%"Nobody")) = s%"SPDXParsingError" := by decide +kernel

/-- two documents -/
example : NoDocument C49.exampleEnv ((.uri s%"http://other#SPDXRef-DOCUMENT", .type, spdxTerm s%"SpdxDocument") :: written) := by
  rintro ⟨n, h, _⟩
  have : (nodes ((.uri s%"http://other#SPDXRef-DOCUMENT", .type, spdxTerm s%"SpdxDocument") :: written) s%"SpdxDocument").length = 2 := by decide +kernel
  rw [h] at this
  cases this

example : ending C49.exampleEnv ((.uri s%"http://other#SPDXRef-DOCUMENT", .type, spdxTerm s%"SpdxDocument") :: written) = s%"SystemExit" := by decide +kernel

/-- a number as creator -/
example : ending C49.exampleEnv (withObject .creator (.int 5)) = s%"TypeError" := by decide +kernel
/-- pointers of an unknown class -/
example : ending C49.exampleEnv (written.filter fun t => ¬ (t.2.1 = .type ∧ (t.2.2 = pointerTerm s%"ByteOffsetPointer"))) = s%"KeyError" := by decide +kernel
/-- a text that refers to an element -/
example : ending C49.exampleEnv (withObject .relatedSpdxElement (.str (Example.doc.creationInfo.documentNamespace ++ s%"#SPDXRef-File"))) = s%"AttributeError" := by decide +kernel
/-- a license that is no expression -/
example : ending { C49.exampleEnv with lic := { C49.exampleEnv.lic with parse := fun t => if t = s%"AND" then none else C49.exampleEnv.lic.parse t } }
    (withObject .licenseConcluded (.uri (licenseNamespace ++ s%"AND"))) = s%"ExpressionError" := by decide +kernel
/-- the same license in a graph whose creation information is faulty is not looked at -/
example : ending { C49.exampleEnv with lic := { C49.exampleEnv.lic with parse := fun t => if t = s%"AND" then none else C49.exampleEnv.lic.parse t } }
    ((withObject .licenseConcluded (.uri (licenseNamespace ++ s%"AND"))).filter fun t => t.2.1 ≠ .created) = s%"SPDXParsingError" := by decide +kernel

end Spdx.C69
