import Verif.Lemmas.XmlViaDoc
import Verif.Lemmas.XmlWritten
import Verif.Props.C23
import Verif.Props.C56
/-
C57 — Writing a document as XML and reading it back loses nothing.

XML has no lists, numbers or truth values: the writer repeats elements, the library `xmltodict` turns repeated elements into a list and a single
one into no list, and the reader makes lists of the elements it knows to be lists.  For every document whose texts XML can carry
(`Spec/XmlOk.lean`) the document that is read is the document that was written, and any tree of that shape is read from XML as from JSON.
The theorems at the end show what happens to other documents.
-/
namespace Spdx.C57
open Spdx Spec XmlVia

/-- A tree whose texts XML keeps and whose lists are recognisable is read from XML as it is from JSON. -/
theorem read_as_json {L : LicText} {o : List (Str × Json)} {d : Document} (ho : KeptObj XmlText o) (h : parseDocument L (.obj o) = .ok d) :
    readXml L (.obj o) = some (.ok d) :=
  readXml_kept ho h

/-- What is written as XML is read back: everything is the same, annotations are grouped by element. -/
theorem round_trip (L : LicText) (d : Document) (h : JsonOk L d) (hs : ∀ s ∈ d.snippets, NonNegative s)
    (he : ∀ e ∈ d.extractedLicensingInfo, SaysSomething e) (ht : ∀ j, documentToJson L d = some j → ∀ s ∈ texts j, XmlText s) :
    ∃ j, documentToJson L d = some j ∧ readXml L j = some (.ok { d with annotations := regroup d }) := by
  obtain ⟨j, hj, hp⟩ := C23.round_trip L d h
  obtain ⟨o, rfl, ho⟩ := document_kept hj hs he
  have hT := ht _ hj
  exact ⟨_, hj, readXml_kept ⟨ho.1, members_texts ho.2 hT⟩ hp⟩

/-- Exactly the same if the annotations already stand in the order of their elements. -/
theorem round_trip_exact (L : LicText) (d : Document) (h : JsonOk L d) (hs : ∀ s ∈ d.snippets, NonNegative s)
    (he : ∀ e ∈ d.extractedLicensingInfo, SaysSomething e) (ht : ∀ j, documentToJson L d = some j → ∀ s ∈ texts j, XmlText s)
    (hg : regroup d = d.annotations) : ∃ j, documentToJson L d = some j ∧ readXml L j = some (.ok d) := by
  have := round_trip L d h hs he ht
  rw [hg] at this
  exact this

/-- Two documents with the same XML are the same up to the order of annotations. -/
theorem told_apart (L : LicText) (d e : Document) (hd : JsonOk L d) (he : JsonOk L e) (sd : ∀ s ∈ d.snippets, NonNegative s)
    (xd : ∀ x ∈ d.extractedLicensingInfo, SaysSomething x) (td : ∀ j, documentToJson L d = some j → ∀ s ∈ texts j, XmlText s)
    (se : ∀ s ∈ e.snippets, NonNegative s) (xe : ∀ x ∈ e.extractedLicensingInfo, SaysSomething x)
    (te : ∀ j, documentToJson L e = some j → ∀ s ∈ texts j, XmlText s)
    (h : (documentToJson L d).map (fun j => xmlContent (.obj [(s%"Document", j)])) = (documentToJson L e).map (fun j => xmlContent (.obj [(s%"Document", j)]))) :
    { d with annotations := regroup d } = { e with annotations := regroup e } := by
  obtain ⟨j, hj, rj⟩ := round_trip L d hd sd xd td
  obtain ⟨k, hk, rk⟩ := round_trip L e he se xe te
  rw [hj, hk] at h
  have h : xmlContent (.obj [(s%"Document", j)]) = xmlContent (.obj [(s%"Document", k)]) := Option.some.inj h
  unfold readXml at rj rk
  rw [h] at rj
  exact Except.ok.inj (Option.some.inj (rj.symm.trans rk))

/-! Non-vacuity -/

instance (s : Str) : Decidable (XmlText s) :=
  decidable_of_iff (s ≠ [] ∧ (∀ c ∈ s.head?, isPySpace c = false) ∧ (∀ c ∈ s.getLast?, isPySpace c = false) ∧
      ∀ c ∈ s, c ≠ '\r' ∧ (c = '\t' ∨ c = '\n' ∨ (0x20 ≤ c.toNat ∧ c.toNat ≠ 0xfffe ∧ c.toNat ≠ 0xffff)))
    ⟨fun h => ⟨h.1, h.2.1, h.2.2.1, h.2.2.2⟩, fun h => ⟨h.1, h.2, h.3, h.4⟩⟩

protected theorem example_texts : ∀ j, documentToJson C23.exampleLic Example.doc = some j → ∀ s ∈ texts j, XmlText s := by
  intro j hj
  have : (documentToJson C23.exampleLic Example.doc).all (fun j => decide (∀ s ∈ texts j, XmlText s)) = true := by decide +kernel
  rw [hj] at this
  exact of_decide_eq_true this

example : ∃ j, documentToJson C23.exampleLic Example.doc = some j ∧ readXml C23.exampleLic j = some (.ok Example.doc) :=
  round_trip_exact _ _ C23.example_ok (by unfold NonNegative; decide +kernel) (by unfold SaysSomething; decide +kernel)
    C57.example_texts (by decide +kernel)

/-! Each condition is needed. -/

/-- The outcome of writing as XML and reading. -/
def outcome (d : Document) : Option (Py Document) := (documentToJson C23.exampleLic d).bind (readXml C23.exampleLic)

/-- White space at the ends of a text is lost. -/
theorem outer_space_lost :
    outcome { C23.bare with creationInfo := { Example.info with documentComment := some s%" two words\n" } } =
      some (.ok { C23.bare with creationInfo := { Example.info with documentComment := some s%"two words" } }) := by
  decide +kernel

/-- An empty optional text comes back as no text. -/
theorem empty_text_lost :
    outcome { C23.bare with creationInfo := { Example.info with documentComment := some [] } } =
      some (.ok { C23.bare with creationInfo := { Example.info with documentComment := none } }) := by
  decide +kernel

/-- A document with an empty name cannot be read again. -/
theorem empty_name_refused :
    outcome { C23.bare with creationInfo := { Example.info with name := [] } } =
      some (.error (.parsing [.constructing s%"CreationInfo" [s%"name"]])) := by
  decide +kernel

/-- Carriage returns become line feeds. -/
theorem carriage_return_changed :
    outcome { C23.bare with creationInfo := { Example.info with documentComment := some s%"a\r\nb\rc" } } =
      some (.ok { C23.bare with creationInfo := { Example.info with documentComment := some s%"a\nb\nc" } }) := by
  decide +kernel

/-- A control character makes the file unreadable. -/
theorem control_character_unreadable :
    outcome { C23.bare with creationInfo := { Example.info with documentComment := some s%"a\x01b" } } = none := by
  decide +kernel

/-- An extracted licensing info without any field disappears. -/
theorem empty_extracted_lost :
    outcome { C23.bare with extractedLicensingInfo := [{}] } = some (.ok { C23.bare with extractedLicensingInfo := [] }) := by
  decide +kernel

/-- The kind of outcome of reading. -/
inductive Kind where
  | document | refused | crash | unreadable
deriving DecidableEq

def kind : Option (Py Document) → Kind
  | some (.ok _) => .document
  | some (.error (.parsing _)) => .refused
  | some (.error _) => .crash
  | none => .unreadable

/-- Two such infos make the reader crash. -/
theorem empty_extracted_crash : kind (outcome { C23.bare with extractedLicensingInfo := [{}, {}] }) = .crash := by decide +kernel

/-- A range with a negative end is written but refused when read; from JSON it is read. -/
theorem negative_range_refused :
    kind (outcome { C23.bare with snippets := [{ Example.snippet with byteRange := (-1, 5) }] }) = .refused ∧
      kind (C23.outcome { C23.bare with snippets := [{ Example.snippet with byteRange := (-1, 5) }] }) = .document := by
  decide +kernel

/-- A document with the given reviews. -/
def withReviews (reviews : List Json) : Json :=
  match documentToJson C23.exampleLic C23.bare with
  | some (.obj o) => .obj (o ++ [(s%"revieweds", .arr reviews)])
  | _ => .null

def review : Json :=
  .obj [(s%"reviewer", .str s%"Tool: t"), (s%"reviewDate", .str s%"2022-01-01T00:00:00Z"), (s%"comment", .str s%"fine")]

/-- A single review ("revieweds" is not among the fields the reader makes lists of) is not read from XML; two reviews are, and from JSON any
    number. -/
theorem single_review_not_read :
    kind (readXml C23.exampleLic (withReviews [review])) = .crash ∧
      kind (readXml C23.exampleLic (withReviews [review, review])) = .document ∧
      kind (some (parseDocument C23.exampleLic (withReviews [review]))) = .document := by
  decide +kernel

end Spdx.C57
