import Verif.Lemmas.TvMovedTold
import Verif.Props.C52
import Verif.Props.C78
/-
C86: The order of the sections of a tag-value document makes no difference, but for the order of sections about elements of the same kind and
for where files stand.
-/
namespace Spdx.C86
open Spec (Moved Says SaysInfo sections preamble ids told about ofDocument)
open TvMoved

private theorem symm {as as' : List TvAttr} (h : Moved as as') : Moved as' as :=
  ⟨h.preamble.symm, fun b hb => h.document b ((swapped h).perm.mem_iff.2 hb), fun k => (h.sameKind k).symm, fun k hk => (h.files k hk).symm⟩

private theorem members {as as' : List TvAttr} (h : Moved as as') (x : TvAttr) (hx : x ∈ as') : x ∈ as := by
  rw [TvOrder.sections_preamble as', ← h.preamble] at hx
  rw [TvOrder.sections_preamble as]
  refine ((swapped h).perm.flatten.append_left _).mem_iff.2 hx

private theorem kept (L : LicText) {text text' : Str} (h : Moved (attrs (lex text)) (attrs (lex text')))
    (hid : (ids (preamble (attrs (lex text)))).length = 1) {d : Document} (e : parseTagValue L text = .ok d) : parseTagValue L text' = .ok d := by
  have h1 := C78.accepted_tells_nothing L text d e
  obtain ⟨d', e'⟩ := (C78.accepted_iff L text' fun x hx => h1.1 x (members h x hx)).2 (told_moved L h hid h1.2)
  obtain ⟨hi, hs⟩ := C52.read_says_partial L text d e hid
  obtain ⟨hi', hs'⟩ := C52.read_says_partial L text' d' e' (by rw [← h.preamble]; exact hid)
  have hne : ids (preamble (attrs (lex text))) ≠ [] := fun e => by rw [e] at hid; simp at hid
  have hi2 : SaysInfo (attrs (lex text')) d.creationInfo := by
    rw [TvOrder.sections_preamble (attrs (lex text'))]
    rw [TvOrder.sections_preamble (attrs (lex text))] at hi
    rw [← h.preamble]
    refine info_preamble ?_ ?_ hne hi
    · intro a ha
      obtain ⟨b, hb, ha⟩ := List.mem_flatten.1 ha
      exact h.document b hb a ha
    · intro a ha
      obtain ⟨b, hb, ha⟩ := List.mem_flatten.1 ha
      exact (symm h).document b hb a ha
  have ec : d.creationInfo = d'.creationInfo := TvOrder.info_unique hi2 hi'
  have ed : d = d' := C52.says_unique L d'.creationInfo _ d d' (ec ▸ says_moved (swapped h) hs) hs'
  rw [ed]
  exact e'

/-! ## Theorems -/

/-- Texts that have all about the document itself at the beginning, with one `SPDXID`, and that differ in the order of sections only are both
    refused or read as the same document.  Sections about the same kind of element keep their order; so do packages and files, and files and
    relationships. -/
theorem same_document (L : LicText) (text text' : Str) (h : Moved (attrs (lex text)) (attrs (lex text')))
    (hid : (ids (preamble (attrs (lex text)))).length = 1) (d : Document) : parseTagValue L text = .ok d ↔ parseTagValue L text' = .ok d :=
  ⟨kept L h hid, kept L (symm h) (by rw [← h.preamble]; exact hid)⟩

/-- Such a text with some sections is accepted if and only if, for each section, the text with this section only, after the same beginning,
    is accepted. -/
theorem each_section (L : LicText) (text : Str) (alone : List Str) (hid : (ids (preamble (attrs (lex text)))).length = 1)
    (hs : sections (attrs (lex text)) ≠ []) (hdoc : ∀ b ∈ sections (attrs (lex text)), ∀ a ∈ b, ofDocument a = false)
    (h : alone.map (fun t => attrs (lex t)) = (sections (attrs (lex text))).map (preamble (attrs (lex text)) ++ ·)) :
    (∃ d, parseTagValue L text = .ok d) ↔ ∀ t ∈ alone, ∃ d, parseTagValue L t = .ok d := by
  have from_text : ∀ t ∈ alone, ∃ b ∈ sections (attrs (lex text)), preamble (attrs (lex text)) ++ b = attrs (lex t) := fun t ht => by
    have : attrs (lex t) ∈ alone.map (fun t => attrs (lex t)) := List.mem_map.2 ⟨t, ht, rfl⟩
    rw [h] at this
    exact List.mem_map.1 this
  have to_text : ∀ b ∈ sections (attrs (lex text)), ∃ t ∈ alone, attrs (lex t) = preamble (attrs (lex text)) ++ b := fun b hb => by
    have : preamble (attrs (lex text)) ++ b ∈ (sections (attrs (lex text))).map (preamble (attrs (lex text)) ++ ·) := List.mem_map.2 ⟨b, hb, rfl⟩
    rw [← h] at this
    exact List.mem_map.1 this
  have parts := TvOrder.sections_preamble (attrs (lex text))
  constructor
  · rintro ⟨d, e⟩ t ht
    obtain ⟨b, hb, et⟩ := from_text t ht
    have h1 := C78.accepted_tells_nothing L text d e
    refine (C78.accepted_iff L t fun x hx => h1.1 x ?_).2 ?_
    · rw [← et] at hx
      rw [parts]
      rcases List.mem_append.1 hx with hx | hx
      · exact List.mem_append_left _ hx
      · exact List.mem_append_right _ (List.mem_flatten.2 ⟨b, hb, hx⟩)
    · rw [← et]
      exact (told_alone L hid hs hdoc).1 h1.2 b hb
  · intro hall
    have each : ∀ b ∈ sections (attrs (lex text)), (∀ x ∈ preamble (attrs (lex text)) ++ b, ¬ C68.Stops x) ∧ told L (preamble (attrs (lex text)) ++ b) = [] := by
      intro b hb
      obtain ⟨t, ht, et⟩ := to_text b hb
      obtain ⟨d, e⟩ := hall t ht
      rw [← et]
      exact C78.accepted_tells_nothing L t d e
    refine (C78.accepted_iff L text fun x hx => ?_).2 ((told_alone L hid hs hdoc).2 fun b hb => (each b hb).2)
    rw [parts] at hx
    rcases List.mem_append.1 hx with hx | hx
    · obtain ⟨b, hb⟩ := List.exists_mem_of_ne_nil _ hs
      exact (each b hb).1 x (List.mem_append_left _ hx)
    · obtain ⟨b, hb, hx⟩ := List.mem_flatten.1 hx
      exact (each b hb).1 x (List.mem_append_right _ hx)

/-! ## Concrete cases -/

private def head : Str := s%"SPDXVersion: SPDX-2.3\nDataLicense: CC0-1.0\nSPDXID: SPDXRef-DOCUMENT\nDocumentName: n\nDocumentNamespace: https://some.uri\nCreator: Person: p\nCreated: 2020-01-01T00:00:00Z\n"
private def package : Str := s%"PackageName: p\nSPDXID: SPDXRef-p\nPackageDownloadLocation: NONE\n"
private def file : Str := s%"FileName: f\nSPDXID: SPDXRef-f\nFileChecksum: SHA1: 0\n"
private def snippet : Str := s%"SnippetSPDXID: SPDXRef-s\nSnippetFromFileSPDXID: SPDXRef-f\nSnippetByteRange: 1:2\n"
private def relationship : Str := s%"Relationship: SPDXRef-DOCUMENT DESCRIBES SPDXRef-p\n"
private def extracted : Str := s%"LicenseID: LicenseRef-1\nExtractedText: <text>x</text>\n"

private def headAttrs : List TvAttr :=
  [.value s%"SPDXVersion" (.line s%"SPDX-2.3"), .value s%"DataLicense" (.line s%"CC0-1.0"), .spdxId s%"SPDXRef-DOCUMENT",
   .value s%"DocumentName" (.line s%"n"), .value s%"DocumentNamespace" (.line s%"https://some.uri"), .value s%"Creator" (.person s%"Person: p"),
   .value s%"Created" (.date s%"2020-01-01T00:00:00Z")]
private def packageAttrs : List TvAttr :=
  [.value s%"PackageName" (.line s%"p"), .spdxId s%"SPDXRef-p", .value s%"PackageDownloadLocation" .none]
private def fileAttrs : List TvAttr := [.value s%"FileName" (.line s%"f"), .spdxId s%"SPDXRef-f", .value s%"FileChecksum" (.checksum s%"SHA1: 0")]
private def snippetAttrs : List TvAttr :=
  [.value s%"SnippetSPDXID" (.line s%"SPDXRef-s"), .value s%"SnippetFromFileSPDXID" (.line s%"SPDXRef-f"), .value s%"SnippetByteRange" (.line s%"1:2")]
private def relationshipAttrs : List TvAttr := [.commented s%"Relationship" s%"SPDXRef-DOCUMENT DESCRIBES SPDXRef-p" none]
private def extractedAttrs : List TvAttr := [.value s%"LicenseID" (.line s%"LicenseRef-1"), .value s%"ExtractedText" (.text s%"<text>x</text>")]

private def whole : Str := head ++ package ++ file ++ snippet ++ relationship ++ extracted
private def other : Str := head ++ extracted ++ package ++ snippet ++ file ++ relationship

private theorem whole_parts : preamble (attrs (lex whole)) = headAttrs ∧
    sections (attrs (lex whole)) = [packageAttrs, fileAttrs, snippetAttrs, relationshipAttrs, extractedAttrs] := by decide +kernel
private theorem other_parts : preamble (attrs (lex other)) = headAttrs ∧
    sections (attrs (lex other)) = [extractedAttrs, packageAttrs, snippetAttrs, fileAttrs, relationshipAttrs] := by decide +kernel

private theorem document_only : ∀ b ∈ sections (attrs (lex whole)), ∀ a ∈ b, ofDocument a = false := by
  rw [whole_parts.2]
  decide +kernel

private theorem moved : Moved (attrs (lex whole)) (attrs (lex other)) := by
  refine ⟨whole_parts.1.trans other_parts.1.symm, document_only, fun k => ?_, fun k hk => ?_⟩ <;> rw [whole_parts.2, other_parts.2]
  · cases k <;> decide +kernel
  · rcases hk with rfl | rfl <;> decide +kernel

private theorem whole_read (L : LicText) : ∃ d, parseTagValue L whole = .ok d ∧ d.packages.length = 1 ∧ d.files.length = 1 ∧ d.snippets.length = 1 ∧
    d.extractedLicensingInfo.length = 1 ∧
    d.relationships = [⟨s%"SPDXRef-p", .CONTAINS, .val s%"SPDXRef-f", none⟩, ⟨s%"SPDXRef-DOCUMENT", .DESCRIBES, .val s%"SPDXRef-p", none⟩] := by
  unfold parseTagValue
  rw [TvOrder.sections_preamble (attrs (lex whole)), whole_parts.1, whole_parts.2]
  exact ⟨_, rfl, rfl, rfl, rfl, rfl, rfl⟩

/-- A text with a package, a file, a snippet, a relationship and a license, and the same sections in another order, are read as the same document. -/
example (L : LicText) : whole ≠ other ∧ ∃ d, parseTagValue L whole = .ok d ∧ parseTagValue L other = .ok d ∧ d.packages.length = 1 ∧ d.snippets.length = 1 := by
  obtain ⟨d, h, h1, _, h2, _⟩ := whole_read L
  exact ⟨by decide +kernel, d, h, (same_document L whole other moved (by rw [whole_parts.1]; decide) d).1 h, h1, h2⟩

/-- Each section of this text is accepted by itself. -/
example (L : LicText) : ∀ t ∈ [head ++ package, head ++ file, head ++ snippet, head ++ relationship, head ++ extracted],
    ∃ d, parseTagValue L t = .ok d := by
  refine (each_section L whole _ (by rw [whole_parts.1]; decide) (by rw [whole_parts.2]; simp) document_only ?_).1 ?_
  · rw [whole_parts.1, whole_parts.2]
    decide +kernel
  · obtain ⟨d, h, _⟩ := whole_read L
    exact ⟨d, h⟩

private theorem early_parts : attrs (lex (head ++ file ++ package)) = headAttrs ++ fileAttrs ++ packageAttrs := by decide +kernel
private theorem late_parts : attrs (lex (head ++ package ++ file)) = headAttrs ++ packageAttrs ++ fileAttrs := by decide +kernel
private theorem between_parts : attrs (lex (head ++ package ++ relationship ++ file)) = headAttrs ++ packageAttrs ++ relationshipAttrs ++ fileAttrs := by
  decide +kernel
private theorem after_parts : attrs (lex (head ++ package ++ file ++ relationship)) = headAttrs ++ packageAttrs ++ fileAttrs ++ relationshipAttrs := by
  decide +kernel

/-- Where the files stand matters: a file after a package is contained in it, one before it is not; and a relationship that stands before a
    file comes before the relationship that the file adds. -/
theorem files_matter (L : LicText) :
    (∃ d, parseTagValue L (head ++ package ++ file) = .ok d ∧ d.relationships = [⟨s%"SPDXRef-p", .CONTAINS, .val s%"SPDXRef-f", none⟩]) ∧
    (∃ d, parseTagValue L (head ++ file ++ package) = .ok d ∧ d.relationships = []) ∧
    (∃ d, parseTagValue L (head ++ package ++ file ++ relationship) = .ok d ∧ d.relationships.map (·.relationshipType) = [.CONTAINS, .DESCRIBES]) ∧
    (∃ d, parseTagValue L (head ++ package ++ relationship ++ file) = .ok d ∧ d.relationships.map (·.relationshipType) = [.DESCRIBES, .CONTAINS]) := by
  refine ⟨?_, ?_, ?_, ?_⟩ <;> unfold parseTagValue
  · rw [late_parts]; exact ⟨_, rfl, rfl⟩
  · rw [early_parts]; exact ⟨_, rfl, rfl⟩
  · rw [after_parts]; exact ⟨_, rfl, rfl⟩
  · rw [between_parts]; exact ⟨_, rfl, rfl⟩

private def bare : Str := s%"SPDXVersion: SPDX-2.3\nDataLicense: CC0-1.0\nDocumentName: n\nDocumentNamespace: https://some.uri\nCreator: Person: p\nCreated: 2020-01-01T00:00:00Z\n"
private def withId : Str := s%"LicenseID: LicenseRef-1\nExtractedText: <text>x</text>\nSPDXID: SPDXRef-DOCUMENT\n"
private def bareAttrs : List TvAttr :=
  [.value s%"SPDXVersion" (.line s%"SPDX-2.3"), .value s%"DataLicense" (.line s%"CC0-1.0"),
   .value s%"DocumentName" (.line s%"n"), .value s%"DocumentNamespace" (.line s%"https://some.uri"), .value s%"Creator" (.person s%"Person: p"),
   .value s%"Created" (.date s%"2020-01-01T00:00:00Z")]
private theorem first_parts : attrs (lex (bare ++ withId ++ package)) = bareAttrs ++ extractedAttrs ++ [.spdxId s%"SPDXRef-DOCUMENT"] ++ packageAttrs := by
  decide +kernel
private theorem last_parts : attrs (lex (bare ++ package ++ withId)) = bareAttrs ++ packageAttrs ++ extractedAttrs ++ [.spdxId s%"SPDXRef-DOCUMENT"] := by
  decide +kernel

/-- Without an `SPDXID` at the beginning the first one in a section is taken for that of the document, and the order of the sections decides
    whether the text is accepted. -/
theorem identifier_needed (L : LicText) :
    (∃ d, parseTagValue L (bare ++ withId ++ package) = .ok d) ∧ ¬ ∃ d, parseTagValue L (bare ++ package ++ withId) = .ok d := by
  refine ⟨?_, ?_⟩ <;> unfold parseTagValue
  · rw [first_parts]; exact ⟨_, rfl⟩
  · rw [last_parts]
    rintro ⟨d, h⟩
    exact absurd (show _ = _ from h) (by intro h; cases h)

end Spdx.C86
