import Verif.Lemmas.TagValueToldRun
import Verif.Props.C68
/-
C78: exactly which messages a tag-value text is refused with, and in which order.

`Spec/TvTold` reads the messages off the attributes of the text (`told`): first, in the order of the text, those about the elements and the
attributes out of place; then those about the creation information.
-/
namespace Spdx.C78
open Spdx Spec

private theorem fine {text : Str} (h : ∀ a ∈ attrs (lex text), ¬ C68.Stops a) : ∀ a ∈ attrs (lex text), Told.Fine a := by
  intro a ha
  have hs := h a ha
  cases a with
  | value tag v =>
    refine ⟨C68.attrs_sound (C68.lex_good text) _ ha, fun hx => ?_⟩
    cases hp : parseActor v.value with
    | ok x => exact ⟨x, rfl⟩
    | error e =>
      refine absurd (.inr ⟨e, ?_⟩) hs
      rcases hx with rfl | ⟨rfl | rfl, hn⟩
      · exact .creator hp
      · exact .supplier hn hp
      · exact .originator hn hp
  | bad tag =>
    intro e
    subst e
    exact hs (.inl rfl)
  | spdxId => trivial
  | unknown => trivial
  | commented => trivial

/-! ## Theorems -/

private theorem both (L : LicText) (text : Str) (h : ∀ a ∈ attrs (lex text), ¬ C68.Stops a) :
    (told L (attrs (lex text)) = [] ∧ ∃ d, parseTagValue L text = .ok d) ∨
    (told L (attrs (lex text)) ≠ [] ∧ parseTagValue L text = .error (.parsing (told L (attrs (lex text))))) := by
  obtain ⟨s, hr, hs⟩ := Told.result_told (L := L) (fine h)
  unfold parseTagValue
  rw [hr]
  exact hs

/-- A text is refused with exactly the messages read off its attributes, in this order.  (Which attributes end the reading, and how, is
    C68.) -/
theorem refused_with (L : LicText) (text : Str) (h : ∀ a ∈ attrs (lex text), ¬ C68.Stops a) (ms : List PMsg) :
    parseTagValue L text = .error (.parsing ms) ↔ ms ≠ [] ∧ ms = told L (attrs (lex text)) := by
  rcases both L text h with ⟨h1, d, h2⟩ | ⟨h1, h2⟩
  · rw [h2, h1]
    exact ⟨fun e => (by cases e), fun e => absurd e.2 e.1⟩
  · rw [h2]
    constructor
    · intro e
      cases e
      exact ⟨h1, rfl⟩
    · rintro ⟨_, rfl⟩
      rfl

/-- It is accepted exactly if there are none. -/
theorem accepted_iff (L : LicText) (text : Str) (h : ∀ a ∈ attrs (lex text), ¬ C68.Stops a) :
    (∃ d, parseTagValue L text = .ok d) ↔ told L (attrs (lex text)) = [] := by
  rcases both L text h with ⟨h1, h2⟩ | ⟨h1, h2⟩
  · exact ⟨fun _ => h1, fun _ => h2⟩
  · rw [h2]
    exact ⟨fun ⟨d, e⟩ => (by cases e), fun e => absurd e h1⟩

private theorem first_stop (as : List TvAttr) :
    (∀ a ∈ as, ¬ C68.Stops a) ∨ ∃ pre a post, as = pre ++ a :: post ∧ (∀ a ∈ pre, ¬ C68.Stops a) ∧ C68.Stops a := by
  induction as with
  | nil => exact .inl fun a h => nomatch h
  | cons a as ih =>
    by_cases ha : C68.Stops a
    · exact .inr ⟨[], a, as, rfl, (fun a h => nomatch h), ha⟩
    · rcases ih with h | ⟨pre, b, post, rfl, h1, h2⟩
      · exact .inl (List.forall_mem_cons.2 ⟨ha, h⟩)
      · exact .inr ⟨a :: pre, b, post, rfl, List.forall_mem_cons.2 ⟨ha, h1⟩, h2⟩

/-- All texts: either every attribute is read, and the text is accepted or refused with the messages read off its attributes; or the first
    attribute that ends the reading is a malformed actor, the only thing reported, or a malformed relationship, for which another exception is
    raised. -/
theorem every_text (L : LicText) (text : Str) :
    ((∀ a ∈ attrs (lex text), ¬ C68.Stops a) ∧
      ((told L (attrs (lex text)) = [] ∧ ∃ d, parseTagValue L text = .ok d) ∨
       (told L (attrs (lex text)) ≠ [] ∧ parseTagValue L text = .error (.parsing (told L (attrs (lex text))))))) ∨
    (∃ pre a post, attrs (lex text) = pre ++ a :: post ∧ (∀ a ∈ pre, ¬ C68.Stops a) ∧
      ((a = C68.badRelationship ∧ C66.Uncaught (parseTagValue L text)) ∨
       (∃ e, C68.BadActor a e ∧ parseTagValue L text = .error (.parsing [actorMsg e])))) := by
  rcases first_stop (attrs (lex text)) with h | ⟨pre, a, post, e, hn, ha | ⟨x, ha⟩⟩
  · exact .inl ⟨h, both L text h⟩
  · subst ha
    exact .inr ⟨pre, _, post, e, hn, .inl ⟨rfl, (C68.uncaught_iff L text).2 ⟨pre, post, e, fun a ha x hx => hn a ha (.inr ⟨x, hx⟩)⟩⟩⟩
  · exact .inr ⟨pre, a, post, e, hn, .inr ⟨x, ha, C68.bad_actor L text pre post a x e hn ha⟩⟩

/-- A text that is accepted is at fault nowhere. -/
theorem accepted_tells_nothing (L : LicText) (text : Str) (d : Document) (h : parseTagValue L text = .ok d) :
    (∀ a ∈ attrs (lex text), ¬ C68.Stops a) ∧ told L (attrs (lex text)) = [] := by
  rcases every_text L text with ⟨h1, h2 | h2⟩ | ⟨_, _, _, _, _, h2 | ⟨_, _, h2⟩⟩
  · exact ⟨h1, h2.1⟩
  · rw [h] at h2; cases h2.2
  · obtain ⟨_, _, e, _⟩ := h2; rw [h] at e; cases e
  · rw [h] at h2; cases h2

/-! ## Concrete cases -/

private def goesOn : TvAttr → Bool
  | .bad tag => tag ≠ s%"Relationship"
  | .value tag v => (match parseActor v.value with | .ok _ => true | .error _ => false) ||
      tag ∉ [s%"Creator", s%"PackageSupplier", s%"PackageOriginator"]
  | _ => true

private theorem goes_on {as : List TvAttr} (h : as.all goesOn = true) : ∀ a ∈ as, ¬ C68.Stops a := by
  intro a ha hs
  have := List.all_eq_true.1 h a ha
  rcases hs with rfl | ⟨e, hs⟩
  · cases this
  · cases hs with
    | creator he => simp [goesOn, he] at this
    | supplier _ he => simp [goesOn, he] at this
    | originator _ he => simp [goesOn, he] at this

/-- Licenses: a blank text is no license, and all other texts are refused. -/
private def lics : LicText := ⟨fun _ => [], fun s => if strip s = [] then some none else none⟩

/-- Faults in packages, in a file, out of place, in the creation information. -/
private def faults : Str :=
  s%"SPDXID: SPDXRef-DOCUMENT\nCreated: then\nPackageName: p\nPackageName: q\nSnippetName: s\nBuiltDate: 2023-13-01T00:00:00Z\nFoo: bar\nFileName: f\nLicenseConcluded: x\nAnnotator: Person: a\nSPDXID: SPDXRef-a\nSPDXVersion: 1\nSPDXVersion: 2\n"

example : parseTagValue lics faults = .error (.parsing [
    .constructing s%"Package" [s%"spdx_id", s%"download_location"],
    .text s%"Element Snippet is not the current element in scope",
    .text s%"Unknown tag provided",
    .wrapped s%"Package" [.invalid s%"date" (.str s%"2023-13-01T00:00:00Z")],
    .wrapped s%"File" [.invalid s%"license expression" (.str s%"x")],
    .constructing s%"Annotation" [s%"annotation_type", s%"annotation_date", s%"annotation_comment"],
    .wrapped s%"CreationInfo" [.text s%"Error while parsing Created", .text s%"Multiple values for SPDXVersion found"]]) :=
  (refused_with lics faults (goes_on (by decide +kernel)) _).2 ⟨by simp, by decide +kernel⟩

/-- A file after a package that could not be built; a second one after a package that could, with a blank license. -/
private def homeless : Str :=
  s%"SPDXID: SPDXRef-DOCUMENT\nPackageName: p\nSPDXID: SPDXRef-p\nFileName: f\nSPDXID: SPDXRef-f\nFileChecksum: SHA1: 12\nSnippetSPDXID: s\nPackageName: p\nSPDXID: SPDXRef-p\nPackageDownloadLocation: NONE\nFileName: g\nSPDXID: SPDXRef-g\nFileChecksum: SHA1: 12\nLicenseInfoInFile: \n"

example : parseTagValue lics homeless = .error (.parsing [
    .constructing s%"Package" [s%"download_location"],
    .text s%"Error while building contains relationship for file SPDXRef-f",
    .constructing s%"Snippet" [s%"file_spdx_id", s%"byte_range"],
    .constructing s%"File" [s%"license_info_in_file"]]) :=
  (refused_with lics homeless (goes_on (by decide +kernel)) _).2 ⟨by simp, by decide +kernel⟩

/-- A second `SPDXID` before the first element goes to that element, which may not have one. -/
private def stray : Str := s%"SPDXID: SPDXRef-DOCUMENT\nSPDXID: SPDXRef-x\nRelationship: a CONTAINS b\nFileName: f\nSPDXID: SPDXRef-f\n"

example : parseTagValue lics stray = .error (.parsing [.constructing s%"Relationship" [s%"spdx_id"], .constructing s%"File" [s%"checksums"]]) :=
  (refused_with lics stray (goes_on (by decide +kernel)) _).2 ⟨by simp, by decide +kernel⟩

/-- What is missing in the creation information is told only if there is nothing else. -/
private def bare : Str := s%"SPDXID: SPDXRef-DOCUMENT\nPackageName: p\nSPDXID: SPDXRef-p\nPackageDownloadLocation: NONE\n"

example : parseTagValue lics bare = .error (.parsing [
    .constructing s%"CreationInfo" [s%"spdx_version", s%"name", s%"document_namespace", s%"creators", s%"created"]]) :=
  (refused_with lics bare (goes_on (by decide +kernel)) _).2 ⟨by simp, by decide +kernel⟩

private def good : Str :=
  s%"SPDXVersion: SPDX-2.3\nDataLicense: CC0-1.0\nSPDXID: SPDXRef-DOCUMENT\nDocumentName: d\nDocumentNamespace: https://a.b\nCreator: Tool: t\nCreated: 2023-01-01T00:00:00Z\nPackageName: p\nSPDXID: SPDXRef-p\nPackageDownloadLocation: NONE\n"

example : ∃ d, parseTagValue lics good = .ok d := (accepted_iff lics good (goes_on (by decide +kernel))).2 (by decide +kernel)

end Spdx.C78
