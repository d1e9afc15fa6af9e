import Verif.Lemmas.ToldLinesWhere
import Verif.Props.C76
import Verif.Props.C78
/-
C79: the line numbers in the messages with which a tag-value text is refused.

`Spec/TvToldLines` reads the messages off the attributes of the text and the lines of their tags (`toldLines`): as in C78, and every complaint
about an attribute has the line of the attribute, but for those that come without one (`lineless`).
-/
namespace Spdx.C79
open Spdx Spec

private theorem fine {text : Str} (h : ∀ a ∈ attrs (lex text), ¬ C68.Stops a) : ∀ a ∈ attrs (lex text), Told.Fine a := by
  intro a ha
  have hs := h a ha
  cases a with
  | value tag v =>
    refine ⟨C68.attrs_sound (C68.lex_good text) _ ha, fun hx => ?_⟩
    cases hp : parseActor v.value with
    | ok x => exact ⟨x, rfl⟩
    | error e =>
      refine absurd (.inr ⟨e, ?_⟩) hs
      rcases hx with rfl | ⟨rfl | rfl, hn⟩
      · exact .creator hp
      · exact .supplier hn hp
      · exact .originator hn hp
  | bad tag =>
    intro e
    subst e
    exact hs (.inl rfl)
  | spdxId => trivial
  | unknown => trivial
  | commented => trivial

/-! ## Theorems -/

private theorem both (L : LicText) (line : Nat) (text : Str) (h : ∀ a ∈ attrs (lex text), ¬ C68.Stops a) :
    (toldLines L (readLines line text) = [] ∧ ∃ d, parseTagValueAt L line text = .ok d) ∨
    (toldLines L (readLines line text) ≠ [] ∧ parseTagValueAt L line text = .error (.parsing (toldLines L (readLines line text)))) := by
  have hf : ∀ p ∈ readLines line text, Told.Fine p.1 := by
    intro p hp
    refine fine h p.1 ?_
    rw [← C76.same_attributes line]
    exact List.mem_map_of_mem hp
  obtain ⟨t, hr, hs⟩ := Told.result_lined (L := L) hf
  unfold parseTagValueAt
  rw [hr]
  exact hs

/-- A text is refused with exactly the messages read off its attributes and their lines, in this order. -/
theorem refused_with (L : LicText) (line : Nat) (text : Str) (h : ∀ a ∈ attrs (lex text), ¬ C68.Stops a) (ms : List PMsg) :
    parseTagValueAt L line text = .error (.parsing ms) ↔ ms ≠ [] ∧ ms = toldLines L (readLines line text) := by
  rcases both L line text h with ⟨h1, d, h2⟩ | ⟨h1, h2⟩
  · rw [h2, h1]
    exact ⟨fun e => (by cases e), fun e => absurd e.2 e.1⟩
  · rw [h2]
    constructor
    · intro e
      cases e
      exact ⟨h1, rfl⟩
    · rintro ⟨_, rfl⟩
      rfl

/-- Every text: without its line numbers, the result is that of the reader described by C66, C68 and C78. -/
theorem same_without_lines (L : LicText) (line : Nat) (text : Str) :
    parseTagValue L text = (parseTagValueAt L line text).mapError errWithoutLines := by
  unfold parseTagValue parseTagValueAt
  rw [← C76.same_attributes line text]
  rcases Told.run_same (L := L) (readLines line text) {} with ⟨t, h1, h2⟩ | ⟨x, h1, h2, h3⟩
  · rw [h1]
    have h2 : TvState.run L {} ((readLines line text).map (·.1)) = .ok (Told.bare t) := h2
    rw [h2]
    exact Told.result_same t
  · rw [h1]
    have h2 : TvState.run L {} ((readLines line text).map (·.1)) = .error x := h2
    rw [h2]
    show Except.error x = Except.error (errWithoutLines x)
    rw [h3]

/-- In particular it reads the same document. -/
theorem same_document (L : LicText) (line : Nat) (text : Str) (d : Document) :
    parseTagValueAt L line text = .ok d ↔ parseTagValue L text = .ok d := by
  rw [same_without_lines L line text]
  cases parseTagValueAt L line text with
  | ok x => rfl
  | error x => exact ⟨fun e => (by cases e), fun e => by cases e⟩

/-- Every line number in a message is that of an attribute of the text. -/
theorem lines_of_attributes (L : LicText) (line : Nat) (text : Str) (ms : List PMsg) (h : parseTagValueAt L line text = .error (.parsing ms))
    (n : Nat) (hn : n ∈ allLinesIn ms) : ∃ a, (a, n) ∈ readLines line text := by
  suffices hN : n ∈ (readLines line text).map (·.2) by
    obtain ⟨⟨a, k⟩, hp, rfl⟩ := List.mem_map.1 hN
    exact ⟨a, hp⟩
  unfold parseTagValueAt at h
  rcases Told.run_same (L := L) (readLines line text) {} with ⟨t, h1, _⟩ | ⟨x, h1, _, h3⟩
  · rw [h1] at h
    have hw : Told.Within ((readLines line text).map (·.2)) t :=
      Told.run_within (readLines line text) {} ⟨(fun k hk => by cases hk), (fun k hk => by cases hk), fun k hk => by cases hk⟩
        (fun p hp => List.mem_map_of_mem hp) t h1
    exact Told.result_within hw h n hn
  · rw [h1] at h
    cases h
    have h3 : PyErr.parsing (ms.map withoutLines) = .parsing ms := h3
    have h3 : ms.map withoutLines = ms := PyErr.parsing.inj h3
    rw [← h3, ← Told.all_eq, Told.allLines_without] at hn
    cases hn

/-- So it is the line of the text on which the tag of that attribute stands, if every colon is followed by its value. -/
theorem true_lines (L : LicText) (text : Str) (hc : ColonsFollowed text) (ms : List PMsg)
    (h : parseTagValueAt L 1 text = .error (.parsing ms)) (n : Nat) (hn : n ∈ allLinesIn ms) :
    ∃ a before after t r, (a, n) ∈ readLines 1 text ∧ text = before ++ after ∧ lexOne after = some (some t, r) ∧ TagOf a t ∧ n = lineAfter before := by
  obtain ⟨a, ha⟩ := lines_of_attributes L 1 text ms h n hn
  obtain ⟨before, after, t, r, h1⟩ := C76.exact_line text hc a n ha
  exact ⟨a, before, after, t, r, ha, h1⟩

/-! ## Non-vacuity -/

private def goesOn : TvAttr → Bool
  | .bad tag => tag ≠ s%"Relationship"
  | .value tag v => (match parseActor v.value with | .ok _ => true | .error _ => false) ||
      tag ∉ [s%"Creator", s%"PackageSupplier", s%"PackageOriginator"]
  | _ => true

private theorem goes_on {as : List TvAttr} (h : as.all goesOn = true) : ∀ a ∈ as, ¬ C68.Stops a := by
  intro a ha hs
  have := List.all_eq_true.1 h a ha
  rcases hs with rfl | ⟨e, hs⟩
  · cases this
  · cases hs with
    | creator he => simp [goesOn, he] at this
    | supplier _ he => simp [goesOn, he] at this
    | originator _ he => simp [goesOn, he] at this

private def lics : LicText := ⟨fun _ => [], fun s => if strip s = [] then some none else none⟩

private def faults : Str :=
  s%"SPDXID: SPDXRef-DOCUMENT\nCreated: then\nPackageName: p\nPackageName: q\nSnippetName: s\nBuiltDate: 2023-13-01T00:00:00Z\nFoo: bar\nFileName: f\nLicenseConcluded: x\nAnnotator: Person: a\nSPDXID: SPDXRef-a\nSPDXVersion: 1\nSPDXVersion: 2\n"

example : parseTagValueAt lics 1 faults = .error (.parsing [
    .constructing s%"Package" [s%"spdx_id", s%"download_location"],
    .atLine 5 (.text s%"Element Snippet is not the current element in scope"),
    .atLine 7 (.text s%"Unknown tag provided"),
    .wrapped s%"Package" [.invalid s%"date" (.str s%"2023-13-01T00:00:00Z")],
    .wrapped s%"File" [.invalid s%"license expression" (.str s%"x")],
    .constructing s%"Annotation" [s%"annotation_type", s%"annotation_date", s%"annotation_comment"],
    .wrapped s%"CreationInfo" [.atLine 2 (.text s%"Error while parsing Created"), .atLine 13 (.text s%"Multiple values for SPDXVersion found")]]) :=
  (refused_with lics 1 faults (goes_on (by decide +kernel)) _).2 ⟨by simp, by decide +kernel⟩

/-- The values of the current element, on several lines. -/
private def inner : Str :=
  s%"SPDXID: SPDXRef-DOCUMENT\n\nFileName: f\nFileComment: <text>a\nb</text>\nFileType: NOVEL\nFileComment: c\nPackageName: p\nPackageVersion: 1\nFilesAnalyzed: maybe\nPackageVersion: 2\n"

example : parseTagValueAt lics 1 inner = .error (.parsing [
    .wrapped s%"File" [.atLine 6 (.invalid s%"FileType" (.str s%"NOVEL")), .atLine 7 (.text s%"Multiple values for FileComment found")],
    .wrapped s%"Package" [.invalid s%"FilesAnalyzed" (.str s%"maybe"), .atLine 11 (.text s%"Multiple values for PackageVersion found")]]) :=
  (refused_with lics 1 inner (goes_on (by decide +kernel)) _).2 ⟨by simp, by decide +kernel⟩

/-- `ColonsFollowed`, computed. -/
private def colonsOk : Str → Bool
  | [] => true
  | c :: r => (c ≠ ':' || gap r == 0) && colonsOk r

private theorem colonsOk_sound : ∀ {s : Str}, colonsOk s = true → ColonsFollowed s
  | [], _ => fun a b e => by cases a <;> cases e
  | c :: s, h => by
    simp only [colonsOk, Bool.and_eq_true, Bool.or_eq_true, decide_eq_true_eq, beq_iff_eq] at h
    intro a b e
    cases a with
    | nil =>
      simp only [List.nil_append, List.cons.injEq] at e
      obtain ⟨rfl, rfl⟩ := e
      rcases h.1 with h | h
      · exact absurd rfl h
      · exact h
    | cons d a =>
      simp only [List.cons_append, List.cons.injEq] at e
      exact colonsOk_sound h.2 a b e.2

-- the condition of `true_lines`
example : ColonsFollowed inner ∧ (11 : Nat) ∈ allLinesIn (toldLines lics (readLines 1 inner)) ∧ ColonsFollowed faults :=
  ⟨colonsOk_sound (by decide +kernel), (by decide +kernel), colonsOk_sound (by decide +kernel)⟩

private def good : Str :=
  s%"SPDXVersion: SPDX-2.3\nDataLicense: CC0-1.0\nSPDXID: SPDXRef-DOCUMENT\nDocumentName: d\nDocumentNamespace: https://a.b\nCreator: Tool: t\nCreated: 2023-01-01T00:00:00Z\nPackageName: p\nSPDXID: SPDXRef-p\nPackageDownloadLocation: NONE\n"

example : ∃ d, parseTagValueAt lics 1 good = .ok d := by
  obtain ⟨d, h⟩ := (C78.accepted_iff lics good (goes_on (by decide +kernel))).2 (by decide +kernel)
  exact ⟨d, (same_document lics 1 good d).2 h⟩

end Spdx.C79
