import Verif.Lemmas.TvOrderTold
import Verif.Props.C52
import Verif.Props.C78
/-
C84: The order of attributes about different things within the sections of a tag-value document makes no difference.
-/
namespace Spdx.C84
open Spec (SameSections SameByKind fieldKind SaysInfo Says sections preamble ids told opens)
open TvOrder

private theorem stops_swap {l r : List TvAttr} {a b : TvAttr} (h : ∀ x ∈ l ++ a :: b :: r, ¬ C68.Stops x) : ∀ x ∈ l ++ b :: a :: r, ¬ C68.Stops x := by
  intro x hx
  refine h x ?_
  simp only [List.mem_append, List.mem_cons] at hx ⊢
  rcases hx with hx | hx | hx | hx
  · exact .inl hx
  · exact .inr (.inr (.inl hx))
  · exact .inr (.inl hx)
  · exact .inr (.inr (.inr hx))

private theorem stops {as bs : List TvAttr} (h : Relined as bs) : (∀ x ∈ as, ¬ C68.Stops x) → ∀ x ∈ bs, ¬ C68.Stops x := by
  induction h with
  | refl => exact id
  | swap l r a b _ _ _ => exact stops_swap
  | trans _ _ ih1 ih2 => exact ih2 ∘ ih1

private theorem nothing_told (L : LicText) {as bs : List TvAttr} (h : Relined as bs) : told L as = [] ↔ told L bs = [] := by
  induction h with
  | refl => exact Iff.rfl
  | swap l r a b h1 h2 h3 => exact told_swap ⟨h1, h2, h3⟩ L l r
  | trans _ _ ih1 ih2 => exact ih1.trans ih2

private theorem says {as bs : List TvAttr} (h : Relined as bs) {L : LicText} {c : CreationInfo} {d : Document} :
    SaysInfo as c ∧ Says L c (sections as) d → SaysInfo bs c ∧ Says L c (sections bs) d := by
  induction h with
  | refl => exact id
  | swap l r a b h1 h2 h3 => exact fun ⟨hi, hs⟩ => ⟨info_swap ⟨h1, h2, h3⟩ hi, says_same hs (sections_swap ⟨h1, h2, h3⟩ l r)⟩
  | trans _ _ ih1 ih2 => exact ih2 ∘ ih1

private theorem one_id {as bs : List TvAttr} (h : Relined as bs) : ids (preamble as) = ids (preamble bs) := by
  induction h with
  | refl => rfl
  | swap l r a b h1 h2 h3 =>
    rcases preamble_swap ⟨h1, h2, h3⟩ l r with e | ⟨r', e1, e2⟩
    · rw [e]
    · rw [e1, e2, ids_swap ⟨h1, h2, h3⟩]
  | trans _ _ ih1 ih2 => exact ih1.trans ih2

private theorem symm {as bs : List TvAttr} (h : Relined as bs) : Relined bs as := by
  induction h with
  | refl => exact .refl _
  | swap l r a b h1 h2 h3 => exact .swap l r b a h2 h1 fun e => h3 e.symm
  | trans _ _ ih1 ih2 => exact ih2.trans ih1

/-! ## Theorems -/

/-- Whether a text is accepted does not depend on the order of attributes about different things within its sections. -/
theorem same_verdict (L : LicText) (text text' : Str) (h : SameSections (attrs (lex text)) (attrs (lex text'))) :
    (∃ d, parseTagValue L text = .ok d) ↔ ∃ d, parseTagValue L text' = .ok d := by
  have hr := relined_of_sections h
  constructor
  · rintro ⟨d, e⟩
    have h1 := C78.accepted_tells_nothing L text d e
    exact (C78.accepted_iff L text' (stops hr h1.1)).2 ((nothing_told L hr).1 h1.2)
  · rintro ⟨d, e⟩
    have h1 := C78.accepted_tells_nothing L text' d e
    exact (C78.accepted_iff L text (stops (symm hr) h1.1)).2 ((nothing_told L hr).2 h1.2)

/-- Nor does the document that is read, in a text with one `SPDXID` before the first element. -/
theorem same_document (L : LicText) (text text' : Str) (h : SameSections (attrs (lex text)) (attrs (lex text')))
    (hid : (ids (preamble (attrs (lex text)))).length = 1) (d : Document) : parseTagValue L text = .ok d ↔ parseTagValue L text' = .ok d := by
  have hr := relined_of_sections h
  have main : ∀ {t t' : Str}, Relined (attrs (lex t)) (attrs (lex t')) → (∃ d, parseTagValue L t' = .ok d) →
      (ids (preamble (attrs (lex t)))).length = 1 → parseTagValue L t = .ok d → parseTagValue L t' = .ok d := by
    intro t t' hr ⟨d', e'⟩ hid e
    have h1 := says hr (C52.read_says_partial L t d e hid)
    have h2 := C52.read_says_partial L t' d' e' (by rw [← one_id hr]; exact hid)
    have ec : d.creationInfo = d'.creationInfo := info_unique h1.1 h2.1
    have ed : d = d' := C52.says_unique L d'.creationInfo _ d d' (ec ▸ h1.2) h2.2
    rw [ed]
    exact e'
  refine ⟨fun e => main hr ((same_verdict L text text' h).1 ⟨d, e⟩) hid e, fun e => ?_⟩
  exact main (symm hr) ((same_verdict L text text' h).2 ⟨d, e⟩) (by rw [← one_id hr]; exact hid) e

/-! ## Concrete cases -/

private theorem by_kinds {l l' : List TvAttr}
    (h : ∀ k ∈ (l ++ l').map fieldKind, l.filter (fieldKind · = k) = l'.filter (fieldKind · = k)) : SameByKind l l' := by
  intro k
  by_cases hk : k ∈ (l ++ l').map fieldKind
  · exact h k hk
  · have none : ∀ m : List TvAttr, (∀ x ∈ m, x ∈ l ++ l') → m.filter (fieldKind · = k) = [] := by
      intro m hm
      refine List.filter_eq_nil_iff.2 fun x hx => ?_
      simp only [decide_eq_true_eq]
      exact fun e => hk (List.mem_map.2 ⟨x, hm x hx, e⟩)
    rw [none l fun x hx => List.mem_append_left _ hx, none l' fun x hx => List.mem_append_right _ hx]

private def text : Str := s%"SPDXVersion: SPDX-2.3\nDataLicense: CC0-1.0\nSPDXID: SPDXRef-DOCUMENT\nDocumentName: n\nDocumentNamespace: https://some.uri\nCreator: Person: p\nCreator: Tool: t\nCreated: 2020-01-01T00:00:00Z\nPackageName: p\nSPDXID: SPDXRef-p\nPackageVersion: 1\nPackageDownloadLocation: NONE\nFileName: f\nSPDXID: SPDXRef-f\nFileChecksum: SHA1: 0\nFileContributor: a\nFileContributor: b\n"

private def other : Str := s%"Creator: Person: p\nDocumentNamespace: https://some.uri\nCreated: 2020-01-01T00:00:00Z\nSPDXID: SPDXRef-DOCUMENT\nCreator: Tool: t\nDataLicense: CC0-1.0\nDocumentName: n\nSPDXVersion: SPDX-2.3\nPackageName: p\nPackageDownloadLocation: NONE\nPackageVersion: 1\nSPDXID: SPDXRef-p\nFileName: f\nFileContributor: a\nFileChecksum: SHA1: 0\nFileContributor: b\nSPDXID: SPDXRef-f\n"

private theorem text_parts : preamble (attrs (lex text)) =
      [.value s%"SPDXVersion" (.line s%"SPDX-2.3"), .value s%"DataLicense" (.line s%"CC0-1.0"), .spdxId s%"SPDXRef-DOCUMENT",
       .value s%"DocumentName" (.line s%"n"), .value s%"DocumentNamespace" (.line s%"https://some.uri"), .value s%"Creator" (.person s%"Person: p"),
       .value s%"Creator" (.tool s%"Tool: t"), .value s%"Created" (.date s%"2020-01-01T00:00:00Z")] ∧
    sections (attrs (lex text)) =
      [[.value s%"PackageName" (.line s%"p"), .spdxId s%"SPDXRef-p", .value s%"PackageVersion" (.line s%"1"), .value s%"PackageDownloadLocation" .none],
       [.value s%"FileName" (.line s%"f"), .spdxId s%"SPDXRef-f", .value s%"FileChecksum" (.checksum s%"SHA1: 0"),
        .value s%"FileContributor" (.line s%"a"), .value s%"FileContributor" (.line s%"b")]] := by decide +kernel

private theorem other_parts : preamble (attrs (lex other)) =
      [.value s%"Creator" (.person s%"Person: p"), .value s%"DocumentNamespace" (.line s%"https://some.uri"), .value s%"Created" (.date s%"2020-01-01T00:00:00Z"),
       .spdxId s%"SPDXRef-DOCUMENT", .value s%"Creator" (.tool s%"Tool: t"), .value s%"DataLicense" (.line s%"CC0-1.0"),
       .value s%"DocumentName" (.line s%"n"), .value s%"SPDXVersion" (.line s%"SPDX-2.3")] ∧
    sections (attrs (lex other)) =
      [[.value s%"PackageName" (.line s%"p"), .value s%"PackageDownloadLocation" .none, .value s%"PackageVersion" (.line s%"1"), .spdxId s%"SPDXRef-p"],
       [.value s%"FileName" (.line s%"f"), .value s%"FileContributor" (.line s%"a"), .value s%"FileChecksum" (.checksum s%"SHA1: 0"),
        .value s%"FileContributor" (.line s%"b"), .spdxId s%"SPDXRef-f"]] := by decide +kernel

private theorem related : SameSections (attrs (lex text)) (attrs (lex other)) := by
  constructor
  · rw [text_parts.1, other_parts.1]
    exact by_kinds (by decide +kernel)
  · rw [text_parts.2, other_parts.2]
    exact .cons ⟨rfl, by_kinds (by decide +kernel)⟩ (.cons ⟨rfl, by_kinds (by decide +kernel)⟩ .nil)

private theorem text_read (L : LicText) : ∃ d, parseTagValue L text = .ok d ∧ d.packages.map (·.version) = [some s%"1"] ∧
    d.files.map (·.contributors) = [[s%"a", s%"b"]] ∧ d.creationInfo.creators.map (·.name) = [s%"p", s%"t"] := by
  unfold parseTagValue
  rw [TvOrder.sections_preamble (attrs (lex text)), text_parts.1, text_parts.2]
  exact ⟨_, rfl, rfl, rfl, rfl⟩

/-- A text with creation information, a package and a file, each in another order, is read as the same document. -/
example (L : LicText) : text ≠ other ∧ ∃ d, parseTagValue L text = .ok d ∧ parseTagValue L other = .ok d ∧
    d.files.map (·.contributors) = [[s%"a", s%"b"]] := by
  obtain ⟨d, h, _, hf, _⟩ := text_read L
  exact ⟨by decide, d, h, (same_document L text other related (by rw [text_parts.1]; decide) d).1 h, hf⟩

private def swapped : Str := s%"SPDXVersion: SPDX-2.3\nDataLicense: CC0-1.0\nSPDXID: SPDXRef-DOCUMENT\nDocumentName: n\nDocumentNamespace: https://some.uri\nCreator: Person: p\nCreator: Tool: t\nCreated: 2020-01-01T00:00:00Z\nPackageName: p\nSPDXID: SPDXRef-p\nPackageVersion: 1\nPackageDownloadLocation: NONE\nFileName: f\nSPDXID: SPDXRef-f\nFileChecksum: SHA1: 0\nFileContributor: b\nFileContributor: a\n"

private def early : Str := s%"SPDXVersion: SPDX-2.3\nDataLicense: CC0-1.0\nSPDXID: SPDXRef-DOCUMENT\nDocumentName: n\nDocumentNamespace: https://some.uri\nCreator: Person: p\nCreator: Tool: t\nCreated: 2020-01-01T00:00:00Z\nPackageVersion: 1\nPackageName: p\nSPDXID: SPDXRef-p\nPackageDownloadLocation: NONE\nFileName: f\nSPDXID: SPDXRef-f\nFileChecksum: SHA1: 0\nFileContributor: a\nFileContributor: b\n"

private theorem swapped_parts : attrs (lex swapped) = preamble (attrs (lex text)) ++
      [.value s%"PackageName" (.line s%"p"), .spdxId s%"SPDXRef-p", .value s%"PackageVersion" (.line s%"1"), .value s%"PackageDownloadLocation" .none,
       .value s%"FileName" (.line s%"f"), .spdxId s%"SPDXRef-f", .value s%"FileChecksum" (.checksum s%"SHA1: 0"),
        .value s%"FileContributor" (.line s%"b"), .value s%"FileContributor" (.line s%"a")] := by decide +kernel

private theorem early_parts : attrs (lex early) = preamble (attrs (lex text)) ++
      [.value s%"PackageVersion" (.line s%"1"), .value s%"PackageName" (.line s%"p"), .spdxId s%"SPDXRef-p", .value s%"PackageDownloadLocation" .none,
       .value s%"FileName" (.line s%"f"), .spdxId s%"SPDXRef-f", .value s%"FileChecksum" (.checksum s%"SHA1: 0"),
        .value s%"FileContributor" (.line s%"a"), .value s%"FileContributor" (.line s%"b")] := by decide +kernel

/-- The order of attributes about the same thing is that of the list in the document; and an attribute that is moved before the beginning of its
    element is refused.  All three texts have the same lines. -/
theorem other_orders_matter (L : LicText) :
    (∃ d, parseTagValue L text = .ok d ∧ d.files.map (·.contributors) = [[s%"a", s%"b"]]) ∧
    (∃ d, parseTagValue L swapped = .ok d ∧ d.files.map (·.contributors) = [[s%"b", s%"a"]]) ∧
    (∃ ms, parseTagValue L early = .error (.parsing ms)) := by
  refine ⟨?_, ?_, ?_⟩
  · obtain ⟨d, h, _, hf, _⟩ := text_read L
    exact ⟨d, h, hf⟩
  · unfold parseTagValue
    rw [swapped_parts, text_parts.1]
    exact ⟨_, rfl, rfl⟩
  · unfold parseTagValue
    rw [early_parts, text_parts.1]
    exact ⟨_, rfl⟩

end Spdx.C84
