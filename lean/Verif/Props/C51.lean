import Verif.Lemmas.TagValueFaults
import Verif.Props.C23
/-
C51: reading a tag-value text succeeds only if no line of it is at fault: every tag exists, every value is what its tag asks for (a date is a
date, a license expression is one, …), and stands in an element of its kind.

A value of the wrong kind is always reported in the creation information, and wherever the text has an element.  In a text without any element
it is lost, see `wrong_kind_lost`: the full property is false there, so that `wrong_kind_reported_partial` asks for an element.
-/
namespace Spdx.C51
open Spdx Spec

/-! ## Theorems -/

/-- No attribute of a text that is read is at fault. -/
theorem faults_reported (L : LicText) (text : Str) (d : Document) (h : parseTagValue L text = .ok d) :
    ∀ a ∈ attrs (lex text), ¬ Faulty L a := by
  intro a ha hf
  obtain ⟨s, hr, hd⟩ := read_run h
  obtain ⟨s1, s2, bs, h1, h2⟩ := run_split ha hr
  obtain ⟨m, _, hm⟩ := faulty_heard hf h1
  exact no_result ⟨m, hm.run h2⟩ d hd

/-- In a text that is read, every tag of an element stands in an element of its kind. -/
theorem misplaced_reported (L : LicText) (text : Str) (d : Document) (h : parseTagValue L text = .ok d) (tag : Str) (c : TvClass)
    (ho : (tag, c) ∈ owners) (v : Tok) (pre post : List TvAttr) (e : attrs (lex text) = pre ++ .value tag v :: post) :
    current pre = some c := by
  obtain ⟨s, hr, hd⟩ := read_run h
  rw [e] at hr
  obtain ⟨s1, h1, h2⟩ := run_append_inv hr
  have hc := run_current h1
  rw [Option.or_none (o := current pre)] at hc
  rw [← hc]
  refine Decidable.byContradiction fun hn => ?_
  unfold TvState.run at h2
  split at h2
  · rename_i s2 e2
    exact no_result ⟨_, (misplaced_heard ho hn e2).run h2⟩ d hd
  · cases h2

/-- … and every `ExternalRef` in a package. -/
theorem misplaced_external_ref_reported (L : LicText) (text : Str) (d : Document) (h : parseTagValue L text = .ok d) (line : Str)
    (comment : Option Tok) (pre post : List TvAttr) (e : attrs (lex text) = pre ++ .commented s%"ExternalRef" line comment :: post) :
    current pre = some .package := by
  obtain ⟨s, hr, hd⟩ := read_run h
  rw [e] at hr
  obtain ⟨s1, h1, h2⟩ := run_append_inv hr
  have hc := run_current h1
  rw [Option.or_none (o := current pre)] at hc
  rw [← hc]
  refine Decidable.byContradiction fun hn => ?_
  unfold TvState.run at h2
  split at h2
  · rename_i s2 e2
    exact no_result ⟨_, (misplaced_ref_heard hn e2).run h2⟩ d hd
  · cases h2

/-- A text that has an element anywhere, and is read, has no value of the wrong kind. -/
theorem wrong_kind_reported_partial (L : LicText) (text : Str) (d : Document) (h : parseTagValue L text = .ok d)
    (he : ∃ a ∈ attrs (lex text), (opens a).isSome) (tag : Str) : .bad tag ∉ attrs (lex text) := by
  intro ha
  obtain ⟨s, hr, hd⟩ := read_run h
  obtain ⟨s1, s2, bs, h1, h2⟩ := run_split ha hr
  have hp := pending_run (bad_pending h1) h2
  have hc : s.cls ≠ none := run_cls (.inr (by
    obtain ⟨a, h1, h2⟩ := he
    exact ⟨a, h1, by rw [starts_eq]; exact h2⟩)) hr
  refine no_result ⟨.text (s%"Error while parsing " ++ tag), ?_⟩ d hd
  rcases hp with hp | hp
  · exact hp
  · exact .inr (.inr (.inl ⟨hc, hp⟩))

/-! ## Non-vacuity, and the exception -/

private def head : Str :=
  s%"SPDXVersion: SPDX-2.3\nDataLicense: CC0-1.0\nSPDXID: SPDXRef-DOCUMENT\nDocumentName: n\nDocumentNamespace: https://some.uri\nCreator: Person: p\nCreated: 2020-01-01T00:00:00Z\n"

private def headAttrs : List TvAttr :=
  [.value s%"SPDXVersion" (.line s%"SPDX-2.3"), .value s%"DataLicense" (.line s%"CC0-1.0"),
   .spdxId s%"SPDXRef-DOCUMENT", .value s%"DocumentName" (.line s%"n"), .value s%"DocumentNamespace" (.line s%"https://some.uri"),
   .value s%"Creator" (.person s%"Person: p"), .value s%"Created" (.date s%"2020-01-01T00:00:00Z")]

private def package : Str := head ++ s%"PackageName: p\nSPDXID: SPDXRef-p\nPackageDownloadLocation: NONE\nFilesAnalyzed: false\n"

private theorem package_attrs : attrs (lex package) = headAttrs ++ [.value s%"PackageName" (.line s%"p"), .spdxId s%"SPDXRef-p",
    .value s%"PackageDownloadLocation" .none, .value s%"FilesAnalyzed" (.line s%"false")] := by decide +kernel

/-- A text with an element, which is read, and has the tags of a package in it. -/
example (L : LicText) : (∃ d, parseTagValue L package = .ok d ∧ d.packages.length = 1) ∧ (∃ a ∈ attrs (lex package), (opens a).isSome) ∧
    ∃ pre post, attrs (lex package) = pre ++ .value s%"FilesAnalyzed" (.line s%"false") :: post ∧ (s%"FilesAnalyzed", .package) ∈ owners := by
  refine ⟨?_, by rw [package_attrs]; decide, ?_⟩
  · unfold parseTagValue
    rw [package_attrs]
    exact ⟨_, rfl, rfl⟩
  · rw [package_attrs]
    exact ⟨headAttrs ++ [.value s%"PackageName" (.line s%"p"), .spdxId s%"SPDXRef-p", .value s%"PackageDownloadLocation" .none], [], rfl,
      by decide +kernel⟩

/-- The lines of a text that are at fault. -/
example : (Faulty C23.exampleLic (.value s%"BuiltDate" (.date s%"2020-13-01T00:00:00Z")) ∧
      .value s%"BuiltDate" (.date s%"2020-13-01T00:00:00Z") ∈ attrs (lex s%"PackageName: p\nBuiltDate: 2020-13-01T00:00:00Z\n")) ∧
    (Faulty C23.exampleLic (.value s%"FilesAnalyzed" (.line s%"yes")) ∧
      .value s%"FilesAnalyzed" (.line s%"yes") ∈ attrs (lex s%"PackageName: p\nFilesAnalyzed: yes\n")) ∧
    (Faulty C23.exampleLic (.commented s%"Relationship" s%"a LIKES b" none) ∧
      .commented s%"Relationship" s%"a LIKES b" none ∈ attrs (lex s%"Relationship: a LIKES b\n")) ∧
    .unknown ∈ attrs (lex s%"Colour: red\n") ∧ .bad s%"Created" ∈ attrs (lex s%"Created: yesterday\n") :=
  ⟨⟨.date (by decide) (by decide +kernel), by decide +kernel⟩, ⟨.analyzed (by decide) (by decide), by decide +kernel⟩,
   ⟨.relationshipType (a := s%"a") (t := s%"LIKES") (b := s%"b") (by decide +kernel) (by decide +kernel), by decide +kernel⟩, by decide +kernel,
   by decide +kernel⟩

/-- A value of the wrong kind in a text without elements is lost: `FileComment` may not be a person. -/
theorem wrong_kind_lost (L : LicText) : .bad s%"FileComment" ∈ attrs (lex (head ++ s%"FileComment: Person: x\n")) ∧
    (∃ d, parseTagValue L (head ++ s%"FileComment: Person: x\n") = .ok d) ∧
    ∀ d, parseTagValue L (head ++ s%"FileComment: Person: x\n" ++ s%"FileName: f\nSPDXID: SPDXRef-f\nFileChecksum: SHA1: 0\n") ≠ .ok d := by
  have e : attrs (lex (head ++ s%"FileComment: Person: x\n")) = headAttrs ++ [.bad s%"FileComment"] := by decide +kernel
  refine ⟨by rw [e]; exact List.mem_append_right _ (List.mem_singleton.2 rfl), ?_, ?_⟩
  · unfold parseTagValue
    rw [e]
    exact ⟨_, rfl⟩
  · intro d h
    have e' : attrs (lex (head ++ s%"FileComment: Person: x\n" ++ s%"FileName: f\nSPDXID: SPDXRef-f\nFileChecksum: SHA1: 0\n")) =
        headAttrs ++ [.bad s%"FileComment", .value s%"FileName" (.line s%"f"), .spdxId s%"SPDXRef-f",
          .value s%"FileChecksum" (.checksum s%"SHA1: 0")] := by decide +kernel
    refine wrong_kind_reported_partial L _ d h ?_ s%"FileComment" ?_
    · rw [e']; exact ⟨.value s%"FileName" (.line s%"f"), by decide +kernel, by decide⟩
    · rw [e']; exact List.mem_append_right _ List.mem_cons_self

end Spdx.C51
