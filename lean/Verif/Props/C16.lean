import Verif.Lemmas.Dedup
import Verif.Spec.Example
/-
C16 – Removing duplicates keeps exactly one copy of each entry in order.
-/
namespace Spdx.C16
open Spdx

/-! ### Lists of values compared by value -/

/-- Exactly the same entries … -/
theorem same_entries {α : Type} [DecidableEq α] (l : List α) (x : α) : x ∈ dedupEq l ↔ x ∈ l := mem_dedupEq l x

/-- … each once … -/
theorem each_once {α : Type} [DecidableEq α] (l : List α) (x : α) (h : x ∈ l) : (dedupEq l).count x = 1 := by
  have h' := (mem_dedupEq l x).2 h
  have := List.nodup_iff_count.1 (nodup_dedupEq l) x
  have := List.count_pos_iff.2 h'
  omega

private theorem beq_eq_decide' {α : Type} [DecidableEq α] (a b : α) : (a == b) = decide (a = b) := by
  by_cases h : a = b <;> simp [h]

private theorem idxOf_filter_lt {α : Type} [DecidableEq α] (p : α → Bool) (l : List α) (x y : α) (hx : p x = true) (hy : p y = true) :
    (l.filter p).idxOf x < (l.filter p).idxOf y ↔ l.idxOf x < l.idxOf y := by
  induction l with
  | nil => simp
  | cons a l ih =>
    by_cases hxa : a = x <;> by_cases hya : a = y <;> by_cases hp : p a = true <;>
      simp_all [List.filter_cons, List.idxOf_cons, beq_eq_decide']

/-- … in the order of their first occurrences. -/
theorem first_occurrence_order {α : Type} [DecidableEq α] (l : List α) (x y : α) (hx : x ∈ l) (hy : y ∈ l) :
    (dedupEq l).idxOf x < (dedupEq l).idxOf y ↔ l.idxOf x < l.idxOf y := by
  unfold dedupEq
  induction l using dedup_induction (fun a b : α => decide (a = b)) with
  | h0 => simp at hx
  | h1 a l ih =>
    rw [dedup_cons]
    by_cases hxa : a = x
    · subst hxa
      by_cases hya : a = y
      · subst hya; simp
      · simp [List.idxOf_cons, beq_eq_decide', hya]
    · by_cases hya : a = y
      · subst hya; simp [List.idxOf_cons]
      · have e := idxOf_filter_lt (fun z => !decide (a = z)) l x y (by simp [hxa]) (by simp [hya])
        have hx' : x ∈ l := by
          rcases List.mem_cons.1 hx with h | h
          · exact absurd h.symm hxa
          · exact h
        have hy' : y ∈ l := by
          rcases List.mem_cons.1 hy with h | h
          · exact absurd h.symm hya
          · exact h
        have ih := ih (List.mem_filter.2 ⟨hx', by simp [hxa]⟩) (List.mem_filter.2 ⟨hy', by simp [hya]⟩)
        rw [e] at ih
        simpa [List.idxOf_cons, beq_eq_decide', hxa, hya] using ih

/-- Doing it again changes nothing. -/
theorem idempotent {α : Type} [DecidableEq α] (l : List α) : dedupEq (dedupEq l) = dedupEq l := dedup_idem _ l

/-! ### Lists of license expressions (compared by the library's equality, whatever it is) -/

theorem licenses_kept_up_to_equality (X : Ext) (hr : ∀ e, X.licEq e e = true) (l : List (OrSpecial LicExpr)) :
    (dedup (licEntryEq X) l).Sublist l ∧ (dedup (licEntryEq X) l).Pairwise (fun a b => licEntryEq X a b = false) ∧
    ∀ x ∈ l, ∃ y ∈ dedup (licEntryEq X) l, licEntryEq X y x = true :=
  ⟨dedup_sublist _ l, dedup_pairwise _ l, dedup_covers _ (by intro a; cases a <;> simp [licEntryEq, hr]) l⟩

/-! ### Documents -/

/-- Removing duplicates twice is the same as once. -/
theorem document_idempotent (X : Ext) (d : Document) : dedupDocument X (dedupDocument X d) = dedupDocument X d := by
  unfold dedupDocument
  simp only [List.map_map]
  congr 1
  · simp [CreationInfo.dedup, dedupEq, dedup_idem]
  · apply List.map_congr_left; intro p _; simp [Package.dedup, dedupEq, dedup_idem]
  · apply List.map_congr_left; intro p _; simp [File.dedup, dedupEq, dedup_idem]
  · apply List.map_congr_left; intro p _; simp [Snippet.dedup, dedupEq, dedup_idem]
  · apply List.map_congr_left; intro p _; simp [ExtractedLicensingInfo.dedup, dedupEq, dedup_idem]

/-- Relationships, annotations and all identifiers are untouched, and no element is added or removed. -/
theorem document_untouched (X : Ext) (d : Document) :
    (dedupDocument X d).relationships = d.relationships ∧ (dedupDocument X d).annotations = d.annotations ∧
    (dedupDocument X d).creationInfo.spdxId = d.creationInfo.spdxId ∧
    (dedupDocument X d).packages.map (·.spdxId) = d.packages.map (·.spdxId) ∧
    (dedupDocument X d).files.map (·.spdxId) = d.files.map (·.spdxId) ∧
    (dedupDocument X d).snippets.map (·.spdxId) = d.snippets.map (·.spdxId) ∧
    (dedupDocument X d).extractedLicensingInfo.map (·.licenseId) = d.extractedLicensingInfo.map (·.licenseId) := by
  refine ⟨rfl, rfl, rfl, ?_, ?_, ?_, ?_⟩ <;> (simp only [dedupDocument, List.map_map]; rfl)

/-- Position by position, an element keeps all its single-valued fields, and each of its lists is de-duplicated. -/
theorem file_fields (X : Ext) (d : Document) (i : Nat) (f : File) (h : d.files[i]? = some f) :
    ∃ g, (dedupDocument X d).files[i]? = some g ∧
      g = { f with checksums := g.checksums, fileTypes := g.fileTypes, licenseInfoInFile := g.licenseInfoInFile,
                   contributors := g.contributors, attributionTexts := g.attributionTexts } ∧
      g.checksums = dedupEq f.checksums ∧ g.fileTypes = dedupEq f.fileTypes ∧
      g.licenseInfoInFile = dedup (licEntryEq X) f.licenseInfoInFile ∧ g.contributors = dedupEq f.contributors ∧
      g.attributionTexts = dedupEq f.attributionTexts :=
  ⟨f.dedup X, by simp [dedupDocument, h], rfl, rfl, rfl, rfl, rfl, rfl⟩

theorem package_fields (X : Ext) (d : Document) (i : Nat) (p : Package) (h : d.packages[i]? = some p) :
    ∃ q, (dedupDocument X d).packages[i]? = some q ∧
      q = { p with checksums := q.checksums, licenseInfoFromFiles := q.licenseInfoFromFiles,
                   externalReferences := q.externalReferences, attributionTexts := q.attributionTexts } ∧
      q.checksums = dedupEq p.checksums ∧ q.licenseInfoFromFiles = dedup (licEntryEq X) p.licenseInfoFromFiles ∧
      q.externalReferences = dedupEq p.externalReferences ∧ q.attributionTexts = dedupEq p.attributionTexts :=
  ⟨p.dedup X, by simp [dedupDocument, h], rfl, rfl, rfl, rfl, rfl⟩

theorem snippet_fields (X : Ext) (d : Document) (i : Nat) (s : Snippet) (h : d.snippets[i]? = some s) :
    ∃ t, (dedupDocument X d).snippets[i]? = some t ∧
      t = { s with licenseInfoInSnippet := t.licenseInfoInSnippet, attributionTexts := t.attributionTexts } ∧
      t.licenseInfoInSnippet = dedup (licEntryEq X) s.licenseInfoInSnippet ∧ t.attributionTexts = dedupEq s.attributionTexts :=
  ⟨s.dedup X, by simp [dedupDocument, h], rfl, rfl, rfl⟩

theorem other_fields (X : Ext) (d : Document) :
    (dedupDocument X d).creationInfo = { d.creationInfo with
      creators := dedupEq d.creationInfo.creators, externalDocumentRefs := dedupEq d.creationInfo.externalDocumentRefs } ∧
    (dedupDocument X d).extractedLicensingInfo =
      d.extractedLicensingInfo.map fun e => { e with crossReferences := dedupEq e.crossReferences } := ⟨rfl, rfl⟩

/-! Non-vacuity -/
example : dedupEq [3, 1, 3, 2, 1] = [3, 1, 2] := by decide
example : [3, 1, 3, 2, 1].idxOf 1 < [3, 1, 3, 2, 1].idxOf 2 ∧ (dedupEq [3, 1, 3, 2, 1]).idxOf 1 < (dedupEq [3, 1, 3, 2, 1]).idxOf 2 := by decide
example : ∀ e, Example.ext.licEq e e = true := by intro e; simp [Example.ext]
example : Example.doc.files[0]? = some Example.file := rfl

end Spdx.C16
