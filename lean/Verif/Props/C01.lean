import Verif.Model.Formats
/-
C01 – Format dispatch by file name.
-/
namespace Spdx.C01
open Spdx

/-- Specification: which suffixes belong to which format. `.rdf.xml` is RDF and is taken out of XML. -/
def Belongs (name : Str) : FileFormat → Prop
  | .RDF_XML => s%".rdf" <:+ name ∨ s%".rdf.xml" <:+ name
  | .TAG_VALUE => s%".tag" <:+ name ∨ s%".spdx" <:+ name
  | .JSON => s%".json" <:+ name
  | .XML => s%".xml" <:+ name ∧ ¬ s%".rdf.xml" <:+ name
  | .YAML => s%".yaml" <:+ name ∨ s%".yml" <:+ name

private theorem excl {name a b : Str} (ha : a <:+ name) (hb : b <:+ name)
    (h : a.isSuffixOf b = false) (h' : b.isSuffixOf a = false) : False := by
  rcases List.suffix_or_suffix_of_suffix ha hb with h1 | h1
  · simp [← List.isSuffixOf_iff_suffix, h] at h1
  · simp [← List.isSuffixOf_iff_suffix, h'] at h1

/-- The function returns a format exactly when the name belongs to it. -/
theorem format_iff (name : Str) (f : FileFormat) : fileNameToFormat name = .ok f ↔ Belongs name f := by
  simp only [fileNameToFormat, endsWith, Bool.or_eq_true, List.isSuffixOf_iff_suffix]
  unfold Belongs
  have := fun h h' => @excl name s%".rdf" s%".rdf.xml" h h' rfl rfl
  have := fun h h' => @excl name s%".rdf" s%".tag" h h' rfl rfl
  have := fun h h' => @excl name s%".rdf" s%".spdx" h h' rfl rfl
  have := fun h h' => @excl name s%".rdf" s%".json" h h' rfl rfl
  have := fun h h' => @excl name s%".rdf" s%".xml" h h' rfl rfl
  have := fun h h' => @excl name s%".rdf" s%".yaml" h h' rfl rfl
  have := fun h h' => @excl name s%".rdf" s%".yml" h h' rfl rfl
  have := fun h h' => @excl name s%".rdf.xml" s%".tag" h h' rfl rfl
  have := fun h h' => @excl name s%".rdf.xml" s%".spdx" h h' rfl rfl
  have := fun h h' => @excl name s%".rdf.xml" s%".json" h h' rfl rfl
  have := fun h h' => @excl name s%".rdf.xml" s%".yaml" h h' rfl rfl
  have := fun h h' => @excl name s%".rdf.xml" s%".yml" h h' rfl rfl
  have := fun h h' => @excl name s%".tag" s%".spdx" h h' rfl rfl
  have := fun h h' => @excl name s%".tag" s%".json" h h' rfl rfl
  have := fun h h' => @excl name s%".tag" s%".xml" h h' rfl rfl
  have := fun h h' => @excl name s%".tag" s%".yaml" h h' rfl rfl
  have := fun h h' => @excl name s%".tag" s%".yml" h h' rfl rfl
  have := fun h h' => @excl name s%".spdx" s%".json" h h' rfl rfl
  have := fun h h' => @excl name s%".spdx" s%".xml" h h' rfl rfl
  have := fun h h' => @excl name s%".spdx" s%".yaml" h h' rfl rfl
  have := fun h h' => @excl name s%".spdx" s%".yml" h h' rfl rfl
  have := fun h h' => @excl name s%".json" s%".xml" h h' rfl rfl
  have := fun h h' => @excl name s%".json" s%".yaml" h h' rfl rfl
  have := fun h h' => @excl name s%".json" s%".yml" h h' rfl rfl
  have := fun h h' => @excl name s%".xml" s%".yaml" h h' rfl rfl
  have := fun h h' => @excl name s%".xml" s%".yml" h h' rfl rfl
  have := fun h h' => @excl name s%".yaml" s%".yml" h h' rfl rfl
  have hx : s%".rdf.xml" <:+ name → s%".xml" <:+ name :=
    fun h => List.IsSuffix.trans (by rw [← List.isSuffixOf_iff_suffix]; rfl) h
  cases f <;> simp only <;> repeat' split
  all_goals
    generalize (s%".rdf" <:+ name) = p0 at *
    generalize (s%".rdf.xml" <:+ name) = p1 at *
    generalize (s%".tag" <:+ name) = p2 at *
    generalize (s%".spdx" <:+ name) = p3 at *
    generalize (s%".json" <:+ name) = p4 at *
    generalize (s%".xml" <:+ name) = p5 at *
    generalize (s%".yaml" <:+ name) = p6 at *
    generalize (s%".yml" <:+ name) = p7 at *
    simp only [reduceCtorEq, Except.ok.injEq]
    grind

/-- A name belongs to at most one format. -/
theorem belongs_unique (name : Str) (f g : FileFormat) (hf : Belongs name f) (hg : Belongs name g) : f = g := by
  have h1 := (format_iff name f).2 hf
  have h2 := (format_iff name g).2 hg
  simpa [h1] using h2

/-- The function fails, with the parsing error that quotes the name, exactly when no format fits. -/
theorem format_error_iff (name e : Str) :
    fileNameToFormat name = .error e ↔ e = name ∧ ∀ f, ¬ Belongs name f := by
  constructor
  · intro h
    refine ⟨?_, fun f hf => by simp [(format_iff name f).2 hf] at h⟩
    simp only [fileNameToFormat] at h
    repeat' split at h
    all_goals first | (cases h; done) | (cases h; rfl)
  · rintro ⟨rfl, h⟩
    cases hf : fileNameToFormat e with
    | ok f => exact absurd ((format_iff e f).1 hf) (h f)
    | error e' =>
      simp only [fileNameToFormat] at hf
      repeat' split at hf
      all_goals first | (cases hf; done) | (cases hf; rfl)

/- Non-vacuity: every format is reached, and some name is rejected. -/
example : Belongs s%"a.b/doc.rdf.xml" .RDF_XML ∧ Belongs s%"doc.xml" .XML ∧ Belongs s%"x.yml" .YAML
    ∧ Belongs s%"x.spdx" .TAG_VALUE ∧ Belongs s%"x.spdx.json" .JSON := by
  simp only [← format_iff]; decide
example : ∀ f, ¬ Belongs s%"doc.JSON" f := ((format_error_iff _ s%"doc.JSON").1 (by rfl)).2

end Spdx.C01
