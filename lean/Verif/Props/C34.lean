import Verif.Model.Bump
import Verif.Spec.Example
/-
C34 – Every SPDX 2 relationship type has a migration entry; the direction of the migrated relationship agrees with the type's swap flag.

The statement about directions is false for one type: `dependency_of_self_loop` shows that "A DEPENDENCY_OF B" becomes
"A DEPENDS_ON A". `direction_partial` proves it for all other types.
-/
namespace Spdx.C34
open Spdx

/-! ### Specification -/

/-- The types without a counterpart in SPDX 3. -/
def dropped (t : RelationshipType) : Prop := t = .DATA_FILE_OF ∨ t = .DISTRIBUTION_ARTIFACT ∨ t = .OPTIONAL_COMPONENT_OF
instance (t) : Decidable (dropped t) := inferInstanceAs (Decidable (_ ∨ _))

/-- The types that SPDX 3 states in the opposite direction. -/
def reversed : RelationshipType → Bool
  | .CONTAINED_BY | .DEPENDENCY_OF | .DESCENDANT_OF | .DESCRIBED_BY | .GENERATED_FROM | .PATCH_APPLIED => true
  | _ => false

/-- The SPDX 3 type of each SPDX 2 type. -/
def newType : RelationshipType → Option RelationshipType3
  | .AMENDS => some .AMENDS
  | .ANCESTOR_OF | .DESCENDANT_OF => some .ANCESTOR
  | .CONTAINS | .CONTAINED_BY => some .CONTAINS
  | .COPY_OF => some .COPY
  | .DESCRIBES | .DESCRIBED_BY => some .DESCRIBES
  | .DOCUMENTATION_OF => some .DOCUMENTATION
  | .EXAMPLE_OF => some .EXAMPLE
  | .EXPANDED_FROM_ARCHIVE => some .EXPANDED_FROM_ARCHIVE
  | .FILE_ADDED => some .FILE_ADDED
  | .FILE_DELETED => some .FILE_DELETED
  | .FILE_MODIFIED => some .FILE_MODIFIED
  | .GENERATES | .GENERATED_FROM => some .GENERATES
  | .METAFILE_OF => some .METAFILE
  | .OTHER => some .OTHER
  | .PATCH_FOR | .PATCH_APPLIED => some .PATCH
  | .REQUIREMENT_DESCRIPTION_FOR => some .REQUIREMENT_FOR
  | .SPECIFICATION_FOR => some .SPECIFICATION_FOR
  | .TEST_CASE_OF => some .TEST_CASE
  | .TEST_OF => some .TEST
  | .VARIANT_OF => some .VARIANT
  | .DATA_FILE_OF | .DISTRIBUTION_ARTIFACT | .OPTIONAL_COMPONENT_OF => none
  | _ => some .DEPENDS_ON

/-- The scope of a dependency. -/
def scopeOf : RelationshipType → Option Scope
  | .BUILD_DEPENDENCY_OF | .BUILD_TOOL_OF | .PROVIDED_DEPENDENCY_OF => some .BUILD
  | .DEV_DEPENDENCY_OF | .DEV_TOOL_OF => some .DEVELOPMENT
  | .TEST_DEPENDENCY_OF | .TEST_TOOL_OF => some .TEST
  | .RUNTIME_DEPENDENCY_OF => some .RUNTIME
  | _ => none

/-- How a dependency is linked. -/
def linkageOf : RelationshipType → Option Linkage
  | .BUILD_TOOL_OF | .DEV_TOOL_OF | .TEST_TOOL_OF | .BUILD_DEPENDENCY_OF => some .TOOL
  | .DYNAMIC_LINK => some .DYNAMIC
  | .STATIC_LINK => some .STATIC
  | _ => none

/-- Whether a dependency is optional, provided or a prerequisite. -/
def conditionOf : RelationshipType → Option Conditionality
  | .HAS_PREREQUISITE | .PREREQUISITE_FOR => some .PREREQUISITE
  | .OPTIONAL_DEPENDENCY_OF => some .OPTIONAL
  | .PROVIDED_DEPENDENCY_OF => some .PROVIDED
  | _ => none

/-- The migrated relationship has the type, details, comment and identifier it should have. -/
def SameKind (ns : Str) (n : Nat) (r : Relationship) (x : Relationship3) : Prop :=
  x.spdxId = ns ++ s%"#SPDXRef-Relationship-" ++ natStr n ∧ newType r.relationshipType = some x.relationshipType ∧ x.comment = r.comment ∧
  x.software = if x.relationshipType = .DEPENDS_ON then
    some (scopeOf r.relationshipType, linkageOf r.relationshipType, conditionOf r.relationshipType) else none

/-! ### Theorems -/

/-- The entry of each type, computed from the table. -/
private theorem entry (t : RelationshipType) : relMapping t = some ((newType t).map fun n =>
    ⟨decide (n = .DEPENDS_ON), n, reversed t, scopeOf t, linkageOf t, conditionOf t⟩) := by
  cases t <;> decide +kernel

/-- Every type has an entry, so the lookup never fails. -/
theorem has_entry (t : RelationshipType) : ∃ m, relMapping t = some m := ⟨_, entry t⟩

/-- The table has one row for each of the 45 types. -/
theorem one_row : (relationshipMapping.map (·.1)).Nodup ∧ relationshipMapping.length = 45 ∧
    ∀ t ∈ RelationshipType.all, t ∈ relationshipMapping.map (·.1) := by decide +kernel

private theorem newType_none (t : RelationshipType) : newType t = none ↔ dropped t := by cases t <;> decide +kernel

private theorem id_eq (ns : Str) (n : Nat) : relationshipId ns n = ns ++ s%"#SPDXRef-Relationship-" ++ natStr n := by
  simp [relationshipId]

/-- Exactly three types are not migrated, whatever the ends. -/
theorem dropped_iff (ns : Str) (n : Nat) (r : Relationship) (b : Str) (hb : r.relatedSpdxElementId = .val b) :
    bumpRelationship ns n r = none ↔ dropped r.relationshipType := by
  rw [← newType_none]
  simp only [bumpRelationship, entry, hb, completenessAndTo]
  cases h : newType r.relationshipType with
  | none => simp
  | some t => simp only [Option.map_some, reduceCtorEq, iff_false]; split <;> (try split) <;> simp

/-- Relationships between two elements: except for DEPENDENCY_OF, the migrated relationship runs from the first to the second element, and
    the other way round if the type is a reversed one. (Missing from the full statement: DEPENDENCY_OF, for which it is false.) -/
theorem direction_partial (ns : Str) (n : Nat) (r : Relationship) (b : Str) (hb : r.relatedSpdxElementId = .val b)
    (hd : ¬ dropped r.relationshipType) (hne : r.relationshipType ≠ .DEPENDENCY_OF) :
    ∃ x, bumpRelationship ns n r = some x ∧ SameKind ns n r x ∧ x.completeness = none ∧
      (x.fromElement, x.to) =
        if reversed r.relationshipType then (ns ++ s%"#" ++ b, [ns ++ s%"#" ++ r.spdxElementId])
        else (ns ++ s%"#" ++ r.spdxElementId, [ns ++ s%"#" ++ b]) := by
  rw [← newType_none] at hd
  obtain ⟨t, ht⟩ := Option.ne_none_iff_exists'.1 hd
  have hsw : reversed r.relationshipType = true → t ≠ .DEPENDS_ON := by
    revert ht hne; cases r.relationshipType <;> simp [reversed, newType] <;> rintro rfl <;> decide
  simp only [bumpRelationship, entry, hb, completenessAndTo, ht, Option.map_some]
  cases hr : reversed r.relationshipType with
  | true => simp [SameKind, id_eq, ht, hsw hr]
  | false => simp [SameKind, id_eq, ht]

/-- Relationships to NONE or NOASSERTION: the migrated relationship has no targets and tells which of the two it was; for the reversed
    types nothing is migrated. -/
theorem special_target (ns : Str) (n : Nat) (r : Relationship) (hb : ∀ b, r.relatedSpdxElementId ≠ .val b) :
    (bumpRelationship ns n r = none ↔ dropped r.relationshipType ∨ reversed r.relationshipType = true) ∧
    ∀ x, bumpRelationship ns n r = some x → SameKind ns n r x ∧ x.fromElement = ns ++ s%"#" ++ r.spdxElementId ∧ x.to = [] ∧
      (r.relatedSpdxElementId = .none → x.completeness = some .COMPLETE) ∧
      (r.relatedSpdxElementId = .noAssertion → x.completeness = some .NOASSERTION) := by
  rw [← newType_none]
  have ht : (completenessAndTo r.relatedSpdxElementId).2 = [] ∧
      (r.relatedSpdxElementId = .none → (completenessAndTo r.relatedSpdxElementId).1 = some .COMPLETE) ∧
      (r.relatedSpdxElementId = .noAssertion → (completenessAndTo r.relatedSpdxElementId).1 = some .NOASSERTION) := by
    cases h : r.relatedSpdxElementId with
    | val b => exact absurd h (hb b)
    | none => simp [completenessAndTo]
    | noAssertion => simp [completenessAndTo]
  simp only [bumpRelationship, entry]
  generalize completenessAndTo r.relatedSpdxElementId = ct at ht
  obtain ⟨c, to⟩ := ct
  obtain ⟨e, h1, h2⟩ := ht
  simp only at e h1 h2
  subst e
  cases h : newType r.relationshipType with
  | none => simp
  | some t =>
    simp only [Option.map_some]
    cases hr : reversed r.relationshipType with
    | true => simp
    | false =>
      refine ⟨by simp, ?_⟩
      intro x hx
      simp only [Bool.false_eq_true, if_false, Option.some.injEq] at hx
      subst hx
      exact ⟨by simp [SameKind, id_eq, h], rfl, rfl, h1, h2⟩

/-- The full statement fails: "A DEPENDENCY_OF B" becomes "A DEPENDS_ON A", for all A and B. -/
theorem dependency_of_self_loop (ns a b : Str) (n : Nat) : ∃ x,
    bumpRelationship ns n { spdxElementId := a, relationshipType := .DEPENDENCY_OF, relatedSpdxElementId := .val b } = some x ∧
    x.relationshipType = .DEPENDS_ON ∧ x.fromElement = ns ++ s%"#" ++ a ∧ x.to = [ns ++ s%"#" ++ a] := by
  simp [bumpRelationship, entry, newType, reversed, completenessAndTo]

/-- The other "... DEPENDENCY OF" types are migrated to DEPENDS_ON without being reversed (so that "A is a build dependency of B" becomes
    "A depends on B"): this is what the table says. -/
theorem dependency_types_not_reversed (ns a b : Str) (n : Nat) (t : RelationshipType)
    (ht : t ∈ [.BUILD_DEPENDENCY_OF, .DEV_DEPENDENCY_OF, .OPTIONAL_DEPENDENCY_OF, .PROVIDED_DEPENDENCY_OF, .RUNTIME_DEPENDENCY_OF,
      .TEST_DEPENDENCY_OF]) : ∃ x,
    bumpRelationship ns n { spdxElementId := a, relationshipType := t, relatedSpdxElementId := .val b } = some x ∧
    x.relationshipType = .DEPENDS_ON ∧ x.fromElement = ns ++ s%"#" ++ a ∧ x.to = [ns ++ s%"#" ++ b] := by
  simp only [List.mem_cons, List.not_mem_nil, or_false] at ht
  rcases ht with rfl | rfl | rfl | rfl | rfl | rfl <;> simp [bumpRelationship, entry, newType, reversed, completenessAndTo]

/-! Non-vacuity -/
example : ¬ dropped .CONTAINED_BY ∧ RelationshipType.CONTAINED_BY ≠ .DEPENDENCY_OF ∧ reversed .CONTAINED_BY = true := by decide
example : bumpRelationship s%"n" 7 { spdxElementId := s%"A", relationshipType := .CONTAINED_BY, relatedSpdxElementId := .val s%"B" } =
    some ⟨s%"n#SPDXRef-Relationship-7", s%"n#B", .CONTAINS, [s%"n#A"], none, none, none⟩ := by decide +kernel
example : bumpRelationship s%"n" 7 { spdxElementId := s%"A", relationshipType := .TEST_TOOL_OF, relatedSpdxElementId := .none } =
    some ⟨s%"n#SPDXRef-Relationship-7", s%"n#A", .DEPENDS_ON, [], none, some .COMPLETE, some (some .TEST, some .TOOL, none)⟩ := by
  decide +kernel

end Spdx.C34
