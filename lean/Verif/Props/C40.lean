import Verif.Model.RdfParser
import Verif.Spec.MemberNames
/-
C40 – Every enum member written to RDF is read back as the same member.
-/
namespace Spdx.C40
open Spdx

/-! ### Specification -/

/-- Lower case for the first word, capital first letters for the others, no separators. -/
def camel (name : Str) : Str :=
  match splitOn '_' name with
  | [] => []
  | w :: ws => lowerAscii w ++ (ws.map fun v => v.take 1 ++ lowerAscii (v.drop 1)).flatten

/-- A member is written as the SPDX term `prefix` + name in camel case, and only that member is read from this term. -/
def Faithful {α : Type} (pre : Str) (name : α → Str) (ofName? : Str → Option α) : Prop :=
  ∀ m : α, enumToRdf pre (name m) = some (s%"http://spdx.org/rdf/terms#" ++ pre ++ camel (name m)) ∧
    enumFromRdf ofName? pre (s%"http://spdx.org/rdf/terms#" ++ pre ++ camel (name m)) = some m

/-! ### Theorems -/

/-- The names written are those the members are declared with. -/
theorem member_names : Spec.Named s%"ActorType" ActorType.name ∧ Spec.Named s%"ChecksumAlgorithm" ChecksumAlgorithm.name ∧
    Spec.Named s%"AnnotationType" AnnotationType.name ∧ Spec.Named s%"FileType" FileType.name ∧
    Spec.Named s%"PackagePurpose" PackagePurpose.name ∧ Spec.Named s%"ExternalPackageRefCategory" ExternalPackageRefCategory.name ∧
    Spec.Named s%"RelationshipType" RelationshipType.name := by
  refine ⟨?_, ?_, ?_, ?_, ?_, ?_, ?_⟩ <;> (intro r; cases r <;> rfl)

theorem file_types : Faithful s%"fileType_" FileType.name FileType.ofName? := by
  intro m; cases m <;> decide +kernel

theorem purposes : Faithful s%"purpose_" PackagePurpose.name PackagePurpose.ofName? := by
  intro m; cases m <;> decide +kernel

theorem annotation_types : Faithful s%"annotationType_" AnnotationType.name AnnotationType.ofName? := by
  intro m; cases m <;> decide +kernel

theorem reference_categories : Faithful s%"referenceCategory_" ExternalPackageRefCategory.name ExternalPackageRefCategory.ofName? := by
  intro m; cases m <;> decide +kernel

theorem relationship_types : Faithful s%"relationshipType_" RelationshipType.name RelationshipType.ofName? := by
  intro m; cases m <;> decide +kernel

/-- Different members are written differently. -/
theorem distinct {α : Type} {pre : Str} {name : α → Str} {ofName? : Str → Option α} (h : Faithful pre name ofName?) (m m' : α)
    (e : enumToRdf pre (name m) = enumToRdf pre (name m')) : m = m' := by
  rw [(h m).1, (h m').1] at e
  have e' := Option.some.inj e
  have h1 := (h m).2
  rw [e', (h m').2] at h1
  exact (Option.some.inj h1).symm

/-- A term that is not the term of any member is refused: what is read names a member (in any mixture of capitals and separators that the
    conversion allows). -/
theorem read_is_member (pre text : Str) (m : RelationshipType) (h : enumFromRdf RelationshipType.ofName? pre text = some m) :
    m.name = upperAscii (camelToSnake (removePrefix text (s%"http://spdx.org/rdf/terms#" ++ pre))) := by
  unfold enumFromRdf RelationshipType.ofName? at h
  have := List.find?_some h
  exact eq_of_beq this

/-! Non-vacuity -/
example : enumToRdf s%"relationshipType_" RelationshipType.EXPANDED_FROM_ARCHIVE.name =
    some s%"http://spdx.org/rdf/terms#relationshipType_expandedFromArchive" := by decide +kernel
example : enumFromRdf RelationshipType.ofName? s%"relationshipType_" s%"http://spdx.org/rdf/terms#relationshipType_unknown" = none := by decide +kernel

end Spdx.C40
