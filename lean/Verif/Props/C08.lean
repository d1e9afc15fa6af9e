import Verif.Lemmas.Validation
import Verif.Spec.Example
/-
C08 – Identifier validation is exact.
-/
namespace Spdx.C08
open Spdx Spec

/-- No message exactly when the identifier is a local one (present in the document / among the files where that is checked) or a
    well-formed identifier in a declared external document. (`OrNewline`: the code also lets a final newline through.) -/
theorem validate_iff (id : Str) (d : Document) (checkDocument checkFiles : Bool) :
    validateSpdxId id d checkDocument checkFiles = [] ↔
      (OrNewline LocalId id ∧ (checkDocument = true → InDocument d id) ∧ (checkFiles = true → InFiles d id)) ∨
      (∃ ref loc, id = ref ++ ':' :: loc ∧ OrNewline DocRef ref ∧ OrNewline LocalId loc ∧ Declared d ref) :=
  validateSpdxId_nil id d checkDocument checkFiles

/-- The intended rule holds for identifiers without a newline. -/
theorem documented_partial (id : Str) (d : Document) (checkDocument checkFiles : Bool) (hn : '\n' ∉ id) :
    validateSpdxId id d checkDocument checkFiles = [] ↔
      (LocalId id ∧ (checkDocument = true → InDocument d id) ∧ (checkFiles = true → InFiles d id)) ∨
      (∃ ref loc, id = ref ++ ':' :: loc ∧ DocRef ref ∧ LocalId loc ∧ Declared d ref) := by
  have e : ∀ (P : Str → Prop) (s : Str), '\n' ∉ s → (OrNewline P s ↔ P s) := by
    intro P s hs
    constructor
    · rintro (h | ⟨t, rfl, -⟩)
      · exact h
      · simp at hs
    · exact .inl
  rw [validate_iff, e _ _ hn]
  refine or_congr Iff.rfl ?_
  constructor
  · rintro ⟨ref, loc, rfl, h1, h2, h3⟩
    simp only [List.mem_append, List.mem_cons, not_or] at hn
    exact ⟨ref, loc, rfl, (e _ _ hn.1).1 h1, (e _ _ hn.2.2).1 h2, h3⟩
  · rintro ⟨ref, loc, rfl, h1, h2, h3⟩
    exact ⟨ref, loc, rfl, .inl h1, .inl h2, h3⟩

private theorem length_splitOn (sep : Char) (s : Str) : (splitOn sep s).length = s.count sep + 1 := by
  induction s with
  | nil => rfl
  | cons c cs ih =>
    obtain ⟨p, ps, hp⟩ := List.exists_cons_of_ne_nil (splitOn_ne_nil sep cs)
    unfold splitOn
    split
    · rename_i h; subst h; simp [ih]
    · rename_i h
      rw [hp] at ih ⊢
      rw [List.count_cons]
      simpa [h] using ih

/-- Two or more colons: exactly one message, saying so. -/
theorem too_many_colons (a b c : Str) (d : Document) (cd cf : Bool) :
    validateSpdxId (a ++ ':' :: b ++ ':' :: c) d cd cf = [.tooManyColons (a ++ ':' :: b ++ ':' :: c)] := by
  have key3 : 3 ≤ (splitOn ':' (a ++ ':' :: b ++ ':' :: c)).length := by
    rw [length_splitOn]; simp only [List.count_append, List.count_cons]; simp; omega
  unfold validateSpdxId
  split
  · rfl
  · rename_i x y hs; rw [hs] at key3; simp at key3
  · rename_i h1 h2
    exfalso
    revert key3 h1 h2
    generalize splitOn ':' _ = l
    intro h1 h2 key3
    match l, h1, h2, key3 with
    | _ :: _ :: _ :: _, _, h2, _ => exact h2 _ _ _ _ rfl

/-- An identifier of an external document is also accepted as the own identifier of an element of this document, since the
    validators of packages, files and snippets check nothing else. -/
theorem external_own_id_accepted (d : Document) (ref loc : Str) (h1 : DocRef ref) (h2 : LocalId loc) (h3 : Declared d ref) :
    validateSpdxId (ref ++ ':' :: loc) d false false = [] :=
  (validate_iff _ _ _ _).2 (.inr ⟨ref, loc, rfl, .inl h1, .inl h2, h3⟩)

/-- A final newline is accepted. -/
theorem newline_accepted (d : Document) : validateSpdxId s%"SPDXRef-a\n" d false false = [] := by
  rw [validate_iff]
  refine .inl ⟨.inr ⟨s%"SPDXRef-a", rfl, s%"a", by simp, rfl, ?_⟩, by simp, by simp⟩
  intro c hc
  simp only [List.mem_singleton] at hc
  subst hc
  exact .inl (by decide)

/-- Digits of other scripts are accepted (here an Arabic-Indic digit). -/
theorem foreign_digit_accepted (d : Document) : validateSpdxId s%"SPDXRef-٣" d false false = [] := by
  rw [validate_iff]
  refine .inl ⟨.inl ⟨s%"٣", by simp, rfl, ?_⟩, by simp, by simp⟩
  intro c hc
  simp only [List.mem_singleton] at hc
  subst hc
  exact .inr (.inr (.inl (by decide +kernel)))

/-! Non-vacuity: a document with a file and an external reference. -/
open Spdx.Example
example : '\n' ∉ s%"SPDXRef-File" ∧ validateSpdxId s%"SPDXRef-File" doc true true = [] := by decide +kernel
example : validateSpdxId s%"DocumentRef-ext:SPDXRef-x" doc true true = [] := by decide +kernel
example : validateSpdxId s%"DocumentRef-foo:SPDXRef-x" doc true true = [.docRefMissing s%"DocumentRef-foo"] := by decide +kernel
example : validateSpdxId s%"SPDXRef-x" doc true true = [.notInDocument s%"SPDXRef-x", .notInFiles s%"SPDXRef-x"] := by decide +kernel
example : validateSpdxId s%"SPDXRef-" doc false false ≠ [] := by decide +kernel

end Spdx.C08
