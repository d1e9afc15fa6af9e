import Verif.Model.JsonReading
/-
C41 – XML list repair is idempotent and only touches list fields.
-/
namespace Spdx.C41
open Spdx

/-! ### Specification -/

/-- The fields that hold lists, by the object they belong to. -/
def listFields : List Str :=
  -- the document
  [s%"annotations", s%"documentDescribes", s%"externalDocumentRefs", s%"files", s%"hasExtractedLicensingInfos", s%"packages",
   s%"relationships", s%"snippets", s%"reviewers"] ++
  -- creation information, extracted licensing information
  [s%"creators", s%"seeAlsos"] ++
  -- packages and their verification codes
  [s%"attributionTexts", s%"checksums", s%"externalRefs", s%"hasFiles", s%"licenseInfoFromFiles",
   s%"packageVerificationCodeExcludedFiles"] ++
  -- files
  [s%"artifactOf", s%"fileContributors", s%"fileDependencies", s%"fileTypes", s%"licenseInfoInFiles"] ++
  -- snippets
  [s%"licenseInfoInSnippets", s%"ranges"]

mutual
/-- At every depth, every field whose name is in the list holds an array. -/
def Repaired : Json → Prop
  | .arr l => RepairedL l
  | .obj l => RepairedO l
  | _ => True
def RepairedL : List Json → Prop
  | [] => True
  | j :: js => Repaired j ∧ RepairedL js
def RepairedO : List (Str × Json) → Prop
  | [] => True
  | (k, v) :: ps => (k ∈ listFields → ∃ l, v = .arr l) ∧ Repaired v ∧ RepairedO ps
end

/-! ### Theorems -/

private theorem mem_fields (k : Str) : k ∈ listLikeFields ↔ k ∈ listFields := by
  have h1 : ∀ k ∈ listLikeFields, k ∈ listFields := by decide +kernel
  have h2 : ∀ k ∈ listFields, k ∈ listLikeFields := by decide +kernel
  exact ⟨h1 k, h2 k⟩

private theorem isArr_iff (v : Json) : v.isArr = true ↔ ∃ l, v = .arr l := by
  cases v <;> simp [Json.isArr]

private theorem fix_isArr (v : Json) : (fixLists v).isArr = v.isArr := by
  cases v <;> simp [fixLists, Json.isArr]

mutual
/-- After the repair every list-like field at any depth is a list. -/
theorem repaired (j : Json) : Repaired (fixLists j) := by
  match j with
  | .null | .bool _ | .num _ | .str _ => simp [fixLists, Repaired]
  | .arr l => simp only [fixLists, Repaired]; exact repairedL l
  | .obj l => simp only [fixLists, Repaired]; exact repairedO l
private theorem repairedL (l : List Json) : RepairedL (fixElems l) := by
  match l with
  | [] => trivial
  | j :: js => exact ⟨repaired j, repairedL js⟩
private theorem repairedO (l : List (Str × Json)) : RepairedO (fixFields l) := by
  match l with
  | [] => trivial
  | (k, v) :: ps =>
    simp only [fixFields]
    refine ⟨?_, ?_, repairedO ps⟩
    · intro hk
      rw [← mem_fields] at hk
      split
      · exact ⟨_, rfl⟩
      · rename_i h
        have : v.isArr = true := by simpa [hk] using h
        rw [← fix_isArr] at this
        exact (isArr_iff _).1 this
    · split
      · simp only [Repaired]
        split
        · exact ⟨repaired v, trivial⟩
        · trivial
      · exact repaired v
end

mutual
/-- Where all list-like fields are lists already, the repair changes nothing. -/
theorem unchanged (j : Json) (h : Repaired j) : fixLists j = j := by
  match j with
  | .null | .bool _ | .num _ | .str _ => rfl
  | .arr l => simp only [fixLists]; rw [unchangedL l h]
  | .obj l => simp only [fixLists]; rw [unchangedO l h]
private theorem unchangedL (l : List Json) (h : RepairedL l) : fixElems l = l := by
  match l with
  | [] => rfl
  | j :: js => simp only [fixElems]; rw [unchanged j h.1, unchangedL js h.2]
private theorem unchangedO (l : List (Str × Json)) (h : RepairedO l) : fixFields l = l := by
  match l with
  | [] => rfl
  | (k, v) :: ps =>
    simp only [fixFields]
    rw [unchanged v h.2.1, unchangedO ps h.2.2, if_neg]
    simp only [Bool.and_eq_true, List.contains_iff_mem, Bool.not_eq_true', not_and, Bool.not_eq_false]
    exact fun hk => (isArr_iff _).2 (h.1 ((mem_fields k).1 hk))
end

/-- Repairing twice is the same as once (for every tree). -/
theorem idempotent (j : Json) : fixLists (fixLists j) = fixLists j := unchanged _ (repaired j)

/-- Arrays are repaired entry by entry. -/
theorem entries (l : List Json) : fixLists (.arr l) = .arr (l.map fixLists) := by
  have : ∀ l : List Json, fixElems l = l.map fixLists := by
    intro l
    induction l with
    | nil => rfl
    | cons j js ih => simp [fixElems, ih]
  rw [fixLists, this]

/-- Fields keep their names and order; a field outside the list keeps its (repaired) value; a list-like field that is not a list is
    wrapped if it is non-empty and becomes the empty list otherwise. -/
theorem fields (l : List (Str × Json)) : ∃ l', fixLists (.obj l) = .obj l' ∧ l'.map (·.1) = l.map (·.1) ∧
    ∀ (i : Nat) (k : Str) (v : Json), l[i]? = some (k, v) → ∃ v', l'[i]? = some (k, v') ∧
      (k ∉ listFields → v' = fixLists v) ∧
      (k ∈ listFields → (∀ a, v = .arr a → v' = .arr (a.map fixLists)) ∧
        ((∀ a, v ≠ .arr a) → v.truthy = true → v' = .arr [fixLists v]) ∧
        ((∀ a, v ≠ .arr a) → v.truthy = false → v' = .arr [])) := by
  refine ⟨_, rfl, ?_⟩
  induction l with
  | nil => simp [fixFields]
  | cons p ps ih =>
    obtain ⟨k, v⟩ := p
    refine ⟨by simp [fixFields, ih.1], ?_⟩
    intro i k' v' h
    cases i with
    | succ i => simpa only [fixFields, List.getElem?_cons_succ] using ih.2 i k' v' (by simpa using h)
    | zero =>
      simp only [List.getElem?_cons_zero, Option.some.injEq, Prod.mk.injEq] at h
      obtain ⟨rfl, rfl⟩ := h
      refine ⟨_, by simp only [fixFields, List.getElem?_cons_zero]; rfl, ?_, ?_⟩
      · intro hk; rw [← mem_fields] at hk; simp [hk]
      · intro hk
        rw [← mem_fields] at hk
        refine ⟨?_, ?_, ?_⟩
        · rintro a rfl; simp only [Json.isArr, Bool.not_true, Bool.and_false, Bool.false_eq_true, if_false]; exact entries a
        · intro ha ht
          have : v.isArr = false := by rw [← Bool.not_eq_true, isArr_iff]; rintro ⟨a, e⟩; exact ha a e
          simp [hk, this, ht]
        · intro ha ht
          have : v.isArr = false := by rw [← Bool.not_eq_true, isArr_iff]; rintro ⟨a, e⟩; exact ha a e
          simp [hk, this, ht]

/-! Non-vacuity -/
private def sample : Json := .obj [(s%"name", .str s%"n"), (s%"files", .obj [(s%"SPDXID", .str s%"SPDXRef-F"), (s%"checksums", .null),
  (s%"fileTypes", .arr [.str s%"TEXT"])])]
example : fixLists sample = .obj [(s%"name", .str s%"n"), (s%"files", .arr [.obj [(s%"SPDXID", .str s%"SPDXRef-F"), (s%"checksums", .arr []),
    (s%"fileTypes", .arr [.str s%"TEXT"])]])] := by decide +kernel
example : ¬ Repaired sample := by simp [sample, Repaired, RepairedO, listFields]

end Spdx.C41
