import Verif.Model.DocumentUtils
import Verif.Lemmas.Validation
import Verif.Spec.Example
/-
C18 – Element lookup is consistent.
-/
namespace Spdx.C18
open Spdx

/-! ### Specification -/

/-- All elements of the document. -/
def elements (d : Document) : List Element :=
  d.packages.map .package ++ d.files.map .file ++ d.snippets.map .snippet

/-- The identifiers of packages, files and snippets are pairwise distinct. -/
def Unique (d : Document) : Prop := ((elements d).map Element.spdxId).Nodup

/-- The type of an element. -/
def typeOf : Element → ElementType
  | .package _ => .package
  | .file _ => .file
  | .snippet _ => .snippet

/-! ### Theorems -/

private theorem items (d : Document) : (elements d).map (fun e => (e.spdxId, e)) =
    (d.packages.map fun p => (p.spdxId, Element.package p)) ++ (d.files.map fun f => (f.spdxId, Element.file f)) ++
      (d.snippets.map fun s => (s.spdxId, Element.snippet s)) := by
  simp [elements, Element.spdxId, Function.comp_def]

private theorem contained_eq (d : Document) : containedElements d = Dict.update [] ((elements d).map fun e => (e.spdxId, e)) := by
  rw [items, containedElements]; simp [Dict.update, List.foldl_append]

/-- Lookup never invents anything: what is found is an element with that identifier. -/
theorem found_is_element (d : Document) (id : Str) (e : Element) (h : getElement d id = some e) :
    e ∈ elements d ∧ e.spdxId = id := by
  unfold getElement at h
  rw [contained_eq, Dict.get?_update] at h
  simp only [Dict.get?, Option.or_none, Option.map_eq_some_iff] at h
  obtain ⟨p, h, rfl⟩ := h
  have hm := List.mem_of_find?_eq_some h
  have hp := List.find?_some h
  simp only [List.mem_reverse, List.mem_map] at hm
  obtain ⟨e, he, rfl⟩ := hm
  simp only [decide_eq_true_eq] at hp
  exact ⟨he, hp⟩

/-- Lookup finds something exactly for the identifiers in use. -/
theorem found_iff (d : Document) (id : Str) : (∃ e, getElement d id = some e) ↔ ∃ e ∈ elements d, e.spdxId = id := by
  rw [← Option.isSome_iff_exists, getElement, Dict.get?_isSome, contained_eq, Dict.mem_keys_update]
  simp [Dict.keys]

/-- With unique identifiers, looking up an element's identifier yields that element. -/
theorem lookup_unique (d : Document) (hu : Unique d) (e : Element) (he : e ∈ elements d) : getElement d e.spdxId = some e := by
  obtain ⟨e', h⟩ := (found_iff d e.spdxId).2 ⟨e, he, rfl⟩
  obtain ⟨hm, hid⟩ := found_is_element d _ e' h
  have : e' = e := inj_of_nodup hu hm he hid
  rw [h, this]
where
  inj_of_nodup {l : List Element} (h : (l.map Element.spdxId).Nodup) {a b : Element} (ha : a ∈ l) (hb : b ∈ l)
      (e : a.spdxId = b.spdxId) : a = b := by
    induction l with
    | nil => simp at ha
    | cons x l ih =>
      simp only [List.map_cons, List.nodup_cons, List.mem_map, not_exists, not_and] at h
      rcases List.mem_cons.1 ha with ha' | ha' <;> rcases List.mem_cons.1 hb with hb' | hb'
      · rw [ha', hb']
      · exact absurd (ha' ▸ e).symm (h.1 _ hb')
      · exact absurd (hb' ▸ e) (h.1 _ ha')
      · exact ih h.2 ha' hb'

private theorem type_some (d : Document) (id : Str) (t : ElementType) (h : getElementType id d = some t) :
    ∃ e ∈ elements d, e.spdxId = id ∧ typeOf e = t := by
  unfold getElementType at h
  simp only [List.contains_iff_mem, List.mem_map] at h
  split at h
  · rename_i h'; obtain ⟨p, hp, rfl⟩ := h'; cases h; exact ⟨.package p, by simp [elements, hp], rfl, rfl⟩
  · split at h
    · rename_i h'; obtain ⟨p, hp, rfl⟩ := h'; cases h; exact ⟨.file p, by simp [elements, hp], rfl, rfl⟩
    · split at h
      · rename_i h'; obtain ⟨p, hp, rfl⟩ := h'; cases h; exact ⟨.snippet p, by simp [elements, hp], rfl, rfl⟩
      · cases h

private theorem type_none (d : Document) (id : Str) (h : getElementType id d = none) : ∀ e ∈ elements d, e.spdxId ≠ id := by
  unfold getElementType at h
  simp only [List.contains_iff_mem, List.mem_map] at h
  split at h
  · cases h
  · split at h
    · cases h
    · split at h
      · cases h
      · rename_i h1 h2 h3
        intro e he hid
        simp only [elements, List.mem_append, List.mem_map] at he
        rcases he with (⟨p, hp, rfl⟩ | ⟨p, hp, rfl⟩) | ⟨p, hp, rfl⟩
        · exact h1 ⟨p, hp, hid⟩
        · exact h2 ⟨p, hp, hid⟩
        · exact h3 ⟨p, hp, hid⟩

/-- With unique identifiers the reported type is the type of the element found. -/
theorem type_agrees (d : Document) (hu : Unique d) (id : Str) : getElementType id d = (getElement d id).map typeOf := by
  cases h : getElementType id d with
  | none =>
    have := type_none d id h
    cases hg : getElement d id with
    | none => rfl
    | some e =>
      have := found_is_element d id e hg
      exact absurd this.2 (type_none d id h e this.1)
  | some t =>
    obtain ⟨e, he, rfl, rfl⟩ := type_some d id t h
    rw [lookup_unique d hu e he]; rfl

/-- Without uniqueness the two functions disagree: a package and a file with the same identifier. -/
theorem duplicate_disagreement : ∃ (d : Document) (id : Str),
    getElementType id d = some .package ∧ (getElement d id).map typeOf = some .file := by
  refine ⟨{ Example.doc with files := [{ Example.file with spdxId := s%"SPDXRef-Package" }] }, s%"SPDXRef-Package", ?_⟩
  decide +kernel

/-- Valid documents have unique identifiers. -/
theorem valid_unique (X : Ext) (d : Document) (ver : Option Str) (h : validateDocument X d ver = []) : Unique d := by
  have v := ((validateDocument_nil X d ver).1 h).1.unique
  unfold Spec.elementIds at v
  rw [List.nodup_cons] at v
  unfold Unique elements
  simpa [Element.spdxId, Function.comp_def] using v.2

/-! Non-vacuity -/
example : Unique Example.doc := valid_unique Example.ext _ none (by decide +kernel)
example : getElement Example.doc s%"SPDXRef-File" = some (.file Example.file) ∧
    getElementType s%"SPDXRef-File" Example.doc = some .file := by decide +kernel

end Spdx.C18
