import Verif.Lemmas.Messages
import Verif.Spec.Example
/-
C12 – References of a valid document resolve.
-/
namespace Spdx.C12
open Spdx Spec

/-! ### Specification -/

/-- `id` lies in an external document that this document declares. -/
def External (d : Document) (id : Str) : Prop :=
  ∃ ref loc, id = ref ++ ':' :: loc ∧ ∃ r ∈ d.creationInfo.externalDocumentRefs, r.documentRefId = ref

/-- `id` names the document, a package, a file or a snippet of it, or an element of a declared external document. -/
def Resolves (d : Document) (id : Str) : Prop :=
  id = s%"SPDXRef-DOCUMENT" ∨ (∃ p ∈ d.packages, p.spdxId = id) ∨ (∃ f ∈ d.files, f.spdxId = id) ∨
    (∃ s ∈ d.snippets, s.spdxId = id) ∨ External d id

/-! ### Theorems -/

private theorem resolves_of (d : Document) (hid : d.creationInfo.spdxId = s%"SPDXRef-DOCUMENT") (id : Str)
    (h : IdRule d (InDocument d) id) : Resolves d id := by
  rcases h with ⟨-, h⟩ | ⟨ref, loc, h, -, -, hd⟩
  · unfold InDocument at h; rw [hid] at h; unfold Resolves; grind
  · exact .inr (.inr (.inr (.inr ⟨ref, loc, h, hd⟩)))

theorem relationships_resolve (X : Ext) (d : Document) (ver : Option Str) (h : validateDocument X d ver = [])
    (r : Relationship) (hr : r ∈ d.relationships) :
    Resolves d r.spdxElementId ∧ ∀ id, r.relatedSpdxElementId = .val id → Resolves d id := by
  have v := ((validateDocument_nil X d ver).1 h).1
  have hid := v.parts.creationInfo.1
  have hr := v.parts.relationships r hr
  exact ⟨resolves_of d hid _ hr.1, fun id h => resolves_of d hid _ (hr.2.1 id h)⟩

theorem annotations_resolve (X : Ext) (d : Document) (ver : Option Str) (h : validateDocument X d ver = [])
    (a : Annotation) (ha : a ∈ d.annotations) : Resolves d a.spdxId := by
  have v := ((validateDocument_nil X d ver).1 h).1
  exact resolves_of d v.parts.creationInfo.1 _ (v.parts.annotations a ha).2

theorem snippet_files_resolve (X : Ext) (d : Document) (ver : Option Str) (h : validateDocument X d ver = [])
    (s : Snippet) (hs : s ∈ d.snippets) : (∃ f ∈ d.files, f.spdxId = s.fileSpdxId) ∨ External d s.fileSpdxId := by
  have v := ((validateDocument_nil X d ver).1 h).1
  rcases (v.parts.snippets s hs).2.1 with ⟨-, h⟩ | ⟨ref, loc, h, -, -, hd⟩
  · exact .inl h
  · exact .inr ⟨ref, loc, h, hd⟩

/-- The identifiers of the document and all its elements are pairwise distinct. -/
theorem ids_distinct (X : Ext) (d : Document) (ver : Option Str) (h : validateDocument X d ver = []) :
    (s%"SPDXRef-DOCUMENT" ::
      (d.packages.map (·.spdxId) ++ d.files.map (·.spdxId) ++ d.snippets.map (·.spdxId))).Nodup := by
  have v := ((validateDocument_nil X d ver).1 h).1
  have hid := v.parts.creationInfo.1
  have := v.unique
  unfold elementIds at this
  rw [hid] at this; exact this

/-- Conversely, an unresolved relationship end is always reported. -/
theorem dangling_reported (X : Ext) (d : Document) (ver : Option Str) (r : Relationship) (hr : r ∈ d.relationships)
    (hd : ¬ Resolves d r.spdxElementId ∨ ∃ id, r.relatedSpdxElementId = .val id ∧ ¬ Resolves d id) :
    validateDocument X d ver ≠ [] := by
  intro h
  have := relationships_resolve X d ver h r hr
  rcases hd with hd | ⟨id, h1, h2⟩
  · exact hd this.1
  · exact h2 (this.2 id h1)

/-! Non-vacuity -/
example : validateDocument Example.ext Example.doc none = [] ∧ Example.doc.relationships ≠ [] ∧ Example.doc.annotations ≠ [] ∧
    Example.doc.snippets ≠ [] := by decide +kernel

end Spdx.C12
