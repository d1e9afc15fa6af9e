import Verif.Model.DocumentUtils
import Verif.Lemmas.Text
import Verif.Spec.Example
/-
C19 – Qualified identifiers resolve to the right namespace.
-/
namespace Spdx.C19
open Spdx

/-! ### Specification -/

/-- The first declaration of `ref`. -/
def FirstRef (refs : List ExternalDocumentRef) (ref : Str) (r : ExternalDocumentRef) : Prop :=
  ∃ before after, refs = before ++ r :: after ∧ r.documentRefId = ref ∧ ∀ x ∈ before, x.documentRefId ≠ ref

/-! ### Theorems -/

/-- Local identifiers: the document's namespace. -/
theorem local_id (id ns : Str) (refs : List ExternalDocumentRef) (h : ':' ∉ id) :
    getFullElementId id ns refs = .ok (ns ++ '#' :: id) := by
  unfold getFullElementId; rw [if_pos h]; simp

private theorem split_two (ref loc : Str) (h : ':' ∉ ref) (h' : ':' ∉ loc) :
    splitOn ':' (ref ++ ':' :: loc) = [ref, loc] := (splitOn_two ':' _ ref loc).2 ⟨rfl, h, h'⟩

/-- Identifiers in a declared external document: the URI of the (first) declaration. -/
theorem external_id (ref loc ns : Str) (refs : List ExternalDocumentRef) (r : ExternalDocumentRef) (h : ':' ∉ ref) (h' : ':' ∉ loc)
    (hr : FirstRef refs ref r) (hu : r.documentUri ≠ []) :
    getFullElementId (ref ++ ':' :: loc) ns refs = .ok (r.documentUri ++ '#' :: loc) := by
  obtain ⟨b, a, rfl, hid, hb⟩ := hr
  have e : (b ++ r :: a).find? (fun x => decide (x.documentRefId = ref)) = some r := by
    rw [List.find?_append, List.find?_eq_none.2 (by simpa using hb)]; simp [hid]
  unfold getFullElementId
  rw [if_neg (by simp), split_two _ _ h h']
  simp only [e, if_neg hu]
  simp

/-- Undeclared reference: an error naming it. -/
theorem undeclared (ref loc ns : Str) (refs : List ExternalDocumentRef) (h : ':' ∉ ref) (h' : ':' ∉ loc)
    (hr : ∀ r ∈ refs, r.documentRefId ≠ ref) :
    getFullElementId (ref ++ ':' :: loc) ns refs = .error (.notFound ref) := by
  unfold getFullElementId
  rw [if_neg (by simp), split_two _ _ h h']
  simp only [List.find?_eq_none.2 (show ∀ x ∈ refs, ¬ (decide (x.documentRefId = ref) = true) by simpa using hr)]

/-- More than one colon: an error. -/
theorem malformed (id ns : Str) (refs : List ExternalDocumentRef) (h : ':' ∈ id)
    (h' : ∀ a b, id = a ++ ':' :: b → ':' ∈ a ∨ ':' ∈ b) : getFullElementId id ns refs = .error .unpack := by
  unfold getFullElementId
  rw [if_neg (by simpa using h)]
  split
  · rename_i a b hs
    obtain ⟨e, h1, h2⟩ := (splitOn_two ':' _ _ _).1 hs
    rcases h' _ _ e with h | h
    · exact absurd h h1
    · exact absurd h h2
  · rfl

/-- Success means one of the first two cases. -/
theorem success_only (id ns res : Str) (refs : List ExternalDocumentRef) (h : getFullElementId id ns refs = .ok res) :
    (':' ∉ id ∧ res = ns ++ '#' :: id) ∨
    ∃ ref loc, id = ref ++ ':' :: loc ∧ ∃ r, FirstRef refs ref r ∧ res = r.documentUri ++ '#' :: loc := by
  unfold getFullElementId at h
  split at h
  · rename_i hn; cases h; exact .inl ⟨hn, by simp⟩
  · split at h
    · rename_i a b hs
      obtain ⟨e, h1, h2⟩ := (splitOn_two ':' _ _ _).1 hs
      split at h
      · rename_i r hf
        split at h
        · cases h
        · cases h
          rw [List.find?_eq_some_iff_append] at hf
          obtain ⟨hid, b', a', rfl, hb⟩ := hf
          refine .inr ⟨a, b, e, r, ⟨b', a', rfl, by simpa using hid, by simpa using hb⟩, by simp⟩
      · cases h
    · cases h

/-- Different local identifiers, or the same identifier in documents with different namespaces without "#", stay different. -/
theorem injective (id id' ns ns' : Str) (refs : List ExternalDocumentRef) (h : ':' ∉ id) (h' : ':' ∉ id')
    (hn : '#' ∉ ns) (hn' : '#' ∉ ns') (he : getFullElementId id ns refs = getFullElementId id' ns' refs) : id = id' ∧ ns = ns' := by
  rw [local_id _ _ _ h, local_id _ _ _ h'] at he
  have he := Except.ok.inj he
  have key : ∀ (a b c e : Str), '#' ∉ a → '#' ∉ c → a ++ '#' :: b = c ++ '#' :: e → a = c ∧ b = e := by
    intro a
    induction a with
    | nil =>
      intro b c e _ hc h
      cases c with
      | nil => simpa using h
      | cons x c => simp at h; exact absurd (List.mem_cons.2 (.inl h.1)) hc
    | cons x a ih =>
      intro b c e ha hc h
      cases c with
      | nil => simp at h; exact absurd (List.mem_cons.2 (.inl h.1.symm)) ha
      | cons y c =>
        simp at h ha hc
        obtain ⟨h1, h2⟩ := ih b c e ha.2 hc.2 h.2
        exact ⟨by rw [h.1, h1], h2⟩
  obtain ⟨h1, h2⟩ := key _ _ _ _ hn hn' he
  exact ⟨h2, h1⟩

/-! Non-vacuity -/
example : getFullElementId s%"DocumentRef-ext:SPDXRef-o" s%"https://e.org/d" Example.info.externalDocumentRefs =
    .ok s%"https://e.org/x#SPDXRef-o" := by decide +kernel
example : getFullElementId s%"SPDXRef-File" s%"https://e.org/d" [] = .ok s%"https://e.org/d#SPDXRef-File" := by decide +kernel
example : getFullElementId s%"a:b:c" s%"https://e.org/d" [] = .error .unpack := by decide +kernel

end Spdx.C19
