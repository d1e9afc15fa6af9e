import Verif.Props.C32
import Verif.Props.C46
import Verif.Lemmas.BumpDates
import Verif.Lemmas.BumpPlain
import Verif.Lemmas.LdUnderstood
/-
C64: what a migrated document says under the context it is written with.

The JSON-LD file carries context.json, which was made from the vocabulary SPDX_OWL.json by owl_to_context.py.  Under this context every key
and every name of an enumeration stands for something: `Spec/LdMeaning` says for what (the expansion of JSON-LD 1.1) and what the
vocabulary knows.  It would be good if every migrated document were understood.  This is false of the code; the theorems tell for which
payloads and documents it is true, and what happens to the others.
-/
namespace Spdx.C64
open Spdx Spec.Vocab

/-! ### Specification: Spec/LdMeaning (`Understood`) and Spec/LdPlain (`Plain`, `PlainDocument`) -/

/-- the dates of a document can be written -/
def Datable (d : Document) : Prop := ∀ t ∈ BumpDates.docDates d, ∃ s, datetimeToIso t = some s

/-! ### Theorems -/

set_option maxRecDepth 10000 in
/-- The context that is shipped is exactly what the shipped script makes of the shipped vocabulary, entry by entry and in order. -/
theorem context_generated : owlToContext (owlPrefixes.map fun p => (p.1, .simple p.2)) owlGraph = .ok contextFile := by decide +kernel

/-- A payload is converted to objects that are all understood exactly if all its elements are plain. -/
theorem understood_iff (p : Payload) (hd : ∀ e ∈ p.vals, ∀ t ∈ Spec.Ld.dates e, ∃ s, datetimeToIso t = some s) :
    (∃ js, payloadToJsonLd (p.vals.map Element3.toPy) = .ok js ∧ ∀ j ∈ js, Understood j) ↔ ∀ e ∈ p.vals, Plain e := by
  rw [C46.migrated_objects p hd]
  constructor
  · rintro ⟨js, h, hj⟩ e he
    cases h
    exact (LdMeaning.element_iff e).1 (hj _ (List.mem_map.2 ⟨e, he, rfl⟩))
  · intro h
    refine ⟨_, rfl, ?_⟩
    intro j hj
    obtain ⟨e, he, rfl⟩ := List.mem_map.1 hj
    exact (LdMeaning.element_iff e).2 (h e he)

private theorem datable (d : Document) (p : Payload) (h : bumpDocument d = .ok p) (hd : Datable d) :
    ∀ e ∈ p.vals, ∀ t ∈ Spec.Ld.dates e, ∃ s, datetimeToIso t = some s := by
  intro e he t ht
  obtain ⟨q, hq, rfl⟩ := List.mem_map.1 he
  exact hd t (BumpDates.migrated d p h q hq t ht)

/-- A document of SPDX 2 without tools as creators, SHA3 and BLAKE2b checksums, purposes, homepages, ambiguous package URLs, dependencies
    at build time and relationships to NOASSERTION is understood completely after the migration. -/
theorem document_understood_partial (d : Document) (p : Payload) (h : bumpDocument d = .ok p) (hd : Datable d) (hp : PlainDocument d) :
    ∃ js, payloadToJsonLd (p.vals.map Element3.toPy) = .ok js ∧ ∀ j ∈ js, Understood j := by
  refine (understood_iff p (datable d p h hd)).2 ?_
  intro e he
  obtain ⟨q, hq, rfl⟩ := List.mem_map.1 he
  exact BumpPlain.migrated d p h hp q hq

/-- The full statement (every document that can be migrated is understood) is false, and not only for odd documents: a package with a
    purpose or a homepage is enough, if its identifier is not used twice. -/
theorem package_not_understood (d : Document) (p : Payload) (h : bumpDocument d = .ok p) (hd : Datable d) (ha : C32.Apart d) (x : Package)
    (hx : x ∈ d.packages) (hl : x.primaryPackagePurpose ≠ none ∨ ∃ s, x.homepage = some (.val s) ∧ s ≠ []) :
    ¬ ∃ js, payloadToJsonLd (p.vals.map Element3.toPy) = .ok js ∧ ∀ j ∈ js, Understood j := by
  rw [understood_iff p (datable d p h hd)]
  intro hp
  obtain ⟨id, q, _, hg, _, hk⟩ := C32.package_in_payload d p h ha x hx
  have hm : Element3.package q ∈ p.vals := by
    have : ∀ (l : Payload), l.get? id = some (.package q) → Element3.package q ∈ l.vals := by
      intro l
      induction l with
      | nil => intro h; cases h
      | cons y l ih =>
        obtain ⟨a, b⟩ := y
        intro h
        rw [Dict.get?] at h
        split at h
        · cases h; exact List.mem_cons_self ..
        · exact List.mem_cons_of_mem _ (ih h)
    exact this p hg
  obtain ⟨_, _, h1, h2⟩ := hp _ hm
  obtain ⟨_, _, _, _, _, _, _, _, _, k1, _, _, _, k2, _⟩ := hk
  rcases hl with hl | ⟨s, hs, hn⟩
  · exact hl (k1 ▸ h1)
  · rw [k2.1 s hs] at h2
    rcases h2 with h2 | h2 <;> cases h2
    exact hn rfl

private theorem literal {k id t iri : Str} (hl : contextFile.lookup k = some (.prop id t [])) (h1 : t ≠ s%"@id") (h2 : t ≠ s%"@vocab")
    (hi : compactIri contextFile t = iri) (s : Str) : meaning contextFile k s = .literal iri s := by
  unfold meaning
  rw [hl]
  dsimp only
  rw [if_neg h1, if_neg h2, hi]

/-- What is written for a homepage is dropped when the file is read: `homepage` is not a term.  (The vocabulary calls it `homePage`.) -/
theorem homepage_dropped : termIri contextFile s%"homepage" = none ∧
    termIri contextFile s%"homePage" = some s%"https://spdx.org/rdf/Software/homePage" := by decide +kernel

/-- A purpose is read as a text of the "datatype" SoftwarePurpose and never as one of the purposes of the vocabulary. -/
theorem purpose_literal (s : Str) : meaning contextFile s%"primaryPurpose" s =
    .literal s%"https://spdx.org/rdf/Software/SoftwarePurpose" s :=
  literal (id := s%"software:primaryPurpose") (t := s%"software:SoftwarePurpose") (by decide +kernel) (by decide) (by decide) (by decide +kernel) s

/-- The tools a document was created with are read as texts and not as references to the elements. -/
theorem tools_literal (s : Str) : meaning contextFile s%"createdUsing" s = .literal s%"https://spdx.org/rdf/Core/Tool" s :=
  literal (id := s%"core:createdUsing") (t := s%"core:Tool") (by decide +kernel) (by decide) (by decide) (by decide +kernel) s

/-- The scope `build` is read as the namespace of the profile "build"; the vocabulary's member is another one. -/
theorem build_is_namespace : meaning contextFile s%"scope" s%"build" = .iri s%"https://spdx.org/rdf/Build/" ∧
    Individual s%"core:LifecycleScopeType" s%"https://spdx.org/rdf/Core/LifecycleScopeType/build" :=
  ⟨by decide +kernel, (LdMeaning.individualB_iff ..).1 (by decide +kernel)⟩

/-- The name of a hash algorithm is read as a member of the enumeration exactly if it is not one of the nine in `unknownAlgorithms`. -/
theorem algorithm_iff (a : HashAlgorithm) (s : Str) (hs : (a.name, s) ∈ ldMembers) :
    (∃ i, meaning contextFile s%"algorithm" s = .iri i ∧ Individual s%"core:HashAlgorithm" i) ↔ a ∉ unknownAlgorithms := by
  have hn : ∀ x ∈ HashAlgorithm.all, ∀ m ∈ ldMembers, m.1 = x.name → (ldMembers.lookup x.name).getD [] = m.2 := by decide +kernel
  have ha : a ∈ HashAlgorithm.all := by cases a <;> decide
  rw [← LdMeaning.algorithm_iff, hn a ha _ hs rfl]
  unfold LdMeaning.enumB
  constructor
  · rintro ⟨i, h1, h2⟩
    rw [h1]
    exact (LdMeaning.individualB_iff ..).2 h2
  · intro h
    split at h
    · next i hi => exact ⟨i, hi, (LdMeaning.individualB_iff ..).1 h⟩
    · cases h

/-- For example SHA3-256: `sha3256` is written, `sha3_256` is known. -/
theorem sha3_unknown : meaning contextFile s%"algorithm" s%"sha3256" = .iri s%"https://spdx.org/rdf/Core/HashAlgorithm/sha3256" ∧
    ¬ Individual s%"core:HashAlgorithm" s%"https://spdx.org/rdf/Core/HashAlgorithm/sha3256" ∧
    Individual s%"core:HashAlgorithm" s%"https://spdx.org/rdf/Core/HashAlgorithm/sha3_256" :=
  ⟨by decide +kernel, fun h => absurd ((LdMeaning.individualB_iff ..).2 h) (by decide +kernel),
    (LdMeaning.individualB_iff ..).1 (by decide +kernel)⟩

/-! ### The hypotheses can be met -/

/-- a document without what gets lost -/
def plainDoc : Document :=
  { Example.doc with
    packages := [{ Example.package with primaryPackagePurpose := none }, Example.barePackage]
    relationships := Example.doc.relationships.take 4 }

example : (∃ p, bumpDocument plainDoc = .ok p) ∧ Datable plainDoc ∧ PlainDocument plainDoc := by
  refine ⟨⟨_, rfl⟩, ?_, ?_⟩
  · have : ∀ t ∈ BumpDates.docDates plainDoc, (datetimeToIso t).isSome = true := by decide +kernel
    exact fun t ht => Option.isSome_iff_exists.1 (this t ht)
  · refine ⟨by decide +kernel, by decide +kernel, by decide +kernel, by decide +kernel, ?_, by decide +kernel, by decide +kernel⟩
    intro p hp
    simp only [plainDoc, List.mem_cons, List.not_mem_nil, or_false] at hp
    rcases hp with rfl | rfl
    · exact .inr ⟨_, by rfl, rfl⟩
    · exact .inl (by rfl)

example : C32.Apart Example.doc ∧ Datable Example.doc ∧ (∃ p, bumpDocument Example.doc = .ok p) ∧
    Example.package ∈ Example.doc.packages ∧ Example.package.primaryPackagePurpose ≠ none := by
  refine ⟨?_, ?_, ⟨_, rfl⟩, by decide +kernel, by decide⟩
  · exact C32.simple_apart _ C32.example_simple
  · have : ∀ t ∈ BumpDates.docDates Example.doc, (datetimeToIso t).isSome = true := by decide +kernel
    exact fun t ht => Option.isSome_iff_exists.1 (this t ht)

end Spdx.C64
