import Verif.Props.C46
import Verif.Props.C47
import Verif.Lemmas.BumpDates
import Verif.Lemmas.BumpFull
import Verif.Lemmas.LdComplete
/-
C65: migrated documents have what the shapes of the vocabulary want.

The vocabulary says for each class how often its objects must and may have a property (`sh:minCount`, `sh:maxCount`), and the library offers
to check files against it.  The theorems tell exactly which documents give files that pass this part of the check.
-/
namespace Spdx.C65
open Spdx Spec Spec.Vocab

/-! ### Specification: Spec/LdComplete (`Complete`, `FullDocument`) -/

/-- the dates of a document can be written -/
def Datable (d : Document) : Prop := ∀ t ∈ BumpDates.docDates d, ∃ s, datetimeToIso t = some s

/-- the objects written for a payload all have what the shapes want -/
def Conforms (p : Payload) : Prop := ∃ js, payloadToJsonLd (p.vals.map Element3.toPy) = .ok js ∧ ∀ j ∈ js, Complete j

/-! ### Theorems -/

/-- A payload is converted to objects with all their properties exactly if all its elements have them. -/
theorem payload_iff (p : Payload) (hd : ∀ e ∈ p.vals, ∀ t ∈ Spec.Ld.dates e, ∃ s, datetimeToIso t = some s) :
    Conforms p ↔ ∀ e ∈ p.vals, Full e := by
  unfold Conforms
  rw [C46.migrated_objects p hd]
  constructor
  · rintro ⟨js, h, hj⟩ e he
    cases h
    exact (LdComplete.element_iff e).1 (hj _ (List.mem_map.2 ⟨e, he, rfl⟩))
  · intro h
    refine ⟨_, rfl, ?_⟩
    intro j hj
    obtain ⟨e, he, rfl⟩ := List.mem_map.1 hj
    exact (LdComplete.element_iff e).2 (h e he)

/-- A document gives objects with all their properties exactly if it has a name, a creator other than tools and a description of the
    document, and no empty values where values are wanted. -/
theorem document_iff (d : Document) (p : Payload) (h : bumpDocument d = .ok p) (ht : Datable d)
    (hi : d.creationInfo.spdxId = s%"SPDXRef-DOCUMENT") (hd : C31.DocumentApart d) (ha : C32.Apart d) : Conforms p ↔ FullDocument d := by
  rw [← BumpFull.migrated_iff d p h hi hd ha, payload_iff p (by
    intro e he t hx
    obtain ⟨q, hq, rfl⟩ := List.mem_map.1 he
    exact ht t (BumpDates.migrated d p h q hq t hx))]
  constructor
  · exact fun hf q hq => hf _ (List.mem_map.2 ⟨q, hq, rfl⟩)
  · intro hf e he
    obtain ⟨q, hq, rfl⟩ := List.mem_map.1 he
    exact hf q hq

private theorem orNewline_ne {P : Str → Prop} (h : ¬ P []) {s : Str} (hs : OrNewline P s) : s ≠ [] := by
  rintro rfl
  rcases hs with hs | ⟨t, e, _⟩
  · exact h hs
  · simp at e

private theorem checksum_ne {is22 : Prop} {c : Checksum} (h : ChecksumRule is22 c) (hm : c.algorithm ≠ .MD6) : c.value ≠ [] := by
  refine orNewline_ne ?_ h.2
  rintro ⟨_, h⟩
  cases e : c.algorithm <;> rw [e] at h <;> first | exact absurd e hm | (simp [HexDigits] at h)

private theorem locator_ne {X : Ext} {p : Package} {r : ExternalPackageRef} {is22 : Prop} (h : ExternalPackageRefRule X is22 r)
    (hi : IsIdentifier p r) (hc : r.category ≠ .OTHER) : r.locator ≠ [] := by
  unfold ExternalPackageRefRule at h
  rw [if_neg hc] at h
  have ht : r.referenceType ∈ [s%"cpe22Type", s%"cpe23Type", s%"swid", s%"swh", s%"gitoid", s%"purl"] := by
    rcases hi with hi | hi
    · exact (List.mem_append_left [s%"purl"] hi : _ ∈ [s%"cpe22Type", s%"cpe23Type", s%"swid", s%"swh", s%"gitoid"] ++ _)
    · rw [hi.1]; decide
  rcases h.2.2 with ⟨h1, _⟩ | ⟨_, _, h1⟩ | h1
  · exfalso
    rcases h1 with e | e | e <;> rw [e] at ht <;> revert ht <;> decide
  · intro e
    rw [e] at h1
    exact absurd h1 (by decide)
  · intro e
    rw [e, ← locatorMatches_iff] at h1
    have : ∀ t ∈ [s%"cpe22Type", s%"cpe23Type", s%"swid", s%"swh", s%"gitoid", s%"purl"], locatorMatches t [] = false := by decide +kernel
    rw [this _ ht] at h1
    cases h1

/-- For a valid document five things are left to ask: the name, a creator other than tools, a DESCRIBES relationship of the document, no
    empty MD6 value, and no empty locator of a reference of the category OTHER. -/
theorem valid_iff (X : Ext) (d : Document) (hv : Valid X d) : FullDocument d ↔
    d.creationInfo.name ≠ [] ∧ (∃ a ∈ d.creationInfo.creators, a.actorType ≠ .TOOL) ∧
    (∃ r ∈ d.relationships, r.relationshipType = .DESCRIBES ∧ r.spdxElementId = s%"SPDXRef-DOCUMENT") ∧
    (∀ c ∈ checksums d, c.algorithm = .MD6 → c.value ≠ []) ∧
    (∀ p ∈ d.packages, ∀ r ∈ p.externalReferences, r.category = .OTHER → IsIdentifier p r → r.locator ≠ []) := by
  constructor
  · exact fun h => ⟨h.name, h.creator, h.root, fun c hc _ => h.checksums c hc, fun p hp r hr _ => h.identifiers p hp r hr⟩
  · rintro ⟨h1, h2, h3, h4, h5⟩
    have hp := hv.parts
    refine ⟨h1, h2, h3, ?_, ?_, ?_, ?_⟩
    · intro r hr
      refine orNewline_ne ?_ (hp.creationInfo.2.2.2.2 r hr).1
      rintro ⟨t, ht, e, _⟩
      simp at e
    · intro c hc
      by_cases hm : c.algorithm = .MD6
      · exact h4 c hc hm
      · simp only [checksums, List.mem_append, List.mem_map, List.mem_flatMap] at hc
        rcases hc with (⟨r, hr, rfl⟩ | ⟨x, hx, hc⟩) | ⟨x, hx, hc⟩
        · exact checksum_ne (hp.creationInfo.2.2.2.2 r hr).2.2 hm
        · obtain ⟨_, _, _, _, _, _, _, _, hk, _⟩ := hp.packages x hx
          exact checksum_ne (hk c hc) hm
        · obtain ⟨_, _, _, _, _, hk, _⟩ := hp.files x hx
          exact checksum_ne (hk c hc) hm
    · intro p hpp r hr hi
      by_cases hc : r.category = .OTHER
      · exact h5 p hpp r hr hc hi
      · obtain ⟨_, _, _, _, _, _, _, _, _, hk, _⟩ := hp.packages p hpp
        exact locator_ne (hk r hr) hi hc
    · intro s hs
      obtain ⟨_, _, _, _, k1, k2, k3, _⟩ := hp.snippets s hs
      refine ⟨by omega, by omega, fun r hr => ?_⟩
      have := k3 r hr
      exact ⟨by omega, by omega⟩

private theorem valid_document_apart (X : Ext) (d : Document) (hv : Valid X d) (hs : C32.Simple d) : C31.DocumentApart d := by
  have h0 := hv.parts.creationInfo.1
  refine ⟨?_, ?_, ?_⟩
  · intro id hid e
    have h1 := hs.2 id hid
    rw [getFullElementId, if_pos h1.1] at e
    have e := Except.ok.inj e
    unfold C31.documentId at e
    have e := List.append_cancel_left e
    have hn := hv.unique
    unfold elementIds at hn
    exact (List.nodup_cons.1 hn).1 (by rw [← e]; exact hid)
  · rw [h0, ← List.isPrefixOf_iff_prefix]; decide
  · rw [h0, ← List.isPrefixOf_iff_prefix]; decide

/-- Both together, for valid documents without colons and reserved names in the identifiers of their elements. -/
theorem valid_document_iff (X : Ext) (d : Document) (p : Payload) (hv : Valid X d) (hs : C32.Simple d) (h : bumpDocument d = .ok p)
    (ht : Datable d) : Conforms p ↔
    d.creationInfo.name ≠ [] ∧ (∃ a ∈ d.creationInfo.creators, a.actorType ≠ .TOOL) ∧
    (∃ r ∈ d.relationships, r.relationshipType = .DESCRIBES ∧ r.spdxElementId = s%"SPDXRef-DOCUMENT") ∧
    (∀ c ∈ checksums d, c.algorithm = .MD6 → c.value ≠ []) ∧
    (∀ p ∈ d.packages, ∀ r ∈ p.externalReferences, r.category = .OTHER → IsIdentifier p r → r.locator ≠ []) :=
  (document_iff d p h ht hv.parts.creationInfo.1 (valid_document_apart _ d hv hs) (C32.simple_apart d hs)).trans (valid_iff X d hv)

/-- the sample document with only a tool as creator -/
def toolOnly : Document :=
  { Example.doc with creationInfo := { Example.info with creators := [{ actorType := .TOOL, name := s%"scan-1.0", email := none }] } }

/-- the sample document without a name -/
def unnamed : Document := { Example.doc with creationInfo := { Example.info with name := [] } }

/-- a document of one package and no relationships -/
def single : Document := { creationInfo := Example.info, packages := [Example.barePackage] }

/-- the sample document with an empty MD6 value for its file -/
def emptyMd6 : Document :=
  { Example.doc with files := [{ Example.file with checksums := [Example.sha, { algorithm := .MD6, value := [] }] }] }

/-- the sample document with an empty locator for one of its packages -/
def emptyLocator : Document :=
  { Example.doc with packages := [Example.package, { Example.barePackage with
      externalReferences := [{ category := .OTHER, referenceType := s%"swh", locator := [] }] }] }

private theorem fails (d : Document) (p : Payload) (h : bumpDocument d = .ok p)
    (ht : ∀ t ∈ BumpDates.docDates d, (datetimeToIso t).isSome = true) (hn : (C32.elementIds d).Nodup)
    (hs : ∀ id ∈ C32.elementIds d, ':' ∉ id ∧ (s%"SPDXRef-Relationship-").isPrefixOf id = false ∧ (s%"SPDXRef-Annotation-").isPrefixOf id = false)
    (hv : validateDocument Example.ext d none = []) (hf : ¬ FullDocument d) :
    ∃ p, Valid Example.ext d ∧ bumpDocument d = .ok p ∧ Datable d ∧ ¬ Conforms p := by
  have hv := ((C47.valid_iff _ _ _).1 hv).1
  have ht : Datable d := fun t hx => Option.isSome_iff_exists.1 (ht t hx)
  have hs : C32.Simple d := by
    refine ⟨hn, fun id hid => ⟨(hs id hid).1, ?_, ?_⟩⟩
    · rw [← List.isPrefixOf_iff_prefix, (hs id hid).2.1]; simp
    · rw [← List.isPrefixOf_iff_prefix, (hs id hid).2.2]; simp
  exact ⟨p, hv, h, ht, fun c => hf ((document_iff d p h ht hv.parts.creationInfo.1 (valid_document_apart _ d hv hs)
    (C32.simple_apart d hs)).1 c)⟩

/-- Not every valid document passes.  It is enough that only a tool is named as creator, -/
theorem tool_only : ∃ p, Valid Example.ext toolOnly ∧ bumpDocument toolOnly = .ok p ∧ Datable toolOnly ∧ ¬ Conforms p :=
  fails toolOnly _ rfl (by decide +kernel) (by decide +kernel) (by decide +kernel) (by decide +kernel)
    fun h => absurd h.creator (by decide)

/-- that the name is empty, -/
theorem no_name : ∃ p, Valid Example.ext unnamed ∧ bumpDocument unnamed = .ok p ∧ Datable unnamed ∧ ¬ Conforms p :=
  fails unnamed _ rfl (by decide +kernel) (by decide +kernel) (by decide +kernel) (by decide +kernel) fun h => h.name rfl

/-- that a document of one package does not say that it describes it, -/
theorem no_root : ∃ p, Valid Example.ext single ∧ bumpDocument single = .ok p ∧ Datable single ∧ ¬ Conforms p :=
  fails single _ rfl (by decide +kernel) (by decide +kernel) (by decide +kernel) (by decide +kernel)
    fun h => absurd h.root (by decide)

/-- that an MD6 value is empty, which is valid, -/
theorem empty_md6 : ∃ p, Valid Example.ext emptyMd6 ∧ bumpDocument emptyMd6 = .ok p ∧ Datable emptyMd6 ∧ ¬ Conforms p :=
  fails emptyMd6 _ rfl (by decide +kernel) (by decide +kernel) (by decide +kernel) (by decide +kernel)
    fun h => absurd h.checksums (by decide +kernel)

/-- or that a locator of a reference of the category OTHER is empty. -/
theorem empty_locator : ∃ p, Valid Example.ext emptyLocator ∧ bumpDocument emptyLocator = .ok p ∧ Datable emptyLocator ∧ ¬ Conforms p :=
  fails emptyLocator _ rfl (by decide +kernel) (by decide +kernel) (by decide +kernel) (by decide +kernel)
    fun h => h.identifiers { Example.barePackage with
      externalReferences := [{ category := .OTHER, referenceType := s%"swh", locator := [] }] } (by simp [emptyLocator]) _
      (List.mem_singleton.2 rfl) (.inl (by decide)) rfl

/-- the sample document passes -/
protected theorem example_passes : ∃ p, Valid Example.ext Example.doc ∧ C32.Simple Example.doc ∧ bumpDocument Example.doc = .ok p ∧ Datable Example.doc ∧
    Conforms p := by
  have hv : Valid Example.ext Example.doc := ((C47.valid_iff _ _ _).1 (by decide +kernel : validateDocument Example.ext Example.doc none = [])).1
  have ht : Datable Example.doc := by
    have : ∀ t ∈ BumpDates.docDates Example.doc, (datetimeToIso t).isSome = true := by decide +kernel
    exact fun t ht => Option.isSome_iff_exists.1 (this t ht)
  refine ⟨_, hv, C32.example_simple, rfl, ht, ?_⟩
  refine (valid_document_iff _ Example.doc _ hv C32.example_simple rfl ht).2 ⟨by decide, by decide, by decide, by decide +kernel, ?_⟩
  have : ∀ p ∈ Example.doc.packages, ∀ r ∈ p.externalReferences, r.category ≠ .OTHER := by decide +kernel
  exact fun p hp r hr hc => absurd hc (this p hp r hr)

end Spdx.C65
