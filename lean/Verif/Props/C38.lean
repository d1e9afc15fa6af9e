import Verif.Lemmas.Rdf
import Verif.Spec.Example
/-
C38 – An identifier qualified with its namespace for RDF and read back gives the same identifier.
-/
namespace Spdx.C38
open Spdx Spec

/-! ### Specification -/

/-- The references of a document under which its external identifiers can be told apart in RDF: no two share their id or their URI, none
    refers to the document itself, and no namespace contains a `#`. -/
structure Separate (ns : Str) (refs : List ExternalDocumentRef) : Prop where
  ids : (refs.map (·.documentRefId)).Nodup
  uris : (refs.map (·.documentUri)).Nodup
  own : ∀ r ∈ refs, r.documentUri ≠ ns
  noHash : '#' ∉ ns ∧ ∀ r ∈ refs, '#' ∉ r.documentUri
  names : ∀ r ∈ refs, DocRef r.documentRefId

/-- The identifiers that can be used in the document: its own, and those in a declared external document. -/
def Usable (refs : List ExternalDocumentRef) (id : Str) : Prop :=
  LocalId id ∨ ∃ r ∈ refs, ∃ loc, LocalId loc ∧ id = r.documentRefId ++ ':' :: loc

/-- A graph just read in which the names of the references are not used as prefixes yet. -/
def Fresh (refs : List ExternalDocumentRef) (b : Bindings) : Prop := ∀ r ∈ refs, ∀ ns, (r.documentRefId, ns) ∉ b

/-! ### Theorems -/

private theorem nsOf_none (b : Bindings) (p : Str) (h : ∀ ns, (p, ns) ∉ b) : b.nsOf p = none := by
  unfold Bindings.nsOf
  rw [List.lookup_eq_none_iff]
  intro e he
  simp only [bne_iff_ne]
  intro hp
  exact h e.2 (by rw [hp]; exact he)

/-- What is written for a usable identifier is read as that identifier, whatever the order in which the reader came across the external
    document references. -/
theorem round_trip (ns id : Str) (refs found : List ExternalDocumentRef) (b : Bindings) (hs : Separate ns refs) (hf : found.Perm refs)
    (hb : Fresh refs b) (hu : Usable refs id) :
    parseRdfId (bindRefs b found) ns (.uri (addNamespace id ns (externalNamespaces refs))) = some (some id) := by
  rcases hu with h | ⟨r, hr, loc, hl, rfl⟩
  · rw [addNamespace_local _ _ _ h]
    exact parseRdfId_local _ _ _ hs.noHash.1
  · rw [addNamespace_external _ _ _ _ _ (hs.names r hr) hl (externalNamespaces_get refs hs.ids r hr)]
    have key := (bindRefs_spec found b ((hf.map _).nodup_iff.2 hs.ids) ((hf.map _).nodup_iff.2 hs.uris)
      (fun x hx => nsOf_none _ _ (hb x (hf.mem_iff.1 hx)))).1 r (hf.mem_iff.2 hr)
    exact parseRdfId_external _ _ _ _ _ hs.noHash.1 (hs.noHash.2 r hr) (hs.own r hr) hl key

/-- So two identifiers never share the reference they are written as. -/
theorem injective (ns id id' : Str) (refs : List ExternalDocumentRef) (hs : Separate ns refs) (hu : Usable refs id) (hu' : Usable refs id')
    (h : addNamespace id ns (externalNamespaces refs) = addNamespace id' ns (externalNamespaces refs)) : id = id' := by
  have h1 := round_trip ns id refs refs [] hs (List.Perm.refl _) (by simp [Fresh]) hu
  have h2 := round_trip ns id' refs refs [] hs (List.Perm.refl _) (by simp [Fresh]) hu'
  rw [h] at h1
  simpa using h1.symm.trans h2

/-- The identifiers are written as the RDF standard has it: namespace, `#`, local name. -/
theorem written (ns id : Str) (refs : List ExternalDocumentRef) (hs : Separate ns refs) :
    (LocalId id → addNamespace id ns (externalNamespaces refs) = ns ++ s%"#" ++ id) ∧
    (∀ r ∈ refs, ∀ loc, LocalId loc → id = r.documentRefId ++ ':' :: loc →
      addNamespace id ns (externalNamespaces refs) = r.documentUri ++ s%"#" ++ loc) := by
  refine ⟨addNamespace_local _ _ _, ?_⟩
  rintro r hr loc hl rfl
  exact addNamespace_external _ _ _ _ _ (hs.names r hr) hl (externalNamespaces_get refs hs.ids r hr)

/-! ### Where it fails -/

private def twin (id : Str) : ExternalDocumentRef := ⟨id, s%"https://e.org/x", Example.sha⟩

/-- Two references to the same external document: an identifier under the first one comes back under the other one. -/
theorem shared_uri_changes_reference :
    parseRdfId (bindRefs [] [twin s%"DocumentRef-a", twin s%"DocumentRef-b"]) s%"https://e.org/d"
      (.uri (addNamespace s%"DocumentRef-a:SPDXRef-F" s%"https://e.org/d" (externalNamespaces [twin s%"DocumentRef-a", twin s%"DocumentRef-b"])))
    = some (some s%"DocumentRef-b:SPDXRef-F") := by decide +kernel

/-- A final newline, which the identifier check lets through, breaks the reading of an external identifier. -/
theorem newline_not_read :
    isValidInternalSpdxId s%"SPDXRef-F\n" = true ∧
    parseRdfId (bindRefs [] [twin s%"DocumentRef-a"]) s%"https://e.org/d"
      (.uri (addNamespace s%"DocumentRef-a:SPDXRef-F\n" s%"https://e.org/d" (externalNamespaces [twin s%"DocumentRef-a"])))
    = some (some s%"<https://e.org/x#SPDXRef-F\n>") := by decide +kernel

/-- A reference to the document's own namespace loses the name of the reference. -/
theorem own_namespace_loses_reference :
    parseRdfId (bindRefs [] [twin s%"DocumentRef-a"]) s%"https://e.org/x"
      (.uri (addNamespace s%"DocumentRef-a:SPDXRef-F" s%"https://e.org/x" (externalNamespaces [twin s%"DocumentRef-a"])))
    = some (some s%"SPDXRef-F") := by decide +kernel

/-! Non-vacuity -/
private def two : List ExternalDocumentRef := [twin s%"DocumentRef-a", { twin s%"DocumentRef-b" with documentUri := s%"https://e.org/y" }]
private def xml : Bindings := [(s%"rdf", s%"http://www.w3.org/1999/02/22-rdf-syntax-ns#"), (s%"spdx", s%"http://spdx.org/rdf/terms#")]
private theorem idChar (c : Char) (h : isIdChar c = true) : IdChar c := (isIdChar_iff c).1 h
private theorem docRef (t : Str) (h : t ≠ []) (ha : ∀ c ∈ t, isIdChar c = true) : DocRef (s%"DocumentRef-" ++ t) :=
  ⟨t, h, rfl, fun c hc => .inl (idChar c (ha c hc))⟩
private theorem localId (t : Str) (h : t ≠ []) (ha : ∀ c ∈ t, isIdChar c = true) : LocalId (s%"SPDXRef-" ++ t) :=
  ⟨t, h, rfl, fun c hc => idChar c (ha c hc)⟩
example : Separate s%"https://e.org/d" two ∧ Fresh two xml ∧ Usable two s%"DocumentRef-b:SPDXRef-1.a" ∧ Usable two s%"SPDXRef-9" := by
  refine ⟨⟨by decide, by decide, by decide, by decide, ?_⟩, ?_, ?_, .inl (localId s%"9" (by decide) (by decide +kernel))⟩
  · intro r hr
    simp only [two, List.mem_cons, List.not_mem_nil, or_false] at hr
    rcases hr with rfl | rfl
    · exact docRef s%"a" (by decide) (by decide +kernel)
    · exact docRef s%"b" (by decide) (by decide +kernel)
  · intro r hr ns h
    simp only [two, List.mem_cons, List.not_mem_nil, or_false] at hr
    rcases hr with rfl | rfl <;> simp [xml, twin] at h
  · exact .inr ⟨{ twin s%"DocumentRef-b" with documentUri := s%"https://e.org/y" }, by simp [two], s%"SPDXRef-1.a",
      localId s%"1.a" (by decide) (by decide +kernel), by decide⟩

end Spdx.C38
