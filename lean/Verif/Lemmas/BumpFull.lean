import Verif.Props.C31
import Verif.Props.C32
import Verif.Lemmas.BumpOrigin
import Verif.Spec.LdComplete
/- Which documents become elements that have all the vocabulary wants. -/
namespace Spdx.BumpFull
open Spdx Spec.Vocab BumpOrigin

private theorem ite_cases {α : Type} {c : Prop} [Decidable c] {a b x : α} (h : (if c then a else b) = x) : (c ∧ a = x) ∨ (¬ c ∧ b = x) := by
  by_cases hc : c
  · rw [if_pos hc] at h; exact .inl ⟨hc, h⟩
  · rw [if_neg hc] at h; exact .inr ⟨hc, h⟩

private theorem type_iff (t : Str) : (∃ x, externalRefTypeMap t = some (some (.inl x))) ↔
    t ∈ [s%"cpe22Type", s%"cpe23Type", s%"swid", s%"swh", s%"gitoid"] ∨ t = s%"purl" := by
  constructor
  · rintro ⟨x, h⟩
    unfold externalRefTypeMap at h
    iterate 13 (rcases ite_cases h with ⟨rfl, e⟩ | ⟨_, h⟩; · first | (cases e; done) | (left; decide) | (right; rfl))
    cases h
  · intro h
    simp only [List.mem_cons, List.not_mem_nil, or_false] at h
    rcases h with (rfl | rfl | rfl | rfl | rfl) | rfl <;> exact ⟨_, rfl⟩

private theorem bumped_iff (r : ExternalPackageRef) (i : ExternalIdentifier3) :
    bumpExternalRef r = some (.inl i) → i.identifier = r.locator ∧
      (r.referenceType ∈ [s%"cpe22Type", s%"cpe23Type", s%"swid", s%"swh", s%"gitoid"] ∨ r.referenceType = s%"purl") := by
  intro h
  rw [← type_iff]
  unfold bumpExternalRef at h
  split at h
  · cases h
  · cases h
  · cases h
  · next t ht => cases h; exact ⟨rfl, t, ht⟩

private theorem onePurl_iff (x : Package) (r : ExternalPackageRef) (hr : r ∈ x.externalReferences) (hp : r.referenceType = s%"purl") :
    (onePurl x.externalReferences).isSome = true ↔ purls x = [r] ∧ r.comment = none := by
  have hm : r ∈ purlRefs x.externalReferences := by simp [purlRefs, hr, hp]
  unfold onePurl
  show _ ↔ purlRefs x.externalReferences = [r] ∧ _
  split
  · next r' e =>
    rw [e] at hm
    have hm := List.mem_singleton.1 hm
    subst hm
    rw [e]
    by_cases hc : r.comment = none <;> simp [hc]
  · next hne =>
    constructor
    · intro h; cases h
    · rintro ⟨e, _⟩
      exact absurd e (hne r)

theorem identifiers_iff (x : Package) : (∀ i ∈ (bumpExternalRefs x.externalReferences).2.1, i.identifier ≠ []) ↔
    ∀ r ∈ x.externalReferences, IsIdentifier x r → r.locator ≠ [] := by
  constructor
  · intro h r hr hi
    have ht : r.referenceType ∈ [s%"cpe22Type", s%"cpe23Type", s%"swid", s%"swh", s%"gitoid"] ∨ r.referenceType = s%"purl" :=
      hi.imp id And.left
    obtain ⟨t, ht⟩ := (type_iff _).2 ht
    refine h { type := t, identifier := r.locator, comment := r.comment } ?_
    simp only [bumpExternalRefs, otherRefs, List.mem_filterMap, List.mem_filter, decide_eq_true_eq]
    refine ⟨.inl { type := t, identifier := r.locator, comment := r.comment }, ⟨r, ⟨hr, ?_⟩, ?_⟩, rfl⟩
    · rintro ⟨h1, h2⟩
      rcases hi with hi | ⟨_, hi⟩
      · rw [h2] at hi
        revert hi
        decide
      · exact hi ((onePurl_iff x r hr h2).1 h1)
    · unfold bumpExternalRef
      rw [ht]
  · intro h i hi
    simp only [bumpExternalRefs, otherRefs, List.mem_filterMap, List.mem_filter, decide_eq_true_eq] at hi
    obtain ⟨y, ⟨r, ⟨hr, hn⟩, h1⟩, h2⟩ := hi
    split at h2
    · cases h2
      obtain ⟨e, ht⟩ := bumped_iff r i h1
      rw [e]
      refine h r hr ?_
      rcases ht with ht | ht
      · exact .inl ht
      · exact .inr ⟨ht, fun hh => hn ⟨(onePurl_iff x r hr ht).2 hh, ht⟩⟩
    · cases h2

private theorem hash_values (c : Checksum) : (∀ h ∈ bumpChecksum c, h.hashValue ≠ []) ↔ c.value ≠ [] := by
  have : (bumpChecksum c).map (·.hashValue) = [c.value] := by obtain ⟨a, v⟩ := c; cases a <;> rfl
  constructor
  · intro h
    have hm : c.value ∈ (bumpChecksum c).map (·.hashValue) := by rw [this]; exact List.mem_singleton.2 rfl
    obtain ⟨x, hx, e⟩ := List.mem_map.1 hm
    exact e ▸ h x hx
  · intro h x hx
    have hm : x.hashValue ∈ (bumpChecksum c).map (·.hashValue) := List.mem_map.2 ⟨x, hx, rfl⟩
    rw [this, List.mem_singleton] at hm
    rw [hm]
    exact h

private theorem hashes_values (l : List Checksum) : (∀ h ∈ l.flatMap bumpChecksum, h.hashValue ≠ []) ↔ ∀ c ∈ l, c.value ≠ [] := by
  simp only [List.mem_flatMap]
  exact ⟨fun h c hc => (hash_values c).1 fun x hx => h x ⟨c, hc, hx⟩, fun h x ⟨c, hc, hx⟩ => (hash_values c).2 (h c hc) x hx⟩

private theorem mem_of_get {p : Payload} {k : Str} {e : Element3} (h : p.get? k = some e) : (k, e) ∈ p := by
  induction p with
  | nil => cases h
  | cons y l ih =>
    obtain ⟨a, b⟩ := y
    rw [Dict.get?] at h
    split at h
    · next e => cases h; exact e ▸ List.mem_cons_self ..
    · exact List.mem_cons_of_mem _ (ih h)

private theorem get_of_mem {p : Payload} (hn : p.keys.Nodup) {k : Str} {e : Element3} (h : (k, e) ∈ p) : p.get? k = some e := by
  induction p with
  | nil => cases h
  | cons y l ih =>
    obtain ⟨a, b⟩ := y
    have hn : (a :: Dict.keys l).Nodup := hn
    rw [List.nodup_cons] at hn
    rw [Dict.get?]
    rcases List.mem_cons.1 h with h | h
    · cases h; exact if_pos rfl
    · rw [if_neg (fun e => hn.1 (by rw [e]; exact List.mem_map.2 ⟨_, h, rfl⟩))]
      exact ih hn.2 h

private theorem actorId_ne (ns : Str) (a : Actor) : actorId ns a ≠ [] := by
  unfold actorId
  simp

private theorem from_ne {d : Document} {x : Relationship3} (hx : Migrated d x) : x.fromElement ≠ [] := by
  obtain ⟨n, r, _, h⟩ := hx
  unfold bumpRelationship at h
  dsimp only at h
  split at h
  · cases h
  · cases h
  · split at h
    · split at h
      · cases h
      · split at h <;> cases h <;> simp
    · cases h; simp

theorem migrated_iff (d : Document) (p : Payload) (h : bumpDocument d = .ok p) (hi : d.creationInfo.spdxId = s%"SPDXRef-DOCUMENT")
    (hd : C31.DocumentApart d) (ha : C32.Apart d) : (∀ q ∈ p, Full q.2) ↔ FullDocument d := by
  constructor
  · intro hf
    obtain ⟨sd, hs, _⟩ := C31.document_present d p h hd
    have hfd := hf _ (mem_of_get hs)
    obtain ⟨_, im, rfl⟩ := C31.document_only_at h hs
    obtain ⟨f1, f2, f3, f4, f5, f6⟩ := hfd
    refine ⟨f2, ?_, ?_, ?_, ?_, ?_, ?_⟩
    · obtain ⟨s, h1, _⟩ := f1
      obtain ⟨a, h1, _⟩ := List.mem_map.1 h1
      obtain ⟨h1, h2⟩ := List.mem_filter.1 h1
      exact ⟨a, h1, by simpa using h2⟩
    · obtain ⟨s, h1, _⟩ := f4
      obtain ⟨r, h1, _⟩ := List.mem_map.1 h1
      obtain ⟨h1, h2⟩ := List.mem_filter.1 h1
      exact ⟨r, h1, by simpa using h2⟩
    · intro r hr
      exact (f5 _ (List.mem_map.2 ⟨r, hr, rfl⟩)).1
    · intro c hc
      simp only [checksums, List.mem_append, List.mem_map, List.mem_flatMap] at hc
      rcases hc with (⟨r, hr, rfl⟩ | ⟨x, hx, hc⟩) | ⟨x, hx, hc⟩
      · refine (hash_values _).1 (f6 _ (List.mem_append_left _ (List.mem_map.2 ⟨r, hr, rfl⟩))).2
      · obtain ⟨id, q, _, hq, _, hb⟩ := C32.package_at d p h ha x hx
        have := (hf _ (mem_of_get hq)).1
        simp only [bumpedPackage] at hb
        split at hb <;> cases hb <;> exact (hashes_values _).1 this c hc
      · obtain ⟨id, q, _, hq, _, _, _, _, _, hb⟩ := C32.file_in_payload d p h ha x hx
        have hm : c.value ∈ x.checksums.map (·.value) := List.mem_map.2 ⟨c, hc, rfl⟩
        rw [← hb] at hm
        obtain ⟨y, hy, e⟩ := List.mem_map.1 hm
        exact e ▸ hf _ (mem_of_get hq) y hy
    · intro x hx
      obtain ⟨id, q, _, hq, _, hb⟩ := C32.package_at d p h ha x hx
      have := (hf _ (mem_of_get hq)).2
      simp only [bumpedPackage] at hb
      split at hb <;> cases hb <;> exact (identifiers_iff x).1 this
    · intro x hx
      obtain ⟨id, q, _, hq, _, _, _, h1, h2, _⟩ := C32.snippet_in_payload d p h ha x hx
      have := hf _ (mem_of_get hq)
      rw [← h1, ← h2]
      exact ⟨this.1.1, this.1.2, fun r hr => this.2 r hr⟩
  · intro hf q hq
    have hby : Some1 (bumpedInfo d.creationInfo).createdBy := by
      obtain ⟨a, h1, h2⟩ := hf.creator
      exact ⟨_, List.mem_map.2 ⟨a, List.mem_filter.2 ⟨h1, by simpa using h2⟩, rfl⟩, actorId_ne _ _⟩
    have hby' : ∀ a : Annotation, Some1 (annotationInfo d.creationInfo.documentNamespace (bumpedInfo d.creationInfo) a).createdBy := by
      intro a
      show Some1 (if _ then _ else _)
      split
      · exact hby
      · exact ⟨_, List.mem_singleton.2 rfl, actorId_ne _ _⟩
    have hact : ∀ ci (a : Actor), (∀ c ∈ ci, Some1 c.createdBy) → Full (.agent (bumpedActor d.creationInfo.documentNamespace ci a)) := by
      intro ci a hc
      refine ⟨hc, ?_⟩
      intro i hi
      simp only [bumpedActor] at hi
      split at hi
      · split at hi
        · cases hi
        · next hne => rw [List.mem_singleton] at hi; subst hi; exact hne
      · cases hi
    have hck : ∀ c ∈ checksums d, c.value ≠ [] := hf.checksums
    simp only [checksums, List.mem_append, List.mem_map, List.mem_flatMap] at hck
    have hor := migrated d p h q hq
    obtain ⟨k, e⟩ := q
    dsimp only at hor ⊢
    cases hor with
    | creator a h => exact hact _ a (by intro c hc; cases hc; exact hby)
    | actor a => exact hact _ a (by intro c hc; cases hc)
    | annotator a h => exact hact _ a.annotator (by intro c hc; cases hc; exact hby' a)
    | package x hx id q hb =>
      have h1 := (hashes_values x.checksums).2 fun c hc => hck c (.inl (.inr ⟨x, hx, hc⟩))
      have h2 := (identifiers_iff x).2 (hf.identifiers x hx)
      simp only [bumpedPackage] at hb
      split at hb <;> cases hb <;> exact ⟨h1, h2⟩
    | file x hx id => exact (hashes_values x.checksums).2 fun c hc => hck c (.inr ⟨x, hx, hc⟩)
    | snippet x hx id =>
      obtain ⟨h1, h2, h3⟩ := hf.ranges x hx
      exact ⟨⟨h1, h2⟩, h3⟩
    | relationship x hx => exact from_ne hx
    | merged x l hx hl => show x.fromElement ≠ []; exact from_ne hx
    | annotation a h q h1 h2 => exact ⟨h1 ▸ hby' a, by rw [h2]; simp⟩
    | document im el him =>
      have hg := get_of_mem (bumpDocument_nodup h) hq
      obtain ⟨_, im', he⟩ := C31.document_only_at h hg
      have hel : el = p.keys.filter (· ≠ C31.documentId d) := congrArg SpdxDocument3.element he
      subst hel
      refine ⟨hby, hf.name, ?_, ?_, ?_, ?_⟩
      · obtain ⟨a, h1, h2⟩ := hf.creator
        refine ⟨_, List.mem_filter.2 ⟨creator_key d p h a h1, ?_⟩, actorId_ne _ _⟩
        rw [decide_eq_true_eq]
        unfold actorId C31.documentId
        rw [hi]
        intro e
        simp only [List.append_assoc] at e
        have := List.append_cancel_left e
        simp at this
      · obtain ⟨r, h1, h2⟩ := hf.root
        refine ⟨_, List.mem_map.2 ⟨r, List.mem_filter.2 ⟨h1, by simpa using h2⟩, rfl⟩, by simp⟩
      · intro m hm
        obtain ⟨r, hr, rfl⟩ := List.mem_map.1 hm
        exact ⟨hf.references r hr, by simp [bumpExternalDocumentRef]⟩
      · intro m hm
        rcases List.mem_append.1 hm with hm | hm
        · obtain ⟨r, hr, rfl⟩ := List.mem_map.1 hm
          exact ⟨by simp [bumpExternalDocumentRef], (hash_values _).2 (hck _ (.inl (.inl ⟨r, hr, rfl⟩)))⟩
        · obtain ⟨id, hm⟩ := him m hm
          unfold importOf at hm
          split at hm
          · next hc =>
            rw [List.mem_singleton] at hm
            subst hm
            exact ⟨List.ne_nil_of_mem hc, fun h hh => by cases hh⟩
          · cases hm

end Spdx.BumpFull
