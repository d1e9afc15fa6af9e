import Verif.Lemmas.Bump
import Verif.Spec.LdPlain
/- Documents without what gets lost become elements without it. -/
namespace Spdx.BumpPlain
open Spdx Spec.Vocab

/-- every element is plain -/
def Good (p : Payload) : Prop := ∀ q ∈ p, Plain q.2

private theorem mem_set (p : Payload) (k : Str) (e : Element3) (q : Str × Element3) (h : q ∈ p.set k e) : q ∈ p ∨ q.2 = e := by
  induction p with
  | nil =>
    simp only [Dict.set, List.mem_singleton] at h
    exact .inr (by rw [h])
  | cons x p ih =>
    obtain ⟨a, b⟩ := x
    rw [Dict.set] at h
    split at h
    · rcases List.mem_cons.1 h with rfl | h
      · exact .inr rfl
      · exact .inl (List.mem_cons_of_mem _ h)
    · rcases List.mem_cons.1 h with rfl | h
      · exact .inl (List.mem_cons_self ..)
      · rcases ih h with h | h
        · exact .inl (List.mem_cons_of_mem _ h)
        · exact .inr h

private theorem good_set {p : Payload} {k : Str} {e : Element3} (hp : Good p) (he : Plain e) : Good (p.set k e) := by
  intro q hq
  rcases mem_set p _ e q hq with h | h
  · exact hp q h
  · exact h ▸ he

private theorem good_actor {p : Payload} {ns : Str} {ci : Option CreationInfo3} {a : Actor} (hp : Good p)
    (hc : ∀ c ∈ ci, c.createdUsing = []) : Good (bumpActor ns ci a p) := by
  unfold bumpActor
  split
  · exact hp
  · refine good_set hp ⟨?_, ?_⟩
    · intro c h s hs
      rw [hc c h] at hs
      cases hs
    · intro i hi
      simp only [bumpedActor] at hi
      split at hi
      · split at hi
        · cases hi
        · rw [List.mem_singleton] at hi; subst hi; intro e; cases e
      · cases hi

private theorem good_actorOpt {p : Payload} {ns : Str} {a : Option (OrNoAssertion Actor)} (hp : Good p) : Good (bumpActorOpt ns a p) := by
  unfold bumpActorOpt
  split
  · exact good_actor hp (by simp)
  · exact hp

theorem algorithm_plain (a : ChecksumAlgorithm) (h : a ∉ [ChecksumAlgorithm.SHA3_256, .SHA3_384, .SHA3_512, .BLAKE2B_256, .BLAKE2B_384, .BLAKE2B_512]) :
    ∀ b, bumpAlgorithm a = some b → b ∉ unknownAlgorithms := by
  cases a <;> first | (intro b hb; revert hb; decide +revert +kernel) | (exact absurd (by decide) h)

private theorem hash_plain (c : Checksum)
    (h : c.algorithm ∉ [ChecksumAlgorithm.SHA3_256, .SHA3_384, .SHA3_512, .BLAKE2B_256, .BLAKE2B_384, .BLAKE2B_512]) :
    ∀ x ∈ bumpChecksum c, x.algorithm ∉ unknownAlgorithms := by
  intro x hx
  simp only [bumpChecksum, Option.mem_toList, Option.map_eq_some_iff] at hx
  obtain ⟨a, ha, rfl⟩ := hx
  exact algorithm_plain _ h a ha

private theorem mapping_plain : ∀ m ∈ relationshipMapping,
    m.1 ∈ [RelationshipType.BUILD_DEPENDENCY_OF, .BUILD_TOOL_OF, .PROVIDED_DEPENDENCY_OF] ∨ ∀ x ∈ m.2, x.scope ≠ some .BUILD := by decide +kernel

private theorem get?_mem {κ ν : Type} [DecidableEq κ] (d : Dict κ ν) (k : κ) (v : ν) (h : d.get? k = some v) : (k, v) ∈ d := by
  induction d with
  | nil => cases h
  | cons p d ih =>
    obtain ⟨a, b⟩ := p
    rw [Dict.get?] at h
    split at h
    · next e => cases h; exact e ▸ List.mem_cons_self ..
    · exact List.mem_cons_of_mem _ (ih h)

private theorem relationship_plain {ns : Str} {n : Nat} {r : Relationship} {x : Relationship3} (h : bumpRelationship ns n r = some x)
    (hs : r.relationshipType ∉ [RelationshipType.BUILD_DEPENDENCY_OF, .BUILD_TOOL_OF, .PROVIDED_DEPENDENCY_OF])
    (hc : r.relatedSpdxElementId ≠ .noAssertion) : Plain (.relationship x) := by
  have h1 : (completenessAndTo r.relatedSpdxElementId).1 ≠ some .NOASSERTION := by
    cases e : r.relatedSpdxElementId with
    | noAssertion => exact absurd e hc
    | none => simp [completenessAndTo]
    | val id => simp [completenessAndTo]
  unfold bumpRelationship at h
  dsimp only at h
  split at h
  · cases h
  · cases h
  · next m hm =>
    have h2 : m.scope ≠ some .BUILD := (mapping_plain _ (get?_mem _ _ _ hm)).resolve_left hs m rfl
    have h3 : ∀ s ∈ (if m.software then some (m.scope, m.linkage, m.conditionality) else none), s.1 ≠ some .BUILD := by
      intro s hs
      split at hs
      · cases hs; exact h2
      · cases hs
    split at h
    · split at h
      · cases h
      · split at h <;> cases h <;> refine ⟨h1, ?_⟩ <;> intro s hs <;> cases hs <;> exact h2
    · cases h; exact ⟨h1, h3⟩

private theorem merged_plain (last : Relationship3) (plain : List Relationship3) (hl : Plain (.relationship last))
    (hp : ∀ r ∈ plain, Plain (.relationship r)) : Plain (.relationship (mergedRelationship last plain)) := by
  refine ⟨?_, hl.2⟩
  show mergedCompleteness plain ≠ _
  unfold mergedCompleteness
  intro h
  obtain ⟨r, hr, h⟩ := List.exists_of_findSome?_eq_some h
  exact (hp r hr).1 h

private theorem good_group {p : Payload} (g : List Relationship3) (hp : Good p) (hg : ∀ r ∈ g, Plain (.relationship r)) : Good (addGroup p g) := by
  unfold addGroup
  split
  · exact hp
  · next r => exact good_set hp (hg r (List.mem_cons_self ..))
  · next r r' rs =>
    unfold mergeInto
    have hlast : Plain (.relationship ((r' :: rs).getLast (by simp))) := hg _ (List.mem_cons_of_mem _ (List.getLast_mem _))
    have hm := merged_plain _ ((r :: r' :: rs).filter fun r => !r.hasComment) hlast (fun x hx => hg x (List.mem_filter.1 hx).1)
    dsimp only
    split
    · exact foldl_inv _ Good _ _ (fun x hx p hp => good_set hp (hg x (List.mem_filter.1 hx).1)) hp
    · refine good_set (foldl_inv _ Good _ _ (fun x hx p hp => good_set hp ?_) hp) hm
      split
      · exact hm
      · exact hg x (List.mem_filter.1 hx).1

private theorem ite_cases {α : Type} {c : Prop} [Decidable c] {a b x : α} (h : (if c then a else b) = x) : (c ∧ a = x) ∨ (¬ c ∧ b = x) := by
  by_cases hc : c
  · rw [if_pos hc] at h; exact .inl ⟨hc, h⟩
  · rw [if_neg hc] at h; exact .inr ⟨hc, h⟩

private theorem refs_plain (x : Package) (h : purls x = [] ∨ ∃ r, purls x = [r] ∧ r.comment = none) :
    ∀ i ∈ (bumpExternalRefs x.externalReferences).2.1, i.type ≠ .PURL := by
  intro i hi
  have hb : ∀ r i, bumpExternalRef r = some (.inl i) → r.referenceType ≠ s%"purl" → i.type ≠ .PURL := by
    intro r i h hn
    have : ∀ t, externalRefTypeMap r.referenceType = some (some (.inl t)) → t ≠ .PURL := by
      intro t ht
      unfold externalRefTypeMap at ht
      iterate 13 (rcases ite_cases ht with ⟨h0, e⟩ | ⟨_, ht⟩; · first | exact absurd h0 hn | (cases e; done) | (cases e; intro e; cases e))
      cases ht
    unfold bumpExternalRef at h
    split at h
    · cases h
    · cases h
    · cases h
    · next t ht => cases h; exact this t ht
  simp only [bumpExternalRefs, otherRefs, List.mem_filterMap, List.mem_filter, decide_eq_true_eq] at hi
  obtain ⟨y, ⟨r, ⟨hr, hn⟩, h1⟩, h2⟩ := hi
  split at h2
  · next j =>
    cases h2
    refine hb r i h1 ?_
    intro he
    have hm : r ∈ purls x := by simp [purls, hr, he]
    rcases h with h | ⟨r', h, hc⟩
    · rw [h] at hm; cases hm
    · have e : purlRefs x.externalReferences = [r'] := h
      refine hn ⟨?_, he⟩
      unfold onePurl
      rw [e]
      dsimp only
      rw [if_pos hc]
      rfl
  · cases h2

private theorem import_plain (id : Str) : ∀ m ∈ importOf id, m.verifiedUsing = [] := by
  intro m hm
  unfold importOf at hm
  split at hm
  · rw [List.mem_singleton] at hm; subst hm; rfl
  · cases hm

/-- the imports added later carry no hashes -/
private def Imports (s : BumpState) : Prop := Good s.payload ∧ ∀ m ∈ s.imports, m.verifiedUsing = []

theorem migrated (d : Document) (p : Payload) (h : bumpDocument d = .ok p) (hd : PlainDocument d) : Good p := by
  obtain ⟨s1, s2, s3, h1, h2, h3, rfl⟩ := bumpDocument_ok h
  have hu : (bumpedInfo d.creationInfo).createdUsing = [] := by
    simp only [bumpedInfo, List.map_eq_nil_iff, List.filter_eq_nil_iff, decide_eq_true_eq]
    exact hd.creators
  have hck : ∀ c ∈ checksums d, ∀ x ∈ bumpChecksum c, x.algorithm ∉ unknownAlgorithms := fun c hc => hash_plain c (hd.checksums c hc)
  have himp : ∀ m ∈ (bumpedDocument d).imports, ∀ h ∈ m.verifiedUsing, h.algorithm ∉ unknownAlgorithms := by
    intro m hm
    simp only [bumpedDocument, List.mem_map] at hm
    obtain ⟨r, hr, rfl⟩ := hm
    refine hck r.checksum ?_
    simp only [checksums, List.mem_append, List.mem_map]
    exact .inl (.inl ⟨r, hr, rfl⟩)
  have g0 : Good ((bumpCreators d.creationInfo []).add (.document (bumpedDocument d))) := by
    refine good_set ?_ ⟨?_, himp⟩
    · unfold bumpCreators
      exact foldl_inv _ Good _ _ (fun a _ p hp => good_actor hp (by
        intro c hc
        cases hc
        exact hu)) (by intro q hq; cases hq)
    · intro s hs
      have : (bumpedDocument d).creationInfo.createdUsing = [] := hu
      rw [this] at hs
      cases hs
  have addImports : ∀ {s t : BumpState} {id : Str}, Imports s → Good t.payload → t.imports = s.imports ++ importOf id → Imports t := by
    intro s t id hs ht e
    refine ⟨ht, ?_⟩
    rw [e]
    intro m hm
    rcases List.mem_append.1 hm with hm | hm
    · exact hs.2 m hm
    · exact import_plain id m hm
  have g1 : Imports s1 := by
    refine foldlM_inv _ Imports _ _ _ h1 ?_ ⟨g0, by intro m hm; cases hm⟩
    intro x hx s s' hs hp
    obtain ⟨id, q, _, hq, _, ep, ei⟩ := bumpPackage_ok hs
    refine addImports hp ?_ ei
    rw [ep]
    refine good_set (good_actorOpt (good_actorOpt hp.1)) ?_
    have hv : ∀ h ∈ x.checksums.flatMap bumpChecksum, h.algorithm ∉ unknownAlgorithms := by
      intro h hh
      obtain ⟨c, hc, hh⟩ := List.mem_flatMap.1 hh
      refine hck c ?_ h hh
      simp only [checksums, List.mem_append, List.mem_flatMap]
      exact .inl (.inr ⟨x, hx, hc⟩)
    have hpl : Plain (.package q) := by
      unfold bumpedPackage at hq
      rcases hd.homepage x hx with hh | hh <;> rw [hh] at hq <;> cases hq
      · exact ⟨hv, refs_plain x (hd.purls x hx), hd.purpose x hx, .inl rfl⟩
      · exact ⟨hv, refs_plain x (hd.purls x hx), hd.purpose x hx, .inr rfl⟩
    exact hpl
  have g2 : Imports s2 := by
    refine foldlM_inv _ Imports _ _ _ h2 ?_ g1
    intro x hx s s' hs hp
    obtain ⟨id, _, ep, ei⟩ := bumpFile_ok hs
    refine addImports hp ?_ ei
    rw [ep]
    refine good_set hp.1 ?_
    intro h hh
    obtain ⟨c, hc, hh⟩ := List.mem_flatMap.1 hh
    refine hck c ?_ h hh
    simp only [checksums, List.mem_append, List.mem_flatMap]
    exact .inr ⟨x, hx, hc⟩
  have g3 : Imports s3 := by
    refine foldlM_inv _ Imports _ _ _ h3 ?_ g2
    intro x hx s s' hs hp
    obtain ⟨id, _, ep, ei⟩ := bumpSnippet_ok hs
    refine addImports hp ?_ ei
    rw [ep]
    exact good_set hp.1 trivial
  have g4 : Good (bumpLinks d s3.payload) := by
    unfold bumpLinks bumpRelationships
    refine foldl_inv _ Good _ _ ?_ (foldl_inv _ Good _ _ (fun g hg p hp => good_group g.2 hp ?_) g3.1)
    · rintro ⟨a, n⟩ hx p hp
      have ha : (annotationInfo d.creationInfo.documentNamespace (bumpedInfo d.creationInfo) a).createdUsing = [] := hu
      unfold bumpAnnotation
      refine good_set (good_actor hp ?_) ?_
      · intro c hc
        cases hc
        exact ha
      · intro s hs
        dsimp only at hs
        rw [ha] at hs
        cases hs
    · intro r hr
      obtain ⟨k, g⟩ := g
      have hg := (Dict.mem_groupBy ..).1 hg
      dsimp only at hr
      rw [hg.2] at hr
      obtain ⟨i, x, hx, hb⟩ := mem_bumped.1 (List.mem_filter.1 hr).1
      have hx := List.mem_of_getElem? hx
      exact relationship_plain hb (hd.scope x hx) (hd.completeness x hx)
  intro q hq
  unfold finishDocument at hq
  obtain ⟨⟨k, e⟩, he, rfl⟩ := List.mem_map.1 hq
  have := g4 _ he
  cases e with
  | document x =>
    refine ⟨this.1, ?_⟩
    intro m hm
    rcases List.mem_append.1 hm with hm | hm
    · exact this.2 m hm
    · intro h hh
      rw [g3.2 m hm] at hh
      cases hh
  | _ => exact this

end Spdx.BumpPlain
