import Verif.Lemmas.Bump
import Verif.Props.C35
import Verif.Spec.Example
/-
C31 – After converting to SPDX 3 the document element lists the identifiers of all other elements, each once, and every listed identifier is
in the payload.

The payload is a dict; `element_list` proves the statement with the keys of that dict as the identifiers of the elements. That the key of an
element is the element's own identifier holds under a condition on relationship comments (`keys_are_ids_partial`) and is false without it
(`listed_id_of_no_element`).
-/
namespace Spdx.C31
open Spdx

/-! ### Specification -/

/-- The identifier of the migrated document. -/
def documentId (d : Document) : Str := d.creationInfo.documentNamespace ++ s%"#" ++ d.creationInfo.spdxId

/-- Nothing else gets the document's identifier: no element has it, and it does not look like the generated identifiers. -/
def DocumentApart (d : Document) : Prop :=
  (∀ id ∈ d.packages.map (·.spdxId) ++ d.files.map (·.spdxId) ++ d.snippets.map (·.spdxId),
    getFullElementId id d.creationInfo.documentNamespace d.creationInfo.externalDocumentRefs ≠ .ok (documentId d)) ∧
  ¬ s%"SPDXRef-Relationship-" <+: d.creationInfo.spdxId ∧ ¬ s%"SPDXRef-Annotation-" <+: d.creationInfo.spdxId

/-- A relationship saying that the document describes something. -/
def Describes (r : Relationship) : Prop := r.spdxElementId = s%"SPDXRef-DOCUMENT" ∧ r.relationshipType = .DESCRIBES

/-- The identifier of a migrated creator: its name without white space, and its e-mail address if it has one. -/
def creatorId (d : Document) (a : Actor) : Str :=
  d.creationInfo.documentNamespace ++ s%"#SPDXRef-Actor-" ++ a.name.filter (fun c => !isPySpace c) ++
    (match a.email with
     | none | some [] => []
     | some e => s%"-" ++ e)

/-- No relationship has a comment. -/
def NoComments (d : Document) : Prop := ∀ r ∈ d.relationships, r.comment = none ∨ r.comment = some []

/-! ### Theorems -/

protected theorem document_only_at {d : Document} {p : Payload} (h : bumpDocument d = .ok p) {k : Str} {sd : SpdxDocument3}
    (hk : p.get? k = some (.document sd)) : k = documentId d ∧ ∃ im, sd =
      { bumpedDocument d with imports := (bumpedDocument d).imports ++ im, element := p.keys.filter (· ≠ documentId d) } := by
  have hkeys : ∀ (docId : Str) (im : List ExternalMap3) (p : Payload), (finishDocument docId im p).keys = p.keys := finishDocument_keys
  obtain ⟨s1, s2, s3, h1, h2, h3, rfl⟩ := bumpDocument_ok h
  rw [finishDocument_get, Option.map_eq_some_iff] at hk
  obtain ⟨e, he, hd⟩ := hk
  have hid : (bumpedDocument d).spdxId = documentId d := rfl
  -- whatever document is in the payload before the end is the migrated one
  have key : ∀ k x, (bumpLinks d s3.payload).get? k = some (.document x) → k = documentId d ∧ x = bumpedDocument d := by
    have agent : ∀ {k : Str} {a : Actor} {x : SpdxDocument3}, ¬ (k = actorId d.creationInfo.documentNamespace a ∧ ∃ y : Agent3,
        Element3.document x = .agent y ∧ y.spdxId = k ∧ ∃ ci, y = bumpedActor d.creationInfo.documentNamespace ci a) := by
      rintro k a x ⟨_, y, hy, _⟩; cases hy
    let P : Payload → Prop := fun p => ∀ k x, p.get? k = some (.document x) → k = documentId d ∧ x = bumpedDocument d
    have g0 : P ((bumpCreators d.creationInfo []).add (.document (bumpedDocument d))) := by
      intro k x hk
      rw [Payload.get?_add] at hk
      split at hk
      · rename_i hid'; cases hk; exact ⟨hid'.symm, rfl⟩
      · have : P (bumpCreators d.creationInfo []) := by
          unfold bumpCreators
          refine foldl_inv _ P _ _ ?_ ?_
          · intro a _ p hp k x hk
            rcases bumpActor_get hk with hk | hk
            · exact hp k x hk
            · exact absurd hk agent
          · intro k x hk; simp [Dict.get?] at hk
        exact this k x hk
    have g1 : P s1.payload := by
      refine foldlM_inv _ (fun s => P s.payload) _ _ _ h1 ?_ g0
      intro y _ s s' hs hp k x hk
      obtain ⟨id, q, _, _, _, ep, _⟩ := bumpPackage_ok hs
      rw [ep, Payload.get?_add] at hk
      split at hk
      · cases hk
      · rcases bumpActorOpt_get hk with hk | ⟨a, _, hk⟩
        · rcases bumpActorOpt_get hk with hk | ⟨a, _, hk⟩
          · exact hp k x hk
          · exact absurd hk agent
        · exact absurd hk agent
    have g2 : P s2.payload := by
      refine foldlM_inv _ (fun s => P s.payload) _ _ _ h2 ?_ g1
      intro y _ s s' hs hp k x hk
      obtain ⟨id, _, ep, _⟩ := bumpFile_ok hs
      rw [ep, Payload.get?_add] at hk
      split at hk
      · cases hk
      · exact hp k x hk
    have g3 : P s3.payload := by
      refine foldlM_inv _ (fun s => P s.payload) _ _ _ h3 ?_ g2
      intro y _ s s' hs hp k x hk
      obtain ⟨id, _, ep, _⟩ := bumpSnippet_ok hs
      rw [ep, Payload.get?_add] at hk
      split at hk
      · cases hk
      · exact hp k x hk
    have g4 : P (bumpRelationships d.creationInfo.documentNamespace d.relationships s3.payload) := by
      intro k x hk
      by_cases hm : ∃ z, (k, z) ∈ allWrites (bumpedRelationships d.creationInfo.documentNamespace d.relationships)
      · obtain ⟨z, hz⟩ := hm
        rw [bumpRelationships_get_mem _ hz] at hk
        cases hk
      · rw [bumpRelationships_get_not_mem _ (fun z hz => hm ⟨z, hz⟩)] at hk
        exact g3 k x hk
    unfold bumpLinks
    refine foldl_inv _ P _ _ ?_ g4
    intro y _ p hp k x hk
    unfold bumpAnnotation at hk
    rw [Payload.get?_add] at hk
    split at hk
    · cases hk
    · rcases bumpActor_get hk with hk | hk
      · exact hp k x hk
      · exact absurd hk agent
  cases e with
  | document x =>
    obtain ⟨rfl, rfl⟩ := key k x he
    simp only [Element3.document.injEq] at hd
    refine ⟨rfl, s3.imports, ?_⟩
    rw [hkeys]
    exact hd.symm
  | _ => cases hd

/-- The migrated document, wherever it is found in the payload, lists exactly the other identifiers of the payload, each once; and it is
    found only under its own identifier. -/
theorem element_list (d : Document) (p : Payload) (h : bumpDocument d = .ok p) (k : Str) (sd : SpdxDocument3)
    (hk : p.get? k = some (.document sd)) :
    k = documentId d ∧ sd.spdxId = k ∧ sd.element.Nodup ∧ ∀ id, id ∈ sd.element ↔ (∃ e, p.get? id = some e) ∧ id ≠ k := by
  obtain ⟨rfl, im, rfl⟩ := C31.document_only_at h hk
  refine ⟨rfl, rfl, (bumpDocument_nodup h).sublist List.filter_sublist, ?_⟩
  intro id
  simp only [List.mem_filter, decide_eq_true_eq, ← Dict.get?_isSome, Option.isSome_iff_exists]

/-- The document is in the payload, if nothing else has its identifier. Its root elements are the described ones; it imports the external
    documents. -/
theorem document_present (d : Document) (p : Payload) (h : bumpDocument d = .ok p) (ha : DocumentApart d) :
    ∃ sd, p.get? (documentId d) = some (.document sd) ∧ sd.name = d.creationInfo.name ∧ sd.comment = d.creationInfo.documentComment ∧
      sd.creationInfo.created = d.creationInfo.created ∧
      (∀ i, i ∈ sd.creationInfo.createdUsing ↔ ∃ a ∈ d.creationInfo.creators, a.actorType = .TOOL ∧ i = creatorId d a) ∧
      (∀ i, i ∈ sd.creationInfo.createdBy ↔ ∃ a ∈ d.creationInfo.creators, a.actorType ≠ .TOOL ∧ i = creatorId d a) ∧
      ((∀ r ∈ d.relationships, Describes r → ∃ id, r.relatedSpdxElementId = .val id) → ∀ i, i ∈ sd.rootElement ↔
        ∃ r ∈ d.relationships, Describes r ∧ ∃ id, r.relatedSpdxElementId = .val id ∧ i = d.creationInfo.documentNamespace ++ s%"#" ++ id) ∧
      (∀ r ∈ d.creationInfo.externalDocumentRefs, (∃ m ∈ sd.imports, m.externalId = r.documentRefId ++ s%":SPDXRef-DOCUMENT") ∧
        ⟨r.documentRefId, r.documentUri ++ s%"#"⟩ ∈ sd.namespaces) := by
  have hget : ∃ sd, p.get? (documentId d) = some (.document sd) := by
    obtain ⟨s1, s2, s3, h1, h2, h3, rfl⟩ := bumpDocument_ok h
    have hp : (bumpLinks d s3.payload).get? (documentId d) = some (.document (bumpedDocument d)) := by
      refine links_keep ?_ ?_ (snippets_keep h3 ?_ (files_keep h2 ?_ (packages_keep h1 ?_ ?_)))
      · intro n _ e
        simp only [relationshipId, documentId] at e
        exact ha.2.1 ⟨_, List.append_cancel_left e⟩
      · intro n _ e
        simp only [annotationId, documentId] at e
        exact ha.2.2 ⟨_, List.append_cancel_left e⟩
      · intro x hx; exact ha.1 _ (List.mem_append_right _ (List.mem_map_of_mem hx))
      · intro x hx; exact ha.1 _ (List.mem_append_left _ (List.mem_append_right _ (List.mem_map_of_mem hx)))
      · intro x hx; exact ha.1 _ (List.mem_append_left _ (List.mem_append_left _ (List.mem_map_of_mem hx)))
      · rw [Payload.get?_add]; exact if_pos rfl
    rw [finishDocument_get, hp]
    exact ⟨_, rfl⟩
  obtain ⟨sd, hsd⟩ := hget
  obtain ⟨_, im, rfl⟩ := C31.document_only_at h hsd
  have hcr : ∀ a, creatorId d a = actorId d.creationInfo.documentNamespace a := by
    rintro ⟨ty, name, email⟩
    unfold creatorId actorId
    cases email with
    | none => rfl
    | some m => cases m <;> simp
  refine ⟨_, hsd, rfl, rfl, rfl, ?_, ?_, ?_, ?_⟩
  · intro i
    show i ∈ (d.creationInfo.creators.filter _).map _ ↔ _
    simp only [List.mem_map, List.mem_filter, decide_eq_true_eq, hcr, and_assoc]
    exact exists_congr fun a => and_congr_right fun _ => and_congr_right fun _ => eq_comm
  · intro i
    show i ∈ (d.creationInfo.creators.filter _).map _ ↔ _
    simp only [List.mem_map, List.mem_filter, decide_eq_true_eq, hcr, and_assoc]
    exact exists_congr fun a => and_congr_right fun _ => and_congr_right fun _ => eq_comm
  · intro hv i
    constructor
    · intro hi
      obtain ⟨r, hr, rfl⟩ := List.mem_map.1 hi
      obtain ⟨hr, h⟩ := List.mem_filter.1 hr
      simp only [decide_eq_true_eq] at h
      obtain ⟨id, hid⟩ := hv r hr ⟨h.2, h.1⟩
      exact ⟨r, hr, ⟨h.2, h.1⟩, id, hid, by rw [hid]⟩
    · rintro ⟨r, hr, ⟨h1, h2⟩, id, h3, rfl⟩
      exact List.mem_map.2 ⟨r, List.mem_filter.2 ⟨hr, by simp [h1, h2]⟩, by simp [h3]⟩
  · intro r hr
    refine ⟨⟨(bumpExternalDocumentRef r).2, List.mem_append_left _ (List.mem_map_of_mem hr), rfl⟩, List.mem_map_of_mem hr⟩

private theorem keys_are_ids (d : Document) (p : Payload) (h : bumpDocument d = .ok p)
    (hw : ∀ k z, (k, z) ∈ allWrites (bumpedRelationships d.creationInfo.documentNamespace d.relationships) → z.spdxId = k) (k : Str)
    (e : Element3) (hk : p.get? k = some e) : e.spdxId = k := by
  obtain ⟨s1, s2, s3, h1, h2, h3, rfl⟩ := bumpDocument_ok h
  rw [finishDocument_get, Option.map_eq_some_iff] at hk
  obtain ⟨e', he', rfl⟩ := hk
  let P : Payload → Prop := fun p => ∀ k e, p.get? k = some e → e.spdxId = k
  have hadd : ∀ p e, P p → P (p.add e) := by
    intro p e hp k e' hk
    rw [Payload.get?_add] at hk
    split at hk
    · rename_i h; cases hk; exact h
    · exact hp k e' hk
  have hact : ∀ ns ci a p, P p → P (bumpActor ns ci a p) := by
    intro ns ci a p hp
    unfold bumpActor
    split
    · exact hp
    · exact hadd _ _ hp
  have hopt : ∀ ns o p, P p → P (bumpActorOpt ns o p) := by
    intro ns o p hp
    unfold bumpActorOpt
    split
    · exact hact _ _ _ _ hp
    · exact hp
  have g0 : P ((bumpCreators d.creationInfo []).add (.document (bumpedDocument d))) :=
    hadd _ _ (foldl_inv _ P _ _ (fun a _ p hp => hact _ _ _ _ hp) (by intro k e hk; simp [Dict.get?] at hk))
  have g1 : P s1.payload := by
    refine foldlM_inv _ (fun s => P s.payload) _ _ _ h1 ?_ g0
    intro y _ s s' hs hp
    obtain ⟨id, q, _, _, _, ep, _⟩ := bumpPackage_ok hs
    rw [ep]
    exact hadd _ _ (hopt _ _ _ (hopt _ _ _ hp))
  have g2 : P s2.payload := by
    refine foldlM_inv _ (fun s => P s.payload) _ _ _ h2 ?_ g1
    intro y _ s s' hs hp
    obtain ⟨id, _, ep, _⟩ := bumpFile_ok hs
    rw [ep]; exact hadd _ _ hp
  have g3 : P s3.payload := by
    refine foldlM_inv _ (fun s => P s.payload) _ _ _ h3 ?_ g2
    intro y _ s s' hs hp
    obtain ⟨id, _, ep, _⟩ := bumpSnippet_ok hs
    rw [ep]; exact hadd _ _ hp
  have g4 : P (bumpRelationships d.creationInfo.documentNamespace d.relationships s3.payload) := by
    intro k x hk
    by_cases hm : ∃ z, (k, z) ∈ allWrites (bumpedRelationships d.creationInfo.documentNamespace d.relationships)
    · obtain ⟨z, hz⟩ := hm
      rw [bumpRelationships_get_mem _ hz] at hk
      cases hk
      exact hw _ _ hz
    · rw [bumpRelationships_get_not_mem _ (fun z hz => hm ⟨z, hz⟩)] at hk
      exact g3 k x hk
  have g5 : P (bumpLinks d s3.payload) := by
    unfold bumpLinks
    exact foldl_inv _ P _ _ (fun y _ p hp => hadd _ _ (hact _ _ _ _ hp)) g4
  have := g5 k e' he'
  cases e' <;> exact this

/-- The key of every entry is the identifier of the element, if no relationship has a comment. (Missing from the full statement: documents
    with comments on relationships.) -/
theorem keys_are_ids_partial (d : Document) (p : Payload) (h : bumpDocument d = .ok p) (hc : NoComments d) (k : Str) (e : Element3)
    (hk : p.get? k = some e) : e.spdxId = k :=
  keys_are_ids d p h (fun _ _ hz => writes_ids hc hz) k e hk
where
  writes_ids {d : Document} (hc : NoComments d) {k : Str} {z : Relationship3}
      (hz : (k, z) ∈ allWrites (bumpedRelationships d.creationInfo.documentNamespace d.relationships)) : z.spdxId = k := by
    obtain ⟨f, t, hg⟩ := mem_allWrites.1 hz
    have hplain : ∀ r ∈ groupOf (bumpedRelationships d.creationInfo.documentNamespace d.relationships) f t, r.hasComment = false := by
      intro r hr
      obtain ⟨i, x, hi, hx⟩ := mem_bumped.1 (List.mem_filter.1 hr).1
      have hcx := hc x (List.mem_of_getElem? hi)
      have : r.comment = x.comment := by
        simp only [bumpRelationship] at hx
        split at hx
        · cases hx
        · cases hx
        · split at hx
          · split at hx
            · cases hx
            · split at hx <;> cases hx <;> rfl
          · cases hx; rfl
      unfold Relationship3.hasComment
      rw [this]
      rcases hcx with h | h <;> simp [h]
    generalize groupOf (bumpedRelationships d.creationInfo.documentNamespace d.relationships) f t = g at hg hplain
    match g with
    | [] => simp [groupWrites] at hg
    | [r] =>
      simp only [groupWrites, List.mem_singleton, Prod.mk.injEq] at hg
      rw [hg.1, hg.2]
    | r :: r' :: rs =>
      obtain ⟨last, hlast⟩ : ∃ last, (r :: r' :: rs).getLast? = some last := ⟨_, List.getLast?_eq_some_getLast (by simp)⟩
      rw [groupWrites_many _ last hlast (by simp)] at hg
      have hnil : (r :: r' :: rs).filter (·.hasComment) = [] := List.filter_eq_nil_iff.2 fun x hx => by simp [hplain x hx]
      rw [hnil] at hg
      split at hg
      · simp at hg
      · simp only [List.map_nil, List.nil_append, List.mem_singleton, Prod.mk.injEq] at hg
        rw [hg.1, hg.2]

/-- Exactly: every key is the identifier of its element unless, among several relationships of the same source and type, the last one has a
    comment and another one without a comment has a target. -/
theorem keys_are_ids_iff (d : Document) (p : Payload) (h : bumpDocument d = .ok p) :
    (∀ k e, p.get? k = some e → e.spdxId = k) ↔
    ∀ f t last, (C35.group d.creationInfo.documentNamespace d.relationships f t).getLast? = some last → C35.Commented last →
      ∀ r ∈ C35.group d.creationInfo.documentNamespace d.relationships f t, ¬ C35.Commented r → r.to = [] := by
  constructor
  · intro hk f t last hl hc r hr hp
    refine Classical.byContradiction fun hto => ?_
    have hm : r ∈ C35.plainOf (C35.group d.creationInfo.documentNamespace d.relationships f t) := C35.mem_plainOf.2 ⟨hr, hp⟩
    obtain ⟨plain, hpl⟩ : ∃ plain, (C35.plainOf (C35.group d.creationInfo.documentNamespace d.relationships f t)).getLast? = some plain := by
      cases e : C35.plainOf (C35.group d.creationInfo.documentNamespace d.relationships f t) with
      | nil => rw [e] at hm; cases hm
      | cons a l => exact ⟨_, List.getLast?_eq_some_getLast (by simp)⟩
    have hlm := List.mem_of_getLast? hl
    have h2 : 2 ≤ (C35.group d.creationInfo.documentNamespace d.relationships f t).length := by
      generalize C35.group d.creationInfo.documentNamespace d.relationships f t = g at hr hlm
      match g with
      | [] => cases hr
      | [a] =>
        simp only [List.mem_singleton] at hr hlm
        rw [hr, ← hlm] at hp
        exact absurd hc hp
      | _ :: _ :: _ => simp
    have hne : (C35.plainOf (C35.group d.creationInfo.documentNamespace d.relationships f t)).flatMap (·.to) ≠ [] := by
      intro e
      exact hto (List.flatMap_eq_nil_iff.1 e r hm)
    have hs := hk _ _ ((C35.document_stored_iff d p h _ _).2
      ⟨f, t, .merged last plain last.spdxId h2 hl hpl hne (.inr ⟨rfl, hc⟩)⟩)
    have hpm := C35.mem_plainOf.1 (List.mem_of_getLast? hpl)
    have : plain = last := bumped_ids_inj (List.mem_filter.1 hpm.1).1 (List.mem_filter.1 hlm).1 hs
    exact hpm.2 (this ▸ hc)
  · intro hg
    refine keys_are_ids d p h ?_
    intro k z hz
    obtain ⟨f, t, hb⟩ := C35.relationship_written.1 hz
    cases hb with
    | single _ _ => rfl
    | commented _ _ _ _ _ _ _ => rfl
    | merged last plain k h2 hl hp ht hk =>
      rcases hk with hk | ⟨_, hc⟩
      · exact hk.symm
      · refine absurd ?_ ht
        rw [List.flatMap_eq_nil_iff]
        intro r hr
        obtain ⟨h1, h2⟩ := C35.mem_plainOf.1 hr
        exact hg f t last hl hc r h1 h2

/-- With comments the keys and the identifiers can disagree: here the document lists an identifier that no element has. -/
theorem listed_id_of_no_element : ∃ (d : Document) (p : Payload) (id : Str) (sd : SpdxDocument3), bumpDocument d = .ok p ∧
    p.get? (documentId d) = some (.document sd) ∧ id ∈ sd.element ∧ ∀ k e, p.get? k = some e → e.spdxId ≠ id := by
  let d : Document :=
    { creationInfo := Example.info
      packages := [Example.package]
      relationships := [Example.describes s%"SPDXRef-Package", { Example.describes s%"SPDXRef-Package" with comment := some s%"why" }] }
  let p : Payload := match bumpDocument d with | .ok p => p | .error _ => []
  have hp : bumpDocument d = .ok p := rfl
  let id : Str := s%"https://e.org/d#SPDXRef-Relationship-1"
  have h1 : match p.get? (documentId d) with | some (.document sd) => id ∈ sd.element | _ => False := by
    show match p.get? (documentId d) with | some (.document sd) => id ∈ sd.element | _ => False
    have : (match p.get? (documentId d) with | some (.document sd) => decide (id ∈ sd.element) | _ => false) = true := by decide +kernel
    split at this
    · simpa using this
    · cases this
  have h2 : ∀ e ∈ p, e.2.spdxId ≠ id := by decide +kernel
  split at h1
  · rename_i sd hsd
    exact ⟨d, p, id, sd, hp, hsd, h1, fun k e hk => h2 _ (Dict.get?_mem _ _ _ hk)⟩
  · exact h1.elim

/-! Non-vacuity -/
example : DocumentApart Example.doc := by
  refine ⟨by decide +kernel, ?_, ?_⟩
  · rw [← List.isPrefixOf_iff_prefix]; decide +kernel
  · rw [← List.isPrefixOf_iff_prefix]; decide +kernel
example : NoComments Example.doc := by unfold NoComments; decide +kernel
example : ∃ p, bumpDocument Example.doc = .ok p ∧ p.length = 12 := ⟨_, rfl, by decide +kernel⟩

end Spdx.C31
