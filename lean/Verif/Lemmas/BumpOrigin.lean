import Verif.Lemmas.Bump
/- Where the elements of a migrated document come from. -/
namespace Spdx.BumpOrigin
open Spdx

/-- a relationship of the document, migrated -/
def Migrated (d : Document) (x : Relationship3) : Prop :=
  ∃ n, ∃ r ∈ d.relationships, bumpRelationship d.creationInfo.documentNamespace n r = some x

inductive Origin (d : Document) : Element3 → Prop
  | creator (a : Actor) (h : a ∈ d.creationInfo.creators) :
    Origin d (.agent (bumpedActor d.creationInfo.documentNamespace (some (bumpedInfo d.creationInfo)) a))
  | actor (a : Actor) : Origin d (.agent (bumpedActor d.creationInfo.documentNamespace none a))
  | annotator (a : Annotation) (h : a ∈ d.annotations) : Origin d (.agent (bumpedActor d.creationInfo.documentNamespace
      (some (annotationInfo d.creationInfo.documentNamespace (bumpedInfo d.creationInfo) a)) a.annotator))
  | package (x : Package) (h : x ∈ d.packages) (id : Str) (q : Package3) (hq : bumpedPackage d.creationInfo.documentNamespace id x = .ok q) :
    Origin d (.package q)
  | file (x : File) (h : x ∈ d.files) (id : Str) : Origin d (.file (bumpedFile id x))
  | snippet (x : Snippet) (h : x ∈ d.snippets) (id : Str) : Origin d (.snippet (bumpedSnippet id x))
  | relationship (x : Relationship3) (h : Migrated d x) : Origin d (.relationship x)
  | merged (x : Relationship3) (l : List Relationship3) (h : Migrated d x) (hl : ∀ y ∈ l, Migrated d y) :
    Origin d (.relationship (mergedRelationship x l))
  | annotation (a : Annotation) (h : a ∈ d.annotations) (q : Annotation3)
    (h1 : q.creationInfo = annotationInfo d.creationInfo.documentNamespace (bumpedInfo d.creationInfo) a)
    (h2 : q.subject = d.creationInfo.documentNamespace ++ s%"#" ++ a.spdxId) : Origin d (.annotation q)
  | document (im : List ExternalMap3) (el : List Str) (h : ∀ m ∈ im, ∃ id, m ∈ importOf id) :
    Origin d (.document { bumpedDocument d with imports := (bumpedDocument d).imports ++ im, element := el })

def Good (d : Document) (p : Payload) : Prop := ∀ q ∈ p, Origin d q.2

private theorem mem_set (p : Payload) (k : Str) (e : Element3) (q : Str × Element3) (h : q ∈ p.set k e) : q ∈ p ∨ q.2 = e := by
  induction p with
  | nil =>
    simp only [Dict.set, List.mem_singleton] at h
    exact .inr (by rw [h])
  | cons x p ih =>
    obtain ⟨a, b⟩ := x
    rw [Dict.set] at h
    split at h
    · rcases List.mem_cons.1 h with rfl | h
      · exact .inr rfl
      · exact .inl (List.mem_cons_of_mem _ h)
    · rcases List.mem_cons.1 h with rfl | h
      · exact .inl (List.mem_cons_self ..)
      · rcases ih h with h | h
        · exact .inl (List.mem_cons_of_mem _ h)
        · exact .inr h

private theorem good_set {d : Document} {p : Payload} {k : Str} {e : Element3} (hp : Good d p) (he : Origin d e) : Good d (p.set k e) := by
  intro q hq
  rcases mem_set p _ e q hq with h | h
  · exact hp q h
  · exact h ▸ he

private theorem good_actor {d : Document} {p : Payload} {ns : Str} {ci : Option CreationInfo3} {a : Actor} (hp : Good d p)
    (hc : Origin d (.agent (bumpedActor ns ci a))) : Good d (bumpActor ns ci a p) := by
  unfold bumpActor
  split
  · exact hp
  · exact good_set hp hc

private theorem good_actorOpt {d : Document} {p : Payload} {a : Option (OrNoAssertion Actor)} (hp : Good d p) :
    Good d (bumpActorOpt d.creationInfo.documentNamespace a p) := by
  unfold bumpActorOpt
  split
  · exact good_actor hp (.actor _)
  · exact hp

private theorem good_group {d : Document} {p : Payload} (g : List Relationship3) (hp : Good d p) (hg : ∀ r ∈ g, Migrated d r) :
    Good d (addGroup p g) := by
  unfold addGroup
  split
  · exact hp
  · next r => exact good_set hp (.relationship _ (hg r (List.mem_cons_self ..)))
  · next r r' rs =>
    unfold mergeInto
    have hlast : Migrated d ((r' :: rs).getLast (by simp)) := hg _ (List.mem_cons_of_mem _ (List.getLast_mem _))
    have hm : Origin d (.relationship (mergedRelationship _ ((r :: r' :: rs).filter fun r => !r.hasComment))) :=
      .merged _ _ hlast (fun x hx => hg x (List.mem_filter.1 hx).1)
    dsimp only
    split
    · exact foldl_inv _ (Good d) _ _ (fun x hx p hp => good_set hp (.relationship _ (hg x (List.mem_filter.1 hx).1))) hp
    · refine good_set (foldl_inv _ (Good d) _ _ (fun x hx p hp => good_set hp ?_) hp) hm
      split
      · exact hm
      · exact .relationship _ (hg x (List.mem_filter.1 hx).1)

private def State (d : Document) (s : BumpState) : Prop := Good d s.payload ∧ ∀ m ∈ s.imports, ∃ id, m ∈ importOf id

theorem migrated (d : Document) (p : Payload) (h : bumpDocument d = .ok p) : Good d p := by
  obtain ⟨s1, s2, s3, h1, h2, h3, rfl⟩ := bumpDocument_ok h
  have hdoc : (bumpedDocument d).element = [] := rfl
  have g0 : Good d ((bumpCreators d.creationInfo []).add (.document (bumpedDocument d))) := by
    refine good_set ?_ ?_
    · unfold bumpCreators
      exact foldl_inv _ (Good d) _ _ (fun a ha p hp => good_actor hp (.creator a ha)) (by intro q hq; cases hq)
    · have := Origin.document (d := d) [] [] (by intro m hm; cases hm)
      rw [List.append_nil] at this
      exact this
  have addImports : ∀ {s t : BumpState} {id : Str}, State d s → Good d t.payload → t.imports = s.imports ++ importOf id → State d t := by
    intro s t id hs ht e
    refine ⟨ht, ?_⟩
    rw [e]
    intro m hm
    rcases List.mem_append.1 hm with hm | hm
    · exact hs.2 m hm
    · exact ⟨id, hm⟩
  have g1 : State d s1 := by
    refine foldlM_inv _ (State d) _ _ _ h1 ?_ ⟨g0, by intro m hm; cases hm⟩
    intro x hx s s' hs hp
    obtain ⟨id, q, _, hq, _, ep, ei⟩ := bumpPackage_ok hs
    refine addImports hp ?_ ei
    rw [ep]
    exact good_set (good_actorOpt (good_actorOpt hp.1)) (.package x hx id q hq)
  have g2 : State d s2 := by
    refine foldlM_inv _ (State d) _ _ _ h2 ?_ g1
    intro x hx s s' hs hp
    obtain ⟨id, _, ep, ei⟩ := bumpFile_ok hs
    refine addImports hp ?_ ei
    rw [ep]
    exact good_set hp.1 (.file x hx id)
  have g3 : State d s3 := by
    refine foldlM_inv _ (State d) _ _ _ h3 ?_ g2
    intro x hx s s' hs hp
    obtain ⟨id, _, ep, ei⟩ := bumpSnippet_ok hs
    refine addImports hp ?_ ei
    rw [ep]
    exact good_set hp.1 (.snippet x hx id)
  have g4 : Good d (bumpLinks d s3.payload) := by
    unfold bumpLinks bumpRelationships
    refine foldl_inv _ (Good d) _ _ ?_ (foldl_inv _ (Good d) _ _ (fun g hg p hp => good_group g.2 hp ?_) g3.1)
    · rintro ⟨a, n⟩ hx p hp
      have ha : a ∈ d.annotations := by
        have := List.mem_zipIdx' hx
        exact this.2 ▸ List.getElem_mem _
      unfold bumpAnnotation
      exact good_set (good_actor hp (.annotator a ha)) (.annotation a ha _ rfl rfl)
    · intro r hr
      obtain ⟨k, g⟩ := g
      have hg := (Dict.mem_groupBy ..).1 hg
      dsimp only at hr
      rw [hg.2] at hr
      obtain ⟨i, x, hx, hb⟩ := mem_bumped.1 (List.mem_filter.1 hr).1
      exact ⟨i, x, List.mem_of_getElem? hx, hb⟩
  intro q hq
  unfold finishDocument at hq
  obtain ⟨⟨k, e⟩, he, rfl⟩ := List.mem_map.1 hq
  have := g4 _ he
  dsimp only at this ⊢
  cases this with
  | document im el h =>
    dsimp only
    rw [List.append_assoc]
    refine Origin.document (im ++ s3.imports) _ ?_
    intro m hm
    rcases List.mem_append.1 hm with hm | hm
    · exact h m hm
    · exact g3.2 m hm
  | creator a h => exact .creator a h
  | actor a => exact .actor a
  | annotator a h => exact .annotator a h
  | package x h id q hb => exact .package x h id q hb
  | file x h id => exact .file x h id
  | snippet x h id => exact .snippet x h id
  | relationship x h => exact .relationship x h
  | merged x l h hl => exact .merged x l h hl
  | annotation a h q h1 h2 => exact .annotation a h q h1 h2

/-! ### Keys are kept -/

private theorem key_set {p : Payload} {k j : Str} {e : Element3} (h : k ∈ p.keys) : k ∈ (p.set j e).keys := by
  rw [← Dict.get?_isSome] at h ⊢
  rw [Dict.get?_set]
  split
  · rfl
  · exact h

private theorem key_actor {p : Payload} {ns k : Str} {ci : Option CreationInfo3} {a : Actor} (h : k ∈ p.keys) : k ∈ (bumpActor ns ci a p).keys := by
  unfold bumpActor
  split
  · exact h
  · exact key_set h

private theorem key_actorOpt {p : Payload} {ns k : Str} {a : Option (OrNoAssertion Actor)} (h : k ∈ p.keys) : k ∈ (bumpActorOpt ns a p).keys := by
  unfold bumpActorOpt
  split
  · exact key_actor h
  · exact h

private theorem key_group {p : Payload} {k : Str} (g : List Relationship3) (h : k ∈ p.keys) : k ∈ (addGroup p g).keys := by
  unfold addGroup
  split
  · exact h
  · exact key_set h
  · unfold mergeInto
    dsimp only
    split
    · exact foldl_inv _ (fun p : Payload => k ∈ p.keys) _ _ (fun x hx p hp => key_set hp) h
    · exact key_set (foldl_inv _ (fun p : Payload => k ∈ p.keys) _ _ (fun x hx p hp => key_set hp) h)

/-- the creators are in the payload -/
theorem creator_key (d : Document) (p : Payload) (h : bumpDocument d = .ok p) (a : Actor) (ha : a ∈ d.creationInfo.creators) :
    actorId d.creationInfo.documentNamespace a ∈ p.keys := by
  obtain ⟨s1, s2, s3, h1, h2, h3, rfl⟩ := bumpDocument_ok h
  have g0 : actorId d.creationInfo.documentNamespace a ∈ (bumpCreators d.creationInfo []).keys := by
    unfold bumpCreators
    obtain ⟨l, r, e⟩ := List.append_of_mem ha
    rw [e, List.foldl_append, List.foldl_cons]
    exact foldl_inv _ (fun p : Payload => _ ∈ p.keys) _ _ (fun x hx p hp => key_actor hp) bumpActor_mem
  have g1 : actorId d.creationInfo.documentNamespace a ∈ s1.payload.keys := by
    refine foldlM_inv _ (fun s : BumpState => _ ∈ s.payload.keys) _ _ _ h1 ?_ (key_set g0)
    intro x hx s s' hs hp
    obtain ⟨id, q, _, _, _, ep, _⟩ := bumpPackage_ok hs
    rw [ep]
    exact key_set (key_actorOpt (key_actorOpt hp))
  have g2 : actorId d.creationInfo.documentNamespace a ∈ s2.payload.keys := by
    refine foldlM_inv _ (fun s : BumpState => _ ∈ s.payload.keys) _ _ _ h2 ?_ g1
    intro x hx s s' hs hp
    obtain ⟨id, _, ep, _⟩ := bumpFile_ok hs
    rw [ep]
    exact key_set hp
  have g3 : actorId d.creationInfo.documentNamespace a ∈ s3.payload.keys := by
    refine foldlM_inv _ (fun s : BumpState => _ ∈ s.payload.keys) _ _ _ h3 ?_ g2
    intro x hx s s' hs hp
    obtain ⟨id, _, ep, _⟩ := bumpSnippet_ok hs
    rw [ep]
    exact key_set hp
  rw [finishDocument_keys]
  unfold bumpLinks bumpRelationships
  refine foldl_inv _ (fun p : Payload => _ ∈ p.keys) _ _ ?_ (foldl_inv _ (fun p : Payload => _ ∈ p.keys) _ _ (fun g hg p hp => key_group g.2 hp) g3)
  rintro ⟨x, n⟩ _ p hp
  unfold bumpAnnotation
  exact key_set (key_actor hp)

end Spdx.BumpOrigin
