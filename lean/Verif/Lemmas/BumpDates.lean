import Verif.Lemmas.Bump
import Verif.Spec.LdMigrated
/- The dates of a migrated document are those of the document. -/
namespace Spdx.BumpDates
open Spdx Spec.Ld

/-- the dates a document contains -/
def docDates (d : Document) : List DateTime :=
  d.creationInfo.created :: (d.annotations.map (·.annotationDate) ++
    d.packages.flatMap fun p => p.builtDate.toList ++ p.releaseDate.toList ++ p.validUntilDate.toList)

/-- every element's dates are dates of the document -/
def Good (d : Document) (p : Payload) : Prop := ∀ q ∈ p, ∀ t ∈ dates q.2, t ∈ docDates d

private theorem mem_set (p : Payload) (k : Str) (e : Element3) (q : Str × Element3) (h : q ∈ p.set k e) : q ∈ p ∨ q.2 = e := by
  induction p with
  | nil =>
    simp only [Dict.set, List.mem_singleton] at h
    exact .inr (by rw [h])
  | cons x p ih =>
    obtain ⟨a, b⟩ := x
    rw [Dict.set] at h
    split at h
    · rcases List.mem_cons.1 h with rfl | h
      · exact .inr rfl
      · exact .inl (List.mem_cons_of_mem _ h)
    · rcases List.mem_cons.1 h with rfl | h
      · exact .inl (List.mem_cons_self ..)
      · rcases ih h with h | h
        · exact .inl (List.mem_cons_of_mem _ h)
        · exact .inr h

private theorem good_add {d : Document} {p : Payload} {e : Element3} (hp : Good d p) (he : ∀ t ∈ dates e, t ∈ docDates d) :
    Good d (p.add e) := by
  intro q hq t ht
  rcases mem_set p _ e q hq with h | h
  · exact hp q h t ht
  · exact he t (h ▸ ht)

private theorem good_actor {d : Document} {p : Payload} {ns : Str} {ci : Option CreationInfo3} {a : Actor} (hp : Good d p)
    (hc : ∀ c ∈ ci, c.created ∈ docDates d) : Good d (bumpActor ns ci a p) := by
  unfold bumpActor
  split
  · exact hp
  · refine good_add hp ?_
    intro t ht
    simp only [dates, bumpedActor, List.mem_map, Option.mem_toList] at ht
    obtain ⟨c, h1, rfl⟩ := ht
    exact hc c h1

private theorem good_actorOpt {d : Document} {p : Payload} {ns : Str} {a : Option (OrNoAssertion Actor)} (hp : Good d p) :
    Good d (bumpActorOpt ns a p) := by
  unfold bumpActorOpt
  split
  · exact good_actor hp (by simp)
  · exact hp

private theorem created_mem (d : Document) : (bumpedInfo d.creationInfo).created ∈ docDates d := by simp [docDates, bumpedInfo]

private theorem good_group {d : Document} {p : Payload} (g : List Relationship3) (hp : Good d p) : Good d (addGroup p g) := by
  have hs : ∀ (p : Payload) (k : Str) (r : Relationship3), Good d p → Good d (p.set k (.relationship r)) := by
    intro p k r hp q hq t ht
    rcases mem_set p _ _ q hq with h | h
    · exact hp q h t ht
    · rw [h] at ht; simp [dates] at ht
  have hr : ∀ (p : Payload) (r : Relationship3), Good d p → Good d (p.add (.relationship r)) := fun p r hp => hs p _ r hp
  unfold addGroup
  split
  · exact hp
  · exact hr _ _ hp
  · unfold mergeInto
    dsimp only
    split
    · exact foldl_inv _ (Good d) _ _ (fun r _ p hp => hr p r hp) hp
    · exact hr _ _ (foldl_inv _ (Good d) _ _ (fun r _ p hp => hs p _ _ hp) hp)

/-- The dates of a migrated document are those of the document. -/
theorem migrated (d : Document) (p : Payload) (h : bumpDocument d = .ok p) : Good d p := by
  obtain ⟨s1, s2, s3, h1, h2, h3, rfl⟩ := bumpDocument_ok h
  have g0 : Good d ((bumpCreators d.creationInfo []).add (.document (bumpedDocument d))) := by
    refine good_add ?_ ?_
    · unfold bumpCreators
      exact foldl_inv _ (Good d) _ _ (fun a _ p hp => good_actor hp (by
        intro c hc
        cases hc
        exact created_mem d)) (by intro q hq; cases hq)
    · intro t ht
      simp only [dates, List.mem_singleton] at ht
      rw [ht]
      exact created_mem d
  have g1 : Good d s1.payload := by
    refine foldlM_inv _ (fun s => Good d s.payload) _ _ _ h1 ?_ g0
    intro x hx s s' hs hp
    obtain ⟨id, q, _, hq, _, ep, _⟩ := bumpPackage_ok hs
    rw [ep]
    refine good_add (good_actorOpt (good_actorOpt hp)) ?_
    intro t ht
    have hd : dates (.package q) = x.builtDate.toList ++ x.releaseDate.toList ++ x.validUntilDate.toList := by
      unfold bumpedPackage at hq
      split at hq
      · cases hq
      · cases hq
      · cases hq; rfl
      · cases hq; rfl
    rw [hd] at ht
    exact List.mem_cons_of_mem _ (List.mem_append_right _ (List.mem_flatMap.2 ⟨x, hx, ht⟩))
  have g2 : Good d s2.payload := by
    refine foldlM_inv _ (fun s => Good d s.payload) _ _ _ h2 ?_ g1
    intro x hx s s' hs hp
    obtain ⟨id, _, ep, _⟩ := bumpFile_ok hs
    rw [ep]
    exact good_add hp (by simp [dates])
  have g3 : Good d s3.payload := by
    refine foldlM_inv _ (fun s => Good d s.payload) _ _ _ h3 ?_ g2
    intro x hx s s' hs hp
    obtain ⟨id, _, ep, _⟩ := bumpSnippet_ok hs
    rw [ep]
    exact good_add hp (by simp [dates])
  have g4 : Good d (bumpLinks d s3.payload) := by
    unfold bumpLinks bumpRelationships
    refine foldl_inv _ (Good d) _ _ ?_ (foldl_inv _ (Good d) _ _ (fun g _ p hp => good_group g.2 hp) g3)
    rintro ⟨a, n⟩ hx p hp
    have ha : a.annotationDate ∈ docDates d := List.mem_cons_of_mem _ (List.mem_append_left _
      (List.mem_map.2 ⟨a, List.mem_of_getElem? (List.mem_zipIdx_iff_getElem?.1 hx), rfl⟩))
    unfold bumpAnnotation
    refine good_add (good_actor hp ?_) ?_
    · intro c hc
      cases hc
      exact ha
    · intro t ht
      simp only [dates, List.mem_singleton] at ht
      rw [ht]
      exact ha
  intro q hq t ht
  unfold finishDocument at hq
  obtain ⟨⟨k, e⟩, he, rfl⟩ := List.mem_map.1 hq
  refine g4 _ he t ?_
  cases e <;> exact ht

end Spdx.BumpDates
