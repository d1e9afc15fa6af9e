import Verif.Model.Bump
import Verif.Lemmas.Digits
import Verif.Py.Exacts
/- Lemmas about the payload that the migration to SPDX 3 builds. -/
namespace Spdx

/-! Updates with consistent items -/

/-- no key is given two values -/
def Consistent {κ ν : Type} (items : List (κ × ν)) : Prop := ∀ k v v', (k, v) ∈ items → (k, v') ∈ items → v = v'

theorem get?_update_mem {κ ν : Type} [DecidableEq κ] (d : Dict κ ν) (items : List (κ × ν)) (hc : Consistent items) (k : κ) (v : ν)
    (h : (k, v) ∈ items) : (d.update items).get? k = some v := by
  rw [Dict.get?_update]
  cases hf : items.reverse.find? (fun p => p.1 = k) with
  | none =>
    have := List.find?_eq_none.1 hf (k, v) (by simpa using h)
    simp at this
  | some p =>
    obtain ⟨k', v'⟩ := p
    have h1 := List.find?_some hf
    have h2 := List.mem_of_find?_eq_some hf
    simp only [decide_eq_true_eq] at h1
    subst h1
    simp [hc _ _ _ (by simpa using h2) h]

theorem get?_update_not_mem {κ ν : Type} [DecidableEq κ] (d : Dict κ ν) (items : List (κ × ν)) (k : κ)
    (h : ∀ v, (k, v) ∉ items) : (d.update items).get? k = d.get? k := by
  rw [Dict.get?_update]
  cases hf : items.reverse.find? (fun p => p.1 = k) with
  | none => simp
  | some p =>
    have h1 := List.find?_some hf
    have h2 := List.mem_of_find?_eq_some hf
    simp only [decide_eq_true_eq] at h1
    exact absurd (by simpa [← h1] using h2) (h p.2)

/-! Relationships -/

theorem relationshipId_injective {ns : Str} {a b : Nat} (h : relationshipId ns a = relationshipId ns b) : a = b := by
  simp only [relationshipId] at h
  exact natStr_injective (List.append_cancel_left (List.append_cancel_left h))

theorem annotationId_injective {ns : Str} {a b : Nat} (h : annotationId ns a = annotationId ns b) : a = b := by
  simp only [annotationId] at h
  exact natStr_injective (List.append_cancel_left (List.append_cancel_left h))

theorem relationship_ne_annotation (ns : Str) (a b : Nat) : relationshipId ns a ≠ annotationId ns b := by
  intro h
  simp only [relationshipId, annotationId] at h
  have := List.append_cancel_left h
  simp at this

theorem bumpRelationship_id {ns : Str} {n : Nat} {r : Relationship} {x : Relationship3} (h : bumpRelationship ns n r = some x) :
    x.spdxId = relationshipId ns n := by
  simp only [bumpRelationship] at h
  split at h
  · cases h
  · cases h
  · split at h
    · split at h
      · cases h
      · split at h <;> cases h <;> rfl
    · cases h; rfl

theorem mem_bumped {ns : Str} {rs : List Relationship} {x : Relationship3} :
    x ∈ bumpedRelationships ns rs ↔ ∃ (i : Nat) (r : Relationship), rs[i]? = some r ∧ bumpRelationship ns i r = some x := by
  simp only [bumpedRelationships, List.mem_filterMap, Prod.exists, List.mem_zipIdx_iff_getElem?]
  constructor
  · rintro ⟨r, i, h1, h2⟩; exact ⟨i, r, h1, h2⟩
  · rintro ⟨i, r, h1, h2⟩; exact ⟨r, i, h1, h2⟩

/-- The identifiers of the migrated relationships are distinct. -/
theorem bumped_ids_inj {ns : Str} {rs : List Relationship} {x y : Relationship3} (hx : x ∈ bumpedRelationships ns rs)
    (hy : y ∈ bumpedRelationships ns rs) (h : x.spdxId = y.spdxId) : x = y := by
  obtain ⟨i, r, hi, hr⟩ := mem_bumped.1 hx
  obtain ⟨j, s, hj, hs⟩ := mem_bumped.1 hy
  rw [bumpRelationship_id hr, bumpRelationship_id hs] at h
  obtain rfl := relationshipId_injective h
  rw [hi] at hj; cases hj
  rw [hr] at hs; cases hs
  rfl

theorem bumped_id {ns : Str} {rs : List Relationship} {x : Relationship3} (hx : x ∈ bumpedRelationships ns rs) :
    ∃ n < rs.length, x.spdxId = relationshipId ns n := by
  obtain ⟨i, r, hi, hr⟩ := mem_bumped.1 hx
  exact ⟨i, (List.getElem?_eq_some_iff.1 hi).1, bumpRelationship_id hr⟩

/-- What a group of relationships writes into the payload. -/
def groupWrites (group : List Relationship3) : List (Str × Relationship3) :=
  match group with
  | [] => []
  | [r] => [(r.spdxId, r)]
  | r :: r' :: rs =>
    let last := (r' :: rs).getLast (by simp)
    let plain := group.filter (fun r => !r.hasComment)
    let noted := group.filter (·.hasComment)
    if plain.flatMap (·.to) = [] then noted.map fun r => (r.spdxId, r)
    else noted.map (fun r => (r.spdxId, if r.spdxId = last.spdxId then mergedRelationship last plain else r)) ++
      [((mergedRelationship last plain).spdxId, mergedRelationship last plain)]

theorem addGroup_eq (p : Payload) (group : List Relationship3) :
    addGroup p group = p.update ((groupWrites group).map fun x => (x.1, Element3.relationship x.2)) := by
  unfold addGroup groupWrites
  split
  · rfl
  · rfl
  · simp only [mergeInto]
    split
    · simp only [Dict.update, List.map_map, List.foldl_map]; rfl
    · simp only [Dict.update, List.map_map, List.foldl_map, List.map_append, List.foldl_append]; rfl

/-- The groups' writes, one after the other. -/
def allWrites (l : List Relationship3) : List (Str × Relationship3) :=
  (Dict.groupBy (fun r : Relationship3 => (r.fromElement, r.relationshipType)) l).flatMap fun g => groupWrites g.2

theorem bumpRelationships_eq (ns : Str) (rs : List Relationship) (p : Payload) :
    bumpRelationships ns rs p =
      p.update ((allWrites (bumpedRelationships ns rs)).map fun x => (x.1, Element3.relationship x.2)) := by
  unfold bumpRelationships allWrites
  generalize Dict.groupBy (fun r : Relationship3 => (r.fromElement, r.relationshipType)) (bumpedRelationships ns rs) = gs
  induction gs generalizing p with
  | nil => rfl
  | cons g gs ih =>
    rw [List.foldl_cons, ih, addGroup_eq]
    simp only [Dict.update, List.flatMap_cons, List.map_append, List.foldl_append]

/-- the relationships of a source and a type -/
def groupOf (l : List Relationship3) (f : Str) (t : RelationshipType3) : List Relationship3 :=
  l.filter fun r => r.fromElement = f ∧ r.relationshipType = t

theorem mem_allWrites {l : List Relationship3} {k : Str} {x : Relationship3} :
    (k, x) ∈ allWrites l ↔ ∃ f t, (k, x) ∈ groupWrites (groupOf l f t) := by
  unfold allWrites
  simp only [List.mem_flatMap]
  constructor
  · rintro ⟨⟨⟨f, t⟩, g⟩, hg, hx⟩
    rw [Dict.mem_groupBy] at hg
    refine ⟨f, t, ?_⟩
    have : groupOf l f t = g := by
      rw [hg.2]; unfold groupOf; congr 1; funext r; simp [Prod.ext_iff]
    rw [this]; exact hx
  · rintro ⟨f, t, hx⟩
    have hne : groupOf l f t ≠ [] := by rintro h; rw [h] at hx; simp [groupWrites] at hx
    obtain ⟨r, hr⟩ := List.exists_mem_of_ne_nil _ hne
    simp only [groupOf, List.mem_filter, decide_eq_true_eq] at hr
    refine ⟨((f, t), groupOf l f t), ?_, hx⟩
    rw [Dict.mem_groupBy]
    refine ⟨List.mem_map.2 ⟨r, hr.1, by rw [hr.2.1, hr.2.2]⟩, ?_⟩
    unfold groupOf; congr 1; funext r; simp [Prod.ext_iff]

/-- How the writes of a group look: for one of at least two. -/
theorem groupWrites_many (g : List Relationship3) (last : Relationship3) (hl : g.getLast? = some last) (h2 : 2 ≤ g.length) :
    groupWrites g =
      if (g.filter (fun r => !r.hasComment)).flatMap (·.to) = [] then (g.filter (·.hasComment)).map fun r => (r.spdxId, r)
      else (g.filter (·.hasComment)).map (fun r => (r.spdxId,
          if r.spdxId = last.spdxId then mergedRelationship last (g.filter (fun r => !r.hasComment)) else r)) ++
        [((mergedRelationship last (g.filter (fun r => !r.hasComment))).spdxId, mergedRelationship last (g.filter (fun r => !r.hasComment)))] := by
  match g, h2 with
  | r :: r' :: rs, _ =>
    have : (r' :: rs).getLast (by simp) = last := by
      simpa [List.getLast?_eq_some_getLast, List.getLast_cons] using hl
    simp only [groupWrites, this]

theorem merged_id {g : List Relationship3} {last : Relationship3}
    (hne : (g.filter (fun r => !r.hasComment)).flatMap (·.to) ≠ []) :
    ∃ r ∈ g, r.hasComment = false ∧ (mergedRelationship last (g.filter (fun r => !r.hasComment))).spdxId = r.spdxId ∧
      (g.filter (fun r => !r.hasComment)).getLast? = some r := by
  cases h : (g.filter (fun r => !r.hasComment)).getLast? with
  | none => rw [List.getLast?_eq_none_iff] at h; simp [h] at hne
  | some r =>
    have hm := List.mem_of_getLast? h
    simp only [List.mem_filter, Bool.not_eq_true'] at hm
    exact ⟨r, hm.1, hm.2, by simp [mergedRelationship, h], rfl⟩

/-- A write's key is the identifier of a member of the group. -/
theorem groupWrites_key {g : List Relationship3} {k : Str} {x : Relationship3} (h : (k, x) ∈ groupWrites g) :
    ∃ r ∈ g, r.spdxId = k := by
  match g with
  | [] => simp [groupWrites] at h
  | [r] => simp only [groupWrites, List.mem_singleton, Prod.mk.injEq] at h; exact ⟨r, by simp, h.1.symm⟩
  | r :: r' :: rs =>
    rw [groupWrites_many _ ((r' :: rs).getLast (by simp)) (by simp [List.getLast?_cons, List.getLast?_eq_some_getLast, List.getLast_cons]) (by simp)] at h
    split at h
    · simp only [List.mem_map, List.mem_filter, Prod.mk.injEq] at h
      obtain ⟨y, ⟨hy, _⟩, e, _⟩ := h
      exact ⟨y, hy, e⟩
    · rename_i hne
      simp only [List.mem_append, List.mem_map, List.mem_filter, Prod.mk.injEq, List.mem_singleton] at h
      rcases h with ⟨y, ⟨hy, _⟩, e, _⟩ | ⟨e, _⟩
      · exact ⟨y, hy, e⟩
      · obtain ⟨y, hy, _, e', _⟩ := merged_id (last := (r' :: rs).getLast (by simp)) hne
        exact ⟨y, hy, by rw [e, e']⟩

theorem groupWrites_consistent {g : List Relationship3} (hinj : ∀ x ∈ g, ∀ y ∈ g, x.spdxId = y.spdxId → x = y) :
    Consistent (groupWrites g) := by
  intro k v v' hv hv'
  match g with
  | [] => simp [groupWrites] at hv
  | [r] =>
    simp only [groupWrites, List.mem_singleton, Prod.mk.injEq] at hv hv'
    rw [hv.2, hv'.2]
  | r :: r' :: rs =>
    obtain ⟨last, hlast⟩ : ∃ last, last = (r' :: rs).getLast (by simp) := ⟨_, rfl⟩
    have hl : (r :: r' :: rs).getLast? = some last := by
      rw [hlast]; simp [List.getLast?_cons, List.getLast?_eq_some_getLast, List.getLast_cons]
    rw [groupWrites_many _ last hl (by simp)] at hv hv'
    generalize r :: r' :: rs = g at *
    split at hv
    · rename_i he
      rw [if_pos he] at hv'
      simp only [List.mem_map, List.mem_filter, Prod.mk.injEq] at hv hv'
      obtain ⟨a, ⟨ha, _⟩, e1, rfl⟩ := hv
      obtain ⟨b, ⟨hb, _⟩, e2, rfl⟩ := hv'
      exact hinj a ha b hb (by rw [e1, e2])
    · rename_i he
      rw [if_neg he] at hv'
      obtain ⟨m, hm, hmc, hmi, _⟩ := merged_id (last := last) he
      have key : ∀ a ∈ g, a.hasComment = true → a.spdxId ≠ m.spdxId := by
        intro a ha hac e
        rw [hinj a ha m hm e, hmc] at hac
        cases hac
      simp only [List.mem_append, List.mem_map, List.mem_filter, Prod.mk.injEq, List.mem_singleton] at hv hv'
      rcases hv with ⟨a, ⟨ha, hac⟩, e1, rfl⟩ | ⟨e1, rfl⟩
      · rcases hv' with ⟨b, ⟨hb, _⟩, e2, rfl⟩ | ⟨e2, rfl⟩
        · rw [hinj a ha b hb (by rw [e1, e2])]
        · exact absurd (by rw [e1, e2, hmi]) (key a ha hac)
      · rcases hv' with ⟨b, ⟨hb, hbc⟩, e2, rfl⟩ | ⟨e2, rfl⟩
        · exact absurd (by rw [e2, e1, hmi]) (key b hb hbc)
        · rfl

theorem allWrites_consistent (ns : Str) (rs : List Relationship) : Consistent (allWrites (bumpedRelationships ns rs)) := by
  intro k v v' hv hv'
  obtain ⟨f, t, hv⟩ := mem_allWrites.1 hv
  obtain ⟨f', t', hv'⟩ := mem_allWrites.1 hv'
  obtain ⟨a, ha, ea⟩ := groupWrites_key hv
  obtain ⟨b, hb, eb⟩ := groupWrites_key hv'
  simp only [groupOf, List.mem_filter, decide_eq_true_eq] at ha hb
  have := bumped_ids_inj ha.1 hb.1 (by rw [ea, eb])
  subst this
  obtain ⟨_, rfl, rfl⟩ := ha
  obtain ⟨_, rfl, rfl⟩ := hb
  refine groupWrites_consistent ?_ k v v' hv hv'
  intro x hx y hy e
  exact bumped_ids_inj (List.mem_filter.1 hx).1 (List.mem_filter.1 hy).1 e

theorem elementWrites_consistent (ns : Str) (rs : List Relationship) :
    Consistent ((allWrites (bumpedRelationships ns rs)).map fun x => (x.1, Element3.relationship x.2)) := by
  intro k v v' hv hv'
  simp only [List.mem_map, Prod.mk.injEq, Prod.exists] at hv hv'
  obtain ⟨_, a, ha, rfl, rfl⟩ := hv
  obtain ⟨_, b, hb, rfl, rfl⟩ := hv'
  rw [allWrites_consistent ns rs _ _ _ ha hb]

/-- What the payload holds after the relationships were migrated. -/
theorem bumpRelationships_get_mem {ns : Str} {rs : List Relationship} (p : Payload) {k : Str} {x : Relationship3}
    (h : (k, x) ∈ allWrites (bumpedRelationships ns rs)) : (bumpRelationships ns rs p).get? k = some (.relationship x) := by
  rw [bumpRelationships_eq]
  exact get?_update_mem _ _ (elementWrites_consistent ns rs) _ _ (List.mem_map.2 ⟨_, h, rfl⟩)

theorem bumpRelationships_get_not_mem {ns : Str} {rs : List Relationship} (p : Payload) {k : Str}
    (h : ∀ x, (k, x) ∉ allWrites (bumpedRelationships ns rs)) : (bumpRelationships ns rs p).get? k = p.get? k := by
  rw [bumpRelationships_eq]
  refine get?_update_not_mem _ _ _ ?_
  intro v hv
  simp only [List.mem_map, Prod.mk.injEq, Prod.exists] at hv
  obtain ⟨_, a, ha, rfl, rfl⟩ := hv
  exact h a ha

theorem allWrites_id {ns : Str} {rs : List Relationship} {k : Str} {x : Relationship3}
    (h : (k, x) ∈ allWrites (bumpedRelationships ns rs)) : ∃ n < rs.length, k = relationshipId ns n := by
  obtain ⟨f, t, hv⟩ := mem_allWrites.1 h
  obtain ⟨a, ha, ea⟩ := groupWrites_key hv
  obtain ⟨n, hn, e⟩ := bumped_id (List.mem_filter.1 ha).1
  exact ⟨n, hn, by rw [← ea, e]⟩

/-! The payload step by step -/

theorem Payload.get?_add (p : Payload) (e : Element3) (k : Str) : (p.add e).get? k = if e.spdxId = k then some e else p.get? k :=
  Dict.get?_set ..

theorem Payload.nodup_add (p : Payload) (e : Element3) (h : p.keys.Nodup) : (p.add e).keys.Nodup := Dict.nodup_keys_set _ _ _ h

/-- An actor never replaces an element. -/
theorem bumpActor_keeps {ns : Str} {ci : Option CreationInfo3} {a : Actor} {p : Payload} {k : Str} {e : Element3}
    (h : p.get? k = some e) : (bumpActor ns ci a p).get? k = some e := by
  unfold bumpActor
  split
  · exact h
  · rename_i hn
    rw [Payload.get?_add]
    split
    · rename_i he
      change actorId ns a = k at he
      rw [he] at hn
      exact absurd ((Dict.get?_isSome _ _).1 (by simp [h])) hn
    · exact h

/-- What an actor adds. -/
theorem bumpActor_get {ns : Str} {ci : Option CreationInfo3} {a : Actor} {p : Payload} {k : Str} {e : Element3}
    (h : (bumpActor ns ci a p).get? k = some e) :
    p.get? k = some e ∨ (k = actorId ns a ∧ ∃ x, e = .agent x ∧ x.spdxId = k ∧ ∃ ci, x = bumpedActor ns ci a) := by
  unfold bumpActor at h
  split at h
  · exact .inl h
  · rw [Payload.get?_add] at h
    split at h
    · rename_i he
      cases h
      exact .inr ⟨he.symm, _, rfl, he, _, rfl⟩
    · exact .inl h

theorem bumpActor_mem {ns : Str} {ci : Option CreationInfo3} {a : Actor} {p : Payload} : actorId ns a ∈ (bumpActor ns ci a p).keys := by
  unfold bumpActor
  split
  · assumption
  · exact (Dict.mem_keys_set ..).2 (.inl rfl)

theorem bumpActor_nodup {ns : Str} {ci : Option CreationInfo3} {a : Actor} {p : Payload} (h : p.keys.Nodup) :
    (bumpActor ns ci a p).keys.Nodup := by
  unfold bumpActor
  split
  · exact h
  · exact Payload.nodup_add _ _ h

theorem bumpActorOpt_keeps {ns : Str} {a : Option (OrNoAssertion Actor)} {p : Payload} {k : Str} {e : Element3}
    (h : p.get? k = some e) : (bumpActorOpt ns a p).get? k = some e := by
  unfold bumpActorOpt
  split
  · exact bumpActor_keeps h
  · exact h

theorem bumpActorOpt_get {ns : Str} {o : Option (OrNoAssertion Actor)} {p : Payload} {k : Str} {e : Element3}
    (h : (bumpActorOpt ns o p).get? k = some e) :
    p.get? k = some e ∨ ∃ a, o = some (.val a) ∧ k = actorId ns a ∧
      ∃ x, e = .agent x ∧ x.spdxId = k ∧ ∃ ci, x = bumpedActor ns ci a := by
  unfold bumpActorOpt at h
  split at h
  · rename_i a
    rcases bumpActor_get h with h | h
    · exact .inl h
    · exact .inr ⟨a, rfl, h⟩
  · exact .inl h

theorem bumpActorOpt_nodup {ns : Str} {a : Option (OrNoAssertion Actor)} {p : Payload} (h : p.keys.Nodup) :
    (bumpActorOpt ns a p).keys.Nodup := by
  unfold bumpActorOpt
  split
  · exact bumpActor_nodup h
  · exact h

theorem finishDocument_get (docId : Str) (im : List ExternalMap3) (p : Payload) (k : Str) :
    (finishDocument docId im p).get? k = (p.get? k).map fun e => match e with
      | .document d => .document { d with imports := d.imports ++ im, element := p.keys.filter (· ≠ docId) }
      | e => e := by
  unfold finishDocument
  generalize p.keys.filter (· ≠ docId) = ids
  induction p with
  | nil => rfl
  | cons x p ih =>
    obtain ⟨k', e⟩ := x
    simp only [List.map_cons, Dict.get?]
    split
    · rfl
    · exact ih

theorem finishDocument_keys (docId : Str) (im : List ExternalMap3) (p : Payload) : (finishDocument docId im p).keys = p.keys := by
  unfold finishDocument Dict.keys
  rw [List.map_map]
  rfl

/-! Folds that can fail -/

theorem foldlM_append_ok {ε σ α : Type} (f : σ → α → Except ε σ) (a b : List α) (s t : σ) :
    (a ++ b).foldlM f s = .ok t ↔ ∃ m, a.foldlM f s = .ok m ∧ b.foldlM f m = .ok t := by
  induction a generalizing s with
  | nil =>
    simp only [List.nil_append, List.foldlM_nil]
    constructor
    · intro h; exact ⟨s, rfl, h⟩
    · rintro ⟨m, hm, h⟩; cases hm; exact h
  | cons x a ih =>
    simp only [List.cons_append, List.foldlM_cons]
    cases hx : f s x with
    | error e => simp [bind, Except.bind]
    | ok s' => simpa [bind, Except.bind] using ih s'

theorem foldlM_inv {ε σ α : Type} (f : σ → α → Except ε σ) (P : σ → Prop) (l : List α) (s t : σ) (h : l.foldlM f s = .ok t)
    (hstep : ∀ x ∈ l, ∀ s s', f s x = .ok s' → P s → P s') (hs : P s) : P t := by
  induction l generalizing s with
  | nil => cases h; exact hs
  | cons x l ih =>
    simp only [List.foldlM_cons] at h
    cases hx : f s x with
    | error e => simp [hx, bind, Except.bind] at h
    | ok s' =>
      rw [hx] at h
      exact ih s' h (fun y hy => hstep y (.tail _ hy)) (hstep x (.head _) s s' hx hs)

theorem foldl_inv {σ α : Type} (f : σ → α → σ) (P : σ → Prop) (l : List α) (s : σ)
    (hstep : ∀ x ∈ l, ∀ s, P s → P (f s x)) (hs : P s) : P (l.foldl f s) := by
  induction l generalizing s with
  | nil => exact hs
  | cons x l ih => exact ih _ (fun y hy => hstep y (.tail _ hy)) (hstep x (.head _) s hs)

/-- A fold succeeds exactly if no step can fail. -/
theorem foldlM_ok_iff {ε σ α : Type} (f : σ → α → Except ε σ) (good : α → Prop)
    (hgood : ∀ s x, (∃ s', f s x = .ok s') ↔ good x) (l : List α) (s : σ) : (∃ t, l.foldlM f s = .ok t) ↔ ∀ x ∈ l, good x := by
  induction l generalizing s with
  | nil => exact ⟨fun _ => by simp, fun _ => ⟨s, rfl⟩⟩
  | cons x l ih =>
    simp only [List.foldlM_cons, List.mem_cons, forall_eq_or_imp]
    rw [← hgood s x]
    cases hx : f s x with
    | error e => simp [bind, Except.bind]
    | ok s' => simpa [bind, Except.bind] using ih s'

/-! The migration as a sequence of steps -/

theorem bumpDocument_ok {d : Document} {p : Payload} (h : bumpDocument d = .ok p) : ∃ s1 s2 s3,
    d.packages.foldlM (bumpPackage d.creationInfo.documentNamespace d.creationInfo.externalDocumentRefs)
      { payload := (bumpCreators d.creationInfo []).add (.document (bumpedDocument d)), imports := [] } = .ok s1 ∧
    d.files.foldlM (bumpFile d.creationInfo.documentNamespace d.creationInfo.externalDocumentRefs) s1 = .ok s2 ∧
    d.snippets.foldlM (bumpSnippet d.creationInfo.documentNamespace d.creationInfo.externalDocumentRefs) s2 = .ok s3 ∧
    p = finishDocument (bumpedDocument d).spdxId s3.imports (bumpLinks d s3.payload) := by
  simp only [bumpDocument, bumpElements, bind, Except.bind] at h
  split at h
  · cases h
  · rename_i st hst
    split at hst
    · cases hst
    · rename_i s1 h1
      split at hst
      · cases hst
      · rename_i s2 h2
        cases h
        exact ⟨s1, s2, st, h1, h2, hst, rfl⟩

theorem bumpPackage_ok {ns : Str} {refs : List ExternalDocumentRef} {s t : BumpState} {x : Package} (h : bumpPackage ns refs s x = .ok t) :
    ∃ id q, getFullElementId x.spdxId ns refs = .ok id ∧ bumpedPackage ns id x = .ok q ∧ q.spdxId = id ∧
      t.payload = (bumpActorOpt ns x.originator (bumpActorOpt ns x.supplier s.payload)).add (.package q) ∧
      t.imports = s.imports ++ importOf x.spdxId := by
  unfold bumpPackage at h
  split at h
  · cases h
  · rename_i id hid
    split at h
    · cases h
    · rename_i q hq
      cases h
      refine ⟨id, q, hid, hq, ?_, rfl, rfl⟩
      simp only [bumpedPackage] at hq
      split at hq <;> cases hq <;> rfl

theorem bumpFile_ok {ns : Str} {refs : List ExternalDocumentRef} {s t : BumpState} {x : File} (h : bumpFile ns refs s x = .ok t) :
    ∃ id, getFullElementId x.spdxId ns refs = .ok id ∧ t.payload = s.payload.add (.file (bumpedFile id x)) ∧
      t.imports = s.imports ++ importOf x.spdxId := by
  unfold bumpFile at h
  split at h
  · cases h
  · rename_i id hid; cases h; exact ⟨id, hid, rfl, rfl⟩

theorem bumpSnippet_ok {ns : Str} {refs : List ExternalDocumentRef} {s t : BumpState} {x : Snippet} (h : bumpSnippet ns refs s x = .ok t) :
    ∃ id, getFullElementId x.spdxId ns refs = .ok id ∧ t.payload = s.payload.add (.snippet (bumpedSnippet id x)) ∧
      t.imports = s.imports ++ importOf x.spdxId := by
  unfold bumpSnippet at h
  split at h
  · cases h
  · rename_i id hid; cases h; exact ⟨id, hid, rfl, rfl⟩

/-! What later steps keep -/

theorem packages_keep {ns : Str} {refs : List ExternalDocumentRef} {l : List Package} {s t : BumpState} {k : Str} {e : Element3}
    (h : l.foldlM (bumpPackage ns refs) s = .ok t) (hk : ∀ x ∈ l, getFullElementId x.spdxId ns refs ≠ .ok k)
    (hs : s.payload.get? k = some e) : t.payload.get? k = some e := by
  refine foldlM_inv _ (fun s => s.payload.get? k = some e) l s t h ?_ hs
  intro x hx s s' hstep hs
  obtain ⟨id, q, hid, hq, hqi, hp, _⟩ := bumpPackage_ok hstep
  have hne : id ≠ k := by rintro rfl; exact hk x hx hid
  rw [hp, Payload.get?_add]
  simp only [Element3.spdxId, hqi, hne, if_false]
  exact bumpActorOpt_keeps (bumpActorOpt_keeps hs)

theorem files_keep {ns : Str} {refs : List ExternalDocumentRef} {l : List File} {s t : BumpState} {k : Str} {e : Element3}
    (h : l.foldlM (bumpFile ns refs) s = .ok t) (hk : ∀ x ∈ l, getFullElementId x.spdxId ns refs ≠ .ok k)
    (hs : s.payload.get? k = some e) : t.payload.get? k = some e := by
  refine foldlM_inv _ (fun s => s.payload.get? k = some e) l s t h ?_ hs
  intro x hx s s' hstep hs
  obtain ⟨id, hid, hp, _⟩ := bumpFile_ok hstep
  have hne : id ≠ k := by rintro rfl; exact hk x hx hid
  rw [hp, Payload.get?_add]
  simp only [Element3.spdxId, bumpedFile, hne, if_false]
  exact hs

theorem snippets_keep {ns : Str} {refs : List ExternalDocumentRef} {l : List Snippet} {s t : BumpState} {k : Str} {e : Element3}
    (h : l.foldlM (bumpSnippet ns refs) s = .ok t) (hk : ∀ x ∈ l, getFullElementId x.spdxId ns refs ≠ .ok k)
    (hs : s.payload.get? k = some e) : t.payload.get? k = some e := by
  refine foldlM_inv _ (fun s => s.payload.get? k = some e) l s t h ?_ hs
  intro x hx s s' hstep hs
  obtain ⟨id, hid, hp, _⟩ := bumpSnippet_ok hstep
  have hne : id ≠ k := by rintro rfl; exact hk x hx hid
  rw [hp, Payload.get?_add]
  simp only [Element3.spdxId, bumpedSnippet, hne, if_false]
  exact hs

theorem annotations_keep {ns : Str} {ci : CreationInfo3} {l : List (Annotation × Nat)} {p : Payload} {k : Str} {e : Element3}
    (hk : ∀ x ∈ l, annotationId ns x.2 ≠ k) (hs : p.get? k = some e) : (l.foldl (bumpAnnotation ns ci) p).get? k = some e := by
  refine foldl_inv _ (fun p => p.get? k = some e) l p ?_ hs
  intro x hx p hp
  unfold bumpAnnotation
  rw [Payload.get?_add]
  simp only [Element3.spdxId, hk x hx, if_false]
  exact bumpActor_keeps hp

theorem links_keep {d : Document} {p : Payload} {k : Str} {e : Element3}
    (hr : ∀ n < d.relationships.length, relationshipId d.creationInfo.documentNamespace n ≠ k)
    (ha : ∀ n < d.annotations.length, annotationId d.creationInfo.documentNamespace n ≠ k) (hs : p.get? k = some e) :
    (bumpLinks d p).get? k = some e := by
  unfold bumpLinks
  refine annotations_keep ?_ ?_
  · intro x hx
    have := List.mem_zipIdx_iff_getElem?.1 hx
    exact ha _ (List.getElem?_eq_some_iff.1 this).1
  · rw [bumpRelationships_get_not_mem]
    · exact hs
    · intro x hx
      obtain ⟨n, hn, rfl⟩ := allWrites_id hx
      exact hr n hn rfl

theorem bumpCreators_nodup (c : CreationInfo) : (bumpCreators c []).keys.Nodup := by
  unfold bumpCreators
  exact foldl_inv _ (fun p : Payload => p.keys.Nodup) _ _ (fun _ _ _ h => bumpActor_nodup h) (by simp [Dict.keys])

theorem bumpLinks_nodup (d : Document) (p : Payload) (h : p.keys.Nodup) : (bumpLinks d p).keys.Nodup := by
  unfold bumpLinks
  refine foldl_inv _ (fun p : Payload => p.keys.Nodup) _ _ ?_ ?_
  · intro x _ p hp
    exact Payload.nodup_add _ _ (bumpActor_nodup hp)
  · rw [bumpRelationships_eq]; exact Dict.nodup_keys_update _ _ h

/-- The identifiers in the payload are distinct. -/
theorem bumpDocument_nodup {d : Document} {p : Payload} (h : bumpDocument d = .ok p) : p.keys.Nodup := by
  obtain ⟨s1, s2, s3, h1, h2, h3, rfl⟩ := bumpDocument_ok h
  rw [finishDocument_keys]
  refine bumpLinks_nodup d _ ?_
  have g1 : s1.payload.keys.Nodup := foldlM_inv _ (fun s => s.payload.keys.Nodup) _ _ _ h1 (by
    intro x _ s s' hs hp
    obtain ⟨id, q, _, _, _, e, _⟩ := bumpPackage_ok hs
    rw [e]; exact Payload.nodup_add _ _ (bumpActorOpt_nodup (bumpActorOpt_nodup hp))) (Payload.nodup_add _ _ (bumpCreators_nodup _))
  have g2 : s2.payload.keys.Nodup := foldlM_inv _ (fun s => s.payload.keys.Nodup) _ _ _ h2 (by
    intro x _ s s' hs hp
    obtain ⟨id, _, e, _⟩ := bumpFile_ok hs
    rw [e]; exact Payload.nodup_add _ _ hp) g1
  exact foldlM_inv _ (fun s => s.payload.keys.Nodup) _ _ _ h3 (by
    intro x _ s s' hs hp
    obtain ⟨id, _, e, _⟩ := bumpSnippet_ok hs
    rw [e]; exact Payload.nodup_add _ _ hp) g2

end Spdx
