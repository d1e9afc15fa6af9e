import Verif.Lemmas.Bump
/-
C35 – Relationships with the same source, type and completeness are merged into one whose targets are the concatenation of all targets.

The code merges the relationships of the same source and type, whatever their completeness. The statement holds for the relationships
without a comment when at least one of them has a target (`merged_partial`). It is false in general: see `target_lost`, `empty_group_dropped`
and `scope_lost`.
-/
namespace Spdx.C35
open Spdx

/-! ### Specification -/

/-- The migrated relationships (see C34) of one source and one type, in order. -/
def group (ns : Str) (rs : List Relationship) (source : Str) (type : RelationshipType3) : List Relationship3 :=
  (bumpedRelationships ns rs).filter fun r => r.fromElement = source ∧ r.relationshipType = type

/-- A relationship with a (non-empty) comment. -/
def Commented (r : Relationship3) : Prop := ∃ c, r.comment = some c ∧ c ≠ []

/-- The last relationship of the group has no comment, unless it is the only one. -/
def LastPlain (g : List Relationship3) : Prop := g.length ≤ 1 ∨ ∀ r, g.getLast? = some r → ¬ Commented r

/-- `x` is a relationship in the payload. -/
def Stored (p : Payload) (x : Relationship3) : Prop := p.get? x.spdxId = some (.relationship x)

/-- The first value that is there. -/
def firstCompleteness : List Relationship3 → Option Completeness
  | [] => none
  | r :: rs => match r.completeness with
    | some c => some c
    | none => firstCompleteness rs

/-- The relationships of a group without a comment. -/
def plainOf (g : List Relationship3) : List Relationship3 := g.filter fun r => r.comment = none ∨ r.comment = some []

/-- What becomes of a group: `x` is found under the identifier `k`.  A single relationship stays.  Of several, those with a comment stay,
    and those without become one, if they have a target; but if the last relationship of the group has a comment it is overwritten by that
    one. -/
inductive Becomes (g : List Relationship3) : Str → Relationship3 → Prop
  | single (r : Relationship3) : g = [r] → Becomes g r.spdxId r
  | commented (r last : Relationship3) : 2 ≤ g.length → g.getLast? = some last → r ∈ g → Commented r →
      ((plainOf g).flatMap (·.to) = [] ∨ r ≠ last) → Becomes g r.spdxId r
  | merged (last plain : Relationship3) (k : Str) : 2 ≤ g.length → g.getLast? = some last → (plainOf g).getLast? = some plain →
      (plainOf g).flatMap (·.to) ≠ [] → (k = plain.spdxId ∨ (k = last.spdxId ∧ Commented last)) →
      Becomes g k
        { last with
          spdxId := plain.spdxId, to := (plainOf g).flatMap (·.to), completeness := firstCompleteness (plainOf g), comment := none }

/-! ### Theorems -/

private theorem commented_iff (r : Relationship3) : r.hasComment = true ↔ Commented r := by
  unfold Relationship3.hasComment Commented
  cases r.comment with
  | none => simp
  | some c => simp

private theorem plain_iff (r : Relationship3) : r.hasComment = false ↔ ¬ Commented r := by
  rw [← commented_iff, Bool.not_eq_true]

private theorem first_eq (l : List Relationship3) : mergedCompleteness l = firstCompleteness l := by
  unfold mergedCompleteness
  induction l with
  | nil => rfl
  | cons r l ih => rw [List.findSome?_cons, firstCompleteness, ih]; cases r.completeness <;> rfl

private theorem mem_group {ns : Str} {rs : List Relationship} {f : Str} {t : RelationshipType3} {x : Relationship3} :
    x ∈ group ns rs f t ↔ x ∈ bumpedRelationships ns rs ∧ x.fromElement = f ∧ x.relationshipType = t := by
  simp [group, List.mem_filter]

private theorem cases_length (g : List Relationship3) (hne : g ≠ []) : (∃ r, g = [r]) ∨ (2 ≤ g.length ∧ ∃ last, g.getLast? = some last) := by
  match g, hne with
  | [r], _ => exact .inl ⟨r, rfl⟩
  | r :: r' :: rs, _ => exact .inr ⟨by simp, _, List.getLast?_eq_some_getLast (by simp)⟩

private theorem filter_plain {g : List Relationship3} (h : ∀ r ∈ g, ¬ Commented r) :
    g.filter (fun r => !r.hasComment) = g ∧ g.filter (·.hasComment) = [] := by
  constructor
  · exact List.filter_eq_self.2 fun r hr => by simp [(plain_iff r).2 (h r hr)]
  · exact List.filter_eq_nil_iff.2 fun r hr => by simp [(plain_iff r).2 (h r hr)]

/-- The writes of a group of plain relationships. -/
private theorem writes_plain {g : List Relationship3} (h : ∀ r ∈ g, ¬ Commented r) (ht : g.flatMap (·.to) ≠ []) (f : Str)
    (t : RelationshipType3) (hf : ∀ r ∈ g, r.fromElement = f ∧ r.relationshipType = t) :
    ∃ x, groupWrites g = [(x.spdxId, x)] ∧ x.fromElement = f ∧ x.relationshipType = t ∧ x.to = g.flatMap (·.to) ∧ ¬ Commented x ∧
      x.completeness = firstCompleteness g := by
  have hne : g ≠ [] := by rintro rfl; simp at ht
  rcases cases_length g hne with ⟨r, rfl⟩ | ⟨h2, last, hl⟩
  · refine ⟨r, rfl, (hf r (by simp)).1, (hf r (by simp)).2, by simp, h r (by simp), ?_⟩
    simp only [firstCompleteness]; cases r.completeness <;> rfl
  · have hm := List.mem_of_getLast? hl
    obtain ⟨e1, e2⟩ := filter_plain h
    rw [groupWrites_many g last hl h2, e1, e2, if_neg ht]
    refine ⟨mergedRelationship last g, rfl, (hf last hm).1, (hf last hm).2, rfl, ?_, first_eq g⟩
    simp [Commented, mergedRelationship]

/-- If the relationships of a source and type have no comments and not all targets are missing, then the payload holds exactly one
    relationship of that source and type; its targets are all their targets in order, and its completeness is the first one given. (Missing
    from the full statement: groups with comments, and groups without any target.) -/
theorem merged_partial (ns : Str) (rs : List Relationship) (f : Str) (t : RelationshipType3) (p : Payload)
    (hc : ∀ r ∈ group ns rs f t, ¬ Commented r) (ht : (group ns rs f t).flatMap (·.to) ≠ []) :
    ∃ x, Stored (bumpRelationships ns rs p) x ∧ x.fromElement = f ∧ x.relationshipType = t ∧
      x.to = (group ns rs f t).flatMap (·.to) ∧ x.completeness = firstCompleteness (group ns rs f t) ∧ ¬ Commented x ∧
      ∀ k y, (bumpRelationships ns rs []).get? k = some (.relationship y) → y.fromElement = f → y.relationshipType = t →
        k = x.spdxId ∧ y = x := by
  obtain ⟨x, hw, hxf, hxt, hto, hxc, hcomp⟩ := writes_plain hc ht f t (fun r hr => (mem_group.1 hr).2)
  refine ⟨x, bumpRelationships_get_mem p (mem_allWrites.2 ⟨f, t, ?_⟩), hxf, hxt, hto, hcomp, hxc, ?_⟩
  · show _ ∈ groupWrites (group ns rs f t)
    rw [hw]; simp
  · intro k y hk hyf hyt
    have hw' : (k, y) ∈ allWrites (bumpedRelationships ns rs) := by
      by_cases hm : ∃ z, (k, z) ∈ allWrites (bumpedRelationships ns rs)
      · obtain ⟨z, hz⟩ := hm
        rw [bumpRelationships_get_mem [] hz] at hk
        cases hk; exact hz
      · rw [bumpRelationships_get_not_mem [] (fun z hz => hm ⟨z, hz⟩)] at hk
        simp [Dict.get?] at hk
    obtain ⟨f', t', hg⟩ := mem_allWrites.1 hw'
    have hsame : f' = f ∧ t' = t := by
      have := writes_source hg
      rw [← hyf, ← hyt]
      exact ⟨this.1.symm, this.2.symm⟩
    obtain ⟨rfl, rfl⟩ := hsame
    change _ ∈ groupWrites (group ns rs f' t') at hg
    rw [hw] at hg
    simpa using hg
where
  writes_source {ns : Str} {rs : List Relationship} {f : Str} {t : RelationshipType3} {k : Str} {y : Relationship3}
      (h : (k, y) ∈ groupWrites (groupOf (bumpedRelationships ns rs) f t)) : y.fromElement = f ∧ y.relationshipType = t := by
    have hf : ∀ r ∈ groupOf (bumpedRelationships ns rs) f t, r.fromElement = f ∧ r.relationshipType = t := by
      intro r hr; simpa using (List.mem_filter.1 hr).2
    generalize groupOf (bumpedRelationships ns rs) f t = g at h hf
    by_cases hne : g = []
    · subst hne; simp [groupWrites] at h
    · rcases cases_length g hne with ⟨r, rfl⟩ | ⟨h2, last, hl⟩
      · simp only [groupWrites, List.mem_singleton, Prod.mk.injEq] at h
        rw [h.2]; exact hf r (by simp)
      · have hm := List.mem_of_getLast? hl
        rw [groupWrites_many g last hl h2] at h
        split at h
        · simp only [List.mem_map, List.mem_filter, Prod.mk.injEq] at h
          obtain ⟨a, ⟨ha, _⟩, _, rfl⟩ := h
          exact hf a ha
        · simp only [List.mem_append, List.mem_map, List.mem_filter, Prod.mk.injEq, List.mem_singleton] at h
          rcases h with ⟨a, ⟨ha, _⟩, _, rfl⟩ | ⟨_, rfl⟩
          · split
            · exact hf last hm
            · exact hf a ha
          · exact hf last hm

/-- Every target of every relationship is kept in a stored relationship of the same source and type, if the last relationship of the group
    has no comment. -/
theorem targets_partial (ns : Str) (rs : List Relationship) (p : Payload) (r : Relationship3) (hr : r ∈ bumpedRelationships ns rs)
    (target : Str) (ht : target ∈ r.to) (hl : LastPlain (group ns rs r.fromElement r.relationshipType)) :
    ∃ x, Stored (bumpRelationships ns rs p) x ∧ x.fromElement = r.fromElement ∧ x.relationshipType = r.relationshipType ∧ target ∈ x.to := by
  have hg : r ∈ group ns rs r.fromElement r.relationshipType := mem_group.2 ⟨hr, rfl, rfl⟩
  have hf : ∀ y ∈ group ns rs r.fromElement r.relationshipType, y.fromElement = r.fromElement ∧ y.relationshipType = r.relationshipType :=
    fun y hy => (mem_group.1 hy).2
  have hinj : ∀ x ∈ group ns rs r.fromElement r.relationshipType, ∀ y ∈ group ns rs r.fromElement r.relationshipType,
      x.spdxId = y.spdxId → x = y := fun x hx y hy e => bumped_ids_inj (mem_group.1 hx).1 (mem_group.1 hy).1 e
  suffices h : ∃ x, (x.spdxId, x) ∈ groupWrites (group ns rs r.fromElement r.relationshipType) ∧ x.fromElement = r.fromElement ∧
      x.relationshipType = r.relationshipType ∧ target ∈ x.to by
    obtain ⟨x, hx, h⟩ := h
    exact ⟨x, bumpRelationships_get_mem p (mem_allWrites.2 ⟨_, _, hx⟩), h⟩
  generalize group ns rs r.fromElement r.relationshipType = g at *
  rcases cases_length g (List.ne_nil_of_mem hg) with ⟨a, rfl⟩ | ⟨h2, last, hlast⟩
  · simp only [List.mem_singleton] at hg
    subst hg
    exact ⟨r, by simp [groupWrites], rfl, rfl, ht⟩
  · have hlc : ¬ Commented last := by
      rcases hl with hl | hl
      · omega
      · exact hl last hlast
    have hlm := List.mem_of_getLast? hlast
    rw [groupWrites_many g last hlast h2]
    by_cases hc : Commented r
    · have hlr : r.spdxId ≠ last.spdxId := fun e => hlc (hinj r hg last hlm e ▸ hc)
      have hmem : r ∈ g.filter (·.hasComment) := List.mem_filter.2 ⟨hg, (commented_iff r).2 hc⟩
      refine ⟨r, ?_, rfl, rfl, ht⟩
      split
      · exact List.mem_map.2 ⟨r, hmem, rfl⟩
      · exact List.mem_append_left _ (List.mem_map.2 ⟨r, hmem, by simp [hlr]⟩)
    · have hmem : r ∈ g.filter (fun r => !r.hasComment) := List.mem_filter.2 ⟨hg, by simp [(plain_iff r).2 hc]⟩
      have hto : target ∈ (g.filter (fun r => !r.hasComment)).flatMap (·.to) := List.mem_flatMap.2 ⟨r, hmem, ht⟩
      rw [if_neg (List.ne_nil_of_mem hto)]
      exact ⟨mergedRelationship last (g.filter (fun r => !r.hasComment)), by simp, (hf last hlm).1, (hf last hlm).2, hto⟩

/-- A relationship with a comment is kept as it is, unless it is the last of a group of several. -/
theorem commented_kept (ns : Str) (rs : List Relationship) (p : Payload) (r : Relationship3) (hr : r ∈ bumpedRelationships ns rs)
    (hc : Commented r) (hl : LastPlain (group ns rs r.fromElement r.relationshipType)) : Stored (bumpRelationships ns rs p) r := by
  have hg : r ∈ group ns rs r.fromElement r.relationshipType := mem_group.2 ⟨hr, rfl, rfl⟩
  have hinj : ∀ x ∈ group ns rs r.fromElement r.relationshipType, ∀ y ∈ group ns rs r.fromElement r.relationshipType,
      x.spdxId = y.spdxId → x = y := fun x hx y hy e => bumped_ids_inj (mem_group.1 hx).1 (mem_group.1 hy).1 e
  suffices h : (r.spdxId, r) ∈ groupWrites (group ns rs r.fromElement r.relationshipType) from
    bumpRelationships_get_mem p (mem_allWrites.2 ⟨_, _, h⟩)
  generalize group ns rs r.fromElement r.relationshipType = g at *
  rcases cases_length g (List.ne_nil_of_mem hg) with ⟨a, rfl⟩ | ⟨h2, last, hlast⟩
  · simp only [List.mem_singleton] at hg
    subst hg
    simp [groupWrites]
  · have hlc : ¬ Commented last := by
      rcases hl with hl | hl
      · omega
      · exact hl last hlast
    have hlr : r.spdxId ≠ last.spdxId := fun e => hlc (hinj r hg last (List.mem_of_getLast? hlast) e ▸ hc)
    have hmem : r ∈ g.filter (·.hasComment) := List.mem_filter.2 ⟨hg, (commented_iff r).2 hc⟩
    rw [groupWrites_many g last hlast h2]
    split
    · exact List.mem_map.2 ⟨r, hmem, rfl⟩
    · exact List.mem_append_left _ (List.mem_map.2 ⟨r, hmem, by simp [hlr]⟩)

/-- Nothing is invented: every relationship added has the source and type of migrated ones, and each of its targets is a target of one of
    these. -/
theorem nothing_added (ns : Str) (rs : List Relationship) (k : Str) (x : Relationship3)
    (h : (bumpRelationships ns rs []).get? k = some (.relationship x)) :
    (∃ r ∈ bumpedRelationships ns rs, k = r.spdxId ∧ r.fromElement = x.fromElement ∧ r.relationshipType = x.relationshipType) ∧
    ∀ target ∈ x.to, ∃ r ∈ bumpedRelationships ns rs, r.fromElement = x.fromElement ∧ r.relationshipType = x.relationshipType ∧
      target ∈ r.to := by
  have hw : (k, x) ∈ allWrites (bumpedRelationships ns rs) := by
    by_cases hm : ∃ z, (k, z) ∈ allWrites (bumpedRelationships ns rs)
    · obtain ⟨z, hz⟩ := hm
      rw [bumpRelationships_get_mem [] hz] at h
      cases h; exact hz
    · rw [bumpRelationships_get_not_mem [] (fun z hz => hm ⟨z, hz⟩)] at h
      simp [Dict.get?] at h
  obtain ⟨f, t, hg⟩ := mem_allWrites.1 hw
  obtain ⟨rfl, rfl⟩ := merged_partial.writes_source hg
  obtain ⟨a, ha, rfl⟩ := groupWrites_key hg
  have ha' := mem_group.1 ha
  refine ⟨⟨a, ha'.1, rfl, ha'.2.1, ha'.2.2⟩, ?_⟩
  change _ ∈ groupWrites (group ns rs x.fromElement x.relationshipType) at hg
  change a ∈ group ns rs x.fromElement x.relationshipType at ha
  suffices hs : ∀ target ∈ x.to, ∃ r ∈ group ns rs x.fromElement x.relationshipType, target ∈ r.to by
    intro target ht
    obtain ⟨r, hr, h⟩ := hs target ht
    exact ⟨r, (mem_group.1 hr).1, (mem_group.1 hr).2.1, (mem_group.1 hr).2.2, h⟩
  intro target ht
  generalize group ns rs x.fromElement x.relationshipType = g at *
  rcases cases_length g (List.ne_nil_of_mem ha) with ⟨b, rfl⟩ | ⟨h2, last, hlast⟩
  · simp only [groupWrites, List.mem_singleton, Prod.mk.injEq] at hg
    exact ⟨b, by simp, hg.2 ▸ ht⟩
  · have hmerged : target ∈ (mergedRelationship last (g.filter (fun r => !r.hasComment))).to → ∃ r ∈ g, target ∈ r.to := by
      intro h
      obtain ⟨r, hr, h⟩ := List.mem_flatMap.1 h
      exact ⟨r, (List.mem_filter.1 hr).1, h⟩
    rw [groupWrites_many g last hlast h2] at hg
    split at hg
    · simp only [List.mem_map, List.mem_filter, Prod.mk.injEq] at hg
      obtain ⟨b, ⟨hb, _⟩, _, rfl⟩ := hg
      exact ⟨b, hb, ht⟩
    · simp only [List.mem_append, List.mem_map, List.mem_filter, Prod.mk.injEq, List.mem_singleton] at hg
      rcases hg with ⟨b, ⟨hb, _⟩, _, hx⟩ | ⟨_, hx⟩
      · split at hx
        · rw [← hx] at ht; exact hmerged ht
        · rw [← hx] at ht; exact ⟨b, hb, ht⟩
      · rw [hx] at ht; exact hmerged ht

private theorem plainOf_eq (g : List Relationship3) : plainOf g = g.filter (fun r => !r.hasComment) := by
  unfold plainOf
  congr 1
  funext r
  unfold Relationship3.hasComment
  cases r.comment with
  | none => simp
  | some c => cases c <;> simp

protected theorem mem_plainOf {g : List Relationship3} {r : Relationship3} : r ∈ plainOf g ↔ r ∈ g ∧ ¬ Commented r := by
  rw [plainOf_eq, List.mem_filter, ← plain_iff]; simp

private theorem becomes_iff (g : List Relationship3) (hinj : ∀ x ∈ g, ∀ y ∈ g, x.spdxId = y.spdxId → x = y) (k : Str) (x : Relationship3) :
    (k, x) ∈ groupWrites g ↔ Becomes g k x := by
  by_cases hne : g = []
  · subst hne
    simp only [groupWrites, List.not_mem_nil, false_iff]
    intro h
    cases h with
    | single _ e => cases e
    | commented _ _ h => simp at h
    | merged _ _ _ h => simp at h
  rcases cases_length g hne with ⟨a, rfl⟩ | ⟨h2, last, hlast⟩
  · simp only [groupWrites, List.mem_singleton, Prod.mk.injEq]
    constructor
    · rintro ⟨rfl, rfl⟩; exact .single _ rfl
    · intro h
      cases h with
      | single _ e => cases e; exact ⟨rfl, rfl⟩
      | commented _ _ h => simp at h
      | merged _ _ _ h => simp at h
  have hlm := List.mem_of_getLast? hlast
  rw [groupWrites_many g last hlast h2, ← plainOf_eq]
  by_cases hp : (plainOf g).flatMap (·.to) = []
  · rw [if_pos hp]
    simp only [List.mem_map, List.mem_filter, Prod.mk.injEq, commented_iff]
    constructor
    · rintro ⟨a, ⟨ha, hc⟩, rfl, rfl⟩
      exact .commented _ last h2 hlast ha hc (.inl hp)
    · intro h
      cases h with
      | single _ e => subst e; simp at h2
      | commented _ _ _ _ h3 h4 => exact ⟨_, ⟨h3, h4⟩, rfl, rfl⟩
      | merged _ _ _ _ _ _ h => exact absurd hp h
  · rw [if_neg hp]
    obtain ⟨plain, hpl⟩ : ∃ plain, (plainOf g).getLast? = some plain := by
      cases e : plainOf g with
      | nil => rw [e] at hp; simp at hp
      | cons a l => exact ⟨_, List.getLast?_eq_some_getLast (by simp)⟩
    have hm : mergedRelationship last (plainOf g) =
        { last with
          spdxId := plain.spdxId, to := (plainOf g).flatMap (·.to), completeness := firstCompleteness (plainOf g), comment := none } := by
      unfold mergedRelationship
      rw [hpl, first_eq]
    simp only [List.mem_append, List.mem_map, List.mem_filter, Prod.mk.injEq, commented_iff, List.mem_singleton, hm]
    constructor
    · rintro (⟨a, ⟨ha, hc⟩, rfl, rfl⟩ | ⟨rfl, rfl⟩)
      · by_cases e : a.spdxId = last.spdxId
        · rw [if_pos e]
          have := hinj a ha last hlm e
          subst this
          exact .merged a plain _ h2 hlast hpl hp (.inr ⟨rfl, hc⟩)
        · rw [if_neg e]
          exact .commented a last h2 hlast ha hc (.inr fun h => e (by rw [h]))
      · exact .merged last plain _ h2 hlast hpl hp (.inl rfl)
    · intro h
      cases h with
      | single _ e => subst e; simp at h2
      | commented _ l _ e h3 h4 h5 =>
        rw [hlast] at e; cases e
        rcases h5 with h5 | h5
        · exact absurd h5 hp
        · exact .inl ⟨x, ⟨h3, h4⟩, rfl, by rw [if_neg (fun e => h5 (hinj x h3 last hlm e))]⟩
      | merged l q _ _ e e' _ h =>
        rw [hlast] at e; cases e
        rw [hpl] at e'; cases e'
        rcases h with h | ⟨h, hc⟩
        · exact .inr ⟨h, rfl⟩
        · exact .inl ⟨last, ⟨hlm, hc⟩, h.symm, by rw [if_pos rfl]⟩

protected theorem relationship_written {ns : Str} {rs : List Relationship} {k : Str} {x : Relationship3} :
    (k, x) ∈ allWrites (bumpedRelationships ns rs) ↔ ∃ f t, Becomes (group ns rs f t) k x := by
  have hi : ∀ f t, ((k, x) ∈ groupWrites (groupOf (bumpedRelationships ns rs) f t) ↔ Becomes (group ns rs f t) k x) := fun f t =>
    becomes_iff _ (fun x hx y hy e => bumped_ids_inj (mem_group.1 hx).1 (mem_group.1 hy).1 e) k x
  simp only [← hi, ← mem_allWrites]

/-- Exactly what the migrated relationships become. -/
theorem stored_iff (ns : Str) (rs : List Relationship) (k : Str) (x : Relationship3) :
    (bumpRelationships ns rs []).get? k = some (.relationship x) ↔ ∃ f t, Becomes (group ns rs f t) k x := by
  rw [← C35.relationship_written]
  constructor
  · intro h
    by_cases hm : ∃ z, (k, z) ∈ allWrites (bumpedRelationships ns rs)
    · obtain ⟨z, hz⟩ := hm
      rw [bumpRelationships_get_mem [] hz] at h
      cases h; exact hz
    · rw [bumpRelationships_get_not_mem [] (fun z hz => hm ⟨z, hz⟩)] at h
      simp [Dict.get?] at h
  · exact fun h => bumpRelationships_get_mem [] h

/-- A target of a source and type is kept exactly if a relationship without comment has it, or one with a comment that is not overwritten:
    it is the only one, or not the last, or the others have no target. -/
theorem targets_iff (ns : Str) (rs : List Relationship) (f : Str) (t : RelationshipType3) (target : Str) :
    (∃ x, Stored (bumpRelationships ns rs []) x ∧ x.fromElement = f ∧ x.relationshipType = t ∧ target ∈ x.to) ↔
    ∃ r ∈ group ns rs f t, target ∈ r.to ∧
      (¬ Commented r ∨ (group ns rs f t).length = 1 ∨ (group ns rs f t).getLast? ≠ some r ∨
        (plainOf (group ns rs f t)).flatMap (·.to) = []) := by
  have hinj : ∀ x ∈ group ns rs f t, ∀ y ∈ group ns rs f t,
      x.spdxId = y.spdxId → x = y := fun x hx y hy e => bumped_ids_inj (mem_group.1 hx).1 (mem_group.1 hy).1 e
  constructor
  · rintro ⟨x, hs, hf, ht, hx⟩
    obtain ⟨f', t', hb⟩ := (stored_iff ns rs _ x).1 hs
    have hb' := hb
    rw [← becomes_iff _ (fun x hx y hy e => bumped_ids_inj (mem_group.1 hx).1 (mem_group.1 hy).1 e)] at hb'
    obtain ⟨rfl, rfl⟩ := merged_partial.writes_source hb'
    rw [hf, ht] at hb
    generalize group ns rs f t = g at *
    generalize hk : x.spdxId = k at hb
    cases hb with
    | single _ e => exact ⟨x, by simp [e], hx, .inr (.inl (by simp [e]))⟩
    | commented _ last h2 hl hm hc h =>
      refine ⟨x, hm, hx, .inr (.inr ?_)⟩
      rcases h with h | h
      · exact .inr h
      · left; rw [hl]; intro e; cases e; exact h rfl
    | merged last plain _ h2 hl hp ht' hk' =>
      obtain ⟨r, hr, hx⟩ := List.mem_flatMap.1 hx
      obtain ⟨h1, h3⟩ := C35.mem_plainOf.1 hr
      exact ⟨r, h1, hx, .inl h3⟩
  · rintro ⟨r, hr, hx, h⟩
    have hf : ∀ y ∈ group ns rs f t, y.fromElement = f ∧ y.relationshipType = t := fun y hy => (mem_group.1 hy).2
    suffices h : ∃ x, Becomes (group ns rs f t) x.spdxId x ∧ x.fromElement = f ∧ x.relationshipType = t ∧ target ∈ x.to by
      obtain ⟨x, h1, h2⟩ := h
      exact ⟨x, (stored_iff ns rs _ x).2 ⟨f, t, h1⟩, h2⟩
    generalize group ns rs f t = g at *
    rcases cases_length g (List.ne_nil_of_mem hr) with ⟨a, rfl⟩ | ⟨h2, last, hlast⟩
    · simp only [List.mem_singleton] at hr
      subst hr
      exact ⟨r, .single r rfl, (hf r (by simp)).1, (hf r (by simp)).2, hx⟩
    · have hlm := List.mem_of_getLast? hlast
      by_cases hc : Commented r
      · refine ⟨r, .commented r last h2 hlast hr hc ?_, (hf r hr).1, (hf r hr).2, hx⟩
        rcases h with h | h | h | h
        · exact absurd hc h
        · omega
        · right; rintro rfl; exact h hlast
        · exact .inl h
      · have hm : r ∈ plainOf g := C35.mem_plainOf.2 ⟨hr, hc⟩
        have ht : target ∈ (plainOf g).flatMap (·.to) := List.mem_flatMap.2 ⟨r, hm, hx⟩
        obtain ⟨plain, hpl⟩ : ∃ plain, (plainOf g).getLast? = some plain := by
          cases e : plainOf g with
          | nil => rw [e] at hm; cases hm
          | cons a l => exact ⟨_, List.getLast?_eq_some_getLast (by simp)⟩
        exact ⟨_, .merged last plain _ h2 hlast hpl (List.ne_nil_of_mem ht) (.inl rfl), (hf last hlm).1, (hf last hlm).2, ht⟩

/-- The same for a whole document: these, and no others, are the relationships in the payload it is migrated to. -/
theorem document_stored_iff (d : Document) (p : Payload) (h : bumpDocument d = .ok p) (k : Str) (x : Relationship3) :
    p.get? k = some (.relationship x) ↔ ∃ f t, Becomes (group d.creationInfo.documentNamespace d.relationships f t) k x := by
  obtain ⟨s1, s2, s3, h1, h2, h3, rfl⟩ := bumpDocument_ok h
  have hfin : ((finishDocument (bumpedDocument d).spdxId s3.imports (bumpLinks d s3.payload)).get? k = some (.relationship x)) ↔
      (bumpLinks d s3.payload).get? k = some (.relationship x) := by
    rw [finishDocument_get]
    cases (bumpLinks d s3.payload).get? k with
    | none => simp
    | some e => cases e <;> simp
  rw [hfin, ← C35.relationship_written]
  let P : Payload → Prop := fun p => ∀ k x, p.get? k ≠ some (.relationship x)
  have hadd : ∀ p e, (∀ x, e ≠ .relationship x) → P p → P (p.add e) := by
    intro p e he hp k x hk
    rw [Payload.get?_add] at hk
    split at hk
    · cases hk; exact he x rfl
    · exact hp k x hk
  have hact : ∀ ns ci a p, P p → P (bumpActor ns ci a p) := by
    intro ns ci a p hp
    unfold bumpActor
    split
    · exact hp
    · exact hadd _ _ (fun x e => by cases e) hp
  have hopt : ∀ ns o p, P p → P (bumpActorOpt ns o p) := by
    intro ns o p hp
    unfold bumpActorOpt
    split
    · exact hact _ _ _ _ hp
    · exact hp
  have g0 : P ((bumpCreators d.creationInfo []).add (.document (bumpedDocument d))) :=
    hadd _ _ (fun x e => by cases e) (foldl_inv _ P _ _ (fun a _ p hp => hact _ _ _ _ hp) (by intro k e hk; simp [Dict.get?] at hk))
  have g1 : P s1.payload := by
    refine foldlM_inv _ (fun s => P s.payload) _ _ _ h1 ?_ g0
    intro y _ s s' hs hp
    obtain ⟨id, q, _, _, _, ep, _⟩ := bumpPackage_ok hs
    rw [ep]
    exact hadd _ _ (fun x e => by cases e) (hopt _ _ _ (hopt _ _ _ hp))
  have g2 : P s2.payload := by
    refine foldlM_inv _ (fun s => P s.payload) _ _ _ h2 ?_ g1
    intro y _ s s' hs hp
    obtain ⟨id, _, ep, _⟩ := bumpFile_ok hs
    rw [ep]; exact hadd _ _ (fun x e => by cases e) hp
  have g3 : P s3.payload := by
    refine foldlM_inv _ (fun s => P s.payload) _ _ _ h3 ?_ g2
    intro y _ s s' hs hp
    obtain ⟨id, _, ep, _⟩ := bumpSnippet_ok hs
    rw [ep]; exact hadd _ _ (fun x e => by cases e) hp
  have hr : ∀ k x, (bumpRelationships d.creationInfo.documentNamespace d.relationships s3.payload).get? k = some (.relationship x) ↔
      (k, x) ∈ allWrites (bumpedRelationships d.creationInfo.documentNamespace d.relationships) := by
    intro k x
    constructor
    · intro hk
      by_cases hm : ∃ z, (k, z) ∈ allWrites (bumpedRelationships d.creationInfo.documentNamespace d.relationships)
      · obtain ⟨z, hz⟩ := hm
        rw [bumpRelationships_get_mem _ hz] at hk
        cases hk; exact hz
      · rw [bumpRelationships_get_not_mem _ (fun z hz => hm ⟨z, hz⟩)] at hk
        exact absurd hk (g3 k x)
    · exact fun hk => bumpRelationships_get_mem _ hk
  rw [← hr]
  let Q : Payload → Prop := fun p => ∀ k x, p.get? k = some (.relationship x) ↔
    (bumpRelationships d.creationInfo.documentNamespace d.relationships s3.payload).get? k = some (.relationship x)
  have : Q (bumpLinks d s3.payload) := by
    unfold bumpLinks
    refine foldl_inv _ Q _ _ ?_ (fun k x => Iff.rfl)
    intro an _ p hp k x
    unfold bumpAnnotation
    rw [Payload.get?_add]
    have hne : ∀ (x : Relationship3), (bumpRelationships d.creationInfo.documentNamespace d.relationships s3.payload).get? k =
        some (.relationship x) → k ≠ annotationId d.creationInfo.documentNamespace an.2 := by
      intro x hx
      obtain ⟨n, _, e⟩ := allWrites_id ((hr k x).1 hx)
      rw [e]; exact relationship_ne_annotation _ _ _
    by_cases ek : annotationId d.creationInfo.documentNamespace an.2 = k
    · simp only [Element3.spdxId, ek, if_true]
      constructor
      · intro e; cases e
      · intro e; exact absurd ek.symm (hne x e)
    · simp only [Element3.spdxId, ek, if_false]
      rw [← hp k x]
      constructor
      · intro e
        rcases bumpActor_get e with e | ⟨_, _, e, _⟩
        · exact e
        · cases e
      · exact fun e => bumpActor_keeps e
  exact this k x

/-! Counterexamples to the full statement -/

private def contains (a b : Str) (c : Option Str) : Relationship :=
  { spdxElementId := a, relationshipType := .CONTAINS, relatedSpdxElementId := .val b, comment := c }

/-- If the last relationship of a group has a comment and an earlier one has none, the last one's target and comment are lost, and the
    merged relationship is found under two identifiers. -/
theorem target_lost : bumpRelationships s%"n" [contains s%"A" s%"x" none, contains s%"A" s%"y" (some s%"why")] [] =
    [(s%"n#SPDXRef-Relationship-1", .relationship ⟨s%"n#SPDXRef-Relationship-0", s%"n#A", .CONTAINS, [s%"n#x"], none, none, none⟩),
     (s%"n#SPDXRef-Relationship-0", .relationship ⟨s%"n#SPDXRef-Relationship-0", s%"n#A", .CONTAINS, [s%"n#x"], none, none, none⟩)] := by
  decide +kernel

/-- Several relationships without target leave nothing. -/
theorem empty_group_dropped : bumpRelationships s%"n"
    [{ spdxElementId := s%"A", relationshipType := .CONTAINS, relatedSpdxElementId := .none },
     { spdxElementId := s%"A", relationshipType := .CONTAINS, relatedSpdxElementId := .none }] [] = [] := by decide +kernel

/-- Dependencies of different scopes are merged; only the scope of the last one is kept. -/
theorem scope_lost : bumpRelationships s%"n"
    [{ spdxElementId := s%"A", relationshipType := .TEST_DEPENDENCY_OF, relatedSpdxElementId := .val s%"x" },
     { spdxElementId := s%"A", relationshipType := .RUNTIME_DEPENDENCY_OF, relatedSpdxElementId := .val s%"y" }] [] =
    [(s%"n#SPDXRef-Relationship-1", .relationship ⟨s%"n#SPDXRef-Relationship-1", s%"n#A", .DEPENDS_ON, [s%"n#x", s%"n#y"], none, none,
      some (some .RUNTIME, none, none)⟩)] := by decide +kernel

/-! Non-vacuity -/
private def sample : List Relationship :=
  [contains s%"A" s%"x" none, contains s%"B" s%"x" none, contains s%"A" s%"z" (some s%"why"), contains s%"A" s%"y" none]
example : (∀ r ∈ group s%"n" sample s%"n#B" .CONTAINS, ¬ Commented r) ∧ (group s%"n" sample s%"n#B" .CONTAINS).flatMap (·.to) = [s%"n#x"] := by
  constructor
  · intro r hr; rw [← plain_iff]; revert r; decide +kernel
  · decide +kernel
example : LastPlain (group s%"n" sample s%"n#A" .CONTAINS) := by
  right; intro r hr; rw [← plain_iff]; revert r; decide +kernel
example : (bumpRelationships s%"n" sample []).keys =
    [s%"n#SPDXRef-Relationship-2", s%"n#SPDXRef-Relationship-3", s%"n#SPDXRef-Relationship-1"] := by decide +kernel

end Spdx.C35
