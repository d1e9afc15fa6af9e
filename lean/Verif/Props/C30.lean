import Verif.Model.Graph
import Verif.Spec.Example
import Verif.Lemmas.Validation
import Verif.Py.Exacts
/-
C30: the generated graph contains for each relationship a path element -> relationship node -> related element, a node for the document
and for every element, and no other edges; with unique relationship keys each relationship node stands for exactly one relationship.
-/
namespace Spdx.C30
open Spdx

/-! Specification -/

/-- Elements of the document: packages, files and snippets. -/
def IsElementId (d : Document) (n : Str) : Prop :=
  (∃ p ∈ d.packages, p.spdxId = n) ∨ (∃ f ∈ d.files, f.spdxId = n) ∨ (∃ s ∈ d.snippets, s.spdxId = n)

/-- The name of the node standing for a relationship: element, underscore, type. -/
def relNode (r : Relationship) : Str := r.spdxElementId ++ ['_'] ++ r.relationshipType.name

/-- The node on the other side of a relationship. -/
def target (r : Relationship) : Str :=
  match r.relatedSpdxElementId with
  | .val id => id
  | .none => s%"NONE"
  | .noAssertion => s%"NOASSERTION"

/-- The attributes of a node. -/
def attrs (g : DiGraph) (n : Str) : NodeAttrs := (g.nodes.get? n).getD {}

/-! Lemmas -/

private theorem keys_addNode (g : DiGraph) (n m : Str) (f) : m ∈ (g.addNode n f).nodes.keys ↔ m = n ∨ m ∈ g.nodes.keys :=
  Dict.mem_keys_set ..

private theorem attrs_addNode (g : DiGraph) (n m : Str) (f) : attrs (g.addNode n f) m = if n = m then f (attrs g n) else attrs g m := by
  unfold attrs DiGraph.addNode
  rw [Dict.get?_set]
  by_cases h : n = m <;> simp [h]

private theorem keys_addUnknown (g : DiGraph) (n m : Str) : m ∈ (g.addUnknown n).nodes.keys ↔ m = n ∨ m ∈ g.nodes.keys := by
  unfold DiGraph.addUnknown
  split
  · rename_i h; constructor
    · exact .inr
    · rintro (rfl | h'); exacts [h, h']
  · exact keys_addNode ..

private theorem addEdge_eq (g : DiGraph) (a b : Str) (ha : a ∈ g.nodes.keys) (hb : b ∈ g.nodes.keys) :
    g.addEdge a b = if (a, b) ∈ g.edges then g else { g with edges := g.edges ++ [(a, b)] } := by
  unfold DiGraph.addEdge
  simp only [ha, hb, if_true]

private theorem addEdge_nodes (g : DiGraph) (a b : Str) (ha : a ∈ g.nodes.keys) (hb : b ∈ g.nodes.keys) :
    (g.addEdge a b).nodes = g.nodes := by
  rw [addEdge_eq g a b ha hb]; split <;> rfl

private theorem addEdge_edges (g : DiGraph) (a b : Str) (ha : a ∈ g.nodes.keys) (hb : b ∈ g.nodes.keys) (e : Str × Str) :
    e ∈ (g.addEdge a b).edges ↔ e = (a, b) ∨ e ∈ g.edges := by
  rw [addEdge_eq g a b ha hb]
  split
  · rename_i h; constructor
    · exact .inr
    · rintro (rfl | h'); exacts [h, h']
  · simp [or_comm]

private theorem addEdge_nodup (g : DiGraph) (a b : Str) (ha : a ∈ g.nodes.keys) (hb : b ∈ g.nodes.keys) (h : g.edges.Nodup) :
    (g.addEdge a b).edges.Nodup := by
  rw [addEdge_eq g a b ha hb]
  split
  · exact h
  · rename_i h'
    rw [List.nodup_append]
    exact ⟨h, by simp, fun x hx y hy e => by simp at hy; subst hy; subst e; exact h' hx⟩

private theorem addUnknown_edges (g : DiGraph) (n : Str) : (g.addUnknown n).edges = g.edges := by
  unfold DiGraph.addUnknown; split <;> rfl

private theorem addUnknown_nodup (g : DiGraph) (n : Str) (h : g.nodes.keys.Nodup) : (g.addUnknown n).nodes.keys.Nodup := by
  unfold DiGraph.addUnknown; split
  · exact h
  · exact Dict.nodup_keys_set _ _ _ h

private theorem attrs_absent (g : DiGraph) (n : Str) (h : n ∉ g.nodes.keys) : attrs g n = {} := by
  unfold attrs; rw [(Dict.get?_eq_none ..).2 h]; rfl

private theorem attrs_addUnknown (g : DiGraph) (n m : Str) :
    attrs (g.addUnknown n) m = if m = n ∧ n ∉ g.nodes.keys then { element := some .unknown } else attrs g m := by
  unfold DiGraph.addUnknown
  by_cases h : n ∈ g.nodes.keys
  · simp [h]
  · rw [if_neg h, attrs_addNode]
    by_cases e : n = m
    · subst e; simp [h, attrs_absent g n h]
    · simp [e, h, Ne.symm e]

/-- What holds of the graph `g` grown from `g0` by the unknown elements `us` and the relationships `rs`. -/
private structure Inv (g0 g : DiGraph) (us : List Str) (rs : List Relationship) : Prop where
  nodes : ∀ n, n ∈ g.nodes.keys ↔ n ∈ g0.nodes.keys ∨ n ∈ us ∨ ∃ r ∈ rs, n = relNode r ∨ n = target r
  edges : ∀ e, e ∈ g.edges ↔ e ∈ g0.edges ∨ ∃ r ∈ rs, e = (r.spdxElementId, relNode r) ∨ e = (relNode r, target r)
  nodupNodes : g.nodes.keys.Nodup
  nodupEdges : g.edges.Nodup
  element : ∀ n ∈ g.nodes.keys, (∀ r ∈ rs, relNode r ≠ n) →
    attrs g n = if n ∈ g0.nodes.keys then attrs g0 n else { element := some .unknown }
  comment : ∀ r ∈ rs, ∃ r' ∈ rs, relNode r' = relNode r ∧ (attrs g (relNode r)).comment = some r'.comment
  apart : ∀ r ∈ rs, relNode r ∉ g0.nodes.keys → relNode r ∉ us → (∀ r' ∈ rs, target r' ≠ relNode r) →
    (attrs g (relNode r)).element = none

private theorem inv_unknown {g0 g us rs} (h : Inv g0 g us rs) (u : Str) : Inv g0 (g.addUnknown u) (us ++ [u]) rs where
  nodes n := by rw [keys_addUnknown, h.nodes]; simp only [List.mem_append, List.mem_singleton]; grind
  edges e := by rw [addUnknown_edges, h.edges]
  nodupNodes := addUnknown_nodup _ _ h.nodupNodes
  nodupEdges := by rw [addUnknown_edges]; exact h.nodupEdges
  element n hn hr := by
    rw [attrs_addUnknown]
    rw [keys_addUnknown] at hn
    by_cases hm : n ∈ g.nodes.keys
    · rw [if_neg (by rintro ⟨rfl, h'⟩; exact h' hm)]; exact h.element n hm hr
    · have : n = u := by rcases hn with e | e; exacts [e, absurd e hm]
      subst this
      rw [if_pos ⟨rfl, hm⟩, if_neg (fun e => hm ((h.nodes n).2 (.inl e)))]
  comment r hr := by
    rw [attrs_addUnknown, if_neg]
    · exact h.comment r hr
    · rintro ⟨rfl, h'⟩; exact h' ((h.nodes _).2 (.inr (.inr ⟨r, hr, .inl rfl⟩)))
  apart r hr h1 h2 h3 := by
    rw [attrs_addUnknown, if_neg]
    · exact h.apart r hr h1 (fun e => h2 (List.mem_append_left _ e)) h3
    · rintro ⟨rfl, h'⟩; exact h' ((h.nodes _).2 (.inr (.inr ⟨r, hr, .inl rfl⟩)))

private theorem inv_relationship {g0 g us rs} (h : Inv g0 g us rs) (r : Relationship) (hr : r.spdxElementId ∈ g.nodes.keys) :
    Inv g0 (graphRelationship g r) us (rs ++ [r]) := by
  have hk : r.nodeKey = relNode r := rfl
  have ht : r.relatedText = target r := rfl
  obtain ⟨g1, eg1⟩ : ∃ g1, g1 = g.addNode (relNode r) fun a => { a with comment := some r.comment } := ⟨_, rfl⟩
  obtain ⟨g2, eg2⟩ : ∃ g2, g2 = g1.addEdge r.spdxElementId (relNode r) := ⟨_, rfl⟩
  obtain ⟨g3, eg3⟩ : ∃ g3, g3 = g2.addUnknown (target r) := ⟨_, rfl⟩
  have e1 : graphRelationship g r = g3.addEdge (relNode r) (target r) := by
    rw [eg3, eg2, eg1]; rfl
  have k1 : ∀ n, n ∈ g1.nodes.keys ↔ n = relNode r ∨ n ∈ g.nodes.keys := fun n => eg1 ▸ keys_addNode ..
  have k2 : g2.nodes = g1.nodes := eg2 ▸ addEdge_nodes _ _ _ ((k1 _).2 (.inr hr)) ((k1 _).2 (.inl rfl))
  have k3 : ∀ n, n ∈ g3.nodes.keys ↔ n = target r ∨ n = relNode r ∨ n ∈ g.nodes.keys := fun n => by
    rw [eg3, keys_addUnknown, k2, k1]
  have k4 : (graphRelationship g r).nodes = g3.nodes := by
    rw [e1]; exact addEdge_nodes _ _ _ ((k3 _).2 (.inr (.inl rfl))) ((k3 _).2 (.inl rfl))
  have ed2 : ∀ e, e ∈ g2.edges ↔ e = (r.spdxElementId, relNode r) ∨ e ∈ g.edges := fun e => by
    rw [eg2, addEdge_edges _ _ _ ((k1 _).2 (.inr hr)) ((k1 _).2 (.inl rfl)), eg1]; rfl
  have ed3 : g3.edges = g2.edges := eg3 ▸ addUnknown_edges ..
  have a1 : ∀ m, attrs g1 m = if relNode r = m then { attrs g (relNode r) with comment := some r.comment } else attrs g m :=
    fun m => by rw [eg1, attrs_addNode]
  have a2 : ∀ m, attrs g2 m = attrs g1 m := fun m => by unfold attrs; rw [k2]
  have a4 : ∀ m, attrs (graphRelationship g r) m = attrs g3 m := fun m => by unfold attrs; rw [k4]
  have a3 : ∀ m, attrs g3 m = if m = target r ∧ target r ≠ relNode r ∧ target r ∉ g.nodes.keys then { element := some .unknown }
      else attrs g1 m := fun m => by
    rw [eg3, attrs_addUnknown, a2]
    simp only [k2, k1, not_or, ne_eq]
  have key : attrs (graphRelationship g r) (relNode r) = { attrs g (relNode r) with comment := some r.comment } := by
    rw [a4, a3, if_neg (by rintro ⟨h1, h2, _⟩; exact h2 h1.symm), a1, if_pos rfl]
  have other : ∀ n, n ∈ g.nodes.keys → relNode r ≠ n → attrs (graphRelationship g r) n = attrs g n := fun n hn hne => by
    rw [a4, a3, if_neg (by rintro ⟨h1, _, h3⟩; exact h3 (h1 ▸ hn)), a1, if_neg hne]
  constructor
  · intro n
    rw [k4, k3, h.nodes]
    simp only [List.mem_append, List.mem_singleton]
    grind
  · intro e
    rw [e1, addEdge_edges _ _ _ ((k3 _).2 (.inr (.inl rfl))) ((k3 _).2 (.inl rfl)), ed3, ed2, h.edges]
    simp only [List.mem_append, List.mem_singleton]
    grind
  · rw [k4]
    rw [eg3]
    exact addUnknown_nodup _ _ (by rw [k2, eg1]; exact Dict.nodup_keys_set _ _ _ h.nodupNodes)
  · rw [e1]
    refine addEdge_nodup _ _ _ ((k3 _).2 (.inr (.inl rfl))) ((k3 _).2 (.inl rfl)) ?_
    rw [ed3, eg2]
    exact addEdge_nodup _ _ _ ((k1 _).2 (.inr hr)) ((k1 _).2 (.inl rfl)) (eg1 ▸ h.nodupEdges)
  · intro n hn hne
    have hne' : relNode r ≠ n := hne r (by simp)
    by_cases hm : n ∈ g.nodes.keys
    · rw [other n hm hne']
      exact h.element n hm (fun x hx => hne x (List.mem_append_left _ hx))
    · rw [k4, k3] at hn
      have hnt : n = target r := by
        rcases hn with e | e | e
        exacts [e, absurd e.symm hne', absurd e hm]
      subst hnt
      rw [if_neg (fun e => hm ((h.nodes _).2 (.inl e))), a4, a3, if_pos ⟨rfl, hne'.symm, hm⟩]
  · intro x hx
    by_cases e : relNode x = relNode r
    · exact ⟨r, by simp, e.symm, by rw [e, key]⟩
    · have hx' : x ∈ rs := by
        simp only [List.mem_append, List.mem_singleton] at hx
        rcases hx with hx | rfl
        exacts [hx, absurd rfl e]
      obtain ⟨r', h1, h2, h3⟩ := h.comment x hx'
      refine ⟨r', List.mem_append_left _ h1, h2, ?_⟩
      rw [other _ ((h.nodes _).2 (.inr (.inr ⟨x, hx', .inl rfl⟩))) (Ne.symm e)]
      exact h3
  · intro x hx h1 h2 h3
    by_cases e : relNode x = relNode r
    · rw [e, key]
      show (attrs g (relNode r)).element = none
      by_cases hm : ∃ y ∈ rs, relNode y = relNode r
      · obtain ⟨y, hy, ey⟩ := hm
        rw [← ey]
        refine h.apart y hy (ey ▸ e ▸ h1) (ey ▸ e ▸ h2) (fun z hz => ?_)
        rw [ey, ← e]
        exact h3 z (List.mem_append_left _ hz)
      · rw [attrs_absent]
        rw [h.nodes]
        rintro (h' | h' | ⟨y, hy, h' | h'⟩)
        · exact h1 (e ▸ h')
        · exact h2 (e ▸ h')
        · exact hm ⟨y, hy, h'.symm⟩
        · exact h3 y (List.mem_append_left _ hy) (by rw [e]; exact h'.symm)
    · have hx' : x ∈ rs := by
        simp only [List.mem_append, List.mem_singleton] at hx
        rcases hx with hx | rfl
        exacts [hx, absurd rfl e]
      rw [other _ ((h.nodes _).2 (.inr (.inr ⟨x, hx', .inl rfl⟩))) (Ne.symm e)]
      exact h.apart x hx' h1 h2 (fun z hz => h3 z (List.mem_append_left _ hz))

private theorem inv_relationships {g0 us} (l : List Relationship) : ∀ {g rs}, Inv g0 g us rs → (∀ r ∈ l, r.spdxElementId ∈ g.nodes.keys) →
    Inv g0 (l.foldl graphRelationship g) us (rs ++ l) := by
  induction l with
  | nil => intro g rs h _; simpa using h
  | cons r l ih =>
    intro g rs h hl
    rw [List.foldl_cons]
    have h' := inv_relationship h r (hl r (by simp))
    have := ih h' (fun x hx => by
      rw [h'.nodes]
      rcases (h.nodes x.spdxElementId).1 (hl x (List.mem_cons_of_mem _ hx)) with e | e | ⟨y, hy, e⟩
      · exact .inl e
      · exact .inr (.inl e)
      · exact .inr (.inr ⟨y, List.mem_append_left _ hy, e⟩))
    simpa using this

private theorem inv_groups {g0} (gs : List (Str × List Relationship)) : ∀ {g us rs}, Inv g0 g us rs →
    (∀ p ∈ gs, ∀ r ∈ p.2, r.spdxElementId = p.1) →
    Inv g0 (gs.foldl graphGroup g) (us ++ gs.map (·.1)) (rs ++ gs.flatMap (·.2)) := by
  induction gs with
  | nil => intro g us rs h _; simpa using h
  | cons p gs ih =>
    intro g us rs h hg
    rw [List.foldl_cons]
    have h1 := inv_unknown h p.1
    have h2 := inv_relationships (g := g.addUnknown p.1) p.2 h1 (fun r hr => by
      rw [h1.nodes, hg p (by simp) r hr]; exact .inr (.inl (by simp)))
    have := ih (g := graphGroup g p) h2 (fun q hq => hg q (List.mem_cons_of_mem _ hq))
    simpa using this

private theorem elements_fold (l : List (Str × Element)) (g : DiGraph) (hn : (l.map (·.1)).Nodup) :
    let g' := l.foldl (fun g p => g.addNode p.1 fun a => { a with element := some (.element p.2) }) g
    (∀ n, n ∈ g'.nodes.keys ↔ n ∈ g.nodes.keys ∨ n ∈ l.map (·.1)) ∧ g'.edges = g.edges ∧
      (g.nodes.keys.Nodup → g'.nodes.keys.Nodup) ∧
      (∀ n, (n ∉ l.map (·.1) → attrs g' n = attrs g n) ∧
        ∀ e, (n, e) ∈ l → attrs g' n = { attrs g n with element := some (.element e) }) := by
  induction l generalizing g with
  | nil => simp
  | cons p l ih =>
    simp only [List.map_cons, List.nodup_cons] at hn
    simp only [List.foldl_cons]
    obtain ⟨i1, i2, i3, i4⟩ := ih (g.addNode p.1 fun a => { a with element := some (.element p.2) }) hn.2
    refine ⟨fun n => ?_, i2, fun h => i3 (Dict.nodup_keys_set _ _ _ h), fun n => ⟨fun h => ?_, fun e he => ?_⟩⟩
    · rw [i1, keys_addNode]; simp only [List.map_cons, List.mem_cons]; grind
    · simp only [List.map_cons, List.mem_cons, not_or] at h
      rw [(i4 n).1 h.2, attrs_addNode, if_neg (Ne.symm h.1)]
    · rcases List.mem_cons.1 he with rfl | he'
      · rw [(i4 n).1 hn.1, attrs_addNode, if_pos rfl]
      · rw [(i4 n).2 e he', attrs_addNode, if_neg]
        rintro rfl
        exact hn.1 (List.mem_map.2 ⟨_, he', rfl⟩)

private theorem contained_keys (d : Document) (n : Str) : n ∈ (containedElements d).keys ↔ IsElementId d n := by
  unfold containedElements IsElementId
  rw [Dict.mem_keys_update, Dict.mem_keys_update, Dict.mem_keys_update]
  simp only [List.map_map, List.mem_map, Function.comp]
  simp [Dict.keys, or_assoc]

private theorem contained_nodup (d : Document) : (containedElements d).keys.Nodup :=
  Dict.nodup_keys_update _ _ (Dict.nodup_keys_update _ _ (Dict.nodup_keys_update _ _ (by simp [Dict.keys])))

private theorem elements_graph (d : Document) :
    (∀ n, n ∈ (graphElements d).nodes.keys ↔ n = d.creationInfo.spdxId ∨ IsElementId d n) ∧ (graphElements d).edges = [] ∧
      (graphElements d).nodes.keys.Nodup ∧
      ∀ n ∈ (graphElements d).nodes.keys, attrs (graphElements d) n =
        { element := some (match getElement d n with | some e => .element e | none => .info d.creationInfo) } := by
  have h := elements_fold (containedElements d)
    (({} : DiGraph).addNode d.creationInfo.spdxId fun a => { a with element := some (.info d.creationInfo) }) (contained_nodup d)
  obtain ⟨h1, h2, h3, h4⟩ := h
  change (∀ n, n ∈ (graphElements d).nodes.keys ↔ _) at h1
  have hn : ∀ n, n ∈ (graphElements d).nodes.keys ↔ n = d.creationInfo.spdxId ∨ IsElementId d n := fun n => by
    rw [h1, keys_addNode, ← contained_keys]
    simp [Dict.keys]
  refine ⟨hn, h2, h3 (Dict.nodup_keys_set _ _ _ (by simp [Dict.keys])), fun n hm => ?_⟩
  cases he : getElement d n with
  | some e =>
    have := (h4 n).2 e (Dict.get?_mem _ _ _ he)
    refine this.trans ?_
    rw [attrs_addNode]
    split <;> rfl
  | none =>
    have hk : n ∉ (containedElements d).keys := (Dict.get?_eq_none ..).1 he
    have := (h4 n).1 hk
    refine this.trans ?_
    rw [attrs_addNode, if_pos]
    · rfl
    · rcases (hn n).1 hm with e | e
      · exact e.symm
      · exact absurd ((contained_keys d n).2 e) hk

private theorem inv (d : Document) : ∃ us rs, Inv (graphElements d) (relationshipGraph d) us rs ∧
    (∀ r, r ∈ rs ↔ r ∈ d.relationships) ∧ ∀ u, u ∈ us ↔ ∃ r ∈ d.relationships, r.spdxElementId = u := by
  obtain ⟨_, h2, h3, _⟩ := elements_graph d
  have h0 : Inv (graphElements d) (graphElements d) [] [] :=
    ⟨by simp, by simp, h3, by rw [h2]; simp, fun n hn _ => by rw [if_pos hn], by simp, by simp⟩
  refine ⟨_, _, inv_groups (Dict.groupBy (·.spdxElementId) d.relationships) h0 ?_, ?_, ?_⟩
  · rintro ⟨k, v⟩ hp r hr
    rw [Dict.mem_groupBy] at hp
    rw [hp.2] at hr
    simpa using (List.mem_filter.1 hr).2
  · intro r
    simp only [List.nil_append, List.mem_flatMap, Prod.exists, Dict.mem_groupBy]
    constructor
    · rintro ⟨k, v, ⟨_, rfl⟩, hr⟩; exact (List.mem_filter.1 hr).1
    · intro hr
      exact ⟨r.spdxElementId, _, ⟨List.mem_map.2 ⟨r, hr, rfl⟩, rfl⟩, List.mem_filter.2 ⟨hr, by simp⟩⟩
  · intro u
    have := Dict.mem_keys_groupBy (·.spdxElementId) d.relationships u
    simpa [Dict.keys] using this

/-! Theorems -/

/-- The edges are exactly the two halves of the path of each relationship. -/
theorem edges_iff (d : Document) (a b : Str) : (a, b) ∈ (relationshipGraph d).edges ↔
    ∃ r ∈ d.relationships, (a = r.spdxElementId ∧ b = relNode r) ∨ (a = relNode r ∧ b = target r) := by
  obtain ⟨us, rs, h, h1, h2⟩ := inv d
  rw [h.edges, (elements_graph d).2.1]
  simp only [List.not_mem_nil, false_or, h1, Prod.mk.injEq]

/-- The nodes are exactly the document, its elements, the relationships, and both ends of the relationships. -/
theorem nodes_iff (d : Document) (n : Str) : n ∈ (relationshipGraph d).nodes.keys ↔
    n = d.creationInfo.spdxId ∨ IsElementId d n ∨
      ∃ r ∈ d.relationships, n = r.spdxElementId ∨ n = relNode r ∨ n = target r := by
  obtain ⟨us, rs, h, h1, h2⟩ := inv d
  rw [h.nodes, (elements_graph d).1]
  simp only [h1, h2]
  grind

/-- No node and no edge is listed twice. -/
theorem nodup (d : Document) : (relationshipGraph d).nodes.keys.Nodup ∧ (relationshipGraph d).edges.Nodup := by
  obtain ⟨us, rs, h, _⟩ := inv d
  exact ⟨h.nodupNodes, h.nodupEdges⟩

/-- A node that stands for no relationship carries its element: the element of that identifier, else the creation information if it is
    the document, else `None`. It has no other attributes. -/
theorem element_node (d : Document) (n : Str) (hn : n ∈ (relationshipGraph d).nodes.keys) (hr : ∀ r ∈ d.relationships, relNode r ≠ n) :
    attrs (relationshipGraph d) n =
      { element := some (match getElement d n with
          | some e => .element e
          | none => if n = d.creationInfo.spdxId then .info d.creationInfo else .unknown) } := by
  obtain ⟨us, rs, h, h1, h2⟩ := inv d
  rw [h.element n hn (fun r hr' => hr r ((h1 r).1 hr'))]
  obtain ⟨e1, e2, e3, e4⟩ := elements_graph d
  by_cases hg : n ∈ (graphElements d).nodes.keys
  · rw [if_pos hg, e4 n hg]
    cases he : getElement d n with
    | some e => rfl
    | none =>
      simp only
      rw [if_pos]
      rcases (e1 n).1 hg with e | e
      · exact e
      · exact absurd ((contained_keys d n).2 e) ((Dict.get?_eq_none ..).1 he)
  · rw [if_neg hg]
    have he : getElement d n = none := (Dict.get?_eq_none ..).2 (fun e => hg ((e1 n).2 (.inr ((contained_keys d n).1 e))))
    simp only [he]
    rw [if_neg (fun e => hg ((e1 n).2 (.inl e)))]

/-- A relationship's node carries the comment of a relationship with the same element and type; of the relationship itself if there is
    only one. -/
theorem relationship_comment (d : Document) (r : Relationship) (hr : r ∈ d.relationships)
    (hu : (d.relationships.map relNode).Nodup) : (attrs (relationshipGraph d) (relNode r)).comment = some r.comment := by
  obtain ⟨us, rs, h, h1, h2⟩ := inv d
  obtain ⟨r', hr', e, hc⟩ := h.comment r ((h1 r).2 hr)
  rw [hc]
  have : r' = r := inj_of_nodup hu ((h1 r').1 hr') hr e
  rw [this]

/-- Identifiers without an underscore: those of valid documents. -/
def Plain (d : Document) : Prop :=
  '_' ∉ d.creationInfo.spdxId ∧ (∀ n, IsElementId d n → '_' ∉ n) ∧ ∀ r ∈ d.relationships, '_' ∉ r.spdxElementId ∧ '_' ∉ target r

private theorem prefix_unique (a b x y : Str) (ha : '_' ∉ a) (hb : '_' ∉ b) (h : a ++ ['_'] ++ x = b ++ ['_'] ++ y) : a = b ∧ x = y := by
  induction a generalizing b with
  | nil =>
    cases b with
    | nil => simpa using h
    | cons c b => simp only [List.nil_append, List.cons_append, List.cons.injEq] at h; exact absurd (h.1 ▸ List.mem_cons_self) hb
  | cons c a ih =>
    cases b with
    | nil => simp only [List.nil_append, List.cons_append, List.cons.injEq] at h; exact absurd (h.1 ▸ List.mem_cons_self) ha
    | cons c' b =>
      simp only [List.cons_append, List.cons.injEq] at h
      obtain ⟨h1, h2⟩ := ih b (fun e => ha (List.mem_cons_of_mem _ e)) (fun e => hb (List.mem_cons_of_mem _ e)) (by simpa using h.2)
      exact ⟨by rw [h.1, h1], h2⟩

private theorem relNode_underscore (r : Relationship) : '_' ∈ relNode r := by simp [relNode]

private theorem name_inj (a b : RelationshipType) (h : a.name = b.name) : a = b := by
  have : ∀ a ∈ RelationshipType.all, ∀ b ∈ RelationshipType.all, a.name = b.name → a = b := by decide +kernel
  exact this a (by cases a <;> decide) b (by cases b <;> decide) h

/-- With identifiers free of underscores, relationship nodes are no elements, and the node tells the element and the type. -/
theorem key_tells (d : Document) (hp : Plain d) (r r' : Relationship) (hr : r ∈ d.relationships) (hr' : r' ∈ d.relationships) :
    (relNode r = relNode r' ↔ r.spdxElementId = r'.spdxElementId ∧ r.relationshipType = r'.relationshipType) ∧
    relNode r ≠ d.creationInfo.spdxId ∧ ¬ IsElementId d (relNode r) ∧ relNode r ≠ r'.spdxElementId ∧ relNode r ≠ target r' ∧
    (attrs (relationshipGraph d) (relNode r)).element = none := by
  have hne : relNode r ≠ d.creationInfo.spdxId := fun e => hp.1 (e ▸ relNode_underscore r)
  have hnel : ¬ IsElementId d (relNode r) := fun e => hp.2.1 _ e (relNode_underscore r)
  have hnt : ∀ x ∈ d.relationships, target x ≠ relNode r := fun x hx e => (hp.2.2 x hx).2 (e ▸ relNode_underscore r)
  refine ⟨⟨fun h => ?_, fun h => by unfold relNode; rw [h.1, h.2]⟩, hne, hnel, fun e => (hp.2.2 r' hr').1 (e ▸ relNode_underscore r),
    fun e => hnt r' hr' e.symm, ?_⟩
  · have := prefix_unique _ _ _ _ (hp.2.2 r hr).1 (hp.2.2 r' hr').1 h
    exact ⟨this.1, name_inj _ _ this.2⟩
  · obtain ⟨us, rs, h, h1, h2⟩ := inv d
    refine h.apart r ((h1 r).2 hr) (fun e => ?_) (fun e => ?_) (fun x hx => hnt x ((h1 x).1 hx))
    · rcases ((elements_graph d).1 _).1 e with e | e
      exacts [hne e, hnel e]
    · obtain ⟨x, hx, e⟩ := (h2 _).1 e
      exact (hp.2.2 x hx).1 (e ▸ relNode_underscore r)

/-- With such identifiers and unique relationship keys, a relationship's node has exactly one incoming edge, from its element, and exactly
    one outgoing edge, to the related element. -/
theorem one_path (d : Document) (hp : Plain d) (hu : (d.relationships.map relNode).Nodup) (r : Relationship) (hr : r ∈ d.relationships)
    (n : Str) : ((n, relNode r) ∈ (relationshipGraph d).edges ↔ n = r.spdxElementId) ∧
      ((relNode r, n) ∈ (relationshipGraph d).edges ↔ n = target r) := by
  have inj : ∀ x ∈ d.relationships, relNode x = relNode r → x = r := by
    intro x hx e
    exact inj_of_nodup hu hx hr e
  rw [edges_iff, edges_iff]
  constructor
  · constructor
    · rintro ⟨x, hx, ⟨e1, e2⟩ | ⟨e1, e2⟩⟩
      · rw [e1, inj x hx e2.symm]
      · exact absurd e2 (key_tells d hp r x hr hx).2.2.2.2.1
    · rintro rfl; exact ⟨r, hr, .inl ⟨rfl, rfl⟩⟩
  · constructor
    · rintro ⟨x, hx, ⟨e1, e2⟩ | ⟨e1, e2⟩⟩
      · exact absurd e1 (key_tells d hp r x hr hx).2.2.2.1
      · rw [e2, inj x hx e1.symm]
    · rintro rfl; exact ⟨r, hr, .inr ⟨rfl, rfl⟩⟩

/-! Colours -/

private theorem color_fold (ns : List Str) (g : DiGraph) (hn : ns.Nodup) (hs : ∀ n ∈ ns, n ∈ g.nodes.keys) :
    let g' := ns.foldl (fun g n => g.addNode n (colorNode n)) g
    (∀ n, n ∈ g'.nodes.keys ↔ n ∈ g.nodes.keys) ∧ g'.edges = g.edges ∧
      ∀ n, attrs g' n = if n ∈ ns then colorNode n (attrs g n) else attrs g n := by
  induction ns generalizing g with
  | nil => simp
  | cons m ns ih =>
    simp only [List.nodup_cons] at hn
    simp only [List.foldl_cons]
    have hk : ∀ n, n ∈ (g.addNode m (colorNode m)).nodes.keys ↔ n ∈ g.nodes.keys := fun n => by
      rw [keys_addNode]
      constructor
      · rintro (rfl | e); exacts [hs _ (by simp), e]
      · exact .inr
    obtain ⟨i1, i2, i3⟩ := ih (g.addNode m (colorNode m)) hn.2 (fun n h => (hk n).2 (hs n (List.mem_cons_of_mem _ h)))
    refine ⟨fun n => (i1 n).trans (hk n), i2, fun n => ?_⟩
    rw [i3, attrs_addNode]
    by_cases e : m = n
    · subst e; simp [hn.1]
    · simp [e, Ne.symm e]

/-- Colouring changes neither nodes nor edges. Relationship nodes become green and are labelled with their type, the document red, every
    other element blue; element and comment are kept. -/
theorem colored (d : Document) (hp : Plain d) :
    (∀ n, n ∈ (colorNodes (relationshipGraph d)).nodes.keys ↔ n ∈ (relationshipGraph d).nodes.keys) ∧
    (colorNodes (relationshipGraph d)).edges = (relationshipGraph d).edges ∧
    (∀ r ∈ d.relationships, attrs (colorNodes (relationshipGraph d)) (relNode r) =
      { attrs (relationshipGraph d) (relNode r) with color := some s%"lightgreen", label := some r.relationshipType.name }) ∧
    ∀ n ∈ (relationshipGraph d).nodes.keys, (∀ r ∈ d.relationships, relNode r ≠ n) →
      attrs (colorNodes (relationshipGraph d)) n =
        { attrs (relationshipGraph d) n with color := some (if n = s%"SPDXRef-DOCUMENT" then s%"indianred2" else s%"lightskyblue") } := by
  obtain ⟨c1, c2, c3⟩ := color_fold (relationshipGraph d).nodes.keys (relationshipGraph d) (nodup d).1 (fun _ h => h)
  change (∀ n, n ∈ (colorNodes (relationshipGraph d)).nodes.keys ↔ _) at c1
  change ∀ n, attrs (colorNodes (relationshipGraph d)) n = _ at c3
  refine ⟨c1, c2, fun r hr => ?_, fun n hn hne => ?_⟩
  · rw [c3, if_pos ((nodes_iff d _).2 (.inr (.inr ⟨r, hr, .inr (.inl rfl)⟩)))]
    unfold colorNode
    rw [if_pos (relNode_underscore r)]
    have : ((relNode r).dropWhile (· ≠ '_')).drop 1 = r.relationshipType.name := by
      have hu := (hp.2.2 r hr).1
      unfold relNode
      rw [List.append_assoc, List.dropWhile_append_of_pos]
      · simp
      · intro c hc; simpa using (fun (e : c = '_') => hu (e ▸ hc))
    rw [this]
  · rw [c3, if_pos hn]
    unfold colorNode
    have : '_' ∉ n := by
      rcases (nodes_iff d n).1 hn with rfl | e | ⟨r, hr, e | e | e⟩
      · exact hp.1
      · exact hp.2.1 n e
      · rw [e]; exact (hp.2.2 r hr).1
      · exact absurd e.symm (hne r hr)
      · rw [e]; exact (hp.2.2 r hr).2
    rw [if_neg this]
    split <;> rfl

/-! Cases -/

/-- The example document with one relationship of each kind. -/
def doc : Document :=
  { Example.doc with
    relationships :=
      [⟨s%"SPDXRef-DOCUMENT", .DESCRIBES, .val s%"SPDXRef-Package", none⟩, ⟨s%"SPDXRef-Package", .CONTAINS, .val s%"SPDXRef-File", some s%"c"⟩,
       ⟨s%"SPDXRef-Package", .DEPENDS_ON, .none, none⟩] }

example : Plain doc ∧ (doc.relationships.map relNode).Nodup ∧ doc.packages ≠ [] := by
  refine ⟨⟨by decide +kernel, ?_, by decide +kernel⟩, by decide +kernel, by decide +kernel⟩
  rintro n (⟨p, hp, rfl⟩ | ⟨p, hp, rfl⟩ | ⟨p, hp, rfl⟩) <;> revert p <;> decide +kernel

/-- Without unique keys, only one of the comments is kept: two relationships of the same element and type share their node. -/
theorem comment_overwritten : ∃ d r, r ∈ d.relationships ∧ r.comment = some s%"first" ∧
    (attrs (relationshipGraph d) (relNode r)).comment = some (some s%"second") := by
  let r1 : Relationship := ⟨s%"SPDXRef-A", .CONTAINS, .val s%"SPDXRef-B", some s%"first"⟩
  let r2 : Relationship := ⟨s%"SPDXRef-A", .CONTAINS, .val s%"SPDXRef-C", some s%"second"⟩
  exact ⟨{ Example.doc with relationships := [r1, r2] }, r1, by simp, rfl, by decide +kernel⟩

end Spdx.C30
