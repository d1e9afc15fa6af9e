import Verif.Lemmas.RdfOrder
import Verif.Props.C55
import Verif.Props.C58
/-
C83: the order in which the triples of an RDF graph are delivered makes no difference but for the order in lists.

A graph is a set of triples, and a store may deliver them in any order. `Spec/RdfOrder` lists the properties for which order does show, if a node
has several values of them (`orderedProperties`).
-/
namespace Spdx.C83
open Spec

/-- The same triples in another order give the same document up to the order in its lists. -/
theorem same_document (env : RdfEnv) (b : Bindings) {g g' : RdfGraph} (h : Shuffled g g') {d : Document} (hd : parseRdf env b g = some d) :
    ∃ d', parseRdf env b g' = some d' ∧ SameRdf d d' := by
  obtain ⟨b', ns, hr⟩ := (C55.reads_exactly env b g d).1 hd
  obtain ⟨d', h1, h2⟩ := RdfOrder.says h hr
  exact ⟨d', (C55.reads_exactly env b g' d').2 ⟨b', ns, h1⟩, h2⟩

/-- … and are refused together. -/
theorem same_refusal (env : RdfEnv) (b : Bindings) {g g' : RdfGraph} (h : Shuffled g g') : parseRdf env b g = none ↔ parseRdf env b g' = none := by
  have key : ∀ {g g' : RdfGraph}, Shuffled g g' → parseRdf env b g' = none → parseRdf env b g = none := by
    intro g g' h hn
    cases hd : parseRdf env b g with
    | none => rfl
    | some d =>
      obtain ⟨d', h1, _⟩ := same_document env b h hd
      rw [hn] at h1
      cases h1
  exact ⟨key (RdfOrder.symm h), key h⟩

/-- Any order will do, if each node has at most one value of the properties for which order shows. -/
theorem any_order (env : RdfEnv) (b : Bindings) {g g' : RdfGraph} (h : OneEach g) (hp : g.Perm g') :
    (parseRdf env b g = none ∧ parseRdf env b g' = none) ∨
      ∃ d d', parseRdf env b g = some d ∧ parseRdf env b g' = some d' ∧ SameRdf d d' := by
  have hs := RdfOrder.one_each h hp
  cases hd : parseRdf env b g with
  | none => exact .inl ⟨rfl, (same_refusal env b hs).1 hd⟩
  | some d =>
    obtain ⟨d', h1, h2⟩ := same_document env b hs hd
    exact .inr ⟨d, d', rfl, h1, h2⟩

/-- The documents are valid together. -/
theorem same_verdict (env : RdfEnv) (b : Bindings) {X : Ext} (hX : Unordered X) {g g' : RdfGraph} (h : Shuffled g g') {d d' : Document}
    (hd : parseRdf env b g = some d) (hd' : parseRdf env b g' = some d') (ver : Option Str) :
    validateDocument X d ver = [] ↔ validateDocument X d' ver = [] := by
  obtain ⟨e, h1, h2⟩ := same_document env b h hd
  rw [hd'] at h1
  cases h1
  exact C58.order_irrelevant hX h2 ver

/-- The triples with other properties may be put in any order before or after the rest, whatever the graph. -/
theorem others_anywhere (g u : RdfGraph) (hu : u.Perm (g.filter fun t => t.2.1 ∉ orderedProperties)) :
    Shuffled g (u ++ g.filter fun t => t.2.1 ∈ orderedProperties) ∧ Shuffled g ((g.filter fun t => t.2.1 ∈ orderedProperties) ++ u) := by
  have hp : (u ++ g.filter fun t => t.2.1 ∈ orderedProperties).Perm g := by
    refine (hu.append_right _).trans ?_
    have := List.filter_append_perm (fun t : Triple => decide (t.2.1 ∈ orderedProperties)) g
    refine List.perm_append_comm.trans (List.Perm.trans (List.Perm.append_left _ ?_) this)
    refine List.Perm.of_eq (List.filter_congr fun t _ => ?_)
    simp
  have hno : ∀ t ∈ u, t.2.1 ∉ orderedProperties := fun t ht => by simpa using (List.mem_filter.1 (hu.mem_iff.1 ht)).2
  have hv : ∀ p ∈ orderedProperties, ∀ n, RdfSays.values u n p = [] := by
    intro p hp n
    refine List.filterMap_eq_nil_iff.2 fun t ht => if_neg ?_
    rintro ⟨_, e⟩
    exact hno t ht (e ▸ hp)
  have hw : ∀ p ∈ orderedProperties, ∀ n, RdfSays.values (g.filter fun t => t.2.1 ∈ orderedProperties) n p = RdfSays.values g n p := by
    intro p hp n
    unfold RdfSays.values
    rw [List.filterMap_filter]
    congr 1
    funext t
    by_cases ht : t.1 = n ∧ t.2.1 = p
    · rw [if_pos ht, if_pos (by rw [ht.2]; exact decide_eq_true hp)]
    · rw [if_neg ht]
      split <;> rfl
  have hn : RdfSays.nodes u s%"CreationInfo" = [] := by
    refine List.filterMap_eq_nil_iff.2 fun t ht => if_neg ?_
    rintro ⟨e, _⟩
    exact hno t ht (by rw [e]; decide)
  have hm : RdfSays.nodes (g.filter fun t => t.2.1 ∈ orderedProperties) s%"CreationInfo" = RdfSays.nodes g s%"CreationInfo" := by
    unfold RdfSays.nodes
    rw [List.filterMap_filter]
    congr 1
    funext t
    by_cases ht : t.2.1 = .type ∧ t.2.2 = .uri (s%"http://spdx.org/rdf/terms#" ++ s%"CreationInfo")
    · rw [if_pos ht, if_pos (by rw [ht.1]; decide)]
    · rw [if_neg ht]
      split <;> rfl
  have va : ∀ x y n p, RdfSays.values (x ++ y) n p = RdfSays.values x n p ++ RdfSays.values y n p := fun x y n p => List.filterMap_append
  have na : ∀ x y c, RdfSays.nodes (x ++ y) c = RdfSays.nodes x c ++ RdfSays.nodes y c := fun x y c => List.filterMap_append
  refine ⟨⟨hp.symm, fun p hq n => ?_, ?_⟩, ⟨hp.symm.trans List.perm_append_comm, fun p hq n => ?_, ?_⟩⟩
  · rw [va, hv p hq, hw p hq, List.nil_append]
  · rw [na, hn, hm, List.nil_append]
  · rw [va, hv p hq, hw p hq, List.append_nil]
  · rw [na, hn, hm, List.append_nil]

/-! ## Concrete cases -/

/-- The graph written for the example document, with the triples of other properties reversed and put first. -/
private def reversed : RdfGraph :=
  (C55.written.filter fun t => t.2.1 ∉ orderedProperties).reverse ++ C55.written.filter fun t => t.2.1 ∈ orderedProperties

-- the conditions of `same_document`: another graph, which is read, and in which lists have another order
example : Shuffled C55.written reversed ∧ C55.written ≠ reversed ∧ (parseRdf C49.exampleEnv [] C55.written).isSome = true ∧
    parseRdf C49.exampleEnv [] reversed ≠ parseRdf C49.exampleEnv [] C55.written :=
  ⟨(others_anywhere _ _ (List.reverse_perm _)).1, by decide +kernel, C55.written_reads, by decide +kernel⟩

/-- `OneEach`, computed. -/
private def oneEach (g : RdfGraph) : Bool :=
  g.all (fun t => t.2.1 ∉ orderedProperties || (RdfSays.values g t.1 t.2.1).length ≤ 1) && (RdfSays.nodes g s%"CreationInfo").length ≤ 1

private theorem oneEach_sound {g : RdfGraph} (h : oneEach g = true) : OneEach g := by
  simp only [oneEach, Bool.and_eq_true, List.all_eq_true, Bool.or_eq_true, decide_eq_true_eq] at h
  refine ⟨fun p hp n => ?_, h.2⟩
  cases hv : RdfSays.values g n p with
  | nil => exact Nat.zero_le _
  | cons v l =>
    have hm : v ∈ RdfSays.values g n p := by rw [hv]; exact List.mem_cons_self ..
    obtain ⟨t, ht, e⟩ := List.mem_filterMap.1 hm
    split at e
    · rename_i e'
      obtain ⟨rfl, rfl⟩ := e'
      rw [← hv]
      exact (h.1 t ht).resolve_left fun x => x hp
    · cases e

/-- A document with one package. -/
private def small : RdfGraph := (rdfGraph C49.exampleEnv (C49.onePackage Example.barePackage)).getD []

-- the conditions of `any_order`
example : OneEach small ∧ (parseRdf C49.exampleEnv [] small).isSome = true ∧ small.length > 10 ∧ ∃ d', parseRdf C49.exampleEnv [] small.reverse = some d' := by
  have h1 : OneEach small := oneEach_sound (by decide +kernel)
  have h2 : (parseRdf C49.exampleEnv [] small).isSome = true := by decide +kernel
  refine ⟨h1, h2, by decide +kernel, ?_⟩
  rcases any_order C49.exampleEnv [] h1 (List.reverse_perm small).symm with ⟨h, _⟩ | ⟨_, d', _, h, _⟩
  · rw [h] at h2; cases h2
  · exact ⟨d', h⟩

/-- The package is analyzed, says the document read. -/
private def analyzed (d : Option Document) : Option (List Bool) := d.map fun d => d.packages.map (·.filesAnalyzed)

/-- The document with one package, with two values for whether its files are analyzed. -/
private def doubled (first : Bool) : RdfGraph :=
  let n := (RdfSays.nodes small s%"Package").headD (.str [])
  (n, .filesAnalyzed, .bool first) :: (n, .filesAnalyzed, .bool !first) :: small.filter fun t => t.2.1 ≠ .filesAnalyzed

private theorem doubled_read (first : Bool) : analyzed (parseRdf C49.exampleEnv [] (doubled first)) = some [first] := by
  cases first <;> decide +kernel

private theorem differ {d d' : Document} (h : d.packages.map (·.filesAnalyzed) = [true]) (h' : d'.packages.map (·.filesAnalyzed) = [false]) :
    ¬ SameRdf d d' := by
  intro hs
  obtain ⟨l, ha, hp⟩ := hs.packages
  have hm : false ∈ d'.packages.map (·.filesAnalyzed) := by rw [h']; simp
  obtain ⟨q, hq, hf⟩ := List.mem_map.1 hm
  have hq := hp.mem_iff.1 hq
  have : ∀ {ps l : List Package}, Spec.All2 SamePackage ps l → q ∈ l → q.filesAnalyzed ∈ ps.map (·.filesAnalyzed) := by
    intro ps l ha
    induction ha with
    | nil => intro h; cases h
    | cons h1 _ ih =>
      intro hq
      rcases List.mem_cons.1 hq with rfl | hq
      · exact List.mem_cons.2 (.inl h1.analyzed)
      · exact List.mem_cons_of_mem _ (ih hq)
  have := this ha hq
  rw [h, hf] at this
  cases this with
  | tail _ h => cases h

/-- With two values of such a property, order shows: the first one is taken. -/
theorem order_shows : ∃ (env : RdfEnv) (g g' : RdfGraph) (d d' : Document), g.Perm g' ∧ parseRdf env [] g = some d ∧ parseRdf env [] g' = some d' ∧
    ¬ SameRdf d d' := by
  obtain ⟨d, h3, h4⟩ := Option.map_eq_some_iff.1 (doubled_read true)
  obtain ⟨d', h5, h6⟩ := Option.map_eq_some_iff.1 (doubled_read false)
  exact ⟨C49.exampleEnv, doubled true, doubled false, d, d', List.Perm.swap _ _ _, h3, h5, differ h4 h6⟩

end Spdx.C83
