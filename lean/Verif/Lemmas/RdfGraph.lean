import Verif.Lemmas.Rdf
import Verif.Model.RdfParser
import Verif.Spec.Same
/- Graphs as sets of triples, and which part of a graph is about which node. -/
namespace Spdx
open Spec

/-! ### The triples about a node -/

theorem objects_nil (s : RdfNode) (p : Pred) : RdfGraph.objects [] s p = [] := rfl

theorem objects_cons (a : RdfNode) (q : Pred) (o : RdfNode) (l : RdfGraph) (s : RdfNode) (p : Pred) :
    RdfGraph.objects ((a, q, o) :: l) s p = (if a = s ∧ q = p then [o] else []) ++ RdfGraph.objects l s p := by
  unfold RdfGraph.objects
  by_cases h : a = s ∧ q = p
  · rw [List.filter_cons_of_pos (by simpa using h), if_pos h]; rfl
  · rw [List.filter_cons_of_neg (by simpa using h), if_neg h]; rfl

theorem objects_append (l m : RdfGraph) (s : RdfNode) (p : Pred) :
    RdfGraph.objects (l ++ m) s p = RdfGraph.objects l s p ++ RdfGraph.objects m s p := by
  unfold RdfGraph.objects
  rw [List.filter_append, List.map_append]

theorem mem_objects (l : RdfGraph) (s : RdfNode) (p : Pred) (o : RdfNode) : o ∈ RdfGraph.objects l s p ↔ (s, p, o) ∈ l := by
  unfold RdfGraph.objects
  simp only [List.mem_map, List.mem_filter, decide_eq_true_eq]
  constructor
  · rintro ⟨⟨a, q, o'⟩, ⟨h, rfl, rfl⟩, rfl⟩; exact h
  · intro h; exact ⟨_, ⟨h, rfl, rfl⟩, rfl⟩

theorem mem_subjects (l : RdfGraph) (s : RdfNode) (p : Pred) (o : RdfNode) : s ∈ RdfGraph.subjects l p o ↔ (s, p, o) ∈ l := by
  unfold RdfGraph.subjects
  simp only [List.mem_map, List.mem_filter, decide_eq_true_eq]
  constructor
  · rintro ⟨⟨a, q, o'⟩, ⟨h, rfl, rfl⟩, rfl⟩; exact h
  · intro h; exact ⟨_, ⟨h, rfl, rfl⟩, rfl⟩

theorem mem_graph_pairs (l : RdfGraph) (p : Pred) (e : RdfNode × RdfNode) : e ∈ RdfGraph.pairs l p ↔ (e.1, p, e.2) ∈ l := by
  unfold RdfGraph.pairs
  simp only [List.mem_map, List.mem_filter, decide_eq_true_eq]
  constructor
  · rintro ⟨⟨a, q, o'⟩, ⟨h, rfl⟩, rfl⟩; exact h
  · intro h; exact ⟨_, ⟨h, rfl⟩, rfl⟩

/-- Nothing about the node with the predicate. -/
theorem objects_empty {l : RdfGraph} {s : RdfNode} {p : Pred} (h : ∀ t ∈ l, t.1 = s → t.2.1 = p → False) : RdfGraph.objects l s p = [] := by
  apply List.eq_nil_iff_forall_not_mem.2
  intro o ho
  exact h _ ((mem_objects l s p o).1 ho) rfl rfl

/-- Only one of the parts says something about the node. -/
theorem objects_zipIdx {α : Type} (F : α × Nat → RdfGraph) (l : List α) (s : RdfNode) (p : Pred) (i : Nat) (x : α) (h : l[i]? = some x)
    (hne : ∀ (j : Nat) y, l[j]? = some y → j ≠ i → RdfGraph.objects (F (y, j)) s p = []) :
    RdfGraph.objects (l.zipIdx.flatMap F) s p = RdfGraph.objects (F (x, i)) s p := by
  suffices ∀ (l : List α) (k : Nat), (∀ (j : Nat) y, l[j]? = some y → j + k ≠ i → RdfGraph.objects (F (y, j + k)) s p = []) →
      RdfGraph.objects ((l.zipIdx k).flatMap F) s p =
        if k ≤ i then (match l[i - k]? with | some x => RdfGraph.objects (F (x, i)) s p | none => []) else [] by
    have := this l 0 (by intro j y hj hi; exact hne j y hj (by omega))
    rw [this, if_pos (Nat.zero_le _), Nat.sub_zero, h]
  intro l
  induction l with
  | nil => intro k _; simp [objects_nil]
  | cons a l ih =>
    intro k hk
    rw [List.zipIdx_cons, List.flatMap_cons, objects_append]
    have hrest := ih (k + 1) (by
      intro j y hj hi
      have := hk (j + 1) y (by simpa using hj) (by omega)
      rwa [show j + 1 + k = j + (k + 1) by omega] at this)
    rw [hrest]
    by_cases hik : k = i
    · subst hik
      rw [if_neg (by omega), List.append_nil, if_pos (Nat.le_refl _), Nat.sub_self]
      rfl
    · have h0 := hk 0 a rfl (by omega)
      rw [Nat.zero_add] at h0
      rw [h0, List.nil_append]
      by_cases hki : k ≤ i
      · rw [if_pos (show k + 1 ≤ i by omega), if_pos hki, show i - k = (i - (k + 1)) + 1 by omega, List.getElem?_cons_succ]
      · rw [if_neg hki, if_neg (by omega)]

theorem mem_zipIdx_flatMap {α β : Type} (F : α × Nat → List β) (l : List α) (t : β) :
    t ∈ l.zipIdx.flatMap F ↔ ∃ i x, l[i]? = some x ∧ t ∈ F (x, i) := by
  rw [List.mem_flatMap]
  constructor
  · rintro ⟨⟨x, i⟩, hm, ht⟩
    exact ⟨i, x, by simpa using (List.mem_zipIdx_iff_getElem?.1 hm), ht⟩
  · rintro ⟨i, x, hi, ht⟩
    exact ⟨(x, i), List.mem_zipIdx_iff_getElem?.2 (by simpa using hi), ht⟩

/-! ### Sets of triples -/

/-- The same triples; the first without repetition, as a graph that was read. -/
def SameTriples (g w : RdfGraph) : Prop := g.Nodup ∧ ∀ t, t ∈ g ↔ t ∈ w

theorem nodup_map_of_inj {α β : Type} {f : α → β} {l : List α} (h : l.Nodup) (hf : ∀ a ∈ l, ∀ b ∈ l, f a = f b → a = b) : (l.map f).Nodup := by
  induction l with
  | nil => simp
  | cons a l ih =>
    rw [List.nodup_cons] at h
    rw [List.map_cons, List.nodup_cons]
    refine ⟨?_, ih h.2 (fun x hx y hy => hf x (List.mem_cons_of_mem _ hx) y (List.mem_cons_of_mem _ hy))⟩
    intro hm
    obtain ⟨b, hb, e⟩ := List.mem_map.1 hm
    have := hf b (List.mem_cons_of_mem _ hb) a List.mem_cons_self e
    exact h.1 (this ▸ hb)

theorem objects_nodup {g : RdfGraph} (h : g.Nodup) (s : RdfNode) (p : Pred) : (g.objects s p).Nodup := by
  unfold RdfGraph.objects
  refine nodup_map_of_inj (h.filter _) ?_
  rintro ⟨a, q, o⟩ ha ⟨a', q', o'⟩ hb e
  have h1 := (List.mem_filter.1 ha).2
  have h2 := (List.mem_filter.1 hb).2
  simp only [decide_eq_true_eq] at h1 h2 e
  rw [h1.1, h1.2, h2.1, h2.2, e]

theorem subjects_nodup {g : RdfGraph} (h : g.Nodup) (p : Pred) (o : RdfNode) : (g.subjects p o).Nodup := by
  unfold RdfGraph.subjects
  refine nodup_map_of_inj (h.filter _) ?_
  rintro ⟨a, q, o⟩ ha ⟨a', q', o'⟩ hb e
  have h1 := (List.mem_filter.1 ha).2
  have h2 := (List.mem_filter.1 hb).2
  simp only [decide_eq_true_eq] at h1 h2 e
  rw [h1.1, h1.2, h2.1, h2.2, e]

theorem pairs_nodup {g : RdfGraph} (h : g.Nodup) (p : Pred) : (g.pairs p).Nodup := by
  unfold RdfGraph.pairs
  refine nodup_map_of_inj (h.filter _) ?_
  rintro ⟨a, q, o⟩ ha ⟨a', q', o'⟩ hb e
  have h1 := (List.mem_filter.1 ha).2
  have h2 := (List.mem_filter.1 hb).2
  simp only [decide_eq_true_eq, Prod.mk.injEq] at h1 h2 e
  rw [h1, h2, e.1, e.2]

theorem SameTriples.objects {g w : RdfGraph} (h : SameTriples g w) (s : RdfNode) (p : Pred) (hn : (w.objects s p).Nodup) :
    (g.objects s p).Perm (w.objects s p) := by
  refine (List.perm_ext_iff_of_nodup (objects_nodup h.1 s p) hn).2 ?_
  intro o
  rw [mem_objects, mem_objects, h.2]

theorem SameTriples.objects_list {g w : RdfGraph} (h : SameTriples g w) {s : RdfNode} {p : Pred} {l : List RdfNode} (hw : w.objects s p = l)
    (hn : l.Nodup) : (g.objects s p).Perm l := by
  rw [← hw] at hn ⊢
  exact h.objects s p hn

theorem SameTriples.objects_nil {g w : RdfGraph} (h : SameTriples g w) {s : RdfNode} {p : Pred} (hw : w.objects s p = []) : g.objects s p = [] :=
  (h.objects_list hw List.nodup_nil).eq_nil

theorem SameTriples.objects_one {g w : RdfGraph} (h : SameTriples g w) {s : RdfNode} {p : Pred} {v : RdfNode} (hw : w.objects s p = [v]) :
    g.objects s p = [v] := List.perm_singleton.1 (h.objects_list hw (by simp))

theorem SameTriples.subjects {g w : RdfGraph} (h : SameTriples g w) {p : Pred} {o : RdfNode} {l : List RdfNode} (hn : l.Nodup)
    (hw : ∀ s, (s, p, o) ∈ w ↔ s ∈ l) : (g.subjects p o).Perm l := by
  refine (List.perm_ext_iff_of_nodup (subjects_nodup h.1 p o) hn).2 ?_
  intro s
  rw [mem_subjects, h.2, hw]

theorem SameTriples.pairs {g w : RdfGraph} (h : SameTriples g w) {p : Pred} {l : List (RdfNode × RdfNode)} (hn : l.Nodup)
    (hw : ∀ s o, (s, p, o) ∈ w ↔ (s, o) ∈ l) : (g.pairs p).Perm l := by
  refine (List.perm_ext_iff_of_nodup (pairs_nodup h.1 p) hn).2 ?_
  intro e
  rw [mem_graph_pairs, h.2, hw]

/-! ### Mapping over rearranged lists -/

theorem mapM_cons_some {α β : Type} {f : α → Option β} {a : α} {l : List α} {b : β} {m : List β} (h1 : f a = some b) (h2 : l.mapM f = some m) :
    (a :: l).mapM f = some (b :: m) := by
  rw [List.mapM_cons, h1, h2]; rfl

theorem mapM_all2 {α β : Type} {f : α → Option β} {R : γ → β → Prop} {k : γ → α} {l : List γ} (h : ∀ x ∈ l, ∃ y, f (k x) = some y ∧ R x y) :
    ∃ m, (l.map k).mapM f = some m ∧ All2 R l m := by
  induction l with
  | nil => exact ⟨[], rfl, .nil⟩
  | cons a l ih =>
    obtain ⟨b, hb, hr⟩ := h a List.mem_cons_self
    obtain ⟨m, hm, ha⟩ := ih (fun x hx => h x (List.mem_cons_of_mem _ hx))
    exact ⟨b :: m, mapM_cons_some hb hm, .cons hr ha⟩

theorem mapM_perm {α β : Type} {f : α → Option β} {l l' : List α} (h : l.Perm l') : ∀ {m : List β}, l.mapM f = some m →
    ∃ m', l'.mapM f = some m' ∧ m.Perm m' := by
  induction h with
  | nil => intro m hm; exact ⟨m, hm, List.Perm.refl _⟩
  | cons a h ih =>
    intro m hm
    rw [List.mapM_cons] at hm
    simp only [Option.bind_eq_bind, Option.bind_eq_some_iff, Option.pure_def, Option.some.injEq] at hm
    obtain ⟨b, hb, m', hm', rfl⟩ := hm
    obtain ⟨m'', h1, h2⟩ := ih hm'
    exact ⟨b :: m'', mapM_cons_some hb h1, h2.cons b⟩
  | swap a b l =>
    intro m hm
    rw [List.mapM_cons, List.mapM_cons] at hm
    simp only [Option.bind_eq_bind, Option.bind_eq_some_iff, Option.pure_def, Option.some.injEq] at hm
    obtain ⟨x, hx, m', ⟨y, hy, m'', hm'', rfl⟩, rfl⟩ := hm
    exact ⟨y :: x :: m'', mapM_cons_some hy (mapM_cons_some hx hm''), List.Perm.swap _ _ _⟩
  | trans _ _ ih1 ih2 =>
    intro m hm
    obtain ⟨m1, h1, p1⟩ := ih1 hm
    obtain ⟨m2, h2, p2⟩ := ih2 h1
    exact ⟨m2, h2, p1.trans p2⟩

/-- What is read from a rearranged list of nodes, one for each of `l`. -/
theorem mapM_rearranged {α β γ : Type} {f : α → Option β} {R : γ → β → Prop} {k : γ → α} {l : List γ} {found : List α}
    (h : ∀ x ∈ l, ∃ y, f (k x) = some y ∧ R x y) (hp : found.Perm (l.map k)) : ∃ m, found.mapM f = some m ∧ Rearranged2 R l m := by
  obtain ⟨m, hm, ha⟩ := mapM_all2 h
  obtain ⟨m', hm', hp'⟩ := mapM_perm hp.symm hm
  exact ⟨m', hm', m, ha, hp'.symm⟩

theorem all2_eq {α : Type} {l m : List α} (h : All2 (· = ·) l m) : m = l := by
  induction h with
  | nil => rfl
  | cons e _ ih => rw [e, ih]

theorem all2_perm {α : Type} {l m : List α} (h : Rearranged2 (· = ·) l m) : m.Perm l := by
  obtain ⟨l', ha, hp⟩ := h
  rwa [all2_eq ha] at hp

/-- … when each is read exactly. -/
theorem mapM_perm_eq {α β γ : Type} {f : α → Option β} {k : γ → α} {g : γ → β} {l : List γ} {found : List α}
    (h : ∀ x ∈ l, f (k x) = some (g x)) (hp : found.Perm (l.map k)) : ∃ m, found.mapM f = some m ∧ m.Perm (l.map g) := by
  have : (l.map k).mapM f = some (l.map g) := by
    clear hp
    induction l with
    | nil => rfl
    | cons a l ih => exact mapM_cons_some (h a List.mem_cons_self) (ih fun x hx => h x (List.mem_cons_of_mem _ hx))
  obtain ⟨m', hm', hp'⟩ := mapM_perm hp.symm this
  exact ⟨m', hm', hp'.symm⟩

/-- A rearrangement of a mapped list is a mapped rearrangement. -/
theorem perm_of_map {α β : Type} {f : α → β} {l : List β} {m : List α} (h : l.Perm (m.map f)) : ∃ m' : List α, l = m'.map f ∧ m'.Perm m := by
  generalize hk : m.map f = k at h
  induction h generalizing m with
  | nil => exact ⟨[], rfl, by rw [List.map_eq_nil_iff.1 hk]⟩
  | cons a _ ih =>
    cases m with
    | nil => cases hk
    | cons b m =>
      rw [List.map_cons] at hk
      obtain ⟨h1, h2⟩ := List.cons.inj hk
      obtain ⟨m', e, p⟩ := ih h2
      exact ⟨b :: m', by rw [List.map_cons, h1, e], p.cons b⟩
  | swap a b l =>
    match m, hk with
    | x :: y :: m, hk =>
      rw [List.map_cons, List.map_cons] at hk
      obtain ⟨h1, h2⟩ := List.cons.inj hk
      obtain ⟨h2, h3⟩ := List.cons.inj h2
      exact ⟨y :: x :: m, by rw [List.map_cons, List.map_cons, h1, h2, h3], List.Perm.swap _ _ _⟩
  | trans _ _ ih1 ih2 =>
    obtain ⟨m1, e1, p1⟩ := ih2 hk
    obtain ⟨m2, e2, p2⟩ := ih1 e1.symm
    exact ⟨m2, e2, p2.trans p1⟩

/-! ### Places of blank nodes -/

/-- Everything said in `w` about blank nodes at or below the place is said in `b`. -/
def Local (w : RdfGraph) (path : List Nat) (b : RdfGraph) : Prop :=
  ∀ q p, path <:+ q → w.objects (.bnode q) p = RdfGraph.objects b (.bnode q) p

/-- Nothing about blank nodes at or below the place. -/
def Clear (path : List Nat) (b : RdfGraph) : Prop := ∀ q p, path <:+ q → RdfGraph.objects b (.bnode q) p = []

/-- The only blank nodes that something is said about are at or below the place. -/
def Under (path : List Nat) (b : RdfGraph) : Prop := ∀ t ∈ b, ∀ q, t.1 = .bnode q → path <:+ q

theorem suffix_head {a b : Nat} {path q : List Nat} (h1 : a :: path <:+ q) (h2 : b :: path <:+ q) : a = b := by
  have := List.suffix_of_suffix_length_le h1 h2 (by simp)
  exact (List.cons.inj (this.eq_of_length (by simp))).1

theorem Under.clear {j k : Nat} {path : List Nat} {b : RdfGraph} (h : Under (j :: path) b) (hjk : j ≠ k) : Clear (k :: path) b := by
  intro q p hq
  refine objects_empty ?_
  intro t ht h1 _
  exact hjk (suffix_head (h t ht q h1) hq)

theorem Under.up {j : Nat} {path : List Nat} {b : RdfGraph} (h : Under (j :: path) b) : Under path b :=
  fun t ht q hq => (List.suffix_cons j path).trans (h t ht q hq)

theorem Clear.append {path : List Nat} {a b : RdfGraph} (h1 : Clear path a) (h2 : Clear path b) : Clear path (a ++ b) := by
  intro q p hq
  rw [objects_append, h1 q p hq, h2 q p hq]; rfl

theorem Clear.nil (path : List Nat) : Clear path [] := fun _ _ _ => rfl

/-- Statements about another kind of node. -/
theorem clear_of_uri {path : List Nat} {b : RdfGraph} (h : ∀ t ∈ b, ∀ q, t.1 ≠ .bnode q) : Clear path b := by
  intro q p _
  exact objects_empty fun t ht h1 _ => h t ht q h1

theorem Local.right {w : RdfGraph} {path path' : List Nat} {a b : RdfGraph} (h : Local w path (a ++ b)) (hp : path <:+ path')
    (ha : Clear path' a) : Local w path' b := by
  intro q p hq
  rw [h q p (hp.trans hq), objects_append, ha q p hq]; rfl

theorem Local.left {w : RdfGraph} {path path' : List Nat} {a b : RdfGraph} (h : Local w path (a ++ b)) (hp : path <:+ path')
    (hb : Clear path' b) : Local w path' a := by
  intro q p hq
  rw [h q p (hp.trans hq), objects_append, hb q p hq, List.append_nil]

end Spdx
