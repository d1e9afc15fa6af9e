import Verif.Lemmas.RdfGraph
import Verif.Spec.RdfOk
import Verif.Py.Exacts
/- What a graph says about the nodes of one part of it. -/
namespace Spdx
open Spec

theorem objects_flatMap {α : Type} (F : α → RdfGraph) (l : List α) (s : RdfNode) (p : Pred) :
    RdfGraph.objects (l.flatMap F) s p = l.flatMap fun e => RdfGraph.objects (F e) s p := by
  induction l with
  | nil => rfl
  | cons a l ih => rw [List.flatMap_cons, List.flatMap_cons, objects_append, ih]

theorem flatMap_ite_singleton {α β : Type} (c : Prop) [Decidable c] (f : α → β) (l : List α) :
    (l.flatMap fun e => if c then [f e] else []) = if c then l.map f else [] := by
  by_cases h : c
  · simp only [if_pos h]
    induction l with
    | nil => rfl
    | cons a l ih => rw [List.flatMap_cons, ih]; rfl
  · simp only [if_neg h]
    induction l with
    | nil => rfl
    | cons a l ih => rw [List.flatMap_cons, ih]; rfl

/-! ### Nodes outside of a place -/

/-- Not a blank node at or below the place, and not on the SPDX license list. -/
def Out (path : List Nat) (s : RdfNode) : Prop := (∀ q, s = .bnode q → ¬ path <:+ q) ∧ ∀ x, s ≠ .uri (licenseNamespace ++ x)

theorem Out.below {path : List Nat} {s : RdfNode} (h : Out path s) {path' : List Nat} (hp : path <:+ path') : Out path' s :=
  ⟨fun q hq hs => h.1 q hq (hp.trans hs), h.2⟩

theorem Out.ne {path : List Nat} {s : RdfNode} (h : Out path s) {q : List Nat} (hq : path <:+ q) : RdfNode.bnode q ≠ s := by
  rintro rfl
  exact h.1 q rfl hq

theorem Out.sibling {j k : Nat} {path q : List Nat} (hq : k :: path <:+ q) (hjk : j ≠ k) : Out (j :: path) (.bnode q) := by
  refine ⟨?_, fun x h => by cases h⟩
  intro q' e hs
  cases e
  exact hjk (suffix_head hs hq)

theorem Out.uri {path : List Nat} {u : Str} (h : ¬ licenseNamespace <+: u) : Out path (.uri u) := by
  refine ⟨fun q e => by (cases e), ?_⟩
  intro x e
  cases e
  exact h (List.prefix_append _ _)

theorem Out.parent (i : Nat) (path : List Nat) : Out (i :: path) (.bnode path) := by
  refine ⟨?_, fun x h => by cases h⟩
  intro q' e hs
  cases e
  have : path.length + 1 ≤ path.length := hs.length_le
  omega

/-! ### What is seen of a part -/

/-- About blank nodes at and below the place, the graph says what the part says. -/
def SeenAt (g part : RdfGraph) (path : List Nat) : Prop := ∀ q p, path <:+ q → ∀ o, (RdfNode.bnode q, p, o) ∈ g ↔ o ∈ part.objects (.bnode q) p

/-- About the node with the predicate, the graph says what the part says. -/
def SeenNode (g part : RdfGraph) (s : RdfNode) (p : Pred) : Prop := ∀ o, (s, p, o) ∈ g ↔ o ∈ part.objects s p

theorem SeenAt.node {g part : RdfGraph} {path q : List Nat} (h : SeenAt g part path) (hq : path <:+ q) (p : Pred) : SeenNode g part (.bnode q) p := h q p hq

theorem SeenAt.narrow {g part chunk : RdfGraph} {path path' : List Nat} (h : SeenAt g part path) (hp : path <:+ path')
    (hl : ∀ q p, path' <:+ q → part.objects (.bnode q) p = chunk.objects (.bnode q) p) : SeenAt g chunk path' := by
  intro q p hq o
  rw [h q p (hp.trans hq), hl q p hq]

theorem SeenNode.perm {g part : RdfGraph} {s : RdfNode} {p : Pred} (h : SeenNode g part s p) (hg : g.Nodup) {l : List RdfNode}
    (e : part.objects s p = l) (hn : l.Nodup) : (g.objects s p).Perm l := by
  refine (List.perm_ext_iff_of_nodup (objects_nodup hg s p) hn).2 ?_
  intro o
  rw [mem_objects, h, e]

theorem SeenNode.one {g part : RdfGraph} {s : RdfNode} {p : Pred} (h : SeenNode g part s p) (hg : g.Nodup) {v : RdfNode}
    (e : part.objects s p = [v]) : g.objects s p = [v] := List.perm_singleton.1 (h.perm hg e (by simp))

theorem SeenNode.empty {g part : RdfGraph} {s : RdfNode} {p : Pred} (h : SeenNode g part s p) (hg : g.Nodup)
    (e : part.objects s p = []) : g.objects s p = [] := (h.perm hg e List.nodup_nil).eq_nil

theorem SeenNode.opt {g part : RdfGraph} {s : RdfNode} {p : Pred} (h : SeenNode g part s p) (hg : g.Nodup) {v : Option RdfNode}
    (e : part.objects s p = v.toList) : g.objects s p = v.toList := by
  cases v with
  | none => exact h.empty hg e
  | some v => exact h.one hg e

/-! ### The triples of simple values -/

theorem objects_optLiteral (s : RdfNode) (p : Pred) (v : Option Str) (s' : RdfNode) (q : Pred) :
    RdfGraph.objects (optLiteral s p v) s' q = if s = s' ∧ p = q then (v.map RdfNode.str).toList else [] := by
  cases v with
  | none => simp [optLiteral, objects_nil]
  | some t => simp [optLiteral, objects_cons, objects_nil]

theorem objects_truthyLiteral (s : RdfNode) (p : Pred) (v : Option Str) (s' : RdfNode) (q : Pred) (hv : ∀ t, v = some t → t ≠ []) :
    RdfGraph.objects (truthyLiteral s p v) s' q = if s = s' ∧ p = q then (v.map RdfNode.str).toList else [] := by
  cases v with
  | none => simp [truthyLiteral, objects_nil]
  | some t => simp [truthyLiteral, objects_cons, objects_nil, hv t rfl]

theorem objects_literals (s : RdfNode) (p : Pred) (l : List Str) (s' : RdfNode) (q : Pred) :
    RdfGraph.objects (literals s p l) s' q = if s = s' ∧ p = q then l.map RdfNode.str else [] := by
  have : literals s p l = l.flatMap fun t => [(s, p, .str t)] := by
    unfold literals; rw [List.map_eq_flatMap]
  rw [this, objects_flatMap]
  simp only [objects_cons, objects_nil, List.append_nil]
  exact flatMap_ite_singleton _ _ _

/-- the values of a list written as references -/
theorem objects_uris (s : RdfNode) (p : Pred) (l : List Str) (s' : RdfNode) (q : Pred) :
    RdfGraph.objects (l.map fun t => (s, p, RdfNode.uri t)) s' q = if s = s' ∧ p = q then l.map RdfNode.uri else [] := by
  rw [List.map_eq_flatMap, objects_flatMap]
  simp only [objects_cons, objects_nil, List.append_nil]
  exact flatMap_ite_singleton _ _ _

/-- the node of a text or special value -/
def specialNode : OrSpecial Str → RdfNode
  | .none => spdxTerm s%"none"
  | .noAssertion => spdxTerm s%"noassertion"
  | .val t => .str t

theorem objects_literalOrSpecial (s : RdfNode) (p : Pred) (v : OrSpecial Str) (s' : RdfNode) (q : Pred) :
    RdfGraph.objects (literalOrSpecial s p v) s' q = if s = s' ∧ p = q then [specialNode v] else [] := by
  cases v <;> simp [literalOrSpecial, specialNode, objects_cons, objects_nil]

/-- the node of a text or NOASSERTION -/
def noAssertionNode : OrNoAssertion Str → RdfNode
  | .noAssertion => spdxTerm s%"noassertion"
  | .val t => .str t

theorem objects_literalOrNoAssertion (s : RdfNode) (p : Pred) (v : Option (OrNoAssertion Str)) (s' : RdfNode) (q : Pred) :
    RdfGraph.objects (literalOrNoAssertion s p v) s' q = if s = s' ∧ p = q then (v.map noAssertionNode).toList else [] := by
  rcases v with _ | _ | _ <;> simp [literalOrNoAssertion, noAssertionNode, objects_cons, objects_nil]

/-! ### Reading simple values -/

theorem uniqueValue_opt {g : RdfGraph} {s : RdfNode} {p : Pred} {v : Option RdfNode} (h : g.objects s p = v.toList) : uniqueValue g s p = some v := by
  unfold uniqueValue
  rw [h]
  cases v <;> rfl

theorem rdfLiteral_some {α : Type} {g : RdfGraph} {s : RdfNode} {p : Pred} {v : RdfNode} {m : RdfNode → Option α} {a : α} (h : g.objects s p = [v])
    (ht : v.truthy = true) (hm : m v = some a) : rdfLiteral g s p m = some (some a) := by
  unfold rdfLiteral
  rw [uniqueValue_opt (v := some v) h]
  show (if v.truthy = true then applyMethod m v else some none) = _
  rw [if_pos ht]
  unfold applyMethod
  rw [hm]

theorem rdfLiteral_none {α : Type} {g : RdfGraph} {s : RdfNode} {p : Pred} {m : RdfNode → Option α} (h : g.objects s p = []) :
    rdfLiteral g s p m = some none := by
  unfold rdfLiteral
  rw [uniqueValue_opt (v := none) h]

/-- An optional value read by a method that inverts how it was written. -/
theorem rdfLiteral_opt {α : Type} {g : RdfGraph} {s : RdfNode} {p : Pred} {v : Option α} {k : α → RdfNode} {m : RdfNode → Option α}
    (h : g.objects s p = (v.map k).toList) (hv : ∀ a, v = some a → (k a).truthy = true ∧ m (k a) = some a) : rdfLiteral g s p m = some v := by
  cases v with
  | none => exact rdfLiteral_none h
  | some a => exact rdfLiteral_some h (hv a rfl).1 (hv a rfl).2

theorem clean_str {t : Str} (h : Clean t) : (RdfNode.str t).truthy = true ∧ stripText (.str t) = some t := by
  refine ⟨?_, ?_⟩
  · unfold RdfNode.truthy
    have := h.1
    cases t with
    | nil => exact absurd rfl this
    | cons => rfl
  · unfold stripText RdfNode.text
    rw [h.2]

theorem rdfLiteral_text {g : RdfGraph} {s : RdfNode} {p : Pred} {v : Option Str} (h : g.objects s p = (v.map RdfNode.str).toList)
    (hv : ∀ t, v = some t → Clean t) : rdfLiteral g s p stripText = some v := rdfLiteral_opt h fun a ha => clean_str (hv a ha)

theorem rdfLiteral_needed {g : RdfGraph} {s : RdfNode} {p : Pred} {t : Str} (h : g.objects s p = [.str t])
    (ht : Clean t) : needed (rdfLiteral g s p stripText) = some t := by
  rw [rdfLiteral_some h (clean_str ht).1 (clean_str ht).2]; rfl

theorem rdfTexts_perm {g : RdfGraph} {s : RdfNode} {p : Pred} {l : List Str} (h : (g.objects s p).Perm (l.map RdfNode.str)) :
    ∃ m, rdfTexts g s p = some m ∧ m.Perm l := by
  obtain ⟨m, hm, hp⟩ := mapM_perm_eq (f := RdfNode.toPyStr) (k := RdfNode.str) (g := id) (l := l) (fun x _ => rfl) h
  exact ⟨m, hm, by simpa using hp⟩

theorem nodup_str {l : List Str} (h : l.Nodup) : (l.map RdfNode.str).Nodup := nodup_map_of_inj h fun a _ b _ e => by cases e; rfl

/-! ### Special values -/

theorem specialOr_val {α : Type} {m : RdfNode → Option (Option α)} {v : RdfNode} {a : α} (ht : v.truthy = true)
    (h1 : v ≠ spdxTerm s%"noassertion") (h2 : v.toPyStr ≠ some s%"NOASSERTION") (h3 : v ≠ spdxTerm s%"none") (h4 : v.toPyStr ≠ some s%"NONE")
    (hm : m v = some (some a)) : specialOr m v = some (some (.val a)) := by
  unfold specialOr
  rw [if_neg (by simp [ht]), if_neg (by rintro (h | h); exacts [h1 h, h2 h]), if_neg (by rintro (h | h); exacts [h3 h, h4 h]), hm]

theorem specialOr_noAssertion {α : Type} {m : RdfNode → Option (Option α)} : specialOr m (spdxTerm s%"noassertion") = some (some .noAssertion) := by
  unfold specialOr
  rw [if_neg (by simp [spdxTerm, RdfNode.truthy, spdxNamespace]), if_pos (.inl rfl)]

theorem specialOr_none {α : Type} {m : RdfNode → Option (Option α)} : specialOr m (spdxTerm s%"none") = some (some .none) := by
  unfold specialOr
  rw [if_neg (by simp [spdxTerm, RdfNode.truthy, spdxNamespace]), if_neg (by decide), if_pos (.inl rfl)]

theorem specialOr_noAssertion_text {α : Type} {m : RdfNode → Option (Option α)} : specialOr m (.str s%"NOASSERTION") = some (some .noAssertion) := by
  unfold specialOr
  rw [if_neg (by decide), if_pos (.inr rfl)]

theorem specialOr_none_text {α : Type} {m : RdfNode → Option (Option α)} : specialOr m (.str s%"NONE") = some (some .none) := by
  unfold specialOr
  rw [if_neg (by decide), if_neg (by decide), if_pos (.inr rfl)]

theorem rdfSpecial_some {α : Type} {g : RdfGraph} {s : RdfNode} {p : Pred} {v : RdfNode} {m : RdfNode → Option (Option α)} (h : g.objects s p = [v]) :
    rdfSpecial g s p m = specialOr m v := by
  unfold rdfSpecial
  rw [uniqueValue_opt (v := some v) h]

theorem rdfSpecial_none {α : Type} {g : RdfGraph} {s : RdfNode} {p : Pred} {m : RdfNode → Option (Option α)} (h : g.objects s p = []) :
    rdfSpecial g s p m = some none := by
  unfold rdfSpecial
  rw [uniqueValue_opt (v := none) h]

theorem specialOr_str {t : Str} (h : CleanVal t) : specialOr textSpecial (.str t) = some (some (.val t)) := by
  refine specialOr_val (clean_str h.1).1 (by intro e; cases e) ?_ (by intro e; cases e) ?_ ?_
  · intro e; exact h.2.2 (Option.some.inj e)
  · intro e; exact h.2.1 (Option.some.inj e)
  · show some (some (strip t)) = _
    rw [h.1.2]

/-- a text or special value, written by name -/
theorem rdfSpecial_text {g : RdfGraph} {s : RdfNode} {p : Pred} {v : Option (OrSpecial Str)}
    (h : g.objects s p = ((v.map strOrSpecial).map RdfNode.str).toList) (hv : ∀ x, v = some x → TextOr x) : rdfSpecial g s p textSpecial = some v := by
  rcases v with _ | t | _ | _
  · exact rdfSpecial_none h
  · rw [rdfSpecial_some (v := .str t) h]
    exact specialOr_str (hv _ rfl t rfl)
  · exact (rdfSpecial_some (v := .str s%"NOASSERTION") h).trans specialOr_noAssertion_text
  · exact (rdfSpecial_some (v := .str s%"NONE") h).trans specialOr_none_text

/-- a text or special value, written as such -/
theorem rdfSpecial_node {g : RdfGraph} {s : RdfNode} {p : Pred} {v : OrSpecial Str} (h : g.objects s p = [specialNode v]) (hv : TextOr v) :
    rdfSpecial g s p textSpecial = some (some v) := by
  rw [rdfSpecial_some h]
  cases v with
  | val t => exact specialOr_str (hv t rfl)
  | noAssertion => exact specialOr_noAssertion
  | none => exact specialOr_none

theorem rdfSpecial_noAssertion {g : RdfGraph} {s : RdfNode} {p : Pred} {v : Option (OrNoAssertion Str)}
    (h : g.objects s p = (v.map noAssertionNode).toList) (hv : ∀ t, v = some (.val t) → CleanVal t) :
    noNone (rdfSpecial g s p textSpecial) = some v := by
  rcases v with _ | t | _
  · rw [rdfSpecial_none h]; rfl
  · rw [rdfSpecial_some (v := .str t) h, specialOr_str (hv t rfl)]; rfl
  · rw [rdfSpecial_some (v := spdxTerm s%"noassertion") h, specialOr_noAssertion]; rfl

end Spdx
