import Verif.Model.RdfParser
import Verif.Spec.Example
/-
C39 – Reading RDF adds the relationships implied by hasFile/describesPackage only when not already present.
-/
namespace Spdx.C39
open Spdx

/-! ### Specification -/

/-- The relationships that the graph states by `hasFile` and `describesPackage`, `idOf` being the identifier of a node. -/
inductive Implied (g : RdfGraph) (idOf : RdfNode → Str → Prop) : Relationship → Prop
  | file {p f : RdfNode} {pid fid : Str} : (p, .hasFile, f) ∈ g → idOf p pid → idOf f fid →
      Implied g idOf { spdxElementId := pid, relationshipType := .CONTAINS, relatedSpdxElementId := .val fid, comment := none }
  | package {d p : RdfNode} {did pid : Str} : (d, .describesPackage, p) ∈ g → idOf d did → idOf p pid →
      Implied g idOf { spdxElementId := did, relationshipType := .DESCRIBES, relatedSpdxElementId := .val pid, comment := none }

/-- Identifier of a node under given namespace bindings. -/
def idOf (b : Bindings) (ns : Str) (n : RdfNode) (id : Str) : Prop := parseRdfId b ns n = some (some id)

/-! ### Theorems -/

private theorem mem_pairs (g : RdfGraph) (p : Pred) (e : RdfNode × RdfNode) : e ∈ g.pairs p ↔ (e.1, p, e.2) ∈ g := by
  unfold RdfGraph.pairs
  simp only [List.mem_map, List.mem_filter, decide_eq_true_eq]
  constructor
  · rintro ⟨⟨s, q, o⟩, ⟨h1, h2⟩, rfl⟩; simp only at h2; subst h2; exact h1
  · intro h; exact ⟨_, ⟨h, rfl⟩, rfl⟩

private theorem parseImplicit_iff (b : Bindings) (ns : Str) (ty : RelationshipType) (e : RdfNode × RdfNode) (r : Relationship) :
    parseImplicit b ns ty e = some r ↔ ∃ i j, idOf b ns e.1 i ∧ idOf b ns e.2 j ∧ r = ⟨i, ty, .val j, none⟩ := by
  unfold parseImplicit needed idOf
  cases h1 : parseRdfId b ns e.1 with
  | none => simp
  | some i => cases i with
    | none => simp
    | some i => cases h2 : parseRdfId b ns e.2 with
      | none => simp
      | some j => cases j with
        | none => simp
        | some j => simp [eq_comm]

/-- What one run of the loop adds. -/
private def Step (P : Relationship → Prop) (rels out : List Relationship) : Prop :=
  ∃ added, out = rels ++ added ∧ added.Nodup ∧ (∀ r ∈ added, r ∉ rels) ∧ (∀ r ∈ added, P r) ∧ ∀ r, P r → r ∈ out

private theorem loop (b : Bindings) (ns : Str) (ty : RelationshipType) (l : List (RdfNode × RdfNode)) (rels out : List Relationship)
    (h : l.foldlM (addImplicit b ns ty) rels = some out) :
    Step (fun r => ∃ e ∈ l, parseImplicit b ns ty e = some r) rels out := by
  induction l generalizing rels with
  | nil =>
    have : rels = out := by simpa using h
    subst this
    exact ⟨[], by simp, by simp, by simp, by simp, by simp⟩
  | cons e l ih =>
    rw [List.foldlM_cons] at h
    cases hr : parseImplicit b ns ty e with
    | none => simp [addImplicit, hr] at h
    | some r =>
      simp only [addImplicit, hr, Option.pure_def, Option.bind_eq_bind, Option.bind_some] at h
      obtain ⟨added, rfl, hn, hd, hp, hc⟩ := ih _ h
      split at hc
      · rename_i hm
        rw [if_pos hm] at hd ⊢
        refine ⟨added, rfl, hn, hd, ?_, ?_⟩
        · intro x hx
          obtain ⟨y, hy, h⟩ := hp x hx
          exact ⟨y, by simp [hy], h⟩
        · rintro x ⟨y, hy, h⟩
          rcases List.mem_cons.1 hy with rfl | hy
          · have : x = r := by rw [hr] at h; simpa using h.symm
            subst this; simp [hm]
          · exact hc x ⟨y, hy, h⟩
      · rename_i hm
        rw [if_neg hm] at hd ⊢
        refine ⟨r :: added, by simp, ?_, ?_, ?_, ?_⟩
        · rw [List.nodup_cons]
          exact ⟨fun hx => hd r hx (by simp), hn⟩
        · intro x hx
          rcases List.mem_cons.1 hx with rfl | hx
          · exact hm
          · exact fun hy => hd x hx (by simp [hy])
        · intro x hx
          rcases List.mem_cons.1 hx with rfl | hx
          · exact ⟨e, by simp, hr⟩
          · obtain ⟨y, hy, h⟩ := hp x hx
            exact ⟨y, by simp [hy], h⟩
        · rintro x ⟨y, hy, h⟩
          rcases List.mem_cons.1 hy with rfl | hy
          · have : x = r := by rw [hr] at h; simpa using h.symm
            subst this; simp
          · have := hc x ⟨y, hy, h⟩
            simpa using this

private theorem two_steps {P Q : Relationship → Prop} {a b c : List Relationship} (h1 : Step P a b) (h2 : Step Q b c) :
    Step (fun r => P r ∨ Q r) a c := by
  obtain ⟨x, rfl, xn, xd, xp, xc⟩ := h1
  obtain ⟨y, rfl, yn, yd, yp, yc⟩ := h2
  refine ⟨x ++ y, by simp, ?_, ?_, ?_, ?_⟩
  · rw [List.nodup_append]
    refine ⟨xn, yn, ?_⟩
    rintro r hr s hs rfl
    exact yd _ hs (by simp [hr])
  · intro r hr
    rcases List.mem_append.1 hr with hr | hr
    · exact xd r hr
    · exact fun h => yd r hr (by simp [h])
  · intro r hr
    rcases List.mem_append.1 hr with hr | hr
    · exact .inl (xp r hr)
    · exact .inr (yp r hr)
  · rintro r (h | h)
    · exact List.mem_append_left _ (xc r h)
    · exact yc r h

private theorem implied_iff (g : RdfGraph) (b : Bindings) (ns : Str) (r : Relationship) :
    Implied g (idOf b ns) r ↔ (∃ e ∈ g.pairs .hasFile, parseImplicit b ns .CONTAINS e = some r) ∨
      (∃ e ∈ g.pairs .describesPackage, parseImplicit b ns .DESCRIBES e = some r) := by
  constructor
  · rintro (⟨h, h1, h2⟩ | ⟨h, h1, h2⟩)
    · exact .inl ⟨(_, _), (mem_pairs _ _ _).2 h, (parseImplicit_iff _ _ _ _ _).2 ⟨_, _, h1, h2, rfl⟩⟩
    · exact .inr ⟨(_, _), (mem_pairs _ _ _).2 h, (parseImplicit_iff _ _ _ _ _).2 ⟨_, _, h1, h2, rfl⟩⟩
  · rintro (⟨e, he, h⟩ | ⟨e, he, h⟩)
    · obtain ⟨i, j, h1, h2, rfl⟩ := (parseImplicit_iff _ _ _ _ _).1 h
      exact .file ((mem_pairs _ _ _).1 he) h1 h2
    · obtain ⟨i, j, h1, h2, rfl⟩ := (parseImplicit_iff _ _ _ _ _).1 h
      exact .package ((mem_pairs _ _ _).1 he) h1 h2

/-- A document read from a graph has the relationships stated as such, in order and unchanged; after them, each at most once and only if it
    is not among those, the implied ones; and no implied one is missing. -/
theorem relationships (env : RdfEnv) (b : Bindings) (g : RdfGraph) (d : Document) (h : parseRdf env b g = some d) :
    ∃ b', parseRdfCreationInfo env b g = some (d.creationInfo, b') ∧
    ∃ stated added,
      (g.pairs .relationship).mapM (parseRdfRelationship b' g d.creationInfo.documentNamespace) = some stated ∧
      d.relationships = stated ++ added ∧ added.Nodup ∧ (∀ r ∈ added, r ∉ stated) ∧
      (∀ r ∈ added, Implied g (idOf b' d.creationInfo.documentNamespace) r) ∧
      (∀ r, Implied g (idOf b' d.creationInfo.documentNamespace) r → r ∈ d.relationships) := by
  unfold parseRdf at h
  simp only [Option.bind_eq_bind, Option.bind_eq_some_iff, Option.pure_def, Option.some.injEq] at h
  obtain ⟨⟨info, b'⟩, hi, pk, -, fs, -, sn, -, an, -, stated, hs, r1, h1, r2, h2, ex, -, rfl⟩ := h
  refine ⟨b', hi, ?_⟩
  obtain ⟨added, e, hn, hd, hp, hc⟩ := two_steps (loop _ _ _ _ _ _ h1) (loop _ _ _ _ _ _ h2)
  exact ⟨stated, added, hs, e, hn, hd, fun r hr => (implied_iff _ _ _ _).2 (hp r hr), fun r hr => hc r ((implied_iff _ _ _ _).1 hr)⟩

/-! Non-vacuity: the example document, with `hasFile` and `describesPackage` next to its explicit relationships and one more package that is
    only described implicitly. -/
private def env : RdfEnv := ⟨fun _ => true, ⟨fun _ => s%"MIT", fun _ => some (some (.sym s%"MIT"))⟩, fun s => s.takeWhile (· ≠ '#'), 5⟩
private def u (id : Str) : RdfNode := .uri (s%"https://e.org/d#" ++ id)
private def stated : Document := { Example.doc with relationships := [Example.describes s%"SPDXRef-Package"] }
private def graph : RdfGraph := ((rdfGraph env stated).getD []) ++
  [(u s%"SPDXRef-DOCUMENT", .describesPackage, u s%"SPDXRef-Package"), (u s%"SPDXRef-DOCUMENT", .describesPackage, u s%"SPDXRef-Bare"),
   (u s%"SPDXRef-Package", .hasFile, u s%"SPDXRef-File")]
example : (parseRdf env [] graph).map (·.relationships) = some [Example.describes s%"SPDXRef-Package",
    { spdxElementId := s%"SPDXRef-Package", relationshipType := .CONTAINS, relatedSpdxElementId := .val s%"SPDXRef-File" },
    Example.describes s%"SPDXRef-Bare"] := by decide +kernel

end Spdx.C39
