import Verif.Lemmas.RdfRename
import Verif.Lemmas.RdfPlain
import Verif.Props.C49
/-
C50: Reading an RDF graph gives the same document, or fails in the same cases, whatever names its blank nodes have.

The names are visible after all where a text is expected and a blank node is found (`name_visible`), and in extracted licenses without
an id (`license_name_visible`); the theorem is about the graphs without these.
-/
namespace Spdx.C50
open Spdx Spec

/-! ### Specification -/

/-- a renaming of blank nodes -/
def OneToOne (σ : List Nat → List Nat) : Prop := ∀ p q, σ p = σ q → p = q

/-- A graph where texts are texts: no textual value is a blank node, an extracted license that is a blank node has an id, and the
    document's namespace has a colon, as URIs have. -/
structure Proper (env : RdfEnv) (g : RdfGraph) : Prop where
  texts : PlainTexts g
  namesp : ∀ n, (n, .type, spdxTerm s%"SpdxDocument") ∈ g → ':' ∈ env.defrag n.text
  licenses : ∀ s p, (s, .hasExtractedLicensingInfo, .bnode p) ∈ g → ∃ x, (.bnode p, .licenseId, .str x) ∈ g ∧ strip x ≠ []

/-! ### Theorems -/

theorem names_ignored (env : RdfEnv) (b : Bindings) (g : RdfGraph) (σ : List Nat → List Nat) (hσ : OneToOne σ) (hg : Proper env g) :
    parseRdf env b (g.rename σ) = parseRdf env b g :=
  rename_parseRdf hσ hg.texts env b hg.namesp hg.licenses

/-- The graphs the program writes are of this kind. -/
theorem written_proper (env : RdfEnv) (d : Document) (h : DocRdf env d) (w : RdfGraph) (hw : rdfGraph env d = some w) : Proper env w := by
  have hi := inkeds_graph hw fun e he => by
    obtain ⟨i, hi, hc⟩ := (h.licenses e he).id
    exact ⟨i, hi, hc.1⟩
  refine ⟨fun s p o hm ht => (hi _ hm).text (by show (textual p || _) = true; rw [ht]; rfl), fun n hn => ?_, fun s p hm => ?_⟩
  · have : n = docNode d.creationInfo := (hi _ hn).doc rfl rfl
    rw [this]
    show ':' ∈ env.defrag (d.creationInfo.documentNamespace ++ s%"#" ++ d.creationInfo.spdxId)
    rw [h.ns.defrag]
    exact h.ns.colon
  · exact absurd rfl ((hi _ hm).text (show inked .hasExtractedLicensingInfo = true by decide) p)

private theorem preimage {α β : Type} {f : α → β} {w : List α} {g : List β} (h : ∀ t ∈ g, t ∈ w.map f) :
    ∃ g' : List α, g'.map f = g ∧ ∀ t ∈ g', t ∈ w := by
  induction g with
  | nil => exact ⟨[], rfl, fun t ht => by cases ht⟩
  | cons t g ih =>
    obtain ⟨g', hg', hw⟩ := ih fun x hx => h x (List.mem_cons_of_mem _ hx)
    obtain ⟨t', ht', e⟩ := List.mem_map.1 (h t List.mem_cons_self)
    exact ⟨t' :: g', by rw [List.map_cons, e, hg'], fun x hx => by
      rcases List.mem_cons.1 hx with rfl | hx
      · exact ht'
      · exact hw x hx⟩

private theorem nodup_of_map {α β : Type} {f : α → β} {l : List α} (h : (l.map f).Nodup) : l.Nodup := by
  induction l with
  | nil => exact List.nodup_nil
  | cons a l ih =>
    rw [List.map_cons, List.nodup_cons] at h
    exact List.nodup_cons.2 ⟨fun hm => h.1 (List.mem_map.2 ⟨a, hm, rfl⟩), ih h.2⟩

private theorem triple_inj {σ : List Nat → List Nat} (hσ : OneToOne σ) {t u : Triple} (h : renameTriple σ t = renameTriple σ u) : t = u := by
  obtain ⟨a, p, o⟩ := t
  obtain ⟨a', p', o'⟩ := u
  simp only [renameTriple, Prod.mk.injEq] at h
  rw [rename_inj hσ h.1, h.2.1, rename_inj hσ h.2.2]

/-- The round trip (C49) with blank nodes named in any way. -/
theorem round_trip_any_names (env : RdfEnv) (d : Document) (h : DocRdf env d) : ∃ w, rdfGraph env d = some w ∧
    ∀ σ g b, OneToOne σ → SameTriples g (w.rename σ) → C38.Fresh d.creationInfo.externalDocumentRefs b →
      ∃ e, parseRdf env b g = some e ∧ SameRdf d e := by
  obtain ⟨w, hw, hr⟩ := C49.round_trip env d h
  refine ⟨w, hw, fun σ g b hσ hg hb => ?_⟩
  obtain ⟨g', rfl, hg'⟩ := preimage (fun t ht => (hg.2 t).1 ht)
  have hs : SameTriples g' w := ⟨nodup_of_map hg.1, fun t => ⟨hg' t, fun ht => by
    have : renameTriple σ t ∈ g'.map (renameTriple σ) := (hg.2 _).2 (List.mem_map.2 ⟨t, ht, rfl⟩)
    obtain ⟨t', ht', e⟩ := List.mem_map.1 this
    exact triple_inj hσ e ▸ ht'⟩⟩
  have hp := written_proper env d h w hw
  have hp' : Proper env g' :=
    ⟨fun s p o hm => hp.texts s p o (hg' _ hm), fun n hn => hp.namesp n (hg' _ hn), fun s p hm => by
      obtain ⟨x, hx, hne⟩ := hp.licenses s p (hg' _ hm)
      exact ⟨x, (hs.2 _).2 hx, hne⟩⟩
  obtain ⟨e, he, hse⟩ := hr g' b hs hb
  exact ⟨e, (names_ignored env b g' σ hσ hp').trans he, hse⟩

/-! ### The hypotheses are met -/

example : OneToOne (fun p => 1 :: p) := fun p q h => by simpa using h
example : ∃ w, rdfGraph C49.exampleEnv Example.doc = some w ∧ Proper C49.exampleEnv w := by
  obtain ⟨w, hw, _⟩ := C49.round_trip _ _ C49.example_ok
  exact ⟨w, hw, written_proper _ _ C49.example_ok w hw⟩

/-! ### Where names are visible -/

/-- a document with a name and an extracted license -/
def small (name license : RdfNode) : RdfGraph :=
  [(.uri s%"http://a#SPDXRef-DOCUMENT", .type, spdxTerm s%"SpdxDocument"), (.uri s%"http://a#SPDXRef-DOCUMENT", .specVersion, .str s%"SPDX-2.3"),
   (.uri s%"http://a#SPDXRef-DOCUMENT", .dataLicense, .uri (licenseNamespace ++ s%"CC0-1.0")), (.uri s%"http://a#SPDXRef-DOCUMENT", .name, name),
   (.bnode [], .type, spdxTerm s%"CreationInfo"), (.bnode [], .created, .str s%"2022-12-01T00:00:00Z"), (.bnode [], .creator, .str s%"Tool: t"),
   (.uri s%"http://a#SPDXRef-DOCUMENT", .hasExtractedLicensingInfo, license)]

def smallEnv : RdfEnv := { C49.exampleEnv with defrag := fun s => s.takeWhile (· ≠ '#') }

/-- A blank node in the place of a text: its name is taken for the text. -/
theorem name_visible : ∃ g σ, OneToOne σ ∧ (parseRdf smallEnv [] g).isSome = true ∧ parseRdf smallEnv [] (g.rename σ) ≠ parseRdf smallEnv [] g :=
  ⟨small (.bnode [0]) (.uri s%"http://a#LicenseRef-1"), fun p => 1 :: p, fun p q h => by simpa using h, by decide +kernel, by decide +kernel⟩

/-- An extracted license without an id gets the name of its node. -/
theorem license_name_visible : ∃ g σ, OneToOne σ ∧ PlainTexts g ∧ (parseRdf smallEnv [] g).isSome = true ∧
    parseRdf smallEnv [] (g.rename σ) ≠ parseRdf smallEnv [] g :=
  ⟨small (.str s%"d") (.bnode [0]), fun p => 1 :: p, fun p q h => by simpa using h, fun s p o h => by
    simp only [small, List.mem_cons, List.not_mem_nil, or_false, Prod.mk.injEq] at h
    rcases h with ⟨_, rfl, rfl⟩ | ⟨_, rfl, rfl⟩ | ⟨_, rfl, rfl⟩ | ⟨_, rfl, rfl⟩ | ⟨_, rfl, rfl⟩ | ⟨_, rfl, rfl⟩ | ⟨_, rfl, rfl⟩ | ⟨_, rfl, rfl⟩ <;>
      first | (intro _ q e; cases e; done) | (intro e; cases e),
    by decide +kernel, by decide +kernel⟩

end Spdx.C50
