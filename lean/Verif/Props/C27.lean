import Verif.Lemmas.TagValueLayout
import Verif.Spec.Example
/-
C27: writing tag-value outputs each package, file, snippet, annotation and extracted license exactly once; each
relationship is either written explicitly or implied by a file following its package.
-/
namespace Spdx.C27
open Spdx Spec

/-! ### Specification -/

/-- The package and the file of a relationship that says that a package of the document contains a file of the document. -/
def packagedIds (d : Document) (r : Relationship) : Option (Str × Str) :=
  match r.relationshipType, r.relatedSpdxElementId with
  | .CONTAINS, .val f => if r.spdxElementId ∈ d.packages.map (·.spdxId) ∧ f ∈ d.files.map (·.spdxId) then some (r.spdxElementId, f) else none
  | .CONTAINED_BY, .val p => if p ∈ d.packages.map (·.spdxId) ∧ r.spdxElementId ∈ d.files.map (·.spdxId) then some (p, r.spdxElementId) else none
  | _, _ => none

/-- What the text has to say about a relationship: nearly always one thing. Where the relationship places a file in a
package, that the package contains the file; the relationship itself is written as well when it has a comment. -/
def said (d : Document) (r : Relationship) : List Relationship :=
  match packagedIds d r with
  | some (p, f) => (if r.comment = none ∨ r.comment = some [] then [] else [r]) ++ [contains p f]
  | none => [r]

/-- The layout has all of the document, once. -/
structure Complete (d : Document) (l : TvLayout) : Prop where
  packages : l.packages = d.packages
  files : l.allFiles.Perm d.files
  snippets : l.allSnippets.Perm d.snippets
  extracted : l.extracted = d.extractedLicensingInfo
  annotations : l.annotations = d.annotations
  /-- what is implied by the place of the files, and what is written explicitly -/
  relationships : (l.implied ++ l.relationships).Perm (d.relationships.flatMap (said d))
  /-- a snippet follows its own file, if it follows a file -/
  own : ∀ f ∈ l.tvFiles, ∀ s ∈ f.snippets, s.fileSpdxId = f.file.spdxId
  /-- a file without a package is in none -/
  loose : ∀ f ∈ l.files, ∀ r ∈ d.relationships, ∀ p, packagedIds d r ≠ some (p, f.file.spdxId)

/-! ### Helpers -/

theorem packagedIds_iff (d : Document) (r : Relationship) (p f : Str) : packagedIds d r = some (p, f) ↔ Packaged d r p f := by
  obtain ⟨a, t, b, c⟩ := r
  unfold packagedIds Packaged
  constructor
  · intro h
    split at h
    · split at h
      · rename_i f' ht hb hc
        simp only [Option.some.injEq, Prod.mk.injEq] at h
        obtain ⟨rfl, rfl⟩ := h
        simp only at ht hb
        exact ⟨hc.1, hc.2, .inl ⟨ht, rfl, hb⟩⟩
      · cases h
    · split at h
      · rename_i p' ht hb hc
        simp only [Option.some.injEq, Prod.mk.injEq] at h
        obtain ⟨rfl, rfl⟩ := h
        simp only at ht hb
        exact ⟨hc.1, hc.2, .inr ⟨ht, rfl, hb⟩⟩
      · cases h
    · cases h
  · rintro ⟨hp, hf, ⟨rfl, rfl, rfl⟩ | ⟨rfl, rfl, rfl⟩⟩
    · exact if_pos ⟨hp, hf⟩
    · exact if_pos ⟨hp, hf⟩

private theorem pairOf_ids {d : Document} (h : UniqueIds d) (r : Relationship) : (pairOf d r).map (fun x => (x.1, x.2.spdxId)) = packagedIds d r := by
  cases e : pairOf d r with
  | some x =>
    obtain ⟨p, f⟩ := x
    exact ((packagedIds_iff d r p f.spdxId).2 ((pairOf_iff h r p f).1 e).2).symm
  | none =>
    cases e' : packagedIds d r with
    | none => rfl
    | some x =>
      obtain ⟨p, i⟩ := x
      have hk := (packagedIds_iff d r p i).1 e'
      obtain ⟨f, hf, rfl⟩ := List.mem_map.1 hk.2.1
      rw [(pairOf_iff h r p f).2 ⟨hf, hk⟩] at e
      cases e

private theorem noComment_iff (r : Relationship) : r.hasComment = false ↔ (r.comment = none ∨ r.comment = some []) := by
  obtain ⟨a, t, b, c⟩ := r
  unfold Relationship.hasComment
  rcases c with _ | _ | ⟨x, c⟩ <;> simp

private theorem said_perm {d : Document} (h : UniqueIds d) (rs : List Relationship) :
    ((rs.filterMap (pairOf d)).map (fun x => contains x.1 x.2.spdxId) ++ rs.filter (explicit d)).Perm (rs.flatMap (said d)) := by
  induction rs with
  | nil => exact List.Perm.nil
  | cons r rs ih =>
    rw [List.filterMap_cons, List.filter_cons, List.flatMap_cons]
    have hk := pairOf_ids h r
    unfold explicit said
    rw [← hk]
    cases pairOf d r with
    | none =>
      refine List.perm_middle.trans ?_
      exact ih.cons r
    | some x =>
      obtain ⟨p, f⟩ := x
      cases hc : r.hasComment with
      | false =>
        rw [if_neg (show ¬ (((some (p, f)).isNone || false) = true) from Bool.false_ne_true)]
        show List.Perm _ (((if _ then [] else [r]) ++ [contains p f.spdxId]) ++ _)
        rw [if_pos ((noComment_iff r).1 hc)]
        exact ih.cons _
      | true =>
        rw [if_pos (show ((some (p, f)).isNone || true) = true from rfl)]
        show List.Perm _ (((if _ then [] else [r]) ++ [contains p f.spdxId]) ++ _)
        rw [if_neg (fun hn => by rw [(noComment_iff r).2 hn] at hc; cases hc)]
        refine List.Perm.trans ?_ (List.Perm.swap ..)
        exact (List.perm_middle.trans (ih.cons r)).cons _

/-! ### The theorems -/

/-- The writer writes the sections of a layout that has everything once. -/
theorem written_once (L : LicText) (d : Document) (h : UniqueIds d) :
    ∃ l, writeTagValue L d = writeLayout L d.creationInfo l ∧ Complete d l := by
  refine ⟨layoutOf d, writeTagValue_layout L d, ⟨lay_packages _ _ _ _, layout_files h, layout_snippets h, rfl, rfl, ?_, layout_own d, ?_⟩⟩
  · refine List.Perm.trans ?_ (said_perm h d.relationships)
    show ((layoutOf d).implied ++ (d.relationships.filter (explicit d) ++ (laid d).2)).Perm _
    refine (List.perm_append_comm.append_left _).trans ?_
    rw [← List.append_assoc]
    exact (layout_implied h).append_right _
  · intro f hf r hr p e
    obtain ⟨g, hg, rfl⟩ := List.mem_map.1 hf
    obtain ⟨hg1, hg2⟩ := List.mem_filter.1 hg
    have hk := (packagedIds_iff d r p g.spdxId).1 e
    have := (mem_pairs h p g).2 ⟨hg1, r, hr, hk⟩
    have hn : g.spdxId ∉ (pairs d).map (·.2.spdxId) := by simpa using hg2
    exact hn (List.mem_map.2 ⟨_, this, rfl⟩)

/-- Every relationship can be found in the text: it is written, or it is said by the place of a file, or what it says is
written because the file already stands after another package. -/
theorem relationship_kept {d : Document} {l : TvLayout} (h : Complete d l) :
    ∀ r ∈ d.relationships, r ∈ l.implied ++ l.relationships ∨
      ∃ p f, packagedIds d r = some (p, f) ∧ contains p f ∈ l.implied ++ l.relationships := by
  intro r hr
  have hm : ∀ x ∈ said d r, x ∈ l.implied ++ l.relationships := fun x hx =>
    h.relationships.mem_iff.2 (List.mem_flatMap.2 ⟨r, hr, hx⟩)
  cases e : packagedIds d r with
  | none => exact .inl (hm r (by unfold said; rw [e]; exact .head _))
  | some x =>
    obtain ⟨p, f⟩ := x
    exact .inr ⟨p, f, rfl, hm _ (by unfold said; rw [e]; exact List.mem_append_right _ (.head _))⟩

/-- Nothing is said in the text that the document does not say. -/
theorem relationship_only {d : Document} {l : TvLayout} (h : Complete d l) :
    ∀ r ∈ l.implied ++ l.relationships, r ∈ d.relationships ∨
      ∃ p f, r = contains p f ∧ ∃ r' ∈ d.relationships, packagedIds d r' = some (p, f) := by
  intro r hr
  obtain ⟨r', hr', hx⟩ := List.mem_flatMap.1 (h.relationships.mem_iff.1 hr)
  unfold said at hx
  cases e : packagedIds d r' with
  | none => rw [e] at hx; simp only [List.mem_singleton] at hx; subst hx; exact .inl hr'
  | some x =>
    obtain ⟨p, f⟩ := x
    rw [e] at hx
    rcases List.mem_append.1 hx with hx | hx
    · split at hx
      · cases hx
      · simp only [List.mem_singleton] at hx; subst hx; exact .inl hr'
    · simp only [List.mem_singleton] at hx
      exact .inr ⟨p, f, hx, r', hr', e⟩

/-- A relationship that is neither a CONTAINED_BY nor commented is said as it is. -/
theorem said_plain {d : Document} (hp : ∀ r ∈ d.relationships, packagedIds d r ≠ none → r.relationshipType = .CONTAINS ∧ r.comment = none) :
    d.relationships.flatMap (said d) = d.relationships := by
  have : ∀ r ∈ d.relationships, said d r = [r] := by
    intro r hr
    unfold said
    cases e : packagedIds d r with
    | none => rfl
    | some x =>
      obtain ⟨p, f⟩ := x
      obtain ⟨ht, hc⟩ := hp r hr (by rw [e]; simp)
      rcases ((packagedIds_iff d r p f).1 e).2.2 with ⟨h1, h2, h3⟩ | ⟨h1, _, _⟩
      · obtain ⟨a, t, b, c⟩ := r
        simp only at ht hc h2 h3
        subst ht; subst hc; subst h2; subst h3
        rfl
      · rw [ht] at h1; cases h1
  rw [flatMap_congr' this]
  simp

/-- When the relationships that place files in packages are all CONTAINS and without comment, the text says each
relationship exactly once, whether by place or explicitly. -/
theorem relationships_once {d : Document} {l : TvLayout} (h : Complete d l)
    (hp : ∀ r ∈ d.relationships, packagedIds d r ≠ none → r.relationshipType = .CONTAINS ∧ r.comment = none) :
    (l.implied ++ l.relationships).Perm d.relationships := by
  have := h.relationships
  rw [said_plain hp] at this
  exact this

/-! ### What does not hold -/

/-- Two packages, a file in both of them, a file in none, a file named from its own side, snippets. -/
def sample : Document :=
  { Example.doc with
    packages := [{ Example.package with spdxId := s%"SPDXRef-P" }, { Example.package with spdxId := s%"SPDXRef-Q" }]
    files := [{ Example.file with spdxId := s%"SPDXRef-A" }, { Example.file with spdxId := s%"SPDXRef-B" }, { Example.file with spdxId := s%"SPDXRef-C" }]
    relationships := [contains s%"SPDXRef-P" s%"SPDXRef-A", contains s%"SPDXRef-Q" s%"SPDXRef-A",
      ⟨s%"SPDXRef-B", .CONTAINED_BY, .val s%"SPDXRef-Q", some s%"a comment"⟩] }

/-- With two files of one id only the later one is written. -/
theorem shared_id_file_lost (L : LicText) :
    let f : File := { Example.file with spdxId := s%"SPDXRef-A" }
    let g : File := { f with name := s%"./other" }
    let d := { sample with files := [f, g] }
    writeTagValue L d = writeTagValue L { d with files := [g] } := by
  rfl

/-! ### The hypotheses are met -/

example : UniqueIds sample := ⟨by decide +kernel, by decide +kernel, by decide +kernel⟩
example : UniqueIds Example.doc := ⟨by decide +kernel, by decide +kernel, by decide +kernel⟩
/-- one implied twice said, one written although it follows a package, one both implied and written -/
example : (layoutOf sample).implied = [contains s%"SPDXRef-P" s%"SPDXRef-A", contains s%"SPDXRef-Q" s%"SPDXRef-B"] ∧
    (layoutOf sample).relationships = [⟨s%"SPDXRef-B", .CONTAINED_BY, .val s%"SPDXRef-Q", some s%"a comment"⟩, contains s%"SPDXRef-Q" s%"SPDXRef-A"] ∧
    (layoutOf sample).files.map (·.file.spdxId) = [s%"SPDXRef-C"] := by decide +kernel
/-- the condition of `relationships_once` -/
example : ∀ r ∈ Example.doc.relationships, packagedIds Example.doc r ≠ none → r.relationshipType = .CONTAINS ∧ r.comment = none := by
  decide +kernel

end Spdx.C27
