import Verif.Lemmas.Dedup
import Verif.Lemmas.Validation
import Verif.Spec.Example
/-
C17 – Removing duplicates does not change validity.
-/
namespace Spdx.C17
open Spdx Spec

/-! ### Specification: what is assumed of the license library -/

/-- Equality of license expressions is reflexive, and equal expressions have the same unknown identifiers and agree on whether the
    strict parser accepts them. -/
structure LicEqOk (X : Ext) : Prop where
  refl : ∀ e, X.licEq e e = true
  symbols : ∀ a b, X.licEq a b = true → ∀ t, t ∈ X.licInvalidSymbols a ↔ t ∈ X.licInvalidSymbols b
  parse : ∀ a b, X.licEq a b = true → (X.licStrictParseError a = none ↔ X.licStrictParseError b = none)

/-! ### Theorem -/

private theorem ex_map {α β : Type} (f : α → β) (l : List α) (P : β → Prop) : (∃ x ∈ l.map f, P x) ↔ ∃ x ∈ l, P (f x) := by
  constructor
  · rintro ⟨x, hx, h⟩; obtain ⟨y, hy, rfl⟩ := List.mem_map.1 hx; exact ⟨y, hy, h⟩
  · rintro ⟨x, hx, h⟩; exact ⟨f x, List.mem_map.2 ⟨x, hx, rfl⟩, h⟩

private theorem inDoc (X : Ext) (d : Document) (id : Str) : InDocument (dedupDocument X d) id ↔ InDocument d id := by
  simp only [InDocument, dedupDocument, ex_map]; exact Iff.rfl
private theorem inFiles (X : Ext) (d : Document) (id : Str) : InFiles (dedupDocument X d) id ↔ InFiles d id := by
  simp only [InFiles, dedupDocument, ex_map]; exact Iff.rfl
private theorem declared (X : Ext) (d : Document) (r : Str) : Declared (dedupDocument X d) r ↔ Declared d r := by
  simp [Declared, dedupDocument, CreationInfo.dedup, mem_dedupEq]
private theorem idRule (X : Ext) (d : Document) (P Q : Str → Prop) (h : ∀ s, P s ↔ Q s) (id : Str) :
    IdRule (dedupDocument X d) P id ↔ IdRule d Q id := by
  simp only [IdRule, declared, h]
private theorem licSymbol (X : Ext) (d : Document) (t : Str) : LicSymbolRule (dedupDocument X d) t ↔ LicSymbolRule d t := by
  simp only [LicSymbolRule, declared]
  simp only [dedupDocument, ex_map]; exact Iff.rfl
private theorem lic (X : Ext) (d : Document) (e : OrSpecial LicExpr) : LicRule X (dedupDocument X d) e ↔ LicRule X d e := by
  cases e <;> simp only [LicRule, licSymbol]
private theorem licOpt (X : Ext) (d : Document) (e : Option (OrSpecial LicExpr)) :
    LicRuleOpt X (dedupDocument X d) e ↔ LicRuleOpt X d e := by
  simp only [LicRuleOpt, lic]
private theorem licList (X : Ext) (hX : LicEqOk X) (d : Document) (l : List (OrSpecial LicExpr)) :
    (∀ e ∈ dedup (licEntryEq X) l, LicRule X (dedupDocument X d) e) ↔ ∀ e ∈ l, LicRule X d e := by
  simp only [lic]
  constructor
  · intro h e he
    obtain ⟨y, hy, heq⟩ := dedup_covers (licEntryEq X) (by intro a; cases a <;> simp [licEntryEq, hX.refl]) l e he
    have hy := h y hy
    match e, y, heq, hy with
    | .val b, .val a, heq, hy =>
      exact ⟨fun t ht => hy.1 t ((hX.symbols a b heq t).2 ht), (hX.parse a b heq).1 hy.2⟩
    | .noAssertion, _, _, _ => trivial
    | .none, _, _, _ => trivial
  · exact fun h e he => h e (mem_of_mem_dedup he)

private theorem links (X : Ext) (d : Document) (p : Package) (r : Relationship) :
    LinksFile (dedupDocument X d) (p.dedup X) r ↔ LinksFile d p r := by
  simp only [LinksFile, inFiles]
  simp only [dedupDocument, ex_map]; exact Iff.rfl

private theorem package (X : Ext) (hX : LicEqOk X) (d : Document) (p : Package) (is22 : Prop) :
    PackageRule X is22 (dedupDocument X d) (p.dedup X) ↔ PackageRule X is22 d p := by
  unfold PackageRule
  simp only [links, licOpt, idRule X d _ _ (fun _ => Iff.rfl)]
  have e1 : (∀ e ∈ (p.dedup X).licenseInfoFromFiles, LicRule X (dedupDocument X d) e) ↔ _ := licList X hX d p.licenseInfoFromFiles
  have e2 : (p.dedup X).licenseInfoFromFiles = [] ↔ p.licenseInfoFromFiles = [] := dedup_eq_nil _ _
  rw [e1, e2]
  have e3 : ∀ c, c ∈ (p.dedup X).checksums ↔ c ∈ p.checksums := mem_dedupEq _
  have e4 : ∀ c, c ∈ (p.dedup X).externalReferences ↔ c ∈ p.externalReferences := mem_dedupEq _
  simp only [e3, e4]
  exact Iff.rfl

private theorem file (X : Ext) (hX : LicEqOk X) (d : Document) (f : File) (is22 : Prop) :
    FileRule X is22 (dedupDocument X d) (f.dedup X) ↔ FileRule X is22 d f := by
  unfold FileRule
  simp only [licOpt, idRule X d _ _ (fun _ => Iff.rfl)]
  have e1 : (∀ e ∈ (f.dedup X).licenseInfoInFile, LicRule X (dedupDocument X d) e) ↔ _ := licList X hX d f.licenseInfoInFile
  have e2 : (f.dedup X).licenseInfoInFile = [] ↔ f.licenseInfoInFile = [] := dedup_eq_nil _ _
  have e3 : ∀ c, c ∈ (f.dedup X).checksums ↔ c ∈ f.checksums := mem_dedupEq _
  rw [e1]
  simp only [e3, ne_eq, e2]
  exact Iff.rfl

private theorem snippet (X : Ext) (hX : LicEqOk X) (d : Document) (s : Snippet) (is22 : Prop) :
    SnippetRule X is22 (dedupDocument X d) (s.dedup X) ↔ SnippetRule X is22 d s := by
  unfold SnippetRule
  rw [idRule X d (fun _ => True) _ (fun _ => Iff.rfl), idRule X d (InFiles (dedupDocument X d)) _ (inFiles X d)]
  simp only [licOpt]
  have e1 : (∀ e ∈ (s.dedup X).licenseInfoInSnippet, LicRule X (dedupDocument X d) e) ↔ _ := licList X hX d s.licenseInfoInSnippet
  rw [e1]
  exact Iff.rfl

private theorem valid_dedup (X : Ext) (hX : LicEqOk X) (d : Document) : Valid X (dedupDocument X d) ↔ Valid X d := by
  have hci : ∀ is22, CreationInfoRule X is22 (dedupDocument X d).creationInfo ↔ CreationInfoRule X is22 d.creationInfo := by
    intro is22
    have e3 : ∀ c, c ∈ (dedupDocument X d).creationInfo.creators ↔ c ∈ d.creationInfo.creators := mem_dedupEq _
    have e4 : ∀ c, c ∈ (dedupDocument X d).creationInfo.externalDocumentRefs ↔ c ∈ d.creationInfo.externalDocumentRefs := mem_dedupEq _
    simp only [CreationInfoRule, e3, e4]; exact Iff.rfl
  have hp : ∀ is22, (∀ p ∈ (dedupDocument X d).packages, PackageRule X is22 (dedupDocument X d) p) ↔
      ∀ p ∈ d.packages, PackageRule X is22 d p := by
    intro is22; simp only [← package X hX d]; simp [dedupDocument]
  have hf : ∀ is22, (∀ p ∈ (dedupDocument X d).files, FileRule X is22 (dedupDocument X d) p) ↔
      ∀ p ∈ d.files, FileRule X is22 d p := by
    intro is22; simp only [← file X hX d]; simp [dedupDocument]
  have hs : ∀ is22, (∀ p ∈ (dedupDocument X d).snippets, SnippetRule X is22 (dedupDocument X d) p) ↔
      ∀ p ∈ d.snippets, SnippetRule X is22 d p := by
    intro is22; simp only [← snippet X hX d]; simp [dedupDocument]
  have ha : ∀ a, AnnotationRule (dedupDocument X d) a ↔ AnnotationRule d a := by
    intro a; simp only [AnnotationRule, idRule X d _ _ (inDoc X d)]
  have hr : ∀ is22 r, RelationshipRule is22 (dedupDocument X d) r ↔ RelationshipRule is22 d r := by
    intro is22 r; simp only [RelationshipRule, idRule X d _ _ (inDoc X d)]
  have he : (∀ e ∈ (dedupDocument X d).extractedLicensingInfo, ExtractedRule X e) ↔ ∀ e ∈ d.extractedLicensingInfo, ExtractedRule X e := by
    simp [dedupDocument, ExtractedRule, ExtractedLicensingInfo.dedup, mem_dedupEq]
  have hd : DescribesRule (dedupDocument X d) ↔ DescribesRule d := by
    simp only [DescribesRule]; simp [dedupDocument, CreationInfo.dedup]
  have hu : elementIds (dedupDocument X d) = elementIds d := by
    simp only [elementIds, dedupDocument, List.map_map]; rfl
  have hv : (dedupDocument X d).creationInfo.spdxVersion = d.creationInfo.spdxVersion := rfl
  constructor
  · rintro ⟨v, ⟨p1, p2, p3, p4, p5, p6, p7⟩, de, u⟩
    exact ⟨v, ⟨(hci _).1 p1, (hp _).1 p2, (hf _).1 p3, (hs _).1 p4, fun a h => (ha a).1 (p5 a h), fun r h => (hr _ r).1 (p6 r h),
      he.1 p7⟩, hd.1 de, hu ▸ u⟩
  · rintro ⟨v, ⟨p1, p2, p3, p4, p5, p6, p7⟩, de, u⟩
    exact ⟨v, ⟨(hci _).2 p1, (hp _).2 p2, (hf _).2 p3, (hs _).2 p4, fun a h => (ha a).2 (p5 a h), fun r h => (hr _ r).2 (p6 r h),
      he.2 p7⟩, hd.2 de, hu ▸ u⟩

theorem validity_preserved (X : Ext) (hX : LicEqOk X) (d : Document) (ver : Option Str) :
    validateDocument X (dedupDocument X d) ver = [] ↔ validateDocument X d ver = [] := by
  rw [validateDocument_nil, validateDocument_nil, valid_dedup X hX d]; rfl

/-! Non-vacuity -/
example : LicEqOk Example.ext := by
  constructor <;> simp [Example.ext]
private def dup : Document := { Example.doc with files := [{ Example.file with checksums := [Example.sha, Example.sha] }] }
example : validateDocument Example.ext dup none = [] ∧ dedupDocument Example.ext dup ≠ dup := by decide +kernel

end Spdx.C17
