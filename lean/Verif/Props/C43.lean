import Verif.Lemmas.Messages
import Verif.Spec.Example
/-
C43 – License expression validation decides membership.
-/
namespace Spdx.C43
open Spdx Spec

/-! ### Specification -/

mutual
/-- The license and exception identifiers occurring in an expression. -/
def symbols : LicExpr → List Str
  | .sym k => [k]
  | .withExc l e => [l, e]
  | .and l => symbolsL l
  | .or l => symbolsL l
def symbolsL : List LicExpr → List Str
  | [] => []
  | e :: es => symbols e ++ symbolsL es
end

/-- What the license library is trusted to do: it reports the identifiers of the expression that are not on its list. -/
def ReportsUnknown (X : Ext) (known : Str → Prop) : Prop :=
  ∀ e t, t ∈ X.licInvalidSymbols e ↔ t ∈ symbols e ∧ ¬ known t

/-- A document-local license reference: an extracted license of this document. -/
def Extracted (d : Document) (t : Str) : Prop := ':' ∉ t ∧ ∃ e ∈ d.extractedLicensingInfo, e.licenseId = some t
/-- A license reference into an external document declared by this document. -/
def ExternalLicense (d : Document) (t : Str) : Prop :=
  ∃ ref loc, t = ref ++ ':' :: loc ∧ ':' ∉ ref ∧ ':' ∉ loc ∧ s%"LicenseRef-" <+: loc ∧
    ∃ r ∈ d.creationInfo.externalDocumentRefs, r.documentRefId = ref

/-! ### Theorems -/

/-- The second conjunct is the library's own check that exceptions are used as exceptions and licenses as licenses. -/
theorem accepts_iff (X : Ext) (known : Str → Prop) (hX : ReportsUnknown X known) (e : LicExpr) (d : Document) (parent : Str) :
    validateLicExpr X (some (.val e)) d parent = [] ↔
      (∀ t ∈ symbols e, known t ∨ Extracted d t ∨ ExternalLicense d t) ∧ X.licStrictParseError e = none := by
  rw [validateLicExpr_nil]
  unfold LicRuleOpt
  constructor
  · intro h
    obtain ⟨h1, h2⟩ := h _ rfl
    refine ⟨fun t ht => ?_, h2⟩
    by_cases hk : known t
    · exact .inl hk
    · exact .inr (h1 t ((hX e t).2 ⟨ht, hk⟩))
  · rintro ⟨h1, h2⟩ x hx
    obtain rfl := Option.some.inj hx
    refine ⟨fun t ht => ?_, h2⟩
    obtain ⟨ha, hb⟩ := (hX e t).1 ht
    exact (h1 t ha).resolve_left hb

/-- NOASSERTION, NONE and absent expressions are always accepted. -/
theorem special_accepted (X : Ext) (d : Document) (parent : Str) :
    validateLicExpr X none d parent = [] ∧ validateLicExpr X (some .noAssertion) d parent = [] ∧
    validateLicExpr X (some .none) d parent = [] := ⟨rfl, rfl, rfl⟩

/-- Lists of expressions: accepted exactly when every member is. -/
theorem list_iff (X : Ext) (es : List (OrSpecial LicExpr)) (d : Document) (parent : Str) :
    validateLicExprs X es d parent = [] ↔ ∀ e ∈ es, validateLicExpr X (some e) d parent = [] := by
  unfold validateLicExprs; exact flatMap_nil _ _

/-- An undeclared document reference is named in the message. -/
theorem undeclared_reported (d : Document) (ref loc : Str) (h : ':' ∉ ref) (h' : ':' ∉ loc)
    (hl : s%"LicenseRef-" <+: loc) (hd : ¬ ∃ r ∈ d.creationInfo.externalDocumentRefs, r.documentRefId = ref) :
    validateLicToken (ref ++ ':' :: loc) d ≠ [] := by
  intro hn
  rcases (validateLicToken_nil _ d).1 hn with ⟨h1, -⟩ | ⟨a, b, he, ha, hb, -, hc⟩
  · simp at h1
  · have e1 := (splitOn_two ':' _ ref loc).2 ⟨rfl, h, h'⟩
    have e2 := (splitOn_two ':' _ a b).2 ⟨he, ha, hb⟩
    rw [e1] at e2
    simp only [List.cons.injEq, and_true] at e2
    obtain ⟨rfl, rfl⟩ := e2
    exact hd hc

/-! Non-vacuity: a library that knows the identifiers in a list satisfies the hypothesis. -/
private def lib (known : List Str) : Ext :=
  { Example.ext with licInvalidSymbols := fun e => (symbols e).filter (fun t => !known.contains t) }
example (known : List Str) : ReportsUnknown (lib known) (· ∈ known) := by
  intro e t; simp [lib]
example : validateLicExpr (lib [s%"MIT"]) (some (.val (.and [.sym s%"MIT", .or [.sym s%"LicenseRef-1",
    .sym s%"DocumentRef-ext:LicenseRef-2"]]))) Example.doc s%"SPDXRef-File" = [] := by decide +kernel
example : validateLicExpr (lib [s%"MIT"]) (some (.val (.and [.sym s%"MIT", .sym s%"LicenseRef-2"]))) Example.doc s%"SPDXRef-File"
    ≠ [] := by decide +kernel

end Spdx.C43
