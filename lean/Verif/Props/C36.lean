import Verif.Model.Bump
import Verif.Spec.Example
/-
C36 – A license expression is migrated to the tree with the same connectives and leaves in the same order; each leaf is a listed license
or the document's extracted license.
-/
namespace Spdx.C36
open Spdx

/-! ### Specification -/

/-- What the symbol `key` stands for in a document with the given extracted licenses: identifier, name and text. -/
inductive Extracted (infos : List ExtractedLicensingInfo) (key : Str) : Str → Str → Str → Prop
  /-- the first extracted license with this identifier -/
  | found (before after : List ExtractedLicensingInfo) (i : ExtractedLicensingInfo)
      (e : infos = before ++ i :: after) (hi : i.licenseId = some key) (first : ∀ j ∈ before, j.licenseId ≠ some key)
      (name text : Str) (hn : ∀ n, i.licenseName = some (.val n) → name = n) (ht : ∀ t, i.extractedText = some t → text = t) :
      Extracted infos key key name text
  /-- no such license: a custom license with nothing but the identifier -/
  | missing (h : ∀ j ∈ infos, j.licenseId ≠ some key) : Extracted infos key key [] []

mutual
/-- The migrated tree has the same shape, and its leaves stand for the same licenses. -/
inductive Mirrors (known : Str → Bool) (infos : List ExtractedLicensingInfo) : LicExpr → License3 → Prop
  | listed (key : Str) (text : Str) (hk : known key = true) : Mirrors known infos (.sym key) (.listed key key text)
  | custom (key id name text : Str) (hk : known key = false) (h : Extracted infos key id name text) :
      Mirrors known infos (.sym key) (.custom id name text)
  | withListed (lic exc : Str) (l : License3) (h : Mirrors known infos (.sym lic) l) (hk : known exc = true) (name text : Str) :
      Mirrors known infos (.withExc lic exc) (.withAddition l true exc name text)
  | withCustom (lic exc id name text : Str) (l : License3) (h : Mirrors known infos (.sym lic) l) (hk : known exc = false)
      (he : Extracted infos exc id name text) : Mirrors known infos (.withExc lic exc) (.withAddition l false id name text)
  | and (es : List LicExpr) (ls : List License3) (h : MirrorsAll known infos es ls) : Mirrors known infos (.and es) (.conjunctive ls)
  | or (es : List LicExpr) (ls : List License3) (h : MirrorsAll known infos es ls) : Mirrors known infos (.or es) (.disjunctive ls)
/-- member by member, in order -/
inductive MirrorsAll (known : Str → Bool) (infos : List ExtractedLicensingInfo) : List LicExpr → List License3 → Prop
  | nil : MirrorsAll known infos [] []
  | cons (e : LicExpr) (l : License3) (es : List LicExpr) (ls : List License3) (h : Mirrors known infos e l)
      (hs : MirrorsAll known infos es ls) : MirrorsAll known infos (e :: es) (l :: ls)
end

mutual
/-- The symbols of an expression from left to right. -/
def symbols : LicExpr → List Str
  | .sym key => [key]
  | .withExc lic exc => [lic, exc]
  | .and es => symbolsAll es
  | .or es => symbolsAll es
def symbolsAll : List LicExpr → List Str
  | [] => []
  | e :: es => symbols e ++ symbolsAll es
end

mutual
/-- The identifiers in a migrated license from left to right. -/
def identifiers : License3 → List Str
  | .listed id _ _ => [id]
  | .custom id _ _ => [id]
  | .withAddition l _ id _ _ => identifiers l ++ [id]
  | .conjunctive ls => identifiersAll ls
  | .disjunctive ls => identifiersAll ls
  | .noAssertion => []
  | .none => []
def identifiersAll : List License3 → List Str
  | [] => []
  | l :: ls => identifiers l ++ identifiersAll ls
end

/-! ### Theorems -/

private theorem extracted (infos : List ExtractedLicensingInfo) (key : Str) :
    Extracted infos key (extractedLicense infos key).1 (extractedLicense infos key).2.1 (extractedLicense infos key).2.2 := by
  simp only [extractedLicense]
  cases h : infos.find? (fun i => i.licenseId = some key) with
  | none =>
    refine .missing ?_
    intro j hj
    simpa using List.find?_eq_none.1 h j hj
  | some i =>
    rw [List.find?_eq_some_iff_append] at h
    obtain ⟨hi, before, after, rfl, hb⟩ := h
    simp only [decide_eq_true_eq] at hi
    simp only [hi, strOpt]
    refine .found before after i rfl hi (fun j hj => by simpa using hb j hj) _ _ ?_ ?_
    · intro n hn; rw [hn]; rfl
    · intro t ht; rw [ht]

private theorem symbol (known : Str → Bool) (infos : List ExtractedLicensingInfo) (key : Str) :
    Mirrors known infos (.sym key) (bumpSymbol known infos key) := by
  unfold bumpSymbol
  split
  · exact .listed key _ (by assumption)
  · exact .custom key _ _ _ (by simp_all) (extracted infos key)

mutual
/-- Every expression is migrated to a tree of the same shape with the same leaves. -/
theorem mirrors (known : Str → Bool) (infos : List ExtractedLicensingInfo) (e : LicExpr) :
    Mirrors known infos e (bumpLicense known infos e) := by
  match e with
  | .sym key => exact symbol known infos key
  | .withExc lic exc =>
    simp only [bumpLicense, bumpWith]
    split
    · exact .withListed lic exc _ (symbol known infos lic) (by assumption) _ _
    · exact .withCustom lic exc _ _ _ _ (symbol known infos lic) (by simp_all) (extracted infos exc)
  | .and es => exact .and _ _ (mirrorsAll known infos es)
  | .or es => exact .or _ _ (mirrorsAll known infos es)
private theorem mirrorsAll (known : Str → Bool) (infos : List ExtractedLicensingInfo) (es : List LicExpr) :
    MirrorsAll known infos es (bumpLicenses known infos es) := by
  match es with
  | [] => exact .nil
  | e :: es => exact .cons _ _ _ _ (mirrors known infos e) (mirrorsAll known infos es)
end

private theorem extracted_id {infos : List ExtractedLicensingInfo} {key id name text : Str} (h : Extracted infos key id name text) :
    id = key := by cases h <;> rfl

private theorem identifiers_symbol (known : Str → Bool) (infos : List ExtractedLicensingInfo) (key : Str) :
    identifiers (bumpSymbol known infos key) = [key] := by
  unfold bumpSymbol
  split
  · rfl
  · simp only [identifiers]; rw [extracted_id (extracted infos key)]

mutual
/-- No leaf is lost, added, renamed or moved. -/
theorem leaves (known : Str → Bool) (infos : List ExtractedLicensingInfo) (e : LicExpr) :
    identifiers (bumpLicense known infos e) = symbols e := by
  match e with
  | .sym key => exact identifiers_symbol known infos key
  | .withExc lic exc =>
    simp only [bumpLicense, bumpWith]
    split
    · simp only [identifiers, identifiers_symbol, symbols, List.cons_append, List.nil_append]
    · simp only [identifiers, identifiers_symbol, symbols, List.cons_append, List.nil_append]
      rw [extracted_id (extracted infos exc)]
  | .and es => simpa only [bumpLicense, identifiers, symbols] using leavesAll known infos es
  | .or es => simpa only [bumpLicense, identifiers, symbols] using leavesAll known infos es
private theorem leavesAll (known : Str → Bool) (infos : List ExtractedLicensingInfo) (es : List LicExpr) :
    identifiersAll (bumpLicenses known infos es) = symbolsAll es := by
  match es with
  | [] => rfl
  | e :: es => simp only [bumpLicenses, identifiersAll, symbolsAll, leaves known infos e, leavesAll known infos es]
end

/-- The two special values become the two special licenses, and only they do. -/
theorem special (known : Str → Bool) (infos : List ExtractedLicensingInfo) (f : OrSpecial LicExpr) :
    (bumpLicenseField known infos f = .none ↔ f = .none) ∧ (bumpLicenseField known infos f = .noAssertion ↔ f = .noAssertion) := by
  cases f with
  | none => simp [bumpLicenseField]
  | noAssertion => simp [bumpLicenseField]
  | val e =>
    have h := mirrors known infos e
    simp only [bumpLicenseField]
    generalize bumpLicense known infos e = l at h
    cases h <;> simp

/-- A missing license name becomes the text "None" in the migrated license. -/
theorem missing_name_becomes_text : bumpSymbol (fun _ => false) [Example.extracted] s%"LicenseRef-1" =
    .custom s%"LicenseRef-1" s%"None" s%"text" := by rfl

/-! Non-vacuity -/
private def known : Str → Bool := fun s => s = s%"MIT"
example : bumpLicense known [Example.extracted] (.and [.sym s%"MIT", .or [.sym s%"LicenseRef-1", .sym s%"X"]]) =
    .conjunctive [.listed s%"MIT" s%"MIT" s%"blank",
      .disjunctive [.custom s%"LicenseRef-1" s%"None" s%"text", .custom s%"X" [] []]] := by rfl
example : Extracted [Example.extracted] s%"LicenseRef-1" s%"LicenseRef-1" s%"anything" s%"text" :=
  .found [] [] _ rfl rfl (by simp) _ _ (by simp [Example.extracted]) (by simp [Example.extracted])
example : ¬ Mirrors known [] (.and [.sym s%"MIT"]) (.disjunctive [.listed s%"MIT" s%"MIT" []]) := fun h => nomatch h

end Spdx.C36
