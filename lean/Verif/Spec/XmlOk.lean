import Verif.Py.Json
import Verif.Model.Data
import Verif.Model.JsonReading
/-
Which trees come back unchanged, in what they say, from XML.
-/
namespace Spdx.Spec

/-- A text that XML keeps: not empty, no white space at its ends, no carriage return and no control character. -/
structure XmlText (s : Str) : Prop where
  nonempty : s ≠ []
  start : ∀ c, s.head? = some c → isPySpace c = false
  finish : ∀ c, s.getLast? = some c → isPySpace c = false
  chars : ∀ c ∈ s, c ≠ '\r' ∧ (c = '\t' ∨ c = '\n' ∨ (0x20 ≤ c.toNat ∧ c.toNat ≠ 0xfffe ∧ c.toNat ≠ 0xffff))

/-- Distinct keys, at least one of them not at an empty list. -/
def HasContent (o : List (Str × Json)) : Prop := (o.map (·.1)).Nodup ∧ ∃ m ∈ o, m.2 ≠ .arr []

mutual
/-- A value that may stand at the given key: a truth value only at "filesAnalyzed", a number only as the end of a range, a list with no entry or
    a single one only where the XML reader expects a list. -/
def KeptAt (T : Str → Prop) (k : Str) : Json → Prop
  | .null => True
  | .bool _ => k = s%"filesAnalyzed"
  | .num i => 0 ≤ i ∧ (k = s%"offset" ∨ k = s%"lineNumber")
  | .str s => T s ∧ k ∉ listLikeFields
  | .arr l => (k ∈ listLikeFields ∨ 2 ≤ l.length) ∧ KeptItems T l
  | .obj o => k ∉ listLikeFields ∧ HasContent o ∧ KeptMembers T o
/-- The entries of a list: texts and objects. -/
def KeptItems (T : Str → Prop) : List Json → Prop
  | [] => True
  | .str s :: l => T s ∧ KeptItems T l
  | .obj o :: l => (HasContent o ∧ KeptMembers T o) ∧ KeptItems T l
  | _ :: _ => False
def KeptMembers (T : Str → Prop) : List (Str × Json) → Prop
  | [] => True
  | (k, v) :: o => KeptAt T k v ∧ KeptMembers T o
end

/-- An object that XML keeps, with texts of a certain kind. -/
def KeptObj (T : Str → Prop) (o : List (Str × Json)) : Prop := HasContent o ∧ KeptMembers T o

mutual
/-- All texts in a tree. -/
def texts : Json → List Str
  | .str s => [s]
  | .arr l => textsOf l
  | .obj o => textsIn o
  | _ => []
def textsOf : List Json → List Str
  | [] => []
  | j :: l => texts j ++ textsOf l
def textsIn : List (Str × Json) → List Str
  | [] => []
  | (_, v) :: o => texts v ++ textsIn o
end

/-- Some field is given. -/
def SaysSomething (e : ExtractedLicensingInfo) : Prop :=
  e.licenseId ≠ none ∨ e.extractedText ≠ none ∨ e.licenseName ≠ none ∨ e.crossReferences ≠ [] ∨ e.comment ≠ none

/-- No end of a range is negative. -/
def NonNegative (s : Snippet) : Prop :=
  (0 ≤ s.byteRange.1 ∧ 0 ≤ s.byteRange.2) ∧ ∀ r, s.lineRange = some r → 0 ≤ r.1 ∧ 0 ≤ r.2

end Spdx.Spec
