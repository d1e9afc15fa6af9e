import Verif.Spec.JsonRead
/-
The shape a JSON-like tree must have for its faults to be reported: objects where objects are read, and something to go through where the
entries are gone through without looking first.
-/
namespace Spdx.Spec.JsonShape
open Spdx
open JsonSays (Obj valueAt Blank Items)

/-- Every item of the value (see `Items`) is an object of this shape.  A number, a truth value, null, and an empty text, list or object
    have no items. -/
def Objects (shape : Obj → Prop) (v : Json) : Prop := ∀ l, Items v l → ∀ x ∈ l, ∃ o, x = .obj o ∧ shape o

/-- An object of any shape -/
def Any (_ : Obj) : Prop := True

/-- A value one can go through: a list, a text or an object -/
def HasItems (v : Json) : Prop := ∃ l, Items v l

/-- The value at the key, if the key is there. -/
def IfThere (o : Obj) (k : Str) (ok : Json → Prop) : Prop := ∀ v, o.lookup k = some v → ok v

structure PackageShape (o : Obj) : Prop where
  checksums : Objects Any (valueAt o s%"checksums")
  externalRefs : Objects Any (valueAt o s%"externalRefs")
  verificationCode : Blank (valueAt o s%"packageVerificationCode") ∨ ∃ c, valueAt o s%"packageVerificationCode" = .obj c
  annotations : Objects Any (valueAt o s%"annotations")

structure FileShape (o : Obj) : Prop where
  checksums : Objects Any (valueAt o s%"checksums")
  annotations : Objects Any (valueAt o s%"annotations")

structure SnippetShape (o : Obj) : Prop where
  annotations : Objects Any (valueAt o s%"annotations")

/-- An external document reference: blank ones are passed over. -/
def RefShape (v : Json) : Prop :=
  Blank v ∨ ∃ o, v = .obj o ∧ (Blank (valueAt o s%"checksum") ∨ ∃ c, valueAt o s%"checksum" = .obj c)

structure DocumentShape (o : Obj) : Prop where
  creationInfo : valueAt o s%"creationInfo" = .null ∨ ∃ i, valueAt o s%"creationInfo" = .obj i
  /-- The references are not looked at without a creation information. -/
  refs : valueAt o s%"creationInfo" = .null ∨ ∀ l, Items (valueAt o s%"externalDocumentRefs") l → ∀ x ∈ l, RefShape x
  packages : IfThere o s%"packages" fun v => HasItems v ∧ Objects PackageShape v
  files : IfThere o s%"files" fun v => HasItems v ∧ Objects FileShape v
  snippets : IfThere o s%"snippets" fun v => HasItems v ∧ Objects SnippetShape v
  annotations : Objects Any (valueAt o s%"annotations")
  reviews : IfThere o s%"revieweds" fun v => HasItems v ∧ Objects Any v
  relationships : Objects Any (valueAt o s%"relationships")
  /-- Lists and objects cannot be told apart from each other in the search for repeated entries. -/
  described : IfThere o s%"documentDescribes" fun v => HasItems v ∧ ∀ l, Items v l → ∀ x ∈ l, (∀ l', x ≠ .arr l') ∧ ∀ o', x ≠ .obj o'
  extracted : (Blank (valueAt o s%"hasExtractedLicensingInfos") ∨ HasItems (valueAt o s%"hasExtractedLicensingInfos")) ∧
    Objects Any (valueAt o s%"hasExtractedLicensingInfos")

/-- The shape of a tree all faults of which are reported. -/
def Shaped (j : Json) : Prop := ∃ o, j = .obj o ∧ DocumentShape o

end Spdx.Spec.JsonShape
