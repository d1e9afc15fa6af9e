import Verif.Spec.TvRead
import Verif.Spec.Same
/-
Tag-value documents that differ in the order of the attributes within their sections only, for C84.
-/
namespace Spdx.Spec

/-- What an attribute is about: its tag; `SPDXID` and `SPDXREF` both give identifiers. -/
def fieldKind : TvAttr → Str
  | .value tag _ => if tag = s%"SPDXREF" then s%"SPDXID" else tag
  | .spdxId _ => s%"SPDXID"
  | .commented tag _ _ | .bad tag => tag
  | .unknown => []

/-- The same attributes about each thing, in the same order; attributes about different things may be in any order. -/
def SameByKind (l l' : List TvAttr) : Prop := ∀ k, l.filter (fieldKind · = k) = l'.filter (fieldKind · = k)

/-- The sections begin with the same attribute and have the same attributes about each thing. -/
def SameSection (b b' : List TvAttr) : Prop := b.head? = b'.head? ∧ SameByKind b.tail b'.tail

/-- The same sections in the same order, and the same before the first one. -/
structure SameSections (as as' : List TvAttr) : Prop where
  preamble : SameByKind (preamble as) (preamble as')
  sections : All2 SameSection (sections as) (sections as')

end Spdx.Spec
