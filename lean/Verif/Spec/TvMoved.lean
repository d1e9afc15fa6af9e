import Verif.Spec.TvTold
/-
Tag-value documents that differ in the order of their sections only, for C86.
-/
namespace Spdx.Spec

/-- The attribute is about the document itself. -/
def ofDocument : TvAttr → Bool
  | .value tag _ => (infoSlots.lookup tag).isSome
  | .bad tag => tag ∈ creationTags
  | _ => false

/-- The same before the first section, which holds all about the document itself; and the same sections.  Sections about elements of the same
    kind are in the same order; so are packages and files, since a file belongs to the package before it; and so are files and
    relationships, since a file that belongs to a package adds a relationship.  Apart from that the sections may be in any order. -/
structure Moved (as as' : List TvAttr) : Prop where
  preamble : preamble as = preamble as'
  document : ∀ b ∈ sections as, ∀ a ∈ b, ofDocument a = false
  sameKind : ∀ k, (sections as).filter (about · = some k) = (sections as').filter (about · = some k)
  files : ∀ k, k = .package ∨ k = .relationship → (sections as).filter (fun b => about b = some .file ∨ about b = some k) =
    (sections as').filter (fun b => about b = some .file ∨ about b = some k)

end Spdx.Spec
