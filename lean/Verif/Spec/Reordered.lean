import Verif.Model.Bump
/-
Documents with the same elements in another order, and migrated documents that differ in the order of lists only, for C89.
-/
namespace Spdx.Spec

/-- The documents differ in the order of their packages, files and snippets only. -/
structure Reordered (d d' : Document) : Prop where
  info : d'.creationInfo = d.creationInfo
  packages : d'.packages.Perm d.packages
  files : d'.files.Perm d.files
  snippets : d'.snippets.Perm d.snippets
  annotations : d'.annotations = d.annotations
  relationships : d'.relationships = d.relationships

/-- The migrated elements are the same; documents may have their imports and their elements in another order. -/
def AlikeElements : Element3 → Element3 → Prop
  | .document x, e => ∃ im el, im.Perm x.imports ∧ el.Perm x.element ∧ e = .document { x with imports := im, element := el }
  | e, e' => e' = e

/-- The payloads have the same identifiers with the same elements. -/
def AlikePayloads (p p' : Payload) : Prop :=
  ∀ k, (p.get? k = none ∧ p'.get? k = none) ∨ ∃ e e', p.get? k = some e ∧ p'.get? k = some e' ∧ AlikeElements e e'

/-- The persons, organizations and tools named by packages. -/
def packageActors (d : Document) : List Actor :=
  d.packages.flatMap fun x => [x.supplier, x.originator].filterMap fun o => match o with
    | some (.val a) => some a
    | _ => none

end Spdx.Spec
