/- Lists that agree entry by entry, or after rearrangement. -/
namespace Spdx.Spec

/-- The entries are related one by one. -/
inductive All2 {α β : Type} (R : α → β → Prop) : List α → List β → Prop where
  | nil : All2 R [] []
  | cons {a b l m} : R a b → All2 R l m → All2 R (a :: l) (b :: m)

/-- `m` is a rearrangement of a list whose entries are related to those of `l` one by one. -/
def Rearranged2 {α β : Type} (R : α → β → Prop) (l : List α) (m : List β) : Prop := ∃ l', All2 R l l' ∧ m.Perm l'

end Spdx.Spec
