import Verif.Model.Ply
/-
What LALR(1) tables are (Aho, Lam, Sethi, Ullman: Compilers, 4.6-4.7), in terms of the symbols on the stack.
-/
namespace Spdx.Spec.Lalr
open Spdx

/-- A symbol without productions -/
def Terminal (G : Grammar) (x : GSym) : Prop := x ≠ G.augmented.lhs ∧ ∀ p ∈ G.rules, p.lhs ≠ x

/-- `(p, d)`: the production `p` with a dot before the symbol number `d` of its right-hand side -/
abbrev Item := Production × Nat

/-- The items of the LR(0) state that is reached by the symbols on the stack (bottom first). -/
inductive Valid (G : Grammar) : List GSym → Item → Prop where
  | start : Valid G [] (G.augmented, 0)
  | next {γ : List GSym} {p : Production} {d : Nat} {x : GSym} : Valid G γ (p, d) → p.rhs[d]? = some x → Valid G (γ ++ [x]) (p, d + 1)
  | expand {γ : List GSym} {p q : Production} {d : Nat} : Valid G γ (p, d) → q ∈ G.rules → p.rhs[d]? = some q.lhs → Valid G γ (q, 0)

/-- Two stacks lead to the same LR(0) state. -/
def SameState (G : Grammar) (γ δ : List GSym) : Prop := ∀ i, Valid G γ i ↔ Valid G δ i

/-- The terminal `a` can be the first one of a text derived from the symbols. -/
inductive First (G : Grammar) : List GSym → GSym → Prop where
  | terminal {a : GSym} {w : List GSym} : Terminal G a → First G (a :: w) a
  | expand {p : Production} {w : List GSym} {a : GSym} : p ∈ G.rules → First G (p.rhs ++ w) a → First G (p.lhs :: w) a

/-- The items of the canonical LR(1) state: what may follow the production. -/
inductive Valid1 (G : Grammar) : List GSym → Item → GSym → Prop where
  | start : Valid1 G [] (G.augmented, 0) s%"$end"
  | next {γ : List GSym} {p : Production} {d : Nat} {x a : GSym} :
      Valid1 G γ (p, d) a → p.rhs[d]? = some x → Valid1 G (γ ++ [x]) (p, d + 1) a
  | expand {γ : List GSym} {p q : Production} {d : Nat} {a b : GSym} :
      Valid1 G γ (p, d) a → q ∈ G.rules → p.rhs[d]? = some q.lhs → First G (p.rhs.drop (d + 1) ++ [a]) b → Valid1 G γ (q, 0) b

/-- The entries of the LALR(1) action table: LR(1) states with the same LR(0) items are merged. -/
inductive Acts (G : Grammar) (γ : List GSym) (a : GSym) : PlyAct → Prop where
  | shift {p : Production} {d : Nat} : Valid G γ (p, d) → p.rhs[d]? = some a → Terminal G a → Acts G γ a .shift
  | reduce {p : Production} {δ : List GSym} : p ∈ G.rules → Valid G γ (p, p.rhs.length) → SameState G γ δ →
      Valid1 G δ (p, p.rhs.length) a → Acts G γ a (.reduce p)
  | accept : Valid G γ (G.augmented, G.augmented.rhs.length) → a = s%"$end" → Acts G γ a .accept

/-- The tables have exactly these entries (so that there are no conflicts), and a state is left without looking at the next token if its
    row has one entry only, which is a reduction. -/
structure IsLalr (G : Grammar) (T : PlyTables) : Prop where
  action : ∀ γ a x, T.action γ a = some x ↔ Acts G γ a x
  defaulted : ∀ γ p, T.defaulted γ = some p ↔ ∃ a, T.action γ a = some (.reduce p) ∧ ∀ b, T.action γ b ≠ none → b = a

end Spdx.Spec.Lalr
