import Verif.Py.Text
/- `sorted` / `list.sort` on texts: ascending by code points.  (Any sorting algorithm gives the same list.) -/
namespace Spdx

def insertStr (x : Str) : List Str → List Str
  | [] => [x]
  | y :: ys => if x ≤ y then x :: y :: ys else y :: insertStr x ys

def sortStr : List Str → List Str
  | [] => []
  | x :: xs => insertStr x (sortStr xs)

theorem insertStr_perm (x : Str) (l : List Str) : (insertStr x l).Perm (x :: l) := by
  induction l with
  | nil => exact .refl _
  | cons y ys ih =>
    unfold insertStr; split
    · exact .refl _
    · exact (ih.cons y).trans (.swap x y ys)

theorem sortStr_perm (l : List Str) : (sortStr l).Perm l := by
  induction l with
  | nil => exact .refl _
  | cons x xs ih => exact (insertStr_perm x _).trans (ih.cons x)

theorem insertStr_sorted (x : Str) (l : List Str) (h : l.Pairwise (· ≤ ·)) : (insertStr x l).Pairwise (· ≤ ·) := by
  induction l with
  | nil => simp [insertStr]
  | cons y ys ih =>
    rw [List.pairwise_cons] at h
    unfold insertStr; split
    · rename_i hxy
      rw [List.pairwise_cons, List.pairwise_cons]
      refine ⟨?_, h⟩
      intro z hz
      rcases List.mem_cons.1 hz with rfl | hz
      · exact hxy
      · exact List.le_trans hxy (h.1 z hz)
    · rename_i hxy
      rw [List.pairwise_cons]
      refine ⟨?_, ih h.2⟩
      intro z hz
      rcases List.mem_cons.1 ((insertStr_perm x ys).subset hz) with rfl | hz
      · exact (List.le_total z y).resolve_left hxy
      · exact h.1 z hz

theorem sortStr_sorted (l : List Str) : (sortStr l).Pairwise (· ≤ ·) := by
  induction l with
  | nil => exact .nil
  | cons x xs ih => exact insertStr_sorted x _ ih

/-- The result is determined by being sorted. -/
theorem sortStr_unique (l s : List Str) (hp : s.Perm l) (hs : s.Pairwise (· ≤ ·)) : sortStr l = s :=
  List.Perm.eq_of_pairwise (le := fun a b : Str => a ≤ b) (fun _ _ _ _ h1 h2 => List.le_antisymm h1 h2)
    (sortStr_sorted l) hs ((sortStr_perm l).trans hp.symm)

theorem sortStr_congr {l l' : List Str} (h : l.Perm l') : sortStr l = sortStr l' :=
  sortStr_unique _ _ ((sortStr_perm l').trans h.symm) (sortStr_sorted l')

theorem mem_sortStr (l : List Str) (x : Str) : x ∈ sortStr l ↔ x ∈ l := (sortStr_perm l).mem_iff

end Spdx
