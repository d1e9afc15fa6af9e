import Verif.Model.DocumentUtils
/- Facts about `dedup`. -/
namespace Spdx
variable {α : Type}

/-- Recursive form: keep the first entry and drop everything it equals. -/
theorem dedup_foldl (eq : α → α → Bool) (l kept : List α) :
    l.foldl (dedupStep eq) kept = kept ++ dedup eq (l.filter fun x => !kept.any (fun y => eq y x)) := by
  generalize hn : l.length = n
  induction n using Nat.strongRecOn generalizing l kept with
  | _ n ih =>
    match l with
    | [] => simp [dedup]
    | a :: as =>
      simp only [List.length_cons] at hn
      rw [List.foldl_cons]
      have hs : dedupStep eq kept a = if kept.any (fun y => eq y a) then kept else kept ++ [a] := rfl
      rw [hs]
      by_cases hk : kept.any (fun y => eq y a) = true
      · rw [if_pos hk, List.filter_cons_of_neg (by simp [hk]), ih _ (by omega) _ _ rfl]
      · rw [if_neg hk, List.filter_cons_of_pos (by simp [hk]), ih _ (by omega) _ _ rfl]
        have e : ∀ x, dedup eq (a :: x) = x.foldl (dedupStep eq) [a] := fun _ => rfl
        rw [e]
        have hle : (as.filter fun x => !kept.any (fun y => eq y x)).length < n :=
          Nat.lt_of_le_of_lt (List.length_filter_le _ _) (by omega)
        rw [ih _ hle _ _ rfl]
        simp only [List.append_assoc, List.singleton_append, List.any_append, List.any_cons, List.any_nil, Bool.or_false,
          List.filter_filter]
        congr 4
        funext x; simp [Bool.and_comm]

theorem dedup_cons (eq : α → α → Bool) (a : α) (l : List α) :
    dedup eq (a :: l) = a :: dedup eq (l.filter fun x => !eq a x) := by
  rw [dedup, List.foldl_cons]
  have e : dedupStep eq [] a = [a] := rfl
  rw [e, dedup_foldl]; simp

theorem dedup_nil (eq : α → α → Bool) : dedup eq ([] : List α) = [] := rfl

/-- Induction principle along the recursive form. -/
theorem dedup_induction {P : List α → Prop} (eq : α → α → Bool) (h0 : P [])
    (h1 : ∀ a l, P (l.filter fun x => !eq a x) → P (a :: l)) : ∀ l, P l := by
  intro l
  generalize hn : l.length = n
  induction n using Nat.strongRecOn generalizing l with
  | _ n ih =>
    match l with
    | [] => exact h0
    | a :: as =>
      refine h1 a as (ih _ ?_ _ rfl)
      simp only [List.length_cons] at hn
      exact Nat.lt_of_le_of_lt (List.length_filter_le _ _) (by omega)

theorem dedup_sublist (eq : α → α → Bool) (l : List α) : (dedup eq l).Sublist l := by
  induction l using dedup_induction eq with
  | h0 => exact .slnil
  | h1 a l ih => rw [dedup_cons]; exact .cons_cons a (ih.trans List.filter_sublist)

theorem mem_of_mem_dedup {eq : α → α → Bool} {l : List α} {x : α} (h : x ∈ dedup eq l) : x ∈ l :=
  (dedup_sublist eq l).subset h

/-- Every entry is kept up to equality. -/
theorem dedup_covers (eq : α → α → Bool) (hr : ∀ a, eq a a = true) (l : List α) (x : α) (h : x ∈ l) :
    ∃ y ∈ dedup eq l, eq y x = true := by
  induction l using dedup_induction eq with
  | h0 => simp at h
  | h1 a l ih =>
    rw [dedup_cons]
    by_cases hx : eq a x = true
    · exact ⟨a, by simp, hx⟩
    · rcases List.mem_cons.1 h with rfl | h
      · exact absurd (hr x) hx
      · obtain ⟨y, hy, he⟩ := ih (List.mem_filter.2 ⟨h, by simp [hx]⟩)
        exact ⟨y, .tail _ hy, he⟩

theorem dedup_pairwise (eq : α → α → Bool) (l : List α) : (dedup eq l).Pairwise (fun a b => eq a b = false) := by
  induction l using dedup_induction eq with
  | h0 => exact .nil
  | h1 a l ih =>
    rw [dedup_cons, List.pairwise_cons]
    refine ⟨fun b hb => ?_, ih⟩
    have := (List.mem_filter.1 (mem_of_mem_dedup hb)).2
    simpa using this

/-- A list without repetitions is left alone. -/
theorem dedup_of_pairwise (eq : α → α → Bool) (l : List α) (h : l.Pairwise (fun a b => eq a b = false)) : dedup eq l = l := by
  induction l with
  | nil => rfl
  | cons a l ih =>
    rw [List.pairwise_cons] at h
    rw [dedup_cons, List.filter_eq_self.2 (by intro b hb; simp [h.1 b hb]), ih h.2]

theorem dedup_idem (eq : α → α → Bool) (l : List α) : dedup eq (dedup eq l) = dedup eq l :=
  dedup_of_pairwise eq _ (dedup_pairwise eq l)

theorem dedup_eq_nil (eq : α → α → Bool) (l : List α) : dedup eq l = [] ↔ l = [] := by
  cases l with
  | nil => simp [dedup]
  | cons a l => simp [dedup_cons]

section
variable [DecidableEq α]

theorem mem_dedupEq (l : List α) (x : α) : x ∈ dedupEq l ↔ x ∈ l := by
  constructor
  · exact mem_of_mem_dedup
  · intro h
    obtain ⟨y, hy, he⟩ := dedup_covers (fun a b => decide (a = b)) (by simp) l x h
    simp only [decide_eq_true_eq] at he
    exact he ▸ hy

theorem nodup_dedupEq (l : List α) : (dedupEq l).Nodup := by
  refine (dedup_pairwise _ l).imp ?_
  intro a b h e; subst e; simp at h

theorem dedupEq_of_nodup (l : List α) (h : l.Nodup) : dedupEq l = l :=
  dedup_of_pairwise _ l (h.imp (by intro a b h; simpa using h))

theorem dedupEq_nil_iff (l : List α) : dedupEq l = [] ↔ l = [] := dedup_eq_nil _ l

end
end Spdx
