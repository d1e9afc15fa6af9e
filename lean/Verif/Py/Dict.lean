import Verif.Py.Text
/- Python's `dict`: insertion-ordered, a later value for a present key replaces the value and keeps the position. -/
namespace Spdx

abbrev Dict (κ ν : Type) := List (κ × ν)

namespace Dict
variable {κ ν : Type} [DecidableEq κ]

/-- `d[k] = v` -/
def set : Dict κ ν → κ → ν → Dict κ ν
  | [], k, v => [(k, v)]
  | (k', v') :: d, k, v => if k' = k then (k', v) :: d else (k', v') :: set d k v

/-- `d.get(k)` -/
def get? : Dict κ ν → κ → Option ν
  | [], _ => none
  | (k', v) :: d, k => if k' = k then some v else get? d k

/-- `d.update(items)`, also `{k: v for ...}` when started from the empty dict -/
def update (d : Dict κ ν) (items : List (κ × ν)) : Dict κ ν := items.foldl (fun d p => d.set p.1 p.2) d

def keys (d : Dict κ ν) : List κ := d.map (·.1)
def vals (d : Dict κ ν) : List ν := d.map (·.2)

theorem get?_set (d : Dict κ ν) (k k' : κ) (v : ν) : (d.set k v).get? k' = if k = k' then some v else d.get? k' := by
  induction d with
  | nil => simp [set, get?]
  | cons p d ih =>
    obtain ⟨a, b⟩ := p
    unfold set
    split
    · rename_i h; subst h; simp only [get?]
      split <;> rfl
    · simp only [get?, ih]
      split
      · rename_i h1 h2; subst h2; rw [if_neg (fun e => h1 e.symm)]
      · rfl

theorem get?_update (d : Dict κ ν) (items : List (κ × ν)) (k : κ) :
    (d.update items).get? k = ((items.reverse.find? (fun p => p.1 = k)).map (·.2)).or (d.get? k) := by
  unfold update
  induction items generalizing d with
  | nil => simp
  | cons p ps ih =>
    rw [List.foldl_cons, ih, get?_set, List.reverse_cons, List.find?_append]
    cases h : ps.reverse.find? (fun p => decide (p.1 = k)) with
    | some q => simp
    | none =>
      by_cases hp : p.1 = k <;> simp [hp]

theorem mem_keys_set (d : Dict κ ν) (k k' : κ) (v : ν) : k' ∈ (d.set k v).keys ↔ k' = k ∨ k' ∈ d.keys := by
  induction d with
  | nil => simp [set, keys]
  | cons p d ih =>
    obtain ⟨a, b⟩ := p
    unfold set
    split
    · rename_i h; subst h; simp [keys]
    · simp only [keys, List.map_cons, List.mem_cons] at ih ⊢
      rw [ih]; grind

theorem nodup_keys_set (d : Dict κ ν) (k : κ) (v : ν) (h : d.keys.Nodup) : (d.set k v).keys.Nodup := by
  induction d with
  | nil => simp [set, keys]
  | cons p d ih =>
    obtain ⟨a, b⟩ := p
    simp only [keys, List.map_cons, List.nodup_cons] at h
    unfold set
    split
    · simpa only [keys, List.map_cons, List.nodup_cons] using h
    · rename_i hne
      simp only [keys, List.map_cons, List.nodup_cons]
      refine ⟨?_, ih h.2⟩
      intro hm
      rcases (mem_keys_set d k a v).1 hm with e | e
      · exact hne e
      · exact h.1 e

theorem nodup_keys_update (d : Dict κ ν) (items : List (κ × ν)) (h : d.keys.Nodup) : (d.update items).keys.Nodup := by
  unfold update
  induction items generalizing d with
  | nil => exact h
  | cons p ps ih => exact ih _ (nodup_keys_set d _ _ h)

theorem mem_keys_update (d : Dict κ ν) (items : List (κ × ν)) (k : κ) :
    k ∈ (d.update items).keys ↔ k ∈ d.keys ∨ k ∈ items.map (·.1) := by
  unfold update
  induction items generalizing d with
  | nil => simp
  | cons p ps ih => rw [List.foldl_cons, ih, mem_keys_set]; simp only [List.map_cons, List.mem_cons]; grind

theorem get?_isSome (d : Dict κ ν) (k : κ) : (d.get? k).isSome = true ↔ k ∈ d.keys := by
  induction d with
  | nil => simp [get?, keys]
  | cons p d ih =>
    obtain ⟨a, b⟩ := p
    simp only [get?, keys, List.map_cons, List.mem_cons] at ih ⊢
    split
    · rename_i h; simp [h]
    · rename_i h; rw [ih]; constructor
      · exact .inr
      · rintro (e | e)
        · exact absurd e.symm h
        · exact e

theorem get?_eq_none (d : Dict κ ν) (k : κ) : d.get? k = none ↔ k ∉ d.keys := by
  rw [← get?_isSome]; cases d.get? k <;> simp

/-- Distinct new keys: the update simply appends. -/
theorem set_fresh (d : Dict κ ν) (k : κ) (v : ν) (h : k ∉ d.keys) : d.set k v = d ++ [(k, v)] := by
  induction d with
  | nil => rfl
  | cons p d ih =>
    obtain ⟨a, b⟩ := p
    simp only [keys, List.map_cons, List.mem_cons, not_or] at h
    rw [set, if_neg (fun e => h.1 e.symm), ih h.2]; rfl

theorem update_fresh (d : Dict κ ν) (items : List (κ × ν)) (hn : (items.map (·.1)).Nodup)
    (hd : ∀ k ∈ items.map (·.1), k ∉ d.keys) : d.update items = d ++ items := by
  unfold update
  induction items generalizing d with
  | nil => simp
  | cons p ps ih =>
    simp only [List.map_cons, List.nodup_cons, List.mem_cons, forall_eq_or_imp] at hn hd
    rw [List.foldl_cons, set_fresh _ _ _ hd.1, ih _ hn.2]
    · simp
    · intro k hk hm
      simp only [keys, List.map_append, List.map_cons, List.map_nil, List.mem_append, List.mem_singleton] at hm
      rcases hm with hm | hm
      · exact hd.2 k hk hm
      · exact hn.1 (hm ▸ hk)

theorem get?_mem (d : Dict κ ν) (k : κ) (v : ν) (h : d.get? k = some v) : (k, v) ∈ d := by
  induction d with
  | nil => simp [get?] at h
  | cons p d ih =>
    obtain ⟨a, b⟩ := p
    simp only [get?] at h
    split at h
    · rename_i e; subst e; simp only [Option.some.injEq] at h; simp [h]
    · exact .tail _ (ih h)

theorem get?_of_mem (d : Dict κ ν) (hn : d.keys.Nodup) (k : κ) (v : ν) (h : (k, v) ∈ d) : d.get? k = some v := by
  induction d with
  | nil => simp at h
  | cons p d ih =>
    obtain ⟨a, b⟩ := p
    simp only [keys, List.map_cons, List.nodup_cons] at hn
    simp only [get?]
    rcases List.mem_cons.1 h with e | e
    · simp only [Prod.mk.injEq] at e; simp [e]
    · rw [if_neg]
      · exact ih hn.2 e
      · rintro rfl; exact hn.1 (List.mem_map.2 ⟨_, e, rfl⟩)

/-- `d.setdefault(k, []).append(v)` -/
def push (d : Dict κ (List ν)) (k : κ) (v : ν) : Dict κ (List ν) := d.set k ((d.get? k).getD [] ++ [v])

/-- The loop `for x in l: d.setdefault(f(x), []).append(x)`, started from the empty dict. -/
def groupBy (f : ν → κ) (l : List ν) : Dict κ (List ν) := l.foldl (fun d x => d.push (f x) x) []

theorem get?_push (d : Dict κ (List ν)) (k k' : κ) (v : ν) :
    (d.push k v).get? k' = if k = k' then some ((d.get? k).getD [] ++ [v]) else d.get? k' := get?_set ..

theorem mem_keys_push (d : Dict κ (List ν)) (k k' : κ) (v : ν) : k' ∈ (d.push k v).keys ↔ k' = k ∨ k' ∈ d.keys := mem_keys_set ..

private theorem foldl_push_get? (f : ν → κ) (l : List ν) (d : Dict κ (List ν)) (k : κ) :
    ((l.foldl (fun d x => d.push (f x) x) d).get? k).getD [] = (d.get? k).getD [] ++ l.filter (fun x => f x = k) := by
  induction l generalizing d with
  | nil => simp
  | cons x l ih =>
    rw [List.foldl_cons, ih, get?_push, List.filter_cons]
    by_cases h : f x = k <;> simp [h]

private theorem foldl_push_keys (f : ν → κ) (l : List ν) (d : Dict κ (List ν)) (k : κ) :
    k ∈ (l.foldl (fun d x => d.push (f x) x) d).keys ↔ k ∈ d.keys ∨ k ∈ l.map f := by
  induction l generalizing d with
  | nil => simp
  | cons x l ih => rw [List.foldl_cons, ih, mem_keys_push]; simp only [List.map_cons, List.mem_cons]; grind

private theorem foldl_push_nodup (f : ν → κ) (l : List ν) (d : Dict κ (List ν)) (h : d.keys.Nodup) :
    (l.foldl (fun d x => d.push (f x) x) d).keys.Nodup := by
  induction l generalizing d with
  | nil => exact h
  | cons x l ih => exact ih _ (nodup_keys_set _ _ _ h)

theorem nodup_keys_groupBy (f : ν → κ) (l : List ν) : (groupBy f l).keys.Nodup := foldl_push_nodup f l [] (by simp [keys])

theorem mem_keys_groupBy (f : ν → κ) (l : List ν) (k : κ) : k ∈ (groupBy f l).keys ↔ k ∈ l.map f := by
  rw [groupBy, foldl_push_keys]; simp [keys]

/-- Under each key the group holds the entries with that key, in their order. -/
theorem get?_groupBy (f : ν → κ) (l : List ν) (k : κ) :
    (groupBy f l).get? k = if k ∈ l.map f then some (l.filter (fun x => f x = k)) else none := by
  have h1 := foldl_push_get? f l [] k
  have h2 := mem_keys_groupBy f l k
  have h3 := get?_isSome (groupBy f l) k
  change ((groupBy f l).get? k).getD [] = _ at h1
  simp only [get?, Option.getD_none, List.nil_append] at h1
  cases h : (groupBy f l).get? k with
  | none =>
    rw [h] at h3
    rw [if_neg (fun e => by simpa using h3.2 (h2.2 e))]
  | some v =>
    rw [h] at h1 h3
    rw [if_pos (h2.1 (h3.1 rfl))]
    simpa using h1

theorem mem_groupBy (f : ν → κ) (l : List ν) (k : κ) (v : List ν) :
    (k, v) ∈ groupBy f l ↔ k ∈ l.map f ∧ v = l.filter (fun x => f x = k) := by
  have h := get?_groupBy f l k
  constructor
  · intro hm
    rw [get?_of_mem _ (nodup_keys_groupBy f l) _ _ hm] at h
    split at h
    · rename_i hk; exact ⟨hk, Option.some.inj h⟩
    · cases h
  · rintro ⟨hk, rfl⟩
    rw [if_pos hk] at h
    exact get?_mem _ _ _ h

end Dict
end Spdx
