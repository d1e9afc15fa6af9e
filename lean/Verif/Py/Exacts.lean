/- Helpers missing from core: a tactic and a lemma.
   The tactic `exacts [t₁, t₂, …]`: closes the goals in turn. -/
namespace Spdx

syntax "exacts " "[" term,* "]" : tactic

macro_rules
  | `(tactic| exacts [$ts,*]) => do
    let tacs ← ts.getElems.mapM fun t => `(tactic| case _ => exact $t)
    `(tactic| ($[$tacs:tactic];*))

theorem inj_of_nodup {α β : Type} {f : α → β} {l : List α} (h : (l.map f).Nodup) {a b : α} (ha : a ∈ l) (hb : b ∈ l) (e : f a = f b) :
    a = b := by
  induction l with
  | nil => simp at ha
  | cons x l ih =>
    simp only [List.map_cons, List.nodup_cons, List.mem_map, not_exists, not_and] at h
    rcases List.mem_cons.1 ha with ha' | ha' <;> rcases List.mem_cons.1 hb with hb' | hb'
    · rw [ha', hb']
    · exact absurd (ha' ▸ e).symm (h.1 _ hb')
    · exact absurd (hb' ▸ e) (h.1 _ ha')
    · exact ih h.2 ha' hb'

end Spdx
