import Verif.Py.Regex
import Verif.Lemmas.Text
/- The derivative matcher decides the language. -/
namespace Spdx.Re

theorem seq_iff (a b : Re) (u : Str) : Matches (.seq a b) u ↔ ∃ s t, u = s ++ t ∧ Matches a s ∧ Matches b t := by
  constructor
  · intro h
    cases h with
    | seq h1 h2 => exact ⟨_, _, rfl, h1, h2⟩
  · rintro ⟨s, t, rfl, h1, h2⟩; exact .seq h1 h2

theorem nullable_iff (r : Re) : r.nullable = true ↔ Matches r [] := by
  induction r with
  | empty => simp [nullable]; intro h; cases h
  | eps => simp [nullable]; exact .eps
  | set p =>
    simp [nullable]
    intro h
    cases h
  | seq a b iha ihb =>
    simp only [nullable, Bool.and_eq_true, iha, ihb]
    constructor
    · intro ⟨h1, h2⟩; exact .seq (s := []) (t := []) h1 h2
    · intro h
      obtain ⟨x, y, he, h1, h2⟩ := (seq_iff _ _ _).1 h
      have := List.append_eq_nil_iff.1 he.symm
      rw [this.1] at h1; rw [this.2] at h2; exact ⟨h1, h2⟩
  | alt a b iha ihb =>
    simp only [nullable, Bool.or_eq_true, iha, ihb]
    constructor
    · rintro (h | h)
      · exact .altL h
      · exact .altR h
    · intro h
      cases h with
      | altL h => exact .inl h
      | altR h => exact .inr h
  | star a _ => simp [nullable]; exact .starNil

theorem alt_iff (a b : Re) (u : Str) : Matches (.alt a b) u ↔ Matches a u ∨ Matches b u := by
  constructor
  · intro h
    cases h with
    | altL h => exact .inl h
    | altR h => exact .inr h
  · rintro (h | h)
    · exact .altL h
    · exact .altR h

theorem eps_iff (u : Str) : Matches .eps u ↔ u = [] :=
  ⟨fun h => by cases h; rfl, fun h => by rw [h]; exact .eps⟩

theorem empty_iff (u : Str) : Matches .empty u ↔ False := ⟨fun h => (by cases h), False.elim⟩

theorem set_iff (p : Char → Bool) (u : Str) : Matches (.set p) u ↔ ∃ c, u = [c] ∧ p c = true :=
  ⟨fun h => by cases h with | set h => exact ⟨_, rfl, h⟩, fun ⟨c, h, h'⟩ => by rw [h]; exact .set h'⟩

theorem chr_iff (c : Char) (u : Str) : Matches (chr c) u ↔ u = [c] := by
  rw [chr, set_iff]
  constructor
  · rintro ⟨d, rfl, h⟩; simp at h; rw [h]
  · rintro rfl; exact ⟨c, rfl, by simp⟩

theorem lit_iff (s u : Str) : Matches (lit s) u ↔ u = s := by
  induction s generalizing u with
  | nil => exact eps_iff u
  | cons c cs ih =>
    cases cs with
    | nil => exact chr_iff c u
    | cons d ds =>
      rw [lit, seq_iff]
      · constructor
        · rintro ⟨x, y, rfl, h1, h2⟩
          rw [(chr_iff c x).1 h1, (ih y).1 h2]; rfl
        · rintro rfl
          exact ⟨[c], d :: ds, rfl, (chr_iff _ _).2 rfl, (ih _).2 rfl⟩
      · simp

theorem mkSeq_iff (a b : Re) (u : Str) : Matches (mkSeq a b) u ↔ Matches (.seq a b) u := by
  unfold mkSeq
  split
  · rw [seq_iff, empty_iff]
    constructor
    · exact False.elim
    · rintro ⟨s, t, _, h, _⟩; cases h
  · rw [seq_iff]
    constructor
    · intro h; exact ⟨[], u, rfl, .eps, h⟩
    · rintro ⟨s, t, rfl, h, h'⟩; cases h; exact h'
  · rw [seq_iff]
    constructor
    · intro h; cases h
    · rintro ⟨s, t, _, _, h⟩; cases h
  · rfl

theorem mkAlt_iff (a b : Re) (u : Str) : Matches (mkAlt a b) u ↔ Matches (.alt a b) u := by
  unfold mkAlt
  split
  · simp [alt_iff, empty_iff]
  · simp [alt_iff, empty_iff]
  · rfl

theorem star_cons_iff (a : Re) (c : Char) (u : Str) :
    Matches (.star a) (c :: u) ↔ ∃ s t, u = s ++ t ∧ Matches a (c :: s) ∧ Matches (.star a) t := by
  constructor
  · intro h
    generalize hr : Re.star a = r at h
    generalize hw : c :: u = w at h
    induction h with
    | eps => cases hr
    | set => cases hr
    | seq => cases hr
    | altL => cases hr
    | altR => cases hr
    | starNil => cases hw
    | @starCons a' s t h1 h2 ih1 ih2 =>
      cases hr
      cases s with
      | nil => exact ih2 rfl (by simpa using hw)
      | cons d ds =>
        simp only [List.cons_append, List.cons.injEq] at hw
        obtain ⟨rfl, rfl⟩ := hw
        exact ⟨ds, t, rfl, h1, h2⟩
  · rintro ⟨s, t, rfl, h1, h2⟩
    exact .starCons (s := c :: s) h1 h2

theorem seq_cons_iff (a b : Re) (c : Char) (u : Str) :
    Matches (.seq a b) (c :: u) ↔
      (∃ s t, u = s ++ t ∧ Matches a (c :: s) ∧ Matches b t) ∨ (Matches a [] ∧ Matches b (c :: u)) := by
  rw [seq_iff]
  constructor
  · rintro ⟨s, t, he, h1, h2⟩
    cases s with
    | nil => right; simp only [List.nil_append] at he; exact ⟨h1, he ▸ h2⟩
    | cons d ds =>
      simp only [List.cons_append, List.cons.injEq] at he
      obtain ⟨rfl, rfl⟩ := he
      exact .inl ⟨ds, t, rfl, h1, h2⟩
  · rintro (⟨s, t, rfl, h1, h2⟩ | ⟨h1, h2⟩)
    · exact ⟨c :: s, t, rfl, h1, h2⟩
    · exact ⟨[], c :: u, rfl, h1, h2⟩

theorem deriv_iff (r : Re) (c : Char) (u : Str) : Matches (r.deriv c) u ↔ Matches r (c :: u) := by
  induction r generalizing u with
  | empty => simp [deriv, empty_iff]
  | eps => simp [deriv, empty_iff, eps_iff]
  | set p =>
    rw [deriv, set_iff]
    split
    · rename_i h; rw [eps_iff]
      constructor
      · rintro rfl; exact ⟨c, rfl, h⟩
      · rintro ⟨d, h', _⟩; simpa using (List.cons.inj h').2
    · rename_i h; rw [empty_iff]
      constructor
      · exact False.elim
      · rintro ⟨d, h', hd⟩; exact h (by rw [(List.cons.inj h').1]; exact hd)
  | seq a b iha ihb =>
    rw [seq_cons_iff, deriv]
    split
    · rename_i hn
      rw [mkAlt_iff, alt_iff, mkSeq_iff, seq_iff, ihb]
      have hn' := (nullable_iff a).1 hn
      simp only [iha, hn', true_and]
    · rename_i hn
      rw [mkSeq_iff, seq_iff]
      have hn' : ¬ Matches a [] := fun h => hn ((nullable_iff a).2 h)
      simp only [iha, hn', false_and, or_false]
  | alt a b iha ihb => rw [deriv, mkAlt_iff, alt_iff, alt_iff, iha, ihb]
  | star a iha =>
    rw [deriv, mkSeq_iff, seq_iff, star_cons_iff]
    simp only [iha]

/-- The matcher accepts exactly the language. -/
theorem full_iff (r : Re) (s : Str) : r.full s = true ↔ Matches r s := by
  induction s generalizing r with
  | nil => exact nullable_iff r
  | cons c cs ih => rw [full, ih, deriv_iff]

/-- `re.match` without end anchor: some prefix is in the language. -/
theorem pref_iff (r : Re) (s : Str) : r.pref s = true ↔ ∃ a b, s = a ++ b ∧ Matches r a := by
  induction s generalizing r with
  | nil =>
    rw [pref, nullable_iff]
    constructor
    · intro h; exact ⟨[], [], rfl, h⟩
    · rintro ⟨a, b, h, h'⟩
      have := List.append_eq_nil_iff.1 h.symm
      rw [this.1] at h'; exact h'
  | cons c cs ih =>
    rw [pref, Bool.or_eq_true, nullable_iff, ih]
    constructor
    · rintro (h | ⟨a, b, rfl, h⟩)
      · exact ⟨[], c :: cs, rfl, h⟩
      · exact ⟨c :: a, b, rfl, (deriv_iff _ _ _).1 h⟩
    · rintro ⟨a, b, he, h⟩
      cases a with
      | nil => exact .inl h
      | cons d ds =>
        simp only [List.cons_append, List.cons.injEq] at he
        obtain ⟨rfl, rfl⟩ := he
        exact .inr ⟨ds, b, rfl, (deriv_iff _ _ _).2 h⟩

theorem anchored_iff (r : Re) (s : Str) :
    r.anchored s = true ↔ Matches r s ∨ ∃ t, s = t ++ ['\n'] ∧ Matches r t := by
  rw [anchored, dollar_iff]
  simp only [full_iff]

theorem opt_iff (r : Re) (u : Str) : Matches (opt r) u ↔ u = [] ∨ Matches r u := by
  rw [opt, alt_iff, eps_iff]

theorem rep_succ_iff (r : Re) (n : Nat) (u : Str) :
    Matches (rep r (n + 1)) u ↔ ∃ s t, u = s ++ t ∧ Matches r s ∧ Matches (rep r n) t := by rw [rep, seq_iff]

/-- `[p]{n}` matches the texts of `n` characters of the class. -/
theorem rep_set_iff (p : Char → Bool) (n : Nat) (u : Str) :
    Matches (rep (.set p) n) u ↔ u.length = n ∧ ∀ c ∈ u, p c = true := by
  induction n generalizing u with
  | zero =>
    rw [rep, eps_iff]
    constructor
    · rintro rfl; simp
    · rintro ⟨h, -⟩; simpa using h
  | succ n ih =>
    rw [rep_succ_iff]
    constructor
    · rintro ⟨s, t, rfl, h1, h2⟩
      obtain ⟨c, rfl, hc⟩ := (set_iff _ _).1 h1
      obtain ⟨hl, ht⟩ := (ih t).1 h2
      refine ⟨by simp [hl], ?_⟩
      simpa [hc] using ht
    · rintro ⟨hl, h⟩
      cases u with
      | nil => simp at hl
      | cons c cs =>
        simp only [List.length_cons, Nat.add_right_cancel_iff] at hl
        refine ⟨[c], cs, rfl, .set (h c (by simp)), (ih cs).2 ⟨hl, fun d hd => h d (by simp [hd])⟩⟩

/-- `[p]*` -/
theorem star_set_iff (p : Char → Bool) (u : Str) : Matches (.star (.set p)) u ↔ ∀ c ∈ u, p c = true := by
  induction u with
  | nil => simp; exact .starNil
  | cons c cs ih =>
    rw [star_cons_iff]
    constructor
    · rintro ⟨s, t, rfl, h1, h2⟩
      obtain ⟨d, hd, hp⟩ := (set_iff _ _).1 h1
      simp only [List.cons.injEq] at hd
      obtain ⟨rfl, rfl⟩ := hd
      simpa [hp] using ih.1 h2
    · intro h
      exact ⟨[], cs, rfl, .set (h c (by simp)), ih.2 (fun d hd => h d (by simp [hd]))⟩

/-- `[p]+` -/
theorem plus_set_iff (p : Char → Bool) (u : Str) : Matches (plus (.set p)) u ↔ u ≠ [] ∧ ∀ c ∈ u, p c = true := by
  rw [plus, seq_iff]
  constructor
  · rintro ⟨s, t, rfl, h1, h2⟩
    obtain ⟨c, rfl, hc⟩ := (set_iff _ _).1 h1
    have := (star_set_iff p t).1 h2
    refine ⟨by simp, ?_⟩
    simpa [hc] using this
  · rintro ⟨h0, h⟩
    obtain ⟨c, r, rfl⟩ := List.exists_cons_of_ne_nil h0
    exact ⟨[c], r, rfl, .set (h c (by simp)), (star_set_iff p r).2 (fun d hd => h d (by simp [hd]))⟩

end Spdx.Re
