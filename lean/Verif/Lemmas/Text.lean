import Verif.Py.Text
/- Lemmas about text functions. -/
namespace Spdx

theorem splitOn_ne_nil (sep : Char) (s : Str) : splitOn sep s ≠ [] := by
  induction s with
  | nil => simp [splitOn]
  | cons c cs ih =>
    simp only [splitOn]
    split
    · simp
    · split <;> simp

/-- A text without the separator is one piece. -/
theorem splitOn_none (sep : Char) (s : Str) (h : sep ∉ s) : splitOn sep s = [s] := by
  induction s with
  | nil => rfl
  | cons c cs ih =>
    simp only [List.mem_cons, not_or] at h
    simp [splitOn, ih h.2, Ne.symm h.1]

/-- Splitting at the first separator. -/
theorem splitOn_append (sep : Char) (a b : Str) (h : sep ∉ a) : splitOn sep (a ++ sep :: b) = a :: splitOn sep b := by
  induction a with
  | nil => simp [splitOn]
  | cons c cs ih =>
    simp only [List.mem_cons, not_or] at h
    simp [splitOn, ih h.2, Ne.symm h.1]

/-- The pieces contain no separator and joining them gives the text back. -/
theorem splitOn_spec (sep : Char) (s : Str) :
    (∀ p ∈ splitOn sep s, sep ∉ p) ∧ joinWith [sep] (splitOn sep s) = s := by
  induction s with
  | nil => simp [splitOn, joinWith]
  | cons c cs ih =>
    obtain ⟨ih1, ih2⟩ := ih
    simp only [splitOn]
    split
    · rename_i h; subst h
      cases hs : splitOn c cs with
      | nil => exact absurd hs (splitOn_ne_nil _ _)
      | cons p ps =>
        rw [hs] at ih1 ih2
        exact ⟨by intro q hq; rcases List.mem_cons.1 hq with rfl | hq; simp; exact ih1 q hq, by simp [joinWith, ih2]⟩
    · rename_i h
      cases hs : splitOn sep cs with
      | nil => exact absurd hs (splitOn_ne_nil _ _)
      | cons p ps =>
        rw [hs] at ih1 ih2
        refine ⟨?_, ?_⟩
        · intro q hq
          rcases List.mem_cons.1 hq with rfl | hq
          · simp only [List.mem_cons, not_or]; exact ⟨Ne.symm h, ih1 p (by simp)⟩
          · exact ih1 q (by simp [hq])
        · cases ps with
          | nil => simp only [joinWith] at ih2 ⊢; rw [ih2]
          | cons q qs => simp only [joinWith] at ih2 ⊢; rw [List.cons_append, List.cons_append, ih2]

theorem joinWith_cons (sep p : Str) (ps : List Str) (h : ps ≠ []) : joinWith sep (p :: ps) = p ++ sep ++ joinWith sep ps := by
  cases ps with
  | nil => exact absurd rfl h
  | cons q qs => rfl

/-- Joining separator-free pieces and splitting again gives the pieces. -/
theorem splitOn_join (sep : Char) (ps : List Str) (h0 : ps ≠ []) (h : ∀ p ∈ ps, sep ∉ p) :
    splitOn sep (joinWith [sep] ps) = ps := by
  induction ps with
  | nil => exact absurd rfl h0
  | cons p ps ih =>
    cases ps with
    | nil => simpa [joinWith] using splitOn_none sep p (h p (by simp))
    | cons q qs =>
      simp only [joinWith, List.append_assoc, List.cons_append, List.nil_append]
      rw [splitOn_append sep p _ (h p (by simp))]
      rw [ih (by simp) (fun x hx => h x (List.mem_cons_of_mem _ hx))]

/-- Exactly two pieces: one separator. -/
theorem splitOn_two (sep : Char) (s a b : Str) :
    splitOn sep s = [a, b] ↔ s = a ++ sep :: b ∧ sep ∉ a ∧ sep ∉ b := by
  constructor
  · intro h
    have := splitOn_spec sep s
    rw [h] at this
    refine ⟨by simpa [joinWith] using this.2.symm, this.1 a (by simp), this.1 b (by simp)⟩
  · rintro ⟨rfl, ha, hb⟩
    rw [splitOn_append sep a b ha, splitOn_none sep b hb]

theorem splitOn_one (sep : Char) (s a : Str) : splitOn sep s = [a] ↔ s = a ∧ sep ∉ a := by
  constructor
  · intro h
    have := splitOn_spec sep s
    rw [h] at this
    exact ⟨by simpa [joinWith] using this.2.symm, this.1 a (by simp)⟩
  · rintro ⟨rfl, ha⟩
    exact splitOn_none sep s ha

theorem length_dropWhile_le' (p : Char → Bool) (s : Str) : (s.dropWhile p).length ≤ s.length :=
  (List.dropWhile_suffix p).length_le

theorem dropWhile_none {p : Char → Bool} {c : Char} {s : Str} (h : p c = false) : (c :: s).dropWhile p = c :: s := by
  simp [List.dropWhile, h]

/-- `$` matches at the end or before a final newline. -/
theorem dollar_iff (body : Str → Bool) (s : Str) :
    dollar body s = true ↔ body s = true ∨ ∃ t, s = t ++ ['\n'] ∧ body t = true := by
  unfold dollar
  simp only [Bool.or_eq_true]
  constructor
  · rintro (h | h)
    · exact .inl h
    · split at h
      · rename_i r hr
        exact .inr ⟨r.reverse, by rw [← List.reverse_reverse s, hr]; simp, h⟩
      · simp at h
  · rintro (h | ⟨t, rfl, h⟩)
    · exact .inl h
    · exact .inr (by simp [h])

/-- Texts that start and end with a non-space are unchanged by `strip`. -/
theorem strip_eq_self_iff (s : Str) : strip s = s ↔ (∀ c r, s = c :: r → isPySpace c = false) ∧ (∀ c r, s = r ++ [c] → isPySpace c = false) := by
  constructor
  · intro h
    constructor
    · rintro c r rfl
      by_cases hc : isPySpace c = true
      · have h1 : (strip (c :: r)).length ≤ r.length := by
          unfold strip rstrip lstrip
          simp only [List.dropWhile_cons, hc, if_true, List.length_reverse]
          refine Nat.le_trans (length_dropWhile_le' _ _) ?_
          simpa using length_dropWhile_le' _ _
        rw [h] at h1; simp only [List.length_cons] at h1; omega
      · simpa using hc
    · rintro c r rfl
      by_cases hc : isPySpace c = true
      · exfalso
        have h2 : ∀ t : Str, strip t = t → t.getLast? = some c → False := by
          intro t ht hl
          have : rstrip (lstrip t) = t := ht
          have hlen : (lstrip t).length ≤ t.length := length_dropWhile_le' _ _
          have hlen2 : (rstrip (lstrip t)).length ≤ (lstrip t).length := by
            unfold rstrip; simpa using length_dropWhile_le' isPySpace (lstrip t).reverse
          have hl' : lstrip t = t := by
            have hs : lstrip t <:+ t := List.dropWhile_suffix _
            exact hs.eq_of_length (by rw [this] at hlen2; omega)
          rw [hl'] at this
          have h3 : (t.reverse.dropWhile isPySpace) = t.reverse := by
            have := congrArg List.reverse this
            simpa [rstrip] using this
          have h4 : t.reverse.head? = some c := by simpa using hl
          cases hr : t.reverse with
          | nil => simp [hr] at h4
          | cons d ds =>
            simp [hr] at h4; subst h4
            have h5 : (List.dropWhile isPySpace (d :: ds)).length ≤ ds.length := by
              simp only [List.dropWhile_cons, hc, if_true]; exact length_dropWhile_le' _ _
            rw [hr] at h3; rw [h3] at h5; simp only [List.length_cons] at h5; omega
        exact h2 _ h (by simp)
      · simpa using hc
  · rintro ⟨h1, h2⟩
    have e1 : lstrip s = s := by
      cases s with
      | nil => rfl
      | cons c r => exact dropWhile_none (h1 c r rfl)
    unfold strip rstrip
    rw [e1]
    cases hr : s.reverse with
    | nil => have : s = [] := by simpa using hr
             subst this; rfl
    | cons c r =>
      have : s = r.reverse ++ [c] := by rw [← List.reverse_reverse s, hr]; simp
      rw [dropWhile_none (h2 c _ this), ← hr, List.reverse_reverse]

theorem rstrip_prefix (s : Str) : rstrip s <+: s := by
  unfold rstrip
  have := List.dropWhile_suffix (l := s.reverse) isPySpace
  have := List.reverse_prefix.2 this
  simpa using this

theorem mem_of_mem_strip {c : Char} {s : Str} (h : c ∈ strip s) : c ∈ s :=
  (List.dropWhile_suffix _).subset ((rstrip_prefix _).subset h)

theorem dropWhile_head {p : Char → Bool} {s r : Str} {c : Char} (h : s.dropWhile p = c :: r) : p c = false := by
  induction s with
  | nil => simp at h
  | cons d ds ih =>
    by_cases hd : p d = true
    · rw [List.dropWhile_cons, if_pos hd] at h; exact ih h
    · rw [List.dropWhile_cons, if_neg hd] at h
      simp only [List.cons.injEq] at h
      rw [← h.1]; simpa using hd

theorem lstrip_head {s r : Str} {c : Char} (h : lstrip s = c :: r) : isPySpace c = false := dropWhile_head h

theorem rstrip_last {s r : Str} {c : Char} (h : rstrip s = r ++ [c]) : isPySpace c = false := by
  unfold rstrip at h
  have : s.reverse.dropWhile isPySpace = c :: r.reverse := by
    have := congrArg List.reverse h; simpa using this
  exact dropWhile_head this

/-- The result of `strip` has no surrounding white space. -/
theorem strip_trimmed (s : Str) : strip (strip s) = strip s := by
  rw [strip_eq_self_iff]
  constructor
  · intro c r h
    have hp := rstrip_prefix (lstrip s)
    have h' : rstrip (lstrip s) = c :: r := h
    rw [h'] at hp
    obtain ⟨t, ht⟩ := hp
    exact lstrip_head (s := s) (r := r ++ t) (by simpa using ht.symm)
  · intro c r h
    exact rstrip_last h

theorem lstrip_eq_nil {s : Str} (h : lstrip s = []) : ∀ c ∈ s, isPySpace c = true := by
  induction s with
  | nil => simp
  | cons d ds ih =>
    unfold lstrip at h
    by_cases hd : isPySpace d = true
    · rw [List.dropWhile_cons, if_pos hd] at h
      intro c hc
      rcases List.mem_cons.1 hc with rfl | hc
      · exact hd
      · exact ih h c hc
    · rw [List.dropWhile_cons, if_neg hd] at h; simp at h

theorem lstrip_all {s : Str} (h : ∀ c ∈ s, isPySpace c = true) : lstrip s = [] := by
  induction s with
  | nil => rfl
  | cons d ds ih =>
    unfold lstrip
    rw [List.dropWhile_cons, if_pos (h d (by simp))]
    exact ih (fun c hc => h c (by simp [hc]))

theorem strip_ne_nil {c : Char} {r : Str} (h : isPySpace c = false) : strip (c :: r) ≠ [] := by
  unfold strip
  rw [lstrip, dropWhile_none h]
  unfold rstrip
  intro hh
  have h1 : lstrip (c :: r).reverse = [] := by simpa [lstrip] using hh
  have := lstrip_eq_nil h1 c (by simp)
  simp [h] at this

end Spdx
