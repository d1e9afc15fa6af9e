import Verif.Model.DateTime
/- The day-number functions are inverse to each other. -/
namespace Spdx

theorem monthDay_ok : ∀ leap : Bool, ∀ n : Nat, n < (if leap then 366 else 365) →
    1 ≤ (monthDay leap n).1 ∧ (monthDay leap n).1 ≤ 12 ∧ 1 ≤ (monthDay leap n).2
      ∧ (monthDay leap n).2 ≤ daysInMonth leap (monthDay leap n).1
      ∧ daysBeforeMonth leap (monthDay leap n).1 + (monthDay leap n).2 = n + 1 := by
  have h1 : ∀ n : Nat, n < 366 → 1 ≤ (monthDay true n).1 ∧ (monthDay true n).1 ≤ 12 ∧ 1 ≤ (monthDay true n).2
      ∧ (monthDay true n).2 ≤ daysInMonth true (monthDay true n).1
      ∧ daysBeforeMonth true (monthDay true n).1 + (monthDay true n).2 = n + 1 := by decide +kernel
  have h2 : ∀ n : Nat, n < 365 → 1 ≤ (monthDay false n).1 ∧ (monthDay false n).1 ≤ 12 ∧ 1 ≤ (monthDay false n).2
      ∧ (monthDay false n).2 ≤ daysInMonth false (monthDay false n).1
      ∧ daysBeforeMonth false (monthDay false n).1 + (monthDay false n).2 = n + 1 := by decide +kernel
  intro leap n hn
  cases leap
  · exact h2 n hn
  · exact h1 n hn

private theorem year_part (a b c d : Nat) (hb : b ≤ 3) (hc : c ≤ 24) (hd : d ≤ 3) :
    daysBeforeYear (a * 400 + 1 + b * 100 + c * 4 + d) = 146097 * a + 36524 * b + 1461 * c + 365 * d ∧
    isLeap (a * 400 + 1 + b * 100 + c * 4 + d) = (decide (d = 3) && (decide (c ≠ 24) || decide (b = 3))) := by
  constructor
  · unfold daysBeforeYear; omega
  · unfold isLeap
    rw [Bool.eq_iff_iff]
    simp only [Bool.and_eq_true, Bool.or_eq_true, decide_eq_true_eq]
    omega

/-- The calendar date computed for a day number is a real date and has that day number. -/
theorem ordToYmd_ok (n : Nat) (h1 : 1 ≤ n) (h2 : n ≤ 3652059) :
    1 ≤ (ordToYmd n).1 ∧ (ordToYmd n).1 ≤ 9999 ∧ 1 ≤ (ordToYmd n).2.1 ∧ (ordToYmd n).2.1 ≤ 12 ∧ 1 ≤ (ordToYmd n).2.2
      ∧ (ordToYmd n).2.2 ≤ daysInMonth (isLeap (ordToYmd n).1) (ordToYmd n).2.1
      ∧ ymdToOrd (ordToYmd n).1 (ordToYmd n).2.1 (ordToYmd n).2.2 = n := by
  obtain ⟨a, n0, b, n1, c, n2, d, r, hn, hn0, hn1, hn2, ha, hb, hc, hd, e0, e1, e2, e3⟩ :
      ∃ a n0 b n1 c n2 d r : Nat, n - 1 = 146097 * a + n0 ∧ n0 = 36524 * b + n1 ∧ n1 = 1461 * c + n2 ∧ n2 = 365 * d + r
        ∧ a = (n - 1) / 146097 ∧ b = (n - 1) % 146097 / 36524 ∧ c = (n - 1) % 146097 % 36524 / 1461
        ∧ d = (n - 1) % 146097 % 36524 % 1461 / 365 ∧ n0 < 146097 ∧ n1 < 36524 ∧ n2 < 1461 ∧ r < 365 :=
    ⟨_, (n - 1) % 146097, _, (n - 1) % 146097 % 36524, _, (n - 1) % 146097 % 36524 % 1461, _,
      (n - 1) % 146097 % 36524 % 1461 % 365, by omega, by omega, by omega, by omega, rfl, rfl, rfl, rfl, by omega, by omega,
      by omega, by omega⟩
  have hr : (n - 1) % 146097 % 36524 % 1461 % 365 = r := by omega
  have hyr : a * 400 + 1 + b * 100 + c * 4 + d ≤ 10000 := by omega
  unfold ordToYmd
  simp only [← ha, ← hb, ← hc, ← hd, hr]
  clear ha hb hc hd hr
  split
  · rename_i hh
    have dbm12 : ∀ l, daysBeforeMonth l 12 + 31 = if l then 366 else 365 := by decide
    have dim12 : ∀ l, daysInMonth l 12 = 31 := by decide
    by_cases hb4 : b = 4
    · -- last day of a 400-year cycle
      have hz : c = 0 ∧ d = 0 := by omega
      have hy := year_part a 3 24 3 (by omega) (by omega) (by omega)
      have ey : a * 400 + 1 + b * 100 + c * 4 + d - 1 = a * 400 + 1 + 3 * 100 + 24 * 4 + 3 := by omega
      rw [ey]
      have hl : isLeap (a * 400 + 1 + 3 * 100 + 24 * 4 + 3) = true := by rw [hy.2]; decide
      refine ⟨by simp only []; omega, by simp only []; omega, by simp, by simp, by simp, by simp [dim12], ?_⟩
      have := dbm12 true
      simp only [ymdToOrd, hl, hy.1]
      simp only [if_true] at this
      omega
    · have hd4 : d = 4 := by omega
      have hc24 : c ≤ 24 := by omega
      have hb3 : b ≤ 3 := by omega
      have hy := year_part a b c 3 hb3 hc24 (by omega)
      have ey : a * 400 + 1 + b * 100 + c * 4 + d - 1 = a * 400 + 1 + b * 100 + c * 4 + 3 := by omega
      rw [ey]
      have hl : isLeap (a * 400 + 1 + b * 100 + c * 4 + 3) = true := by
        rw [hy.2]
        simp only [decide_true, Bool.true_and, Bool.or_eq_true, decide_eq_true_eq]
        omega
      refine ⟨by simp only []; omega, by simp only []; omega, by simp, by simp, by simp, by simp [dim12], ?_⟩
      have := dbm12 true
      simp only [ymdToOrd, hl, hy.1]
      simp only [if_true] at this
      omega
  · rename_i hh
    have hd3 : d ≤ 3 := by omega
    have hc24 : c ≤ 24 := by omega
    have hb3 : b ≤ 3 := by omega
    have hy := year_part a b c d hb3 hc24 hd3
    rw [hy.2]
    have hm := monthDay_ok (decide (d = 3) && (decide (c ≠ 24) || decide (b = 3))) r (by split <;> omega)
    refine ⟨by omega, by omega, hm.1, hm.2.1, hm.2.2.1, hm.2.2.2.1, ?_⟩
    simp only [ymdToOrd, hy.1, hy.2]
    omega

end Spdx
