import Verif.Py.Text
import Verif.Model.Casing
/- Lemmas about characters. -/
namespace Spdx

theorem char_below {P : Char → Prop} [DecidablePred P] (b : Nat)
    (h : ∀ n : Nat, n < b → P (Char.ofNat n)) (c : Char) (hc : c.toNat < b) : P c := by
  have := h c.toNat hc
  rwa [Char.ofNat_toNat] at this

theorem isLowerAZ_lt {c : Char} (h : isLowerAZ c = true) : c.toNat < 128 := by
  simp [isLowerAZ] at h; omega
theorem isUpperAZ_lt {c : Char} (h : isUpperAZ c = true) : c.toNat < 128 := by
  simp [isUpperAZ] at h; omega
theorem isDigit09_lt {c : Char} (h : isDigit09 c = true) : c.toNat < 128 := by
  simp [isDigit09] at h; omega

theorem lower_facts (c : Char) (h : isLowerAZ c = true) :
    isLetterAZ c = true ∧ toLowerC c = c ∧ isUpperAZ (toUpperC c) = true ∧ toLowerC (toUpperC c) = c ∧ c ≠ '_' ∧ c ≠ '-'
      ∧ c ≠ ' ' ∧ toUpperC c ≠ ' ' ∧ isUpperAZ c = false ∧ isDigit09 c = false := by
  exact char_below (P := fun c => isLowerAZ c = true → isLetterAZ c = true ∧ toLowerC c = c ∧ isUpperAZ (toUpperC c) = true
    ∧ toLowerC (toUpperC c) = c ∧ c ≠ '_' ∧ c ≠ '-' ∧ c ≠ ' ' ∧ toUpperC c ≠ ' ' ∧ isUpperAZ c = false ∧ isDigit09 c = false)
    128 (by decide +kernel) c (isLowerAZ_lt h) h

theorem digit_facts (c : Char) (h : isDigit09 c = true) :
    isLetterAZ c = false ∧ toLowerC c = c ∧ c ≠ '_' ∧ c ≠ '-' ∧ c ≠ ' ' ∧ isUpperAZ c = false := by
  exact char_below (P := fun c => isDigit09 c = true → isLetterAZ c = false ∧ toLowerC c = c ∧ c ≠ '_' ∧ c ≠ '-' ∧ c ≠ ' '
    ∧ isUpperAZ c = false) 128 (by decide +kernel) c (isDigit09_lt h) h

end Spdx
