import Verif.Py.Text
/- Printing and reading decimal numbers. -/
namespace Spdx

theorem digitVal_digitChar : ∀ k : Nat, k < 10 → digitVal? (digitChar k) = some k := by decide +kernel

theorem isPyDigit_digitChar (k : Nat) (h : k < 10) : isPyDigit (digitChar k) = true := by
  simp [isPyDigit, digitVal_digitChar k h]

theorem isDigit09_digitChar : ∀ k : Nat, k < 10 → isDigit09 (digitChar k) = true := by decide +kernel

theorem digitChar_toNat : ∀ k : Nat, k < 10 → (digitChar k).toNat = 48 + k := by decide +kernel

theorem digitsVal_append (a b : Str) : digitsVal? (a ++ b) = b.foldl digitStep (digitsVal? a) := by
  simp [digitsVal?]

theorem natStr_ne_nil (n : Nat) : natStr n ≠ [] := by
  unfold natStr; split <;> simp

theorem natStr_digits (n : Nat) : ∀ c ∈ natStr n, isDigit09 c = true ∧ isPyDigit c = true := by
  induction n using natStr.induct with
  | case1 n h =>
    unfold natStr; simp [h, isDigit09_digitChar, isPyDigit_digitChar]
  | case2 n h ih =>
    unfold natStr
    simp only [h, dite_false, List.mem_append, List.mem_singleton]
    rintro c (hc | rfl)
    · exact ih c hc
    · exact ⟨isDigit09_digitChar _ (by omega), isPyDigit_digitChar _ (by omega)⟩

/-- Reading a printed number gives the number. -/
theorem digitsVal_natStr (n : Nat) : digitsVal? (natStr n) = some n := by
  induction n using natStr.induct with
  | case1 n h => unfold natStr; simp [h, digitsVal?, digitStep, digitVal_digitChar]
  | case2 n h ih =>
    unfold natStr
    simp only [h, dite_false]
    rw [digitsVal_append, ih]
    simp only [digitStep, List.foldl_cons, List.foldl_nil, digitVal_digitChar _ (Nat.mod_lt n (by omega : 10 > 0))]
    congr 1; omega

theorem natStr_injective {a b : Nat} (h : natStr a = natStr b) : a = b := by
  have := congrArg digitsVal? h
  simpa [digitsVal_natStr] using this

end Spdx
