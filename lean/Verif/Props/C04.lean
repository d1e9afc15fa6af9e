import Verif.Model.Version
import Verif.Lemmas.Digits
import Verif.Lemmas.Text
/-
C04 – Version text round-trips.
-/
namespace Spdx.C04
open Spdx

/-- Specification: `s` is a decimal numeral for `n` – a non-empty text of decimal digits with that value. -/
def Numeral (s : Str) (n : Nat) : Prop := s ≠ [] ∧ (∀ c ∈ s, isPyDigit c = true) ∧ digitsVal? s = some n

private theorem body_iff (s : Str) (v : Version) :
    versionBody s = some v ↔ ∃ a b, s = a ++ '.' :: b ∧ Numeral a v.major ∧ Numeral b v.minor := by
  constructor
  · intro h
    unfold versionBody at h
    split at h
    · rename_i a b hs
      split at h
      · rename_i hc
        simp only [Option.bind_eq_bind, Option.bind_eq_some_iff, Option.some.injEq] at h
        obtain ⟨x, hx, y, hy, rfl⟩ := h
        have := (splitOn_two '.' s a b).1 hs
        exact ⟨a, b, this.1, ⟨hc.1, by simpa using hc.2.2.1, hx⟩, ⟨hc.2.1, by simpa using hc.2.2.2, hy⟩⟩
      · simp at h
    · simp at h
  · rintro ⟨a, b, rfl, ⟨ha0, ha1, ha2⟩, ⟨hb0, hb1, hb2⟩⟩
    have hdot : isPyDigit '.' = false := by decide +kernel
    have hs : splitOn '.' (a ++ '.' :: b) = [a, b] := by
      rw [splitOn_two]
      exact ⟨rfl, fun h => by simp [ha1 _ h] at hdot, fun h => by simp [hb1 _ h] at hdot⟩
    simp only [versionBody, hs]
    rw [if_pos ⟨ha0, hb0, by simpa using ha1, by simpa using hb1⟩]
    simp [ha2, hb2]

/-- Printing a version and reading the text gives the version. -/
theorem roundtrip (v : Version) : versionFromString v.toStr = some v := by
  have : versionBody v.toStr = some v := by
    rw [body_iff]
    exact ⟨natStr v.major, natStr v.minor, by simp [Version.toStr],
      ⟨natStr_ne_nil _, fun c hc => (natStr_digits _ c hc).2, digitsVal_natStr _⟩,
      ⟨natStr_ne_nil _, fun c hc => (natStr_digits _ c hc).2, digitsVal_natStr _⟩⟩
  simp [versionFromString, this]

/-- Distinct versions print differently. -/
theorem toStr_injective (v w : Version) (h : v.toStr = w.toStr) : v = w := by
  have := roundtrip v
  rw [h, roundtrip w] at this
  simpa using this.symm

/-- A text is read as a version exactly when it is two decimal numerals separated by a dot – or that followed by one
    newline, which the pattern's `$` lets through (see `newline_accepted`). -/
theorem read_iff (s : Str) (v : Version) : versionFromString s = some v ↔
    ∃ a b, (s = a ++ '.' :: b ∨ s = a ++ '.' :: b ++ ['\n']) ∧ Numeral a v.major ∧ Numeral b v.minor := by
  constructor
  · intro h
    unfold versionFromString at h
    split at h
    · rename_i w hw
      simp only [Option.some.injEq] at h; subst h
      obtain ⟨a, b, h1, h2, h3⟩ := (body_iff s w).1 hw
      exact ⟨a, b, .inl h1, h2, h3⟩
    · split at h
      · rename_i r hr
        obtain ⟨a, b, h1, h2, h3⟩ := (body_iff _ v).1 h
        refine ⟨a, b, .inr ?_, h2, h3⟩
        rw [← h1, ← List.reverse_reverse s, hr]; simp
      · simp at h
  · rintro ⟨a, b, h1 | h1, h2, h3⟩
    · have := (body_iff s v).2 ⟨a, b, h1, h2, h3⟩
      simp [versionFromString, this]
    · have h4 := (body_iff (a ++ '.' :: b) v).2 ⟨a, b, rfl, h2, h3⟩
      have h5 : versionBody s = none := by
        cases hb : versionBody s with
        | none => rfl
        | some w =>
          exfalso
          obtain ⟨a', b', e, ha', hb'⟩ := (body_iff s w).1 hb
          have hl : s.getLast? = some '\n' := by rw [h1]; exact List.getLast?_concat
          have hb0 := hb'.1
          have : s.getLast? = b'.getLast? := by
            rw [e, List.getLast?_append]
            cases b' with
            | nil => exact absurd rfl hb0
            | cons x xs => simp [List.getLast?_cons]
          rw [this] at hl
          have := hb'.2.1 _ (List.mem_of_getLast? hl)
          exact absurd this (by decide +kernel)
      rw [versionFromString, h5]
      simp only [h1, List.reverse_append, List.reverse_cons, List.reverse_nil, List.nil_append, List.cons_append]
      simpa using h4

/-- The stricter reading "exactly two numerals and a dot" is false of the code: a final newline is accepted. -/
theorem newline_accepted : versionFromString s%"3.18\n" = some ⟨3, 18⟩ := by decide +kernel

/-! Non-vacuity -/
example : (⟨3, 18⟩ : Version).toStr = s%"3.18" := by decide +kernel
example : versionFromString s%"3.18.1" = none ∧ versionFromString s%"3." = none := by decide +kernel
example : ∃ n, Numeral s%"018" n := ⟨18, by unfold Numeral; decide +kernel⟩

end Spdx.C04
