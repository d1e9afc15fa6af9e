import Verif.Model.DocumentUtils
/-
C21 – File digests do not depend on the read chunk size.
-/
namespace Spdx.C21
open Spdx

/-! ### Specification: what is assumed of a hash object -/

/-- Feeding two pieces equals feeding their concatenation, feeding nothing changes nothing (documented behaviour of `hashlib`). -/
structure Incremental (H : Hasher) : Prop where
  append : ∀ s a b, H.update (H.update s a) b = H.update s (a ++ b)
  empty : ∀ s, H.update s [] = s

/-! ### Theorems -/

private theorem loop (H : Hasher) (hH : Incremental H) (n : Nat) (hn : 0 < n) (s : H.σ) (rest : List UInt8) :
    hashLoop H n hn s rest = H.update s rest := by
  generalize hl : rest.length = k
  induction k using Nat.strongRecOn generalizing s rest with
  | _ k ih =>
    rw [hashLoop]
    split
    · rename_i h
      have : rest = [] := by
        cases rest with
        | nil => rfl
        | cons x r => obtain ⟨m, rfl⟩ : ∃ m, n = m + 1 := ⟨n - 1, by omega⟩; simp at h
      rw [this, hH.empty]
    · rename_i b bs h
      have hne : rest ≠ [] := by rintro rfl; simp at h
      have := List.length_pos_iff.2 hne
      rw [ih (rest.drop n).length (by simp only [List.length_drop]; omega) _ _ rfl, hH.append, ← h, List.take_append_drop]

/-- Hashing in chunks equals hashing the whole content at once, for every content and chunk size. -/
theorem chunked_eq_whole (H : Hasher) (hH : Incremental H) (n : Nat) (hn : 0 < n) (content : List UInt8) :
    fileChecksum H n hn content = H.digest (H.update H.init content) := by
  unfold fileChecksum; rw [loop H hH]

/-- So the chunk size does not matter. -/
theorem chunk_size_irrelevant (H : Hasher) (hH : Incremental H) (m n : Nat) (hm : 0 < m) (hn : 0 < n) (content : List UInt8) :
    fileChecksum H m hm content = fileChecksum H n hn content := by
  rw [chunked_eq_whole H hH, chunked_eq_whole H hH]

/-! Non-vacuity: the hash object that records its input. -/
private def recorder : Hasher :=
  { σ := List UInt8, init := [], update := (· ++ ·), digest := fun l => l.map (fun b => Char.ofNat b.toNat) }
example : Incremental recorder := ⟨by simp [recorder], by simp [recorder]⟩
example : fileChecksum recorder 2 (by decide) [104, 97, 115, 104, 33] = s%"hash!" := by
  rw [chunked_eq_whole _ ⟨by simp [recorder], by simp [recorder]⟩]; decide

end Spdx.C21
