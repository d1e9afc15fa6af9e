import Verif.Lemmas.Validation
/-
C07 – Checksum validation decides exactly the documented digests.
-/
namespace Spdx.C07
open Spdx Spec

/-! ### Specification -/

/-- Digest length in bits of the algorithms with a fixed length. -/
def digestBits : ChecksumAlgorithm → Option Nat
  | .SHA1 => some 160
  | .SHA224 => some 224
  | .SHA256 | .SHA3_256 | .BLAKE2B_256 => some 256
  | .SHA384 | .SHA3_384 | .BLAKE2B_384 => some 384
  | .SHA512 | .SHA3_512 | .BLAKE2B_512 => some 512
  | .MD2 | .MD4 | .MD5 => some 128
  | .ADLER32 => some 32
  | .BLAKE3 | .MD6 => none

/-! ### Theorems -/

/-- The exact set of checksums the code accepts, for every algorithm, value and version. -/
theorem accepts_iff (c : Checksum) (parent ver : Str) :
    validateChecksum c parent ver = [] ↔
      ¬ (ver = s%"SPDX-2.2" ∧ Only23 c.algorithm) ∧
      OrNewline (fun v => LowerHex v ∧ HexDigits c.algorithm v.length) c.value :=
  validateChecksum_nil c parent ver

/-- For all algorithms of fixed length and values without a final newline, this is the documented rule: lower-case hex digits, four
    bits each, of exactly the digest's length, and an algorithm that the SPDX version knows.
    (Missing for the full property: BLAKE3 and MD6, and values ending in a newline; see the two theorems below.) -/
theorem documented_partial (c : Checksum) (parent ver : Str) (bits : Nat) (hb : digestBits c.algorithm = some bits)
    (hn : c.value.getLast? ≠ some '\n') :
    validateChecksum c parent ver = [] ↔
      (ver = s%"SPDX-2.2" → ¬ Only23 c.algorithm) ∧ LowerHex c.value ∧ 4 * c.value.length = bits := by
  rw [accepts_iff, not_and]
  refine and_congr Iff.rfl ?_
  have e1 : OrNewline (fun v => LowerHex v ∧ HexDigits c.algorithm v.length) c.value ↔
      LowerHex c.value ∧ HexDigits c.algorithm c.value.length := by
    constructor
    · rintro (h | ⟨t, ht, -⟩)
      · exact h
      · exfalso; apply hn; rw [ht]; simp
    · exact .inl
  rw [e1]
  refine and_congr Iff.rfl ?_
  revert hb
  generalize c.value.length = n
  cases c.algorithm <;> simp only [digestBits, HexDigits, Option.some.injEq, reduceCtorEq] <;> intro h <;>
    first | exact h.elim | omega

/-- At most one message per checksum, and it names the algorithm. -/
theorem one_message (c : Checksum) (parent ver : Str) (m : VMsg) (h : m ∈ validateChecksum c parent ver) :
    validateChecksum c parent ver = [m] ∧
      (m.msg = .checksumUnsupported22 c.algorithm ∨ m.msg = .checksumValue c.algorithm c.value) := by
  unfold validateChecksum msgIf at h ⊢
  split at h
  · rename_i h0; simp only [List.mem_singleton] at h; rw [if_pos h0, h]; exact ⟨rfl, .inl rfl⟩
  · rename_i h0
    split at h
    · rename_i h1; simp only [List.mem_singleton] at h; rw [if_neg h0, if_pos h1, h]; exact ⟨rfl, .inr rfl⟩
    · simp at h

/-- The documented rule is false for BLAKE3: every 256-bit digest (64 hex digits) is rejected, because the bound
    "at least 256" is applied to hex digits. -/
theorem blake3_digest_rejected (v parent ver : Str) (hl : v.length = 64) :
    validateChecksum { algorithm := .BLAKE3, value := v } parent ver ≠ [] := by
  intro h
  rw [accepts_iff] at h
  rcases h.2 with ⟨-, h⟩ | ⟨t, rfl, -, h⟩
  · simp only [HexDigits, hl] at h; omega
  · simp only [List.length_append, List.length_singleton] at hl; simp only [HexDigits] at h; omega

/-- MD6 digests have at most 512 bits (128 hex digits), but up to 512 hex digits are accepted. -/
theorem md6_too_long_accepted (parent : Str) :
    validateChecksum { algorithm := .MD6, value := List.replicate 512 'a' } parent s%"SPDX-2.3" = [] := by
  rw [accepts_iff]
  refine ⟨fun h => absurd h.1 (by decide), .inl ⟨?_, ?_⟩⟩
  rotate_left
  · show (List.replicate 512 'a').length ≤ 512
    rw [List.length_replicate]; exact Nat.le_refl _
  intro c hc
  rw [List.eq_of_mem_replicate hc]; decide

/-- A final newline is accepted. -/
theorem newline_accepted (parent : Str) :
    validateChecksum { algorithm := .ADLER32, value := s%"00000001\n" } parent s%"SPDX-2.3" = [] := by
  rw [accepts_iff]
  exact ⟨fun h => absurd h.1 (by decide), .inr ⟨s%"00000001", rfl, by unfold LowerHex; decide, rfl⟩⟩

/-! Non-vacuity -/
example : digestBits .SHA1 = some 160 ∧ (s%"d6a770ba38583ed4bb4525bd96e50461655d2758").getLast? ≠ some '\n' := by decide
example : validateChecksum { algorithm := .SHA1, value := s%"d6a770ba38583ed4bb4525bd96e50461655d2758" } s%"SPDXRef-A" v22 = [] := by
  decide +kernel
example : validateChecksum { algorithm := .SHA1, value := s%"D6a770ba38583ed4bb4525bd96e50461655d2758" } s%"SPDXRef-A" v22 ≠ [] := by
  decide +kernel
example : validateChecksum { algorithm := .ADLER32, value := s%"00000001" } s%"SPDXRef-A" v22 ≠ [] := by decide +kernel

end Spdx.C07
