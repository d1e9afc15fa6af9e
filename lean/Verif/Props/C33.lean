import Verif.Model.Bump
import Verif.Spec.Example
/-
C33 – Every SPDX 2 checksum algorithm maps to an SPDX 3 hash algorithm, keeping the value; only ADLER32 loses its name.
-/
namespace Spdx.C33
open Spdx

/-! ### Specification -/

/-- The SPDX 3 name of each SPDX 2 algorithm that SPDX 3 knows. -/
def hashName : ChecksumAlgorithm → Option Str
  | .SHA1 => some s%"SHA1" | .SHA224 => some s%"SHA224" | .SHA256 => some s%"SHA256" | .SHA384 => some s%"SHA384"
  | .SHA512 => some s%"SHA512" | .SHA3_256 => some s%"SHA3_256" | .SHA3_384 => some s%"SHA3_384" | .SHA3_512 => some s%"SHA3_512"
  | .BLAKE2B_256 => some s%"BLAKE2B256" | .BLAKE2B_384 => some s%"BLAKE2B384" | .BLAKE2B_512 => some s%"BLAKE2B512"
  | .BLAKE3 => some s%"BLAKE3" | .MD2 => some s%"MD2" | .MD4 => some s%"MD4" | .MD5 => some s%"MD5" | .MD6 => some s%"MD6"
  | .ADLER32 => none

/-! ### Theorems -/

/-- No algorithm makes the lookup fail; the member found has the algorithm's name, ADLER32 becomes OTHER. -/
theorem algorithm (a : ChecksumAlgorithm) : ∃ h, bumpAlgorithm a = some h ∧
    h.name = (match hashName a with | some n => n | none => s%"OTHER") := by
  have h : ∀ o : Option HashAlgorithm, ∀ n : Str, o.map HashAlgorithm.name = some n → ∃ h, o = some h ∧ h.name = n := by
    intro o n ho
    cases o with
    | none => simp at ho
    | some h => exact ⟨h, rfl, by simpa using ho⟩
  exact h _ _ (by cases a <;> decide +kernel)

/-- Different algorithms stay different. -/
theorem injective (a b : ChecksumAlgorithm) (h : bumpAlgorithm a = bumpAlgorithm b) : a = b := by
  cases a <;> cases b <;> first | rfl | (revert h; decide +kernel)

/-- Only ADLER32 loses its name. -/
theorem other_iff (a : ChecksumAlgorithm) : bumpAlgorithm a = some .OTHER ↔ a = .ADLER32 := by
  cases a <;> decide +kernel

/-- A checksum becomes exactly one hash with the same value. -/
theorem checksum (c : Checksum) : ∃ h, bumpChecksum c = [h] ∧ bumpAlgorithm c.algorithm = some h.algorithm ∧ h.hashValue = c.value := by
  obtain ⟨a, ha, _⟩ := algorithm c.algorithm
  exact ⟨⟨a, c.value⟩, by simp [bumpChecksum, ha], ha, rfl⟩

private theorem list (cs : List Checksum) : (cs.flatMap bumpChecksum).length = cs.length ∧
    ∀ (i : Nat) (c : Checksum), cs[i]? = some c → ∃ h, (cs.flatMap bumpChecksum)[i]? = some h ∧
      bumpAlgorithm c.algorithm = some h.algorithm ∧ h.hashValue = c.value := by
  induction cs with
  | nil => simp
  | cons c cs ih =>
    obtain ⟨h, hh, ha, hv⟩ := checksum c
    simp only [List.flatMap_cons, hh, List.cons_append, List.nil_append, List.length_cons, ih.1, true_and]
    intro i c' hc
    cases i with
    | zero =>
      simp only [List.getElem?_cons_zero, Option.some.injEq] at hc
      subst hc
      exact ⟨h, rfl, ha, hv⟩
    | succ i => exact ih.2 i c' (by simpa using hc)

/-- The hashes of a migrated package are those of the package, in the same order. -/
theorem package_hashes (ns id : Str) (p : Package) (q : Package3) (h : bumpedPackage ns id p = .ok q) :
    q.verifiedUsing.length = p.checksums.length ∧
    ∀ (i : Nat) (c : Checksum), p.checksums[i]? = some c → ∃ h, q.verifiedUsing[i]? = some h ∧
      bumpAlgorithm c.algorithm = some h.algorithm ∧ h.hashValue = c.value := by
  have : q.verifiedUsing = p.checksums.flatMap bumpChecksum := by
    simp only [bumpedPackage] at h
    split at h <;> cases h <;> rfl
  rw [this]
  exact list _

/-- The hashes of a migrated file are those of the file, in the same order. -/
theorem file_hashes (id : Str) (f : File) :
    (bumpedFile id f).verifiedUsing.length = f.checksums.length ∧
    ∀ (i : Nat) (c : Checksum), f.checksums[i]? = some c → ∃ h, (bumpedFile id f).verifiedUsing[i]? = some h ∧
      bumpAlgorithm c.algorithm = some h.algorithm ∧ h.hashValue = c.value := list _

/-- The checksum of an external document is kept. -/
theorem external_document_hash (r : ExternalDocumentRef) : ∃ h, (bumpExternalDocumentRef r).2.verifiedUsing = [h] ∧
    bumpAlgorithm r.checksum.algorithm = some h.algorithm ∧ h.hashValue = r.checksum.value := checksum _

/-! Non-vacuity -/
example : ∃ q, bumpedPackage s%"https://e.org/d" s%"x" Example.package = .ok q ∧ q.verifiedUsing = [⟨.SHA1, Example.sha.value⟩] :=
  ⟨_, rfl, by decide +kernel⟩
example : bumpChecksum { algorithm := .BLAKE2B_384, value := s%"ab" } = [⟨.BLAKE2B384, s%"ab"⟩] := by decide +kernel

end Spdx.C33
