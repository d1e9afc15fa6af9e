import Verif.Model.ChecksumNames
import Verif.Lemmas.Text
/-
C06 – Checksum algorithm names round-trip in all formats.
-/
namespace Spdx.C06
open Spdx

/-! ### Specification: the names prescribed by the SPDX specification for JSON/YAML/XML and tag-value, and for RDF -/

def specName : ChecksumAlgorithm → Str
  | .SHA1 => s%"SHA1" | .SHA224 => s%"SHA224" | .SHA256 => s%"SHA256" | .SHA384 => s%"SHA384" | .SHA512 => s%"SHA512"
  | .SHA3_256 => s%"SHA3-256" | .SHA3_384 => s%"SHA3-384" | .SHA3_512 => s%"SHA3-512"
  | .BLAKE2B_256 => s%"BLAKE2b-256" | .BLAKE2B_384 => s%"BLAKE2b-384" | .BLAKE2B_512 => s%"BLAKE2b-512"
  | .BLAKE3 => s%"BLAKE3" | .MD2 => s%"MD2" | .MD4 => s%"MD4" | .MD5 => s%"MD5" | .MD6 => s%"MD6"
  | .ADLER32 => s%"ADLER32"

/-! ### Theorems -/

/-- JSON, YAML and XML use the prescribed names. -/
theorem json_name (a : ChecksumAlgorithm) : algorithmToJson a = specName a := by
  cases a <;> decide +kernel

theorem json_roundtrip (a : ChecksumAlgorithm) : algorithmFromJson (algorithmToJson a) = some a := by
  cases a <;> decide +kernel

/-- Tag-value uses the prescribed names too; there is a conversion rule for every algorithm. -/
theorem tv_name (a : ChecksumAlgorithm) : algorithmToTv a = some (specName a) := by
  cases a <;> decide +kernel

theorem rdf_roundtrip (a : ChecksumAlgorithm) : algorithmFromRdf (algorithmToRdf a) = some a := by
  cases a <;> decide +kernel

/-- A tag-value checksum line is read back as the same checksum, for values that contain no colon and are not surrounded by
    white space (in particular for every string of hex digits). -/
theorem tv_roundtrip (c : Checksum) (h : ':' ∉ c.value) (ht : strip c.value = c.value) :
    (checksumToTv c).bind checksumFromTv = some c := by
  obtain ⟨a, v⟩ := c
  simp only at h ht
  simp only [checksumToTv, tv_name, Option.map_some, Option.bind_some]
  have hs : splitOn ':' (specName a ++ s%": " ++ v) = [specName a, ' ' :: v] := by
    have hn : ':' ∉ specName a := by cases a <;> decide
    rw [show specName a ++ s%": " ++ v = specName a ++ ':' :: (' ' :: v) by simp]
    exact (splitOn_two _ _ _ _).2 ⟨rfl, hn, by simpa using h⟩
  have hv : strip (' ' :: v) = v := by
    rw [← ht]
    have : isPySpace ' ' = true := by decide
    unfold strip lstrip
    rw [List.dropWhile_cons, if_pos this]
    exact strip_trimmed v
  unfold checksumFromTv
  rw [hs]
  simp only [hv]
  have hr : ChecksumAlgorithm.ofName? (replaceChar '-' ['_'] (upperAscii (specName a))) = some a := by
    cases a <;> decide +kernel
  rw [hr]; rfl

theorem tv_names_distinct (a b : ChecksumAlgorithm) (h : algorithmToTv a = algorithmToTv b) : a = b := by
  cases a <;> cases b <;> first | rfl | (exfalso; revert h; decide +kernel)

theorem json_names_distinct (a b : ChecksumAlgorithm) (h : algorithmToJson a = algorithmToJson b) : a = b := by
  have := congrArg algorithmFromJson h
  rw [json_roundtrip, json_roundtrip] at this
  simpa using this

theorem rdf_names_distinct (a b : ChecksumAlgorithm) (h : algorithmToRdf a = algorithmToRdf b) : a = b := by
  have := congrArg algorithmFromRdf h
  rw [rdf_roundtrip, rdf_roundtrip] at this
  simpa using this

/-- Without the condition on the value the tag-value round trip is false. -/
theorem tv_colon_fails : (checksumToTv { algorithm := .SHA1, value := s%"a:b" }).bind checksumFromTv = none := by
  decide +kernel

/-! Non-vacuity -/
example : ':' ∉ s%"d6a770ba38583ed4bb4525bd96e50461655d2758" ∧
    strip s%"d6a770ba38583ed4bb4525bd96e50461655d2758" = s%"d6a770ba38583ed4bb4525bd96e50461655d2758" := by
  decide +kernel
example : algorithmToRdf .BLAKE2B_256 = s%"http://spdx.org/rdf/terms#checksumAlgorithm_blake2b256" := by decide +kernel

end Spdx.C06
