import Verif.Model.Writing
import Verif.Props.C47
import Verif.Props.C16
/-
C26: when validation is requested, writing an invalid document raises an error and produces no document text; without validation, or for
a valid document, the de-duplicated document is written. (The file named as target is nevertheless opened first.)
-/
namespace Spdx.C26
open Spdx

/-! Specification: `Spec.Valid` (the rules of the SPDX specification as read by the validators, see C47); the serialization of a document is
    `serialize`. -/

/-- The document handed to the serializer. -/
def prepared (X : Ext) (d : Document) (dropDuplicates : Bool) : Document := if dropDuplicates then dedupDocument X d else d

private theorem valid_iff (X : Ext) (d : Document) : validateDocument X d = [] ↔ Spec.Valid X d :=
  (C47.valid_iff X d none).trans (and_iff_left (.inl rfl))

/-- An invalid document is refused by every writer: the error carries all the messages, nothing goes to the stream. -/
theorem invalid_refused (E : WriteEnv) (fmt : FileFormat) (d : Document) (drop : Bool) (h : ¬ Spec.Valid E.ext d) :
    ∃ ms, ms ≠ [] ∧ ms = validateDocument E.ext d ∧
      writeToStream E fmt d true drop = { text := [], raised := some (.invalidDocument ms) } := by
  have hne : validateDocument E.ext d ≠ [] := fun he => h ((valid_iff E.ext d).mp he)
  refine ⟨_, hne, rfl, ?_⟩
  unfold writeToStream validateAndDeduplicate
  rw [if_pos rfl]
  cases hv : validateDocument E.ext d with
  | nil => exact absurd hv hne
  | cons m ms => rfl

/-- A valid document, or any document if validation is not asked for, is written: the stream gets the serialization of the prepared
    document and nothing else. -/
theorem written (E : WriteEnv) (fmt : FileFormat) (d : Document) (validate drop : Bool) (h : validate = true → Spec.Valid E.ext d) :
    writeToStream E fmt d validate drop = serialize E fmt (prepared E.ext d drop) := by
  unfold writeToStream validateAndDeduplicate
  cases validate with
  | false => rfl
  | true =>
    rw [if_pos rfl, (valid_iff E.ext d).mpr (h rfl)]
    rfl

/-- Together: text reaches the stream of a validating writer only if the document is valid. -/
theorem text_only_if_valid (E : WriteEnv) (fmt : FileFormat) (d : Document) (drop : Bool)
    (h : (writeToStream E fmt d true drop).text ≠ [] ∨ (writeToStream E fmt d true drop).raised = none) : Spec.Valid E.ext d := by
  by_cases hv : Spec.Valid E.ext d
  · exact hv
  · obtain ⟨ms, _, _, he⟩ := invalid_refused E fmt d drop hv
    rw [he] at h
    simp at h

/-- `write_file`: the format is chosen by the name; the duplicates are dropped; the file then has exactly the text, and no other file is
    touched. -/
theorem file_written (E : WriteEnv) (openFails : Str → Option Exc) (d : Document) (name : Str) (fmt : FileFormat) (validate : Bool) (w : World)
    (hn : fileNameToFormat name = .ok fmt) (ho : openFails name = none) (h : validate = true → Spec.Valid E.ext d) :
    let r := writeFileAny E openFails d name validate w
    r.1.files name = some (serialize E fmt (dedupDocument E.ext d)).text ∧ r.2 = (serialize E fmt (dedupDocument E.ext d)).raised ∧
      (∀ n, n ≠ name → r.1.files n = w.files n) ∧ r.1.stdout = w.stdout := by
  unfold writeFileAny writeToFile
  rw [hn]
  simp only [ho]
  rw [written E fmt d validate true h]
  exact ⟨if_pos rfl, rfl, fun n hne => if_neg hne, rfl⟩

/-- Refusing an invalid document nevertheless empties the file, whatever it held before. -/
theorem invalid_empties_file (E : WriteEnv) (openFails : Str → Option Exc) (d : Document) (name : Str) (fmt : FileFormat) (w : World)
    (hn : fileNameToFormat name = .ok fmt) (ho : openFails name = none) (h : ¬ Spec.Valid E.ext d) :
    let r := writeFileAny E openFails d name true w
    r.2 = some (.invalidDocument (validateDocument E.ext d)) ∧ r.1.files name = some [] ∧ (∀ n, n ≠ name → r.1.files n = w.files n) := by
  unfold writeFileAny writeToFile
  rw [hn]
  simp only [ho]
  obtain ⟨ms, _, rfl, he⟩ := invalid_refused E fmt d true h
  rw [he]
  exact ⟨rfl, if_pos rfl, fun n hne => if_neg hne⟩

/-- A name without a known ending, or that cannot be opened, changes nothing and raises. -/
theorem refused_untouched (E : WriteEnv) (openFails : Str → Option Exc) (d : Document) (name : Str) (validate : Bool) (w : World)
    (h : (∀ fmt, fileNameToFormat name ≠ .ok fmt) ∨ openFails name ≠ none) :
    (writeFileAny E openFails d name validate w).1 = w ∧ (writeFileAny E openFails d name validate w).2 ≠ none := by
  unfold writeFileAny
  cases hn : fileNameToFormat name with
  | error e => exact ⟨rfl, by simp⟩
  | ok fmt =>
    rcases h with h | h
    · exact absurd hn (h fmt)
    · simp only [writeToFile]
      cases ho : openFails name with
      | none => exact absurd ho h
      | some e => exact ⟨rfl, by simp⟩

/-- Serializing to JSON, YAML and XML writes nothing when the document cannot be represented; the tag-value writer stops in the middle. -/
theorem unrepresentable_tree (E : WriteEnv) (fmt : FileFormat) (d : Document) (hf : fmt = .JSON ∨ fmt = .YAML ∨ fmt = .XML)
    (h : documentToJson E.lic d = none) : serialize E fmt d = { text := [], raised := some .unrepresentable } := by
  rcases hf with rfl | rfl | rfl <;> simp [serialize, h]

/-! Cases -/

def env : WriteEnv :=
  { ext := Example.ext, lic := { render := fun _ => s%"MIT", parse := fun _ => some (some (.sym s%"MIT")) },
    dump := { json := fun _ => { text := s%"{}" }, yaml := fun _ => { text := s%"a" }, xml := fun _ => { text := s%"<a/>" },
              rdf := fun _ => { text := s%"<r/>" } } }

/-- An invalid document: a file without checksum. -/
def invalid : Document := { Example.doc with files := [{ Example.file with checksums := [] }] }

example : ¬ Spec.Valid env.ext invalid := fun h => absurd ((valid_iff _ _).mpr h) (by decide +kernel)
example : Spec.Valid env.ext Example.doc := (valid_iff _ _).mp (by decide +kernel)

/-- Some text is written in tag-value, without an exception. -/
example : (writeToStream env .TAG_VALUE Example.doc true true).raised = none ∧
    (writeToStream env .TAG_VALUE Example.doc true true).text.take 23 = s%"## Document Information" := by
  decide +kernel

example : (writeFileAny env (fun _ => none) invalid s%"a.spdx" true { files := fun _ => some s%"old" }).1.files s%"a.spdx" = some [] := by
  decide +kernel

/-- The tag-value writer has written the beginning of the file when a date turns out to be unrepresentable. -/
example : let d := { Example.doc with creationInfo := { Example.info with created := { year := 1, month := 1, day := 1, tz := some 3600 } } }
    let r := writeToStream env .TAG_VALUE d false true
    r.raised = some .unrepresentable ∧ r.text ≠ [] := by
  decide +kernel

end Spdx.C26
