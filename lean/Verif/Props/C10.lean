import Verif.Lemmas.Messages
import Verif.Spec.Example
/-
C10 – Unsupported or mismatched version cancels validation.
-/
namespace Spdx.C10
open Spdx Spec

/-- Context of the document-level messages. -/
def docCtx (d : Document) : Ctx := { spdxId := some d.creationInfo.spdxId, elementType := some .DOCUMENT }

/-- Unsupported version: exactly two messages. -/
theorem unsupported (X : Ext) (d : Document) (ver : Option Str)
    (h : d.creationInfo.spdxVersion ≠ s%"SPDX-2.2") (h' : d.creationInfo.spdxVersion ≠ s%"SPDX-2.3") :
    validateDocument X d ver =
      [⟨.versionUnsupported d.creationInfo.spdxVersion, docCtx d⟩, ⟨.cancelled, docCtx d⟩] := by
  have e : versionMsgs d ver = [⟨.versionUnsupported d.creationInfo.spdxVersion, docCtx d⟩] := by
    unfold versionMsgs
    simp only
    rw [if_pos]; · rfl
    simp [v22, v23, h, h']
  unfold validateDocument
  rw [e]; rfl

/-- A known version that differs from the (nonempty) version asked for: exactly two messages. -/
theorem mismatch (X : Ext) (d : Document) (v : Str)
    (h : d.creationInfo.spdxVersion = s%"SPDX-2.2" ∨ d.creationInfo.spdxVersion = s%"SPDX-2.3")
    (hv : v ≠ []) (hne : v ≠ d.creationInfo.spdxVersion) :
    validateDocument X d (some v) =
      [⟨.versionMismatch v d.creationInfo.spdxVersion, docCtx d⟩, ⟨.cancelled, docCtx d⟩] := by
  have e : versionMsgs d (some v) = [⟨.versionMismatch v d.creationInfo.spdxVersion, docCtx d⟩] := by
    unfold versionMsgs
    simp only
    rw [if_neg, if_pos]
    · simp [hv, docCtx]
    · simpa [hv] using hne
    · rcases h with h | h <;> simp [v22, v23, h]
  unfold validateDocument
  rw [e]; rfl

/-- Otherwise nothing is cancelled and every part of the document is validated: the messages are those of the creation information,
    then of each package, file, snippet, annotation, relationship and extracted license in turn, then the two document-wide checks. -/
theorem otherwise (X : Ext) (d : Document) (ver : Option Str)
    (h : d.creationInfo.spdxVersion = s%"SPDX-2.2" ∨ d.creationInfo.spdxVersion = s%"SPDX-2.3")
    (hv : ver = none ∨ ver = some [] ∨ ver = some d.creationInfo.spdxVersion) :
    let v := d.creationInfo.spdxVersion
    validateDocument X d ver =
      validateCreationInfo X d.creationInfo v ++
      (d.packages.map (validatePackageInDocument X · v d)).flatten ++
      (d.files.map (validateFileInDocument X · v d)).flatten ++
      (d.snippets.map (validateSnippetInDocument X · v d)).flatten ++
      (d.annotations.map (validateAnnotation · d)).flatten ++
      (d.relationships.map (validateRelationship · v d)).flatten ++
      (d.extractedLicensingInfo.map (validateExtracted X)).flatten ++ describesMsgs d ++ duplicateMsgs d ∧
    ∀ m ∈ validateDocument X d ver, m.msg ≠ .cancelled := by
  have e : validateDocument X d ver = partMsgs X d ++ describesMsgs d ++ duplicateMsgs d := by
    unfold validateDocument; rw [(versionMsgs_nil d ver).2 ⟨h, hv⟩]
  refine ⟨by rw [e]; simp only [partMsgs, List.flatMap_def], ?_⟩
  rw [e]
  intro m hm he
  rcases List.mem_append.1 hm with hm | hm
  · rcases List.mem_append.1 hm with hm | hm
    · have := local_parts X d m hm; rw [he] at this; simp [Msg.isGlobal] at this
    · have := mem_msgIf hm; rw [he] at this; simp at this
  · have := mem_msgIf hm; rw [he] at this; simp at this

/-- An empty version argument counts as none. -/
theorem empty_version (X : Ext) (d : Document) : validateDocument X d (some []) = validateDocument X d none := by
  unfold validateDocument versionMsgs; simp

/-! Non-vacuity -/
example : Example.doc.creationInfo.spdxVersion = s%"SPDX-2.3" ∧ s%"SPDX-2.2" ≠ Example.doc.creationInfo.spdxVersion := by decide
example : ((validateDocument Example.ext Example.doc (some s%"SPDX-2.2")).map (·.msg)) =
    [.versionMismatch s%"SPDX-2.2" s%"SPDX-2.3", .cancelled] := by decide +kernel
example : validateDocument Example.ext Example.doc (some s%"SPDX-2.3") = [] := by decide +kernel

end Spdx.C10
