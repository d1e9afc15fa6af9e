import Verif.Lemmas.Messages
import Verif.Spec.Example
/-
C11 – A valid document describes something.
-/
namespace Spdx.C11
open Spdx Spec

/-- The property, stated for the document's actual relationships. -/
theorem valid_describes (X : Ext) (d : Document) (ver : Option Str) (h : validateDocument X d ver = []) :
    (d.packages.length = 1 ∧ d.files = [] ∧ d.snippets = []) ∨
    (∃ r ∈ d.relationships, r.relationshipType = .DESCRIBES ∧ r.spdxElementId = s%"SPDXRef-DOCUMENT") ∨
    (∃ r ∈ d.relationships, r.relationshipType = .DESCRIBED_BY ∧ r.relatedSpdxElementId = .val s%"SPDXRef-DOCUMENT") := by
  have v := ((validateDocument_nil X d ver).1 h).1
  have hid := v.parts.creationInfo.1
  rcases v.describes with h | ⟨r, hr, h | h⟩
  · exact .inl h
  · exact .inr (.inl ⟨r, hr, h.1, hid ▸ h.2⟩)
  · exact .inr (.inr ⟨r, hr, h.1, hid ▸ h.2⟩)

/-- The message is reported exactly when the rule is broken (for documents of a known version). -/
theorem reported_iff (X : Ext) (d : Document) (ver : Option Str)
    (h : d.creationInfo.spdxVersion = s%"SPDX-2.2" ∨ d.creationInfo.spdxVersion = s%"SPDX-2.3")
    (hv : ver = none ∨ ver = some [] ∨ ver = some d.creationInfo.spdxVersion) :
    (∃ m ∈ validateDocument X d ver, m.msg = .noDescribes d.creationInfo.spdxId) ↔ ¬ DescribesRule d := by
  have e : validateDocument X d ver = partMsgs X d ++ describesMsgs d ++ duplicateMsgs d := by
    unfold validateDocument; rw [(versionMsgs_nil d ver).2 ⟨h, hv⟩]
  rw [e, ← describesMsgs_nil]
  constructor
  · rintro ⟨m, hm, he⟩ hn
    rw [hn, List.append_nil] at hm
    rcases List.mem_append.1 hm with hm | hm
    · have := local_parts X d m hm; rw [he] at this; simp [Msg.isGlobal] at this
    · have := mem_msgIf hm; rw [he] at this; simp at this
  · intro hn
    obtain ⟨m, hm⟩ := List.exists_mem_of_ne_nil _ hn
    exact ⟨m, List.mem_append.2 (.inl (List.mem_append.2 (.inr hm))), mem_msgIf hm⟩

/-! Non-vacuity -/
example : validateDocument Example.ext Example.doc none = [] := by decide +kernel
example : ((validateDocument Example.ext { Example.doc with relationships := [] } none).map (·.msg)) =
    [.noDescribes s%"SPDXRef-DOCUMENT"] := by decide +kernel

end Spdx.C11
