import Verif.Lemmas.Messages
import Verif.Spec.Example
/-
C09 – Duplicate identifiers are always reported.
-/
namespace Spdx.C09
open Spdx Spec

/-! ### Specification -/

/-- The version checks pass: the document's version is known, and it is the one asked for (if one is). -/
def VersionOk (d : Document) (ver : Option Str) : Prop :=
  (d.creationInfo.spdxVersion = s%"SPDX-2.2" ∨ d.creationInfo.spdxVersion = s%"SPDX-2.3") ∧
  (ver = none ∨ ver = some [] ∨ ver = some d.creationInfo.spdxVersion)

/-- `id` is the identifier of two different elements (positions in the list of all elements). -/
def Shared (d : Document) (id : Str) : Prop := 2 ≤ (elementIds d).count id

/-! ### Theorems -/

private theorem unfoldOk {X : Ext} {d : Document} {ver : Option Str} (h : VersionOk d ver) :
    validateDocument X d ver = partMsgs X d ++ describesMsgs d ++ duplicateMsgs d := by
  unfold validateDocument; rw [(versionMsgs_nil d ver).2 h]

private theorem count_allIds (d : Document) (id : Str) : (allSpdxIds d).count id = (elementIds d).count id :=
  (elementIds_perm d).count_eq id

/-- The problem is reported exactly when some identifier is shared, and the message lists exactly the shared identifiers. -/
theorem reported_iff (X : Ext) (d : Document) (ver : Option Str) (h : VersionOk d ver) (ids : List Str) :
    (∃ m ∈ validateDocument X d ver, m.msg = .duplicateIds ids) ↔
      ((∃ id, Shared d id) ∧ ids = duplicatedIds (allSpdxIds d)) := by
  have hs : (∃ id, Shared d id) ↔ duplicatedIds (allSpdxIds d) ≠ [] := by
    have e : ∀ id, Shared d id ↔ id ∈ duplicatedIds (allSpdxIds d) := by
      intro id; rw [mem_duplicatedIds, count_allIds]; rfl
    simp only [e]
    constructor
    · rintro ⟨id, h⟩ h'; rw [h'] at h; simp at h
    · exact List.exists_mem_of_ne_nil _
  rw [unfoldOk h, hs]
  constructor
  · rintro ⟨m, hm, he⟩
    rcases List.mem_append.1 hm with hm | hm
    · exfalso
      rcases List.mem_append.1 hm with hm | hm
      · have := local_parts X d m hm; rw [he] at this; simp [Msg.isGlobal] at this
      · have := mem_msgIf hm; rw [he] at this; simp at this
    · unfold duplicateMsgs msgIf at hm
      split at hm
      · rename_i hne
        simp only [List.mem_singleton] at hm
        subst hm
        exact ⟨hne, (Msg.duplicateIds.inj he).symm⟩
      · simp at hm
  · rintro ⟨hne, rfl⟩
    refine ⟨⟨.duplicateIds (duplicatedIds (allSpdxIds d)), { spdxId := some d.creationInfo.spdxId, elementType := some .DOCUMENT }⟩,
      List.mem_append.2 (.inr ?_), rfl⟩
    unfold duplicateMsgs msgIf
    rw [if_pos hne]; simp

private theorem nodup_eraseDups (l : List Str) : l.eraseDups.Nodup := by
  generalize hn : l.length = n
  induction n using Nat.strongRecOn generalizing l with
  | _ n ih =>
    match l with
    | [] => simp
    | a :: as =>
      rw [List.eraseDups_cons, List.nodup_cons]
      refine ⟨?_, ih _ ?_ _ rfl⟩
      · rw [List.mem_eraseDups]; simp
      · have := List.length_filter_le (fun b => !b == a) as
        simp only [List.length_cons] at hn; omega

/-- The list in the message consists of the shared identifiers, in ascending order, each once. -/
theorem listed (d : Document) (id : Str) : id ∈ duplicatedIds (allSpdxIds d) ↔ Shared d id := by
  rw [mem_duplicatedIds, count_allIds]; rfl

theorem listed_once (d : Document) : (duplicatedIds (allSpdxIds d)).Nodup := by
  unfold duplicatedIds
  exact (sortStr_perm _).nodup_iff.2 (nodup_eraseDups _)

theorem listed_sorted (d : Document) : (duplicatedIds (allSpdxIds d)).Pairwise (fun a b => a ≤ b) := sortStr_sorted _

/-- Some identifier is shared exactly when the identifiers are not pairwise distinct. -/
theorem shared_iff (d : Document) : (∃ id, Shared d id) ↔ ¬ (elementIds d).Nodup := by
  rw [List.nodup_iff_count]
  simp only [Classical.not_forall, Nat.not_le]
  exact exists_congr fun id => Iff.rfl

/-! Non-vacuity -/
example : VersionOk Example.doc none := ⟨.inr rfl, .inl rfl⟩
private def twice : Document := { Example.doc with files := [Example.file, { Example.file with spdxId := s%"SPDXRef-Package" }] }
example : duplicatedIds (allSpdxIds twice) = [s%"SPDXRef-Package"] ∧ Shared twice s%"SPDXRef-Package" := by
  refine ⟨by decide +kernel, by unfold Shared; decide +kernel⟩

end Spdx.C09
