import Verif.Lemmas.Faults
import Verif.Spec.Same
import Verif.Spec.Example
/-
C75 — Exactly which messages an invalid document is refused with.

`Verif/Spec/Faults.lean` says when each message is due and what it points at.
-/
namespace Spdx.C75
open Spdx Spec

/-- The version the user asks for is the document's, or the user asks for none. -/
def Asked (d : Document) (ver : Option Str) : Prop := ver = none ∨ ver = some [] ∨ ver = some d.creationInfo.spdxVersion

/-- The version of the document is one of the two supported. -/
def Supported (d : Document) : Prop := d.creationInfo.spdxVersion = s%"SPDX-2.2" ∨ d.creationInfo.spdxVersion = s%"SPDX-2.3"

private theorem supported_iff (d : Document) : [v22, v23].contains d.creationInfo.spdxVersion = true ↔ Supported d := by
  simp [Supported, v22, v23]

private theorem go_on {X : Ext} {d : Document} {ver : Option Str} (hs : Supported d) (ha : Asked d ver) :
    validateDocument X d ver = partMsgs X d ++ describesMsgs d ++ duplicateMsgs d := by
  have : versionMsgs d ver = [] := by
    unfold versionMsgs
    simp only []
    rw [if_neg (by rw [supported_iff]; exact fun h => h hs)]
    rcases ha with rfl | rfl | rfl
    · simp
    · simp
    · simp
  unfold validateDocument
  rw [this]

/-- A message is among those returned exactly when it is due. -/
theorem message_iff (X : Ext) (d : Document) (ver : Option Str) (hs : Supported d) (ha : Asked d ver) (m : Msg) (c : Ctx) :
    (⟨m, c⟩ : VMsg) ∈ validateDocument X d ver ↔ Fault X (d.creationInfo.spdxVersion = s%"SPDX-2.2") d m c := by
  rw [go_on hs ha]; exact in_document

/-- A document of another version gets two messages: that, and that nothing else was looked at. -/
theorem unsupported (X : Ext) (d : Document) (ver : Option Str) (hs : ¬ Supported d) :
    validateDocument X d ver = [⟨.versionUnsupported d.creationInfo.spdxVersion, atDocument d⟩, ⟨.cancelled, atDocument d⟩] := by
  have : versionMsgs d ver = [⟨.versionUnsupported d.creationInfo.spdxVersion, atDocument d⟩] := by
    unfold versionMsgs
    simp only []
    rw [if_pos (by rw [supported_iff]; exact hs)]; rfl
  unfold validateDocument
  rw [this]; rfl

/-- So does one that is not of the version asked for. -/
theorem mismatch (X : Ext) (d : Document) (v : Str) (hs : Supported d) (hv : v ≠ []) (hd : v ≠ d.creationInfo.spdxVersion) :
    validateDocument X d (some v) =
      [⟨.versionMismatch v d.creationInfo.spdxVersion, atDocument d⟩, ⟨.cancelled, atDocument d⟩] := by
  have : versionMsgs d (some v) = [⟨.versionMismatch v d.creationInfo.spdxVersion, atDocument d⟩] := by
    unfold versionMsgs
    simp only []
    rw [if_neg (by rw [supported_iff]; exact fun h => h hs), if_neg hv, if_pos hd]; rfl
  unfold validateDocument
  rw [this]; rfl

/-- One of the three cases always applies. -/
theorem cases_complete (d : Document) (ver : Option Str) :
    ¬ Supported d ∨ (Supported d ∧ Asked d ver) ∨ ∃ v, ver = some v ∧ Supported d ∧ v ≠ [] ∧ v ≠ d.creationInfo.spdxVersion := by
  by_cases hs : Supported d
  · right
    cases ver with
    | none => exact .inl ⟨hs, .inl rfl⟩
    | some v =>
      by_cases h1 : v = []
      · exact .inl ⟨hs, .inr (.inl (by rw [h1]))⟩
      · by_cases h2 : v = d.creationInfo.spdxVersion
        · exact .inl ⟨hs, .inr (.inr (by rw [h2]))⟩
        · exact .inr ⟨v, rfl, hs, h1, h2⟩
  · exact .inl hs

/-- The valid documents are those for which no message is due. -/
theorem valid_iff_no_fault (X : Ext) (d : Document) :
    Valid X d ↔ Supported d ∧ ∀ m c, ¬ Fault X (d.creationInfo.spdxVersion = s%"SPDX-2.2") d m c := by
  have hv := validateDocument_nil X d none
  constructor
  · intro h
    have hs : Supported d := h.version
    refine ⟨hs, fun m c hf => ?_⟩
    have := (message_iff X d none hs (.inl rfl) m c).2 hf
    rw [hv.2 ⟨h, .inl rfl⟩] at this
    cases this
  · rintro ⟨hs, h⟩
    refine (hv.1 ?_).1
    cases hm : validateDocument X d none with
    | nil => rfl
    | cons v l =>
      obtain ⟨m, c⟩ := v
      exact absurd ((message_iff X d none hs (.inl rfl) m c).1 (by rw [hm]; simp)) (h m c)

/-- The messages come one entry after the other: for each entry, in the order of the list, those due for it. -/
def Grouped (F : α → Msg → Ctx → Prop) (l : List α) (ms : List VMsg) : Prop :=
  ∃ mss, ms = mss.flatten ∧ All2 (fun a ms => ∀ m c, (⟨m, c⟩ : VMsg) ∈ ms ↔ F a m c) l mss

private theorem grouped {F : α → Msg → Ctx → Prop} {f : α → List VMsg} (h : ∀ a m c, (⟨m, c⟩ : VMsg) ∈ f a ↔ F a m c) (l : List α) :
    Grouped F l (l.flatMap f) := by
  refine ⟨l.map f, by rw [List.flatMap_def], ?_⟩
  induction l with
  | nil => exact .nil
  | cons a l ih => exact .cons (h a) ih

private theorem at_most_one (c : Prop) [Decidable c] (m : Msg) (x : Ctx) : (msgIf c m x).length ≤ 1 := by
  unfold msgIf; split <;> simp

/-- The messages about the creation information come first, then those about each package, each file, each snippet, each annotation, each
    relationship and each further license in the order of the document, and last those about the document as a whole.
    An entry that occurs twice gets its messages twice. -/
theorem in_order (X : Ext) (d : Document) (ver : Option Str) (hs : Supported d) (ha : Asked d ver) :
    ∃ ci ps fs ss as rs ls whole, validateDocument X d ver = ci ++ ps ++ fs ++ ss ++ as ++ rs ++ ls ++ whole ∧
      (∀ m c, (⟨m, c⟩ : VMsg) ∈ ci ↔ CreationFault X (d.creationInfo.spdxVersion = s%"SPDX-2.2") d m c) ∧
      Grouped (PackageFault X (d.creationInfo.spdxVersion = s%"SPDX-2.2") d) d.packages ps ∧
      Grouped (FileFault X (d.creationInfo.spdxVersion = s%"SPDX-2.2") d) d.files fs ∧
      Grouped (SnippetFault X (d.creationInfo.spdxVersion = s%"SPDX-2.2") d) d.snippets ss ∧
      Grouped (AnnotationFault d) d.annotations as ∧
      Grouped (RelationshipFault (d.creationInfo.spdxVersion = s%"SPDX-2.2") d) d.relationships rs ∧
      Grouped (LicenseFault X) d.extractedLicensingInfo ls ∧
      whole.length ≤ 2 ∧ ∀ v ∈ whole, v.ctx = atDocument d ∧ (v.msg = .noDescribes d.creationInfo.spdxId ∨ ∃ ids, v.msg = .duplicateIds ids) := by
  refine ⟨_, _, _, _, _, _, _, describesMsgs d ++ duplicateMsgs d, ?_, fun m c => in_creation, grouped (fun _ _ _ => in_package) _,
    grouped (fun _ _ _ => in_file) _, grouped (fun _ _ _ => in_snippet) _, grouped (fun _ _ _ => in_annotation) _,
    grouped (fun _ _ _ => in_relationship) _, grouped (fun _ _ _ => in_license) _, ?_, ?_⟩
  · rw [go_on hs ha]; unfold partMsgs; simp only [List.append_assoc]
  · rw [List.length_append]
    exact Nat.add_le_add (a := _) (b := 1) (c := _) (d := 1) (at_most_one _ _ _) (at_most_one _ _ _)
  · intro v hv
    rw [List.mem_append] at hv
    rcases hv with hv | hv
    · unfold describesMsgs msgIf at hv
      simp only [] at hv
      split at hv
      · rw [List.mem_singleton] at hv; subst hv; exact ⟨rfl, .inl rfl⟩
      · cases hv
    · unfold duplicateMsgs msgIf at hv
      split at hv
      · rw [List.mem_singleton] at hv; subst hv; exact ⟨rfl, .inr ⟨_, rfl⟩⟩
      · cases hv

/-- What a message names can be found in the document: the element it is about, and the one it lies in.  Only the message about an
    annotator names a text that is no identifier. -/
theorem names_found (X : Ext) (d : Document) (ver : Option Str) (v : VMsg) (h : v ∈ validateDocument X d ver) :
    (∀ i, v.ctx.spdxId = some i → InDocument d i) ∧
    (∀ i, v.ctx.parentId = some i → InDocument d i ∨ (i = s%"annotation" ∧ v.ctx.elementType = some .ACTOR)) ∧
    v.ctx.elementType ≠ none := by
  obtain ⟨m, c⟩ := v
  have doc : InDocument d d.creationInfo.spdxId := .inl rfl
  have whole : (∀ i, (atDocument d).spdxId = some i → InDocument d i) ∧
      (∀ i, (atDocument d).parentId = some i → InDocument d i ∨ (i = s%"annotation" ∧ (atDocument d).elementType = some .ACTOR)) ∧
      (atDocument d).elementType ≠ none := by
    refine ⟨?_, ?_, ?_⟩
    · intro i hi; cases hi; exact doc
    · intro i hi; cases hi
    · intro hi; cases hi
  have elem : ∀ t i, InDocument d i → (∀ j, (atElement d t i).spdxId = some j → InDocument d j) ∧
      (∀ j, (atElement d t i).parentId = some j → InDocument d j ∨ (j = s%"annotation" ∧ (atElement d t i).elementType = some .ACTOR)) ∧
      (atElement d t i).elementType ≠ none := by
    intro t i hi
    refine ⟨?_, ?_, ?_⟩
    · intro j hj; cases hj; exact hi
    · intro j hj; cases hj; exact .inl doc
    · intro hi; cases hi
  have inside : ∀ t i, InDocument d i → (∀ j, (inElement t i).spdxId = some j → InDocument d j) ∧
      (∀ j, (inElement t i).parentId = some j → InDocument d j ∨ (j = s%"annotation" ∧ (inElement t i).elementType = some .ACTOR)) ∧
      (inElement t i).elementType ≠ none := by
    intro t i hi
    refine ⟨?_, ?_, ?_⟩
    · intro j hj; cases hj
    · intro j hj; cases hj; exact .inl hi
    · intro hi; cases hi
  have entry : ∀ t, (∀ j, (atEntry t).spdxId = some j → InDocument d j) ∧
      (∀ j, (atEntry t).parentId = some j → InDocument d j ∨ (j = s%"annotation" ∧ (atEntry t).elementType = some .ACTOR)) ∧
      (atEntry t).elementType ≠ none := by
    intro t
    refine ⟨?_, ?_, ?_⟩
    · intro j hj; cases hj
    · intro j hj; cases hj
    · intro hi; cases hi
  rcases cases_complete d ver with hs | ⟨hs, ha⟩ | ⟨v, rfl, hs, h1, h2⟩
  · rw [unsupported X d ver hs] at h
    simp only [List.mem_cons, VMsg.mk.injEq, List.not_mem_nil, or_false] at h
    rcases h with ⟨-, rfl⟩ | ⟨-, rfl⟩ <;> exact whole
  · rw [message_iff X d ver hs ha] at h
    cases h with
    | creation h =>
      cases h with
      | id | license | nameSpace => exact whole
      | creator | refId | refUri | refChecksum => exact inside _ _ doc
    | package hp h =>
      have hi : InDocument d _ := .inr (.inl ⟨_, hp, rfl⟩)
      cases h with
      | id | files | notAnalyzedLicense | notAnalyzedCode | download | homepage | new | missing => exact elem _ _ hi
      | concluded | declared | fromFiles | code | checksum | reference => exact inside _ _ hi
    | file hp h =>
      have hi : InDocument d _ := .inr (.inr (.inl ⟨_, hp, rfl⟩))
      cases h with
      | id | name | sha1 | noConcluded | noInFile | noCopyright => exact elem _ _ hi
      | concluded | inFile | checksum => exact inside _ _ hi
    | snippet hp h =>
      have hi : InDocument d _ := .inr (.inr (.inr ⟨_, hp, rfl⟩))
      cases h with
      | id | file | byteStart | byteOrder | lineStart | lineOrder | noConcluded | noCopyright => exact elem _ _ hi
      | concluded | inSnippet => exact inside _ _ hi
    | annotation hp h =>
      cases h with
      | annotator =>
        refine ⟨?_, ?_, ?_⟩
        · intro j hj; cases hj
        · intro j hj; cases hj; exact .inr ⟨rfl, rfl⟩
        · intro hi; cases hi
      | id => exact entry _
    | relationship hp h => cases h <;> exact entry _
    | license hp h => cases h <;> exact entry _
    | describes => exact whole
    | duplicates => exact whole
  · rw [mismatch X d v hs h1 h2] at h
    simp only [List.mem_cons, VMsg.mk.injEq, List.not_mem_nil, or_false] at h
    rcases h with ⟨-, rfl⟩ | ⟨-, rfl⟩ <;> exact whole

/-! ### Non-vacuity -/

/-- a document with a faulty digest in a file, and a file's name twice -/
def faulty : Document :=
  { Example.doc with files := [Example.file, { Example.file with name := s%"/b", checksums := [⟨.MD5, s%"12"⟩] }] }

example : validateDocument Example.ext faulty none =
    [⟨.absolutePath s%"/b", atElement faulty .FILE s%"SPDXRef-File"⟩, ⟨.noSha1 [.MD5], atElement faulty .FILE s%"SPDXRef-File"⟩,
     ⟨.checksumValue .MD5 s%"12", inElement .CHECKSUM s%"SPDXRef-File"⟩, ⟨.duplicateIds [s%"SPDXRef-File"], atDocument faulty⟩] := by
  decide +kernel

example : Supported faulty ∧ Asked faulty none := ⟨.inr rfl, .inl rfl⟩
example : Fault Example.ext False faulty (.absolutePath s%"/b") (atElement faulty .FILE s%"SPDXRef-File") :=
  .file (f := { Example.file with name := s%"/b", checksums := [⟨.MD5, s%"12"⟩] }) (by simp [faulty]) (.name (by decide))
example : ¬ Supported { Example.doc with creationInfo := { Example.info with spdxVersion := s%"SPDX-3.0" } } := by
  simp [Supported]

end Spdx.C75
