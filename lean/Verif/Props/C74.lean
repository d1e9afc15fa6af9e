import Verif.Lemmas.JsonSayingDoc
import Verif.Props.C67
/-
C74: a tree (of a JSON, YAML or XML file) is refused with exactly the messages that `Spec/JsonFaults` describes, in this order.

The description does not mention the reader: it says which messages there are about each value, each element, and about the document.
-/
namespace Spdx.C74
open Spdx Spdx.Spec Spdx.Spec.JsonFaults
open JsonSays (Obj valueAt Blank Items Object Field Entries)
open RdfSays (All2)
open Spdx.JsonSaying

private theorem ne_document (L : LicText) (j : Json) : NE (parseDocument L j) := by
  unfold parseDocument
  refine ne_bind (ne_orRaise ?_) fun _ => ne_construct _ _
  exact quietP_bind (quietP_part _) fun _ => quietP_bind (quietP_lift (quiet_get _ _ _)) fun _ => quietP_bind (quietP_optPart _ _) fun _ =>
    quietP_bind (quietP_lift (quiet_get _ _ _)) fun _ => quietP_bind (quietP_optPart _ _) fun _ => quietP_bind (quietP_optPart _ _) fun _ =>
    quietP_bind (quietP_lift (quiet_get _ _ _)) fun _ => quietP_bind (quietP_optPart _ _) fun _ => quietP_bind (quietP_optPart _ _) fun _ =>
    quietP_bind (quietP_lift (quiet_get _ _ _)) fun _ => quietP_bind (quietP_optPart _ _) fun _ => quietP_pure _

private theorem told_object (L : LicText) (j : Json) (ms : List PMsg) : told (parseDocument L j) = some ms ↔ Object (aboutDocument L) j ms := by
  cases j with
  | obj o => exact (told_document L o ms).trans ⟨fun h => ⟨o, rfl, h⟩, by rintro ⟨_, h, h'⟩; cases h; exact h'⟩
  | _ => exact ⟨fun h => (by cases h), by rintro ⟨_, h, _⟩; cases h⟩

/-- A tree is refused with the messages about it; all of them, in order. -/
theorem messages_exactly (L : LicText) (j : Json) (ms : List PMsg) :
    parseDocument L j = .error (.parsing ms) ↔ ms ≠ [] ∧ Object (aboutDocument L) j ms := by
  rw [← told_object]
  have ne := ne_document L j
  constructor
  · intro h
    rw [h] at ne ⊢
    exact ⟨fun e => ne (by rw [e]), rfl⟩
  · rintro ⟨hn, h⟩
    generalize parseDocument L j = x at h
    match x, h with
    | .ok d, h => cases h; exact absurd rfl hn
    | .error (.parsing ms), h => cases h; rfl

/-- It is read if there is nothing to say about it. -/
theorem read_iff_nothing_said (L : LicText) (j : Json) : (∃ d, parseDocument L j = .ok d) ↔ Object (aboutDocument L) j [] := by
  rw [← told_object]
  have ne := ne_document L j
  constructor
  · rintro ⟨d, h⟩; rw [h]; rfl
  · intro h
    generalize parseDocument L j = x at h ne
    match x, h with
    | .ok d, _ => exact ⟨d, rfl⟩
    | .error (.parsing ms), h => cases h; exact absurd rfl ne

/-- And it ends in another exception if the description has no place for it. -/
theorem crashes_iff_undescribed (L : LicText) (j : Json) :
    (∃ e, parseDocument L j = .error e ∧ ∀ ms, e ≠ .parsing ms) ↔ ∀ ms, ¬ Object (aboutDocument L) j ms := by
  simp only [← told_object]
  generalize parseDocument L j = x
  match x with
  | .ok d => exact ⟨fun ⟨e, h, _⟩ => (by cases h), fun h => absurd rfl (h [])⟩
  | .error (.parsing ms) => exact ⟨fun ⟨e, h, hn⟩ => (by cases h; exact absurd rfl (hn ms)), fun h => absurd rfl (h ms)⟩
  | .error (.type m) => exact ⟨fun _ _ h => (by cases h), fun _ => ⟨_, rfl, fun _ h => (by cases h)⟩⟩
  | .error (.value m) => exact ⟨fun _ _ h => (by cases h), fun _ => ⟨_, rfl, fun _ h => (by cases h)⟩⟩
  | .error (.other m) => exact ⟨fun _ _ h => (by cases h), fun _ => ⟨_, rfl, fun _ h => (by cases h)⟩⟩

/-- That is, if it has not the shape C67 describes. -/
theorem described_iff_shaped (L : LicText) (j : Json) : (∃ ms, Object (aboutDocument L) j ms) ↔ JsonShape.Shaped j := by
  have h1 := crashes_iff_undescribed L j
  have h2 := C67.uncaught_iff L j
  have h3 : C66.Uncaught (parseDocument L j) ↔ ∃ e, parseDocument L j = .error e ∧ ∀ ms, e ≠ .parsing ms := Iff.rfl
  rw [h3, h1] at h2
  refine ⟨fun ⟨ms, h⟩ => Classical.byContradiction fun hn => (h2.2 hn) ms h, fun h => Classical.byContradiction fun hn => ?_⟩
  exact (h2.1 fun ms hm => hn ⟨ms, hm⟩) h

/-- There is one list of messages about a document. -/
theorem messages_unique (L : LicText) (o : Obj) (a b : List PMsg) (h : aboutDocument L o a) (h' : aboutDocument L o b) : a = b :=
  Option.some.inj (((told_document L o a).2 h).symm.trans ((told_document L o b).2 h'))

/-! ### What follows for the user -/

private theorem infix_flatten {mss : List (List PMsg)} {ms : List PMsg} (h : ms ∈ mss) : ms <:+: mss.flatten := by
  obtain ⟨a, b, rfl⟩ := List.append_of_mem h
  exact ⟨a.flatten, b.flatten, by simp⟩

private theorem all2_mem {α β : Type} {R : α → β → Prop} {l : List α} {m : List β} (h : All2 R l m) {x : α} (hx : x ∈ l) : ∃ y ∈ m, R x y := by
  induction h with
  | nil => cases hx
  | cons h1 _ ih =>
    cases hx with
    | head => exact ⟨_, .head _, h1⟩
    | tail _ hx => obtain ⟨y, hy, h⟩ := ih hx; exact ⟨y, .tail _ hy, h⟩

private theorem part_infix {Fs : List (List PMsg → Prop)} {ms : List PMsg} (h : Concat Fs ms) {F : List PMsg → Prop} (hF : F ∈ Fs) : ∃ a, F a ∧ a <:+: ms := by
  obtain ⟨mss, hm, rfl⟩ := h
  obtain ⟨a, ha, hFa⟩ := all2_mem hm hF
  exact ⟨a, hFa, infix_flatten ha⟩

private theorem entry_infix {o : Obj} {k : Str} {A : About} {ms : List PMsg} (h : member o k (items A) ms) {l : List Json} (hl : Items (valueAt o k) l) {x : Json}
    (hx : x ∈ l) : ∃ a, A x a ∧ a <:+: ms := by
  rcases h with ⟨hb, rfl⟩ | ⟨_, l', mss, hl', hm, rfl⟩
  · have hn := (JsonSays.blank_iff _).1 hb
    rcases hl with h | ⟨s, h, rfl⟩ | ⟨p, h, rfl⟩
    · rw [h] at hn; cases l with
      | nil => cases hx
      | cons _ _ => exact absurd rfl hn
    · rw [h] at hn; cases s with
      | nil => cases hx
      | cons _ _ => exact absurd rfl hn
    · rw [h] at hn; cases p with
      | nil => cases hx
      | cons _ _ => exact absurd rfl hn
  · rw [JsonCrash.items_unique hl hl'] at hx
    obtain ⟨a, ha, hA⟩ := all2_mem hm hx
    exact ⟨a, hA, infix_flatten ha⟩

/-- Whatever else is wrong, all messages about an entry of the packages, files, snippets and extracted licenses are told, together. -/
theorem entries_reported (L : LicText) (o : Obj) (ms : List PMsg) (h : parseDocument L (.obj o) = .error (.parsing ms)) :
    (∀ l x, Items (valueAt o s%"packages") l → x ∈ l → ∃ p a, x = .obj p ∧ aboutPackageEntry L p a ∧ a <:+: ms) ∧
    (∀ l x, Items (valueAt o s%"files") l → x ∈ l → ∃ f a, x = .obj f ∧ aboutFile L f a ∧ a <:+: ms) ∧
    (∀ l x, Items (valueAt o s%"snippets") l → x ∈ l → ∃ s a, x = .obj s ∧ aboutSnippet L s a ∧ a <:+: ms) ∧
    (∀ l x, Items (valueAt o s%"hasExtractedLicensingInfos") l → x ∈ l → ∃ e a, x = .obj e ∧ aboutExtracted e a ∧ a <:+: ms) := by
  obtain ⟨_, _, he, h⟩ := (messages_exactly L _ ms).1 h
  cases he
  have step : ∀ {k : Str} {A : Obj → List PMsg → Prop}, member o k (items (object A)) ∈ [aboutCreationInfo o, member o s%"packages" (items (object (aboutPackageEntry L))), member o s%"files" (items (object (aboutFile L))),
      aboutAnnotations o, member o s%"snippets" (items (object (aboutSnippet L))), aboutRelationships o,
      member o s%"hasExtractedLicensingInfos" (items (object aboutExtracted))] →
      ∀ l x, Items (valueAt o k) l → x ∈ l → ∃ p a, x = .obj p ∧ A p a ∧ a <:+: ms := by
    intro k A hm l x hl hx
    obtain ⟨b, hb, hbm⟩ := part_infix h hm
    obtain ⟨a, ⟨p, rfl, ha⟩, hab⟩ := entry_infix hb hl hx
    exact ⟨p, a, rfl, ha, List.IsInfix.trans hab hbm⟩
  exact ⟨step (by simp), step (by simp), step (by simp), step (by simp)⟩

private theorem element_one {what cls : Str} {F : List (List PMsg → Prop)} {w : List (Str × Prop)} {ms : List PMsg} (h : element what cls F w ms) :
    ms = [] ∨ (∃ fs, Concat F fs ∧ fs ≠ [] ∧ ms = [.wrapped what fs]) ∨ ∃ names, Concat F [] ∧ Named w names ∧ names ≠ [] ∧ ms = [.constructing cls names] := by
  rcases h with ⟨fs, h1, h2, rfl⟩ | ⟨h1, names, h2, ⟨_, rfl⟩ | ⟨h3, rfl⟩⟩
  · exact .inr (.inl ⟨fs, h1, h2, rfl⟩)
  · exact .inl rfl
  · exact .inr (.inr ⟨names, h1, h2, h3, rfl⟩)

/-- A file that means something has no message; about any other there is one: it lists the faults of its values, or else, if there are none,
    names the fields that are missing or have a wrong type. So a missing field is not mentioned as long as a value is faulty. -/
theorem one_message_per_file (L : LicText) (o : Obj) (ms : List PMsg) (h : parseDocument L (.obj o) = .error (.parsing ms)) (l : List Json)
    (hl : Items (valueAt o s%"files") l) (x : Json) (hx : x ∈ l) : ∃ f, x = .obj f ∧
      ((∃ file, JsonSays.FileSays L f file) ∨ (∃ faults, faults ≠ [] ∧ .wrapped s%"File" faults ∈ ms) ∨ ∃ names, names ≠ [] ∧ .constructing s%"File" names ∈ ms) := by
  obtain ⟨f, a, rfl, ha, hi⟩ := (entries_reported L o ms h).2.1 l x hl hx
  refine ⟨f, rfl, ?_⟩
  rcases element_one ha with rfl | ⟨fs, _, hn, rfl⟩ | ⟨n, _, _, hn, rfl⟩
  · obtain ⟨file, hf⟩ := (said_nil ((tells_file L).reads.ne _)).1 ((said_file L f []).2 ha)
    exact .inl ⟨file, (Spdx.JsonSays.file_iff L f file).1 hf⟩
  · exact .inr (.inl ⟨fs, hn, hi.subset (.head _)⟩)
  · exact .inr (.inr ⟨n, hn, hi.subset (.head _)⟩)

/-! ### Examples -/

/-- Two faulty values and a missing member of the creation information; a file with a faulty checksum and without a name; a relationship of an
    unknown kind. -/
def faulty : Json := .obj [
  (s%"SPDXID", .str s%"SPDXRef-DOCUMENT"),
  (s%"creationInfo", .obj [(s%"created", .str s%"yesterday"), (s%"creators", .arr [.str s%"Tool: t", .str s%"me"])]),
  (s%"files", .arr [
    .obj [(s%"SPDXID", .str s%"SPDXRef-F"), (s%"checksums", .arr [.obj [(s%"algorithm", .str s%"SHA0"), (s%"checksumValue", .str s%"0")]])],
    .obj [(s%"SPDXID", .num 3)]]),
  (s%"relationships", .arr [.obj [(s%"spdxElementId", .str s%"SPDXRef-F"), (s%"relatedSpdxElement", .str s%"NONE"), (s%"relationshipType", .str s%"LIKES")]])]

def faultyMessages : List PMsg := [
  .wrapped s%"Document" [.text s%"Actor me doesn't match any of person, organization or tool.", .text s%"time data does not match format"],
  .wrapped s%"File" [.wrapped s%"Checksum" [.invalid s%"ChecksumAlgorithm" (.str s%"SHA0")]],
  .constructing s%"File" [s%"name", s%"spdx_id", s%"checksums"],
  .wrapped s%"Relationship" [.invalid s%"RelationshipType" (.str s%"LIKES")]]

private theorem faulty_error (L : LicText) : parseDocument L faulty = .error (.parsing faultyMessages) := by rfl

/-- The example meets the description; and its files the hypotheses of the theorems above. -/
example (L : LicText) : faultyMessages ≠ [] ∧ Object (aboutDocument L) faulty faultyMessages := (messages_exactly L _ _).1 (faulty_error L)

/-- A tree that is read: there is nothing to say about it. -/
example (L : LicText) (d : Document) (j : Json) (h : parseDocument L j = .ok d) : Object (aboutDocument L) j [] := (read_iff_nothing_said L j).1 ⟨d, h⟩

/-- A tree for which the description has no place. -/
example (L : LicText) (ms : List PMsg) : ¬ Object (aboutDocument L) (.obj [(s%"packages", .arr [.num 5])]) ms :=
  (crashes_iff_undescribed L _).1 ⟨_, C24.non_object_entry_crashes L, fun _ h => by cases h⟩ ms

end Spdx.C74
