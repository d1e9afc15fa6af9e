import Verif.Lemmas.JsonReadDoc
import Verif.Props.C23
/-
C56: a JSON-like tree is read exactly as what it says; a tree with a missing, malformed or unknown value is refused.
-/
namespace Spdx.C56
open Spdx Spec.JsonSays
open Spdx.Spec.RdfSays (All2)

/-! ### Specification -/

/-- The keys of a document that mean something. -/
def documentKeys : List Str :=
  [s%"spdxVersion", s%"SPDXID", s%"name", s%"documentNamespace", s%"creationInfo", s%"dataLicense", s%"comment", s%"externalDocumentRefs",
   s%"packages", s%"files", s%"snippets", s%"annotations", s%"revieweds", s%"relationships", s%"documentDescribes",
   s%"hasExtractedLicensingInfos"]

/-! ### Theorems -/

/-- Reading a tree yields a document exactly if the tree says that document. -/
theorem reads_exactly (L : LicText) (j : Json) (d : Document) : parseDocument L j = .ok d ↔ Object (DocumentSays L) j d :=
  JsonSays.document_object L j d

/-- A tree says at most one document. -/
theorem says_one (L : LicText) {j : Json} {d d' : Document} (h : Object (DocumentSays L) j d) (h' : Object (DocumentSays L) j d') : d = d' :=
  Except.ok.inj (((reads_exactly L j d).2 h).symm.trans ((reads_exactly L j d').2 h'))

/-- A tree that says no document is refused. -/
theorem refused_iff (L : LicText) (j : Json) : (∃ e, parseDocument L j = .error e) ↔ ¬ ∃ d, Object (DocumentSays L) j d := by
  constructor
  · rintro ⟨e, h⟩ ⟨d, hd⟩
    rw [(reads_exactly L j d).2 hd] at h
    cases h
  · intro h
    cases hp : parseDocument L j with
    | error e => exact ⟨e, rfl⟩
    | ok d => exact absurd ⟨d, (reads_exactly L j d).1 hp⟩ h

/-- What is no object is refused. -/
theorem only_objects (L : LicText) {j : Json} (h : ∀ o, j ≠ .obj o) (d : Document) : parseDocument L j ≠ .ok d := by
  intro hp
  obtain ⟨o, rfl, _⟩ := (reads_exactly L j d).1 hp
  exact h o rfl

private theorem all2_length {α β : Type} {R : α → β → Prop} {l : List α} {m : List β} (h : All2 R l m) : m.length = l.length := by
  induction h with
  | nil => rfl
  | cons _ _ ih => simp [ih]

private theorem all2_mem {α β : Type} {R : α → β → Prop} {l : List α} {m : List β} (h : All2 R l m) : ∀ x ∈ l, ∃ y ∈ m, R x y := by
  induction h with
  | nil => intro x hx; cases hx
  | cons h _ ih =>
    intro x hx
    cases hx with
    | head => exact ⟨_, .head _, h⟩
    | tail _ hx => obtain ⟨y, hy, h⟩ := ih x hx; exact ⟨y, .tail _ hy, h⟩

/-- No package, file or snippet is dropped or made up. -/
theorem none_dropped {L : LicText} {o : Obj} {d : Document} (h : parseDocument L (.obj o) = .ok d) {lp lf ls : List Json}
    (hp : Entries o s%"packages" lp) (hf : Entries o s%"files" lf) (hs : Entries o s%"snippets" ls) :
    d.packages.length = lp.length ∧ d.files.length = lf.length ∧ d.snippets.length = ls.length := by
  have h := (JsonSays.document_iff L o d).1 h
  obtain ⟨_, hp', h1⟩ := h.packages
  obtain ⟨_, hf', h2⟩ := h.files
  obtain ⟨_, hs', h3⟩ := h.snippets
  rw [JsonSays.entries_eq hp hp', JsonSays.entries_eq hf hf', JsonSays.entries_eq hs hs']
  exact ⟨all2_length h1, all2_length h2, all2_length h3⟩

/-- One faulty package makes the whole document unreadable. -/
theorem faulty_package_refused {L : LicText} {o : Obj} {l : List Json} (hl : Entries o s%"packages" l) {e : Json} (he : e ∈ l)
    (h : ∀ p, ¬ Object (PackageSays L) e p) (d : Document) : parseDocument L (.obj o) ≠ .ok d := by
  intro hp
  obtain ⟨l', hl', ha⟩ := ((JsonSays.document_iff L o d).1 hp).packages
  rw [JsonSays.entries_eq hl hl'] at he
  obtain ⟨p, _, hp⟩ := all2_mem ha e he
  exact h p hp

theorem faulty_file_refused {L : LicText} {o : Obj} {l : List Json} (hl : Entries o s%"files" l) {e : Json} (he : e ∈ l)
    (h : ∀ f, ¬ Object (FileSays L) e f) (d : Document) : parseDocument L (.obj o) ≠ .ok d := by
  intro hp
  obtain ⟨l', hl', ha⟩ := ((JsonSays.document_iff L o d).1 hp).files
  rw [JsonSays.entries_eq hl hl'] at he
  obtain ⟨p, _, hp⟩ := all2_mem ha e he
  exact h p hp

theorem faulty_snippet_refused {L : LicText} {o : Obj} {l : List Json} (hl : Entries o s%"snippets" l) {e : Json} (he : e ∈ l)
    (h : ∀ s, ¬ Object (SnippetSays L) e s) (d : Document) : parseDocument L (.obj o) ≠ .ok d := by
  intro hp
  obtain ⟨l', hl', ha⟩ := ((JsonSays.document_iff L o d).1 hp).snippets
  rw [JsonSays.entries_eq hl hl'] at he
  obtain ⟨p, _, hp⟩ := all2_mem ha e he
  exact h p hp

private theorem listed_says {α : Type} {R : Json → α → Prop} {l : List Json} {as : List α} (h : OptList R (.arr l) as) :
    ∀ e ∈ l, ∃ a ∈ as, R e a := by
  rcases h with ⟨h, rfl⟩ | ⟨_, l', h, ha⟩
  · rcases h with h | h | h | h | h | h <;> cases h
    intro e he; cases he
  · rcases h with h | ⟨_, h, _⟩ | ⟨_, h, _⟩ <;> cases h
    exact all2_mem ha

/-- Every listed relationship is read or the document is refused. -/
theorem relationship_read {L : LicText} {o : Obj} {d : Document} (h : parseDocument L (.obj o) = .ok d) {l : List Json}
    (hl : valueAt o s%"relationships" = .arr l) : ∀ e ∈ l, ∃ r ∈ d.relationships, Object RelationshipSays e r := by
  obtain ⟨listed, _, _, _, _, h1, _, _, _, _, h2⟩ := ((JsonSays.document_iff L o d).1 h).relationships
  rw [hl] at h1
  intro e he
  obtain ⟨r, hr, hs⟩ := listed_says h1 e he
  exact ⟨r, by rw [h2]; exact List.mem_append_left _ (List.mem_append_left _ hr), hs⟩

theorem extracted_read {L : LicText} {o : Obj} {d : Document} (h : parseDocument L (.obj o) = .ok d) {l : List Json}
    (hl : valueAt o s%"hasExtractedLicensingInfos" = .arr l) : ∀ e ∈ l, ∃ i ∈ d.extractedLicensingInfo, Object ExtractedSays e i := by
  have h1 := ((JsonSays.document_iff L o d).1 h).extractedLicensingInfo
  rw [hl] at h1
  exact listed_says h1

/-- Only the members named by the specification matter: their order and any other members make no difference. -/
theorem other_members_ignored (L : LicText) {o o' : Obj} (h : ∀ k ∈ documentKeys, o.lookup k = o'.lookup k) (d : Document) :
    parseDocument L (.obj o) = .ok d ↔ parseDocument L (.obj o') = .ok d := by
  have key : ∀ {o o' : Obj}, (∀ k ∈ documentKeys, o.lookup k = o'.lookup k) → DocumentSays L o d → DocumentSays L o' d := by
    intro o o' h hd
    have hv : ∀ k ∈ documentKeys, valueAt o k = valueAt o' k := fun k hk => by unfold valueAt; rw [h k hk]
    have he : ∀ k ∈ documentKeys, ∀ l, Entries o k l = Entries o' k l := fun k hk l => by unfold Entries; rw [h k hk]
    obtain ⟨⟨i, h1, h1'⟩, h2, h3, h4, h5, h6, h7⟩ := hd
    have hc : CreationInfoSays o' i d.creationInfo := by
      obtain ⟨a1, a2, a3, a4, a5, a6, a7, a8, a9, a10, a11⟩ := h1'
      constructor
      all_goals first
        | assumption
        | (rw [← hv _ (by decide)]; assumption)
    unfold Annotations at h5
    rw [hv s%"creationInfo" (by decide)] at h1
    simp only [he s%"packages" (by decide), he s%"files" (by decide), he s%"snippets" (by decide), he s%"revieweds" (by decide),
      he s%"documentDescribes" (by decide), hv s%"SPDXID" (by decide), hv s%"annotations" (by decide), hv s%"relationships" (by decide),
      hv s%"hasExtractedLicensingInfos" (by decide)] at h2 h3 h4 h5 h6 h7
    exact ⟨⟨i, h1, hc⟩, h2, h3, h4, h5, h6, h7⟩
  rw [JsonSays.document_iff, JsonSays.document_iff]
  exact ⟨key h, key fun k hk => (h k hk).symm⟩

/-! ### The hypotheses are met -/

/-- A document with implied relationships, a review and an annotation. -/
def tree : Obj :=
  [(s%"spdxVersion", .str s%"SPDX-2.3"), (s%"SPDXID", .str s%"SPDXRef-DOCUMENT"), (s%"name", .str s%"n"),
   (s%"documentNamespace", .str s%"https://x.org/d"), (s%"dataLicense", .str s%"CC0-1.0"), (s%"unknown", .num 3),
   (s%"creationInfo", .obj [(s%"creators", .arr [.str s%"Tool: t"]), (s%"created", .str s%"2022-01-01T00:00:00Z")]),
   (s%"documentDescribes", .arr [.str s%"SPDXRef-A", .str s%"SPDXRef-A"]),
   (s%"revieweds", .arr [.obj [(s%"reviewer", .str s%"Tool: r"), (s%"reviewDate", .str s%"2022-01-02T00:00:00Z"), (s%"comment", .str s%"ok")]]),
   (s%"packages", .arr [.obj [(s%"SPDXID", .str s%"SPDXRef-A"), (s%"name", .str s%"a"), (s%"downloadLocation", .str s%"NONE"),
     (s%"filesAnalyzed", .str s%"False"), (s%"hasFiles", .arr [.str s%"SPDXRef-F"])]])]

def treeDoc : Document :=
  { creationInfo := { spdxVersion := s%"SPDX-2.3", spdxId := s%"SPDXRef-DOCUMENT", name := s%"n", documentNamespace := s%"https://x.org/d",
                      dataLicense := s%"CC0-1.0", creators := [{ actorType := .TOOL, name := s%"t" }],
                      created := { year := 2022, month := 1, day := 1 } }
    packages := [{ spdxId := s%"SPDXRef-A", name := s%"a", downloadLocation := .none, filesAnalyzed := false }]
    annotations := [{ spdxId := s%"SPDXRef-DOCUMENT", annotationType := .REVIEW, annotator := { actorType := .TOOL, name := s%"r" },
                      annotationDate := { year := 2022, month := 1, day := 2 }, annotationComment := s%"ok" }]
    relationships := [
      { spdxElementId := s%"SPDXRef-DOCUMENT", relationshipType := .DESCRIBES, relatedSpdxElementId := .val s%"SPDXRef-A" },
      { spdxElementId := s%"SPDXRef-A", relationshipType := .CONTAINS, relatedSpdxElementId := .val s%"SPDXRef-F" }] }

theorem tree_read : parseDocument C23.exampleLic (.obj tree) = .ok treeDoc := by decide +kernel

example : Object (DocumentSays C23.exampleLic) (.obj tree) treeDoc := (reads_exactly _ _ _).1 tree_read

/-- The written form of the example document says that document. -/
example : ∃ j, documentToJson C23.exampleLic Example.doc = some j ∧ ∃ d, Object (DocumentSays C23.exampleLic) j d := by
  have h : (match documentToJson C23.exampleLic Example.doc with
      | some j => (match parseDocument C23.exampleLic j with | .ok _ => true | .error _ => false)
      | none => false) = true := by decide +kernel
  cases hj : documentToJson C23.exampleLic Example.doc with
  | none => rw [hj] at h; cases h
  | some j =>
    rw [hj] at h
    dsimp only at h
    cases hp : parseDocument C23.exampleLic j with
    | error e => rw [hp] at h; cases h
    | ok d => exact ⟨j, rfl, d, (reads_exactly _ _ _).1 hp⟩

example : Entries tree s%"packages" [.obj [(s%"SPDXID", .str s%"SPDXRef-A"), (s%"name", .str s%"a"), (s%"downloadLocation", .str s%"NONE"),
     (s%"filesAnalyzed", .str s%"False"), (s%"hasFiles", .arr [.str s%"SPDXRef-F"])]] := .inr ⟨_, rfl, .inl rfl⟩

/-- A package without a name is no package. -/
example (p : Package) : ¬ Object (PackageSays C23.exampleLic) (.obj [(s%"SPDXID", .str s%"SPDXRef-A"), (s%"downloadLocation", .str s%"NONE")]) p := by
  rintro ⟨_, h, hp⟩
  cases h
  cases hp.name

/-- The members of the tree in another order, without the unknown one. -/
example : ∀ k ∈ documentKeys, tree.lookup k = (tree.reverse.filter fun m => m.1 ≠ s%"unknown").lookup k := by decide +kernel

/-- A package with a purpose that is no member of the list. -/
def oddPackage : Json :=
  .obj [(s%"SPDXID", .str s%"SPDXRef-A"), (s%"name", .str s%"a"), (s%"downloadLocation", .str s%"NONE"),
    (s%"primaryPackagePurpose", .str s%"DEVICES")]

theorem unknown_purpose_refused (d : Document) :
    parseDocument C23.exampleLic (.obj ((s%"packages", .arr [oddPackage]) :: tree)) ≠ .ok d := by
  refine faulty_package_refused (.inr ⟨_, rfl, .inl rfl⟩) (.head _) ?_ d
  rintro p ⟨_, h, hp⟩
  cases h
  rcases hp.primaryPackagePurpose with ⟨h, _⟩ | ⟨_, x, ⟨s, hs, hx⟩, _⟩
  · rcases h with h | h | h | h | h | h <;> cases h
  · cases hs
    cases x <;> exact absurd hx (by decide)

/-- A text where a list is expected is read as the list of its characters. -/
theorem text_read_as_characters :
    parseDocument C23.exampleLic (.obj ((s%"documentDescribes", .str s%"ab") :: (s%"packages", .arr []) :: tree)) =
      .ok { treeDoc with
            packages := []
            relationships := [{ spdxElementId := s%"SPDXRef-DOCUMENT", relationshipType := .DESCRIBES, relatedSpdxElementId := .val s%"a" },
              { spdxElementId := s%"SPDXRef-DOCUMENT", relationshipType := .DESCRIBES, relatedSpdxElementId := .val s%"b" }] } := by
  decide +kernel

/-- The byte range from `a` to `b`, and the snippets made of some ranges. -/
def bytes (a b : Int) : Json :=
  .obj [(s%"startPointer", .obj [(s%"reference", .str s%"f"), (s%"offset", .num a)]),
    (s%"endPointer", .obj [(s%"reference", .str s%"f"), (s%"offset", .num b)])]
def ranged (l : List Json) : Json :=
  .arr [.obj [(s%"SPDXID", .str s%"SPDXRef-S"), (s%"snippetFromFile", .str s%"f"), (s%"ranges", .arr l)]]

/-- Of two ranges of a kind the later one is read, without a message. -/
theorem earlier_range_lost :
    parseDocument C23.exampleLic (.obj ((s%"snippets", ranged [bytes 1 2, bytes 3 4]) :: tree)) =
      .ok { treeDoc with snippets := [{ spdxId := s%"SPDXRef-S", fileSpdxId := s%"f", byteRange := (3, 4) }] } := by
  decide +kernel

end Spdx.C56
