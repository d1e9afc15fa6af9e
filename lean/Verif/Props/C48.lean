import Verif.Lemmas.TagValueDoc
import Verif.Props.C27
import Verif.Props.C23
/-
C48: a document written as tag-value text and read again is the same document, up to the order of files, snippets, relationships,
contributors and cross references, on the stated domain.
-/
namespace Spdx.C48
open Spdx Spec

/-! ### Specification -/

/-- The documents for which this holds. -/
structure DocTv (L : LicText) (d : Document) : Prop where
  ids : UniqueIds d
  info : InfoTv d.creationInfo
  packages : ∀ p ∈ d.packages, PackageTv L p
  files : ∀ f ∈ d.files, FileTv L f
  snippets : ∀ s ∈ d.snippets, SnippetTv L s
  annotations : ∀ a ∈ d.annotations, AnnotationTv a
  relationships : ∀ r ∈ d.relationships, RelTv r
  extracted : ∀ e ∈ d.extractedLicensingInfo, ExtractedTv e

/-- The files agree up to the order of the contributors. -/
def SameFile (f g : File) : Prop := g.contributors.Perm f.contributors ∧ g = { f with contributors := g.contributors }
/-- … of the cross references. -/
def SameExtracted (e e' : ExtractedLicensingInfo) : Prop :=
  e'.crossReferences.Perm e.crossReferences ∧ e' = { e with crossReferences := e'.crossReferences }

/-- `m` is a rearrangement of a list whose entries are related to those of `l`, one by one. -/
def Rearranged {α : Type} (R : α → α → Prop) (l m : List α) : Prop :=
  ∃ f : α → α, (∀ x ∈ l, R x (f x)) ∧ m.Perm (l.map f)

/-- What is read, `e`, compared to what was written, `d`. -/
structure SameTv (d e : Document) : Prop where
  info : e.creationInfo = d.creationInfo
  packages : e.packages = d.packages
  files : Rearranged SameFile d.files e.files
  snippets : e.snippets.Perm d.snippets
  annotations : e.annotations = d.annotations
  /-- the relationships that place a file in a package come back as CONTAINS; those with a comment also as they are -/
  relationships : e.relationships.Perm (d.relationships.flatMap (C27.said d))
  extracted : e.extractedLicensingInfo.length = d.extractedLicensingInfo.length ∧
    ∀ (i : Nat) x, d.extractedLicensingInfo[i]? = some x → ∃ y, e.extractedLicensingInfo[i]? = some y ∧ SameExtracted x y

/-! ### Helpers -/

private theorem relationship_ok {L : LicText} {d : Document} (h : DocTv L d) {l : TvLayout} (hl : C27.Complete d l) : ∀ r ∈ l.relationships, RelTv r := by
  intro r hr
  rcases C27.relationship_only hl r (List.mem_append_right _ hr) with h1 | ⟨p, f, rfl, r', hr', hk⟩
  · exact h.relationships r h1
  · obtain ⟨hp, hf, hk⟩ := (C27.packagedIds_iff d r' p f).1 hk
    obtain ⟨pk, hpk, rfl⟩ := List.mem_map.1 hp
    obtain ⟨fl, hfl, rfl⟩ := List.mem_map.1 hf
    have ht := h.relationships r' hr'
    refine relTv_contains (h.packages pk hpk).id (h.files fl hfl).id ?_ ?_
    · rcases hk with ⟨_, e, _⟩ | ⟨_, _, e⟩
      · rw [← e]; exact ht.id
      · exact (ht.related _ e).1
    · rcases hk with ⟨_, _, e⟩ | ⟨_, e, _⟩
      · exact (ht.related _ e).1
      · rw [← e]; exact ht.id

private theorem layout_ok {L : LicText} {d : Document} (h : DocTv L d) {l : TvLayout} (hl : C27.Complete d l) : LayoutTv L l where
  snippets := fun s hs => h.snippets s (hl.snippets.mem_iff.1 (List.mem_append_left _ hs))
  files := fun f hf => ⟨h.files _ (hl.files.mem_iff.1 (List.mem_map.2 ⟨f, hf, rfl⟩)), fun s hs =>
    h.snippets s (hl.snippets.mem_iff.1 (List.mem_append_right _ (List.mem_flatMap.2 ⟨f, hf, hs⟩)))⟩
  packages := by rw [hl.packages]; exact h.packages
  extracted := by rw [hl.extracted]; exact h.extracted
  relationships := relationship_ok h hl
  annotations := by rw [hl.annotations]; exact h.annotations
  ids := ((hl.files.map _).nodup_iff).2 h.ids.files

/-! ### The theorem -/

/-- Writing does not fail, and reading what was written gives the document again. -/
theorem roundtrip (L : LicText) (d : Document) (h : DocTv L d) :
    (writeTagValue L d).raises = false ∧ ∃ e, parseTagValue L (writeTagValue L d).text = .ok e ∧ SameTv d e := by
  obtain ⟨l, hw, hl⟩ := C27.written_once L d h.ids
  rw [hw]
  obtain ⟨h1, h2⟩ := reads_layout h.info (layout_ok h hl)
  refine ⟨h1, _, h2, ⟨rfl, hl.packages, ⟨File.sorted, fun f _ => ⟨sortStr_perm _, rfl⟩, hl.files.map _⟩, hl.snippets, hl.annotations,
    hl.relationships, ?_, ?_⟩⟩
  · show (l.extracted.map _).length = _
    rw [List.length_map, hl.extracted]
  · intro i x hx
    refine ⟨x.sorted, ?_, sortStr_perm _, rfl⟩
    show (l.extracted.map _)[i]? = _
    rw [List.getElem?_map, hl.extracted, hx]; rfl

/-- When the relationships that place files in packages are all CONTAINS and without comment, the relationships are the same. -/
theorem roundtrip_relationships {d e : Document} (h : SameTv d e)
    (hp : ∀ r ∈ d.relationships, C27.packagedIds d r ≠ none → r.relationshipType = .CONTAINS ∧ r.comment = none) :
    e.relationships.Perm d.relationships := by
  have : d.relationships.flatMap (C27.said d) = d.relationships := C27.said_plain hp
  rw [← this]; exact h.relationships

/-- The same for a file: reading it converts the ends of lines, so there must not be a carriage return in it. -/
theorem file_roundtrip (L : LicText) (d : Document) (h : DocTv L d) (hr : '\r' ∉ (writeTagValue L d).text) :
    ∃ e, parseTagValueFile L (writeTagValue L d).text = .ok e ∧ SameTv d e := by
  have : ∀ s : Str, '\r' ∉ s → universalNewlines s = s := by
    intro s
    induction s with
    | nil => intro _; rfl
    | cons c s ih =>
      intro hs
      have hc : c ≠ '\r' := fun e => hs (by rw [e]; simp)
      have he : universalNewlines (c :: s) = c :: universalNewlines s := by
        rw [universalNewlines.eq_def]
        split
        · rename_i e; cases e
        · rename_i e; cases e; exact absurd rfl hc
        · rename_i e; cases e; exact absurd rfl hc
        · rename_i e; cases e; rfl
      rw [he, ih (fun h => hs (List.mem_cons_of_mem _ h))]
  unfold parseTagValueFile
  rw [this _ hr]
  exact (roundtrip L d h).2

/-! ### The hypotheses are met, by a document with every kind of part -/

/-- The document of the other examples with a second package, with texts of several lines, and with files and snippets to rearrange. -/
def sample : Document :=
  { Example.doc with
    creationInfo := { Example.info with documentComment := some s%"two\nlines", creatorComment := some s%"one line" }
    packages := [{ Example.package with supplier := some (.val ⟨.ORGANIZATION, s%"Org", none⟩), homepage := some .none, builtDate := some ⟨2022, 1, 1, 0, 0, 0, 0, none⟩ },
                 Example.barePackage]
    files := [{ Example.file with spdxId := s%"SPDXRef-Last", contributors := [s%"Bob", s%"Ann"] }, Example.file, { Example.file with spdxId := s%"SPDXRef-Loose" }]
    snippets := [{ Example.snippet with spdxId := s%"SPDXRef-S2", fileSpdxId := s%"SPDXRef-Loose", licenseConcluded := some (.val (.sym s%"MIT")) }, Example.snippet]
    relationships := Example.doc.relationships ++
      [⟨s%"SPDXRef-Last", .CONTAINED_BY, .val s%"SPDXRef-Bare", some s%"a\ncomment"⟩, contains s%"SPDXRef-Bare" s%"SPDXRef-File"] }

private theorem mem_singleton_forall {p : α → Prop} {a : α} (h : p a) : ∀ x ∈ [a], p x := by simpa using h
private theorem mem_pair_forall {p : α → Prop} {a b : α} (ha : p a) (hb : p b) : ∀ x ∈ [a, b], p x := by
  intro x hx
  rcases (by simpa using hx : x = a ∨ x = b) with rfl | rfl
  · exact ha
  · exact hb
private theorem mem_triple_forall {p : α → Prop} {a b c : α} (ha : p a) (hb : p b) (hc : p c) : ∀ x ∈ [a, b, c], p x := by
  intro x hx
  rcases List.mem_cons.1 hx with rfl | hx
  · exact ha
  · exact mem_pair_forall hb hc x hx

/-- One condition of the example. -/
local macro "tv" : tactic => `(tactic| first
  | decide +kernel
  | (intro t h; cases h; decide +kernel)
  | (intro t h; cases h; done)
  | (intro x h; cases h; intro s e; cases e; decide +kernel)
  | (intro x h; cases h; intro s e; cases e; done))

private theorem lic_mit : LicTv C23.exampleLic (.val (.sym s%"MIT")) := by intro e h; cases h; decide +kernel
private theorem lic_and : LicTv C23.exampleLic (.val (.and [.sym s%"MIT", .sym s%"LicenseRef-1"])) := by intro e h; cases h; decide +kernel
private theorem lic_noAssertion : LicTv C23.exampleLic .noAssertion := by intro e h; cases h
private theorem lic_none : LicTv C23.exampleLic .none := by intro e h; cases h
private theorem sha_ok : ∀ c ∈ [Example.sha], ChecksumTv c := mem_singleton_forall ⟨by decide +kernel, by decide +kernel⟩

private theorem file_ok (i : Str) (cs : List Str) (hi : Plain i) (hc : ∀ c ∈ cs, Plain c) :
    FileTv C23.exampleLic { Example.file with spdxId := i, contributors := cs } where
  name := (by decide +kernel : Plain Example.file.name)
  id := hi
  checksums := (by decide : Example.file.checksums ≠ [])
  checksum := sha_ok
  concluded := by intro x h; cases h; exact lic_and
  info := mem_pair_forall lic_mit lic_noAssertion
  licenseComment := by tv
  copyright := by tv
  comment := by tv
  notice := by tv
  contributors := hc
  attribution := by tv

protected theorem sample_ok : DocTv C23.exampleLic sample where
  ids := ⟨by decide +kernel, by decide +kernel, by decide +kernel⟩
  info := {
    version := by tv
    dataLicense := by tv
    id := by tv
    name := by tv
    ns := by tv
    comment := by tv
    creatorComment := by tv
    refs := mem_singleton_forall ⟨rfl, by tv, by tv, by tv, by tv, by tv⟩
    creators := by tv
    actors := mem_singleton_forall (C05.roundtrip_only _ (by decide +kernel))
    created := by unfold DateOk; tv }
  packages := mem_pair_forall
    { name := by tv, id := by tv, download := by tv, version := by tv, fileName := by tv,
      supplier := by intro a h; cases h; exact ⟨C05.roundtrip_only _ (by decide +kernel), by decide⟩
      originator := by tv
      code := by
        intro c h; cases h
        exact ⟨by tv, by tv, .inr ⟨s%"./x.spdx", rfl, by tv, by tv, by tv, by intro x r h; cases h; decide⟩⟩
      checksum := sha_ok
      homepage := by tv, sourceInfo := by tv
      concluded := by intro x h; cases h; exact lic_noAssertion
      info := mem_pair_forall lic_mit lic_none
      declared := by tv, licenseComment := by tv, copyright := by tv, summary := by tv, description := by tv, comment := by tv
      refs := mem_singleton_forall ⟨by tv, by tv, by tv, by tv⟩
      attribution := by tv, release := by tv
      built := by intro t h; cases h; unfold DateOk; tv
      validUntil := by tv }
    { name := by tv, id := by tv, download := by tv, version := by tv, fileName := by tv, supplier := by tv, originator := by tv, code := by tv,
      checksum := by tv, homepage := by tv, sourceInfo := by tv, concluded := by tv, info := by tv, declared := by tv, licenseComment := by tv,
      copyright := by tv, summary := by tv, description := by tv, comment := by tv, refs := by tv, attribution := by tv, release := by tv,
      built := by tv, validUntil := by tv }
  files := mem_triple_forall (file_ok _ _ (by tv) (by tv)) (file_ok _ [] (by tv) (by tv)) (file_ok _ [] (by tv) (by tv))
  snippets := mem_pair_forall
    { id := by tv, fileId := by tv, byteRange := by tv, lineRange := by tv, concluded := by intro x h; cases h; exact lic_mit, info := by tv,
      licenseComment := by tv, copyright := by tv, comment := by tv, name := by tv, attribution := by tv }
    { id := by tv, fileId := by tv, byteRange := by tv, lineRange := by tv, concluded := by tv, info := by tv,
      licenseComment := by tv, copyright := by tv, comment := by tv, name := by tv, attribution := by tv }
  annotations := mem_singleton_forall ⟨C05.roundtrip_only _ (by decide +kernel), by unfold DateOk; tv, by tv, by tv⟩
  relationships := by
    intro r hr
    simp only [sample, Example.doc, List.mem_cons, List.cons_append, List.nil_append, List.not_mem_nil, or_false] at hr
    rcases hr with rfl | rfl | rfl | rfl | rfl | rfl | rfl <;> exact ⟨by tv, by tv, by tv, by tv⟩
  extracted := mem_singleton_forall ⟨⟨_, rfl, by tv⟩, by tv, by tv, by tv, by tv⟩

example : ∃ e, parseTagValue C23.exampleLic (writeTagValue C23.exampleLic sample).text = .ok e ∧ SameTv sample e := (roundtrip _ _ C48.sample_ok).2
/-- The order of the files and the relationships does change. -/
example : ∃ e, parseTagValue C23.exampleLic (writeTagValue C23.exampleLic sample).text = .ok e ∧
    e.files.map (·.spdxId) = [s%"SPDXRef-Loose", s%"SPDXRef-File", s%"SPDXRef-Last"] ∧ e.relationships.length = 8 ∧
    e.files.map (·.contributors) = [[], [], [s%"Ann", s%"Bob"]] := by
  have : (match parseTagValue C23.exampleLic (writeTagValue C23.exampleLic sample).text with
    | .ok e => decide (e.files.map (·.spdxId) = [s%"SPDXRef-Loose", s%"SPDXRef-File", s%"SPDXRef-Last"] ∧ e.relationships.length = 8 ∧
        e.files.map (·.contributors) = [[], [], [s%"Ann", s%"Bob"]])
    | .error _ => false) = true := by decide +kernel
  split at this
  · rename_i e he; exact ⟨e, he, of_decide_eq_true this⟩
  · cases this
example : '\r' ∉ (writeTagValue C23.exampleLic sample).text := by decide +kernel

/-! ### What does not come back -/

/-- What reading the written document gives, for the license text of the examples. -/
def again (d : Document) : Py Document := parseTagValue C23.exampleLic (writeTagValue C23.exampleLic d).text

/-- Writing does not fail, reading does not fail, and the property holds of what was read. -/
def Reread (d : Document) (p : Document → Prop) [DecidablePred p] : Prop :=
  (writeTagValue C23.exampleLic d).raises = false ∧
    (match again d with | .ok e => decide (p e) | .error _ => false) = true
instance (d : Document) (p : Document → Prop) [DecidablePred p] : Decidable (Reread d p) := inferInstanceAs (Decidable (_ ∧ _))

/-- Neither does writing, but reading does. -/
def Refused (d : Document) : Prop :=
  (writeTagValue C23.exampleLic d).raises = false ∧ (match again d with | .ok _ => false | .error _ => true) = true
instance (d : Document) : Decidable (Refused d) := inferInstanceAs (Decidable (_ ∧ _))

/-- A file said to be contained by a package comes back as contained in the package. -/
theorem contained_by_changed :
    Reread { Example.doc with relationships := [⟨s%"SPDXRef-File", .CONTAINED_BY, .val s%"SPDXRef-Package", none⟩] }
      (fun e => e.relationships = [⟨s%"SPDXRef-Package", .CONTAINS, .val s%"SPDXRef-File", none⟩]) := by decide +kernel

/-- The same relationship with a comment comes back twice: as it is, and as implied by the file's place. -/
theorem commented_contains_twice :
    Reread { Example.doc with relationships := [⟨s%"SPDXRef-Package", .CONTAINS, .val s%"SPDXRef-File", some s%"why"⟩] }
      (fun e => e.relationships.length = 2 ∧ ⟨s%"SPDXRef-Package", .CONTAINS, .val s%"SPDXRef-File", some s%"why"⟩ ∈ e.relationships ∧
        contains s%"SPDXRef-Package" s%"SPDXRef-File" ∈ e.relationships) := by decide +kernel

/-- The second fractions of a date are lost. -/
theorem microseconds_lost :
    Reread { Example.doc with creationInfo := { Example.info with created := ⟨2022, 1, 1, 0, 0, 0, 7, none⟩ } }
      (fun e => e.creationInfo.created = ⟨2022, 1, 1, 0, 0, 0, 0, none⟩) := by decide +kernel

/-- The names of two excluded files become one. -/
theorem excluded_files_merged :
    Reread { Example.doc with packages := [{ Example.package with
        verificationCode := some ⟨s%"85ed0817af83a24ad8da68c2b5094de69833983c", [s%"./a", s%"./b"]⟩ }] }
      (fun e => e.packages.map (·.verificationCode) = [some ⟨s%"85ed0817af83a24ad8da68c2b5094de69833983c", [s%"./a ./b"]⟩]) := by
  decide +kernel

/-- A reference to another document with another checksum than SHA1 is not read. -/
theorem other_checksum_refused :
    Refused { Example.doc with creationInfo := { Example.info with
        externalDocumentRefs := [⟨s%"DocumentRef-a", s%"https://e.org/a", ⟨.MD5, s%"d41d8cd98f00b204e9800998ecf8427e"⟩⟩] } } := by
  decide +kernel

/-- A document without a creator, or a file without a checksum, is written, but not read. -/
theorem no_creator_refused : Refused { Example.doc with creationInfo := { Example.info with creators := [] } } := by decide +kernel
theorem no_checksum_refused : Refused { Example.doc with files := [{ Example.file with checksums := [] }] } := by decide +kernel

/-- A package supplied by a tool is written, but not read. -/
theorem tool_supplier_refused :
    Refused { Example.doc with packages := [{ Example.package with supplier := some (.val ⟨.TOOL, s%"scan", none⟩) }] } := by decide +kernel

end Spdx.C48
