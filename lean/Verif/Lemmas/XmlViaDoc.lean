import Verif.Lemmas.XmlVia
/- A document says the same when it has been written as XML and read again. -/
namespace Spdx.XmlVia
open Spdx Spec Spec.JsonSays
open Spdx.Spec.RdfSays (All2)

theorem textual_date : Textual Date := fun _ _ ⟨s, h, _⟩ => ⟨s, h⟩
theorem textual_version : Textual IsVersion := fun _ _ ⟨s, h, _⟩ => ⟨s, h⟩
theorem textual_actor : Textual IsActor := fun _ _ ⟨s, h, _⟩ => ⟨s, h⟩
theorem textual_actorOr : Textual ActorOrNoAssertion := fun _ _ h => by cases h <;> exact ⟨_, rfl⟩
theorem textual_member {α : Type} (name : α → Str) : Textual (Member name) := fun _ _ ⟨s, h, _⟩ => ⟨s, h⟩
theorem textual_exact {α : Type} (name : α → Str) : Textual (ExactMember name) := fun _ _ h => ⟨_, h⟩
theorem textual_license (L : LicText) : Textual (IsLicense L) := fun v a h => by
  unfold IsLicense at h
  generalize some a = x at h
  cases h <;> exact ⟨_, rfl⟩

theorem Turned.fieldObject {α : Type} {k : Str} {v w : Json} {R : Obj → α → Prop} (t : Turned k v w) (hk : Plain k) (hR : Keeps (Object R))
    {x : Option α} (h : Field (Object R) v x) : Field (Object R) w x :=
  h.imp (fun h => ⟨t.blank hk h.1, h.2⟩) fun ⟨hb, a, h, e⟩ => ⟨t.notBlank hb, a, t.ofObject hR h, e⟩

theorem Turned.requiredObject {α : Type} {k : Str} {v w : Json} {R : Obj → α → Prop} (t : Turned k v w) (hR : Keeps (Object R)) {a : α}
    (h : Required (Object R) v a) : Required (Object R) w a :=
  ⟨t.notBlank h.1, t.ofObject hR h.2⟩

/-! Ranges -/

theorem lookup_turned {o : Obj} (ho : KeptObj XmlText o) {k : Str} {v : Json} (hk : k ∉ listLikeFields) (h : o.lookup k = some v) :
    ∃ w, (viaFields o).lookup k = some w ∧ Turned k v w := by
  have ht := turned ho k
  have hv := kept_at ho.2 h
  unfold valueAt at ht
  rw [lookup_via ho.1.1, h] at ht
  rw [lookup_via ho.1.1, h]
  cases v with
  | arr l => cases l with
    | nil => exact absurd (hv.1.elim id fun h => absurd h (by decide)) hk
    | cons x l => exact ⟨_, rfl, ht⟩
  | null => exact ⟨_, rfl, ht⟩
  | bool b => cases b <;> exact ⟨_, rfl, ht⟩
  | num i => exact ⟨_, rfl, ht⟩
  | str s => exact ⟨_, rfl, ht⟩
  | obj o => exact ⟨_, rfl, ht⟩

theorem lookup_missing {o : Obj} (ho : KeptObj XmlText o) {k : Str} (h : o.lookup k = none) : (viaFields o).lookup k = none := by
  rw [lookup_via ho.1.1, h]; rfl

/-- The number says the same. -/
def SameNumber (v w : Json) : Prop := ∀ i, Number v i → Number w i

theorem pointer_via {k : Str} {t : RangeType} {p q v : Json} (hp : Turned k p q) (h : Pointer t p v) : ∃ w, Pointer t q w ∧ SameNumber v w := by
  cases h with
  | byte o v h1 h2 =>
    obtain ⟨rfl, ho⟩ := hp.object rfl
    obtain ⟨w, hw, ht⟩ := lookup_turned ho (by decide) h1
    exact ⟨w, .byte _ w hw (lookup_missing ho h2), fun i hi => ht.number hi (by decide)⟩
  | line o v h1 h2 =>
    obtain ⟨rfl, ho⟩ := hp.object rfl
    obtain ⟨w, hw, ht⟩ := lookup_turned ho (by decide) h1
    exact ⟨w, .line _ w hw (lookup_missing ho h2), fun i hi => ht.number hi (by decide)⟩

/-- The range is of the same kind and says the same. -/
def SameRange (r s : RangeType × (Json × Json)) : Prop := r.1 = s.1 ∧ SameNumber r.2.1 s.2.1 ∧ SameNumber r.2.2 s.2.2

theorem range_via {o : Obj} (ho : KeptObj XmlText o) {r : RangeType × (Json × Json)} (h : IsRange (.obj o) r) :
    ∃ s, IsRange (.obj (viaFields o)) s ∧ SameRange r s := by
  obtain ⟨_, s, e, eq, hs, he, ps, pe⟩ := h
  cases eq
  obtain ⟨s', hs', ts⟩ := lookup_turned ho (by decide) hs
  obtain ⟨e', he', te⟩ := lookup_turned ho (by decide) he
  obtain ⟨a, ha, ea⟩ := pointer_via ts ps
  obtain ⟨b, hb, eb⟩ := pointer_via te pe
  exact ⟨(r.1, (a, b)), ⟨_, s', e', rfl, hs', he', ha, hb⟩, rfl, ea, eb⟩

theorem ranges_all {l : List Json} {rs : List (RangeType × (Json × Json))} (h : KeptItems XmlText l) (hr : All2 IsRange l rs) :
    ∃ rs', All2 IsRange (viaItems l) rs' ∧ All2 SameRange rs rs' := by
  induction hr with
  | nil => exact ⟨[], .nil, .nil⟩
  | @cons x r l rs hx _ ih =>
    have hx' := hx
    obtain ⟨o, _, _, rfl, _⟩ := hx
    obtain ⟨rs', h1, h2⟩ := ih h.2
    obtain ⟨r', h3, h4⟩ := range_via h.1 hx'
    exact ⟨r' :: rs', .cons h3 h1, .cons h4 h2⟩

private theorem filter_same {l m : List (RangeType × (Json × Json))} (t : RangeType) (h : All2 SameRange l m) :
    All2 SameRange (l.filter fun r => r.1 = t) (m.filter fun r => r.1 = t) := by
  induction h with
  | nil => exact .nil
  | @cons r s l m hr _ ih =>
    by_cases ht : r.1 = t
    · rw [List.filter_cons_of_pos (by simpa using ht), List.filter_cons_of_pos (by rw [← hr.1]; simpa using ht)]
      exact .cons hr ih
    · rw [List.filter_cons_of_neg (by simpa using ht), List.filter_cons_of_neg (by rw [← hr.1]; simpa using ht)]
      exact ih

private theorem last_same {l m : List (RangeType × (Json × Json))} (h : All2 SameRange l m) :
    (l.getLast? = none ∧ m.getLast? = none) ∨ ∃ r s, l.getLast? = some r ∧ m.getLast? = some s ∧ SameRange r s := by
  induction h with
  | nil => exact .inl ⟨rfl, rfl⟩
  | @cons r s l m hr _ ih =>
    right
    rcases ih with ⟨h1, h2⟩ | ⟨r', s', h1, h2, h3⟩
    · rw [List.getLast?_eq_none_iff] at h1 h2
      subst h1 h2
      exact ⟨r, s, rfl, rfl, hr⟩
    · exact ⟨r', s', by rw [List.getLast?_cons, h1]; rfl, by rw [List.getLast?_cons, h2]; rfl, h3⟩

theorem lastRange_via {l m : List (RangeType × (Json × Json))} (t : RangeType) (h : All2 SameRange l m) :
    (lastRange l t = none ∧ lastRange m t = none) ∨
      ∃ a b c d, lastRange l t = some (a, b) ∧ lastRange m t = some (c, d) ∧ SameNumber a c ∧ SameNumber b d := by
  unfold lastRange
  rcases last_same (filter_same t h) with ⟨h1, h2⟩ | ⟨r, s, h1, h2, h3⟩
  · rw [h1, h2]; exact .inl ⟨rfl, rfl⟩
  · rw [h1, h2]; exact .inr ⟨r.2.1, r.2.2, s.2.1, s.2.2, rfl, rfl, h3.2.1, h3.2.2⟩

theorem ranges_via {v w : Json} {s : Snippet} (t : Turned s%"ranges" v w)
    (h : ∃ l, Required (ListOf IsRange) v l ∧
      (∃ a b, lastRange l .BYTE = some (a, b) ∧ Number a s.byteRange.1 ∧ Number b s.byteRange.2) ∧
      ((lastRange l .LINE = none ∧ s.lineRange = none) ∨
        ∃ a b x y, lastRange l .LINE = some (a, b) ∧ s.lineRange = some (x, y) ∧ Number a x ∧ Number b y)) :
    ∃ l, Required (ListOf IsRange) w l ∧
      (∃ a b, lastRange l .BYTE = some (a, b) ∧ Number a s.byteRange.1 ∧ Number b s.byteRange.2) ∧
      ((lastRange l .LINE = none ∧ s.lineRange = none) ∨
        ∃ a b x y, lastRange l .LINE = some (a, b) ∧ s.lineRange = some (x, y) ∧ Number a x ∧ Number b y) := by
  obtain ⟨l, ⟨hb, items, hi, ha⟩, ⟨a, b, h1, h2, h3⟩, h4⟩ := h
  have hw := t.notBlank hb
  obtain ⟨hk, rfl⟩ : KeptItems XmlText items ∧ w = .arr (viaItems items) := by
    cases t with
    | arr l _ hl =>
      rcases hi with hi | ⟨_, hi, _⟩ | ⟨_, hi, _⟩ <;> cases hi
      exact ⟨hl, rfl⟩
    | null => exact absurd (.inl rfl) hb
    | nullList => exact absurd (.inl rfl) hb
    | bool _ e => cases e
    | num _ _ e => rcases e with e | e <;> cases e
    | str _ _ h => exact absurd (by decide) h
    | arrNil => exact absurd (by simp [Blank]) hb
    | obj _ h => exact absurd (by decide) h
  obtain ⟨l', g1, g2⟩ := ranges_all hk ha
  refine ⟨l', ⟨hw, _, .inl rfl, g1⟩, ?_, ?_⟩
  · rcases lastRange_via .BYTE g2 with ⟨e, _⟩ | ⟨a', b', c, d, e1, e2, e3, e4⟩
    · rw [h1] at e; cases e
    · rw [h1] at e1; cases e1
      exact ⟨c, d, e2, e3 _ h2, e4 _ h3⟩
  · rcases h4 with ⟨h4, h5⟩ | ⟨a, b, x, y, h4, h5, h6, h7⟩
    · rcases lastRange_via .LINE g2 with ⟨_, e⟩ | ⟨_, _, _, _, e, _⟩
      · exact .inl ⟨e, h5⟩
      · rw [h4] at e; cases e
    · rcases lastRange_via .LINE g2 with ⟨e, _⟩ | ⟨_, _, c, d, e1, e2, e3, e4⟩
      · rw [h4] at e; cases e
      · rw [h4] at e1; cases e1
        exact .inr ⟨c, d, x, y, e2, h5, e3 _ h6, e4 _ h7⟩

/-! Elements -/

theorem checksum_via (o : Obj) (a : Checksum) (ho : KeptObj XmlText o) (h : ChecksumSays o a) :
    ChecksumSays (viaFields o) a where
  algorithm := (turned ho _).of (textual_member _) h.algorithm
  value := (turned ho _).text h.value

theorem externalDocumentRef_via (o : Obj) (a : ExternalDocumentRef) (ho : KeptObj XmlText o) (h : ExternalDocumentRefSays o a) :
    ExternalDocumentRefSays (viaFields o) a where
  documentRefId := (turned ho _).text h.documentRefId
  documentUri := (turned ho _).text h.documentUri
  checksum := (turned ho _).requiredObject (keeps_object checksum_via) h.checksum

theorem creationInfo_via (o i : Obj) (c : CreationInfo) (ho : KeptObj XmlText o) (hi : KeptObj XmlText i) (h : CreationInfoSays o i c) :
    CreationInfoSays (viaFields o) (viaFields i) c where
  spdxVersion := (turned ho _).text h.spdxVersion
  spdxId := (turned ho _).text h.spdxId
  name := (turned ho _).text h.name
  documentNamespace := (turned ho _).text h.documentNamespace
  creators := (turned hi _).listOf (by decide) textual_actor.keeps h.creators
  created := (turned hi _).required textual_date h.created
  creatorComment := (turned hi _).optText (by decide) h.creatorComment
  dataLicense := (turned ho _).text h.dataLicense
  externalDocumentRefs := (turned ho _).optList (by decide) (keeps_required (keeps_object externalDocumentRef_via)) h.externalDocumentRefs
  licenseListVersion := (turned hi _).field (by decide) textual_version h.licenseListVersion
  documentComment := (turned ho _).optText (by decide) h.documentComment

theorem externalRef_via (o : Obj) (a : ExternalPackageRef) (ho : KeptObj XmlText o) (h : ExternalRefSays o a) :
    ExternalRefSays (viaFields o) a where
  category := (turned ho _).required (textual_member _) h.category
  referenceType := (turned ho _).text h.referenceType
  locator := (turned ho _).text h.locator
  comment := (turned ho _).optText (by decide) h.comment

theorem verificationCode_via (o : Obj) (a : PackageVerificationCode) (ho : KeptObj XmlText o) (h : VerificationCodeSays o a) :
    VerificationCodeSays (viaFields o) a where
  value := (turned ho _).text h.value
  excludedFiles := (turned ho _).texts (by decide) h.excludedFiles

theorem package_via {L : LicText} (o : Obj) (a : Package) (ho : KeptObj XmlText o) (h : PackageSays L o a) :
    PackageSays L (viaFields o) a where
  spdxId := (turned ho _).text h.spdxId
  name := (turned ho _).text h.name
  downloadLocation := (turned ho _).special h.downloadLocation
  version := (turned ho _).optText (by decide) h.version
  fileName := (turned ho _).optText (by decide) h.fileName
  supplier := (turned ho _).field (by decide) textual_actorOr h.supplier
  originator := (turned ho _).field (by decide) textual_actorOr h.originator
  filesAnalyzed := (turned ho _).filesAnalyzed (by decide) h.filesAnalyzed
  verificationCode := (turned ho _).fieldObject (by decide) (keeps_object verificationCode_via) h.verificationCode
  checksums := (turned ho _).optList (by decide) (keeps_object checksum_via) h.checksums
  homepage := (turned ho _).optSpecial (by decide) h.homepage
  sourceInfo := (turned ho _).optText (by decide) h.sourceInfo
  licenseConcluded := (turned ho _).optLicense (by decide) h.licenseConcluded
  licenseInfoFromFiles := (turned ho _).optList (by decide) (textual_license L).keeps h.licenseInfoFromFiles
  licenseDeclared := (turned ho _).optLicense (by decide) h.licenseDeclared
  licenseComment := (turned ho _).optText (by decide) h.licenseComment
  copyrightText := (turned ho _).optSpecial (by decide) h.copyrightText
  summary := (turned ho _).optText (by decide) h.summary
  description := (turned ho _).optText (by decide) h.description
  comment := (turned ho _).optText (by decide) h.comment
  externalReferences := (turned ho _).optList (by decide) (keeps_object externalRef_via) h.externalReferences
  attributionTexts := (turned ho _).texts (by decide) h.attributionTexts
  primaryPackagePurpose := (turned ho _).field (by decide) (textual_member _) h.primaryPackagePurpose
  releaseDate := (turned ho _).field (by decide) textual_date h.releaseDate
  builtDate := (turned ho _).field (by decide) textual_date h.builtDate
  validUntilDate := (turned ho _).field (by decide) textual_date h.validUntilDate

theorem file_via {L : LicText} (o : Obj) (a : File) (ho : KeptObj XmlText o) (h : FileSays L o a) :
    FileSays L (viaFields o) a where
  name := (turned ho _).text h.name
  spdxId := (turned ho _).text h.spdxId
  checksums := (turned ho _).listOf (by decide) (keeps_object checksum_via) h.checksums
  fileTypes := (turned ho _).optList (by decide) (textual_exact _).keeps h.fileTypes
  licenseConcluded := (turned ho _).optLicense (by decide) h.licenseConcluded
  licenseInfoInFile := (turned ho _).optList (by decide) (textual_license L).keeps h.licenseInfoInFile
  licenseComment := (turned ho _).optText (by decide) h.licenseComment
  copyrightText := (turned ho _).optSpecial (by decide) h.copyrightText
  comment := (turned ho _).optText (by decide) h.comment
  notice := (turned ho _).optText (by decide) h.notice
  contributors := (turned ho _).texts (by decide) h.contributors
  attributionTexts := (turned ho _).texts (by decide) h.attributionTexts

theorem snippet_via {L : LicText} (o : Obj) (a : Snippet) (ho : KeptObj XmlText o) (h : SnippetSays L o a) :
    SnippetSays L (viaFields o) a where
  spdxId := (turned ho _).text h.spdxId
  fileSpdxId := (turned ho _).text h.fileSpdxId
  ranges := ranges_via (turned ho _) h.ranges
  licenseConcluded := (turned ho _).optLicense (by decide) h.licenseConcluded
  licenseInfoInSnippet := (turned ho _).optList (by decide) (textual_license L).keeps h.licenseInfoInSnippet
  licenseComment := (turned ho _).optText (by decide) h.licenseComment
  copyrightText := (turned ho _).optSpecial (by decide) h.copyrightText
  comment := (turned ho _).optText (by decide) h.comment
  name := (turned ho _).optText (by decide) h.name
  attributionTexts := (turned ho _).texts (by decide) h.attributionTexts

theorem annotation_via {e : Json} (o : Obj) (a : Annotation) (ho : KeptObj XmlText o) (h : AnnotationSays e o a) :
    AnnotationSays e (viaFields o) a where
  spdxId := h.spdxId.imp (fun h => ⟨(turned ho _).notBlank h.1, (turned ho _).text h.2⟩) fun h => ⟨(turned ho _).blank (by decide) h.1, h.2⟩
  annotationType := (turned ho _).required (textual_exact _) h.annotationType
  annotator := (turned ho _).required textual_actor h.annotator
  annotationDate := (turned ho _).required textual_date h.annotationDate
  annotationComment := (turned ho _).text h.annotationComment

theorem review_via {docId : Str} (o : Obj) (a : Annotation) (ho : KeptObj XmlText o) (h : ReviewSays docId o a) :
    ReviewSays docId (viaFields o) a where
  spdxId := h.spdxId
  annotationType := h.annotationType
  annotator := (turned ho _).required textual_actor h.annotator
  annotationDate := (turned ho _).required textual_date h.annotationDate
  annotationComment := (turned ho _).text h.annotationComment

theorem relationship_via (o : Obj) (a : Relationship) (ho : KeptObj XmlText o) (h : RelationshipSays o a) :
    RelationshipSays (viaFields o) a where
  spdxElementId := (turned ho _).text h.spdxElementId
  relationshipType := (turned ho _).required (textual_member _) h.relationshipType
  relatedSpdxElementId := (turned ho _).special h.relatedSpdxElementId
  comment := (turned ho _).optText (by decide) h.comment

theorem extracted_via (o : Obj) (a : ExtractedLicensingInfo) (ho : KeptObj XmlText o) (h : ExtractedSays o a) :
    ExtractedSays (viaFields o) a where
  licenseId := (turned ho _).optText (by decide) h.licenseId
  extractedText := (turned ho _).optText (by decide) h.extractedText
  licenseName := (turned ho _).optNoAssertion (by decide) h.licenseName
  crossReferences := (turned ho _).texts (by decide) h.crossReferences
  comment := (turned ho _).optText (by decide) h.comment

/-! The document -/

theorem all2_mono {α β : Type} {R S : α → β → Prop} (h : ∀ a b, R a b → S a b) {l : List α} {m : List β} (hr : All2 R l m) : All2 S l m := by
  induction hr with
  | nil => exact .nil
  | cons hx _ ih => exact .cons (h _ _ hx) ih

theorem optList_mono {α : Type} {R S : Json → α → Prop} (h : ∀ v a, R v a → S v a) {v : Json} {l : List α} (hl : OptList R v l) : OptList S v l :=
  hl.imp id fun ⟨hb, items, hi, ha⟩ => ⟨hb, items, hi, all2_mono h ha⟩

theorem annotations_via (o : Obj) (l : List Annotation) (ho : KeptObj XmlText o) (h : Annotations o l) : Annotations (viaFields o) l := by
  refine (turned ho _).optList (by decide) (keeps_object annotation_via) (optList_mono ?_ h)
  rintro v a ⟨i, hv, ha⟩
  exact ⟨i, hv, { ha with spdxId := ha.spdxId.imp id fun h => ⟨h.1, (turned ho _).text h.2⟩ }⟩

theorem containedFiles_via {stated : List Relationship} (o : Obj) (rs : List Relationship) (ho : KeptObj XmlText o)
    (h : ContainedFiles stated o rs) : ContainedFiles stated (viaFields o) rs := by
  obtain ⟨a, files, h1, h2, h3⟩ := h
  have := (entries_via ho _ h2 (.inl (by decide))).1
  rw [viaItems_str] at this
  exact ⟨a, files, (turned ho _).text h1, this, h3⟩

theorem elements_via {α : Type} {R : Obj → α → Prop} (hR : ∀ o a, KeptObj XmlText o → R o a → R (viaFields o) a) {o : Obj}
    (ho : KeptObj XmlText o) {k : Str} {l : List Json} {as : List α} (he : Entries o k l) (ha : All2 (Object R) l as) :
    Entries (viaFields o) k (viaItems l) ∧ All2 (Object R) (viaItems l) as := by
  have hs : ∀ x ∈ l, ∀ s, x ≠ .str s := by
    clear he
    induction ha with
    | nil => intro x hx; cases hx
    | cons hx _ ih =>
      intro x hm
      cases hm with
      | head =>
        obtain ⟨_, rfl, _⟩ := hx
        exact fun _ => Json.noConfusion
      | tail _ hm => exact ih x hm
  obtain ⟨h1, h2⟩ := entries_via ho k he (.inr hs)
  exact ⟨h1, all2_via (keeps_object hR) h2 ha⟩

theorem says_via {L : LicText} {o : Obj} {d : Document} (ho : KeptObj XmlText o) (h : DocumentSays L o d) :
    DocumentSays L (viaFields o) d where
  creationInfo := by
    obtain ⟨i, h1, h2⟩ := h.creationInfo
    obtain ⟨h3, hi⟩ := (turned ho _).object h1
    exact ⟨_, h3, creationInfo_via o i _ ho hi h2⟩
  packages := by
    obtain ⟨l, h1, h2⟩ := h.packages
    exact ⟨_, elements_via package_via ho h1 h2⟩
  files := by
    obtain ⟨l, h1, h2⟩ := h.files
    exact ⟨_, elements_via file_via ho h1 h2⟩
  snippets := by
    obtain ⟨l, h1, h2⟩ := h.snippets
    exact ⟨_, elements_via snippet_via ho h1 h2⟩
  annotations := by
    obtain ⟨own, reviews, ofPackages, ofFiles, ofSnippets, lr, lp, lf, ls, h1, h2, h3, h4, ⟨p, h5, e1⟩, h6, ⟨f, h7, e2⟩, h8, ⟨s, h9, e3⟩, e⟩ := h.annotations
    obtain ⟨g2, g3⟩ := elements_via review_via ho h2 h3
    obtain ⟨g4, g5⟩ := elements_via annotations_via ho h4 h5
    obtain ⟨g6, g7⟩ := elements_via annotations_via ho h6 h7
    obtain ⟨g8, g9⟩ := elements_via annotations_via ho h8 h9
    exact ⟨own, reviews, ofPackages, ofFiles, ofSnippets, _, _, _, _, annotations_via o own ho h1, g2, g3, g4, ⟨p, g5, e1⟩, g6, ⟨f, g7, e2⟩, g8,
      ⟨s, g9, e3⟩, e⟩
  relationships := by
    obtain ⟨listed, described, describes, lp, contains, h1, h2, h3, h4, h5, e⟩ := h.relationships
    have g2 := (entries_via ho _ h2 (.inl (by decide))).1
    rw [viaItems_str] at g2
    obtain ⟨g4, g5⟩ := elements_via containedFiles_via ho h4 h5
    exact ⟨listed, described, describes, _, contains, (turned ho _).optList (by decide) (keeps_object relationship_via) h1, g2, h3, g4, g5, e⟩
  extractedLicensingInfo := (turned ho _).optList (by decide) (keeps_object extracted_via) h.extractedLicensingInfo

theorem readXml_kept {L : LicText} {o : Obj} {d : Document} (ho : KeptObj XmlText o) (h : parseDocument L (.obj o) = .ok d) :
    readXml L (.obj o) = some (.ok d) := by
  obtain ⟨t, h1, h2⟩ := document_via ho
  unfold readXml
  rw [h1]
  show (xmlDocument t).bind _ = _
  rw [h2]
  exact congrArg some ((Spdx.JsonSays.document_iff L _ d).2 (says_via ho ((Spdx.JsonSays.document_iff L o d).1 h)))

end Spdx.XmlVia
