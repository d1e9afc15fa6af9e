import Verif.Lemmas.TagValueSays
import Verif.Spec.TvRead
/-
C52: Every element of a document read from tag-value text has exactly the values given under its tags in its own section.
-/
namespace Spdx.C52
open Spdx Spec

/-! ## Specification -/

/-- The two lists correspond one to one, in order. -/
inductive Pairs (R : α → β → Prop) : List α → List β → Prop where
  | nil : Pairs R [] []
  | snoc {xs ys x y} : Pairs R xs ys → R x y → Pairs R (xs ++ [x]) (ys ++ [y])

/-- The sections about one kind of element. -/
def sectionsOf (c : TvClass) (bs : List (List TvAttr)) : List (List TvAttr) := bs.filter fun b => about b = some c

/-! ## Proofs -/

private theorem info_start (L : LicText) : Good L [] {} :=
  ⟨.nil L, .inl ⟨fun _ h => (by cases h), rfl, rfl, fun _ => rfl⟩⟩

private theorem of_snoc {c c' : TvClass} {bs : List (List TvAttr)} {b : List TvAttr} (h : about b = some c') (hn : c' ≠ c) :
    sectionsOf c (bs ++ [b]) = sectionsOf c bs := by
  unfold sectionsOf
  rw [List.filter_append, List.filter_cons, h]
  simp [hn]

private theorem of_same {c : TvClass} {bs : List (List TvAttr)} {b : List TvAttr} (h : about b = some c) :
    sectionsOf c (bs ++ [b]) = sectionsOf c bs ++ [b] := by
  unfold sectionsOf
  rw [List.filter_append, List.filter_cons, h]
  simp

private theorem one_unique {b : List TvAttr} {tag : Str} {f : Tok → Option α} {x y : Option α} (h : One b tag f x) (h' : One b tag f y) :
    x = y := by
  rcases h with ⟨g, rfl⟩ | ⟨v, g, rfl⟩ <;> rcases h' with ⟨g', rfl⟩ | ⟨w, g', rfl⟩
  · rfl
  · rw [g] at g'; cases g'
  · rw [g] at g'; cases g'
  · rw [g] at g'; cases g'; rfl

private theorem one_some {b : List TvAttr} {tag : Str} {f : Tok → Option α} {x y : α} (h : One b tag f (some x)) (h' : One b tag f (some y)) :
    x = y := Option.some.inj (one_unique h h')

private theorem many_unique {b : List TvAttr} {tag : Str} {f : Tok → Option α} {x y : List α} (h : Many b tag f x) (h' : Many b tag f y) :
    x = y := List.map_inj_right (fun _ _ => Option.some.inj) |>.1 (h.trans (Eq.symm h'))

private theorem one_or {b : List TvAttr} {tag : Str} {f : Tok → Option α} {x y z : α}
    (h : One b tag f (some x) ∨ (given b tag = [] ∧ x = z)) (h' : One b tag f (some y) ∨ (given b tag = [] ∧ y = z)) : x = y := by
  rcases h with h | ⟨h, rfl⟩ <;> rcases h' with h' | ⟨h', rfl⟩
  · exact one_some h h'
  · rcases h with ⟨_, e⟩ | ⟨v, e, _⟩
    · cases e
    · rw [e] at h'; cases h'
  · rcases h' with ⟨_, e⟩ | ⟨v, e, _⟩
    · cases e
    · rw [e] at h; cases h
  · rfl

private theorem package_unique {L : LicText} {b : List TvAttr} {x y : Package} (h : SaysPackage L b x) (h' : SaysPackage L b y) : x = y := by
  obtain ⟨x1, x2, x3, x4, x5, x6, x7, x8, x9, x10, x11, x12, x13, x14, x15, x16, x17, x18, x19, x20, x21, x22, x23, x24, x25, x26⟩ := x
  obtain ⟨y1, y2, y3, y4, y5, y6, y7, y8, y9, y10, y11, y12, y13, y14, y15, y16, y17, y18, y19, y20, y21, y22, y23, y24, y25, y26⟩ := y
  cases Option.some.inj (h.spdxId.symm.trans h'.spdxId)
  cases one_some h.name h'.name
  cases one_some h.downloadLocation h'.downloadLocation
  cases one_unique h.version h'.version
  cases one_unique h.fileName h'.fileName
  cases one_unique h.supplier h'.supplier
  cases one_unique h.originator h'.originator
  cases one_or h.filesAnalyzed h'.filesAnalyzed
  cases one_unique h.verificationCode h'.verificationCode
  cases many_unique h.checksums h'.checksums
  cases one_unique h.homepage h'.homepage
  cases one_unique h.sourceInfo h'.sourceInfo
  cases one_unique h.licenseConcluded h'.licenseConcluded
  cases many_unique h.licenseInfoFromFiles h'.licenseInfoFromFiles
  cases one_unique h.licenseDeclared h'.licenseDeclared
  cases one_unique h.licenseComment h'.licenseComment
  cases one_unique h.copyrightText h'.copyrightText
  cases one_unique h.summary h'.summary
  cases one_unique h.description h'.description
  cases one_unique h.comment h'.comment
  cases List.map_inj_right (fun _ _ => Option.some.inj) |>.1 (h.externalReferences.trans h'.externalReferences.symm)
  cases many_unique h.attributionTexts h'.attributionTexts
  cases one_unique h.primaryPackagePurpose h'.primaryPackagePurpose
  cases one_unique h.releaseDate h'.releaseDate
  cases one_unique h.builtDate h'.builtDate
  cases one_unique h.validUntilDate h'.validUntilDate
  rfl

private theorem file_unique {L : LicText} {b : List TvAttr} {x y : File} (h : SaysFile L b x) (h' : SaysFile L b y) : x = y := by
  obtain ⟨x1, x2, x3, x4, x5, x6, x7, x8, x9, x10, x11, x12⟩ := x
  obtain ⟨y1, y2, y3, y4, y5, y6, y7, y8, y9, y10, y11, y12⟩ := y
  cases one_some h.name h'.name
  cases Option.some.inj (h.spdxId.symm.trans h'.spdxId)
  cases many_unique h.checksums h'.checksums
  cases many_unique h.fileTypes h'.fileTypes
  cases one_unique h.licenseConcluded h'.licenseConcluded
  cases many_unique h.licenseInfoInFile h'.licenseInfoInFile
  cases one_unique h.licenseComment h'.licenseComment
  cases one_unique h.copyrightText h'.copyrightText
  cases one_unique h.comment h'.comment
  cases one_unique h.notice h'.notice
  cases many_unique h.contributors h'.contributors
  cases many_unique h.attributionTexts h'.attributionTexts
  rfl

private theorem snippet_unique {L : LicText} {b : List TvAttr} {x y : Snippet} (h : SaysSnippet L b x) (h' : SaysSnippet L b y) : x = y := by
  obtain ⟨x1, x2, x3, x4, x5, x6, x7, x8, x9, x10, x11⟩ := x
  obtain ⟨y1, y2, y3, y4, y5, y6, y7, y8, y9, y10, y11⟩ := y
  cases Option.some.inj (h.spdxId.symm.trans h'.spdxId)
  cases one_some h.fileSpdxId h'.fileSpdxId
  cases one_some h.byteRange h'.byteRange
  cases one_unique h.lineRange h'.lineRange
  cases one_unique h.licenseConcluded h'.licenseConcluded
  cases many_unique h.licenseInfoInSnippet h'.licenseInfoInSnippet
  cases one_unique h.licenseComment h'.licenseComment
  cases one_unique h.copyrightText h'.copyrightText
  cases one_unique h.comment h'.comment
  cases one_unique h.name h'.name
  cases many_unique h.attributionTexts h'.attributionTexts
  rfl

private theorem annotation_unique {b : List TvAttr} {x y : Annotation} (h : SaysAnnotation b x) (h' : SaysAnnotation b y) : x = y := by
  obtain ⟨x1, x2, x3, x4, x5⟩ := x
  obtain ⟨y1, y2, y3, y4, y5⟩ := y
  cases Option.some.inj (h.spdxId.symm.trans h'.spdxId)
  cases one_some h.annotationType h'.annotationType
  cases one_some h.annotator h'.annotator
  cases one_some h.annotationDate h'.annotationDate
  cases one_some h.annotationComment h'.annotationComment
  rfl

private theorem extracted_unique {b : List TvAttr} {x y : ExtractedLicensingInfo} (h : SaysExtracted b x) (h' : SaysExtracted b y) : x = y := by
  obtain ⟨x1, x2, x3, x4, x5⟩ := x
  obtain ⟨y1, y2, y3, y4, y5⟩ := y
  cases one_unique h.licenseId h'.licenseId
  cases one_unique h.extractedText h'.extractedText
  cases one_unique h.licenseName h'.licenseName
  cases many_unique h.crossReferences h'.crossReferences
  cases one_unique h.comment h'.comment
  rfl

private theorem relationship_unique {b : List TvAttr} {x y : Relationship} (h : SaysRelationship b x) (h' : SaysRelationship b y) : x = y := by
  obtain ⟨l, c, t, r, h1, h2, h3, h4, h5⟩ := h
  obtain ⟨l', c', t', r', h1', h2', h3', h4', h5'⟩ := h'
  rw [h1] at h1'
  cases h1'
  obtain ⟨x1, x2, x3, x4⟩ := x
  obtain ⟨y1, y2, y3, y4⟩ := y
  simp only [] at h2 h2' h3 h3' h4 h4' h5 h5'
  rw [h2] at h2'
  cases h2'
  rw [h3] at h3'
  cases h3'
  rw [← h4'] at h4
  rw [← h5'] at h5
  subst h4 h5
  rfl

/-! ## Theorems -/

/-- What is read from a text is what its sections say, one after the other; the creation information is what the whole text says.

    Missing: the text must have exactly one `SPDXID` before the first element (see `id_leaks` and `id_taken`). -/
theorem read_says_partial (L : LicText) (text : Str) (d : Document) (h : parseTagValue L text = .ok d)
    (hid : (ids (preamble (attrs (lex text)))).length = 1) :
    SaysInfo (attrs (lex text)) d.creationInfo ∧ Says L d.creationInfo (sections (attrs (lex text))) d := by
  obtain ⟨s, hr, hd⟩ := read_run h
  rcases run_good (done := []) (info_start L) hr (fun t l c => attrs_commented) hid with hm | hg
  · exact absurd hd (no_result hm d)
  rw [List.nil_append] at hg
  have hinfo : s.finish.info = s.info := start_info s .file
  unfold TvState.result at hd
  simp only [] at hd
  generalize hlog : s.finish.log ++ (if s.finish.infoLog = [] then [] else [.wrapped s%"CreationInfo" s.finish.infoLog]) = log at hd
  split at hd
  · cases hd
  rename_i hnil
  have hnil := Decidable.not_not.1 hnil
  rcases finish_says hg with ⟨l, m, e⟩ | ⟨hy, _⟩
  · rw [e, hnil] at hlog; simp at hlog
  split at hd
  · rename_i c ec
    cases hd
    have ec : mkInfo s.finish.info = .ok c := by
      unfold construct at ec
      split at ec
      · rename_i x e; cases ec; exact e
      · cases ec
    rw [hinfo] at ec
    exact ⟨says_info hg.info ec, hy c⟩
  · cases hd

/-- So the elements of each kind correspond to the sections about that kind, one to one and in order. -/
theorem elements_partial (L : LicText) (text : Str) (d : Document) (h : parseTagValue L text = .ok d)
    (hid : (ids (preamble (attrs (lex text)))).length = 1) :
    Pairs (SaysPackage L) (sectionsOf .package (sections (attrs (lex text)))) d.packages ∧
    Pairs (SaysFile L) (sectionsOf .file (sections (attrs (lex text)))) d.files ∧
    Pairs (SaysSnippet L) (sectionsOf .snippet (sections (attrs (lex text)))) d.snippets ∧
    Pairs SaysAnnotation (sectionsOf .annotation (sections (attrs (lex text)))) d.annotations ∧
    Pairs SaysExtracted (sectionsOf .extracted (sections (attrs (lex text)))) d.extractedLicensingInfo := by
  have hs := (read_says_partial L text d h hid).2
  generalize d.creationInfo = c at hs
  generalize sections (attrs (lex text)) = bs at hs
  clear h hid
  induction hs with
  | nil => exact ⟨.nil, .nil, .nil, .nil, .nil⟩
  | package _ hb hx ih =>
    rw [of_same hb, of_snoc hb (by decide), of_snoc hb (by decide), of_snoc hb (by decide), of_snoc hb (by decide)]
    exact ⟨.snoc ih.1 hx, ih.2.1, ih.2.2.1, ih.2.2.2.1, ih.2.2.2.2⟩
  | file _ hb hx ih =>
    rw [of_same hb, of_snoc hb (by decide), of_snoc hb (by decide), of_snoc hb (by decide), of_snoc hb (by decide)]
    exact ⟨ih.1, .snoc ih.2.1 hx, ih.2.2.1, ih.2.2.2.1, ih.2.2.2.2⟩
  | snippet _ hb hx ih =>
    rw [of_same hb, of_snoc hb (by decide), of_snoc hb (by decide), of_snoc hb (by decide), of_snoc hb (by decide)]
    exact ⟨ih.1, ih.2.1, .snoc ih.2.2.1 hx, ih.2.2.2.1, ih.2.2.2.2⟩
  | annotation _ hb hx ih =>
    rw [of_same hb, of_snoc hb (by decide), of_snoc hb (by decide), of_snoc hb (by decide), of_snoc hb (by decide)]
    exact ⟨ih.1, ih.2.1, ih.2.2.1, .snoc ih.2.2.2.1 hx, ih.2.2.2.2⟩
  | relationship _ hb hx ih =>
    rw [of_snoc hb (by decide), of_snoc hb (by decide), of_snoc hb (by decide), of_snoc hb (by decide), of_snoc hb (by decide)]
    exact ih
  | extracted _ hb hx ih =>
    rw [of_same hb, of_snoc hb (by decide), of_snoc hb (by decide), of_snoc hb (by decide), of_snoc hb (by decide)]
    exact ⟨ih.1, ih.2.1, ih.2.2.1, ih.2.2.2.1, .snoc ih.2.2.2.2 hx⟩

/-- The sections say only one document. -/
theorem says_unique (L : LicText) (c : CreationInfo) (bs : List (List TvAttr)) (d d' : Document) (h : Says L c bs d) (h' : Says L c bs d') :
    d = d' := by
  induction h generalizing d' with
  | nil =>
    generalize hbs : ([] : List (List TvAttr)) = bs at h'
    cases h' with
    | nil => rfl
    | _ => exact absurd hbs.symm (by simp)
  | @package bs b d p hd hb hx ih =>
    generalize hbs : bs ++ [b] = cs at h'
    cases h' with
    | nil => simp at hbs
    | package hd' hb' hx' =>
      obtain ⟨rfl, e⟩ := List.append_inj' hbs rfl
      cases e
      rw [ih _ hd', package_unique hx hx']
    | _ hd' hb' hx' => obtain ⟨rfl, e⟩ := List.append_inj' hbs rfl; cases e; rw [hb] at hb'; cases hb'
  | @file bs b d p hd hb hx ih =>
    generalize hbs : bs ++ [b] = cs at h'
    cases h' with
    | nil => simp at hbs
    | file hd' hb' hx' =>
      obtain ⟨rfl, e⟩ := List.append_inj' hbs rfl
      cases e
      rw [ih _ hd', file_unique hx hx']
    | _ hd' hb' hx' => obtain ⟨rfl, e⟩ := List.append_inj' hbs rfl; cases e; rw [hb] at hb'; cases hb'
  | @snippet bs b d p hd hb hx ih =>
    generalize hbs : bs ++ [b] = cs at h'
    cases h' with
    | nil => simp at hbs
    | snippet hd' hb' hx' =>
      obtain ⟨rfl, e⟩ := List.append_inj' hbs rfl
      cases e
      rw [ih _ hd', snippet_unique hx hx']
    | _ hd' hb' hx' => obtain ⟨rfl, e⟩ := List.append_inj' hbs rfl; cases e; rw [hb] at hb'; cases hb'
  | @annotation bs b d p hd hb hx ih =>
    generalize hbs : bs ++ [b] = cs at h'
    cases h' with
    | nil => simp at hbs
    | annotation hd' hb' hx' =>
      obtain ⟨rfl, e⟩ := List.append_inj' hbs rfl
      cases e
      rw [ih _ hd', annotation_unique hx hx']
    | _ hd' hb' hx' => obtain ⟨rfl, e⟩ := List.append_inj' hbs rfl; cases e; rw [hb] at hb'; cases hb'
  | @relationship bs b d p hd hb hx ih =>
    generalize hbs : bs ++ [b] = cs at h'
    cases h' with
    | nil => simp at hbs
    | relationship hd' hb' hx' =>
      obtain ⟨rfl, e⟩ := List.append_inj' hbs rfl
      cases e
      rw [ih _ hd', relationship_unique hx hx']
    | _ hd' hb' hx' => obtain ⟨rfl, e⟩ := List.append_inj' hbs rfl; cases e; rw [hb] at hb'; cases hb'
  | @extracted bs b d p hd hb hx ih =>
    generalize hbs : bs ++ [b] = cs at h'
    cases h' with
    | nil => simp at hbs
    | extracted hd' hb' hx' =>
      obtain ⟨rfl, e⟩ := List.append_inj' hbs rfl
      cases e
      rw [ih _ hd', extracted_unique hx hx']
    | _ hd' hb' hx' => obtain ⟨rfl, e⟩ := List.append_inj' hbs rfl; cases e; rw [hb] at hb'; cases hb'

/-! ## Non-vacuity, and the exceptions -/

private def body : Str :=
  s%"DocumentName: n\nDocumentNamespace: https://some.uri\nSPDXVersion: SPDX-2.3\nCreator: Person: p\nCreated: 2020-01-01T00:00:00Z\n"

private def bodyAttrs : List TvAttr :=
  [.value s%"DocumentName" (.line s%"n"), .value s%"DocumentNamespace" (.line s%"https://some.uri"),
   .value s%"SPDXVersion" (.line s%"SPDX-2.3"), .value s%"Creator" (.person s%"Person: p"),
   .value s%"Created" (.date s%"2020-01-01T00:00:00Z")]

private def text : Str := s%"SPDXID: SPDXRef-DOCUMENT\n" ++ body ++
  s%"PackageName: p\nSPDXID: SPDXRef-p\nPackageDownloadLocation: NONE\nFileName: f\nSPDXID: SPDXRef-f\nFileChecksum: SHA1: 0\nFileContributor: a\nFileContributor: b\nRelationship: SPDXRef-f OTHER NONE\n"

private theorem text_attrs : attrs (lex text) = .spdxId s%"SPDXRef-DOCUMENT" :: bodyAttrs ++
    [.value s%"PackageName" (.line s%"p"), .spdxId s%"SPDXRef-p", .value s%"PackageDownloadLocation" .none,
     .value s%"FileName" (.line s%"f"), .spdxId s%"SPDXRef-f", .value s%"FileChecksum" (.checksum s%"SHA1: 0"),
     .value s%"FileContributor" (.line s%"a"), .value s%"FileContributor" (.line s%"b"),
     .commented s%"Relationship" s%"SPDXRef-f OTHER NONE" none] := by decide +kernel

/-- A text with three sections; the file is contained in the package before it. -/
example (L : LicText) : (ids (preamble (attrs (lex text)))).length = 1 ∧ (sections (attrs (lex text))).length = 3 ∧
    ∃ d, parseTagValue L text = .ok d ∧ d.packages.map (·.filesAnalyzed) = [true] ∧ d.files.map (·.contributors) = [[s%"a", s%"b"]] ∧
      d.relationships = [⟨s%"SPDXRef-p", .CONTAINS, .val s%"SPDXRef-f", none⟩, ⟨s%"SPDXRef-f", .OTHER, .none, none⟩] := by
  refine ⟨by rw [text_attrs]; decide, by rw [text_attrs]; decide +kernel, ?_⟩
  unfold parseTagValue
  rw [text_attrs]
  exact ⟨_, rfl, rfl, rfl, rfl⟩

private theorem no_id {L : LicText} {c : CreationInfo} {bs : List (List TvAttr)} {d : Document} (h : Says L c bs d) (hn : bs ≠ [])
    (hb : ∀ b ∈ bs, about b = some .package ∧ ids b = []) : False := by
  have last : ∀ {bs : List (List TvAttr)} {b}, (∀ x ∈ bs ++ [b], about x = some .package ∧ ids x = []) → about b = some .package ∧ ids b = [] :=
    fun h => h _ (List.mem_append_right _ (List.mem_singleton.2 rfl))
  cases h with
  | nil => exact hn rfl
  | package _ _ hx => have := hx.spdxId; rw [(last hb).2] at this; cases this
  | _ _ ha _ => rw [(last hb).1] at ha; cases ha

/-- A second `SPDXID` before the first element becomes the identifier of that element, though its own section has none. -/
theorem id_leaks (L : LicText) :
    ∃ text d, parseTagValue L text = .ok d ∧ ¬ Says L d.creationInfo (sections (attrs (lex text))) d ∧
      (∀ b ∈ sections (attrs (lex text)), ids b = []) ∧ d.packages.map (·.spdxId) = [s%"SPDXRef-x"] := by
  have e : attrs (lex (s%"SPDXID: SPDXRef-DOCUMENT\nSPDXID: SPDXRef-x\n" ++ body ++ s%"PackageName: p\nPackageDownloadLocation: NONE\n")) =
      .spdxId s%"SPDXRef-DOCUMENT" :: .spdxId s%"SPDXRef-x" :: bodyAttrs ++
        [.value s%"PackageName" (.line s%"p"), .value s%"PackageDownloadLocation" .none] := by decide +kernel
  have hsec : sections (.spdxId s%"SPDXRef-DOCUMENT" :: .spdxId s%"SPDXRef-x" :: bodyAttrs ++
        [.value s%"PackageName" (.line s%"p"), .value s%"PackageDownloadLocation" .none]) =
      [] ++ [[.value s%"PackageName" (.line s%"p"), .value s%"PackageDownloadLocation" .none]] := by decide +kernel
  refine ⟨s%"SPDXID: SPDXRef-DOCUMENT\nSPDXID: SPDXRef-x\n" ++ body ++ s%"PackageName: p\nPackageDownloadLocation: NONE\n", ?_⟩
  unfold parseTagValue
  rw [e, hsec]
  refine ⟨_, rfl, ?_, by decide, rfl⟩
  exact fun h => no_id h (by decide) (by decide)

/-- The first `SPDXID` of the text is taken to be the document's, wherever it stands: here in the section of a package. -/
theorem id_taken (L : LicText) :
    ∃ text d, parseTagValue L text = .ok d ∧ ids (preamble (attrs (lex text))) = [] ∧ d.creationInfo.spdxId = s%"SPDXRef-p" := by
  have e : attrs (lex (body ++ s%"PackageName: p\nSPDXID: SPDXRef-p\nPackageDownloadLocation: NONE\nSPDXID: SPDXRef-q\n")) =
      bodyAttrs ++ [.value s%"PackageName" (.line s%"p"), .spdxId s%"SPDXRef-p", .value s%"PackageDownloadLocation" .none,
        .spdxId s%"SPDXRef-q"] := by decide +kernel
  refine ⟨body ++ s%"PackageName: p\nSPDXID: SPDXRef-p\nPackageDownloadLocation: NONE\nSPDXID: SPDXRef-q\n", ?_⟩
  unfold parseTagValue
  rw [e]
  exact ⟨_, rfl, by decide, rfl⟩

end Spdx.C52
