import Verif.Lemmas.TagValueInfo
import Verif.Lemmas.TagValueLayout
/- Reading back a whole tag-value file. -/
namespace Spdx
open Spec

/-! ## The line of a relationship added by the writer -/

theorem matchDatePat_space {pat v r : Str} (hp : ∀ x ∈ pat, dateChar x ' ' = false) (h : (matchDatePat pat (v ++ ' ' :: r)).isSome) :
    (matchDatePat pat v).isSome := by
  induction pat generalizing v with
  | nil => cases v <;> rfl
  | cons x pat ih =>
    cases v with
    | nil =>
      have := hp x List.mem_cons_self
      rw [List.nil_append] at h
      unfold matchDatePat at h
      rw [this] at h
      cases h
    | cons c v =>
      rw [List.cons_append] at h
      unfold matchDatePat at h ⊢
      by_cases hc : dateChar x c = true
      · rw [if_pos hc, Option.isSome_map] at h
        rw [if_pos hc, Option.isSome_map]
        exact ih (fun y hy => hp y (List.mem_cons_of_mem _ hy)) h
      · rw [if_neg hc] at h; cases h

theorem prefix_space {q p r : Str} (hq : ' ' ∉ q) (h : q <+: p ++ ' ' :: r) : q <+: p := by
  obtain ⟨t, ht⟩ := h
  induction q generalizing p with
  | nil => exact List.nil_prefix
  | cons c q ih =>
    cases p with
    | nil =>
      simp only [List.nil_append, List.cons_append, List.cons.injEq] at ht
      exact absurd (by rw [ht.1]; simp) hq
    | cons d p =>
      simp only [List.cons_append, List.cons.injEq] at ht
      rw [ht.1, List.cons_prefix_cons]
      exact ⟨rfl, ih (fun h => hq (List.mem_cons_of_mem _ h)) ht.2⟩

theorem strip_join {a m b : Str} (ha : strip a = a) (hb : strip b = b) (ha0 : a ≠ []) (hb0 : b ≠ []) : strip (a ++ m ++ b) = a ++ m ++ b := by
  rw [strip_eq_self_iff] at ha hb ⊢
  constructor
  · intro x r e
    cases a with
    | nil => exact absurd rfl ha0
    | cons y a =>
      simp only [List.cons_append, List.cons.injEq] at e
      rw [← e.1]; exact ha.1 y a rfl
  · intro x r e
    rcases List.eq_nil_or_concat b with h | ⟨l, y, h⟩
    · exact absurd h hb0
    · rw [List.concat_eq_append] at h
      subst h
      have := congrArg List.getLast? e
      simp at this
      rw [← this]; exact hb.2 y l rfl

/-- `p CONTAINS f` can be written and read. -/
theorem relTv_contains {p f : Str} (hp : Plain p) (hf : Plain f) (hps : ' ' ∉ p) (hfs : ' ' ∉ f) : RelTv (contains p f) := by
  have he : relationshipLine (contains p f) = p ++ (s%" CONTAINS ") ++ f := by
    simp [relationshipLine, contains, joinWith, RelationshipType.name, OrSpecial.text]
  have he' : p ++ (s%" CONTAINS ") ++ f = p ++ ' ' :: (s%"CONTAINS " ++ f) := by simp
  have hb : ∀ q ∈ badStarts, ' ' ∉ q := by decide +kernel
  obtain ⟨h0, hn, hs, h1, h2, h3, h4⟩ := hp.1
  refine ⟨?_, hps, ?_, fun c e => by cases e⟩
  · rw [he]
    refine oneLine_of (by simp) ?_ (strip_join hs hf.1.2.2.1 h0 hf.1.1) ?_ ?_
    · intro hm
      simp only [List.mem_append] at hm
      rcases hm with (hm | hm) | hm
      · exact hn hm
      · revert hm; decide
      · exact hf.1.2.1 hm
    · intro q hq hpre
      rw [he'] at hpre
      have := prefix_space (hb q hq) hpre
      unfold badStarts at hq
      simp only [List.cons_append, List.mem_cons, List.mem_append] at hq
      rcases hq with rfl | hq
      · exact h1 this
      · rcases hq with hq | hq
        · obtain ⟨n, hn', rfl⟩ := List.mem_map.1 hq
          exact h2 n hn' this
        · exact h3 q (by simpa using hq) this
    · intro hd
      rw [he'] at hd
      exact h4 (matchDatePat_space (by decide +kernel) hd)
  · intro s e
    have : s = f := by cases e; rfl
    subst this
    exact ⟨hfs, hf.2.2.1, hf.2.2.2⟩

/-! ## One section after the other -/

theorem foldl_snippets (l : List Snippet) (b : TvState) : l.foldl TvState.withSnippet b = { b with snippets := b.snippets ++ l } := by
  induction l generalizing b with
  | nil => simp
  | cons x l ih => rw [List.foldl_cons, ih]; simp [TvState.withSnippet]

theorem foldl_extracted (l : List ExtractedLicensingInfo) (b : TvState) :
    l.foldl (fun b e => b.withExtracted e.sorted) b = { b with extracted := b.extracted ++ l.map (·.sorted) } := by
  induction l generalizing b with
  | nil => simp
  | cons x l ih => rw [List.foldl_cons, ih]; simp [TvState.withExtracted]

theorem foldl_annotations (l : List Annotation) (b : TvState) : l.foldl TvState.withAnnotation b = { b with annotations := b.annotations ++ l } := by
  induction l generalizing b with
  | nil => simp
  | cons x l ih => rw [List.foldl_cons, ih]; simp [TvState.withAnnotation]

theorem foldl_relationships (l : List Relationship) (b : TvState) :
    l.foldl TvState.withRelationship b = { b with relationships := b.relationships ++ l } := by
  induction l generalizing b with
  | nil => simp
  | cons x l ih => rw [List.foldl_cons, ih]; simp [TvState.withRelationship]

theorem Reads.blank {L : LicText} {w : TvSteps} {b b' : TvState} (h : Reads L w b b') : Reads L (w ++ [some .blank]) b b' :=
  h.append (.skip .blank _)

theorem reads_snippets {L : LicText} (l : List Snippet) (h : ∀ x ∈ l, SnippetTv L x) {b : TvState} (hb : Settled b) :
    Reads L (l.flatMap fun s => writeSnippet L s ++ [some .blank]) b { b with snippets := b.snippets ++ l } := by
  rw [← foldl_snippets]
  exact (Reads.foldl (I := Settled) l (fun x hx b hb => ⟨(reads_snippet (h x hx) hb).blank, hb.withSnippet x⟩) b hb).1

theorem reads_extracteds {L : LicText} (l : List ExtractedLicensingInfo) (h : ∀ x ∈ l, ExtractedTv x) {b : TvState} (hb : Settled b) :
    Reads L (l.flatMap fun e => writeExtracted e ++ [some .blank]) b { b with extracted := b.extracted ++ l.map (·.sorted) } := by
  rw [← foldl_extracted]
  exact (Reads.foldl (I := Settled) l (fun x hx b hb => ⟨(reads_extracted (h x hx) hb).blank, hb.withExtracted _⟩) b hb).1

theorem reads_annotations {L : LicText} (l : List Annotation) (h : ∀ x ∈ l, AnnotationTv x) {b : TvState} (hb : Settled b) :
    Reads L (l.flatMap fun a => writeAnnotation a ++ [some .blank]) b { b with annotations := b.annotations ++ l } := by
  rw [← foldl_annotations]
  exact (Reads.foldl (I := Settled) l (fun x hx b hb => ⟨(reads_annotation (h x hx) hb).blank, hb.withAnnotation x⟩) b hb).1

theorem reads_relationships {L : LicText} (l : List Relationship) (h : ∀ x ∈ l, RelTv x) {b : TvState} (hb : Settled b) :
    Reads L (l.flatMap writeRelationship) b { b with relationships := b.relationships ++ l } := by
  rw [← foldl_relationships]
  exact (Reads.foldl (I := Settled) l (fun x hx b hb => ⟨reads_relationship (h x hx) hb, hb.withRelationship x⟩) b hb).1

/-- What is known of a file with its snippets. -/
def TvFileOk (L : LicText) (f : TvFile) : Prop := FileTv L f.file ∧ ∀ s ∈ f.snippets, SnippetTv L s

theorem reads_tvFile {L : LicText} {f : TvFile} (h : TvFileOk L f) {b : TvState} (hb : Settled b) :
    Reads L (writeTvFile L f) b { b.withFile f.file.sorted with snippets := (b.withFile f.file.sorted).snippets ++ f.snippets } := by
  unfold writeTvFile
  exact (reads_file h.1 hb).blank.append (reads_snippets f.snippets h.2 (hb.withFile _))

/-- Files before any package. -/
theorem reads_looseFiles {L : LicText} (l : List TvFile) (h : ∀ f ∈ l, TvFileOk L f) {b : TvState} (hb : Settled b) (hp : b.packages = none) :
    Reads L (l.flatMap (writeTvFile L)) b
      { b with files := b.files ++ l.map (·.file.sorted), snippets := b.snippets ++ l.flatMap (·.snippets) } := by
  induction l generalizing b with
  | nil => simpa using Reads.nil L b
  | cons f l ih =>
    have hw : b.withFile f.file.sorted = { b with files := b.files ++ [f.file.sorted] } := by
      unfold TvState.withFile TvState.addContains
      simp only [hp]
    have h1 := reads_tvFile (h f List.mem_cons_self) hb
    rw [hw] at h1
    have h2 := ih (fun g hg => h g (List.mem_cons_of_mem _ hg)) (b := { b with files := b.files ++ [f.file.sorted], snippets := b.snippets ++ f.snippets })
      ⟨hb.cls, hb.elem, hb.elemLog, hb.hasId⟩ hp
    rw [List.flatMap_cons]
    have := h1.append h2
    simp only [List.append_assoc, List.map_cons, List.flatMap_cons, List.cons_append, List.nil_append] at this ⊢
    exact this

/-- Files after a package. -/
theorem reads_groupFiles {L : LicText} (p : Package) (l : List TvFile) (h : ∀ f ∈ l, TvFileOk L f) {b : TvState} (hb : Settled b) (ps : List Package)
    (hp : b.packages = some (ps ++ [p])) (hn : (l.map (·.file.spdxId)).Nodup)
    (hr : ∀ f ∈ l, contains p.spdxId f.file.spdxId ∉ b.relationships) :
    Reads L (l.flatMap (writeTvFile L)) b
      { b with files := b.files ++ l.map (·.file.sorted), snippets := b.snippets ++ l.flatMap (·.snippets),
               relationships := b.relationships ++ l.map (fun f => contains p.spdxId f.file.spdxId) } := by
  induction l generalizing b with
  | nil => simpa using Reads.nil L b
  | cons f l ih =>
    rw [List.map_cons, List.nodup_cons] at hn
    have hw : b.withFile f.file.sorted =
        { b with files := b.files ++ [f.file.sorted], relationships := b.relationships ++ [contains p.spdxId f.file.spdxId] } := by
      unfold TvState.withFile TvState.addContains
      simp only [hp, List.getLast?_concat]
      exact if_neg (hr f List.mem_cons_self)
    have h1 := reads_tvFile (h f List.mem_cons_self) hb
    rw [hw] at h1
    have h2 := ih (fun g hg => h g (List.mem_cons_of_mem _ hg))
      (b := { b with files := b.files ++ [f.file.sorted], snippets := b.snippets ++ f.snippets,
                     relationships := b.relationships ++ [contains p.spdxId f.file.spdxId] })
      ⟨hb.cls, hb.elem, hb.elemLog, hb.hasId⟩ hp hn.2 (by
        intro g hg hm
        rcases List.mem_append.1 hm with hm | hm
        · exact hr g (List.mem_cons_of_mem _ hg) hm
        · simp only [contains, List.mem_singleton, Relationship.mk.injEq, OrSpecial.val.injEq, true_and, and_true] at hm
          exact hn.1 (List.mem_map.2 ⟨g, hg, hm⟩))
    rw [List.flatMap_cons]
    have := h1.append h2
    simp only [List.append_assoc, List.map_cons, List.flatMap_cons, List.cons_append, List.nil_append] at this ⊢
    exact this

/-- The packages read so far. -/
def morePackages (o : Option (List Package)) (l : List TvGroup) : Option (List Package) := l.foldl (fun o g => some (o.getD [] ++ [g.package])) o

theorem morePackages_getD (o : Option (List Package)) (l : List TvGroup) : (morePackages o l).getD [] = o.getD [] ++ l.map (·.package) := by
  unfold morePackages
  induction l generalizing o with
  | nil => simp
  | cons g l ih => rw [List.foldl_cons, ih]; simp

theorem reads_groups {L : LicText} (l : List TvGroup) (h : ∀ g ∈ l, PackageTv L g.package ∧ ∀ f ∈ g.files, TvFileOk L f) {b : TvState} (hb : Settled b)
    (hn : ((l.flatMap (·.files)).map (·.file.spdxId)).Nodup)
    (hr : ∀ f ∈ l.flatMap (·.files), ∀ p, contains p f.file.spdxId ∉ b.relationships) :
    Reads L (l.flatMap (writeGroup L)) b
      { b with packages := morePackages b.packages l,
               files := b.files ++ (l.flatMap (·.files)).map (·.file.sorted),
               snippets := b.snippets ++ (l.flatMap (·.files)).flatMap (·.snippets),
               relationships := b.relationships ++ l.flatMap fun g => g.files.map fun f => contains g.package.spdxId f.file.spdxId } := by
  induction l generalizing b with
  | nil => simpa [morePackages] using Reads.nil L b
  | cons g l ih =>
    rw [List.flatMap_cons, List.map_append, List.nodup_append] at hn
    have h1 : Reads L (writeGroup L g) b _ := (reads_package (h g List.mem_cons_self).1 hb).blank.append
      (reads_groupFiles g.package g.files (h g List.mem_cons_self).2 (hb.withPackage g.package) (b.packages.getD []) rfl hn.1
        (fun f hf => hr f (List.mem_flatMap.2 ⟨g, List.mem_cons_self, hf⟩) _))
    have h2 := ih (fun g hg => h g (List.mem_cons_of_mem _ hg))
      (b := { b with packages := some (b.packages.getD [] ++ [g.package]), files := b.files ++ g.files.map (·.file.sorted),
                     snippets := b.snippets ++ g.files.flatMap (·.snippets),
                     relationships := b.relationships ++ g.files.map fun f => contains g.package.spdxId f.file.spdxId })
      ⟨hb.cls, hb.elem, hb.elemLog, hb.hasId⟩ hn.2.1 (by
        intro f hf p hm
        rcases List.mem_append.1 hm with hm | hm
        · obtain ⟨g', hg', hf'⟩ := List.mem_flatMap.1 hf
          exact hr f (List.mem_flatMap.2 ⟨g', List.mem_cons_of_mem _ hg', hf'⟩) p hm
        · obtain ⟨f', hf', e⟩ := List.mem_map.1 hm
          simp only [contains, Relationship.mk.injEq, OrSpecial.val.injEq, true_and, and_true] at e
          exact hn.2.2 _ (List.mem_map.2 ⟨f', hf', rfl⟩) _ (List.mem_map.2 ⟨f, hf, rfl⟩) e.2)
    rw [List.flatMap_cons]
    have := h1.append h2
    simp only [List.append_assoc, List.map_append, List.flatMap_cons, List.flatMap_append] at this ⊢
    exact this

/-- The parts of the layout can be written and read. -/
structure LayoutTv (L : LicText) (l : TvLayout) : Prop where
  snippets : ∀ s ∈ l.snippets, SnippetTv L s
  files : ∀ f ∈ l.tvFiles, TvFileOk L f
  packages : ∀ p ∈ l.packages, PackageTv L p
  extracted : ∀ e ∈ l.extracted, ExtractedTv e
  relationships : ∀ r ∈ l.relationships, RelTv r
  annotations : ∀ a ∈ l.annotations, AnnotationTv a
  ids : (l.allFiles.map (·.spdxId)).Nodup

/-- What is read. -/
def TvLayout.document (l : TvLayout) (c : CreationInfo) : Document :=
  ⟨c, l.packages, l.allFiles.map (·.sorted), l.allSnippets, l.annotations, l.implied ++ l.relationships, l.extracted.map (·.sorted)⟩

theorem reads_layout {L : LicText} {l : TvLayout} {c : CreationInfo} (hc : InfoTv c) (h : LayoutTv L l) :
    (writeLayout L c l).raises = false ∧ parseTagValue L (TvSteps.text (writeLayout L c l)) = .ok (TvLayout.document l c) := by
  have hr0 : Runs L ([some (.heading s%"## Document Information")] ++ writeCreationInfo c ++ [some .blank]) {} (infoProg (infoFields c)) :=
    ((Runs.skip {} (.heading (h := s%"# Document Information") (by decide))).append (runs_info hc)).append (.skip _ .blank)
  have hg : ∀ {α : Type} [DecidableEq α] (l : List α) (h : Str), '\n' ∉ h → Gives (if l = [] then [] else [some (.heading ('#' :: h))]) [] := by
    intro α _ l h hh
    split
    · exact .nil
    · exact .heading hh
  have hfg : ∀ f ∈ l.groups.flatMap (·.files), f ∈ l.tvFiles := fun f hf => List.mem_append_right _ hf
  have hids := h.ids
  have hids' : ((l.groups.flatMap (·.files)).map (·.file.spdxId)).Nodup := by
    unfold TvLayout.allFiles TvLayout.tvFiles at hids
    rw [List.map_map, List.map_append, List.nodup_append] at hids
    exact hids.2.1
  have r1 := reads_snippets (L := L) l.snippets h.snippets (settled_info c)
  have r2 := reads_looseFiles (L := L) l.files (fun f hf => h.files f (List.mem_append_left _ hf))
    (b := { infoProg (infoFields c) with snippets := l.snippets }) ⟨rfl, rfl, rfl, (settled_info c).hasId⟩ rfl
  have r3 := reads_groups (L := L) l.groups (fun g hg => ⟨h.packages _ (List.mem_map.2 ⟨g, hg, rfl⟩),
      fun f hf => h.files f (hfg f (List.mem_flatMap.2 ⟨g, hg, hf⟩))⟩)
    (b := { infoProg (infoFields c) with files := l.files.map (·.file.sorted), snippets := l.snippets ++ l.files.flatMap (·.snippets) })
    ⟨rfl, rfl, rfl, (settled_info c).hasId⟩ hids' (fun _ _ _ hm => by cases hm)
  obtain ⟨s3, e3⟩ : ∃ s3 : TvState, s3 = { infoProg (infoFields c) with
      packages := morePackages none l.groups, files := l.allFiles.map (·.sorted), snippets := l.allSnippets, relationships := l.implied } := ⟨_, rfl⟩
  have r123 : Reads L (l.snippets.flatMap (fun s => writeSnippet L s ++ [some .blank]) ++ l.files.flatMap (writeTvFile L) ++
      l.groups.flatMap (writeGroup L)) (infoProg (infoFields c)) s3 := by
    have := (r1.append r2).append r3
    rw [e3]
    unfold TvLayout.allFiles TvLayout.allSnippets TvLayout.implied TvLayout.tvFiles
    simp only [List.map_append, List.flatMap_append, List.map_map, ← List.append_assoc]
    exact this
  have hs3 : Settled s3 := by subst e3; exact ⟨rfl, rfl, rfl, (settled_info c).hasId⟩
  have r4 := reads_extracteds (L := L) l.extracted h.extracted hs3
  have r5 := reads_relationships (L := L) l.relationships h.relationships
    (b := { s3 with extracted := s3.extracted ++ l.extracted.map (·.sorted) }) ⟨hs3.cls, hs3.elem, hs3.elemLog, hs3.hasId⟩
  have r6 := reads_annotations (L := L) l.annotations h.annotations
    (b := { s3 with extracted := s3.extracted ++ l.extracted.map (·.sorted), relationships := s3.relationships ++ l.relationships })
    ⟨hs3.cls, hs3.elem, hs3.elemLog, hs3.hasId⟩
  have g1 : Gives (if l.extracted = [] then [] else [some (.heading s%"## License Information")]) [] := by
    split
    · exact .nil
    · exact .heading (h := s%"# License Information") (by decide)
  have g2 : Gives (if l.relationships = [] then [] else [some (.heading s%"## Relationships")]) [] := by
    split
    · exact .nil
    · exact .heading (h := s%"# Relationships") (by decide)
  have g3 : Gives (if l.annotations = [] then [] else [some (.heading s%"## Annotations")]) [] := by
    split
    · exact .nil
    · exact .heading (h := s%"# Annotations") (by decide)
  have all := ((r123.append (.skip g1 _)).append r4).append (((Reads.skip g2 _).append r5.blank).append ((Reads.skip g3 _).append r6))
  obtain ⟨s, hrun, hfin⟩ := all (infoProg (infoFields c)) rfl
  have hw : writeLayout L c l = ([some (.heading s%"## Document Information")] ++ writeCreationInfo c ++ [some .blank]) ++
      (l.snippets.flatMap (fun s => writeSnippet L s ++ [some .blank]) ++ l.files.flatMap (writeTvFile L) ++ l.groups.flatMap (writeGroup L) ++
      (if l.extracted = [] then [] else [some (.heading s%"## License Information")]) ++
      l.extracted.flatMap (fun e => writeExtracted e ++ [some .blank]) ++
      ((if l.relationships = [] then [] else [some (.heading s%"## Relationships")]) ++ (l.relationships.flatMap writeRelationship ++ [some .blank]) ++
      ((if l.annotations = [] then [] else [some (.heading s%"## Annotations")]) ++ l.annotations.flatMap (fun a => writeAnnotation a ++ [some .blank])))) := by
    unfold writeLayout
    simp only [List.append_assoc]
  rw [hw]
  obtain ⟨p1, p2⟩ := (hr0.append hrun).parse
  refine ⟨p1, p2.trans ?_⟩
  unfold TvState.result
  rw [hfin, e3]
  show (match construct s%"CreationInfo" (mkInfo (fieldsOf (infoFields c))) with | .ok c => _ | .error e => _) = _
  rw [mkInfo_fields c hc.creators]
  show Except.ok (Document.mk c ((morePackages none l.groups).getD []) _ _ _ _ _) = _
  rw [morePackages_getD]
  unfold TvLayout.document TvLayout.packages
  rfl

end Spdx
