import Verif.Model.Writing
import Verif.Props.C03
import Verif.Lemmas.TagValueDates
import Verif.Props.C55
import Verif.Props.C56
import Verif.Spec.Example
import Verif.Model.JsonText
/-
C94: The JSON, YAML, XML and tag-value writers produce a document exactly if every date in it lies in the years 1 to 9999 once it is
expressed in UTC; and a document that was read can always be written again.
-/
namespace Spdx.C94
open Spec.JsonSays
open Spec.RdfSays (All2)

/-- The dates of a document. -/
def dates (d : Document) : List DateTime :=
  d.creationInfo.created :: d.annotations.map (·.annotationDate) ++
    d.packages.flatMap fun p => p.releaseDate.toList ++ p.builtDate.toList ++ p.validUntilDate.toList

/-- The date can be expressed in UTC: it has no offset, or the moment lies in the years 1 to 9999. -/
def InRange (t : DateTime) : Prop := ∀ off, t.tz = some off → (DateTime.ofSeconds (t.localSeconds - off) t.micro).isSome

private theorem iso_iff (t : DateTime) : (datetimeToIso t).isSome ↔ InRange t := by
  unfold datetimeToIso toNaiveUtc InRange
  cases h : t.tz <;> simp

private theorem mapM_isSome {α β : Type} (f : α → Option β) (l : List α) : (l.mapM f).isSome ↔ ∀ x ∈ l, (f x).isSome := by
  induction l with
  | nil => simp
  | cons x l ih =>
    rw [List.mapM_cons]
    cases hx : f x with
    | none => simp [hx]
    | some y =>
      cases hl : l.mapM f with
      | none => rw [hl] at ih; simp only [Option.isSome_none, Bool.false_eq_true, false_iff] at ih; simp [hx]; simpa using ih
      | some ys => rw [hl] at ih; simp only [Option.isSome_some, true_iff] at ih; simp [hx]; simpa using ih

private theorem annotation_iff (a : Annotation) : (annotationToJson a).isSome ↔ InRange a.annotationDate := by
  rw [← iso_iff]
  unfold annotationToJson
  cases datetimeToIso a.annotationDate <;> simp

private theorem date_iff (t : Option DateTime) : (dateToJson t).isSome ↔ ∀ x ∈ t.toList, InRange x := by
  cases t with
  | none => simp [dateToJson]
  | some t => simp [dateToJson, ← iso_iff]

private theorem annotationsOf_iff (d : Document) (id : Str) :
    (annotationsOf d id).isSome ↔ ∀ a ∈ d.annotations, a.spdxId = id → InRange a.annotationDate := by
  have h := mapM_isSome annotationToJson (d.annotations.filter (fun a => a.spdxId = id))
  unfold annotationsOf
  have : (∀ a ∈ d.annotations, a.spdxId = id → InRange a.annotationDate) ↔
      ∀ x ∈ d.annotations.filter (fun a => a.spdxId = id), (annotationToJson x).isSome := by
    simp only [List.mem_filter, decide_eq_true_eq, annotation_iff, and_imp]
  rw [this, ← h]
  cases List.mapM annotationToJson (d.annotations.filter (fun a => a.spdxId = id)) <;> simp

private theorem info_iff (c : CreationInfo) : (creationInfoToJson c).isSome ↔ InRange c.created := by
  rw [← iso_iff]
  unfold creationInfoToJson
  cases datetimeToIso c.created <;> simp

private theorem file_iff (L : LicText) (d : Document) (f : File) : (fileToJson L d f).isSome ↔ (annotationsOf d f.spdxId).isSome := by
  unfold fileToJson
  cases annotationsOf d f.spdxId <;> simp

private theorem snippet_iff (L : LicText) (d : Document) (s : Snippet) :
    (snippetToJson L d s).isSome ↔ (annotationsOf d s.spdxId).isSome := by
  unfold snippetToJson
  cases annotationsOf d s.spdxId <;> simp

private theorem package_iff (L : LicText) (d : Document) (p : Package) : (packageToJson L d p).isSome ↔
    (annotationsOf d p.spdxId).isSome ∧ (dateToJson p.releaseDate).isSome ∧ (dateToJson p.builtDate).isSome ∧
      (dateToJson p.validUntilDate).isSome := by
  unfold packageToJson
  cases annotationsOf d p.spdxId <;> cases dateToJson p.releaseDate <;> cases dateToJson p.builtDate <;>
    cases dateToJson p.validUntilDate <;> simp

private theorem document_iff (L : LicText) (d : Document) : (documentToJson L d).isSome ↔
    ((d.annotations.filter (fun a => a.spdxId ∉ containedIds d)).mapM annotationToJson).isSome ∧
      (creationInfoToJson d.creationInfo).isSome ∧ (d.packages.mapM (packageToJson L d)).isSome ∧
      (d.files.mapM (fileToJson L d)).isSome ∧ (d.snippets.mapM (snippetToJson L d)).isSome := by
  unfold documentToJson
  cases (d.annotations.filter (fun a => a.spdxId ∉ containedIds d)).mapM annotationToJson <;>
    cases creationInfoToJson d.creationInfo <;> cases d.packages.mapM (packageToJson L d) <;>
    cases d.files.mapM (fileToJson L d) <;> cases d.snippets.mapM (snippetToJson L d) <;> simp

/-- A document has a JSON tree exactly if each of its dates can be expressed in UTC. -/
theorem json_iff (L : LicText) (d : Document) : (documentToJson L d).isSome ↔ ∀ t ∈ dates d, InRange t := by
  rw [document_iff, mapM_isSome, mapM_isSome, mapM_isSome, mapM_isSome, info_iff]
  simp only [package_iff, file_iff, snippet_iff, annotationsOf_iff, date_iff, annotation_iff]
  constructor
  · rintro ⟨own, info, ps, fs, ss⟩ t ht
    simp only [dates, List.cons_append, List.mem_cons, List.mem_append, List.mem_map, List.mem_flatMap] at ht
    rcases ht with rfl | ⟨a, ha, rfl⟩ | ⟨p, hp, h⟩
    · exact info
    · by_cases hc : a.spdxId ∈ containedIds d
      · simp only [containedIds, List.mem_append, List.mem_map] at hc
        rcases hc with (⟨f, hf, e⟩ | ⟨p, hp, e⟩) | ⟨s, hs, e⟩
        · exact fs f hf a ha e.symm
        · exact (ps p hp).1 a ha e.symm
        · exact ss s hs a ha e.symm
      · exact own a (by simpa [List.mem_filter, ha] using hc)
    · obtain ⟨-, r, b, v⟩ := ps p hp
      rcases h with (h | h) | h
      · exact r t h
      · exact b t h
      · exact v t h
  · intro h
    have ha : ∀ a ∈ d.annotations, InRange a.annotationDate := fun a ha => h _ (by
      simp only [dates, List.cons_append, List.mem_cons, List.mem_append, List.mem_map]
      exact .inr (.inl ⟨a, ha, rfl⟩))
    have hp : ∀ p ∈ d.packages, ∀ t, t ∈ p.releaseDate.toList ++ p.builtDate.toList ++ p.validUntilDate.toList → InRange t :=
      fun p hp t ht => h _ (by
        simp only [dates, List.cons_append, List.mem_cons, List.mem_append, List.mem_flatMap]
        exact .inr (.inr ⟨p, hp, by simpa only [List.mem_append] using ht⟩))
    refine ⟨fun a hm => ha a (List.mem_filter.1 hm).1, h _ (by simp [dates]), fun p hm => ⟨fun a hm _ => ha a hm, ?_, ?_, ?_⟩,
      fun f _ a hm _ => ha a hm, fun s _ a hm _ => ha a hm⟩
    · exact fun t ht => hp p hm t (by simp [ht])
    · exact fun t ht => hp p hm t (by simp [ht])
    · exact fun t ht => hp p hm t (by simp [ht])

/-! ### Tag-value -/

private theorem raises_iff (w : TvSteps) : w.raises = true ↔ none ∈ w := by
  unfold TvSteps.raises
  rw [List.any_eq_true]
  constructor
  · rintro ⟨x, hx, h⟩
    rwa [Option.isNone_iff_eq_none.1 h] at hx
  · exact fun h => ⟨none, h, rfl⟩

private theorem q_value (t v : Str) : none ∉ writeValue t v := by simp [writeValue]
private theorem q_value? (t : Str) (v : Option Str) : none ∉ writeValue? t v := by cases v <;> simp [writeValue?, writeValue]
private theorem q_text (t v : Str) : none ∉ writeText t v := by unfold writeText; split <;> simp [writeValue]
private theorem q_text? (t : Str) (v : Option Str) : none ∉ writeText? t v := by
  cases v with
  | none => simp [writeText?]
  | some v => simpa [writeText?] using q_text t v
private theorem q_special? (t : Str) (v : Option (OrSpecial Str)) : none ∉ writeTextSpecial? t v := by
  cases v with
  | none => simp [writeTextSpecial?]
  | some v => cases v <;> simp [writeTextSpecial?, q_text, q_value]
private theorem q_range (t : Str) (v : Option (Int × Int)) : none ∉ writeRange t v := by cases v <;> simp [writeRange, writeValue]
private theorem q_actor (t : Str) (v : Option (OrNoAssertion Actor)) : none ∉ writeActor? t v := q_value? _ _
private theorem q_checksum (t : Str) (c : Checksum) : none ∉ writeChecksum t c := by
  have h : ∀ a, (algorithmToTv a).isSome := by intro a; cases a <;> decide +kernel
  have := h c.algorithm
  unfold writeChecksum checksumToTv
  cases ha : algorithmToTv c.algorithm with
  | none => simp [ha] at this
  | some s => simpa using q_value _ _
private theorem date_step (t : Str) (x : DateTime) : none ∈ writeDate t x ↔ ¬ InRange x := by
  rw [← iso_iff]
  unfold writeDate
  cases datetimeToIso x <;> simp [writeValue]
private theorem dates_step (t : Str) (x : Option DateTime) : none ∈ x.toList.flatMap (writeDate t) ↔ ∃ y ∈ x.toList, ¬ InRange y := by
  simp only [List.mem_flatMap, date_step]
private theorem q_flatMap {α : Type} (f : α → TvSteps) (l : List α) (h : ∀ x, none ∉ f x) : none ∉ l.flatMap f := by
  simp only [List.mem_flatMap, not_exists, not_and]
  exact fun x _ => h x
private theorem q_heading (b : Bool) (l : TvSteps) (h : none ∉ l) : none ∉ writeHeading b l := by
  cases b
  · simp [writeHeading]
  · simpa [writeHeading] using h
private theorem q_externalRef (r : ExternalPackageRef) : none ∉ writeExternalRef r := by
  unfold writeExternalRef
  cases r.comment with
  | none => simp [q_value]
  | some c => by_cases hc : c = [] <;> simp [q_value, q_text, hc]

private theorem info_step (c : CreationInfo) : none ∈ writeCreationInfo c ↔ ¬ InRange c.created := by
  have h1 : none ∉ c.externalDocumentRefs.flatMap (fun r => writeValue s%"ExternalDocumentRef" (externalDocumentRefToTv r)) :=
    q_flatMap _ _ fun _ => q_value _ _
  have h2 : none ∉ c.creators.flatMap (fun a => writeValue s%"Creator" a.toSerialized) := q_flatMap _ _ fun _ => q_value _ _
  have h3 : none ∉ writeHeading (!c.externalDocumentRefs.isEmpty) [some .blank, some (.heading s%"## External Document References")] :=
    q_heading _ _ (by simp)
  unfold writeCreationInfo
  simp only [List.mem_append, q_value, q_value?, q_text?, h1, h2, h3, date_step, false_or, or_false]
  simp

private theorem package_step (L : LicText) (p : Package) : none ∈ writePackage L p ↔
    ∃ t ∈ p.releaseDate.toList ++ p.builtDate.toList ++ p.validUntilDate.toList, ¬ InRange t := by
  have h1 : none ∉ p.checksums.flatMap (writeChecksum s%"PackageChecksum") := q_flatMap _ _ fun _ => q_checksum _ _
  have h2 : none ∉ p.licenseInfoFromFiles.flatMap (fun l => writeValue s%"PackageLicenseInfoFromFiles" (L.str l)) :=
    q_flatMap _ _ fun _ => q_value _ _
  have h3 : none ∉ p.externalReferences.flatMap writeExternalRef := q_flatMap _ _ q_externalRef
  have h4 : none ∉ p.attributionTexts.flatMap (writeText s%"PackageAttributionText") := q_flatMap _ _ fun _ => q_text _ _
  have h5 : none ∉ ([some (.heading s%"## Package Information")] : TvSteps) := by simp
  unfold writePackage
  simp only [List.mem_append, q_value, q_value?, q_text?, q_special?, q_actor, h1, h2, h3, h4, h5, dates_step, false_or, or_false]
  constructor
  · rintro ((⟨t, h, n⟩ | ⟨t, h, n⟩) | ⟨t, h, n⟩)
    · exact ⟨t, .inl (.inl h), n⟩
    · exact ⟨t, .inl (.inr h), n⟩
    · exact ⟨t, .inr h, n⟩
  · rintro ⟨t, (h | h) | h, n⟩
    · exact .inl (.inl ⟨t, h, n⟩)
    · exact .inl (.inr ⟨t, h, n⟩)
    · exact .inr ⟨t, h, n⟩

private theorem q_file (L : LicText) (f : File) : none ∉ writeFile L f := by
  have h1 : none ∉ f.fileTypes.flatMap (fun t => writeValue s%"FileType" t.name) := q_flatMap _ _ fun _ => q_value _ _
  have h2 : none ∉ f.checksums.flatMap (writeChecksum s%"FileChecksum") := q_flatMap _ _ fun _ => q_checksum _ _
  have h3 : none ∉ f.licenseInfoInFile.flatMap (fun l => writeValue s%"LicenseInfoInFile" (L.str l)) := q_flatMap _ _ fun _ => q_value _ _
  have h4 : none ∉ (sortStr f.contributors).flatMap (writeValue s%"FileContributor") := q_flatMap _ _ fun _ => q_value _ _
  have h5 : none ∉ f.attributionTexts.flatMap (writeText s%"FileAttributionText") := q_flatMap _ _ fun _ => q_text _ _
  have h6 : none ∉ ([some (.heading s%"## File Information")] : TvSteps) := by simp
  unfold writeFile
  simp only [List.mem_append, q_value, q_value?, q_text?, q_special?, h1, h2, h3, h4, h5, h6, or_false, not_false_eq_true]

private theorem q_snippet (L : LicText) (s : Snippet) : none ∉ writeSnippet L s := by
  have h1 : none ∉ s.licenseInfoInSnippet.flatMap (fun l => writeValue s%"LicenseInfoInSnippet" (L.str l)) :=
    q_flatMap _ _ fun _ => q_value _ _
  have h2 : none ∉ s.attributionTexts.flatMap (writeText s%"SnippetAttributionText") := q_flatMap _ _ fun _ => q_text _ _
  have h3 : none ∉ ([some (.heading s%"## Snippet Information")] : TvSteps) := by simp
  unfold writeSnippet
  simp only [List.mem_append, q_value, q_value?, q_text?, q_special?, q_range, h1, h2, h3, or_false, not_false_eq_true]

private theorem annotation_step (a : Annotation) : none ∈ writeAnnotation a ↔ ¬ InRange a.annotationDate := by
  unfold writeAnnotation
  simp only [List.mem_append, q_value, q_text, date_step, false_or, or_false]

private theorem q_relationship (r : Relationship) : none ∉ writeRelationship r := by
  unfold writeRelationship
  simp only [List.mem_append, q_value, q_text?, or_false, not_false_eq_true]

private theorem q_extracted (e : ExtractedLicensingInfo) : none ∉ writeExtracted e := by
  have h1 : none ∉ (sortStr e.crossReferences).flatMap (writeValue s%"LicenseCrossReference") := q_flatMap _ _ fun _ => q_value _ _
  unfold writeExtracted
  simp only [List.mem_append, q_value?, q_text?, h1, or_false, not_false_eq_true]

private theorem q_blank {w : TvSteps} (h : none ∉ w) : none ∉ w ++ [some .blank] := by simpa using h

private theorem q_fileWithSnippets (L : LicText) (sn : Dict Str (List Snippet)) (f : File) : none ∉ writeFileWithSnippets L sn f := by
  have h1 : none ∉ ((sn.get? f.spdxId).getD []).flatMap (fun s => writeSnippet L s ++ [some .blank]) :=
    q_flatMap _ _ fun s => q_blank (q_snippet L s)
  unfold writeFileWithSnippets
  rw [List.mem_append]
  exact fun h => h.elim (q_blank (q_file L f)) h1

private theorem packaged_files (L : LicText) (sn : Dict Str (List Snippet)) (id : Str) (fs : List File) (s : PackageLoop) :
    none ∈ (fs.foldl (packagedFileStep L sn id) s).steps ↔ none ∈ s.steps := by
  induction fs generalizing s with
  | nil => rfl
  | cons f fs ih =>
    rw [List.foldl_cons, ih]
    unfold packagedFileStep
    split
    · rfl
    · simp [q_fileWithSnippets]

private theorem packages_loop (L : LicText) (sn : Dict Str (List Snippet)) (c : Dict Str (List File)) (ps : List Package) (s : PackageLoop) :
    none ∈ (ps.foldl (packageStep L sn c) s).steps ↔ none ∈ s.steps ∨ ∃ p ∈ ps, none ∈ writePackage L p := by
  induction ps generalizing s with
  | nil => simp
  | cons p ps ih =>
    rw [List.foldl_cons, ih]
    unfold packageStep
    rw [packaged_files]
    simp [or_assoc]

private theorem steps_iff (L : LicText) (d : Document) : none ∈ writeTagValue L d ↔ ∃ t ∈ dates d, ¬ InRange t := by
  unfold writeTagValue
  have h1 : ∀ l : List Snippet, none ∉ l.flatMap (fun s => writeSnippet L s ++ [some .blank]) := fun l =>
    q_flatMap _ _ fun s => q_blank (q_snippet L s)
  have h2 : ∀ (l : List File) sn, none ∉ l.flatMap (writeFileWithSnippets L sn) := fun l sn => q_flatMap _ _ (q_fileWithSnippets L sn)
  have h3 : none ∉ d.extractedLicensingInfo.flatMap (fun e => writeExtracted e ++ [some .blank]) :=
    q_flatMap _ _ fun e => q_blank (q_extracted e)
  have h4 : ∀ l : List Relationship, none ∉ l.flatMap writeRelationship := fun l => q_flatMap _ _ q_relationship
  have h5 : ∀ x : TvLine, none ∉ ([some x] : TvSteps) := fun x => by simp
  have h6 : ∀ b x, none ∉ writeHeading b [some x] := fun b x => q_heading _ _ (h5 x)
  have h7 : none ∈ d.annotations.flatMap (fun a => writeAnnotation a ++ [some .blank]) ↔ ∃ a ∈ d.annotations, ¬ InRange a.annotationDate := by
    simp only [List.mem_flatMap, List.mem_append, annotation_step, h5, or_false]
  simp only [List.mem_append, h1, h2, h3, h4, h5, h6, h7, info_step, packages_loop, package_step, false_or, or_false, List.not_mem_nil]
  simp only [dates, List.cons_append, List.mem_cons, List.mem_append, List.mem_map, List.mem_flatMap]
  constructor
  · rintro ((h | ⟨p, hp, t, ht, n⟩) | ⟨a, ha, n⟩)
    · exact ⟨_, .inl rfl, h⟩
    · exact ⟨t, .inr (.inr ⟨p, hp, ht⟩), n⟩
    · exact ⟨_, .inr (.inl ⟨a, ha, rfl⟩), n⟩
  · rintro ⟨t, rfl | ⟨a, ha, rfl⟩ | ⟨p, hp, ht⟩, n⟩
    · exact .inl (.inl n)
    · exact .inr ⟨a, ha, n⟩
    · exact .inl (.inr ⟨p, hp, t, ht, n⟩)

/-- The tag-value writer writes the document to its end exactly if each of its dates can be expressed in UTC. -/
theorem tag_value_iff (L : LicText) (d : Document) : (writeTagValue L d).raises = false ↔ ∀ t ∈ dates d, InRange t := by
  have h := (raises_iff _).trans (steps_iff L d)
  rw [← Bool.not_eq_true, h]
  simp only [not_exists, not_and, Classical.not_not]

/-- So a document can be written as tag-value exactly if it can be written as JSON. -/
theorem same_documents (L : LicText) (d : Document) : (writeTagValue L d).raises = false ↔ (documentToJson L d).isSome :=
  (tag_value_iff L d).trans (json_iff L d).symm

/-! ### What was read -/

private theorem all2_mem {α β : Type} {R : α → β → Prop} {l : List α} {m : List β} (h : All2 R l m) : ∀ y ∈ m, ∃ x, R x y := by
  induction h with
  | nil => simp
  | cons r _ ih =>
    intro y hy
    rcases List.mem_cons.1 hy with rfl | hy
    · exact ⟨_, r⟩
    · exact ih y hy

private theorem optList_mem {α : Type} {R : Json → α → Prop} {v : Json} {l : List α} (h : OptList R v l) : ∀ y ∈ l, ∃ x, R x y := by
  rcases h with ⟨-, rfl⟩ | ⟨-, _, -, h⟩
  · simp
  · exact all2_mem h

private theorem date_naive {v : Json} {t : DateTime} (h : Date v t) : t.tz = none := by
  obtain ⟨s, -, h⟩ := h
  exact (C03.read_valid s t h).2.1

private theorem field_naive {v : Json} {x : Option DateTime} (h : Field Date v x) : ∀ t ∈ x.toList, t.tz = none := by
  rcases h with ⟨-, rfl⟩ | ⟨-, a, h, rfl⟩
  · simp
  · intro t ht
    obtain rfl : t = a := by simpa using ht
    exact date_naive h

private theorem annotations_naive {o : Obj} {l : List Annotation} (h : Annotations o l) : ∀ a ∈ l, a.annotationDate.tz = none := by
  intro a ha
  obtain ⟨_, _, -, h⟩ := optList_mem h a ha
  exact date_naive h.annotationDate.2

private theorem all_naive {es : List Json} {l : List Annotation} (h : AllAnnotations es l) : ∀ a ∈ l, a.annotationDate.tz = none := by
  obtain ⟨ls, h, rfl⟩ := h
  intro a ha
  obtain ⟨m, hm, ha⟩ := List.mem_flatten.1 ha
  obtain ⟨_, _, -, h⟩ := all2_mem h m hm
  exact annotations_naive h a ha

/-- The dates of a document that was read from a tree have no offset. -/
theorem read_dates (L : LicText) (j : Json) (d : Document) (h : parseDocument L j = .ok d) : ∀ t ∈ dates d, t.tz = none := by
  obtain ⟨o, -, h⟩ := (C56.reads_exactly L j d).1 h
  intro t ht
  simp only [dates, List.cons_append, List.mem_cons, List.mem_append, List.mem_map, List.mem_flatMap] at ht
  rcases ht with rfl | ⟨a, ha, rfl⟩ | ⟨p, hp, ht⟩
  · obtain ⟨i, -, hi⟩ := h.creationInfo
    exact date_naive hi.created.2
  · obtain ⟨own, rv, pk, fl, sn, _, _, _, _, h1, -, h2, -, h3, -, h4, -, h5, e⟩ := h.annotations
    rw [e] at ha
    simp only [List.mem_append] at ha
    rcases ha with (((ha | ha) | ha) | ha) | ha
    · exact annotations_naive h1 a ha
    · obtain ⟨_, _, -, h⟩ := all2_mem h2 a ha
      exact date_naive h.annotationDate.2
    · exact all_naive h3 a ha
    · exact all_naive h4 a ha
    · exact all_naive h5 a ha
  · obtain ⟨_, -, hl⟩ := h.packages
    obtain ⟨_, _, -, h⟩ := all2_mem hl p hp
    rcases ht with (ht | ht) | ht
    · exact field_naive h.releaseDate t ht
    · exact field_naive h.builtDate t ht
    · exact field_naive h.validUntilDate t ht

/-- The same for RDF. -/
theorem rdf_dates (env : RdfEnv) (b : Bindings) (g : RdfGraph) (d : Document) (h : parseRdf env b g = some d) :
    ∀ t ∈ dates d, t.tz = none := by
  obtain ⟨b', ns, h⟩ := (C55.reads_exactly env b g d).1 h
  have one : ∀ {vs : List RdfNode} {x : Option DateTime}, Spec.RdfSays.Optional vs Spec.RdfSays.Date x → ∀ t, x = some t → t.tz = none := by
    rintro vs x (⟨-, rfl⟩ | ⟨v, -, h⟩) t ht
    · cases ht
    · rcases h with ⟨-, rfl⟩ | ⟨-, y, h, rfl⟩
      · cases ht
      · obtain rfl := Option.some.inj ht
        exact (C03.read_valid _ _ h).2.1
  intro t ht
  simp only [dates, List.cons_append, List.mem_cons, List.mem_append, List.mem_map, List.mem_flatMap, Option.mem_toList] at ht
  rcases ht with rfl | ⟨a, ha, rfl⟩ | ⟨p, hp, ht⟩
  · obtain ⟨_, _, hi⟩ := h.creationInfo
    exact one hi.created _ rfl
  · obtain ⟨_, h⟩ := all2_mem h.annotations a ha
    exact one h.annotationDate _ rfl
  · obtain ⟨_, h⟩ := all2_mem h.packages p hp
    rcases ht with (ht | ht) | ht
    · exact one h.releaseDate t ht
    · exact one h.builtDate t ht
    · exact one h.validUntilDate t ht

/-- The same for tag-value. -/
theorem tag_value_dates (L : LicText) (text : Str) (d : Document) (h : parseTagValue L text = .ok d) : ∀ t ∈ dates d, t.tz = none := by
  obtain ⟨hc, hp, ha⟩ := TvDates.read_naive h
  intro t ht
  simp only [dates, List.cons_append, List.mem_cons, List.mem_append, List.mem_map, List.mem_flatMap, Option.mem_toList] at ht
  rcases ht with rfl | ⟨a, hm, rfl⟩ | ⟨p, hm, ht⟩
  · exact hc
  · exact ha a hm
  · exact hp p hm t ht

private theorem dates_dedup (X : Ext) (d : Document) : dates (dedupDocument X d) = dates d := by
  simp only [dates, dedupDocument, CreationInfo.dedup, List.flatMap_map, Package.dedup]

/-- The document can be written to any of the formats that the library writes itself: with or without removing duplicates, the writer comes
    as far as handing a tree to the program that dumps it, and the tag-value writer raises nothing. -/
structure Writable (E : WriteEnv) (d : Document) : Prop where
  json : ∀ dropDuplicates, ∃ t, writeToStream E .JSON d false dropDuplicates = E.dump.json t
  yaml : ∀ dropDuplicates, ∃ t, writeToStream E .YAML d false dropDuplicates = E.dump.yaml t
  xml : ∀ dropDuplicates, ∃ t, writeToStream E .XML d false dropDuplicates = E.dump.xml t
  tagValue : ∀ dropDuplicates, (writeToStream E .TAG_VALUE d false dropDuplicates).raised = none

private theorem writable (E : WriteEnv) (d : Document) (h : ∀ t ∈ dates d, t.tz = none) : Writable E d := by
  have key : ∀ d', dates d' = dates d → (∃ t, serialize E .JSON d' = E.dump.json t) ∧ (∃ t, serialize E .YAML d' = E.dump.yaml t) ∧
      (∃ t, serialize E .XML d' = E.dump.xml t) ∧ (serialize E .TAG_VALUE d').raised = none := by
    intro d' e
    have hr : ∀ t ∈ dates d', InRange t := by
      intro t ht off ho
      rw [h t (e ▸ ht)] at ho
      cases ho
    obtain ⟨x, hx⟩ := Option.isSome_iff_exists.1 ((json_iff E.lic d').2 hr)
    have ht := (tag_value_iff E.lic d').2 hr
    refine ⟨⟨x, ?_⟩, ⟨x, ?_⟩, ⟨.obj [(s%"Document", x)], ?_⟩, ?_⟩ <;> simp [serialize, hx, ht]
  have k0 := key d rfl
  have k1 := key _ (dates_dedup E.ext d)
  refine ⟨?_, ?_, ?_, ?_⟩ <;> intro b <;> cases b
  · exact k0.1
  · exact k1.1
  · exact k0.2.1
  · exact k1.2.1
  · exact k0.2.2.1
  · exact k1.2.2.1
  · exact k0.2.2.2
  · exact k1.2.2.2

/-- What was read from JSON, YAML or XML can be written again, whatever the license library says. -/
theorem read_then_write (E : WriteEnv) (L : LicText) (j : Json) (d : Document) (h : parseDocument L j = .ok d) : Writable E d :=
  writable E d (read_dates L j d h)

/-- What was read from RDF can be written in the other formats. -/
theorem rdf_then_write (E : WriteEnv) (env : RdfEnv) (b : Bindings) (g : RdfGraph) (d : Document) (h : parseRdf env b g = some d) :
    Writable E d := writable E d (rdf_dates env b g d h)

/-- What was read from a tag-value text can be written. -/
theorem tag_value_then_write (E : WriteEnv) (L : LicText) (text : Str) (d : Document) (h : parseTagValue L text = .ok d) : Writable E d :=
  writable E d (tag_value_dates L text d h)

/-- Read and written: the document of a tree with packages, files and a review, and the example document. -/
example (E : WriteEnv) : (writeToStream E .TAG_VALUE C56.treeDoc false true).raised = none :=
  (read_then_write E _ _ _ C56.tree_read).tagValue true
example (E : WriteEnv) : ∃ d, parseRdf C49.exampleEnv [] C55.written = some d ∧ Writable E d := by
  obtain ⟨d, hd⟩ := Option.isSome_iff_exists.1 C55.written_reads
  exact ⟨d, hd, rdf_then_write E _ _ _ d hd⟩
example : (dates Example.doc).length ≥ 2 ∧ (documentToJson C23.exampleLic Example.doc).isSome := by decide +kernel

/-- A date that cannot be expressed in UTC: the last second of the year 9999, an hour behind. -/
private def late : DateTime := { year := 9999, month := 12, day := 31, hour := 23, minute := 59, second := 59, micro := 0, tz := some (-3600) }

private theorem late_out : ¬ InRange late := by
  intro h
  exact absurd (h (-3600) rfl) (by decide +kernel)

/-- A document with such a date can neither be written as JSON nor as tag-value. -/
example (L : LicText) (d : Document) :
    (documentToJson L { d with creationInfo := { d.creationInfo with created := late } }).isSome = false ∧
      (writeTagValue L { d with creationInfo := { d.creationInfo with created := late } }).raises = true := by
  have hn : ¬ ∀ t ∈ dates { d with creationInfo := { d.creationInfo with created := late } }, InRange t :=
    fun h => late_out (h late (by simp [dates]))
  constructor
  · rw [← Bool.not_eq_true]
    exact fun h => hn ((json_iff L _).1 h)
  · rw [← Bool.not_eq_false]
    exact fun h => hn ((tag_value_iff L _).1 h)

end Spdx.C94
