import Verif.Lemmas.ConvertedPortable
import Verif.Props.C59
/- The texts that are written for a document that every format can hold: XML keeps each of them, and the tag-value text has no carriage return. -/
namespace Spdx.Converted
open Spdx Spec ValidSame

variable {L : LicText} {d : Document}

/-! ### The tree -/

/-- All texts of a property's value satisfy `P`. -/
private def Good (P : Str → Prop) (v : Option Json) : Prop := ∀ j, v = some j → ∀ s ∈ texts j, P s

variable {P : Str → Prop}

private theorem texts_mkObj (ks : List Str) : ∀ (vs : List (Option Json)), (∀ v ∈ vs, Good P v) → ∀ s ∈ texts (mkObj ks vs), P s := by
  show ∀ (vs : List (Option Json)), (∀ v ∈ vs, Good P v) → ∀ s ∈ textsIn ((ks.zip vs).filterMap fun kv => kv.2.map (kv.1, ·)), P s
  induction ks with
  | nil => intro vs _ s hs; cases hs
  | cons k ks ih =>
    intro vs h s hs
    cases vs with
    | nil => cases hs
    | cons v vs =>
      have ih := ih vs (fun v hv => h v (.tail _ hv)) s
      cases v with
      | none => exact ih hs
      | some j =>
        have hs : s ∈ texts j ++ textsIn ((ks.zip vs).filterMap fun kv => kv.2.map (kv.1, ·)) := hs
        rcases List.mem_append.1 hs with hs | hs
        · exact h _ (.head _) j rfl s hs
        · exact ih hs

private theorem textsOf_mem : ∀ {l : List Json}, (∀ j ∈ l, ∀ s ∈ texts j, P s) → ∀ s ∈ textsOf l, P s
  | [], _, _, h => by cases h
  | j :: l, h, s, hs => by
    have hs : s ∈ texts j ++ textsOf l := hs
    rcases List.mem_append.1 hs with hs | hs
    · exact h j (.head _) s hs
    · exact textsOf_mem (fun j hj => h j (.tail _ hj)) s hs

private theorem good_none : Good P none := fun _ h => nomatch h
private theorem good_str {s : Str} (h : P s) : Good P (some (.str s)) := fun j e s' hs => by
  cases e
  have hs : s' ∈ [s] := hs
  rw [List.mem_singleton.1 hs]; exact h
private theorem good_bool {b : Bool} : Good P (some (.bool b)) := fun j e s' hs => by cases e; cases hs
private theorem good_opt {α : Type} {f : α → Str} {o : Option α} (h : ∀ a ∈ o.toList, P (f a)) : Good P (o.map fun a => .str (f a)) := by
  cases o with
  | none => exact good_none
  | some a => exact good_str (h a (by simp))
private theorem good_text {o : Option Str} (h : ∀ a ∈ o.toList, P a) : Good P (o.map .str) := good_opt (f := fun a => a) h
private theorem good_arr {l : List Json} (h : ∀ j ∈ l, ∀ s ∈ texts j, P s) : Good P (orNone l) := fun j e => by
  unfold orNone at e
  split at e
  · cases e
  · cases e; exact textsOf_mem h
private theorem good_strs {l : List Str} (h : ∀ s ∈ l, P s) : Good P (orNone (jstrs l)) := good_arr fun j hj s hs => by
  obtain ⟨t, ht, rfl⟩ := List.mem_map.1 hj
  exact good_str (h t ht) _ rfl s hs
private theorem good_objs {α : Type} {f : α → Json} {l : List α} (h : ∀ a ∈ l, ∀ s ∈ texts (f a), P s) : Good P (orNone (l.map f)) :=
  good_arr fun j hj => by
    obtain ⟨a, ha, rfl⟩ := List.mem_map.1 hj
    exact h a ha
private theorem good_obj {j : Json} (h : ∀ s ∈ texts j, P s) : Good P (some j) := fun _ e => by cases e; exact h

private theorem mapM_texts {α : Type} {f : α → Option Json} : ∀ {l : List α} {js : List Json}, l.mapM f = some js →
    (∀ a ∈ l, ∀ j, f a = some j → ∀ s ∈ texts j, P s) → ∀ j ∈ js, ∀ s ∈ texts j, P s
  | [], js, h, _ => by cases h; simp
  | a :: l, js, h, hf => by
    rw [List.mapM_cons] at h
    cases h1 : f a with
    | none => rw [h1] at h; cases h
    | some j =>
      rw [h1] at h
      cases h2 : l.mapM f with
      | none => rw [h2] at h; cases h
      | some js' =>
        rw [h2] at h
        cases h
        rw [List.forall_mem_cons]
        exact ⟨hf a (.head _) j h1, mapM_texts h2 fun a ha => hf a (.tail _ ha)⟩

/-! ### Fixed words -/

private theorem word_algorithm (a : ChecksumAlgorithm) : XmlText (algorithmToJson a) := by cases a <;> decide +kernel
private theorem word_type (a : AnnotationType) : XmlText a.name := by cases a <;> decide +kernel
private theorem word_relationship (a : RelationshipType) : XmlText a.name := by cases a <;> decide +kernel
private theorem word_category (a : ExternalPackageRefCategory) : XmlText a.name := by cases a <;> decide +kernel
private theorem word_file (a : FileType) : XmlText a.name := by cases a <;> decide +kernel
private theorem word_purpose (a : PackagePurpose) : XmlText a.name := by cases a <;> decide +kernel

private theorem lic_text {x : OrSpecial LicExpr} (h : ∀ y, x = .val y → XmlText (L.render y)) : XmlText (L.str x) := by
  cases x with
  | val y => exact h y rfl
  | noAssertion => show XmlText s%"NOASSERTION"; decide +kernel
  | none => show XmlText s%"NONE"; decide +kernel

/-! ### The elements -/

private theorem at_mem {l m : List Str} (h : ∀ t ∈ m, P t) (hs : ∀ t ∈ l, t ∈ m) : ∀ t ∈ l, P t := fun t ht => h t (hs t ht)

private theorem checksum_texts {c : Checksum} (h : XmlText c.value) : ∀ s ∈ texts (checksumToJson c), XmlText s :=
  texts_mkObj _ _ (by
    simp only [List.forall_mem_cons, List.not_mem_nil, false_imp_iff, implies_true, and_true]
    exact ⟨good_str (word_algorithm _), good_str h⟩)

private theorem annotation_texts {a : Annotation} (h : ∀ t ∈ annotationTexts a, XmlText t) {j : Json} (hj : annotationToJson a = some j) :
    ∀ s ∈ texts j, XmlText s := by
  unfold annotationToJson at hj
  cases hd : datetimeToIso a.annotationDate with
  | none => rw [hd] at hj; cases hj
  | some t =>
    rw [hd] at hj
    cases hj
    refine texts_mkObj _ _ ?_
    simp only [List.forall_mem_cons, List.not_mem_nil, false_imp_iff, implies_true, and_true]
    unfold annotationTexts at h
    exact ⟨good_str (h _ (by simp [hd])), good_str (word_type _), good_str (h _ (by simp)), good_str (h _ (by simp))⟩

private theorem annotations_texts (h : ∀ a ∈ d.annotations, ∀ t ∈ annotationTexts a, XmlText t) {i : Str} {v : Option Json}
    (hv : annotationsOf d i = some v) : Good XmlText v := by
  unfold annotationsOf at hv
  cases hm : (d.annotations.filter (fun a => a.spdxId = i)).mapM annotationToJson with
  | none => rw [hm] at hv; cases hv
  | some js =>
    rw [hm] at hv
    cases hv
    exact good_arr (mapM_texts hm fun a ha j hj => annotation_texts (h a (List.mem_filter.1 ha).1) hj)

private theorem relationship_texts' {r : Relationship} (h : ∀ t ∈ relationshipTexts r, XmlText t) : ∀ s ∈ texts (relationshipToJson r), XmlText s := by
  unfold relationshipTexts at h
  refine texts_mkObj _ _ ?_
  simp only [List.forall_mem_cons, List.not_mem_nil, false_imp_iff, implies_true, and_true]
  exact ⟨good_str (h _ (by simp)), good_text (at_mem h fun t ht => by simp only [List.mem_append, ht, or_true]), good_str (h _ (by simp)),
    good_str (word_relationship _)⟩

private theorem extracted_texts {e : ExtractedLicensingInfo} (h : ∀ t ∈ licenseTexts e, XmlText t) : ∀ s ∈ texts (extractedToJson e), XmlText s := by
  unfold licenseTexts at h
  refine texts_mkObj _ _ ?_
  simp only [List.forall_mem_cons, List.not_mem_nil, false_imp_iff, implies_true, and_true]
  exact ⟨good_text (at_mem h fun t ht => by simp only [List.mem_append, ht, or_true]),
    good_text (at_mem h fun t ht => by simp only [List.mem_append, ht, or_true, true_or]),
    good_text (at_mem h fun t ht => by simp only [List.mem_append, ht, true_or]),
    good_opt fun a ha => h _ (by simp only [List.mem_append, List.mem_map_of_mem (f := OrNoAssertion.text) ha, or_true, true_or]),
    good_strs (at_mem h fun t ht => by simp only [List.mem_append, ht, or_true, true_or])⟩

private theorem code_texts {c : PackageVerificationCode} (h : ∀ t ∈ c.value :: c.excludedFiles, XmlText t) :
    ∀ s ∈ texts (verificationCodeToJson c), XmlText s := by
  refine texts_mkObj _ _ ?_
  simp only [List.forall_mem_cons, List.not_mem_nil, false_imp_iff, implies_true, and_true]
  exact ⟨good_strs fun t ht => h t (.tail _ ht), good_str (h _ (.head _))⟩

private theorem externalRef_texts {r : ExternalPackageRef} (h : ∀ t ∈ [r.referenceType, r.locator] ++ r.comment.toList, XmlText t) :
    ∀ s ∈ texts (externalPackageRefToJson r), XmlText s := by
  refine texts_mkObj _ _ ?_
  simp only [List.forall_mem_cons, List.not_mem_nil, false_imp_iff, implies_true, and_true]
  exact ⟨good_text (at_mem h fun t ht => by simp only [List.mem_append, ht, or_true]), good_str (word_category _), good_str (h _ (by simp)),
    good_str (h _ (by simp))⟩

private theorem documentRef_texts {r : ExternalDocumentRef} (h : ∀ t ∈ [r.documentRefId, r.documentUri, r.checksum.value], XmlText t) :
    ∀ s ∈ texts (externalDocumentRefToJson r), XmlText s := by
  refine texts_mkObj _ _ ?_
  simp only [List.forall_mem_cons, List.not_mem_nil, false_imp_iff, implies_true, and_true]
  exact ⟨good_str (h _ (by simp)), good_str (h _ (by simp)), good_obj (checksum_texts (h _ (by simp)))⟩

private theorem info_texts' {c : CreationInfo} (h : ∀ t ∈ infoTexts c, XmlText t) {j : Json} (hj : creationInfoToJson c = some j) :
    ∀ s ∈ texts j, XmlText s := by
  unfold creationInfoToJson at hj
  unfold infoTexts at h
  cases hd : datetimeToIso c.created with
  | none => rw [hd] at hj; cases hj
  | some t =>
    rw [hd] at hj
    cases hj
    refine texts_mkObj _ _ ?_
    simp only [List.forall_mem_cons, List.not_mem_nil, false_imp_iff, implies_true, and_true]
    exact ⟨good_str (h _ (by simp [hd])), good_strs (at_mem h fun t ht => by simp only [List.mem_append, ht, or_true, true_or]),
      good_opt fun a ha => h _ (by simp only [List.mem_append, List.mem_map_of_mem (f := Version.toStr) ha, or_true, true_or]),
      good_text (at_mem h fun t ht => by simp only [List.mem_append, ht, or_true, true_or])⟩

private theorem lics_texts {l : List (OrSpecial LicExpr)} (h : ∀ x, .val x ∈ l → XmlText (L.render x)) : ∀ s ∈ l.map L.str, XmlText s := by
  intro s hs
  obtain ⟨x, hx, rfl⟩ := List.mem_map.1 hs
  exact lic_text fun y hy => h y (hy ▸ hx)

private theorem checksums_texts {l : List Checksum} {m : List Str} (h : ∀ t ∈ m, XmlText t) (hs : ∀ t ∈ l.map (·.value), t ∈ m) :
    Good XmlText (orNone (l.map checksumToJson)) :=
  good_objs fun _ hc => checksum_texts (h _ (hs _ (List.mem_map_of_mem hc)))

private theorem file_texts' {f : File} (h : ∀ t ∈ fileTexts f, XmlText t) (hl : ∀ x, .val x ∈ fileLics f → XmlText (L.render x))
    (ha : ∀ a ∈ d.annotations, ∀ t ∈ annotationTexts a, XmlText t) {j : Json} (hj : fileToJson L d f = some j) : ∀ s ∈ texts j, XmlText s := by
  unfold fileToJson at hj
  unfold fileTexts at h
  unfold fileLics at hl
  simp only [List.mem_append] at hl
  cases hd : annotationsOf d f.spdxId with
  | none => rw [hd] at hj; cases hj
  | some v =>
    rw [hd] at hj
    cases hj
    refine texts_mkObj _ _ ?_
    simp only [List.forall_mem_cons, List.not_mem_nil, false_imp_iff, implies_true, and_true]
    exact ⟨good_str (h _ (by simp)), annotations_texts ha hd, good_none,
      good_strs (at_mem h fun t ht => by simp only [List.mem_append, ht, or_true]),
      checksums_texts h (fun t ht => by simp only [List.mem_append, ht, or_true, true_or]),
      good_text (at_mem h fun t ht => by simp only [List.mem_append, ht, or_true, true_or]),
      good_opt fun a ha => h _ (by simp only [List.mem_append, List.mem_map_of_mem (f := OrSpecial.text) ha, or_true, true_or]),
      good_strs (at_mem h fun t ht => by simp only [List.mem_append, ht, or_true, true_or]),
      good_none, good_str (h _ (by simp)),
      good_strs fun t ht => by obtain ⟨x, _, rfl⟩ := List.mem_map.1 ht; exact word_file x,
      good_text (at_mem h fun t ht => by simp only [List.mem_append, ht, or_true, true_or]),
      good_opt fun x hx => lic_text fun y hy => hl y (.inl (hy ▸ hx)),
      good_strs (lics_texts fun x hx => hl x (.inr hx)),
      good_text (at_mem h fun t ht => by simp only [List.mem_append, ht, or_true, true_or])⟩

private theorem date_texts {t : Option DateTime} {v : Option Json} (h : ∀ s ∈ t.toList.flatMap (fun t => (datetimeToIso t).toList), P s)
    (hv : dateToJson t = some v) : Good P v := by
  cases t with
  | none => cases hv; exact good_none
  | some t =>
    unfold dateToJson at hv
    dsimp only at hv
    cases hd : datetimeToIso t with
    | none => rw [hd] at hv; cases hv
    | some s => rw [hd] at hv; cases hv; exact good_str (h _ (by simp [hd]))

private theorem package_texts' {p : Package} (h : ∀ t ∈ packageTexts p, XmlText t) (hl : ∀ x, .val x ∈ packageLics p → XmlText (L.render x))
    (ha : ∀ a ∈ d.annotations, ∀ t ∈ annotationTexts a, XmlText t) {j : Json} (hj : packageToJson L d p = some j) : ∀ s ∈ texts j, XmlText s := by
  unfold packageToJson at hj
  unfold packageTexts at h
  unfold packageLics at hl
  simp only [List.mem_append] at hl
  cases hd : annotationsOf d p.spdxId with
  | none => rw [hd] at hj; cases hj
  | some v =>
  cases h1 : dateToJson p.builtDate with
  | none => rw [hd, h1] at hj; cases hj
  | some v1 =>
  cases h2 : dateToJson p.releaseDate with
  | none => rw [hd, h1, h2] at hj; cases hj
  | some v2 =>
  cases h3 : dateToJson p.validUntilDate with
  | none => rw [hd, h1, h2, h3] at hj; cases hj
  | some v3 =>
    rw [hd, h1, h2, h3] at hj
    cases hj
    refine texts_mkObj _ _ ?_
    simp only [List.forall_mem_cons, List.not_mem_nil, false_imp_iff, implies_true, and_true]
    exact ⟨good_str (h _ (by simp)), annotations_texts ha hd,
      good_strs (at_mem h fun t ht => by simp only [List.mem_append, ht, or_true, true_or]),
      date_texts (at_mem h fun t ht => by simp only [List.flatMap_append, List.mem_append, ht, or_true, true_or]) h1,
      checksums_texts h (fun t ht => by simp only [List.mem_append, ht, or_true, true_or]),
      good_text (at_mem h fun t ht => by simp only [List.mem_append, ht, or_true, true_or]),
      good_opt fun a ha => h _ (by simp only [List.mem_append, List.mem_map_of_mem (f := OrSpecial.text) ha, or_true, true_or]),
      good_text (at_mem h fun t ht => by simp only [List.mem_append, ht, or_true, true_or]),
      good_str (h _ (by simp)),
      good_objs fun r hr => externalRef_texts (at_mem h fun t ht => by
        have : t ∈ p.externalReferences.flatMap (fun r => [r.referenceType, r.locator] ++ r.comment.toList) := List.mem_flatMap.2 ⟨r, hr, ht⟩
        simp only [List.mem_append, this, or_true, true_or]),
      good_bool,
      good_opt fun a ha => h _ (by simp only [List.mem_append, List.mem_map_of_mem (f := OrSpecial.text) ha, or_true, true_or]),
      good_text (at_mem h fun t ht => by simp only [List.mem_append, ht, or_true, true_or]),
      good_opt fun x hx => lic_text fun y hy => hl y (.inl (.inl (hy ▸ hx))),
      good_opt fun x hx => lic_text fun y hy => hl y (.inl (.inr (hy ▸ hx))),
      good_strs (lics_texts fun x hx => hl x (.inr hx)),
      good_str (h _ (by simp)),
      good_opt fun a ha => h _ (by simp only [List.mem_append, List.mem_map_of_mem (f := actorOrText) ha, or_true, true_or]),
      good_text (at_mem h fun t ht => by simp only [List.mem_append, ht, or_true, true_or]),
      (by
        cases hc : p.verificationCode with
        | none => exact good_none
        | some c =>
          refine good_obj (code_texts (at_mem h fun t ht => ?_))
          have : t ∈ p.verificationCode.toList.flatMap (fun c => c.value :: c.excludedFiles) := by rw [hc]; simpa using ht
          simp only [List.mem_append, this, or_true, true_or]),
      good_opt fun a _ => word_purpose a,
      date_texts (at_mem h fun t ht => by simp only [List.flatMap_append, List.mem_append, ht, or_true, true_or]) h2,
      good_text (at_mem h fun t ht => by simp only [List.mem_append, ht, or_true, true_or]),
      good_text (at_mem h fun t ht => by simp only [List.mem_append, ht, or_true, true_or]),
      good_opt fun a ha => h _ (by simp only [List.mem_append, List.mem_map_of_mem (f := actorOrText) ha, or_true, true_or]),
      date_texts (at_mem h fun t ht => by simp only [List.flatMap_append, List.mem_append, ht, or_true]) h3,
      good_text (at_mem h fun t ht => by simp only [List.mem_append, ht, or_true, true_or])⟩

private theorem range_texts {r : Int × Int} {f k : Str} (h : P f) : ∀ s ∈ texts (rangeToJson r f k), P s := by
  intro s hs
  have hs : s ∈ ([f] ++ ([] ++ [])) ++ (([f] ++ ([] ++ [])) ++ []) := hs
  have : s = f := by simpa using hs
  rw [this]; exact h

private theorem snippet_texts' {f : Snippet} (h : ∀ t ∈ snippetTexts f, XmlText t) (hl : ∀ x, .val x ∈ snippetLics f → XmlText (L.render x))
    (ha : ∀ a ∈ d.annotations, ∀ t ∈ annotationTexts a, XmlText t) {j : Json} (hj : snippetToJson L d f = some j) : ∀ s ∈ texts j, XmlText s := by
  unfold snippetToJson at hj
  unfold snippetTexts at h
  unfold snippetLics at hl
  simp only [List.mem_append] at hl
  cases hd : annotationsOf d f.spdxId with
  | none => rw [hd] at hj; cases hj
  | some v =>
    rw [hd] at hj
    cases hj
    refine texts_mkObj _ _ ?_
    simp only [List.forall_mem_cons, List.not_mem_nil, false_imp_iff, implies_true, and_true]
    exact ⟨good_str (h _ (by simp)), annotations_texts ha hd,
      good_strs (at_mem h fun t ht => by simp only [List.mem_append, ht, or_true]),
      good_text (at_mem h fun t ht => by simp only [List.mem_append, ht, or_true, true_or]),
      good_opt fun a ha => h _ (by simp only [List.mem_append, List.mem_map_of_mem (f := OrSpecial.text) ha, or_true, true_or]),
      good_text (at_mem h fun t ht => by simp only [List.mem_append, ht, or_true, true_or]),
      good_opt fun x hx => lic_text fun y hy => hl y (.inl (hy ▸ hx)),
      good_strs (lics_texts fun x hx => hl x (.inr hx)),
      good_text (at_mem h fun t ht => by simp only [List.mem_append, ht, or_true, true_or]),
      good_obj (textsOf_mem (by
        have hf : XmlText f.fileSpdxId := h _ (by simp)
        unfold rangesToJson
        rw [List.forall_mem_cons]
        refine ⟨range_texts hf, ?_⟩
        split
        · intro j hj; rw [List.mem_singleton.1 hj]; exact range_texts hf
        · simp)),
      good_str (h _ (by simp))⟩

/-- XML keeps every text of the tree. -/
theorem document_texts {n : Nat} (ht : AllTexts XmlText d) (hl : AllLics (LicAnywhere L n) d) {j : Json} (hj : documentToJson L d = some j) :
    ∀ s ∈ texts j, XmlText s := by
  have rendered : ∀ {x : LicExpr}, LicAnywhere L n x → XmlText (L.render x) := fun h => (h _ (sameLic_refl _)).2.2.2.2
  unfold documentToJson at hj
  cases h1 : (d.annotations.filter (fun a => a.spdxId ∉ containedIds d)).mapM annotationToJson with
  | none => rw [h1] at hj; cases hj
  | some v1 =>
  cases h2 : creationInfoToJson d.creationInfo with
  | none => rw [h1, h2] at hj; cases hj
  | some v2 =>
  cases h3 : d.packages.mapM (packageToJson L d) with
  | none => rw [h1, h2, h3] at hj; cases hj
  | some v3 =>
  cases h4 : d.files.mapM (fileToJson L d) with
  | none => rw [h1, h2, h3, h4] at hj; cases hj
  | some v4 =>
  cases h5 : d.snippets.mapM (snippetToJson L d) with
  | none => rw [h1, h2, h3, h4, h5] at hj; cases hj
  | some v5 =>
    rw [h1, h2, h3, h4, h5] at hj
    cases hj
    refine texts_mkObj _ _ ?_
    simp only [List.forall_mem_cons, List.not_mem_nil, false_imp_iff, implies_true, and_true]
    have hi := ht.info
    have hi' := hi
    unfold infoTexts at hi
    exact ⟨good_str (hi _ (by simp)), good_arr (mapM_texts h1 fun a ha j hj => annotation_texts (ht.annotations a (List.mem_filter.1 ha).1) hj),
      good_text (at_mem hi fun t ht => by simp only [List.mem_append, ht, or_true, true_or]),
      good_obj (info_texts' hi' h2), good_str (hi _ (by simp)),
      good_objs fun r hr => documentRef_texts (at_mem hi fun t ht => by
        have : t ∈ d.creationInfo.externalDocumentRefs.flatMap (fun r => [r.documentRefId, r.documentUri, r.checksum.value]) :=
          List.mem_flatMap.2 ⟨r, hr, ht⟩
        simp only [List.mem_append, this, or_true]),
      good_objs fun e he => extracted_texts (ht.licenses e he), good_str (hi _ (by simp)), good_str (hi _ (by simp)), good_str (hi _ (by simp)),
      good_arr (mapM_texts h3 fun p hp j hj => package_texts' (ht.packages p hp) (fun x hx => rendered (hl.packages p hp x hx)) ht.annotations hj),
      good_arr (mapM_texts h4 fun p hp j hj => file_texts' (ht.files p hp) (fun x hx => rendered (hl.files p hp x hx)) ht.annotations hj),
      good_arr (mapM_texts h5 fun p hp j hj => snippet_texts' (ht.snippets p hp) (fun x hx => rendered (hl.snippets p hp x hx)) ht.annotations hj),
      good_objs fun r hr => relationship_texts' (ht.relationships r hr)⟩

/-! ### Tag-value -/

/-- No carriage return. -/
private abbrev Clean (s : Str) : Prop := '\r' ∉ s
private def NoCr (w : TvSteps) : Prop := ∀ l, some l ∈ w → Clean l.render

private theorem clean_xml {s : Str} (h : XmlText s) : Clean s := fun hc => (h.chars _ hc).1 rfl
private theorem clean_append {a b : Str} (ha : Clean a) (hb : Clean b) : Clean (a ++ b) := fun h => (List.mem_append.1 h).elim ha hb
private theorem clean_join {sep : Str} (hs : Clean sep) : ∀ {l : List Str}, (∀ t ∈ l, Clean t) → Clean (joinWith sep l)
  | [], _ => fun h => by cases h
  | [p], h => h p (.head _)
  | p :: q :: ps, h => clean_append (clean_append (h p (.head _)) hs) (clean_join hs fun t ht => h t (.tail _ ht))
private theorem clean_natStr : ∀ n, Clean (natStr n) := by
  intro n
  induction n using Nat.strongRecOn with
  | _ n ih =>
    have hd : ∀ m, m < 10 → digitChar m ≠ '\r' := by decide
    rw [natStr]
    split
    · rename_i h
      intro hc
      exact hd n h (List.mem_singleton.1 hc).symm
    · refine clean_append (ih _ (by omega)) fun hc => ?_
      exact hd _ (Nat.mod_lt _ (by decide)) (List.mem_singleton.1 hc).symm
private theorem clean_intStr (i : Int) : Clean (intStr i) := by
  cases i with
  | ofNat n => exact clean_natStr n
  | negSucc n =>
    intro h
    rcases List.mem_cons.1 h with h | h
    · cases h
    · exact clean_natStr _ h

private theorem nocr_append {a b : TvSteps} (ha : NoCr a) (hb : NoCr b) : NoCr (a ++ b) := fun l h => (List.mem_append.1 h).elim (ha l) (hb l)
private theorem nocr_nil : NoCr [] := fun l h => by cases h
private theorem nocr_flatMap {α : Type} {l : List α} {f : α → TvSteps} (h : ∀ a ∈ l, NoCr (f a)) : NoCr (l.flatMap f) := fun x hx => by
  obtain ⟨a, ha, hx⟩ := List.mem_flatMap.1 hx
  exact h a ha x hx
private theorem nocr_one {l : TvLine} (h : Clean l.render) : NoCr [some l] := fun x hx => by
  cases List.mem_singleton.1 hx; exact h
private theorem nocr_blank : NoCr [some .blank] := nocr_one (by decide)
private theorem nocr_value {tag v : Str} (ht : Clean tag) (h : Clean v) : NoCr (writeValue tag v) :=
  nocr_one (clean_append (clean_append (clean_append ht (by decide)) h) (by decide))
private theorem nocr_text {tag v : Str} (ht : Clean tag) (h : Clean v) : NoCr (writeText tag v) := by
  unfold writeText
  split
  · exact nocr_one (clean_append (clean_append (clean_append ht (by decide)) h) (by decide))
  · exact nocr_value ht h
private theorem nocr_value? {tag : Str} {α : Type} {o : Option α} {f : α → Str} (ht : Clean tag) (h : ∀ a ∈ o.toList, Clean (f a)) : NoCr (writeValue? tag (o.map f)) := by
  cases o with
  | none => exact nocr_nil
  | some a =>
    refine nocr_flatMap fun t hm => ?_
    have hm : t = f a := by simpa using hm
    rw [hm]; exact nocr_value ht (h a (by simp))
private theorem nocr_plain? {tag : Str} {o : Option Str} (ht : Clean tag) (h : ∀ a ∈ o.toList, XmlText a) : NoCr (writeValue? tag o) :=
  nocr_flatMap fun t hm => nocr_value ht (clean_xml (h t hm))
private theorem nocr_text? {tag : Str} {o : Option Str} (ht : Clean tag) (h : ∀ a ∈ o.toList, XmlText a) : NoCr (writeText? tag o) :=
  nocr_flatMap fun t hm => nocr_text ht (clean_xml (h t hm))
private theorem nocr_special? {tag : Str} {o : Option (OrSpecial Str)} (ht : Clean tag) (h : ∀ a ∈ o.toList.map OrSpecial.text, XmlText a) :
    NoCr (writeTextSpecial? tag o) :=
  nocr_flatMap fun v hm => by
    have hv := clean_xml (h _ (List.mem_map_of_mem hm))
    split
    · exact nocr_text ht hv
    · exact nocr_value ht hv
private theorem nocr_date {tag : Str} {t : DateTime} (ht : Clean tag) (h : ∀ a ∈ (datetimeToIso t).toList, XmlText a) : NoCr (writeDate tag t) := by
  unfold writeDate
  split
  · rename_i s hs; exact nocr_value ht (clean_xml (h s (by simp [hs])))
  · intro l hl; simp at hl
private theorem nocr_checksum {tag : Str} {c : Checksum} (ht : Clean tag) (h : XmlText c.value) : NoCr (writeChecksum tag c) := by
  unfold writeChecksum
  have ha : ∀ a t, algorithmToTv a = some t → Clean t := fun a t ht => by
    have : (algorithmToTv a).all (fun t => decide (Clean t)) = true := by cases a <;> decide +kernel
    rw [ht] at this
    exact of_decide_eq_true this
  split
  · rename_i s hs
    unfold checksumToTv at hs
    cases hb : algorithmToTv c.algorithm with
    | none => rw [hb] at hs; cases hs
    | some t =>
      rw [hb] at hs
      cases hs
      exact nocr_value ht (clean_append (clean_append (ha _ _ hb) (by decide)) (clean_xml h))
  · intro l hl; simp at hl
private theorem nocr_checksums {tag : Str} {l : List Checksum} {m : List Str} (ht : Clean tag) (h : ∀ t ∈ m, XmlText t) (hs : ∀ t ∈ l.map (·.value), t ∈ m) :
    NoCr (l.flatMap (writeChecksum tag)) := nocr_flatMap fun _ hc => nocr_checksum ht (h _ (hs _ (List.mem_map_of_mem hc)))
private theorem nocr_range {tag : Str} {r : Option (Int × Int)} (ht : Clean tag) : NoCr (writeRange tag r) :=
  nocr_flatMap fun _ _ => nocr_value ht (clean_append (clean_append (clean_intStr _) (by decide)) (clean_intStr _))
private theorem nocr_heading {b : Bool} {w : TvSteps} (h : NoCr w) : NoCr (writeHeading b w) := by
  unfold writeHeading; split
  · exact h
  · exact nocr_nil
private theorem nocr_if {p : Prop} [Decidable p] {w : TvSteps} (h : NoCr w) : NoCr (if p then [] else w) := by
  split
  · exact nocr_nil
  · exact h
private theorem nocr_lic? {tag : Str} {o : Option (OrSpecial LicExpr)} (ht : Clean tag) (h : ∀ x, .val x ∈ o.toList → XmlText (L.render x)) :
    NoCr (writeValue? tag (o.map L.str)) := nocr_value? ht fun _ hx => clean_xml (lic_text fun y hy => h y (hy ▸ hx))
private theorem nocr_lics {tag : Str} {l : List (OrSpecial LicExpr)} (ht : Clean tag) (h : ∀ x, .val x ∈ l → XmlText (L.render x)) :
    NoCr (l.flatMap fun x => writeValue tag (L.str x)) := nocr_flatMap fun _ hx => nocr_value ht (clean_xml (lic_text fun y hy => h y (hy ▸ hx)))

private theorem nocr_info {c : CreationInfo} (h : ∀ t ∈ infoTexts c, XmlText t) : NoCr (writeCreationInfo c) := by
  unfold infoTexts at h
  have c1 : ∀ {t}, t ∈ _ → Clean t := fun {t} ht => clean_xml (h t ht)
  unfold writeCreationInfo
  refine nocr_append (nocr_append (nocr_append (nocr_append (nocr_append (nocr_append (nocr_append (nocr_append (nocr_append (nocr_append
    (nocr_append (nocr_append ?_ ?_) ?_) ?_) ?_) ?_) ?_) ?_) ?_) ?_) ?_) ?_) ?_
  · exact nocr_value (by decide) (c1 (by simp))
  · exact nocr_value (by decide) (c1 (by simp))
  · exact nocr_value (by decide) (c1 (by simp))
  · exact nocr_value (by decide) (c1 (by simp))
  · exact nocr_value (by decide) (c1 (by simp))
  · exact nocr_text? (by decide) (at_mem h fun t ht => by simp only [List.mem_append, ht, or_true, true_or])
  · exact nocr_heading (nocr_append (a := [_]) nocr_blank (nocr_one (by decide)))
  · refine nocr_flatMap fun r hr => nocr_value (by decide) ?_
    have hr : ∀ t ∈ [r.documentRefId, r.documentUri, r.checksum.value], Clean t := fun t ht => by
      have : t ∈ c.externalDocumentRefs.flatMap (fun r => [r.documentRefId, r.documentUri, r.checksum.value]) := List.mem_flatMap.2 ⟨r, hr, ht⟩
      exact c1 (by simp only [List.mem_append, this, or_true])
    simp only [List.forall_mem_cons, List.not_mem_nil, false_imp_iff, implies_true, and_true] at hr
    have hn : ∀ a : ChecksumAlgorithm, Clean a.name := fun a => by cases a <;> decide +kernel
    refine clean_join (by decide) ?_
    simp only [List.forall_mem_cons, List.not_mem_nil, false_imp_iff, implies_true, and_true]
    exact ⟨hr.1, hr.2.1, clean_append (clean_append (hn _) (by decide)) hr.2.2⟩
  · exact nocr_append (a := [_]) nocr_blank (nocr_one (by decide))
  · exact nocr_value? (by decide) fun a ha => c1 (by simp only [List.mem_append, List.mem_map_of_mem (f := Version.toStr) ha, or_true, true_or])
  · exact nocr_flatMap fun a ha => nocr_value (by decide) (c1 (by simp only [List.mem_append, List.mem_map_of_mem (f := Actor.toSerialized) ha, or_true, true_or]))
  · exact nocr_date (by decide) (at_mem h fun t ht => by simp only [List.mem_append, ht, or_true, true_or])
  · exact nocr_text? (by decide) (at_mem h fun t ht => by simp only [List.mem_append, ht, or_true, true_or])

private theorem nocr_file {f : File} (h : ∀ t ∈ fileTexts f, XmlText t) (hl : ∀ x, .val x ∈ fileLics f → XmlText (L.render x)) : NoCr (writeFile L f) := by
  unfold fileTexts at h
  unfold fileLics at hl
  simp only [List.mem_append] at hl
  have c1 : ∀ {t}, t ∈ _ → Clean t := fun {t} ht => clean_xml (h t ht)
  unfold writeFile
  refine nocr_append (nocr_append (nocr_append (nocr_append (nocr_append (nocr_append (nocr_append (nocr_append (nocr_append (nocr_append
    (nocr_append (nocr_append ?_ ?_) ?_) ?_) ?_) ?_) ?_) ?_) ?_) ?_) ?_) ?_) ?_
  · exact nocr_one (by decide)
  · exact nocr_value (by decide) (c1 (by simp))
  · exact nocr_value (by decide) (c1 (by simp))
  · exact nocr_flatMap fun t _ => nocr_value (by decide) (clean_xml (word_file t))
  · exact nocr_checksums (by decide) h fun t ht => by simp only [List.mem_append, ht, or_true, true_or]
  · exact nocr_lic? (by decide) fun x hx => hl x (.inl hx)
  · exact nocr_lics (by decide) fun x hx => hl x (.inr hx)
  · exact nocr_text? (by decide) (at_mem h fun t ht => by simp only [List.mem_append, ht, or_true, true_or])
  · exact nocr_special? (by decide) (at_mem h fun t ht => by simp only [List.mem_append, ht, or_true, true_or])
  · exact nocr_text? (by decide) (at_mem h fun t ht => by simp only [List.mem_append, ht, or_true, true_or])
  · exact nocr_text? (by decide) (at_mem h fun t ht => by simp only [List.mem_append, ht, or_true, true_or])
  · exact nocr_flatMap fun t ht => nocr_value (by decide) (c1 (by simp only [List.mem_append, (mem_sortStr _ _).1 ht, or_true, true_or]))
  · exact nocr_flatMap fun t ht => nocr_text (by decide) (c1 (by simp only [List.mem_append, ht, or_true]))

private theorem nocr_snippet {f : Snippet} (h : ∀ t ∈ snippetTexts f, XmlText t) (hl : ∀ x, .val x ∈ snippetLics f → XmlText (L.render x)) :
    NoCr (writeSnippet L f) := by
  unfold snippetTexts at h
  unfold snippetLics at hl
  simp only [List.mem_append] at hl
  have c1 : ∀ {t}, t ∈ _ → Clean t := fun {t} ht => clean_xml (h t ht)
  unfold writeSnippet
  refine nocr_append (nocr_append (nocr_append (nocr_append (nocr_append (nocr_append (nocr_append (nocr_append (nocr_append (nocr_append
    (nocr_append ?_ ?_) ?_) ?_) ?_) ?_) ?_) ?_) ?_) ?_) ?_) ?_
  · exact nocr_one (by decide)
  · exact nocr_value (by decide) (c1 (by simp))
  · exact nocr_value (by decide) (c1 (by simp))
  · exact nocr_range (by decide)
  · exact nocr_range (by decide)
  · exact nocr_lic? (by decide) fun x hx => hl x (.inl hx)
  · exact nocr_lics (by decide) fun x hx => hl x (.inr hx)
  · exact nocr_text? (by decide) (at_mem h fun t ht => by simp only [List.mem_append, ht, or_true, true_or])
  · exact nocr_special? (by decide) (at_mem h fun t ht => by simp only [List.mem_append, ht, or_true, true_or])
  · exact nocr_text? (by decide) (at_mem h fun t ht => by simp only [List.mem_append, ht, or_true, true_or])
  · exact nocr_plain? (by decide) (at_mem h fun t ht => by simp only [List.mem_append, ht, or_true, true_or])
  · exact nocr_flatMap fun t ht => nocr_text (by decide) (c1 (by simp only [List.mem_append, ht, or_true]))

private theorem clean_tvName {s : Str} (h : Clean s) : Clean (enumNameToTv s) := fun hc => by
  unfold enumNameToTv replaceChar at hc
  obtain ⟨c, hm, hc⟩ := List.mem_flatMap.1 hc
  split at hc
  · cases List.mem_singleton.1 hc
  · cases List.mem_singleton.1 hc; exact h hm

private theorem nocr_package {p : Package} (h : ∀ t ∈ packageTexts p, XmlText t) (hl : ∀ x, .val x ∈ packageLics p → XmlText (L.render x)) :
    NoCr (writePackage L p) := by
  unfold packageTexts at h
  unfold packageLics at hl
  simp only [List.mem_append] at hl
  have c1 : ∀ {t}, t ∈ _ → Clean t := fun {t} ht => clean_xml (h t ht)
  unfold writePackage
  refine nocr_append (nocr_append (nocr_append (nocr_append (nocr_append (nocr_append (nocr_append (nocr_append (nocr_append (nocr_append
    (nocr_append (nocr_append (nocr_append (nocr_append (nocr_append (nocr_append (nocr_append (nocr_append (nocr_append (nocr_append
    (nocr_append (nocr_append (nocr_append (nocr_append (nocr_append (nocr_append
    ?_ ?_) ?_) ?_) ?_) ?_) ?_) ?_) ?_) ?_) ?_) ?_) ?_) ?_) ?_) ?_) ?_) ?_) ?_) ?_) ?_) ?_) ?_) ?_) ?_) ?_) ?_
  · exact nocr_one (by decide)
  · exact nocr_value (by decide) (c1 (by simp))
  · exact nocr_value (by decide) (c1 (by simp))
  · exact nocr_plain? (by decide) (at_mem h fun t ht => by simp only [List.mem_append, ht, or_true, true_or])
  · exact nocr_plain? (by decide) (at_mem h fun t ht => by simp only [List.mem_append, ht, or_true, true_or])
  · exact nocr_value? (by decide) fun a ha => c1 (by simp only [List.mem_append, List.mem_map_of_mem (f := actorOrText) ha, or_true, true_or])
  · exact nocr_value? (by decide) fun a ha => c1 (by simp only [List.mem_append, List.mem_map_of_mem (f := actorOrText) ha, or_true, true_or])
  · exact nocr_value (by decide) (c1 (by simp))
  · exact nocr_value (by decide) (by split <;> decide)
  · refine nocr_value? (by decide) fun c hc => ?_
    have hc : ∀ t ∈ c.value :: c.excludedFiles, Clean t := fun t ht => by
      have : t ∈ p.verificationCode.toList.flatMap (fun c => c.value :: c.excludedFiles) := List.mem_flatMap.2 ⟨c, hc, ht⟩
      exact c1 (by simp only [List.mem_append, this, or_true, true_or])
    rw [List.forall_mem_cons] at hc
    unfold verificationCodeToTv
    split
    · exact hc.1
    · exact clean_append hc.1 (clean_append (clean_append (by decide) (clean_join (by decide) hc.2)) (by decide))
  · exact nocr_checksums (by decide) h fun t ht => by simp only [List.mem_append, ht, or_true, true_or]
  · exact nocr_value? (by decide) fun a ha => c1 (by simp only [List.mem_append, List.mem_map_of_mem (f := OrSpecial.text) ha, or_true, true_or])
  · exact nocr_text? (by decide) (at_mem h fun t ht => by simp only [List.mem_append, ht, or_true, true_or])
  · exact nocr_lic? (by decide) fun x hx => hl x (.inl (.inl hx))
  · exact nocr_lics (by decide) fun x hx => hl x (.inr hx)
  · exact nocr_lic? (by decide) fun x hx => hl x (.inl (.inr hx))
  · exact nocr_text? (by decide) (at_mem h fun t ht => by simp only [List.mem_append, ht, or_true, true_or])
  · exact nocr_special? (by decide) (at_mem h fun t ht => by simp only [List.mem_append, ht, or_true, true_or])
  · exact nocr_text? (by decide) (at_mem h fun t ht => by simp only [List.mem_append, ht, or_true, true_or])
  · exact nocr_text? (by decide) (at_mem h fun t ht => by simp only [List.mem_append, ht, or_true, true_or])
  · exact nocr_text? (by decide) (at_mem h fun t ht => by simp only [List.mem_append, ht, or_true, true_or])
  · refine nocr_flatMap fun r hr => ?_
    have hr : ∀ t ∈ [r.referenceType, r.locator] ++ r.comment.toList, Clean t := fun t ht => by
      have : t ∈ p.externalReferences.flatMap (fun r => [r.referenceType, r.locator] ++ r.comment.toList) := List.mem_flatMap.2 ⟨r, hr, ht⟩
      exact c1 (by simp only [List.mem_append, this, or_true, true_or])
    unfold writeExternalRef
    refine nocr_append (nocr_value (by decide) (clean_join (by decide) ?_)) ?_
    · simp only [List.forall_mem_cons, List.not_mem_nil, false_imp_iff, implies_true, and_true]
      exact ⟨clean_tvName (clean_xml (word_category _)), hr _ (by simp), hr _ (by simp)⟩
    · split
      · rename_i t ht
        split
        · exact nocr_nil
        · exact nocr_text (by decide) (hr _ (by simp [ht]))
      · exact nocr_nil
  · exact nocr_flatMap fun t ht => nocr_text (by decide) (c1 (by simp only [List.mem_append, ht, or_true, true_or]))
  · exact nocr_value? (by decide) fun x _ => clean_tvName (clean_xml (word_purpose x))
  · exact nocr_flatMap fun t ht => nocr_date (by decide) (at_mem h fun s hs => by
      have : s ∈ p.releaseDate.toList.flatMap (fun t => (datetimeToIso t).toList) := List.mem_flatMap.2 ⟨t, ht, hs⟩
      simp only [List.flatMap_append, List.mem_append, this, or_true, true_or])
  · exact nocr_flatMap fun t ht => nocr_date (by decide) (at_mem h fun s hs => by
      have : s ∈ p.builtDate.toList.flatMap (fun t => (datetimeToIso t).toList) := List.mem_flatMap.2 ⟨t, ht, hs⟩
      simp only [List.flatMap_append, List.mem_append, this, or_true, true_or])
  · exact nocr_flatMap fun t ht => nocr_date (by decide) (at_mem h fun s hs => by
      have : s ∈ p.validUntilDate.toList.flatMap (fun t => (datetimeToIso t).toList) := List.mem_flatMap.2 ⟨t, ht, hs⟩
      simp only [List.flatMap_append, List.mem_append, this, or_true])

private theorem nocr_annotation {a : Annotation} (h : ∀ t ∈ annotationTexts a, XmlText t) : NoCr (writeAnnotation a) := by
  unfold annotationTexts at h
  unfold writeAnnotation
  refine nocr_append (nocr_append (nocr_append (nocr_append ?_ ?_) ?_) ?_) ?_
  · exact nocr_value (by decide) (clean_xml (h _ (by simp)))
  · exact nocr_date (by decide) (at_mem h fun t ht => by simp only [List.mem_append, ht, or_true])
  · exact nocr_value (by decide) (clean_xml (word_type _))
  · exact nocr_value (by decide) (clean_xml (h _ (by simp)))
  · exact nocr_text (by decide) (clean_xml (h _ (by simp)))

private theorem nocr_relationship {r : Relationship} (h : ∀ t ∈ relationshipTexts r, XmlText t) : NoCr (writeRelationship r) := by
  unfold relationshipTexts at h
  unfold writeRelationship
  refine nocr_append (nocr_value (by decide) (clean_join (by decide) ?_)) ?_
  · simp only [List.forall_mem_cons, List.not_mem_nil, false_imp_iff, implies_true, and_true]
    exact ⟨clean_xml (h _ (by simp)), clean_xml (word_relationship _), clean_xml (h _ (by simp))⟩
  · exact nocr_text? (by decide) (at_mem h fun t ht => by simp only [List.mem_append, ht, or_true])

private theorem nocr_extracted {e : ExtractedLicensingInfo} (h : ∀ t ∈ licenseTexts e, XmlText t) : NoCr (writeExtracted e) := by
  unfold licenseTexts at h
  unfold writeExtracted
  refine nocr_append (nocr_append (nocr_append (nocr_append ?_ ?_) ?_) ?_) ?_
  · exact nocr_plain? (by decide) (at_mem h fun t ht => by simp only [List.mem_append, ht, true_or])
  · exact nocr_text? (by decide) (at_mem h fun t ht => by simp only [List.mem_append, ht, or_true, true_or])
  · exact nocr_value? (by decide) fun a ha => clean_xml (h _ (by simp only [List.mem_append, List.mem_map_of_mem (f := OrNoAssertion.text) ha, or_true, true_or]))
  · exact nocr_flatMap fun t ht => nocr_value (by decide) (clean_xml (h _ (by simp only [List.mem_append, (mem_sortStr _ _).1 ht, or_true, true_or])))
  · exact nocr_text? (by decide) (at_mem h fun t ht => by simp only [List.mem_append, ht, or_true])

/-- A relationship that tag-value adds has the texts of identifiers. -/
private theorem said_texts (ht : AllTexts XmlText d) {l : TvLayout} (hc : C27.Complete d l) :
    ∀ r ∈ l.relationships, ∀ t ∈ relationshipTexts r, XmlText t := by
  intro r hr
  rcases C27.relationship_only hc r (List.mem_append.2 (.inr hr)) with h | ⟨p, f, rfl, r', _, h⟩
  · exact ht.relationships r h
  · have hp := (C27.packagedIds_iff d r' p f).1 h
    obtain ⟨a, ha, ea⟩ := List.mem_map.1 hp.1
    obtain ⟨b, hb, eb⟩ := List.mem_map.1 hp.2.1
    intro t h
    have h : t = p ∨ t = f := by simpa [relationshipTexts, contains, OrSpecial.text] using h
    rcases h with h | h
    · rw [h, ← ea]; exact ht.packages a ha _ (by simp [packageTexts])
    · rw [h, ← eb]; exact ht.files b hb _ (by simp [fileTexts])

/-- The tag-value text has no carriage return. -/
theorem document_clean {n : Nat} (hu : UniqueIds d) (ht : AllTexts XmlText d) (hl : AllLics (LicAnywhere L n) d) : '\r' ∉ (writeTagValue L d).text := by
  have rendered : ∀ {x : LicExpr}, LicAnywhere L n x → XmlText (L.render x) := fun h => (h _ (sameLic_refl _)).2.2.2.2
  obtain ⟨l, e, hc⟩ := C27.written_once L d hu
  have hfile : ∀ f ∈ l.allFiles, NoCr (writeFile L f) := fun f hf => by
    have hf := hc.files.mem_iff.1 hf
    exact nocr_file (ht.files f hf) fun x hx => rendered (hl.files f hf x hx)
  have hsn : ∀ s ∈ l.allSnippets, NoCr (writeSnippet L s ++ [some .blank]) := fun s hs => by
    have hs := hc.snippets.mem_iff.1 hs
    exact nocr_append (nocr_snippet (ht.snippets s hs) fun x hx => rendered (hl.snippets s hs x hx)) nocr_blank
  have htv : ∀ f ∈ l.tvFiles, NoCr (writeTvFile L f) := fun f hf =>
    nocr_append (nocr_append (hfile _ (List.mem_map_of_mem hf)) nocr_blank)
      (nocr_flatMap fun s hs => hsn s (List.mem_append.2 (.inr (List.mem_flatMap.2 ⟨f, hf, hs⟩))))
  have hall : NoCr (writeTagValue L d) := by
    rw [e]
    unfold writeLayout
    refine nocr_append (nocr_append (nocr_append (nocr_append (nocr_append (nocr_append (nocr_append (nocr_append (nocr_append (nocr_append
      (nocr_append (nocr_append ?_ ?_) ?_) ?_) ?_) ?_) ?_) ?_) ?_) ?_) ?_) ?_) ?_
    · exact nocr_one (by decide)
    · exact nocr_info ht.info
    · exact nocr_blank
    · exact nocr_flatMap fun s hs => hsn s (List.mem_append.2 (.inl hs))
    · exact nocr_flatMap fun f hf => htv f (List.mem_append.2 (.inl hf))
    · refine nocr_flatMap fun g hg => ?_
      have hp : g.package ∈ d.packages := hc.packages ▸ List.mem_map_of_mem hg
      refine nocr_append (nocr_append (nocr_package (ht.packages _ hp) fun x hx => rendered (hl.packages _ hp x hx)) nocr_blank) ?_
      exact nocr_flatMap fun f hf => htv f (List.mem_append.2 (.inr (List.mem_flatMap.2 ⟨g, hg, hf⟩)))
    · exact nocr_if (nocr_one (by decide))
    · exact nocr_flatMap fun x hx => nocr_append (nocr_extracted (ht.licenses x (hc.extracted ▸ hx))) nocr_blank
    · exact nocr_if (nocr_one (by decide))
    · exact nocr_flatMap fun r hr => nocr_relationship (said_texts ht hc r hr)
    · exact nocr_blank
    · exact nocr_if (nocr_one (by decide))
    · exact nocr_flatMap fun a ha => nocr_append (nocr_annotation (ht.annotations a (hc.annotations ▸ ha))) nocr_blank
  intro h
  obtain ⟨x, hx, h⟩ := List.mem_flatMap.1 h
  unfold TvSteps.written at hx
  obtain ⟨o, ho, e⟩ := List.mem_filterMap.1 hx
  cases e
  exact hall x ((List.takeWhile_subset _) ho) h

/-! ### Every format -/

/-- A document that every format can hold fits each of them. -/
theorem portable_fits {E : CliEnv} {R : RdfEnv} {b : Bindings} (hL : R.lic = E.lic) (h : Portable E.ext R b d) (fmt : FileFormat) :
    C59.Fits E R b d fmt := by
  have hj := h.json
  have ht := h.tagValue
  have hl := h.lics
  rw [hL] at hj ht hl
  cases fmt with
  | JSON => exact hj
  | YAML => exact hj
  | XML =>
    refine ⟨hj, fun s hs => ⟨(ht.snippets s hs).byteRange, (ht.snippets s hs).lineRange⟩, fun e he => ?_, fun j hj => document_texts h.texts hl hj⟩
    obtain ⟨i, hi, _⟩ := (ht.extracted e he).id
    exact .inl (by rw [hi]; exact Option.some_ne_none i)
  | TAG_VALUE => exact ⟨ht, document_clean ht.ids h.texts hl⟩
  | RDF_XML => exact ⟨h.rdf, h.fresh⟩

private theorem ids_nodup {R : RdfEnv} (h : DocRdf R d) :
    (d.packages.map (·.spdxId) ++ d.files.map (·.spdxId) ++ d.snippets.map (·.spdxId)).Nodup := by
  have hn := h.names
  unfold rdfNames at hn
  have hn := (List.nodup_append.1 (List.nodup_cons.1 hn).2).1
  simp only [List.append_assoc] at hn
  have hn := (List.nodup_append.1 hn).2.1
  refine (List.Perm.nodup_iff ?_).1 hn
  rw [← List.append_assoc]
  exact List.perm_append_comm.append_right _

/-- How often the format repeats what a commented relationship says. -/
def repeats : FileFormat → Nat
  | .TAG_VALUE => 1
  | _ => 0

/-- One writing and reading. -/
theorem kept_conveys {R : RdfEnv} {e : Document} {fmt : FileFormat} (hR : DocRdf R d) (h : C59.Kept d e fmt) : Conveys (repeats fmt) d e := by
  cases fmt with
  | JSON => subst h; exact conveys_regroup (ids_nodup hR)
  | YAML => subst h; exact conveys_regroup (ids_nodup hR)
  | XML => subst h; exact conveys_regroup (ids_nodup hR)
  | TAG_VALUE => exact conveys_tagvalue h
  | RDF_XML => exact conveys_rdf h

end Spdx.Converted
