import Verif.Lemmas.JsonRoundTrip
import Verif.Model.JsonNames
import Verif.Spec.Example
/-
C23: converting a document to its JSON form and parsing that form gives back an equal document (annotations regrouped by element), for
documents whose required lists are non-empty and whose texts are not the reserved words.

The conditions are spelled out in `Spec/JsonOk.lean`; the theorems `*_lost`, `*_rejected` and `*_changed` at the end show that each
kind of condition is needed.
-/
namespace Spdx.C23
open Spdx

/-! The keys used by the writer are the ones computed by the converters from the property tables. -/

private theorem document_keys_nodup : documentKeys.Nodup := by decide

private theorem creators_field (c : CreationInfo) (h : CreationInfoOk c) :
    parseField ((orNone (jstrs (c.creators.map Actor.toSerialized))).getD .null) (parseList parseActorJson)
      = pure (some c.creators) := by
  rw [jstrs_map]
  have := parseField_list (parseList parseActorJson) (fun a : Actor => Json.str a.toSerialized) id c.creators (by
    simpa using parseList_map parseActorJson (fun a : Actor => Json.str a.toSerialized) id c.creators
      fun a ha => actor_roundtrip a (h.actors a ha))
  simpa [listField, h.creators] using this

private theorem optPart_truthy {j : Json} (m : Json → Py α) (h : j.truthy = true) : optPart j m = part (m j) := if_pos h

private theorem choose_fn {f : α → Option Json} {R : α → Json → Prop} (l : List α) (h : ∀ a ∈ l, ∃ b, f a = some b ∧ R a b) :
    ∃ g : α → Json, ∀ a ∈ l, f a = some (g a) ∧ R a (g a) := ⟨fun a => (f a).getD .null, fun a ha => by
  obtain ⟨b, h1, h2⟩ := h a ha
  simp only [h1, Option.getD_some]
  exact ⟨trivial, h2⟩⟩

theorem round_trip (L : LicText) (d : Document) (h : JsonOk L d) :
    ∃ j, documentToJson L d = some j ∧ parseDocument L j = .ok { d with annotations := regroup d } := by
  obtain ⟨pj, hp⟩ := choose_fn d.packages fun p hp => package_roundtrip L d p (h.packages p hp) h.annotations
  obtain ⟨fj, hf⟩ := choose_fn d.files fun f hf => file_roundtrip L d f (h.files f hf) h.annotations
  obtain ⟨sj, hs⟩ := choose_fn d.snippets fun s hs => snippet_roundtrip L d s (h.snippets s hs) h.annotations
  obtain ⟨created, c1, c2, c3⟩ := date_roundtrip _ h.info.created
  have hdoc : ∀ a ∈ d.annotations.filter (fun a => a.spdxId ∉ containedIds d), AnnotationOk a ∧ a.spdxId = d.creationInfo.spdxId := by
    intro a ha
    have ha' := List.mem_filter.mp ha
    refine ⟨h.annotations a ha'.1, ?_⟩
    rcases h.anchored a ha'.1 with e | e
    · exact e
    · simp [e] at ha'
  obtain ⟨cvals, hcv⟩ : ∃ v, v = [some (.str created), orNone (jstrs (d.creationInfo.creators.map Actor.toSerialized)),
    d.creationInfo.licenseListVersion.map (.str ·.toStr), d.creationInfo.creatorComment.map .str] := ⟨_, rfl⟩
  have gc := mkObj_get creationInfoKeys cvals creationInfoKeys_nodup
  obtain ⟨vals, hv⟩ : ∃ v, v =
    [some (.str d.creationInfo.spdxId), orNone ((d.annotations.filter (fun a => a.spdxId ∉ containedIds d)).map annotationJ),
     d.creationInfo.documentComment.map .str, some (mkObj creationInfoKeys cvals),
     some (.str d.creationInfo.dataLicense), orNone (d.creationInfo.externalDocumentRefs.map externalDocumentRefToJson),
     orNone (d.extractedLicensingInfo.map extractedToJson), some (.str d.creationInfo.name),
     some (.str d.creationInfo.spdxVersion), some (.str d.creationInfo.documentNamespace), orNone (d.packages.map pj),
     orNone (d.files.map fj), orNone (d.snippets.map sj), orNone (d.relationships.map relationshipToJson)] := ⟨_, rfl⟩
  have g := mkObj_get documentKeys vals document_keys_nodup
  have gm := @mkObj_get_missing documentKeys vals
  have ht : (mkObj documentKeys vals).truthy = true := by subst hv; exact mkObj_truthy _ _ 0 rfl rfl
  refine ⟨mkObj documentKeys vals, ?_, ?_⟩
  · simp only [documentToJson, mapM_some _ fun a ha => (annotation_roundtrip a (hdoc a ha).1).1, creationInfoToJson, c1,
      mapM_some _ fun p hp' => (hp p hp').1, mapM_some _ fun p hp' => (hf p hp').1, mapM_some _ fun p hp' => (hs p hp').1, hv, hcv]
    rfl
  · have hinfo : parseCreationInfo (mkObj documentKeys vals) = .ok d.creationInfo := by
      have hver := parseField_opt d.creationInfo.licenseListVersion (.str ·.toStr) parseVersion fun v _ => version_roundtrip v
      have hne : mkObj creationInfoKeys cvals ≠ .null := by simp [mkObj]
      have hcreated : parseField (.str created) parseDate = pure (some d.creationInfo.created) := parseField_some (truthy_str c2) c3
      subst hv
      simp only [parseCreationInfo, pyGet, g 0 rfl rfl, g 2 rfl rfl, g 3 rfl rfl, g 4 rfl rfl, g 5 rfl rfl, g 7 rfl rfl, g 8 rfl rfl,
        g 9 rfl rfl, py_bind_ok, Option.getD_some, hne, if_false]
      subst hcv
      simp only [gc 0 rfl rfl, gc 1 rfl rfl, gc 2 rfl rfl, gc 3 rfl rfl, lift_ok, pbind_pure, creators_field _ h.info,
        Option.getD_some, hcreated, parseField_externalDocumentRefs, hver, orRaiseIn_pure, py_bind_ok, chkStr_str, chkSome_some,
        chkOptStr_opt, chkAll_listField, ap_ok, construct_ok]
    have hpk : parsePackages L (.arr (d.packages.map pj)) = .ok (d.packages.map id) := by
      simp only [parsePackages, pyIter, py_bind_ok, collectPackages_map L pj d.packages fun p hp' => ⟨(hp p hp').2.1, (hp p hp').2.2.1⟩,
        orRaise_pure, List.map_id]
    have hfl : parseList (parseFile L) (.arr (d.files.map fj)) = .ok (d.files.map id) :=
      parseList_map _ _ id d.files fun f hf' => (hf f hf').2.1
    have hsn : parseList (parseSnippet L) (.arr (d.snippets.map sj)) = .ok (d.snippets.map id) :=
      parseList_map _ _ id d.snippets fun f hf' => (hs f hf').2.1
    have hex : parseList parseExtracted (.arr (d.extractedLicensingInfo.map extractedToJson)) = .ok (d.extractedLicensingInfo.map id) :=
      parseList_map _ _ id _ fun e he => extracted_roundtrip e (h.extracted e he)
    have hrl : parseList parseRelationship (.arr (d.relationships.map relationshipToJson)) = .ok (d.relationships.map id) :=
      parseList_map _ _ id _ fun e he => relationship_roundtrip e (h.relationships e he)
    have hann : parseAllAnnotations (mkObj documentKeys vals) = .ok (regroup d) := by
      obtain ⟨o, o1, o2⟩ := parseField_annotations d.creationInfo.spdxId _ hdoc
      have ap := annotationsFrom_map pj (·.spdxId) d.annotations d.packages h.annotations fun p hp' => ⟨(hp p hp').2.2.2.1, (hp p hp').2.2.2.2.1⟩
      have af := annotationsFrom_map fj (·.spdxId) d.annotations d.files h.annotations fun p hp' => (hf p hp').2.2
      have as := annotationsFrom_map sj (·.spdxId) d.annotations d.snippets h.annotations fun p hp' => (hs p hp').2.2
      have gr := gm (k := s%"revieweds") (by decide)
      subst hv
      simp only [parseAllAnnotations, annotationsFrom, pyGet, g 0 rfl rfl, g 1 rfl rfl, gr, g 10 rfl rfl, g 11 rfl rfl, g 12 rfl rfl,
        orNone_getD_arr, Option.getD_some, lift_ok, pbind_pure, py_bind_ok, o1, pyIter, collect, ap, af, as, o2, orRaiseIn_pure, regroup,
        List.flatMap_append, List.append_nil, List.append_assoc]
      rfl
    have hrel : parseAllRelationships (mkObj documentKeys vals) = .ok d.relationships := by
      have gr := gm (k := s%"documentDescribes") (by decide)
      have hh := fun ex => hasFilesLoop_none ex pj d.packages fun p hp' => ⟨(hp p hp').2.2.2.1, (hp p hp').2.2.2.2.2⟩
      have e1 := parseField_list _ _ id _ hrl
      have e2 : ∀ f : Json → Py (List Relationship), parseField (.arr []) f = pure none := fun f => rfl
      have e3 : ∀ ex, ∃ o : Option (List Relationship), parseField (.arr (d.packages.map pj)) (parseHasFiles ex) = pure o ∧ o.getD [] = [] := by
        intro ex
        cases hx : d.packages with
        | nil => exact ⟨none, rfl, rfl⟩
        | cons p l =>
          refine ⟨some [], parseField_some rfl ?_, rfl⟩
          rw [← hx]
          simp only [parseHasFiles, pyIter, py_bind_ok, hh, orRaiseIn_pure]
      obtain ⟨o, o1, o2⟩ := e3 (withoutComments d.relationships)
      have e4 : deleteDuplicates (.arr []) = .ok [] := rfl
      have e5 : parseField (.arr (d.relationships.map relationshipToJson)) (parseList parseRelationship)
          = pure (listField (d.relationships.map id)) := by
        cases hx : d.relationships with
        | nil => rfl
        | cons r l => rw [hx] at hrl; simp only [listField, List.map_cons, reduceCtorEq, if_false]; exact parseField_some rfl hrl
      subst hv
      simp only [parseAllRelationships, pyGet, g 0 rfl rfl, gr, g 10 rfl rfl, g 13 rfl rfl, orNone_getD_arr, Option.getD_some, lift_ok,
        pbind_pure, py_bind_ok, e5, e4, e2, listField_getD, List.map_id, Option.getD_none, o1, o2, List.append_nil, orRaise_pure]
    subst hv
    simp only [parseDocument, hinfo, part_ok, pbind_pure, pyGet, g 6 rfl rfl, g 10 rfl rfl, g 11 rfl rfl, g 12 rfl rfl, lift_ok,
      optPart_list _ _ _ _ hpk, optPart_list _ _ _ _ hfl, optPart_list _ _ _ _ hsn, optPart_list _ _ _ _ hex]
    simp only [optPart_truthy _ ht, hann, hrel, part_ok, pbind_pure, List.map_id, orRaise_pure, py_bind_ok, chkSome_some,
      listField_getD, Option.getD_some, ap_ok, construct_ok]

/-! The order in which annotations come back -/

private theorem flatMap_filter_absent (anns : List Annotation) (id : Str) (ids : List Str) (h : id ∉ ids) :
    (ids.flatMap fun i => anns.filter fun a => a.spdxId = i).filter (fun a => a.spdxId = id) = [] := by
  induction ids with
  | nil => rfl
  | cons i ids ih =>
    simp only [List.mem_cons, not_or] at h
    rw [List.flatMap_cons, List.filter_append, ih h.2, List.filter_filter, List.append_nil, List.filter_eq_nil_iff]
    intro a _ ha
    simp only [Bool.and_eq_true, decide_eq_true_eq] at ha
    exact h.1 (ha.1.symm.trans ha.2)

private theorem flatMap_filter_present (anns : List Annotation) (id : Str) (ids : List Str) (nd : ids.Nodup) (h : id ∈ ids) :
    (ids.flatMap fun i => anns.filter fun a => a.spdxId = i).filter (fun a => a.spdxId = id) = anns.filter fun a => a.spdxId = id := by
  induction ids with
  | nil => simp at h
  | cons i ids ih =>
    rw [List.nodup_cons] at nd
    rw [List.flatMap_cons, List.filter_append, List.filter_filter]
    by_cases e : id = i
    · subst e
      rw [flatMap_filter_absent anns id ids nd.1, List.append_nil]
      exact List.filter_congr fun a _ => by simp
    · rw [ih nd.2 (by simpa [e] using h)]
      rw [List.filter_eq_nil_iff.mpr, List.nil_append]
      intro a _ ha
      simp only [Bool.and_eq_true, decide_eq_true_eq] at ha
      exact e (ha.1.symm.trans ha.2)

private theorem mem_ids (d : Document) (id : Str) :
    id ∈ d.packages.map (·.spdxId) ++ d.files.map (·.spdxId) ++ d.snippets.map (·.spdxId) ↔ id ∈ containedIds d := by
  simp only [containedIds, List.mem_append]
  grind

private theorem nodup_ids (d : Document) (nd : (containedIds d).Nodup) :
    (d.packages.map (·.spdxId) ++ d.files.map (·.spdxId) ++ d.snippets.map (·.spdxId)).Nodup := by
  refine List.Perm.nodup (List.Perm.append_right _ List.perm_append_comm) ?_
  simpa only [containedIds] using nd

/-- Each element keeps its annotations, in their order. -/
theorem element_annotations_kept (d : Document) (nd : (containedIds d).Nodup) (id : Str) :
    (regroup d).filter (fun a => a.spdxId = id) = d.annotations.filter (fun a => a.spdxId = id) := by
  unfold regroup
  rw [List.filter_append, List.filter_filter]
  by_cases h : id ∈ containedIds d
  · rw [flatMap_filter_present _ _ _ (nodup_ids d nd) ((mem_ids d id).mpr h), List.filter_eq_nil_iff.mpr, List.nil_append]
    intro a _ ha
    simp only [Bool.and_eq_true, decide_eq_true_eq] at ha
    exact ha.2 (ha.1 ▸ h)
  · rw [flatMap_filter_absent _ _ _ (fun h' => h ((mem_ids d id).mp h')), List.append_nil]
    refine List.filter_congr fun a _ => ?_
    by_cases e : a.spdxId = id
    · simp [e, h]
    · simp [e]

private theorem count_filter (l : List Annotation) (a : Annotation) :
    l.count a = (l.filter fun b => b.spdxId = a.spdxId).count a := by
  rw [List.count_filter]; simp

/-- No annotation is lost, invented or repeated. -/
theorem annotations_permuted (d : Document) (nd : (containedIds d).Nodup) : (regroup d).Perm d.annotations := by
  rw [List.perm_iff_count]
  intro a
  rw [count_filter, element_annotations_kept d nd, ← count_filter]

/-- When the annotations are already grouped the document comes back exactly. -/
theorem round_trip_exact (L : LicText) (d : Document) (h : JsonOk L d) (hg : regroup d = d.annotations) :
    ∃ j, documentToJson L d = some j ∧ parseDocument L j = .ok d := by
  obtain ⟨j, h1, h2⟩ := round_trip L d h
  exact ⟨j, h1, by rw [h2, hg]⟩

private theorem containedIds_regroup (d : Document) (l : List Annotation) : containedIds { d with annotations := l } = containedIds d := rfl

/-- Regrouping is done once: a document that has been read comes back exactly when it is written and read again. -/
theorem regroup_idempotent (d : Document) (nd : (containedIds d).Nodup) :
    regroup { d with annotations := regroup d } = regroup d := by
  show (regroup d).filter (fun a => a.spdxId ∉ containedIds d) ++
      (d.packages.map (·.spdxId) ++ d.files.map (·.spdxId) ++ d.snippets.map (·.spdxId)).flatMap
        (fun id => (regroup d).filter (fun a => a.spdxId = id)) = regroup d
  have e : (fun id => (regroup d).filter (fun a => a.spdxId = id)) = fun id => d.annotations.filter (fun a => a.spdxId = id) :=
    funext fun id => element_annotations_kept d nd id
  rw [e]
  have e2 : (regroup d).filter (fun a => a.spdxId ∉ containedIds d) = d.annotations.filter (fun a => a.spdxId ∉ containedIds d) := by
    unfold regroup
    rw [List.filter_append, List.filter_filter]
    rw [show List.filter (fun a : Annotation => decide (a.spdxId ∉ containedIds d)) (List.flatMap _ _) = [] from ?_, List.append_nil]
    · exact List.filter_congr fun a _ => by simp
    · rw [List.filter_eq_nil_iff]
      intro a ha
      simp only [List.mem_flatMap, List.mem_filter, decide_eq_true_eq] at ha
      obtain ⟨i, hi, _, rfl⟩ := ha
      simpa using (mem_ids d _).mp hi
  rw [e2]
  rfl

theorem second_round_trip (L : LicText) (d : Document) (h : JsonOk L d) (nd : (containedIds d).Nodup) :
    ∃ j j' d', documentToJson L d = some j ∧ parseDocument L j = .ok d' ∧
      documentToJson L d' = some j' ∧ parseDocument L j' = .ok d' := by
  obtain ⟨j, h1, h2⟩ := round_trip L d h
  have mem : ∀ a ∈ regroup d, a ∈ d.annotations := fun a ha => (annotations_permuted d nd).mem_iff.mp ha
  have h' : JsonOk L { d with annotations := regroup d } :=
    ⟨h.info, h.packages, h.files, h.snippets, fun a ha => h.annotations a (mem a ha), h.relationships, h.extracted,
      fun a ha => h.anchored a (mem a ha)⟩
  obtain ⟨j', h3, h4⟩ := round_trip_exact L _ h' (regroup_idempotent d nd)
  exact ⟨j, j', _, h1, h2, h3, h4⟩

/-- Two documents that are written alike are equal up to the grouping of annotations: nothing but that is lost by writing. -/
theorem written_alike (L : LicText) (d e : Document) (hd : JsonOk L d) (he : JsonOk L e) (h : documentToJson L d = documentToJson L e) :
    { d with annotations := regroup d } = { e with annotations := regroup e } := by
  obtain ⟨j, h1, h2⟩ := round_trip L d hd
  obtain ⟨j', h3, h4⟩ := round_trip L e he
  rw [h1, h3] at h
  cases h
  rw [h2] at h4
  exact Except.ok.inj h4

/-! The keys used by the writer are the names computed from the property tables, up to the reserved names of the format. -/

theorem keys_from_tables :
    [checksumProps, annotationProps, relationshipProps, extractedLicensingInfoProps, externalDocumentRefProps, externalPackageRefProps,
     packageVerificationCodeProps, creationInfoProps, fileProps, packageProps, snippetProps, documentProps].map
      (·.filterMap jsonPropertyName)
    = [checksumKeys, annotationKeys, relationshipKeys, extractedKeys, externalDocumentRefKeys, externalPackageRefKeys,
       verificationCodeKeys, creationInfoKeys, fileKeys, packageKeys, snippetKeys, documentKeys] := by
  decide +kernel

/-! Non-vacuity: a document with every kind of part meets the conditions. -/

def exampleLic : LicText :=
  { render := fun e => match e with
      | .sym s => s
      | _ => s%"MIT AND LicenseRef-1"
    parse := fun t => some (some (if t = s%"MIT AND LicenseRef-1" then .and [.sym s%"MIT", .sym s%"LicenseRef-1"] else .sym t)) }

private theorem mem_singleton_forall {p : α → Prop} {a : α} (h : p a) : ∀ x ∈ [a], p x := by simpa using h

protected theorem example_ok : JsonOk exampleLic Example.doc where
  info := ⟨by decide, mem_singleton_forall (C05.roundtrip_only _ (by decide +kernel)), by unfold DateOk; decide +kernel⟩
  packages := by
    intro p hp
    rcases (by simpa [Example.doc] using hp : p = Example.package ∨ p = Example.barePackage) with rfl | rfl <;>
      (constructor <;> simp [Example.package, Example.barePackage, Unreserved, LicOk, exampleLic] <;> decide +kernel)
  files := mem_singleton_forall (by
    constructor <;> simp [Example.file, Unreserved, LicOk, exampleLic] <;> decide +kernel)
  snippets := mem_singleton_forall (by constructor <;> simp [Example.snippet])
  annotations := mem_singleton_forall ⟨C05.roundtrip_only _ (by decide +kernel), by unfold DateOk; decide +kernel⟩
  relationships := by
    intro r hr
    simp only [Example.doc, List.mem_cons, List.not_mem_nil, or_false] at hr
    rcases hr with rfl | rfl | rfl | rfl | rfl <;> simp [RelationshipOk, Example.describes, Unreserved]
  extracted := mem_singleton_forall (by simp [ExtractedOk, Example.extracted])
  anchored := by decide +kernel

example : (containedIds Example.doc).Nodup := by decide +kernel

/-! Each kind of condition is needed. -/

/-- The outcome of writing and reading. -/
def outcome (d : Document) : Option (Py Document) := (documentToJson exampleLic d).map (parseDocument exampleLic)

def bare : Document := { Example.doc with packages := [], files := [], snippets := [], annotations := [], relationships := [] }

theorem file_without_checksum_rejected :
    outcome { bare with files := [{ Example.file with checksums := [] }] } =
      some (.error (.parsing [.constructing s%"File" [s%"checksums"]])) := by
  decide +kernel

theorem no_creators_rejected :
    outcome { bare with creationInfo := { Example.info with creators := [] } } =
      some (.error (.parsing [.constructing s%"CreationInfo" [s%"creators"]])) := by
  decide +kernel

/-- A copyright text that happens to be a reserved word comes back as the special value. -/
theorem reserved_copyright_changed :
    outcome { bare with files := [{ Example.file with copyrightText := some (.val s%"NONE") }] } =
      some (.ok { bare with files := [{ Example.file with copyrightText := some .none }] }) := by
  decide +kernel

/-- An annotation of an element that is not in the document comes back as an annotation of the document. -/
theorem dangling_annotation_reassigned :
    outcome { bare with annotations := [{ Example.annotation with spdxId := s%"SPDXRef-gone" }] } =
      some (.ok { bare with annotations := [{ Example.annotation with spdxId := s%"SPDXRef-DOCUMENT" }] }) := by
  decide +kernel

/-- When two elements share an id its annotations come back twice. -/
theorem shared_id_annotation_repeated :
    outcome { bare with files := [Example.file, Example.file], annotations := [Example.annotation] } =
      some (.ok { bare with files := [Example.file, Example.file], annotations := [Example.annotation, Example.annotation] }) := by
  decide +kernel

/-- Annotations do not come back in their original order: those of the document come first. -/
theorem annotation_order_changed :
    outcome { bare with files := [Example.file],
                        annotations := [Example.annotation, { Example.annotation with spdxId := s%"SPDXRef-DOCUMENT" }] } =
      some (.ok { bare with files := [Example.file],
                            annotations := [{ Example.annotation with spdxId := s%"SPDXRef-DOCUMENT" }, Example.annotation] }) := by
  decide +kernel

/-- Fractions of a second are lost. -/
theorem microseconds_lost :
    outcome { bare with creationInfo := { Example.info with created := { year := 2022, month := 1, day := 1, micro := 5 } } } =
      some (.ok { bare with creationInfo := { Example.info with created := { year := 2022, month := 1, day := 1 } } }) := by
  decide +kernel

end Spdx.C23
