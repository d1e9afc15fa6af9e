import Verif.Props.C94
/-
C95: A document has an RDF graph exactly if its dates can be expressed in UTC and each of its snippets has a line range; so a document that was
read can be written as RDF exactly if each of its snippets has a line range.
-/
namespace Spdx.C95
open C94 (dates InRange)

private theorem mapM_isSome {α β : Type} (f : α → Option β) (l : List α) : (l.mapM f).isSome ↔ ∀ x ∈ l, (f x).isSome := by
  induction l with
  | nil => simp
  | cons x l ih =>
    rw [List.mapM_cons]
    cases hx : f x with
    | none => simp [hx]
    | some y =>
      cases hl : l.mapM f with
      | none => rw [hl] at ih; simp only [Option.isSome_none, Bool.false_eq_true, false_iff] at ih; simp [hx]; simpa using ih
      | some ys => rw [hl] at ih; simp only [Option.isSome_some, true_iff] at ih; simp [hx]; simpa using ih

/-- The same for a list with places, if success depends on the entries only. -/
private theorem zip_isSome {α β : Type} (f : α × Nat → Option β) (l : List α) (P : α → Prop) (h : ∀ e, (f e).isSome ↔ P e.1) :
    (l.zipIdx.mapM f).isSome ↔ ∀ x ∈ l, P x := by
  rw [mapM_isSome]
  simp only [h]
  constructor
  · intro H x hx
    rw [← List.zipIdx_map_fst (l := l)] at hx
    obtain ⟨e, he, rfl⟩ := List.mem_map.1 hx
    exact H e he
  · intro H e he
    exact H e.1 (by
      have := List.mem_map_of_mem (f := Prod.fst) he
      rwa [List.zipIdx_map_fst] at this)

private theorem iso_iff (t : DateTime) : (datetimeToIso t).isSome ↔ InRange t := by
  unfold datetimeToIso toNaiveUtc InRange
  cases h : t.tz <;> simp

private theorem annotation_type (x : AnnotationType) : (enumToRdf s%"annotationType_" x.name).isSome := by cases x <;> decide +kernel
private theorem file_type (x : FileType) : (enumToRdf s%"fileType_" x.name).isSome := by cases x <;> decide +kernel
private theorem category (x : ExternalPackageRefCategory) : (enumToRdf s%"referenceCategory_" x.name).isSome := by cases x <;> decide +kernel
private theorem purpose (x : PackagePurpose) : (enumToRdf s%"purpose_" x.name).isSome := by cases x <;> decide +kernel
private theorem relationship_type (x : RelationshipType) : (enumToRdf s%"relationshipType_" x.name).isSome := by cases x <;> decide +kernel

private theorem info_iff (c : CreationInfo) : (creationInfoTriples c).isSome ↔ InRange c.created := by
  rw [← iso_iff]
  unfold creationInfoTriples
  cases datetimeToIso c.created <;> simp

private theorem annotation_iff (ns : Str) (ext : Dict Str Str) (path : List Nat) (a : Annotation) :
    (annotationTriples ns ext path a).isSome ↔ InRange a.annotationDate := by
  rw [← iso_iff]
  unfold annotationTriples
  obtain ⟨t, ht⟩ := Option.isSome_iff_exists.1 (annotation_type a.annotationType)
  rw [ht]
  cases datetimeToIso a.annotationDate <;> simp

private theorem file_some (env : RdfEnv) (ns : Str) (path : List Nat) (res : RdfNode) (f : File) : (fileTriples env ns path res f).isSome := by
  unfold fileTriples
  obtain ⟨t, ht⟩ := Option.isSome_iff_exists.1 ((mapM_isSome (fun t : FileType => enumToRdf s%"fileType_" t.name) f.fileTypes).2 fun x _ => file_type x)
  rw [ht]
  rfl

private theorem ref_some (ns : Str) (path : List Nat) (res : RdfNode) (r : ExternalPackageRef) : (packageRefTriples ns path res r).isSome := by
  unfold packageRefTriples
  obtain ⟨t, ht⟩ := Option.isSome_iff_exists.1 (category r.category)
  rw [ht]
  rfl

private theorem purpose_some (res : RdfNode) (p : Option PackagePurpose) : (purposeTriples res p).isSome := by
  cases p with
  | none => rfl
  | some p =>
    unfold purposeTriples
    obtain ⟨t, ht⟩ := Option.isSome_iff_exists.1 (purpose p)
    simp only [ht]
    rfl

private theorem date_iff (res : RdfNode) (p : Pred) (t : Option DateTime) : (optDate res p t).isSome ↔ ∀ x ∈ t.toList, InRange x := by
  cases t with
  | none => simp [optDate]
  | some t =>
    simp only [optDate, Option.toList_some, List.mem_singleton, forall_eq, ← iso_iff]
    cases datetimeToIso t <;> simp

private theorem package_iff (env : RdfEnv) (ns : Str) (path : List Nat) (res : RdfNode) (p : Package) :
    (packageTriples env ns path res p).isSome ↔ ∀ t ∈ p.releaseDate.toList ++ p.builtDate.toList ++ p.validUntilDate.toList, InRange t := by
  have hr := date_iff res .releaseDate p.releaseDate
  have hb := date_iff res .builtDate p.builtDate
  have hv := date_iff res .validUntilDate p.validUntilDate
  simp only [List.mem_append, or_imp, forall_and]
  rw [← hr, ← hb, ← hv]
  unfold packageTriples
  obtain ⟨x, hx⟩ := Option.isSome_iff_exists.1 ((mapM_isSome (fun e : ExternalPackageRef × Nat => packageRefTriples ns (e.2 :: 0 :: path) res e.1)
    p.externalReferences.zipIdx).2 fun e _ => ref_some _ _ _ _)
  obtain ⟨y, hy⟩ := Option.isSome_iff_exists.1 (purpose_some res p.primaryPackagePurpose)
  rw [hx, hy]
  cases optDate res .releaseDate p.releaseDate <;> cases optDate res .builtDate p.builtDate <;>
    cases optDate res .validUntilDate p.validUntilDate <;> simp

private theorem relationship_some (ns : Str) (ext : Dict Str Str) (path : List Nat) (r : Relationship) :
    (relationshipTriples ns ext path r).isSome := by
  unfold relationshipTriples
  obtain ⟨t, ht⟩ := Option.isSome_iff_exists.1 (relationship_type r.relationshipType)
  rw [ht]
  rfl

private theorem snippet_iff (env : RdfEnv) (ns : Str) (ext : Dict Str Str) (path : List Nat) (res : RdfNode) (s : Snippet) :
    (snippetTriples env ns ext path res s).isSome ↔ s.lineRange ≠ none := by
  unfold snippetTriples
  cases s.lineRange <;> simp

private theorem graph_iff (env : RdfEnv) (d : Document) : (rdfGraph env d).isSome ↔
    InRange d.creationInfo.created ∧ (∀ a ∈ d.annotations, InRange a.annotationDate) ∧
      (∀ p ∈ d.packages, ∀ t ∈ p.releaseDate.toList ++ p.builtDate.toList ++ p.validUntilDate.toList, InRange t) ∧
      ∀ s ∈ d.snippets, s.lineRange ≠ none := by
  rw [← info_iff,
    ← zip_isSome (fun e => annotationTriples d.creationInfo.documentNamespace (externalNamespaces d.creationInfo.externalDocumentRefs) [e.2, 2] e.1)
      d.annotations _ fun e => annotation_iff _ _ _ _,
    ← zip_isSome (fun e => packageTriples env d.creationInfo.documentNamespace [e.2, 4]
      (.uri (addNamespace e.1.spdxId d.creationInfo.documentNamespace (externalNamespaces d.creationInfo.externalDocumentRefs))) e.1)
      d.packages _ fun e => package_iff _ _ _ _ _,
    ← zip_isSome (fun e => snippetTriples env d.creationInfo.documentNamespace (externalNamespaces d.creationInfo.externalDocumentRefs) [e.2, 6]
      (.uri (addNamespace e.1.spdxId d.creationInfo.documentNamespace (externalNamespaces d.creationInfo.externalDocumentRefs))) e.1)
      d.snippets _ fun e => snippet_iff _ _ _ _ _ _]
  unfold rdfGraph
  dsimp only
  obtain ⟨fs, hf⟩ := Option.isSome_iff_exists.1 ((mapM_isSome (fun e : File × Nat => fileTriples env d.creationInfo.documentNamespace [e.2, 3]
    (.uri (addNamespace e.1.spdxId d.creationInfo.documentNamespace (externalNamespaces d.creationInfo.externalDocumentRefs))) e.1)
    d.files.zipIdx).2 fun e _ => file_some _ _ _ _ _)
  obtain ⟨rs, hr⟩ := Option.isSome_iff_exists.1 ((mapM_isSome (fun e : Relationship × Nat => relationshipTriples d.creationInfo.documentNamespace
    (externalNamespaces d.creationInfo.externalDocumentRefs) [e.2, 5] e.1) d.relationships.zipIdx).2 fun e _ => relationship_some _ _ _ _)
  rw [hf, hr]
  generalize creationInfoTriples d.creationInfo = a
  generalize List.mapM (m := Option) _ d.annotations.zipIdx = b
  generalize List.mapM (m := Option) _ d.packages.zipIdx = c
  generalize List.mapM (m := Option) _ d.snippets.zipIdx = e
  cases a <;> cases b <;> cases c <;> cases e <;> simp

/-- A document has an RDF graph exactly if each of its dates can be expressed in UTC and each of its snippets has a line range. -/
theorem rdf_iff (env : RdfEnv) (d : Document) :
    (rdfGraph env d).isSome ↔ (∀ t ∈ dates d, InRange t) ∧ ∀ s ∈ d.snippets, s.lineRange ≠ none := by
  rw [graph_iff]
  constructor
  · rintro ⟨h1, h2, h3, h4⟩
    refine ⟨fun t ht => ?_, h4⟩
    simp only [dates, List.cons_append, List.mem_cons, List.mem_append, List.mem_map, List.mem_flatMap] at ht
    rcases ht with rfl | ⟨a, ha, rfl⟩ | ⟨p, hp, ht⟩
    · exact h1
    · exact h2 a ha
    · exact h3 p hp t (by simpa only [List.mem_append] using ht)
  · rintro ⟨h, h4⟩
    refine ⟨h _ (by simp [dates]), fun a ha => h _ ?_, fun p hp t ht => h _ ?_, h4⟩
    · simp only [dates, List.cons_append, List.mem_cons, List.mem_append, List.mem_map]
      exact .inr (.inl ⟨a, ha, rfl⟩)
    · simp only [dates, List.cons_append, List.mem_cons, List.mem_append, List.mem_flatMap]
      exact .inr (.inr ⟨p, hp, by simpa only [List.mem_append] using ht⟩)

/-- The graph exists exactly if the document can be written as JSON and each snippet has a line range. -/
theorem rdf_or_json (env : RdfEnv) (L : LicText) (d : Document) :
    (rdfGraph env d).isSome ↔ (documentToJson L d).isSome ∧ ∀ s ∈ d.snippets, s.lineRange ≠ none := by
  rw [rdf_iff, C94.json_iff]

private theorem naive {d : Document} (h : ∀ t ∈ dates d, t.tz = none) : ∀ t ∈ dates d, InRange t := by
  intro t ht off ho
  rw [h t ht] at ho
  cases ho

/-- A document that was read, from any format, has an RDF graph exactly if each of its snippets has a line range. -/
theorem read_iff (env : RdfEnv) (d : Document)
    (h : (∃ L j, parseDocument L j = .ok d) ∨ (∃ L text, parseTagValue L text = .ok d) ∨ ∃ e b g, parseRdf e b g = some d) :
    (rdfGraph env d).isSome ↔ ∀ s ∈ d.snippets, s.lineRange ≠ none := by
  have hn : ∀ t ∈ dates d, t.tz = none := by
    rcases h with ⟨L, j, h⟩ | ⟨L, text, h⟩ | ⟨e, b, g, h⟩
    · exact C94.read_dates L j d h
    · exact C94.tag_value_dates L text d h
    · exact C94.rdf_dates e b g d h
  rw [rdf_iff]
  exact ⟨fun h => h.2, fun h => ⟨naive hn, h⟩⟩

/-- Removing duplicates changes nothing about this. -/
theorem without_duplicates (env : RdfEnv) (X : Ext) (d : Document) : (rdfGraph env (dedupDocument X d)).isSome ↔ (rdfGraph env d).isSome := by
  have hd : dates (dedupDocument X d) = dates d := by
    simp only [dates, dedupDocument, CreationInfo.dedup, List.flatMap_map, Package.dedup]
  rw [rdf_iff, rdf_iff, hd]
  simp only [dedupDocument, List.mem_map, forall_exists_index, and_imp, forall_apply_eq_imp_iff₂, Snippet.dedup]

/-- The example document, which has a snippet with a line range, and the same without it. -/
example : (rdfGraph C49.exampleEnv Example.doc).isSome ∧ Example.doc.snippets ≠ [] := by decide +kernel
example (env : RdfEnv) (s : Snippet) : rdfGraph env { Example.doc with snippets := [{ s with lineRange := none }] } = none := by
  rw [← Option.not_isSome_iff_eq_none, rdf_iff]
  exact fun h => h.2 _ (List.mem_singleton.2 rfl) rfl
example : ∃ d, parseDocument C23.exampleLic (.obj C56.tree) = .ok d := ⟨_, C56.tree_read⟩

end Spdx.C95
