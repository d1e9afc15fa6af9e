import Verif.Lemmas.LdMeaning
import Verif.Spec.LdPlain
/- Which migrated elements are understood. -/
namespace Spdx.LdMeaning
open Spdx Spec.Vocab

def kindOf (c k : Str) : Option ValueKind := (rows.find? fun r => decide (r.1 = c) && decide (r.2.1 = k)).map (·.2.2)

theorem kindOf_mem {c k : Str} {kind : ValueKind} (h : kindOf c k = some kind) : (c, k, kind) ∈ rows := by
  unfold kindOf at h
  cases hf : rows.find? fun r => decide (r.1 = c) && decide (r.2.1 = k) with
  | none => rw [hf] at h; cases h
  | some r =>
    rw [hf] at h
    have h1 := List.find?_some hf
    simp only [Bool.and_eq_true, decide_eq_true_eq] at h1
    have h2 := List.mem_of_find?_eq_some hf
    obtain ⟨a, b, d⟩ := r
    cases h
    obtain ⟨rfl, rfl⟩ := h1
    exact h2

/-- every text is understood under the key -/
def fineB (c k : Str) : Bool :=
  match kindOf c k with
  | some (.data d) => dataB k d
  | some (.cls c') => refB k c'
  | none => false

theorem fine_spec {c k : Str} (h : fineB c k = true) : ∃ kind, (c, k, kind) ∈ rows ∧ ∀ s, ValueOk k kind (.str s) := by
  unfold fineB at h
  split at h
  · next d hk => exact ⟨_, kindOf_mem hk, data_str h⟩
  · next c' hk => exact ⟨_, kindOf_mem hk, ref_str h⟩
  · cases h

theorem fine_text {c k : Str} (h : fineB c k = true) (s : Str) : SegOk c (Spec.Ld.text k s) := by
  obtain ⟨kind, h1, h2⟩ := fine_spec h
  exact seg_text h1 h2 s
theorem fine_opt {c k : Str} (h : fineB c k = true) (o : Option Str) : SegOk c (Spec.Ld.opt k o) := by
  obtain ⟨kind, h1, h2⟩ := fine_spec h
  exact seg_opt h1 h2 o
theorem fine_texts {c k : Str} (h : fineB c k = true) (l : List Str) : SegOk c (Spec.Ld.texts k l) := by
  obtain ⟨kind, h1, h2⟩ := fine_spec h
  exact seg_texts h1 h2 l
theorem fine_date {c k : Str} (h : fineB c k = true) (o : Option DateTime) : SegOk c (Spec.Ld.date k o) := by
  obtain ⟨kind, h1, h2⟩ := fine_spec h
  exact seg_date h1 h2 o

theorem num_spec {c k d : Str} (h : kindOf c k = some (.data d)) (hd : dataB k d = true) (i : Int) : SegOk c (Spec.Ld.num k i) :=
  seg_num (kindOf_mem h) (data_num hd) i

private theorem cons_iff {c : Str} {s : List (Str × Json)} {l : List (List (Str × Json))} :
    (∀ x ∈ s :: l, SegOk c x) ↔ SegOk c s ∧ ∀ x ∈ l, SegOk c x := List.forall_mem_cons

private theorem nil_iff {c : Str} : (∀ x ∈ ([] : List (List (Str × Json))), SegOk c x) ↔ True := by simp

private theorem t {p : Prop} (h : p) : p ↔ True := ⟨fun _ => trivial, fun _ => h⟩

theorem algorithm_iff (a : HashAlgorithm) :
    enumB s%"algorithm" s%"core:HashAlgorithm" ((ldMembers.lookup a.name).getD []) = true ↔ a ∉ unknownAlgorithms := by
  cases a <;> decide +kernel

theorem hash_iff (h : Hash3) : Understood (Spec.Ld.hash h) ↔ h.algorithm ∉ unknownAlgorithms := by
  unfold Spec.Ld.hash
  rw [object_iff (by decide +kernel), cons_iff, cons_iff, nil_iff,
    seg_member (k' := s%"core:HashAlgorithm") (kindOf_mem (by decide +kernel)) (by decide +kernel), t (fine_text (by decide +kernel) _),
    algorithm_iff]
  simp

theorem identifier_iff (i : ExternalIdentifier3) : Understood (Spec.Ld.identifier i) ↔ i.type ≠ .PURL := by
  unfold Spec.Ld.identifier
  rw [object_iff (by decide +kernel), cons_iff, cons_iff, cons_iff, nil_iff,
    seg_member (k' := s%"core:ExternalIdentifierType") (kindOf_mem (by decide +kernel)) (by decide +kernel),
    t (fine_text (by decide +kernel) _), t (fine_opt (by decide +kernel) _)]
  cases i.type <;> decide +kernel

theorem reference_iff (i : ExternalReference3) : Understood (Spec.Ld.reference i) := by
  unfold Spec.Ld.reference
  rw [object_iff (by decide +kernel), cons_iff, cons_iff, cons_iff, nil_iff,
    seg_member (k' := s%"core:ExternalReferenceType") (kindOf_mem (by decide +kernel)) (by decide +kernel),
    t (fine_texts (by decide +kernel) _), t (fine_opt (by decide +kernel) _)]
  cases i.type <;> decide +kernel

theorem profile_ok : SegOk s%"CreationInfo" [(s%"profile", .arr [.str s%"core", .str s%"software", .str s%"licensing"])] := by
  intro f hf
  rw [List.mem_singleton] at hf
  subst hf
  refine ⟨(row_iff (kind := .cls s%"core:ProfileIdentifierType") (kindOf_mem (by decide +kernel)) _).2 ?_, ?_⟩
  · intro v hv
    simp only [values, List.mem_cons, List.not_mem_nil, or_false] at hv
    rcases hv with rfl | rfl | rfl <;> exact (enum_iff (by decide +kernel) _).2 (by decide +kernel)
  · rw [understood_arr]
    intro v hv
    simp only [List.mem_cons, List.not_mem_nil, or_false] at hv
    rcases hv with rfl | rfl | rfl <;> exact understood_str _

theorem using_iff (l : List Str) : SegOk s%"CreationInfo" (Spec.Ld.texts s%"createdUsing" l) ↔ ∀ s ∈ l, s = [] := by
  rw [seg_texts_iff (kind := .cls s%"core:Tool") (kindOf_mem (by decide +kernel))]
  have hl : contextFile.lookup s%"createdUsing" = some (.prop s%"core:createdUsing" s%"core:Tool" []) := by decide +kernel
  have hno : ∀ s, ¬ ValueOk s%"createdUsing" (.cls s%"core:Tool") (.str s) := by
    rintro s ⟨i, h, _⟩
    unfold meaning at h
    rw [hl] at h
    dsimp only at h
    rw [if_neg (by decide), if_neg (by decide)] at h
    cases h
  exact ⟨fun h s hs => Decidable.byContradiction fun hn => hno s (h s hs hn), fun h s hs hn => absurd (h s hs) hn⟩

theorem info_iff (c : CreationInfo3) : Understood (Spec.Ld.info c) ↔ ∀ s ∈ c.createdUsing, s = [] := by
  unfold Spec.Ld.info
  rw [object_iff (by decide +kernel), cons_iff, cons_iff, cons_iff, cons_iff, cons_iff, cons_iff, nil_iff,
    t (fine_text (by decide +kernel) _), t (fine_date (by decide +kernel) _), t (fine_texts (by decide +kernel) _), t profile_ok,
    t (fine_text (by decide +kernel) _), using_iff]
  simp

theorem hash_obj (h : Hash3) : Obj s%"Hash" (Spec.Ld.hash h) := ⟨_, rfl⟩
theorem identifier_obj (h : ExternalIdentifier3) : Obj s%"ExternalIdentifier" (Spec.Ld.identifier h) := ⟨_, rfl⟩
theorem reference_obj (h : ExternalReference3) : Obj s%"ExternalReference" (Spec.Ld.reference h) := ⟨_, rfl⟩
theorem info_obj (h : CreationInfo3) : Obj s%"CreationInfo" (Spec.Ld.info h) := ⟨_, rfl⟩
theorem map_obj (h : ExternalMap3) : Obj s%"ExternalMap" (Spec.Ld.externalMap h) := ⟨_, rfl⟩
theorem namespace_obj (h : NamespaceMap3) : Obj s%"NamespaceMap" (Spec.Ld.namespaceMap h) := ⟨_, rfl⟩
theorem range_obj (h : Int × Int) : Obj s%"PositiveIntegerRange" (Spec.Ld.range h) := ⟨_, rfl⟩

theorem map_iff (m : ExternalMap3) : Understood (Spec.Ld.externalMap m) ↔ ∀ h ∈ m.verifiedUsing, h.algorithm ∉ unknownAlgorithms := by
  unfold Spec.Ld.externalMap
  rw [object_iff (by decide +kernel), cons_iff, cons_iff, cons_iff, nil_iff, t (fine_text (by decide +kernel) _),
    seg_objects (k' := s%"core:IntegrityMethod") (kindOf_mem (by decide +kernel)) (by decide +kernel) _ hash_obj,
    t (fine_opt (by decide +kernel) _)]
  simp only [hash_iff]
  simp

theorem namespace_ok (m : NamespaceMap3) : Understood (Spec.Ld.namespaceMap m) := by
  unfold Spec.Ld.namespaceMap
  rw [object_iff (by decide +kernel), cons_iff, cons_iff, nil_iff]
  exact ⟨fine_text (by decide +kernel) _, fine_text (by decide +kernel) _, trivial⟩

theorem range_ok (r : Int × Int) : Understood (Spec.Ld.range r) := by
  unfold Spec.Ld.range
  rw [object_iff (by decide +kernel), cons_iff, cons_iff, nil_iff]
  exact ⟨num_spec (d := s%"xsd:positiveInteger") (by decide +kernel) (by decide +kernel) _,
    num_spec (d := s%"xsd:positiveInteger") (by decide +kernel) (by decide +kernel) _, trivial⟩

theorem document_iff (d : SpdxDocument3) : Understood (Spec.Ld.element (.document d)) ↔ Plain (.document d) := by
  unfold Spec.Ld.element Plain
  rw [object_iff (by decide +kernel), cons_iff, cons_iff, cons_iff, cons_iff, cons_iff, cons_iff, cons_iff, cons_iff, nil_iff,
    t (seg_id _ _), seg_obj (k' := s%"core:CreationInfo") (kindOf_mem (by decide +kernel)) (by decide +kernel) (info_obj _),
    t (fine_text (by decide +kernel) _), t (fine_opt (by decide +kernel) _), t (fine_texts (by decide +kernel) _),
    t (fine_texts (by decide +kernel) _),
    seg_objects (k' := s%"core:NamespaceMap") (kindOf_mem (by decide +kernel)) (by decide +kernel) _ namespace_obj,
    seg_objects (k' := s%"core:ExternalMap") (kindOf_mem (by decide +kernel)) (by decide +kernel) _ map_obj]
  simp only [info_iff, map_iff, namespace_ok, true_and, and_true, implies_true]

theorem agent_iff (a : Agent3) : Understood (Spec.Ld.element (.agent a)) ↔ Plain (.agent a) := by
  unfold Spec.Ld.element Plain
  dsimp only
  cases a.kind <;> dsimp only <;>
    rw [object_iff (by decide +kernel), cons_iff, cons_iff, cons_iff, cons_iff, nil_iff,
      t (seg_id _ _), seg_optObject (k' := s%"core:CreationInfo") (kindOf_mem (by decide +kernel)) (by decide +kernel) _ info_obj,
      t (fine_text (by decide +kernel) _),
      seg_objects (k' := s%"core:ExternalIdentifier") (kindOf_mem (by decide +kernel)) (by decide +kernel) _ identifier_obj] <;>
    simp only [info_iff, identifier_iff, true_and, and_true]

private theorem purpose_iff (o : Option PackagePurpose) :
    SegOk s%"Package" (Spec.Ld.optMember s%"primaryPurpose" PackagePurpose.name o) ↔ o = none := by
  rw [seg_optMember (k' := s%"software:SoftwarePurpose") (kindOf_mem (by decide +kernel)) (by decide +kernel)]
  cases o with
  | none => simp
  | some a => cases a <;> decide +kernel

theorem package_iff (p : Package3) : Understood (Spec.Ld.element (.package p)) ↔ Plain (.package p) := by
  unfold Spec.Ld.element Plain
  rw [object_iff (by decide +kernel), cons_iff, cons_iff, cons_iff, cons_iff, cons_iff, cons_iff, cons_iff, cons_iff, cons_iff, cons_iff,
    cons_iff, cons_iff, cons_iff, cons_iff, cons_iff, cons_iff, cons_iff, cons_iff, cons_iff, cons_iff, cons_iff, nil_iff,
    t (seg_id _ _), t (fine_text (by decide +kernel) _), t (fine_opt (by decide +kernel) _), t (fine_opt (by decide +kernel) _),
    t (fine_opt (by decide +kernel) _),
    seg_objects (k' := s%"core:IntegrityMethod") (kindOf_mem (by decide +kernel)) (by decide +kernel) _ hash_obj,
    seg_objects (k' := s%"core:ExternalReference") (kindOf_mem (by decide +kernel)) (by decide +kernel) _ reference_obj,
    seg_objects (k' := s%"core:ExternalIdentifier") (kindOf_mem (by decide +kernel)) (by decide +kernel) _ identifier_obj,
    t (fine_texts (by decide +kernel) _), t (fine_texts (by decide +kernel) _), t (fine_date (by decide +kernel) _),
    t (fine_date (by decide +kernel) _), t (fine_date (by decide +kernel) _), purpose_iff,
    t (fine_opt (by decide +kernel) _), t (fine_text (by decide +kernel) _), t (fine_opt (by decide +kernel) _),
    t (fine_opt (by decide +kernel) _), t (fine_opt (by decide +kernel) _),
    seg_unknown (by decide +kernel) (by decide) (by decide), t (fine_opt (by decide +kernel) _)]
  simp only [hash_iff, identifier_iff, reference_iff, true_and, and_true, implies_true]

theorem file_iff (f : File3) : Understood (Spec.Ld.element (.file f)) ↔ Plain (.file f) := by
  unfold Spec.Ld.element Plain
  rw [object_iff (by decide +kernel), cons_iff, cons_iff, cons_iff, cons_iff, cons_iff, cons_iff, nil_iff,
    t (seg_id _ _), t (fine_text (by decide +kernel) _), t (fine_opt (by decide +kernel) _),
    seg_objects (k' := s%"core:IntegrityMethod") (kindOf_mem (by decide +kernel)) (by decide +kernel) _ hash_obj,
    t (fine_opt (by decide +kernel) _), t (fine_text (by decide +kernel) _)]
  simp only [hash_iff, true_and, and_true]

theorem snippet_iff (s : Snippet3) : Understood (Spec.Ld.element (.snippet s)) ↔ Plain (.snippet s) := by
  unfold Spec.Ld.element Plain
  rw [object_iff (by decide +kernel), cons_iff, cons_iff, cons_iff, cons_iff, cons_iff, cons_iff, cons_iff, nil_iff,
    t (seg_id _ _), t (fine_opt (by decide +kernel) _), t (fine_opt (by decide +kernel) _), t (fine_opt (by decide +kernel) _),
    t (fine_text (by decide +kernel) _),
    seg_obj (k' := s%"core:PositiveIntegerRange") (kindOf_mem (by decide +kernel)) (by decide +kernel) (range_obj _),
    seg_optObject (k' := s%"core:PositiveIntegerRange") (kindOf_mem (by decide +kernel)) (by decide +kernel) _ range_obj]
  simp only [range_ok, and_true, implies_true]

private theorem relType (r : RelationshipType3) :
    enumB s%"relationshipType" s%"core:RelationshipType" ((ldMembers.lookup r.name).getD []) = true := by cases r <;> decide +kernel
private theorem complete_iff (o : Option Completeness) :
    (∀ a ∈ o, enumB s%"completeness" s%"core:RelationshipCompleteness" ((ldMembers.lookup a.name).getD []) = true) ↔
      o ≠ some .NOASSERTION := by
  cases o with
  | none => simp
  | some a => cases a <;> decide +kernel
private theorem scope_iff (o : Option Scope) :
    (∀ a ∈ o, enumB s%"scope" s%"core:LifecycleScopeType" ((ldMembers.lookup a.name).getD []) = true) ↔ o ≠ some .BUILD := by
  cases o with
  | none => simp
  | some a => cases a <;> decide +kernel
private theorem linkage_ok (a : Linkage) :
    enumB s%"softwareLinkage" s%"software:SoftwareDependencyLinkType" ((ldMembers.lookup a.name).getD []) = true := by
  cases a <;> decide +kernel
private theorem condition_ok (a : Conditionality) :
    enumB s%"conditionality" s%"software:DependencyConditionalityType" ((ldMembers.lookup a.name).getD []) = true := by
  cases a <;> decide +kernel

theorem relationship_iff (r : Relationship3) : Understood (Spec.Ld.element (.relationship r)) ↔ Plain (.relationship r) := by
  unfold Spec.Ld.element Plain
  dsimp only
  cases r.software with
  | none =>
    rw [if_pos rfl]
    rw [List.append_nil]
    rw [object_iff (by decide +kernel), cons_iff, cons_iff, cons_iff, cons_iff, cons_iff, cons_iff, nil_iff,
      t (seg_id _ _), t (fine_opt (by decide +kernel) _), t (fine_text (by decide +kernel) _), t (fine_texts (by decide +kernel) _),
      seg_member (k' := s%"core:RelationshipType") (kindOf_mem (by decide +kernel)) (by decide +kernel),
      seg_optMember (k' := s%"core:RelationshipCompleteness") (kindOf_mem (by decide +kernel)) (by decide +kernel), complete_iff]
    simp [relType]
  | some x =>
    obtain ⟨a, b, c⟩ := x
    rw [if_neg (by simp)]
    dsimp only [List.cons_append, List.nil_append]
    rw [object_iff (by decide +kernel), cons_iff, cons_iff, cons_iff, cons_iff, cons_iff, cons_iff, cons_iff, cons_iff, cons_iff, nil_iff,
      t (seg_id _ _), t (fine_opt (by decide +kernel) _), t (fine_text (by decide +kernel) _), t (fine_texts (by decide +kernel) _),
      seg_member (k' := s%"core:RelationshipType") (kindOf_mem (by decide +kernel)) (by decide +kernel),
      seg_optMember (k' := s%"core:RelationshipCompleteness") (kindOf_mem (by decide +kernel)) (by decide +kernel), complete_iff,
      seg_optMember (k' := s%"core:LifecycleScopeType") (kindOf_mem (by decide +kernel)) (by decide +kernel), scope_iff,
      seg_optMember (k' := s%"software:SoftwareDependencyLinkType") (kindOf_mem (by decide +kernel)) (by decide +kernel),
      seg_optMember (k' := s%"software:DependencyConditionalityType") (kindOf_mem (by decide +kernel)) (by decide +kernel)]
    simp [relType, linkage_ok, condition_ok]

theorem annotation_iff (a : Annotation3) : Understood (Spec.Ld.element (.annotation a)) ↔ Plain (.annotation a) := by
  unfold Spec.Ld.element Plain
  rw [object_iff (by decide +kernel), cons_iff, cons_iff, cons_iff, cons_iff, cons_iff, nil_iff,
    t (seg_id _ _), seg_obj (k' := s%"core:CreationInfo") (kindOf_mem (by decide +kernel)) (by decide +kernel) (info_obj _),
    seg_member (k' := s%"core:AnnotationType") (kindOf_mem (by decide +kernel)) (by decide +kernel),
    t (fine_text (by decide +kernel) _), t (fine_text (by decide +kernel) _), info_iff]
  have : enumB s%"annotationType" s%"core:AnnotationType" ((ldMembers.lookup a.annotationType.name).getD []) = true := by
    cases a.annotationType <;> decide +kernel
  simp [this]

theorem element_iff (e : Element3) : Understood (Spec.Ld.element e) ↔ Plain e := by
  cases e with
  | document d => exact document_iff d
  | agent a => exact agent_iff a
  | package p => exact package_iff p
  | file f => exact file_iff f
  | snippet s => exact snippet_iff s
  | relationship r => exact relationship_iff r
  | annotation a => exact annotation_iff a

end Spdx.LdMeaning
