import Verif.Spec.LdMeaning
import Verif.Spec.LdMigrated
/- What the objects of migrated elements say under the context. -/
namespace Spdx.LdMeaning
open Spdx Spec.Vocab

/-! ### Decision procedures -/

def subClassB : Nat → Str → Str → Bool
  | 0, _, _ => false
  | n + 1, c, d => c = d || owlGraph.any fun m => match m.parent with
    | some p => owlIri m.id = c && subClassB n (owlIri p) d
    | none => false

theorem subClassB_sound (n : Nat) (c d : Str) (h : subClassB n c d = true) : SubClass c d := by
  induction n generalizing c with
  | zero => cases h
  | succ n ih =>
    rw [subClassB, Bool.or_eq_true] at h
    rcases h with h | h
    · rw [of_decide_eq_true h]; exact .refl _
    · obtain ⟨m, hm, h⟩ := List.any_eq_true.1 h
      split at h
      · next p hp =>
        rw [Bool.and_eq_true] at h
        have := of_decide_eq_true h.1
        subst this
        exact .step m p d hm hp (ih _ h.2)
      · cases h

def hasFieldB (c p : Str) (kind : ValueKind) : Bool :=
  owlGraph.any fun n => (n.shapes.any fun s => decide (s.kind = kind) && decide (owlIri s.path = p)) && subClassB 6 c (owlIri n.id)

theorem hasFieldB_sound (c p : Str) (kind : ValueKind) (h : hasFieldB c p kind = true) : HasField c p kind := by
  obtain ⟨n, hn, h⟩ := List.any_eq_true.1 h
  rw [Bool.and_eq_true] at h
  obtain ⟨s, hs, h1⟩ := List.any_eq_true.1 h.1
  rw [Bool.and_eq_true] at h1
  exact ⟨n, hn, subClassB_sound _ _ _ h.2, s, hs, of_decide_eq_true h1.2, of_decide_eq_true h1.1⟩

/-- the only kind of values a property has -/
def onlyB (p : Str) (kind : ValueKind) : Bool := owlGraph.all fun n => n.shapes.all fun s => decide (owlIri s.path = p → s.kind = kind)

theorem onlyB_sound (c p : Str) (kind kind' : ValueKind) (h : onlyB p kind = true) (hf : HasField c p kind') : kind' = kind := by
  obtain ⟨n, hn, _, s, hs, h1, h2⟩ := hf
  have := of_decide_eq_true (List.all_eq_true.1 (List.all_eq_true.1 h n hn) s hs) h1
  rw [← h2, this]

def enumerationB (c : Str) : Bool := owlGraph.any fun n => decide (n.types = .many [s%"owl:NamedIndividual", c])

theorem enumerationB_iff (c : Str) : enumerationB c = true ↔ Enumeration c := by
  unfold enumerationB Enumeration
  rw [List.any_eq_true]
  simp only [decide_eq_true_eq]

def individualB (c i : Str) : Bool :=
  owlGraph.any fun n => decide (n.types = .many [s%"owl:NamedIndividual", c]) && decide (owlIri n.id = i)

theorem individualB_iff (c i : Str) : individualB c i = true ↔ Individual c i := by
  unfold individualB Individual
  rw [List.any_eq_true]
  simp only [Bool.and_eq_true, decide_eq_true_eq]

/-! ### The fields of migrated elements -/

/-- class, key, kind of values -/
def rows : List (Str × Str × ValueKind) :=
  [(s%"Hash", s%"algorithm", .cls s%"core:HashAlgorithm"), (s%"Hash", s%"hashValue", .data s%"xsd:string"),
   (s%"ExternalIdentifier", s%"externalIdentifierType", .cls s%"core:ExternalIdentifierType"),
   (s%"ExternalIdentifier", s%"identifier", .data s%"xsd:string"), (s%"ExternalIdentifier", s%"comment", .data s%"xsd:string"),
   (s%"ExternalReference", s%"externalReferenceType", .cls s%"core:ExternalReferenceType"),
   (s%"ExternalReference", s%"locator", .data s%"xsd:anyURI"), (s%"ExternalReference", s%"comment", .data s%"xsd:string"),
   (s%"CreationInfo", s%"specVersion", .data s%"core:SemVer"), (s%"CreationInfo", s%"created", .data s%"core:DateTime"),
   (s%"CreationInfo", s%"createdBy", .cls s%"core:Agent"), (s%"CreationInfo", s%"profile", .cls s%"core:ProfileIdentifierType"),
   (s%"CreationInfo", s%"dataLicense", .data s%"xsd:string"), (s%"CreationInfo", s%"createdUsing", .cls s%"core:Tool"),
   (s%"ExternalMap", s%"externalId", .data s%"xsd:anyURI"), (s%"ExternalMap", s%"verifiedUsing", .cls s%"core:IntegrityMethod"),
   (s%"ExternalMap", s%"definingDocument", .data s%"xsd:anyURI"), (s%"NamespaceMap", s%"prefix", .data s%"xsd:string"),
   (s%"NamespaceMap", s%"namespace", .data s%"xsd:anyURI"), (s%"PositiveIntegerRange", s%"begin", .data s%"xsd:positiveInteger"),
   (s%"PositiveIntegerRange", s%"end", .data s%"xsd:positiveInteger"), (s%"SpdxDocument", s%"creationInfo", .cls s%"core:CreationInfo"),
   (s%"SpdxDocument", s%"name", .data s%"xsd:string"), (s%"SpdxDocument", s%"comment", .data s%"xsd:string"),
   (s%"SpdxDocument", s%"element", .cls s%"core:Element"), (s%"SpdxDocument", s%"rootElement", .cls s%"core:Element"),
   (s%"SpdxDocument", s%"namespaces", .cls s%"core:NamespaceMap"), (s%"SpdxDocument", s%"imports", .cls s%"core:ExternalMap"),
   (s%"Package", s%"name", .data s%"xsd:string"), (s%"Package", s%"summary", .data s%"xsd:string"),
   (s%"Package", s%"description", .data s%"xsd:string"), (s%"Package", s%"comment", .data s%"xsd:string"),
   (s%"Package", s%"verifiedUsing", .cls s%"core:IntegrityMethod"), (s%"Package", s%"externalReference", .cls s%"core:ExternalReference"),
   (s%"Package", s%"externalIdentifier", .cls s%"core:ExternalIdentifier"), (s%"Package", s%"originatedBy", .cls s%"core:Agent"),
   (s%"Package", s%"suppliedBy", .cls s%"core:Agent"), (s%"Package", s%"builtTime", .data s%"core:DateTime"),
   (s%"Package", s%"releaseTime", .data s%"core:DateTime"), (s%"Package", s%"validUntilTime", .data s%"core:DateTime"),
   (s%"Package", s%"primaryPurpose", .cls s%"software:SoftwarePurpose"), (s%"Package", s%"copyrightText", .data s%"xsd:string"),
   (s%"Package", s%"attributionText", .data s%"xsd:string"), (s%"Package", s%"packageVersion", .data s%"xsd:string"),
   (s%"Package", s%"downloadLocation", .data s%"xsd:anyURI"), (s%"Package", s%"packageUrl", .data s%"xsd:anyURI"),
   (s%"Package", s%"sourceInfo", .data s%"xsd:string"), (s%"File", s%"name", .data s%"xsd:string"),
   (s%"File", s%"comment", .data s%"xsd:string"), (s%"File", s%"verifiedUsing", .cls s%"core:IntegrityMethod"),
   (s%"File", s%"copyrightText", .data s%"xsd:string"), (s%"File", s%"attributionText", .data s%"xsd:string"),
   (s%"Snippet", s%"name", .data s%"xsd:string"), (s%"Snippet", s%"comment", .data s%"xsd:string"),
   (s%"Snippet", s%"copyrightText", .data s%"xsd:string"), (s%"Snippet", s%"attributionText", .data s%"xsd:string"),
   (s%"Snippet", s%"byteRange", .cls s%"core:PositiveIntegerRange"), (s%"Snippet", s%"lineRange", .cls s%"core:PositiveIntegerRange"),
   (s%"Annotation", s%"creationInfo", .cls s%"core:CreationInfo"), (s%"Annotation", s%"annotationType", .cls s%"core:AnnotationType"),
   (s%"Annotation", s%"subject", .cls s%"core:Element"), (s%"Annotation", s%"statement", .data s%"xsd:string"),
   (s%"Person", s%"creationInfo", .cls s%"core:CreationInfo"), (s%"Person", s%"name", .data s%"xsd:string"),
   (s%"Person", s%"externalIdentifier", .cls s%"core:ExternalIdentifier"),
   (s%"Organization", s%"creationInfo", .cls s%"core:CreationInfo"), (s%"Organization", s%"name", .data s%"xsd:string"),
   (s%"Organization", s%"externalIdentifier", .cls s%"core:ExternalIdentifier"), (s%"Tool", s%"creationInfo", .cls s%"core:CreationInfo"),
   (s%"Tool", s%"name", .data s%"xsd:string"), (s%"Tool", s%"externalIdentifier", .cls s%"core:ExternalIdentifier"),
   (s%"Relationship", s%"comment", .data s%"xsd:string"), (s%"Relationship", s%"from", .cls s%"core:Element"),
   (s%"Relationship", s%"to", .cls s%"core:Element"), (s%"Relationship", s%"relationshipType", .cls s%"core:RelationshipType"),
   (s%"Relationship", s%"completeness", .cls s%"core:RelationshipCompleteness"),
   (s%"SoftwareDependencyRelationship", s%"comment", .data s%"xsd:string"),
   (s%"SoftwareDependencyRelationship", s%"from", .cls s%"core:Element"),
   (s%"SoftwareDependencyRelationship", s%"to", .cls s%"core:Element"),
   (s%"SoftwareDependencyRelationship", s%"relationshipType", .cls s%"core:RelationshipType"),
   (s%"SoftwareDependencyRelationship", s%"completeness", .cls s%"core:RelationshipCompleteness"),
   (s%"SoftwareDependencyRelationship", s%"scope", .cls s%"core:LifecycleScopeType"),
   (s%"SoftwareDependencyRelationship", s%"softwareLinkage", .cls s%"software:SoftwareDependencyLinkType"),
   (s%"SoftwareDependencyRelationship", s%"conditionality", .cls s%"software:DependencyConditionalityType")]

/-- the IRI of a class -/
def clsIri (c : Str) : Str := (termIri contextFile c).getD []

def rowB (c k : Str) (kind : ValueKind) : Bool :=
  match termIri contextFile c, termIri contextFile k with
  | some ci, some p => hasFieldB ci p kind && onlyB p kind && decide (k ≠ s%"@type") && decide (k ≠ s%"@id")
  | _, _ => false

/-! The table in six parts, so that the kernel needs less memory at a time. -/

set_option maxRecDepth 10000 in
private theorem rows1 : ∀ r ∈ rows.take 14, rowB r.1 r.2.1 r.2.2 = true := by decide +kernel
set_option maxRecDepth 10000 in
private theorem rows2 : ∀ r ∈ (rows.drop 14).take 14, rowB r.1 r.2.1 r.2.2 = true := by decide +kernel
set_option maxRecDepth 10000 in
private theorem rows3 : ∀ r ∈ ((rows.drop 14).drop 14).take 14, rowB r.1 r.2.1 r.2.2 = true := by decide +kernel
set_option maxRecDepth 10000 in
private theorem rows4 : ∀ r ∈ (((rows.drop 14).drop 14).drop 14).take 14, rowB r.1 r.2.1 r.2.2 = true := by decide +kernel
set_option maxRecDepth 10000 in
private theorem rows5 : ∀ r ∈ ((((rows.drop 14).drop 14).drop 14).drop 14).take 14, rowB r.1 r.2.1 r.2.2 = true := by decide +kernel
set_option maxRecDepth 10000 in
private theorem rows6 : ∀ r ∈ ((((rows.drop 14).drop 14).drop 14).drop 14).drop 14, rowB r.1 r.2.1 r.2.2 = true := by decide +kernel

private theorem parts {α : Type} {P : α → Prop} {l : List α} (n : Nat) (h1 : ∀ r ∈ l.take n, P r) (h2 : ∀ r ∈ l.drop n, P r) : ∀ r ∈ l, P r := by
  intro r hr
  rw [← List.take_append_drop n l] at hr
  rcases List.mem_append.1 hr with h | h
  · exact h1 r h
  · exact h2 r h

theorem rows_ok : ∀ r ∈ rows, rowB r.1 r.2.1 r.2.2 = true :=
  parts 14 rows1 (parts 14 rows2 (parts 14 rows3 (parts 14 rows4 (parts 14 rows5 rows6))))

theorem row_iff {c k : Str} {kind : ValueKind} (h : (c, k, kind) ∈ rows) (j : Json) :
    FieldOk (clsIri c) (k, j) ↔ ∀ v ∈ values j, ValueOk k kind v := by
  have hr := rows_ok _ h
  simp only [rowB] at hr
  unfold clsIri
  split at hr
  · next ci p hc hp =>
    simp only [Bool.and_eq_true, decide_eq_true_eq] at hr
    obtain ⟨⟨⟨h1, h2⟩, h3⟩, h4⟩ := hr
    rw [hc]
    constructor
    · rintro (e | e | ⟨p', kind', e1, e2, e3⟩)
      · exact absurd e h3
      · exact absurd e h4
      · rw [hp] at e1
        cases e1
        rw [onlyB_sound _ _ _ _ h2 e2] at e3
        exact e3
    · exact fun hv => .inr (.inr ⟨p, kind, hp, hasFieldB_sound _ _ _ h1, hv⟩)
  · cases hr

/-- the key has texts and numbers of the datatype -/
def dataB (k d : Str) : Bool :=
  match contextFile.lookup k with
  | some (.prop _ t _) => decide (t ≠ s%"@id") && decide (t ≠ s%"@vocab") && decide (compactIri contextFile t = owlIri d)
  | _ => false

theorem data_str {k d : Str} (h : dataB k d = true) (s : Str) : ValueOk k (.data d) (.str s) := by
  unfold dataB at h
  split at h
  · next t _ hl =>
    simp only [Bool.and_eq_true, decide_eq_true_eq] at h
    show meaning contextFile k s = _
    unfold meaning
    rw [hl]
    show (if t = _ then _ else _) = _
    rw [if_neg h.1.1, if_neg h.1.2, h.2]
  · cases h

theorem data_num {k d : Str} (h : dataB k d = true) (i : Int) : ValueOk k (.data d) (.num i) := by
  unfold dataB at h
  split at h
  · next t _ hl =>
    simp only [Bool.and_eq_true, decide_eq_true_eq] at h
    show numberType contextFile k = _
    unfold numberType
    rw [hl]
    show (if t = _ ∨ t = _ then _ else _) = _
    rw [if_neg (fun e => e.elim h.1.1 h.1.2), h.2]
  · cases h

/-- the key refers to things -/
def refB (k c : Str) : Bool :=
  (match contextFile.lookup k with
  | some (.prop _ t _) => decide (t = s%"@id")
  | _ => false) && !enumerationB c

theorem ref_str {k c : Str} (h : refB k c = true) (s : Str) : ValueOk k (.cls c) (.str s) := by
  unfold refB at h
  rw [Bool.and_eq_true, Bool.not_eq_true'] at h
  refine ⟨compactIri contextFile s, ?_, fun he => by rw [(enumerationB_iff c).2 he] at h; cases h.2⟩
  have h := h.1
  unfold meaning
  split at h
  · next t _ hl =>
    rw [hl]
    exact if_pos (of_decide_eq_true h)
  · cases h

/-- what a fixed text means under a key -/
def enumB (k c s : Str) : Bool :=
  match meaning contextFile k s with
  | .iri i => individualB c i
  | _ => false

theorem enum_iff {k c : Str} (hc : enumerationB c = true) (s : Str) : ValueOk k (.cls c) (.str s) ↔ enumB k c s = true := by
  unfold enumB
  show (∃ i, _) ↔ _
  have he := (enumerationB_iff c).1 hc
  constructor
  · rintro ⟨i, h1, h2⟩
    rw [h1]
    exact (individualB_iff c i).2 (h2 he)
  · intro h
    split at h
    · next i hi => exact ⟨i, hi, fun _ => (individualB_iff c i).1 h⟩
    · cases h

/-! ### Trees -/

theorem mem_objectsList (l : List Json) (fs : List (Str × Json)) : fs ∈ objectsList l ↔ ∃ j ∈ l, fs ∈ objects j := by
  induction l with
  | nil => simp [objectsList]
  | cons a l ih => simp [objectsList, ih]

theorem mem_objectsFields (l : List (Str × Json)) (fs : List (Str × Json)) : fs ∈ objectsFields l ↔ ∃ f ∈ l, fs ∈ objects f.2 := by
  induction l with
  | nil => simp [objectsFields]
  | cons a l ih => obtain ⟨k, j⟩ := a; simp [objectsFields, ih]

theorem understood_arr (l : List Json) : Understood (.arr l) ↔ ∀ j ∈ l, Understood j := by
  unfold Understood
  rw [objects]
  simp only [mem_objectsList]
  exact ⟨fun h j hj fs hf => h fs ⟨j, hj, hf⟩, fun h fs ⟨j, hj, hf⟩ => h j hj fs hf⟩

theorem understood_obj (l : List (Str × Json)) : Understood (.obj l) ↔ ObjectOk l ∧ ∀ f ∈ l, Understood f.2 := by
  unfold Understood
  rw [objects]
  simp only [List.mem_cons, mem_objectsFields]
  exact ⟨fun h => ⟨h l (.inl rfl), fun f hf fs hfs => h fs (.inr ⟨f, hf, hfs⟩)⟩,
    fun h fs hfs => hfs.elim (fun e => e ▸ h.1) (fun ⟨f, hf, hfs⟩ => h.2 f hf fs hfs)⟩

theorem understood_str (s : Str) : Understood (.str s) := by intro fs h; simp [objects] at h
theorem understood_num (i : Int) : Understood (.num i) := by intro fs h; simp [objects] at h

/-- the fields of a part of an object are understood -/
def SegOk (c : Str) (seg : List (Str × Json)) : Prop := ∀ f ∈ seg, FieldOk (clsIri c) f ∧ Understood f.2

/-- the class is one of the vocabulary -/
def classB (c : Str) : Bool :=
  match termIri contextFile c with
  | some i => owlGraph.any fun n => decide (owlIri n.id = i) &&
      (decide (n.types = .one s%"owl:Class") || decide (n.types = .many [s%"owl:Class", s%"sh:NodeShape"]))
  | none => false

theorem classB_sound {c : Str} (h : classB c = true) : termIri contextFile c = some (clsIri c) ∧ IsClass (clsIri c) := by
  unfold classB at h
  unfold clsIri
  split at h
  · next i hi =>
    rw [hi]
    refine ⟨rfl, ?_⟩
    obtain ⟨n, hn, h⟩ := List.any_eq_true.1 h
    simp only [Bool.and_eq_true, Bool.or_eq_true, decide_eq_true_eq] at h
    exact ⟨n, hn, h⟩
  · cases h

theorem object_iff {c : Str} (h : classB c = true) (segs : List (List (Str × Json))) :
    Understood (Spec.Ld.object c segs) ↔ ∀ seg ∈ segs, SegOk c seg := by
  unfold Spec.Ld.object
  rw [understood_obj]
  obtain ⟨h1, h2⟩ := classB_sound h
  have hl : ∀ l : List (Str × Json), ((s%"@type", Json.str c) :: l).lookup s%"@type" = some (.str c) := fun l => by
    rw [List.lookup_cons]; rfl
  constructor
  · rintro ⟨⟨t, i, h3, h4, _, h5⟩, h6⟩ seg hs f hf
    rw [hl] at h3
    cases h3
    rw [h1] at h4
    cases h4
    have hm : f ∈ (s%"@type", Json.str c) :: segs.flatten := List.mem_cons_of_mem _ (List.mem_flatten.2 ⟨seg, hs, hf⟩)
    exact ⟨h5 f hm, h6 f hm⟩
  · intro hs
    refine ⟨⟨c, _, hl _, h1, h2, ?_⟩, ?_⟩
    · intro f hf
      rcases List.mem_cons.1 hf with rfl | hf
      · exact .inl rfl
      · obtain ⟨seg, h3, h4⟩ := List.mem_flatten.1 hf
        exact (hs seg h3 f h4).1
    · intro f hf
      rcases List.mem_cons.1 hf with rfl | hf
      · exact understood_str _
      · obtain ⟨seg, h3, h4⟩ := List.mem_flatten.1 hf
        exact (hs seg h3 f h4).2

/-! ### Parts of objects -/

theorem seg_nil (c : Str) : SegOk c [] := fun f hf => by cases hf

theorem seg_str {c k : Str} {kind : ValueKind} (h : (c, k, kind) ∈ rows) (s : Str) : SegOk c [(k, .str s)] ↔ ValueOk k kind (.str s) := by
  unfold SegOk
  simp only [List.mem_singleton, forall_eq, row_iff h, values, understood_str, and_true]

theorem seg_id (c s : Str) : SegOk c (Spec.Ld.text s%"@id" s) := by
  unfold Spec.Ld.text
  split
  · exact seg_nil c
  · intro f hf
    rw [List.mem_singleton] at hf
    subst hf
    exact ⟨.inr (.inl rfl), understood_str _⟩

theorem seg_text {c k : Str} {kind : ValueKind} (h : (c, k, kind) ∈ rows) (hv : ∀ s, ValueOk k kind (.str s)) (s : Str) :
    SegOk c (Spec.Ld.text k s) := by
  unfold Spec.Ld.text
  split
  · exact seg_nil c
  · exact (seg_str h s).2 (hv s)

theorem seg_opt {c k : Str} {kind : ValueKind} (h : (c, k, kind) ∈ rows) (hv : ∀ s, ValueOk k kind (.str s)) (o : Option Str) :
    SegOk c (Spec.Ld.opt k o) := by
  cases o with
  | none => exact seg_nil c
  | some s => exact seg_text h hv s

theorem seg_date {c k : Str} {kind : ValueKind} (h : (c, k, kind) ∈ rows) (hv : ∀ s, ValueOk k kind (.str s)) (o : Option DateTime) :
    SegOk c (Spec.Ld.date k o) := by
  cases o with
  | none => exact seg_nil c
  | some s => exact (seg_str h _).2 (hv _)

theorem seg_num {c k : Str} {kind : ValueKind} (h : (c, k, kind) ∈ rows) (hv : ∀ i, ValueOk k kind (.num i)) (i : Int) :
    SegOk c (Spec.Ld.num k i) := by
  unfold Spec.Ld.num
  split
  · exact seg_nil c
  · intro f hf
    rw [List.mem_singleton] at hf
    subst hf
    refine ⟨(row_iff h _).2 ?_, understood_num _⟩
    intro v hv'
    simp only [values, List.mem_singleton] at hv'
    exact hv' ▸ hv i

theorem seg_texts_iff {c k : Str} {kind : ValueKind} (h : (c, k, kind) ∈ rows) (l : List Str) :
    SegOk c (Spec.Ld.texts k l) ↔ ∀ s ∈ l, s ≠ [] → ValueOk k kind (.str s) := by
  unfold Spec.Ld.texts
  split
  · next hl => subst hl; exact ⟨fun _ s hs => (by cases hs), fun _ => seg_nil c⟩
  · unfold SegOk
    simp only [List.mem_singleton, forall_eq, row_iff h, values, understood_arr, List.mem_map, List.mem_filter, decide_eq_true_eq]
    constructor
    · exact fun hh s hs hn => hh.1 _ ⟨s, ⟨hs, hn⟩, rfl⟩
    · refine fun hh => ⟨?_, ?_⟩
      · rintro v ⟨s, ⟨hs, hn⟩, rfl⟩
        exact hh s hs hn
      · rintro v ⟨s, _, rfl⟩
        exact understood_str s

theorem seg_texts {c k : Str} {kind : ValueKind} (h : (c, k, kind) ∈ rows) (hv : ∀ s, ValueOk k kind (.str s)) (l : List Str) :
    SegOk c (Spec.Ld.texts k l) := (seg_texts_iff h l).2 fun s _ _ => hv s

/-- an object of a class that is below the one asked for -/
def Obj (t : Str) (j : Json) : Prop := ∃ segs, j = Spec.Ld.object t segs

def belowB (t c : Str) : Bool :=
  match termIri contextFile t with
  | some i => subClassB 6 i (owlIri c)
  | none => false

theorem value_obj {k t c : Str} (h : belowB t c = true) {j : Json} (hj : Obj t j) : ValueOk k (.cls c) j := by
  obtain ⟨segs, rfl⟩ := hj
  unfold belowB at h
  split at h
  · next i hi =>
    exact ⟨t, i, by rw [List.lookup_cons]; rfl, hi, subClassB_sound _ _ _ h⟩
  · cases h

theorem seg_obj {c k t k' : Str} (h : (c, k, .cls k') ∈ rows) (hb : belowB t k' = true) {j : Json} (hj : Obj t j) :
    SegOk c [(k, j)] ↔ Understood j := by
  unfold SegOk
  simp only [List.mem_singleton, forall_eq, row_iff h]
  refine ⟨fun hh => hh.2, fun hh => ⟨?_, hh⟩⟩
  intro v hv
  have : v = j := by
    obtain ⟨segs, rfl⟩ := hj
    simpa [Spec.Ld.object, values] using hv
  exact this ▸ value_obj hb hj

theorem seg_optObject {α : Type} {c k t k' : Str} (h : (c, k, .cls k') ∈ rows) (hb : belowB t k' = true) (f : α → Json) (hf : ∀ a, Obj t (f a))
    (o : Option α) : SegOk c (Spec.Ld.optObject k f o) ↔ ∀ a ∈ o, Understood (f a) := by
  cases o with
  | none => exact ⟨fun _ a ha => (by cases ha), fun _ => seg_nil c⟩
  | some a =>
    show SegOk c [(k, f a)] ↔ _
    rw [seg_obj h hb (hf a)]
    simp

theorem seg_objects {α : Type} {c k t k' : Str} (h : (c, k, .cls k') ∈ rows) (hb : belowB t k' = true) (f : α → Json) (hf : ∀ a, Obj t (f a))
    (l : List α) : SegOk c (Spec.Ld.objects k f l) ↔ ∀ a ∈ l, Understood (f a) := by
  unfold Spec.Ld.objects
  split
  · next hl => subst hl; exact ⟨fun _ s hs => (by cases hs), fun _ => seg_nil c⟩
  · unfold SegOk
    simp only [List.mem_singleton, forall_eq, row_iff h, values, understood_arr, List.mem_map]
    refine ⟨fun hh a ha => hh.2 _ ⟨a, ha, rfl⟩, fun hh => ⟨?_, ?_⟩⟩
    · rintro v ⟨a, _, rfl⟩
      exact value_obj hb (hf a)
    · rintro v ⟨a, ha, rfl⟩
      exact hh a ha

theorem seg_member {c k k' : Str} (h : (c, k, .cls k') ∈ rows) (he : enumerationB k' = true) (name : Str) :
    SegOk c [(k, Spec.Ld.member name)] ↔ enumB k k' ((ldMembers.lookup name).getD []) = true := by
  unfold Spec.Ld.member
  rw [seg_str h, enum_iff he]

theorem seg_optMember {α : Type} {c k k' : Str} (h : (c, k, .cls k') ∈ rows) (he : enumerationB k' = true) (name : α → Str) (o : Option α) :
    SegOk c (Spec.Ld.optMember k name o) ↔ ∀ a ∈ o, enumB k k' ((ldMembers.lookup (name a)).getD []) = true := by
  cases o with
  | none => exact ⟨fun _ a ha => (by cases ha), fun _ => seg_nil c⟩
  | some a =>
    show SegOk c [(k, Spec.Ld.member (name a))] ↔ _
    rw [seg_member h he]
    simp

/-- a key that is no term -/
theorem seg_unknown {c k : Str} (h : termIri contextFile k = none) (h1 : k ≠ s%"@type") (h2 : k ≠ s%"@id") (o : Option Str) :
    SegOk c (Spec.Ld.opt k o) ↔ o = none ∨ o = some [] := by
  cases o with
  | none => exact ⟨fun _ => .inl rfl, fun _ => seg_nil c⟩
  | some s =>
    show SegOk c (if s = [] then [] else [(k, .str s)]) ↔ _
    by_cases hs : s = []
    · subst hs
      exact ⟨fun _ => .inr rfl, fun _ => seg_nil c⟩
    · rw [if_neg hs]
      refine ⟨fun hh => ?_, fun hh => by rcases hh with hh | hh <;> cases hh; exact absurd rfl hs⟩
      rcases (hh _ (List.mem_singleton.2 rfl)).1 with e | e | ⟨p, _, e, _⟩
      · exact absurd e h1
      · exact absurd e h2
      · rw [h] at e
        cases e

end Spdx.LdMeaning
