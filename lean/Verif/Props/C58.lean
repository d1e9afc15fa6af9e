import Verif.Lemmas.ValidSame
import Verif.Props.C47
import Verif.Props.C48
import Verif.Props.C49
import Verif.Props.C57
/-
C58 — The verdict of validation does not depend on the order of anything in the document, and a document that has been written and read
again, in any of the formats, is valid exactly if it was valid before.
-/
namespace Spdx.C58
open Spdx Spec ValidSame

/-! ### Specification -/

/-- Full validation, possibly for a given version, has the same verdict on both documents. -/
def SameVerdict (X : Ext) (d e : Document) : Prop := ∀ ver, validateDocument X d ver = [] ↔ validateDocument X e ver = []

/-! ### Helpers -/

private theorem verdict_of_valid {X : Ext} {d e : Document} (hv : e.creationInfo.spdxVersion = d.creationInfo.spdxVersion) (h : Valid X d ↔ Valid X e) :
    SameVerdict X d e := fun ver => by
  rw [C47.valid_iff, C47.valid_iff, h, hv]

private theorem mem_regroup (d : Document) (a : Annotation) : a ∈ regroup d ↔ a ∈ d.annotations := by
  unfold regroup
  rw [List.mem_append, List.mem_filter, List.mem_flatMap]
  constructor
  · rintro (⟨h, _⟩ | ⟨_, _, h⟩)
    · exact h
    · exact (List.mem_filter.1 h).1
  · intro h
    by_cases hc : a.spdxId ∈ containedIds d
    · have hm : a.spdxId ∈ d.packages.map (·.spdxId) ++ d.files.map (·.spdxId) ++ d.snippets.map (·.spdxId) := by
        simp only [containedIds, List.mem_append] at hc ⊢
        rcases hc with (h | h) | h
        · exact .inl (.inr h)
        · exact .inl (.inl h)
        · exact .inr h
      exact .inr ⟨a.spdxId, hm, List.mem_filter.2 ⟨h, by simp⟩⟩
    · exact .inl ⟨h, by simpa using hc⟩

theorem regroup_verdict (X : Ext) (d : Document) : SameVerdict X d { d with annotations := regroup d } := by
  have A : Alike d { d with annotations := regroup d } := ⟨rfl, fun _ => .rfl, fun _ => .rfl, fun _ => .rfl, fun _ => .rfl, fun _ => .rfl⟩
  refine verdict_of_valid rfl (valid_verdicts ?_ (.of_mem A fun _ => .rfl))
  exact {
    version := rfl, info := fun _ => .rfl, packages := fun _ => .rfl, files := fun _ => .rfl, snippets := fun _ => .rfl
    annotations := forall_congr' fun a => by rw [mem_regroup d a]; exact .rfl
    extracted := .rfl, single := .rfl, unique := .rfl }

/-! ### Order -/

/-- Reordering packages, files, snippets, annotations, relationships, licenses, creators, checksums, references and so on does not change
    the verdict. -/
theorem order_irrelevant {X : Ext} (hX : Unordered X) {d e : Document} (h : SameRdf d e) : SameVerdict X d e := by
  have hp : SameParts d e := ⟨h.info, h.packages, h.files, h.snippets, fun _ => h.annotations.mem_iff, h.licenses⟩
  exact verdict_of_valid (by rw [h.info.2.2]) (valid_same hX hp (.of_mem hp.alike fun _ => h.relationships.mem_iff))

/-! ### Reading back -/

/-- JSON and YAML: what is read is valid exactly if what was written is. -/
theorem json_verdict (X : Ext) (L : LicText) (d : Document) (h : JsonOk L d) :
    ∃ j e, documentToJson L d = some j ∧ parseDocument L j = .ok e ∧ SameVerdict X d e := by
  obtain ⟨j, h1, h2⟩ := C23.round_trip L d h
  exact ⟨j, _, h1, h2, regroup_verdict X d⟩

theorem xml_verdict (X : Ext) (L : LicText) (d : Document) (h : JsonOk L d) (hs : ∀ s ∈ d.snippets, NonNegative s)
    (he : ∀ e ∈ d.extractedLicensingInfo, SaysSomething e) (ht : ∀ j, documentToJson L d = some j → ∀ s ∈ texts j, XmlText s) :
    ∃ j e, documentToJson L d = some j ∧ readXml L j = some (.ok e) ∧ SameVerdict X d e := by
  obtain ⟨j, h1, h2⟩ := C57.round_trip L d h hs he ht
  exact ⟨j, _, h1, h2, regroup_verdict X d⟩

theorem rdf_verdict {X : Ext} (hX : Unordered X) (env : RdfEnv) (d : Document) (h : DocRdf env d) :
    ∃ w, rdfGraph env d = some w ∧ ∀ g b, SameTriples g w → C38.Fresh d.creationInfo.externalDocumentRefs b →
      ∃ e, parseRdf env b g = some e ∧ SameVerdict X d e := by
  obtain ⟨w, h1, h2⟩ := C49.round_trip env d h
  refine ⟨w, h1, fun g b hg hb => ?_⟩
  obtain ⟨e, h3, h4⟩ := h2 g b hg hb
  exact ⟨e, h3, order_irrelevant hX h4⟩

/-! Tag-value: relationships that place files in packages come back as CONTAINS -/

private theorem said_forall {d : Document} {P : Relationship → Prop} (h : ∀ r p f, C27.packagedIds d r = some (p, f) → (P r ↔ P (contains p f)))
    (r : Relationship) : (∀ x ∈ C27.said d r, P x) ↔ P r := by
  unfold C27.said
  cases hp : C27.packagedIds d r with
  | none => simp
  | some pf =>
    obtain ⟨p, f⟩ := pf
    have h := h r p f hp
    show (∀ x ∈ (if r.comment = none ∨ r.comment = some [] then [] else [r]) ++ [contains p f], P x) ↔ P r
    split
    · simpa using h.symm
    · simp [h]

private theorem flat_forall {d : Document} {P : Relationship → Prop} (h : ∀ r p f, C27.packagedIds d r = some (p, f) → (P r ↔ P (contains p f))) :
    (∀ x ∈ d.relationships.flatMap (C27.said d), P x) ↔ ∀ r ∈ d.relationships, P r := by
  constructor
  · intro g r hr
    exact (said_forall h r).1 fun x hx => g x (List.mem_flatMap.2 ⟨r, hr, hx⟩)
  · intro g x hx
    obtain ⟨r, hr, hx⟩ := List.mem_flatMap.1 hx
    exact (said_forall h r).2 (g r hr) x hx

private theorem flat_exists {d : Document} {P : Relationship → Prop} (h : ∀ r p f, C27.packagedIds d r = some (p, f) → (P r ↔ P (contains p f))) :
    (∃ r ∈ d.relationships, P r) ↔ ∃ x ∈ d.relationships.flatMap (C27.said d), P x := by
  have := flat_forall (P := fun r => ¬ P r) fun r p f hr => not_congr (h r p f hr)
  constructor
  · rintro ⟨r, hr, h⟩
    apply Classical.byContradiction
    intro hn
    exact this.1 (fun x hx hp => hn ⟨x, hx, hp⟩) r hr h
  · rintro ⟨r, hr, h⟩
    apply Classical.byContradiction
    intro hn
    exact this.2 (fun x hx hp => hn ⟨x, hx, hp⟩) r hr h

private theorem packaged_cases {d : Document} {r : Relationship} {p f : Str} (h : C27.packagedIds d r = some (p, f)) :
    (r.relationshipType = .CONTAINS ∧ r.spdxElementId = p ∧ r.relatedSpdxElementId = .val f) ∨
      (r.relationshipType = .CONTAINED_BY ∧ r.spdxElementId = f ∧ r.relatedSpdxElementId = .val p) := by
  obtain ⟨i, t, x, c⟩ := r
  unfold C27.packagedIds at h
  split at h
  · split at h <;> cases h
    rename_i h1 h2 _
    exact .inl ⟨h1, rfl, h2⟩
  · split at h <;> cases h
    rename_i h1 h2 _
    exact .inr ⟨h1, rfl, h2⟩
  · cases h

private theorem tagvalue_links {d e : Document} (A : Alike d e) (h : e.relationships.Perm (d.relationships.flatMap (C27.said d))) : SameLinks d e where
  links p q hp := by
    refine (flat_forall (P := fun r => ¬ LinksFile d p r) ?_).symm.trans ?_
    · intro r a b hr
      refine not_congr ?_
      unfold LinksFile contains
      rcases packaged_cases hr with ⟨h1, h2, h3⟩ | ⟨h1, h2, h3⟩
      · rw [h1, h2, h3]
      · rw [h1, h2, h3]
        simp only [reduceCtorEq, false_and, false_or, true_and, or_false, OrSpecial.val.injEq, exists_eq_left']
    · exact forall_congr' fun r => by rw [← h.mem_iff]; exact imp_congr_right fun _ => not_congr (A.linksFile hp r)
  rules is22 := by
    refine (flat_forall (P := RelationshipRule is22 d) ?_).symm.trans ?_
    · intro r a b hr
      unfold RelationshipRule contains
      rcases packaged_cases hr with ⟨h1, h2, h3⟩ | ⟨h1, h2, h3⟩
      · rw [h1, h2, h3]
      · rw [h1, h2, h3]
        simp only [reduceCtorEq, or_false, and_false, not_false_eq_true, and_true, OrSpecial.val.injEq, forall_eq']
        exact and_comm
    · exact forall_congr' fun r => by rw [← h.mem_iff]; exact imp_congr_right fun _ => A.relationshipRule r
  describes := by
    refine (flat_exists ?_).trans ?_
    · intro r a b hr
      unfold contains
      rcases packaged_cases hr with ⟨h1, h2, h3⟩ | ⟨h1, h2, h3⟩ <;> (rw [h1]; simp)
    · exact exists_congr fun r => by rw [← h.mem_iff, A.docId]

theorem tagvalue_verdict_same {X : Ext} {d e : Document} (h : C48.SameTv d e) : SameVerdict X d e := by
  obtain ⟨φ, hφ, hf⟩ := h.files
  have hmem : ∀ {P Q : File → Prop}, (∀ f ∈ d.files, (P f ↔ Q (φ f))) → ((∀ f ∈ d.files, P f) ↔ ∀ f ∈ e.files, Q f) := by
    intro P Q hpq
    constructor
    · intro g f hfe
      obtain ⟨f', hf', rfl⟩ := List.mem_map.1 (hf.mem_iff.1 hfe)
      exact (hpq f' hf').1 (g f' hf')
    · intro g f hfd
      exact (hpq f hfd).2 (g _ (hf.mem_iff.2 (List.mem_map_of_mem hfd)))
  have hid : ∀ f ∈ d.files, (φ f).spdxId = f.spdxId := fun f hfd => by rw [(hφ f hfd).2]
  have hids : (e.files.map (·.spdxId)).Perm (d.files.map (·.spdxId)) := by
    have := hf.map (·.spdxId)
    rw [List.map_map] at this
    refine this.trans (.of_eq (List.map_congr_left fun f hfd => hid f hfd))
  have hext : ∀ {P : ExtractedLicensingInfo → Prop}, (∀ x y, C48.SameExtracted x y → (P x ↔ P y)) →
      ((∀ x ∈ d.extractedLicensingInfo, P x) ↔ ∀ x ∈ e.extractedLicensingInfo, P x) := by
    intro P hP
    obtain ⟨hl, hx⟩ := h.extracted
    constructor
    · intro g y hy
      obtain ⟨i, hi⟩ := List.getElem?_of_mem hy
      obtain ⟨hlt, -⟩ := List.getElem?_eq_some_iff.1 hi
      obtain ⟨y', hy', hs⟩ := hx i _ (List.getElem?_eq_getElem (hl ▸ hlt))
      rw [hi] at hy'
      cases hy'
      exact (hP _ _ hs).1 (g _ (List.getElem_mem _))
    · intro g x hx'
      obtain ⟨i, hi⟩ := List.getElem?_of_mem hx'
      obtain ⟨y, hy, hs⟩ := hx i _ hi
      exact (hP _ _ hs).2 (g y (List.mem_of_getElem? hy))
  have A : Alike d e := {
    docId := by rw [h.info]
    packages := fun id => by rw [h.packages]
    files := fun id => by
      have : ∀ l : List File, (∃ f ∈ l, f.spdxId = id) ↔ id ∈ l.map (·.spdxId) := fun l => List.mem_map.symm
      exact (this d.files).trans ((hids.mem_iff).symm.trans (this e.files).symm)
    snippets := fun id => exists_congr fun s => by rw [h.snippets.mem_iff]
    declared := fun ref => by unfold Declared; rw [h.info]
    extracted := fun t => by
      have := hext (P := fun x => ¬ x.licenseId = some t) fun x y hs => by rw [hs.2]
      constructor
      · rintro ⟨x, hx, hp⟩
        apply Classical.byContradiction
        intro hn
        exact this.2 (fun y hy hp => hn ⟨y, hy, hp⟩) x hx hp
      · rintro ⟨x, hx, hp⟩
        apply Classical.byContradiction
        intro hn
        exact this.1 (fun y hy hp => hn ⟨y, hy, hp⟩) x hx hp }
  have hr := tagvalue_links A h.relationships
  refine verdict_of_valid (by rw [h.info]) (valid_verdicts ?_ hr)
  exact {
    version := by rw [h.info]
    info := fun _ => by rw [h.info]
    packages := fun is22 => by
      rw [h.packages]
      refine forall_congr' fun p => imp_congr_right fun _ => ?_
      unfold PackageRule
      refine and_congr (A.localRule _) (and_congr (imp_congr_right fun _ => and_congr (hr.links p p rfl) .rfl) (and_congr
        (forall_congr' fun _ => imp_congr_right fun _ => A.licRule _) (and_congr (forall_congr' fun _ => imp_congr_right fun _ => A.licRule _)
          (and_congr (forall_congr' fun _ => imp_congr_right fun _ => A.licRule _) .rfl))))
    files := fun is22 => hmem fun f hfd => by
      rw [(hφ f hfd).2]
      unfold FileRule
      exact and_congr (A.localRule _) (and_congr (forall_congr' fun _ => imp_congr_right fun _ => A.licRule _)
          (and_congr (forall_congr' fun _ => imp_congr_right fun _ => A.licRule _) .rfl))
    snippets := fun is22 => forall_congr' fun s => by
      rw [h.snippets.mem_iff]
      refine imp_congr_right fun _ => ?_
      unfold SnippetRule
      exact and_congr (A.localRule _) (and_congr (A.idRule A.files _) (and_congr (forall_congr' fun _ => imp_congr_right fun _ => A.licRule _)
          (and_congr (forall_congr' fun _ => imp_congr_right fun _ => A.licRule _) .rfl)))
    annotations := by
      rw [h.annotations]
      exact forall_congr' fun a => imp_congr_right fun _ => A.annotationRule a
    extracted := hext fun x y hs => extractedRule_iff hs
    single := and_congr (by rw [h.packages]) (and_congr
      (by rw [← List.length_eq_zero_iff, ← List.length_eq_zero_iff (l := e.files), hf.length_eq, List.length_map])
      (by rw [← List.length_eq_zero_iff, ← List.length_eq_zero_iff (l := e.snippets), h.snippets.length_eq]))
    unique := by
      refine List.Perm.nodup_iff ?_
      unfold elementIds
      rw [h.info, h.packages]
      exact (((List.Perm.refl _).append hids.symm).append (h.snippets.map _).symm).cons _ }

theorem tagvalue_verdict (X : Ext) (L : LicText) (d : Document) (h : C48.DocTv L d) :
    (writeTagValue L d).raises = false ∧ ∃ e, parseTagValue L (writeTagValue L d).text = .ok e ∧ SameVerdict X d e := by
  obtain ⟨h1, e, h2, h3⟩ := C48.roundtrip L d h
  exact ⟨h1, e, h2, tagvalue_verdict_same h3⟩

/-! ### Non-vacuity -/

/-- What the example's license library objects to in one argument of AND. -/
private def unknownSymbol : LicExpr → Option Str
  | .sym s => if s = s%"MIT" then none else some s
  | _ => none

private theorem ext_and (l : List LicExpr) : Example.ext.licInvalidSymbols (.and l) = l.filterMap unknownSymbol := by
  show l.filterMap _ = _
  congr 1

/-- The example's license library looks only at the set of the symbols directly under AND. -/
protected theorem example_unordered : Unordered Example.ext where
  symbols a b h t := by
    cases h with
    | sym => exact .rfl
    | withExc => exact .rfl
    | or => exact .rfl
    | @and l l' m hl hs hp =>
      rw [ext_and, ext_and, (hp.filterMap unknownSymbol).mem_iff]
      clear hp
      refine iff_of_eq (congrArg (t ∈ ·) ?_)
      induction l generalizing l' with
      | nil =>
        cases List.length_eq_zero_iff.1 hl
        rfl
      | cons x l ih =>
        match l', hl with
        | y :: l', hl =>
          have hxy := hs 0 x y rfl rfl
          have hd : unknownSymbol x = unknownSymbol y := by cases hxy <;> rfl
          rw [List.filterMap_cons, List.filterMap_cons, hd, ih (Nat.succ.inj hl) fun i => hs (i + 1)]
  strict _ _ _ := .rfl

example : validateDocument Example.ext Example.doc none = [] := by decide +kernel
example : ∃ j e, documentToJson C23.exampleLic Example.doc = some j ∧ parseDocument C23.exampleLic j = .ok e ∧ validateDocument Example.ext e none = [] := by
  obtain ⟨j, e, h1, h2, h3⟩ := json_verdict Example.ext _ _ C23.example_ok
  exact ⟨j, e, h1, h2, (h3 none).1 (by decide +kernel)⟩
example : ∃ w, rdfGraph C49.exampleEnv Example.doc = some w ∧ ∀ g b, SameTriples g w → C38.Fresh Example.doc.creationInfo.externalDocumentRefs b →
    ∃ e, parseRdf C49.exampleEnv b g = some e ∧ validateDocument Example.ext e none = [] := by
  obtain ⟨w, h1, h2⟩ := rdf_verdict C58.example_unordered _ _ C49.example_ok
  refine ⟨w, h1, fun g b hg hb => ?_⟩
  obtain ⟨e, h3, h4⟩ := h2 g b hg hb
  exact ⟨e, h3, (h4 none).1 (by decide +kernel)⟩
example : ∃ j e, documentToJson C23.exampleLic Example.doc = some j ∧ readXml C23.exampleLic j = some (.ok e) ∧ validateDocument Example.ext e none = [] := by
  obtain ⟨j, e, h1, h2, h3⟩ := xml_verdict Example.ext _ _ C23.example_ok (by unfold NonNegative; decide +kernel)
    (by unfold SaysSomething; decide +kernel) C57.example_texts
  exact ⟨j, e, h1, h2, (h3 none).1 (by decide +kernel)⟩
example : ∃ e, parseTagValue C23.exampleLic (writeTagValue C23.exampleLic C48.sample).text = .ok e ∧
    (validateDocument Example.ext C48.sample none = [] ↔ validateDocument Example.ext e none = []) := by
  obtain ⟨_, e, h2, h3⟩ := tagvalue_verdict Example.ext _ _ C48.sample_ok
  exact ⟨e, h2, h3 none⟩

end Spdx.C58
