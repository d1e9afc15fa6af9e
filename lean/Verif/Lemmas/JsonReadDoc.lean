import Verif.Lemmas.JsonReadElems
import Verif.Lemmas.Dedup
/- Annotations, relationships and whole documents in the JSON-like formats. -/
namespace Spdx.JsonSays
open Spdx Spdx.Spec.JsonSays
open Spdx.Spec.RdfSays (All2)

theorem reads_annotationType : Reads parseAnnotationType (ExactMember AnnotationType.name) where
  iff v a := by
    constructor
    · intro h
      cases v with
      | str s =>
        simp only [parseAnnotationType] at h
        cases hs : AnnotationType.ofName? s with
        | none => rw [hs] at h; cases h
        | some t => rw [hs] at h; cases h; rw [names_annotationType.iff.1 hs]; rfl
      | _ => simp only [parseAnnotationType] at h; split at h <;> cases h
    · rintro rfl
      simp only [parseAnnotationType, annotationType_names]
  ne v := by
    cases v with
    | str s =>
      simp only [parseAnnotationType]
      split <;> (intro h; cases h)
    | _ => simp only [parseAnnotationType]; split <;> (intro h; cases h)

theorem annotation_iff (element : Json) (o : Obj) (a : Annotation) :
    parseAnnotation element (.obj o) = .ok a ↔ AnnotationSays element o a := by
  unfold parseAnnotation
  read_steps [then_field reads_annotationType]
  have e : ∀ s, (if (valueAt o s%"SPDXID").truthy = true then valueAt o s%"SPDXID" else element) = .str s ↔
      (¬ Blank (valueAt o s%"SPDXID") ∧ valueAt o s%"SPDXID" = .str s) ∨ (Blank (valueAt o s%"SPDXID") ∧ element = .str s) := by
    intro s
    by_cases ht : (valueAt o s%"SPDXID").truthy = true
    · have hb : ¬ Blank (valueAt o s%"SPDXID") := fun h => (blank_iff _).1 h ht
      rw [if_pos ht]
      exact ⟨fun h => .inl ⟨hb, h⟩, fun h => h.elim (·.2) fun h => absurd h.1 hb⟩
    · have hb : Blank (valueAt o s%"SPDXID") := (blank_iff _).2 ht
      rw [if_neg ht]
      exact ⟨fun h => .inr ⟨hb, h⟩, fun h => h.elim (fun h => absurd hb h.1) (·.2)⟩
  constructor
  · rintro ⟨_, h1, _, h2, _, h3, _, h4, _, rfl, _, rfl, _, rfl, _, h5, rfl⟩
    exact ⟨(e _).1 h4, field_some.1 h1, field_some.1 h2, field_some.1 h3, h5⟩
  · rintro ⟨h4, h1, h2, h3, h5⟩
    exact ⟨_, field_some.2 h1, _, field_some.2 h2, _, field_some.2 h3, _, (e _).2 h4, _, rfl, _, rfl, _, rfl, _, h5, rfl⟩

theorem reads_annotation (element : Json) : Reads (parseAnnotation element) (Object (AnnotationSays element)) :=
  reads_object (annotation_iff element) (by only_objects parseAnnotation) (ne_annotation element)

theorem review_iff (docId : Str) (o : Obj) (a : Annotation) : parseReview (.str docId) (.obj o) = .ok a ↔ ReviewSays docId o a := by
  unfold parseReview
  read_steps
  constructor
  · rintro ⟨_, h1, _, h2, _, hd, _, rfl, _, rfl, _, h3, rfl⟩
    exact ⟨(Json.str.inj hd).symm, rfl, field_some.1 h1, field_some.1 h2, h3⟩
  · rintro ⟨rfl, ht, h1, h2, h3⟩
    refine ⟨_, field_some.2 h1, _, field_some.2 h2, _, rfl, _, rfl, _, rfl, _, h3, ?_⟩
    rw [← ht]

theorem ne_review (docId j : Json) : NE (parseReview docId j) := by unfold parseReview pyGet; has_messages

theorem reads_review (docId : Str) : Reads (parseReview (.str docId)) (Object (ReviewSays docId)) :=
  reads_object (review_iff docId) (by only_objects parseReview) (ne_review _)

theorem relationship_iff (o : Obj) (r : Relationship) : parseRelationship (.obj o) = .ok r ↔ RelationshipSays o r := by
  unfold parseRelationship
  read_steps
  constructor
  · rintro ⟨_, h1, _, h2, _, rfl, _, h3, _, h4, rfl⟩
    exact ⟨h2, field_some.1 h1, h3, h4⟩
  · rintro ⟨h2, h1, h3, h4⟩
    exact ⟨_, field_some.2 h1, _, h2, _, rfl, _, h3, _, h4, rfl⟩

theorem reads_relationship : Reads parseRelationship (Object RelationshipSays) :=
  reads_object relationship_iff (by only_objects parseRelationship) ne_relationship

theorem extracted_iff (o : Obj) (e : ExtractedLicensingInfo) : parseExtracted (.obj o) = .ok e ↔ ExtractedSays o e := by
  unfold parseExtracted
  read_steps [optNoAssertion_iff]
  constructor
  · rintro ⟨_, h1, _, h2, _, h3, _, h4, _, h5, rfl⟩
    exact ⟨h1, h2, h3, h4, h5⟩
  · rintro ⟨h1, h2, h3, h4, h5⟩
    exact ⟨_, h1, _, h2, _, h3, _, h4, _, h5, rfl⟩

theorem reads_extracted : Reads parseExtracted (Object ExtractedSays) :=
  reads_object extracted_iff (by only_objects parseExtracted) ne_extracted

/-! Annotations of elements -/

theorem annotationsFrom_iff {l : List Json} {as : List Annotation} : annotationsFrom l = pure as ↔ AllAnnotations l as := by
  unfold AllAnnotations
  induction l generalizing as with
  | nil =>
    refine pure_iff.trans ?_
    exact ⟨by rintro rfl; exact ⟨[], .nil, rfl⟩, by rintro ⟨ls, h, rfl⟩; cases h; rfl⟩
  | cons j l ih =>
    unfold annotationsFrom
    by_cases ho : ∃ o, j = .obj o
    · obtain ⟨o, rfl⟩ := ho
      simp only [get_obj, getD_obj, lift_ok, pbind_pure, pbind_iff, list_iff (reads_annotation _), field_getD, ih, pure_iff]
      constructor
      · rintro ⟨x, hx, _, ⟨ls, hl, rfl⟩, rfl⟩
        exact ⟨_, .cons ⟨o, rfl, optList_iff.1 ⟨x, hx, rfl⟩⟩ hl, rfl⟩
      · rintro ⟨ls, h, rfl⟩
        cases h with
        | cons h1 h2 =>
          obtain ⟨_, he, h1⟩ := h1
          cases he
          obtain ⟨x, hx, rfl⟩ := optList_iff.2 h1
          exact ⟨x, hx, _, ⟨_, h2, rfl⟩, rfl⟩
    · constructor
      · intro h
        exfalso
        cases j <;> first | exact ho ⟨_, rfl⟩ | cases h
      · rintro ⟨ls, h, rfl⟩
        cases h with
        | cons h1 h2 => obtain ⟨o, he, _⟩ := h1; exact absurd ⟨o, he⟩ ho

theorem entries_iff {o : Obj} {k : Str} {l : List Json} : (pyGetD (.obj o) k (.arr []) >>= pyIter) = .ok l ↔ Entries o k l := by
  rw [getD_obj, py_bind_ok, iter_iff]
  unfold Entries
  cases o.lookup k with
  | none =>
    constructor
    · rintro (h | ⟨_, h, _⟩ | ⟨_, h, _⟩) <;> cases h
      exact .inl ⟨rfl, rfl⟩
    · rintro (⟨_, rfl⟩ | ⟨v, h, _⟩)
      · exact .inl rfl
      · cases h
  | some v =>
    constructor
    · intro h; exact .inr ⟨v, rfl, h⟩
    · rintro (⟨h, _⟩ | ⟨w, h, h'⟩)
      · cases h
      · cases h; exact h'

theorem allAnnotations_iff {o : Obj} {id : Str} (hid : valueAt o s%"SPDXID" = .str id) {as : List Annotation} :
    parseAllAnnotations (.obj o) = .ok as ↔ ∃ own reviews ofPackages ofFiles ofSnippets lr lp lf ls,
      Annotations o own ∧
      Entries o s%"revieweds" lr ∧ All2 (Object (ReviewSays id)) lr reviews ∧
      Entries o s%"packages" lp ∧ AllAnnotations lp ofPackages ∧
      Entries o s%"files" lf ∧ AllAnnotations lf ofFiles ∧
      Entries o s%"snippets" ls ∧ AllAnnotations ls ofSnippets ∧
      as = own ++ reviews ++ ofPackages ++ ofFiles ++ ofSnippets := by
  unfold parseAllAnnotations
  have own_iff : ∀ l, AllAnnotations [.obj o] l ↔ Annotations o l := by
    intro l
    constructor
    · rintro ⟨ls, h, rfl⟩
      cases h with
      | cons h1 h2 =>
        cases h2
        obtain ⟨_, he, h1⟩ := h1
        cases he
        simpa using h1
    · intro h; exact ⟨[l], .cons ⟨o, rfl, h⟩ .nil, by simp⟩
  simp only [orRaiseIn_iff, pbind_iff, lift_iff, entries_iff, annotationsFrom_iff, get_obj, lift_ok, pbind_pure, hid,
    collect_iff (reads_review id), pure_iff, own_iff]
  constructor
  · rintro ⟨own, h1, lr, h2, reviews, h3, lp, h4, ofP, h5, lf, h6, ofF, h7, ls, h8, ofS, h9, rfl⟩
    exact ⟨own, reviews, ofP, ofF, ofS, lr, lp, lf, ls, h1, h2, h3, h4, h5, h6, h7, h8, h9, rfl⟩
  · rintro ⟨own, reviews, ofP, ofF, ofS, lr, lp, lf, ls, h1, h2, h3, h4, h5, h6, h7, h8, h9, rfl⟩
    exact ⟨own, h1, lr, h2, reviews, h3, lp, h4, ofP, h5, lf, h6, ofF, h7, ls, h8, ofS, h9, rfl⟩

/-! Relationships -/

private theorem exists_iff (rs : List Relationship) (i x : Str) (t : RelationshipType) :
    implicitExists (withoutComments rs) i t x = true ↔ Stated rs i t x ∨ Stated rs x (invertType t) i := by
  simp only [implicitExists, withoutComments, Bool.or_eq_true, List.contains_iff_mem, List.mem_map, Stated, implicitRelationship,
    invertedRelationship]
  constructor
  · rintro (⟨r, hr, he⟩ | ⟨r, hr, he⟩)
    · refine .inl ⟨r, hr, ?_⟩
      cases r; cases he; exact ⟨rfl, rfl, rfl⟩
    · refine .inr ⟨r, hr, ?_⟩
      cases r; cases he; exact ⟨rfl, rfl, rfl⟩
  · rintro (⟨r, hr, h1, h2, h3⟩ | ⟨r, hr, h1, h2, h3⟩)
    · refine .inl ⟨r, hr, ?_⟩
      cases r; simp_all
    · refine .inr ⟨r, hr, ?_⟩
      cases r; simp_all

private theorem loop_texts (rs : List Relationship) (i : Str) (t : RelationshipType) (xs : List Str) :
    implicitLoop (withoutComments rs) (.str i) t (xs.map .str) =
      ([], (xs.filter fun x => ¬ Stated rs i t x ∧ ¬ Stated rs x (invertType t) i).map (implicitRelationship i t)) := by
  induction xs with
  | nil => rfl
  | cons x xs ih =>
    rw [List.map_cons, implicitLoop, ih]
    by_cases he : implicitExists (withoutComments rs) i t x = true
    · rw [if_pos he, List.filter_cons_of_neg]
      have := (exists_iff rs i x t).1 he
      simp only [decide_eq_true_eq]
      rintro ⟨h1, h2⟩
      exact this.elim h1 h2
    · rw [if_neg he, List.filter_cons_of_pos]
      · rfl
      · have : ¬ (Stated rs i t x ∨ Stated rs x (invertType t) i) := fun h => he ((exists_iff rs i x t).2 h)
        simp only [decide_eq_true_eq]
        exact ⟨fun h => this (.inl h), fun h => this (.inr h)⟩

private theorem loop_only_texts {ex : List Relationship} {i : Str} {t : RelationshipType} {ds : List Json} {rs : List Relationship}
    (h : implicitLoop ex (.str i) t ds = ([], rs)) : ∃ xs : List Str, ds = xs.map .str := by
  induction ds generalizing rs with
  | nil => exact ⟨[], rfl⟩
  | cons d ds ih =>
    cases d with
    | str x =>
      rw [implicitLoop] at h
      by_cases he : implicitExists ex i t x = true
      · rw [if_pos he] at h
        obtain ⟨xs, rfl⟩ := ih h
        exact ⟨x :: xs, rfl⟩
      · rw [if_neg he] at h
        obtain ⟨xs, rfl⟩ := ih (rs := (implicitLoop ex (.str i) t ds).2) (Prod.ext (Prod.mk.inj h).1 rfl)
        exact ⟨x :: xs, rfl⟩
    | _ => rw [implicitLoop.eq_def] at h; cases h

private theorem dedup_texts (xs acc : List Str) :
    (xs.map Json.str).foldl (dedupStep fun a b => decide (pyKey a = pyKey b)) (acc.map .str) =
      (xs.foldl (fun l x => if x ∈ l then l else l ++ [x]) acc).map .str := by
  induction xs generalizing acc with
  | nil => rfl
  | cons x xs ih =>
    rw [List.map_cons, List.foldl_cons, List.foldl_cons, ← ih]
    congr 1
    unfold dedupStep
    by_cases h : x ∈ acc
    · rw [if_pos h, if_pos]
      simpa [pyKey] using h
    · rw [if_neg h, if_neg]
      · simp
      · simpa [pyKey] using h

private theorem only_texts {l : List Json} (hs : ∀ x ∈ l, ∃ s, x = .str s) : ∃ xs : List Str, l = xs.map .str := by
  induction l with
  | nil => exact ⟨[], rfl⟩
  | cons a l ih =>
    obtain ⟨s, rfl⟩ := hs a (.head _)
    obtain ⟨xs, rfl⟩ := ih fun x hx => hs x (.tail _ hx)
    exact ⟨s :: xs, rfl⟩

private theorem deleted_iff {l ds : List Json} {ys : List Str} :
    ((if l.all Json.hashable then .ok (dedup (fun a b => decide (pyKey a = pyKey b)) l) else .error (.type s%"unhashable type") : Py (List Json)) =
      .ok ds ∧ ds = ys.map .str) ↔ ∃ xs, l = xs.map .str ∧ ys = distinct xs ∧ ds = ys.map .str := by
  constructor
  · rintro ⟨h, rfl⟩
    split at h
    · have h := Except.ok.inj h
      have hs : ∀ x ∈ l, ∃ s, x = .str s := by
        intro x hx
        obtain ⟨y, hy, he⟩ := dedup_covers (fun a b => decide (pyKey a = pyKey b)) (by simp) l x hx
        rw [h, List.mem_map] at hy
        obtain ⟨s, _, rfl⟩ := hy
        have he : pyKey (.str s) = pyKey x := by simpa using he
        cases x with
        | str t => exact ⟨t, rfl⟩
        | _ => cases he
      obtain ⟨xs, rfl⟩ := only_texts hs
      refine ⟨xs, rfl, ?_, rfl⟩
      have e : dedup (fun a b => decide (pyKey a = pyKey b)) (xs.map .str) = (distinct xs).map .str := dedup_texts xs []
      rw [e] at h
      exact (List.map_inj_right (fun a b h => Json.str.inj h)).1 h.symm
    · cases h
  · rintro ⟨xs, rfl, rfl, rfl⟩
    refine ⟨?_, rfl⟩
    rw [if_pos (by simp [Json.hashable])]
    exact congrArg Except.ok (dedup_texts xs [])

/-- The relationships implied by the texts at a key. -/
theorem implied_iff {o : Obj} {k i : Str} {t : RelationshipType} {stated rs : List Relationship} :
    (∃ ds, (pyGetD (.obj o) k (.arr []) >>= deleteDuplicates) = .ok ds ∧ implicitLoop (withoutComments stated) (.str i) t ds = ([], rs)) ↔
      ∃ xs, Entries o k (xs.map .str) ∧ rs = implied stated i t (invertType t) xs := by
  have e : ∀ ds, (pyGetD (.obj o) k (.arr []) >>= deleteDuplicates) = .ok ds ↔ ∃ l, Entries o k l ∧
      (if l.all Json.hashable then .ok (dedup (fun a b => decide (pyKey a = pyKey b)) l) else .error (.type s%"unhashable type") : Py (List Json)) =
      .ok ds := by
    intro ds
    simp only [← entries_iff]
    rw [getD_obj, py_bind_ok, py_bind_ok]
    unfold deleteDuplicates
    exact py_bind_iff
  simp only [e]
  constructor
  · rintro ⟨ds, ⟨l, hl, hd⟩, h⟩
    obtain ⟨ys, rfl⟩ := loop_only_texts h
    obtain ⟨xs, rfl, rfl, _⟩ := deleted_iff.1 ⟨hd, rfl⟩
    rw [loop_texts] at h
    exact ⟨xs, hl, (Prod.mk.inj h).2.symm⟩
  · rintro ⟨xs, hl, rfl⟩
    refine ⟨(distinct xs).map .str, ⟨_, hl, (deleted_iff.2 ⟨xs, rfl, rfl, rfl⟩).1⟩, ?_⟩
    rw [loop_texts]; rfl

theorem describes_iff {id : Json} {ex : List Relationship} {ds : List Json} {rs : List Relationship} :
    (∃ x, parseField (.arr ds) (fun _ => parseDocumentDescribes id ex ds) = pure x ∧ x.getD [] = rs) ↔
      implicitLoop ex id .DESCRIBES ds = ([], rs) := by
  have r : Reads (fun _ => parseDocumentDescribes id ex ds) (fun _ rs => implicitLoop ex id .DESCRIBES ds = ([], rs)) := by
    constructor
    · intro _ a
      exact orRaiseIn_iff.trans ⟨fun h => Except.ok.inj h, fun h => congrArg Except.ok h⟩
    · intro _
      exact ne_orRaiseIn fun ms h => (by cases h)
  simp only [field_iff r]
  constructor
  · rintro ⟨x, (⟨h, rfl⟩ | ⟨_, a, ha, rfl⟩), rfl⟩
    · have : ds = [] := by
        rcases h with h | h | h | h | h | h <;> first | (cases h; done) | (cases h; rfl)
      rw [this]; rfl
    · exact ha
  · intro h
    cases ds with
    | nil =>
      cases h
      exact ⟨none, .inl ⟨.inr (.inr (.inr (.inr (.inl rfl)))), rfl⟩, rfl⟩
    | cons d ds =>
      refine ⟨some rs, .inr ⟨?_, rs, h, rfl⟩, rfl⟩
      rintro (h | h | h | h | h | h) <;> cases h

theorem hasFilesLoop_iff {ex : List Relationship} {l : List Json} {c : List Relationship}
    (hl : ∀ e ∈ l, ∃ o a, e = .obj o ∧ valueAt o s%"SPDXID" = .str a) :
    hasFilesLoop (withoutComments ex) l = pure c ↔ ∃ rss, All2 (Object (ContainedFiles ex)) l rss ∧ c = rss.flatten := by
  induction l generalizing c with
  | nil =>
    exact ⟨fun h => by cases h; exact ⟨[], .nil, rfl⟩, by rintro ⟨rss, h, rfl⟩; cases h; rfl⟩
  | cons e l ih =>
    obtain ⟨o, a, rfl, ha⟩ := hl e (.head _)
    have ih := fun c => ih (c := c) fun e he => hl e (.tail _ he)
    have hloop : ∀ ds rs, (.ok (implicitLoop (withoutComments ex) (.str a) .CONTAINS ds) : P (List Relationship)) = (pure rs : P (List Relationship)) ↔
        implicitLoop (withoutComments ex) (.str a) .CONTAINS ds = ([], rs) := fun ds rs =>
      ⟨fun h => Except.ok.inj h, fun h => congrArg (Except.ok (ε := PyErr)) h⟩
    have step : hasFilesLoop (withoutComments ex) (.obj o :: l) = pure c ↔ ∃ ds,
        (pyGetD (.obj o) s%"hasFiles" (.arr []) >>= deleteDuplicates) = .ok ds ∧ ∃ rs,
        implicitLoop (withoutComments ex) (.str a) .CONTAINS ds = ([], rs) ∧ ∃ rest,
        hasFilesLoop (withoutComments ex) l = pure rest ∧ c = rs ++ rest := by
      rw [hasFilesLoop]
      simp only [get_obj, lift_ok, pbind_pure, ha]
      refine pbind_iff.trans (exists_congr fun ds => and_congr lift_iff ?_)
      refine pbind_iff.trans (exists_congr fun rs => and_congr (hloop ds rs) ?_)
      exact pbind_iff.trans (exists_congr fun rest => and_congr Iff.rfl (pure_iff.trans eq_comm))
    simp only [step, ih]
    constructor
    · rintro ⟨ds, h1, rs, h2, _, ⟨rss, h3, rfl⟩, rfl⟩
      obtain ⟨xs, h4, rfl⟩ := implied_iff.1 ⟨ds, h1, h2⟩
      exact ⟨_, .cons ⟨o, rfl, a, xs, ha, h4, rfl⟩ h3, rfl⟩
    · rintro ⟨rss, h, rfl⟩
      cases h with
      | cons h1 h2 =>
        obtain ⟨_, he, b, xs, hb, h4, rfl⟩ := h1
        cases he
        rw [ha] at hb
        cases hb
        obtain ⟨ds, h5, h6⟩ := implied_iff.2 ⟨xs, h4, rfl⟩
        exact ⟨ds, h5, _, h6, _, ⟨_, h2, rfl⟩, rfl⟩

theorem contains_iff {o : Obj} {ex : List Relationship} {lp : List Json} {c : List Relationship} (hp : Entries o s%"packages" lp) :
    (∃ x, parseField ((o.lookup s%"packages").getD (.arr [])) (parseHasFiles ex) = pure x ∧ x.getD [] = c) ↔ hasFilesLoop ex lp = pure c := by
  have hi := entries_iff.2 hp
  rw [getD_obj, py_bind_ok] at hi
  generalize (o.lookup s%"packages").getD (.arr []) = v at *
  have r : Reads (parseHasFiles ex) (fun v a => parseHasFiles ex v = .ok a) :=
    ⟨fun _ _ => Iff.rfl, fun j => ne_bind (ne_quiet (quiet_iter _)) fun _ => ne_orRaiseIn (quietP_hasFilesLoop _ _)⟩
  have e : ∀ a, parseHasFiles ex v = .ok a ↔ hasFilesLoop ex lp = pure a := by
    intro a
    unfold parseHasFiles
    rw [hi, py_bind_ok, orRaiseIn_iff]
  simp only [field_iff r]
  constructor
  · rintro ⟨x, (⟨h, rfl⟩ | ⟨_, a, ha, rfl⟩), rfl⟩
    · have : lp = [] := by
        rcases h with rfl | rfl | rfl | rfl | rfl | rfl <;> cases hi <;> rfl
      rw [this]; rfl
    · exact (e a).1 ha
  · intro h
    by_cases hb : Blank v
    · have : lp = [] := by
        rcases hb with rfl | rfl | rfl | rfl | rfl | rfl <;> cases hi <;> rfl
      rw [this] at h
      cases h
      exact ⟨none, .inl ⟨hb, rfl⟩, rfl⟩
    · exact ⟨some c, .inr ⟨hb, c, (e c).2 h, rfl⟩, rfl⟩

theorem allRelationships_iff {o : Obj} {id : Str} (hid : valueAt o s%"SPDXID" = .str id) {lp : List Json}
    (hp : Entries o s%"packages" lp) (hl : ∀ e ∈ lp, ∃ o a, e = .obj o ∧ valueAt o s%"SPDXID" = .str a) {rs : List Relationship} :
    parseAllRelationships (.obj o) = .ok rs ↔ ∃ listed described describes contains,
      OptList (Object RelationshipSays) (valueAt o s%"relationships") listed ∧
      Entries o s%"documentDescribes" (described.map .str) ∧
      describes = implied listed id .DESCRIBES .DESCRIBED_BY described ∧
      All2 (Object (ContainedFiles (listed ++ describes))) lp contains ∧
      rs = listed ++ describes ++ contains.flatten := by
  unfold parseAllRelationships
  simp only [orRaise_iff, get_obj, getD_obj, lift_ok, pbind_pure, pbind_iff, lift_iff, hid, pure_iff, list_iff reads_relationship, field_getD]
  constructor
  · rintro ⟨x, h1, ds, h2, y, h3, z, h4, rfl⟩
    have h3 := describes_iff.1 ⟨y, h3, rfl⟩
    obtain ⟨xs, h5, h6⟩ := implied_iff.1 ⟨ds, h2, h3⟩
    obtain ⟨rss, h7, h8⟩ := (hasFilesLoop_iff hl).1 ((contains_iff hp).1 ⟨z, h4, rfl⟩)
    exact ⟨_, xs, _, rss, optList_iff.1 ⟨x, h1, rfl⟩, h5, h6, h7, by rw [h8]⟩
  · rintro ⟨listed, xs, _, rss, h1, h5, rfl, h7, rfl⟩
    obtain ⟨x, h1', rfl⟩ := optList_iff.2 h1
    obtain ⟨ds, h2, h3⟩ := implied_iff.2 ⟨xs, h5, rfl⟩
    obtain ⟨y, h3, h3'⟩ := describes_iff.2 h3
    have h4 := (hasFilesLoop_iff hl).2 ⟨rss, h7, rfl⟩
    obtain ⟨z, h4, h4'⟩ := (contains_iff hp).2 h4
    refine ⟨x, h1', ds, h2, y, h3, z, ?_, ?_⟩
    · rw [h3']; exact h4
    · rw [h3', h4']; rfl

/-! The document -/

theorem part_iff {α : Type} {x : Py α} {y : Option α} (ne : NE x) : part x = pure y ↔ ∃ a, x = .ok a ∧ y = some a := by
  constructor
  · exact fun h => ok_part h ne
  · rintro ⟨a, rfl, rfl⟩; rfl

theorem optPart_iff {α : Type} {m : Json → Py α} {R : Json → α → Prop} (r : Reads m R) {v : Json} {x : Option α} :
    optPart v m = pure x ↔ Field R v x := by
  unfold Field
  by_cases hb : v.truthy = true
  · have hb' : ¬ Blank v := fun h => (blank_iff v).1 h hb
    have e : optPart v m = part (m v) := if_pos hb
    rw [e, part_iff (r.ne v)]
    simp only [r.iff]
    exact ⟨fun h => .inr ⟨hb', h⟩, fun h => h.elim (fun h => absurd h.1 hb') And.right⟩
  · have hb' : Blank v := (blank_iff v).2 hb
    have e : optPart v m = pure none := if_neg hb
    rw [e, pure_iff]
    exact ⟨fun h => .inl ⟨hb', h.symm⟩, fun h => h.elim (fun h => h.2.symm) fun h => absurd hb' h.1⟩

theorem optPart_obj {α : Type} {m : Json → Py α} {o : Obj} (ho : o ≠ []) (ne : NE (m (.obj o))) {x : Option α} :
    optPart (.obj o) m = pure x ↔ ∃ a, m (.obj o) = .ok a ∧ x = some a := by
  have e : optPart (.obj o) m = part (m (.obj o)) := if_pos (by cases o with | nil => exact absurd rfl ho | cons _ _ => rfl)
  rw [e, part_iff ne]

private theorem items_eq {v : Json} {l l' : List Json} (h : Items v l) (h' : Items v l') : l = l' := by
  rcases h with rfl | ⟨_, rfl, rfl⟩ | ⟨_, rfl, rfl⟩ <;> rcases h' with h | ⟨_, h, rfl⟩ | ⟨_, h, rfl⟩ <;> cases h <;> rfl

theorem entries_eq {o : Obj} {k : Str} {l l' : List Json} (h : Entries o k l) (h' : Entries o k l') : l = l' := by
  rcases h with ⟨h, rfl⟩ | ⟨v, h, hi⟩ <;> rcases h' with ⟨h', rfl⟩ | ⟨v', h', hi'⟩ <;> rw [h] at h' <;> cases h'
  · first | rfl | exact items_eq hi hi'

/-- A list that was iterated somewhere has no entries only if it is blank. -/
theorem entries_list {α : Type} {R : Json → α → Prop} {o : Obj} {k : Str} {l : List Json} (h : Entries o k l) {as : List α} :
    OptList R (valueAt o k) as ↔ All2 R l as := by
  unfold OptList Required ListOf valueAt
  rcases h with ⟨h, rfl⟩ | ⟨v, h, hi⟩
  · rw [h]
    exact ⟨fun h => by
      rcases h with ⟨_, rfl⟩ | ⟨h, _⟩
      · exact .nil
      · exact absurd (.inl rfl) h, fun h => by cases h; exact .inl ⟨.inl rfl, rfl⟩⟩
  · rw [h]
    dsimp only [Option.getD]
    by_cases hb : Blank v
    · have : l = [] := by
        rcases hb with rfl | rfl | rfl | rfl | rfl | rfl <;> rcases hi with h | ⟨_, h, rfl⟩ | ⟨_, h, rfl⟩ <;> cases h <;> rfl
      subst this
      exact ⟨fun h => by
        rcases h with ⟨_, rfl⟩ | ⟨h, _⟩
        · exact .nil
        · exact absurd hb h, fun h => by cases h; exact .inl ⟨hb, rfl⟩⟩
    · constructor
      · rintro (⟨h, _⟩ | ⟨_, l', hi', h⟩)
        · exact absurd h hb
        · rw [items_eq hi hi']; exact h
      · exact fun h => .inr ⟨hb, l, hi, h⟩

theorem ne_allAnnotations (j : Json) : NE (parseAllAnnotations j) := by
  unfold parseAllAnnotations
  refine ne_orRaiseIn ?_
  have qi : ∀ k, QuietP (Py.lift (pyGetD j k (.arr []) >>= pyIter)) := fun k =>
    quietP_lift (quiet_bind (quiet_get _ _ _) fun _ => quiet_iter _)
  exact quietP_bind (quietP_annotationsFrom _) fun _ => quietP_bind (qi _) fun _ => quietP_bind (quietP_lift (quiet_get _ _ _)) fun _ =>
    quietP_bind (quietP_collect _ _) fun _ => quietP_bind (qi _) fun _ => quietP_bind (quietP_annotationsFrom _) fun _ =>
    quietP_bind (qi _) fun _ => quietP_bind (quietP_annotationsFrom _) fun _ =>
    quietP_bind (qi _) fun _ => quietP_bind (quietP_annotationsFrom _) fun _ => quietP_pure _

theorem ne_allRelationships (j : Json) : NE (parseAllRelationships j) := by
  unfold parseAllRelationships
  refine ne_orRaise ?_
  exact quietP_bind (quietP_lift (quiet_get _ _ _)) fun _ => quietP_bind (quietP_field _ _) fun _ =>
    quietP_bind (quietP_lift (quiet_bind (quiet_get _ _ _) fun _ => quiet_deleteDuplicates _)) fun _ =>
    quietP_bind (quietP_lift (quiet_get _ _ _)) fun _ => quietP_bind (quietP_field _ _) fun _ =>
    quietP_bind (quietP_lift (quiet_get _ _ _)) fun _ => quietP_bind (quietP_field _ _) fun _ => quietP_pure _

private theorem object_nonempty {o : Obj} {i : Obj} (h : valueAt o s%"creationInfo" = .obj i) : o ≠ [] := by
  rintro rfl; cases h

private theorem package_ids {L : LicText} {l : List Json} {ps : List Package} (h : All2 (Object (PackageSays L)) l ps) :
    ∀ e ∈ l, ∃ o a, e = .obj o ∧ valueAt o s%"SPDXID" = .str a := by
  induction h with
  | nil => intro e he; cases he
  | cons h1 h2 ih =>
    obtain ⟨o, rfl, h⟩ := h1
    intro e he
    cases he with
    | head => exact ⟨o, _, rfl, h.spdxId⟩
    | tail _ he => exact ih e he

private theorem parts_iff (L : LicText) (o : Obj) (d : Document) :
    parseDocument L (.obj o) = .ok d ↔
      (∃ i, valueAt o s%"creationInfo" = .obj i ∧ CreationInfoSays o i d.creationInfo) ∧
      OptList (Object (PackageSays L)) (valueAt o s%"packages") d.packages ∧
      OptList (Object (FileSays L)) (valueAt o s%"files") d.files ∧
      parseAllAnnotations (.obj o) = .ok d.annotations ∧
      OptList (Object (SnippetSays L)) (valueAt o s%"snippets") d.snippets ∧
      parseAllRelationships (.obj o) = .ok d.relationships ∧
      OptList (Object ExtractedSays) (valueAt o s%"hasExtractedLicensingInfos") d.extractedLicensingInfo := by
  have rp := reads_packages L
  have rf := reads_list (reads_file L) (quietP_collect _)
  have rs := reads_list (reads_snippet L) (quietP_collect _)
  have re := reads_list reads_extracted (quietP_collect _)
  unfold parseDocument
  simp only [py_bind_iff, orRaise_iff, get_obj, lift_ok, pbind_pure, pbind_iff, pure_iff, construct_iff,
    optPart_iff rp, optPart_iff rf, optPart_iff rs, optPart_iff re, part_iff (ne_creationInfo _), creationInfo_iff]
  constructor
  · rintro ⟨_, ⟨c, ⟨_, ⟨i, hi, hc⟩, rfl⟩, p, hp, f, hf, a, ha, s, hs, r, hr, e, he, rfl⟩, h⟩
    have ho := object_nonempty hi
    obtain ⟨a, ha', rfl⟩ := (optPart_obj ho (ne_allAnnotations _)).1 ha
    obtain ⟨r, hr', rfl⟩ := (optPart_obj ho (ne_allRelationships _)).1 hr
    cases h
    exact ⟨⟨i, hi, hc⟩, optList_iff.1 ⟨p, hp, rfl⟩, optList_iff.1 ⟨f, hf, rfl⟩, ha', optList_iff.1 ⟨s, hs, rfl⟩, hr', optList_iff.1 ⟨e, he, rfl⟩⟩
  · rintro ⟨⟨i, hi, hc⟩, hp, hf, ha, hs, hr, he⟩
    have ho := object_nonempty hi
    obtain ⟨p, hp, ep⟩ := optList_iff.2 hp
    obtain ⟨f, hf, ef⟩ := optList_iff.2 hf
    obtain ⟨s, hs, es⟩ := optList_iff.2 hs
    obtain ⟨e, he, ee⟩ := optList_iff.2 he
    refine ⟨_, ⟨_, ⟨_, ⟨i, hi, hc⟩, rfl⟩, p, hp, f, hf, _, (optPart_obj ho (ne_allAnnotations _)).2 ⟨_, ha, rfl⟩, s, hs, _,
      (optPart_obj ho (ne_allRelationships _)).2 ⟨_, hr, rfl⟩, e, he, rfl⟩, ?_⟩
    dsimp only
    rw [ep, ef, es, ee]
    rfl

theorem document_iff (L : LicText) (o : Obj) (d : Document) : parseDocument L (.obj o) = .ok d ↔ DocumentSays L o d := by
  rw [parts_iff]
  constructor
  · rintro ⟨⟨i, hi, hc⟩, hp, hf, ha, hs, hr, he⟩
    have ha := (allAnnotations_iff hc.spdxId).1 ha
    have ha' := ha
    obtain ⟨own, reviews, ofPackages, ofFiles, ofSnippets, lr, lp, lf, ls, _, _, _, hlp, _, hlf, _, hls, _, _⟩ := ha'
    rw [entries_list hlp] at hp
    rw [entries_list hlf] at hf
    rw [entries_list hls] at hs
    obtain ⟨a, b, c, e, h1, h2, h3, h4, h5⟩ := (allRelationships_iff hc.spdxId hlp (package_ids hp)).1 hr
    exact ⟨⟨i, hi, hc⟩, ⟨lp, hlp, hp⟩, ⟨lf, hlf, hf⟩, ⟨ls, hls, hs⟩, ha, ⟨a, b, c, lp, e, h1, h2, h3, hlp, h4, h5⟩, he⟩
  · rintro ⟨⟨i, hi, hc⟩, ⟨lp, hlp, hp⟩, ⟨lf, hlf, hf⟩, ⟨ls, hls, hs⟩, ha, ⟨a, b, c, lp', e, h1, h2, h3, hlp', h4, h5⟩, he⟩
    cases entries_eq hlp hlp'
    exact ⟨⟨i, hi, hc⟩, (entries_list hlp).2 hp, (entries_list hlf).2 hf, (allAnnotations_iff hc.spdxId).2 ha, (entries_list hls).2 hs,
      (allRelationships_iff hc.spdxId hlp (package_ids hp)).2 ⟨a, b, c, e, h1, h2, h3, h4, h5⟩, he⟩

theorem document_object (L : LicText) (j : Json) (d : Document) : parseDocument L j = .ok d ↔ Object (DocumentSays L) j d := by
  cases j with
  | obj o => exact (document_iff L o d).trans ⟨fun h => ⟨o, rfl, h⟩, by rintro ⟨_, h, h'⟩; cases h; exact h'⟩
  | _ => exact ⟨fun h => (by cases h), by rintro ⟨_, h, _⟩; cases h⟩

end Spdx.JsonSays
