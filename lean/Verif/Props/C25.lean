import Verif.Lemmas.ParseInv
import Verif.Props.C24
import Verif.Lemmas.Dedup
/-
C25: each entry of `documentDescribes` and each package's `hasFiles` yields a relationship in the parsed document, unless the same
relationship or its inverse is already stated; explicit relationships are kept in order and unchanged.
-/
namespace Spdx.C25
open Spdx

/-! Specification -/

/-- One of the relationships says (with or without a comment) that `a` is related to `b` in the given way. -/
def Stated (rs : List Relationship) (a : Str) (t : RelationshipType) (b : Str) : Prop :=
  ∃ r ∈ rs, r.spdxElementId = a ∧ r.relationshipType = t ∧ r.relatedSpdxElementId = .val b

/-- Under the key there is a list, if anything. -/
def ListOrMissing (j : Json) (key : Str) : Prop := ∀ v, HasField j key v → ∃ l, v = .arr l

/-- The tree says, by `documentDescribes`, that the document with id `i` describes the element `x`. -/
def SaysDescribes (j : Json) (i x : Str) : Prop := HasField j s%"SPDXID" (.str i) ∧ HasEntry j s%"documentDescribes" (.str x)

/-- The tree says, by `hasFiles` of a package with id `i`, that it contains the file `x`. -/
def SaysContains (j : Json) (i x : Str) : Prop :=
  ∃ p, HasEntry j s%"packages" p ∧ HasField p s%"SPDXID" (.str i) ∧ HasEntry p s%"hasFiles" (.str x)

/-- Lists are where lists are expected. -/
structure Shaped (j : Json) : Prop where
  describes : ListOrMissing j s%"documentDescribes"
  packages : ListOrMissing j s%"packages"
  hasFiles : ∀ p, HasEntry j s%"packages" p → ListOrMissing p s%"hasFiles"

/-- The entries are equal for Python: `True == 1` and `False == 0`. -/
def PyEqual (a b : Json) : Prop :=
  a = b ∨ ∃ x y, (a = .bool x ∧ b = .num y ∨ a = .num y ∧ b = .bool x) ∧ (x = true ∧ y = 1 ∨ x = false ∧ y = 0)

/-! Lemmas -/

private theorem exists_iff (rs : List Relationship) (i x : Str) (t : RelationshipType) :
    implicitExists (withoutComments rs) i t x = true ↔ Stated rs i t x ∨ Stated rs x (invertType t) i := by
  simp only [implicitExists, withoutComments, Bool.or_eq_true, List.contains_iff_mem, List.mem_map, Stated, implicitRelationship,
    invertedRelationship]
  constructor
  · rintro (⟨r, hr, he⟩ | ⟨r, hr, he⟩)
    · refine .inl ⟨r, hr, ?_⟩
      cases r; cases he; exact ⟨rfl, rfl, rfl⟩
    · refine .inr ⟨r, hr, ?_⟩
      cases r; cases he; exact ⟨rfl, rfl, rfl⟩
  · rintro (⟨r, hr, h1, h2, h3⟩ | ⟨r, hr, h1, h2, h3⟩)
    · refine .inl ⟨r, hr, ?_⟩
      cases r; simp_all
    · refine .inr ⟨r, hr, ?_⟩
      cases r; simp_all

private theorem loop_strs {ex : List Relationship} {id d : Json} {t : RelationshipType} {ds : List Json} {rs : List Relationship}
    (h : implicitLoop ex id t (d :: ds) = ([], rs)) : ∃ i x, id = .str i ∧ d = .str x := by
  cases id <;> cases d <;> first | exact ⟨_, _, rfl, rfl⟩ | (simp [implicitLoop] at h)

private theorem loop_spec {ex : List Relationship} {id : Json} {t : RelationshipType} {ds : List Json} {rs : List Relationship}
    (h : implicitLoop ex id t ds = ([], rs)) (r : Relationship) :
    r ∈ rs ↔ ∃ i x, id = .str i ∧ .str x ∈ ds ∧ r = implicitRelationship i t x ∧ implicitExists ex i t x = false := by
  induction ds generalizing rs with
  | nil => cases h; simp
  | cons d ds ih =>
    obtain ⟨i, x, rfl, rfl⟩ := loop_strs h
    · simp only [implicitLoop] at h
      by_cases he : implicitExists ex i t x = true
      · rw [if_pos he] at h
        rw [ih h]
        constructor
        · rintro ⟨i', x', e, hm, hr⟩; exact ⟨i', x', e, List.mem_cons_of_mem _ hm, hr⟩
        · rintro ⟨i', x', e, hm, hr, hx⟩
          cases e
          rcases List.mem_cons.mp hm with e | hm
          · cases e; rw [he] at hx; cases hx
          · exact ⟨i, x', rfl, hm, hr, hx⟩
      · rw [if_neg he] at h
        obtain ⟨h1, h2⟩ := Prod.mk.inj h
        have ih' := ih (rs := (implicitLoop ex (.str i) t ds).2) (by rw [← h1])
        rw [← h2, List.mem_cons, ih']
        constructor
        · rintro (rfl | ⟨i', x', e, hm, hr⟩)
          · exact ⟨i, x, rfl, List.mem_cons_self, rfl, by simpa using he⟩
          · exact ⟨i', x', e, List.mem_cons_of_mem _ hm, hr⟩
        · rintro ⟨i', x', e, hm, hr, hx⟩
          cases e
          rcases List.mem_cons.mp hm with e | hm
          · cases e; exact .inl hr
          · exact .inr ⟨i, x', rfl, hm, hr, hx⟩

private theorem mem_deleted {l ds : List Json} (h : deleteDuplicates (.arr l) = .ok ds) (x : Str) : .str x ∈ ds ↔ .str x ∈ l := by
  simp only [deleteDuplicates, pyIter, py_bind_ok] at h
  split at h
  · cases h
    constructor
    · exact mem_of_mem_dedup
    · intro hx
      obtain ⟨y, hy, he⟩ := dedup_covers (fun a b => decide (pyKey a = pyKey b)) (by simp) l _ hx
      have : y = .str x := by
        simp only [decide_eq_true_eq] at he
        cases y <;> simp [pyKey] at he ⊢ <;> first | exact he | exact he.symm
      exact this ▸ hy
  · cases h

private theorem get_list {j v : Json} {key : Str} (hs : ListOrMissing j key) (h : pyGetD j key (.arr []) = .ok v) :
    ∃ l, v = .arr l ∧ ∀ x, x ∈ l ↔ HasEntry j key x := by
  cases j with
  | obj fields =>
    simp only [pyGetD] at h
    cases hd : dictGet fields key with
    | none =>
      rw [hd] at h
      cases h
      refine ⟨[], rfl, fun x => ⟨by simp, ?_⟩⟩
      rintro ⟨l, ⟨f, e, hf⟩, _⟩
      cases e; rw [hd] at hf; cases hf
    | some w =>
      rw [hd] at h
      cases h
      obtain ⟨l, hl⟩ := hs w ⟨fields, rfl, hd⟩
      refine ⟨l, hl, fun x => ⟨fun hx => ⟨l, ⟨fields, rfl, by rw [hd, hl]⟩, hx⟩, ?_⟩⟩
      rintro ⟨l', ⟨f, e, hf⟩, hx⟩
      cases e; rw [hd, hl] at hf; cases hf; exact hx
  | _ => cases h

private theorem get_str {j v : Json} {key i : Str} (h : pyGet j key = .ok v) : v = .str i ↔ HasField j key (.str i) := by
  cases j with
  | obj fields =>
    simp only [pyGet, pyGetD] at h
    cases hd : dictGet fields key with
    | none =>
      rw [hd] at h; cases h
      constructor
      · intro e; simp at e
      · rintro ⟨f, e, hf⟩; cases e; rw [hd] at hf; cases hf
    | some w =>
      rw [hd] at h; cases h
      refine ⟨fun e => ⟨fields, rfl, by rw [hd]; exact congrArg some e⟩, ?_⟩
      rintro ⟨f, e, hf⟩; cases e; rw [hd] at hf; cases hf; rfl
  | _ => cases h

private theorem contains_spec {ex : List Relationship} {l : List Json} {rs : List Relationship}
    (hs : ∀ p ∈ l, ListOrMissing p s%"hasFiles") (h : hasFilesLoop ex l = .ok ([], rs)) (r : Relationship) :
    r ∈ rs ↔ ∃ p ∈ l, ∃ i x, HasField p s%"SPDXID" (.str i) ∧ HasEntry p s%"hasFiles" (.str x) ∧
      r = implicitRelationship i .CONTAINS x ∧ implicitExists ex i .CONTAINS x = false := by
  induction l generalizing rs with
  | nil => cases h; simp
  | cons p l ih =>
    unfold hasFilesLoop at h
    obtain ⟨id, h1, h⟩ := pbind_ok_nil.mp h
    obtain ⟨fs, h2, h⟩ := pbind_ok_nil.mp h
    obtain ⟨here, h3, h⟩ := pbind_ok_nil.mp h
    obtain ⟨rest, h4, h⟩ := pbind_ok_nil.mp h
    cases h
    obtain ⟨v, h5, h6⟩ := py_bind_inv (ok_lift h2)
    obtain ⟨lf, rfl, hlf⟩ := get_list (hs p (by simp)) h5
    rw [List.mem_append, loop_spec (Except.ok.inj h3), ih (fun q hq => hs q (by simp [hq])) h4]
    constructor
    · rintro (⟨i, x, e, hx, hr⟩ | ⟨q, hq, hr⟩)
      · exact ⟨p, by simp, i, x, (get_str (ok_lift h1)).mp e, (hlf _).mp ((mem_deleted h6 x).mp hx), hr⟩
      · exact ⟨q, by simp [hq], hr⟩
    · rintro ⟨q, hq, i, x, hi, hx, hr⟩
      rcases List.mem_cons.mp hq with rfl | hq
      · exact .inl ⟨i, x, (get_str (ok_lift h1)).mpr hi, (mem_deleted h6 x).mpr ((hlf _).mpr hx), hr⟩
      · exact .inr ⟨q, hq, i, x, hi, hx, hr⟩

private theorem deleted_nodup {j : Json} {ds : List Json} (h : deleteDuplicates j = .ok ds) : ds.Nodup := by
  obtain ⟨l, _, h⟩ := py_bind_inv h
  split at h
  · cases h
    exact (dedup_pairwise _ l).imp fun h e => by subst e; simp at h
  · cases h

private theorem loop_nodup {ex : List Relationship} {id : Json} {t : RelationshipType} {ds : List Json} {rs : List Relationship}
    (h : implicitLoop ex id t ds = ([], rs)) (hn : ds.Nodup) : rs.Nodup := by
  induction ds generalizing rs with
  | nil => cases h; exact .nil
  | cons d ds ih =>
    obtain ⟨i, x, rfl, rfl⟩ := loop_strs h
    obtain ⟨hx, hn⟩ := List.nodup_cons.mp hn
    simp only [implicitLoop] at h
    by_cases he : implicitExists ex i t x = true
    · rw [if_pos he] at h; exact ih h hn
    · rw [if_neg he] at h
      obtain ⟨h1, h2⟩ := Prod.mk.inj h
      have h3 : implicitLoop ex (.str i) t ds = ([], (implicitLoop ex (.str i) t ds).2) := by rw [← h1]
      rw [← h2, List.nodup_cons]
      refine ⟨fun hm => ?_, ih h3 hn⟩
      obtain ⟨i', x', _, hm', e, _⟩ := (loop_spec h3 _).mp hm
      simp only [implicitRelationship, Relationship.mk.injEq, OrSpecial.val.injEq] at e
      rw [← e.2.2.1] at hm'
      exact hx hm'

private theorem ok_parseField {j : Json} {f : Json → Py α} {o : Option α} (h : parseField j f = .ok ([], o)) (hx : NE (f j)) :
    if j.truthy then ∃ a, f j = .ok a ∧ o = some a else o = none := by
  by_cases ht : j.truthy = true
  · rw [if_pos ht]
    cases hf : f j with
    | ok a => rw [parseField_ok hf ht] at h; cases h; exact ⟨a, rfl, rfl⟩
    | error e =>
      rw [parseField_error hf ht] at h
      cases hl : e.logged with
      | none => rw [hl] at h; cases h
      | some ms =>
        rw [hl] at h
        cases h
        cases e <;> simp [PyErr.logged] at hl
        subst hl
        exact absurd hf hx
  · rw [if_neg ht]
    rw [parseField_falsy ht] at h; cases h; rfl

private theorem ok_orRaiseIn {p : P α} {w : Str} {a : α} (h : p.orRaiseIn w = .ok a) : p = .ok ([], a) := by
  match p, h with
  | .ok ([], b), h => cases h; rfl

private theorem notExists (ex : List Relationship) (i x : Str) (t : RelationshipType) :
    implicitExists (withoutComments ex) i t x = false ↔ ¬ Stated ex i t x ∧ ¬ Stated ex x (invertType t) i := by
  rw [← Bool.not_eq_true, exists_iff]; exact not_or

/-! Theorems -/

/-- The relationships of a parsed tree are the stated ones, in their order and unchanged, followed by exactly those relationships
    that the tree implies and that are not stated directly or inversely. -/
theorem implied_completed (j : Json) (hs : Shaped j) (rs : List Relationship) (h : parseAllRelationships j = .ok rs) :
    ∃ explicit described contained, rs = explicit ++ described ++ contained ∧
      C24.ListParsed j s%"relationships" parseRelationship explicit ∧ described.Nodup ∧
      (∀ r, r ∈ described ↔ ∃ i x, SaysDescribes j i x ∧ r = { spdxElementId := i, relationshipType := .DESCRIBES, relatedSpdxElementId := .val x } ∧
        ¬ Stated explicit i .DESCRIBES x ∧ ¬ Stated explicit x .DESCRIBED_BY i) ∧
      (∀ r, r ∈ contained ↔ ∃ i x, SaysContains j i x ∧ r = { spdxElementId := i, relationshipType := .CONTAINS, relatedSpdxElementId := .val x } ∧
        ¬ Stated explicit i .CONTAINS x ∧ ¬ Stated explicit x .CONTAINED_BY i) := by
  have h := ok_orRaise h
  obtain ⟨vr, h1, h⟩ := pbind_ok_nil.mp h
  obtain ⟨oe, h2, h⟩ := pbind_ok_nil.mp h
  obtain ⟨ds, h3, h⟩ := pbind_ok_nil.mp h
  obtain ⟨id, h4, h⟩ := pbind_ok_nil.mp h
  obtain ⟨od, h5, h⟩ := pbind_ok_nil.mp h
  obtain ⟨vp, h6, h⟩ := pbind_ok_nil.mp h
  obtain ⟨oc, h7, h⟩ := pbind_ok_nil.mp h
  cases h
  have h2 := ok_parseField h2 (ne_bind (ne_quiet (quiet_iter _)) fun _ => ne_orRaise (quietP_collect _ _))
  have h5 := ok_parseField h5 (ne_orRaiseIn (fun ms h => by cases h))
  have h7 := ok_parseField h7 (ne_bind (ne_quiet (quiet_iter _)) fun _ => ne_orRaiseIn (quietP_hasFilesLoop _ _))
  obtain ⟨vd, h8, h9⟩ := py_bind_inv (ok_lift h3)
  obtain ⟨ld, rfl, hld⟩ := get_list hs.describes h8
  obtain ⟨lp, rfl, hlp⟩ := get_list hs.packages (ok_lift h6)
  have keyd : implicitLoop (withoutComments (oe.getD [])) id .DESCRIBES ds = ([], od.getD []) := by
    cases ds with
    | nil => rw [if_neg (by decide)] at h5; subst h5; rfl
    | cons d ds =>
      rw [if_pos (show (Json.arr (d :: ds)).truthy = true from rfl)] at h5
      obtain ⟨a, ha, rfl⟩ := h5
      exact Except.ok.inj (ok_orRaiseIn ha)
  have hdesc : ∀ r, r ∈ od.getD [] ↔ ∃ i x, SaysDescribes j i x ∧
      r = { spdxElementId := i, relationshipType := .DESCRIBES, relatedSpdxElementId := .val x } ∧
        ¬ Stated (oe.getD []) i .DESCRIBES x ∧ ¬ Stated (oe.getD []) x .DESCRIBED_BY i := by
    intro r
    rw [loop_spec keyd]
    constructor
    · rintro ⟨i, x, e, hx, hr, hn⟩
      exact ⟨i, x, ⟨(get_str (ok_lift h4)).mp e, (hld _).mp ((mem_deleted h9 x).mp hx)⟩, hr, (notExists ..).mp hn⟩
    · rintro ⟨i, x, ⟨hi, hx⟩, hr, hn⟩
      exact ⟨i, x, (get_str (ok_lift h4)).mpr hi, (mem_deleted h9 x).mpr ((hld _).mpr hx), hr, (notExists ..).mpr hn⟩
  refine ⟨oe.getD [], od.getD [], oc.getD [], rfl, ⟨?_, ?_⟩, loop_nodup keyd (deleted_nodup (py_bind_inv (ok_lift h3)).choose_spec.2), hdesc, ?_⟩
  · intro l hl
    have := ok_lift h1
    rw [hl.get (.arr [])] at this
    cases this
    cases l with
    | nil => rw [if_neg (by decide)] at h2; subst h2; rfl
    | cons e l =>
      rw [if_pos (show (Json.arr (e :: l)).truthy = true from rfl)] at h2
      obtain ⟨a, ha, rfl⟩ := h2
      exact ok_parseList ha ne_relationship
  · intro hno
    have hv := ok_lift h1
    have : vr = .arr [] := by
      cases j with
      | obj fields =>
        simp only [pyGetD] at hv
        cases hd : dictGet fields s%"relationships" with
        | none => rw [hd] at hv; cases hv; rfl
        | some w => exact absurd ⟨fields, rfl, hd⟩ (hno w)
      | _ => cases hv
    subst this
    rw [if_neg (by decide)] at h2; subst h2; rfl
  · have key : hasFilesLoop (withoutComments (oe.getD [] ++ od.getD [])) lp = .ok ([], oc.getD []) := by
      cases lp with
      | nil => rw [if_neg (by decide)] at h7; subst h7; rfl
      | cons d ds =>
        rw [if_pos (show (Json.arr (d :: ds)).truthy = true from rfl)] at h7
        obtain ⟨a, ha, rfl⟩ := h7
        exact ok_orRaiseIn ha
    have stated : ∀ a t b, t = .CONTAINS ∨ t = .CONTAINED_BY →
        (Stated (oe.getD [] ++ od.getD []) a t b ↔ Stated (oe.getD []) a t b) := by
      intro a t b ht
      constructor
      · rintro ⟨r, hr, e⟩
        rcases List.mem_append.mp hr with hr | hr
        · exact ⟨r, hr, e⟩
        · obtain ⟨i, x, _, rfl, _⟩ := (hdesc r).mp hr
          obtain ⟨_, e, _⟩ := e
          subst e; simp at ht
      · rintro ⟨r, hr, e⟩; exact ⟨r, List.mem_append_left _ hr, e⟩
    intro r
    rw [contains_spec (fun p hp => hs.hasFiles p ((hlp p).mp hp)) key]
    constructor
    · rintro ⟨p, hp, i, x, hi, hx, hr, hn⟩
      rw [notExists, show invertType .CONTAINS = .CONTAINED_BY from rfl, stated _ _ _ (.inl rfl), stated _ _ _ (.inr rfl)] at hn
      exact ⟨i, x, ⟨p, (hlp p).mp hp, hi, hx⟩, hr, hn⟩
    · rintro ⟨i, x, ⟨p, hp, hi, hx⟩, hr, hn⟩
      refine ⟨p, (hlp p).mpr hp, i, x, hi, hx, hr, ?_⟩
      rw [notExists, show invertType .CONTAINS = .CONTAINED_BY from rfl, stated _ _ _ (.inl rfl), stated _ _ _ (.inr rfl)]
      exact hn

/-- Whatever the tree implies is stated by the parsed relationships, directly or inversely. -/
theorem implied_stated (j : Json) (hs : Shaped j) (rs : List Relationship) (h : parseAllRelationships j = .ok rs)
    (i x : Str) :
    (SaysDescribes j i x → Stated rs i .DESCRIBES x ∨ Stated rs x .DESCRIBED_BY i) ∧
    (SaysContains j i x → Stated rs i .CONTAINS x ∨ Stated rs x .CONTAINED_BY i) := by
  obtain ⟨explicit, described, contained, rfl, _, _, hd, hc⟩ := implied_completed j hs rs h
  have mono : ∀ {a t b}, Stated explicit a t b → Stated (explicit ++ described ++ contained) a t b := by
    rintro a t b ⟨r, hr, e⟩; exact ⟨r, by simp [hr], e⟩
  constructor
  · intro hsay
    by_cases h1 : Stated explicit i .DESCRIBES x
    · exact .inl (mono h1)
    by_cases h2 : Stated explicit x .DESCRIBED_BY i
    · exact .inr (mono h2)
    · exact .inl ⟨_, List.mem_append_left _ (List.mem_append_right _ ((hd _).mpr ⟨i, x, hsay, rfl, h1, h2⟩)), rfl, rfl, rfl⟩
  · intro hsay
    by_cases h1 : Stated explicit i .CONTAINS x
    · exact .inl (mono h1)
    by_cases h2 : Stated explicit x .CONTAINED_BY i
    · exact .inr (mono h2)
    · exact .inl ⟨_, List.mem_append_right _ ((hc _).mpr ⟨i, x, hsay, rfl, h1, h2⟩), rfl, rfl, rfl⟩

/-- The same of a parsed document. -/
theorem document_relationships (L : LicText) (j : Json) (hs : Shaped j) (d : Document) (h : parseDocument L j = .ok d) :
    ∃ explicit described contained, d.relationships = explicit ++ described ++ contained ∧
      C24.ListParsed j s%"relationships" parseRelationship explicit ∧ described.Nodup ∧
      (∀ r, r ∈ described ↔ ∃ i x, SaysDescribes j i x ∧ r = { spdxElementId := i, relationshipType := .DESCRIBES, relatedSpdxElementId := .val x } ∧
        ¬ Stated explicit i .DESCRIBES x ∧ ¬ Stated explicit x .DESCRIBED_BY i) ∧
      (∀ r, r ∈ contained ↔ ∃ i x, SaysContains j i x ∧ r = { spdxElementId := i, relationshipType := .CONTAINS, relatedSpdxElementId := .val x } ∧
        ¬ Stated explicit i .CONTAINS x ∧ ¬ Stated explicit x .CONTAINED_BY i) :=
  implied_completed j hs _ (C24.returned_only_if_all_parsed L j d h).2.2.2.2.2.2

/-! A case -/

/-- Two elements described, one of them already stated inversely; a package with two files, one of them already stated with a comment. -/
def tree : Json :=
  .obj [(s%"SPDXID", .str s%"SPDXRef-DOCUMENT"), (s%"documentDescribes", .arr [.str s%"SPDXRef-A", .str s%"SPDXRef-B", .str s%"SPDXRef-A"]),
    (s%"packages", .arr [.obj [(s%"SPDXID", .str s%"SPDXRef-A"), (s%"hasFiles", .arr [.str s%"SPDXRef-F", .str s%"SPDXRef-G"])], .obj []]),
    (s%"relationships", .arr [
      .obj [(s%"spdxElementId", .str s%"SPDXRef-B"), (s%"relationshipType", .str s%"DESCRIBED_BY"), (s%"relatedSpdxElement", .str s%"SPDXRef-DOCUMENT")],
      .obj [(s%"spdxElementId", .str s%"SPDXRef-A"), (s%"relationshipType", .str s%"CONTAINS"), (s%"relatedSpdxElement", .str s%"SPDXRef-F"),
        (s%"comment", .str s%"c")]])]

example : parseAllRelationships tree = .ok [
    { spdxElementId := s%"SPDXRef-B", relationshipType := .DESCRIBED_BY, relatedSpdxElementId := .val s%"SPDXRef-DOCUMENT" },
    { spdxElementId := s%"SPDXRef-A", relationshipType := .CONTAINS, relatedSpdxElementId := .val s%"SPDXRef-F", comment := some s%"c" },
    { spdxElementId := s%"SPDXRef-DOCUMENT", relationshipType := .DESCRIBES, relatedSpdxElementId := .val s%"SPDXRef-A" },
    { spdxElementId := s%"SPDXRef-A", relationshipType := .CONTAINS, relatedSpdxElementId := .val s%"SPDXRef-G" }] := by
  decide +kernel

example : Shaped tree where
  describes := by rintro v ⟨f, e, h⟩; cases e; cases h; exact ⟨_, rfl⟩
  packages := by rintro v ⟨f, e, h⟩; cases e; cases h; exact ⟨_, rfl⟩
  hasFiles := by
    rintro p ⟨l, ⟨f, e, h⟩, hp⟩ v ⟨f', e', h'⟩
    cases e; cases h
    rcases List.mem_cons.mp hp with rfl | hp
    · cases e'; cases h'; exact ⟨_, rfl⟩
    · rw [List.mem_singleton.mp hp] at e'; cases e'; cases h'

/-- Packages that share an id yield the same relationship twice: the list of existing relationships is not extended on the way. -/
theorem shared_id_contains_twice :
    parseAllRelationships (.obj [(s%"SPDXID", .str s%"SPDXRef-DOCUMENT"),
      (s%"packages", .arr [.obj [(s%"SPDXID", .str s%"SPDXRef-A"), (s%"hasFiles", .arr [.str s%"SPDXRef-F"])],
        .obj [(s%"SPDXID", .str s%"SPDXRef-A"), (s%"hasFiles", .arr [.str s%"SPDXRef-F"])]])]) =
    .ok [{ spdxElementId := s%"SPDXRef-A", relationshipType := .CONTAINS, relatedSpdxElementId := .val s%"SPDXRef-F" },
      { spdxElementId := s%"SPDXRef-A", relationshipType := .CONTAINS, relatedSpdxElementId := .val s%"SPDXRef-F" }] := by
  decide +kernel

/-- Entries are taken for duplicates exactly if they are equal. -/
theorem duplicates_are_equal (a b : Json) : pyKey a = pyKey b ↔ PyEqual a b := by
  constructor
  · intro h
    by_cases e : a = b
    · exact .inl e
    · refine .inr ?_
      cases a with
      | bool x => cases b with
        | bool y => cases x <;> cases y <;> first | exact absurd rfl e | cases h
        | num y => cases h; exact ⟨x, _, .inl ⟨rfl, rfl⟩, by cases x <;> simp⟩
        | _ => cases h
      | num y => cases b with
        | bool x => cases h; exact ⟨x, _, .inr ⟨rfl, rfl⟩, by cases x <;> simp⟩
        | _ => exact absurd h e
      | _ => cases b with
        | bool x => cases h
        | _ => exact absurd h e
  · rintro (rfl | ⟨x, y, ⟨rfl, rfl⟩ | ⟨rfl, rfl⟩, ⟨rfl, rfl⟩ | ⟨rfl, rfl⟩⟩) <;> rfl

/-- The inverse of the inverse is the relationship itself; the inverses are those of describing and containing. -/
theorem inverse_of_inverse (t : RelationshipType) : invertType (invertType t) = t ∧
    (invertType t ≠ t ↔ t ∈ [.DESCRIBES, .DESCRIBED_BY, .CONTAINS, .CONTAINED_BY]) := by
  cases t <;> decide

end Spdx.C25
