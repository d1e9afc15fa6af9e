import Verif.Lemmas.JsonSayingRanges
import Verif.Lemmas.JsonReadDoc
/- What is said about annotations, relationships and whole documents. -/
namespace Spdx.JsonSaying
open Spdx Spdx.Spec Spdx.Spec.JsonFaults
open JsonSays (Obj valueAt Blank Items Object Field Entries ListOf)
open Spdx.JsonSays
open Spdx.JsonCrash (lift_bind items_unique)
open RdfSays (All2)

private theorem document_made (c : CreationInfo) (ps : List Package) (fs : List File) (ss : List Snippet) (as : List Annotation) (rs : List Relationship)
    (es : List ExtractedLicensingInfo) : construct s%"Document" (.ok Document.mk ⊛ chkSome s%"creation_info" (some c) ⊛ .ok ps ⊛ .ok fs ⊛ .ok ss ⊛ .ok as ⊛ .ok rs ⊛ .ok es) =
      .ok ⟨c, ps, fs, ss, as, rs, es⟩ := rfl

attribute [local irreducible] Check.ap

/-! ### Annotations, relationships, extracted licenses: one at a time -/

theorem tells_annotationType : Tells parseAnnotationType (JsonSays.ExactMember AnnotationType.name) aboutAnnotationType := by
  refine tells_expect reads_annotationType fun v e h => ?_
  cases v with
  | str s =>
    rw [parseAnnotationType.eq_def] at h
    dsimp only at h
    cases hd : AnnotationType.ofName? s with
    | some t => rw [hd] at h; cases h
    | none =>
      rw [hd] at h; cases h
      refine ⟨_, rfl, fun y => ⟨?_, fun h => .inr ⟨?_, h⟩⟩⟩
      · rintro (⟨⟨_, h⟩ | ⟨_, h⟩, _⟩ | ⟨_, h⟩)
        · cases h
        · cases h
        · exact h
      · rintro (⟨_, h⟩ | ⟨_, h⟩) <;> cases h
  | arr l =>
    cases h
    exact ⟨_, rfl, fun y => ⟨fun h => h.elim (·.2) fun h => absurd (.inl ⟨l, rfl⟩) h.1, fun h => .inl ⟨.inl ⟨l, rfl⟩, h⟩⟩⟩
  | obj o =>
    cases h
    exact ⟨_, rfl, fun y => ⟨fun h => h.elim (·.2) fun h => absurd (.inr ⟨o, rfl⟩) h.1, fun h => .inl ⟨.inr ⟨o, rfl⟩, h⟩⟩⟩
  | _ =>
    cases h
    refine ⟨_, rfl, fun y => ⟨?_, fun h => .inr ⟨?_, h⟩⟩⟩
    · rintro (⟨⟨_, h⟩ | ⟨_, h⟩, _⟩ | ⟨_, h⟩)
      · cases h
      · cases h
      · exact h
    · rintro (⟨_, h⟩ | ⟨_, h⟩) <;> cases h

private theorem checks_id {f : Str} {v w : Json} : Checks (chkStr f (if v.truthy = true then v else w))
    [(f, (¬ Blank v ∧ NoText v) ∨ (Blank v ∧ NoText w))] := by
  by_cases ht : v.truthy = true
  · have hb : ¬ Blank v := fun h => (JsonSays.blank_iff _).1 h ht
    rw [if_pos ht]
    exact checks_iff checks_str ⟨fun h => .inl ⟨hb, h⟩, fun h => h.elim (·.2) fun h => absurd h.1 hb⟩
  · have hb : Blank v := (JsonSays.blank_iff _).2 ht
    rw [if_neg ht]
    exact checks_iff checks_str ⟨fun h => .inr ⟨hb, h⟩, fun h => h.elim (fun h => absurd hb h.1) (·.2)⟩

theorem said_annotation (el : Json) (o : Obj) (ms : List PMsg) : said (parseAnnotation el (.obj o)) = some ms ↔ aboutAnnotation el o ms := by
  unfold parseAnnotation aboutAnnotation
  simp only [get_obj, py_bind_ok, lift_bind]
  refine element_said (by hard) ?_ ms
  refine logs_cons (logs_field tells_annotationType) fun _ => logs_cons (logs_field tells_actor) fun _ =>
    logs_cons (logs_field tells_date) fun _ => logs_pure ?_
  intros
  refine ⟨_, rfl, ?_⟩
  apply checks_of
  · repeat (first | exact checks_id | check_one | check_other | apply checks_ap)
  · simp only [List.append_nil, List.nil_append, List.cons_append]

theorem tells_annotation (el : Json) : Tells (parseAnnotation el) (Object (JsonSays.AnnotationSays el)) (object (aboutAnnotation el)) :=
  tells_object (reads_annotation el) (said_annotation el) (by no_object)

theorem said_review (d : Json) (o : Obj) (ms : List PMsg) : said (parseReview d (.obj o)) = some ms ↔ aboutReview d o ms := by
  unfold parseReview aboutReview
  simp only [get_obj, py_bind_ok, lift_bind]
  refine element_said (by hard) ?_ ms
  refine logs_cons (logs_field tells_actor) fun _ => logs_cons (logs_field tells_date) fun _ => logs_pure ?_
  intros
  exact ⟨_, rfl, by all_checks⟩

theorem tells_review (d : Json) : Tells (parseReview d) (fun v a => parseReview d v = .ok a) (object (aboutReview d)) where
  reads := reads_self (ne_review d)
  iff v ms := by
    cases v with
    | obj o =>
      rw [said_review]
      exact ⟨fun h => ⟨o, rfl, h⟩, by rintro ⟨_, h, h'⟩; cases h; exact h'⟩
    | _ => exact ⟨fun h => (by cases h), fun ⟨_, h, _⟩ => (by cases h)⟩

theorem said_relationship (o : Obj) (ms : List PMsg) : said (parseRelationship (.obj o)) = some ms ↔ aboutRelationship o ms := by
  unfold parseRelationship aboutRelationship
  simp only [get_obj, py_bind_ok, lift_bind]
  refine element_said (by hard) ?_ ms
  refine logs_of (logs1_mono (logs_field (tells_member names_relationship s%"RelationshipType")) ?_)
  intros
  exact ⟨_, rfl, by all_checks⟩

theorem tells_relationship : Tells parseRelationship (Object JsonSays.RelationshipSays) (object aboutRelationship) :=
  tells_object reads_relationship said_relationship (by no_object)

theorem said_extracted (o : Obj) (ms : List PMsg) : said (parseExtracted (.obj o)) = some ms ↔ aboutExtracted o ms := by
  unfold parseExtracted aboutExtracted
  simp only [get_obj, getD_obj, py_bind_ok]
  exact builds_said ⟨_, rfl, by all_checks⟩ ms

theorem tells_extracted : Tells parseExtracted (Object JsonSays.ExtractedSays) (object aboutExtracted) :=
  tells_object reads_extracted said_extracted (by no_object)

/-! ### All annotations -/

theorem pairs2 {A B : List PMsg → Prop} {fs : List PMsg} : Concat [A, B] fs ↔ ∃ a b, A a ∧ B b ∧ fs = a ++ b := by
  simp only [concat_cons, concat_nil]
  constructor
  · rintro ⟨a, _, ha, ⟨b, _, hb, rfl, rfl⟩, rfl⟩; exact ⟨a, b, ha, hb, by simp⟩
  · rintro ⟨a, b, ha, hb, rfl⟩; exact ⟨a, b, ha, ⟨b, [], hb, rfl, by simp⟩, rfl⟩

theorem logs_annotationsFrom (l : List Json) :
    Logs1 (annotationsFrom l) (fun fs => ∃ mss, All2 (object ofElement) l mss ∧ fs = mss.flatten) (fun _ => True) := by
  induction l with
  | nil =>
    refine ⟨fun fs => ⟨fun ⟨t, h⟩ => (by cases h; exact ⟨[], .nil, rfl⟩), ?_⟩, fun _ _ => trivial⟩
    rintro ⟨mss, h, rfl⟩
    cases h
    exact ⟨[], rfl⟩
  | cons j js ih =>
    cases j with
    | obj o =>
      rw [annotationsFrom.eq_2]
      simp only [get_obj, getD_obj, lift_bind]
      have h : Logs (parseField ((o.lookup s%"annotations").getD (.arr [])) (parseList (parseAnnotation (valueAt o s%"SPDXID"))) >>= fun here => do
          let r ← annotationsFrom js
          return here.getD [] ++ r) [ofElement o, fun fs => ∃ mss, All2 (object ofElement) js mss ∧ fs = mss.flatten] (fun _ => True) :=
        logs_cons (logs_fieldD (tells_list (tells_annotation _))) fun _ => logs_cons ih fun _ => logs_pure fun _ _ => trivial
      refine logs1_congr h fun ms => ?_
      rw [pairs2]
      constructor
      · rintro ⟨a, b, ha, ⟨mss, hm, rfl⟩, rfl⟩; exact ⟨a :: mss, .cons ⟨o, rfl, ha⟩ hm, rfl⟩
      · rintro ⟨mss, hm, rfl⟩
        cases hm with
        | cons h1 h2 =>
          obtain ⟨_, he, h1⟩ := h1
          cases he
          exact ⟨_, _, h1, ⟨_, h2, rfl⟩, rfl⟩
    | _ =>
      refine ⟨fun fs => ⟨fun ⟨t, h⟩ => (by cases h), ?_⟩, fun _ _ => trivial⟩
      rintro ⟨mss, h, _⟩
      cases h with
      | cons h1 h2 => obtain ⟨_, he, _⟩ := h1; cases he

/-- Every entry of a member. -/
theorem logs_entries {α β γ : Type} {x : Py γ} {g : γ → P α} {f : α → P β} {G : γ → List PMsg → Prop} {H : List PMsg → Prop}
    {Fs : List (List PMsg → Prop)} {K1 : α → Prop} {K : β → Prop} (hg : ∀ l, Logs1 (g l) (G l) K1) (hH : ∀ ms, H ms ↔ ∃ l, x = .ok l ∧ G l ms)
    (hf : ∀ a, Logs (f a) Fs fun t => K1 a → K t) : Logs (x.lift >>= fun l => g l >>= f) (H :: Fs) K := by
  cases x with
  | error e =>
    refine ⟨fun fs => ⟨fun ⟨t, h⟩ => (by cases h), fun h => ?_⟩, fun t h => (by cases h)⟩
    rw [concat_cons] at h
    obtain ⟨a, _, ha, _⟩ := h
    obtain ⟨l, hl, _⟩ := (hH a).1 ha
    cases hl
  | ok l =>
    rw [lift_bind]
    refine logs_cons (logs1_congr (hg l) fun ms => ?_) hf
    rw [hH]
    exact ⟨fun h => ⟨l, rfl, h⟩, fun ⟨_, hl, h⟩ => (by cases hl; exact h)⟩

theorem entries_of {o : Obj} {k : Str} {A : About} (ms : List PMsg) :
    entries o k A ms ↔ ∃ l, (pyGetD (.obj o) k (.arr []) >>= pyIter) = .ok l ∧ ∃ mss, All2 A l mss ∧ ms = mss.flatten := by
  simp only [entries_iff]
  exact ⟨fun ⟨l, mss, h1, h2⟩ => ⟨l, h1, mss, h2⟩, fun ⟨l, h1, mss, h2⟩ => ⟨l, mss, h1, h2⟩⟩

/-- What the caller is told: the messages of a parsing error. -/
def told {α : Type} (x : Py α) : Option (List PMsg) :=
  match x with
  | .ok _ => some []
  | .error (.parsing ms) => some ms
  | .error _ => none

theorem orRaise_told {α : Type} {p : P α} {F : List PMsg → Prop} {K : α → Prop} (h : Logs1 p F K) (hq : QuietP p) (ms : List PMsg) :
    told p.orRaise = some ms ↔ F ms := by
  rw [← h.iff]
  match p, hq with
  | .error e, hq =>
    have : told (P.orRaise (.error e : P α)) = none := by
      cases e <;> first | rfl | exact absurd rfl (hq _)
    rw [this]
    exact ⟨fun h => (by cases h), fun ⟨t, h⟩ => (by cases h)⟩
  | .ok ([], a), _ =>
    exact ⟨fun h => (by cases h; exact ⟨a, rfl⟩), fun ⟨t, h⟩ => (by cases h; rfl)⟩
  | .ok (m :: fs, a), _ =>
    exact ⟨fun h => (by cases h; exact ⟨a, rfl⟩), fun ⟨t, h⟩ => (by cases h; rfl)⟩

theorem orRaiseIn_told {α : Type} {p : P α} {F : List PMsg → Prop} {K : α → Prop} {w : Str} (h : Logs1 p F K) (hq : QuietP p) (ms : List PMsg) :
    told (p.orRaiseIn w) = some ms ↔ ∃ fs, F fs ∧ wrap w fs ms := by
  simp only [← h.iff]
  unfold wrap
  match p, hq with
  | .error e, hq =>
    have : told (P.orRaiseIn w (.error e : P α)) = none := by
      cases e <;> first | rfl | exact absurd rfl (hq _)
    rw [this]
    exact ⟨fun h => (by cases h), fun ⟨_, ⟨t, h⟩, _⟩ => (by cases h)⟩
  | .ok ([], a), _ =>
    refine ⟨fun h => (by cases h; exact ⟨[], ⟨a, rfl⟩, .inl ⟨rfl, rfl⟩⟩), ?_⟩
    rintro ⟨_, ⟨t, h⟩, ⟨_, rfl⟩ | ⟨hn, rfl⟩⟩
    · rfl
    · cases h; exact absurd rfl hn
  | .ok (m :: fs, a), _ =>
    refine ⟨fun h => (by cases h; exact ⟨m :: fs, ⟨a, rfl⟩, .inr ⟨by simp, rfl⟩⟩), ?_⟩
    rintro ⟨_, ⟨t, h⟩, ⟨rfl, rfl⟩ | ⟨hn, rfl⟩⟩
    · cases h
    · cases h; rfl

theorem told_annotations (o : Obj) (ms : List PMsg) : told (parseAllAnnotations (.obj o)) = some ms ↔ aboutAnnotations o ms := by
  unfold parseAllAnnotations aboutAnnotations
  have qi : ∀ k, QuietP (Py.lift (pyGetD (.obj o) k (.arr []) >>= pyIter)) := fun k =>
    quietP_lift (quiet_bind (quiet_get _ _ _) fun _ => quiet_iter _)
  refine orRaiseIn_told (K := fun _ => True) ?_ ?_ ms
  rotate_left
  · exact (quietP_bind (quietP_annotationsFrom _) fun _ => quietP_bind (qi _) fun _ => quietP_bind (quietP_lift (quiet_get _ _ _)) fun _ =>
    quietP_bind (quietP_collect _ _) fun _ => quietP_bind (qi _) fun _ => quietP_bind (quietP_annotationsFrom _) fun _ =>
    quietP_bind (qi _) fun _ => quietP_bind (quietP_annotationsFrom _) fun _ =>
    quietP_bind (qi _) fun _ => quietP_bind (quietP_annotationsFrom _) fun _ => quietP_pure _)
  simp only [get_obj, lift_bind]
  have own : Logs1 (annotationsFrom [.obj o]) (ofElement o) (fun _ => True) := by
    refine logs1_congr (logs_annotationsFrom _) fun ms => ?_
    constructor
    · rintro ⟨mss, hm, rfl⟩
      cases hm with
      | cons h1 h2 =>
        cases h2
        obtain ⟨_, he, h1⟩ := h1
        cases he
        simpa using h1
    · intro h; exact ⟨[ms], .cons ⟨o, rfl, h⟩ .nil, by simp⟩
  refine logs_cons own fun _ => ?_
  refine logs_entries (K1 := fun _ => True) (fun l => logs1_mono (collect_said (tells_review _) l) fun _ _ => trivial) entries_of fun _ => ?_
  refine logs_entries logs_annotationsFrom entries_of fun _ => ?_
  refine logs_entries logs_annotationsFrom entries_of fun _ => ?_
  refine logs_entries logs_annotationsFrom entries_of fun _ => ?_
  apply logs_pure
  intros; trivial

/-! ### All relationships -/

private theorem fields_unique {cls : Str} {w : List (Str × Prop)} {a b : List PMsg} (h : fields cls w a) (h' : fields cls w b) : a = b := by
  obtain ⟨n, hn, h⟩ := h
  obtain ⟨n', hn', h'⟩ := h'
  cases named_unique hn hn'
  rcases h with ⟨h1, rfl⟩ | ⟨h1, rfl⟩ <;> rcases h' with ⟨h2, rfl⟩ | ⟨h2, rfl⟩
  · rfl
  · exact absurd h1 h2
  · exact absurd h2 h1
  · rfl

theorem logged_pairs (ex : List Relationship) (id : Json) (t : RelationshipType) (ds : List Json) (ms : List PMsg) :
    (implicitLoop ex id t ds).1 = ms ↔ ∃ mss, All2 (aboutPair id) ds mss ∧ ms = mss.flatten := by
  have some : ∃ mss, All2 (aboutPair id) ds mss ∧ (implicitLoop ex id t ds).1 = mss.flatten := by
    induction ds with
    | nil => exact ⟨[], .nil, rfl⟩
    | cons d ds ih =>
      obtain ⟨mss, h1, h2⟩ := ih
      rw [implicitLoop.eq_def]
      dsimp only
      generalize implicitLoop ex id t ds = r at h2
      have key : ∀ a : List PMsg, aboutPair id d a → ∀ x : List PMsg × List Relationship, x.1 = a ++ r.1 → ∃ mss, All2 (aboutPair id) (d :: ds) mss ∧ x.1 = mss.flatten := by
        intro a ha x hx
        exact ⟨a :: mss, .cons ha h1, by rw [hx, h2]; rfl⟩
      have good : ∀ s : Str, ¬ NoText (.str s) := fun s h => h s rfl
      cases id with
      | str i =>
        cases d with
        | str x =>
          refine key [] ⟨[], .right (good i) (.right (good x) .nil), .inl ⟨rfl, rfl⟩⟩ _ ?_
          dsimp only
          split <;> rfl
        | _ => exact key [.constructing s%"Relationship" [s%"related_spdx_element_id"]] ⟨_, .right (good i) (.wrong (fun s h => (by cases h)) .nil), .inr ⟨by simp, rfl⟩⟩ _ rfl
      | _ =>
        cases d with
        | str x => exact key [.constructing s%"Relationship" [s%"spdx_element_id"]] ⟨_, .wrong (fun s h => (by cases h)) (.right (good x) .nil), .inr ⟨by simp, rfl⟩⟩ _ rfl
        | _ => exact key [.constructing s%"Relationship" [s%"spdx_element_id", s%"related_spdx_element_id"]]
                 ⟨_, .wrong (fun s h => (by cases h)) (.wrong (fun s h => (by cases h)) .nil), .inr ⟨by simp, rfl⟩⟩ _ rfl
  obtain ⟨mss, h1, h2⟩ := some
  constructor
  · rintro rfl; exact ⟨mss, h1, h2⟩
  · rintro ⟨mss', h1', rfl⟩
    rw [h2, all2_unique (R := aboutPair id) (fun _ _ _ h h' => fields_unique h h') h1 h1']

private theorem alike_iff (a b : Json) : pyKey a = pyKey b ↔ Alike a b := by
  unfold Alike
  constructor
  · intro h
    cases a with
    | bool s =>
      cases b with
      | bool t => refine .inl ?_; cases s <;> cases t <;> first | rfl | (exact absurd (Json.num.inj h) (by decide))
      | num n => exact .inr ⟨s, .inl ⟨rfl, h.symm⟩⟩
      | _ => cases h
    | num n =>
      cases b with
      | bool t => exact .inr ⟨t, .inr ⟨rfl, h⟩⟩
      | _ => exact .inl h
    | _ =>
      cases b with
      | bool t => cases h
      | _ => exact .inl h
  · rintro (rfl | ⟨t, ⟨rfl, rfl⟩ | ⟨rfl, rfl⟩⟩) <;> rfl

theorem firsts_iff (l l' : List Json) : Firsts l l' ↔ l' = dedup (fun a b => decide (pyKey a = pyKey b)) l := by
  have any_iff : ∀ (k : List Json) x, k.any (fun y => decide (pyKey y = pyKey x)) = true ↔ ∃ y ∈ k, Alike y x := by
    intro k x
    simp only [List.any_eq_true, decide_eq_true_eq, alike_iff]
  constructor
  · intro h
    induction h with
    | nil => rfl
    | new h1 h2 ih =>
      unfold dedup at ih ⊢
      rw [List.foldl_append, ← ih, List.foldl_cons, List.foldl_nil, dedupStep, if_neg]
      rw [any_iff]
      rintro ⟨y, hy, ha⟩
      exact h2 y hy ha
    | old h1 h2 h3 ih =>
      unfold dedup at ih ⊢
      rw [List.foldl_append, ← ih, List.foldl_cons, List.foldl_nil, dedupStep, if_pos]
      rw [any_iff]
      exact ⟨_, h2, h3⟩
  · rintro rfl
    have gen : ∀ l2 l1 k, Firsts l1 k → Firsts (l1 ++ l2) (l2.foldl (dedupStep fun a b => decide (pyKey a = pyKey b)) k) := by
      intro l2
      induction l2 with
      | nil => intro l1 k h; rw [List.append_nil]; exact h
      | cons x l2 ih =>
        intro l1 k h
        rw [List.foldl_cons, show l1 ++ x :: l2 = (l1 ++ [x]) ++ l2 by simp]
        refine ih _ _ ?_
        unfold dedupStep
        split
        · next ha =>
          obtain ⟨y, hy, hyx⟩ := (any_iff k x).1 ha
          exact .old h hy hyx
        · next ha => exact .new h fun y hy hyx => ha ((any_iff k x).2 ⟨y, hy, hyx⟩)
    exact gen l [] [] .nil

private theorem hashable_iff (v : Json) : v.hashable = true ↔ ¬ Unhashable v := by
  unfold Unhashable
  cases v <;> simp [Json.hashable]

/-- The distinct entries of a member, or why there are none. -/
theorem distinct_entries (o : Obj) (k : Str) :
    (∃ l ds, Entries o k l ∧ (∀ x ∈ l, ¬ Unhashable x) ∧ Firsts l ds ∧ (pyGetD (.obj o) k (.arr []) >>= deleteDuplicates) = .ok ds) ∨
    (∃ m, stops o k (.text m) ∧ (pyGetD (.obj o) k (.arr []) >>= deleteDuplicates) = .error (.type m)) := by
  unfold deleteDuplicates
  have e : (pyGetD (.obj o) k (.arr []) >>= fun j => pyIter j >>= fun l =>
      (if l.all Json.hashable then .ok (dedup (fun a b => pyKey a = pyKey b) l) else .error (.type s%"unhashable type") : Py (List Json))) =
      ((pyGetD (.obj o) k (.arr []) >>= pyIter) >>= fun l =>
      (if l.all Json.hashable then .ok (dedup (fun a b => pyKey a = pyKey b) l) else .error (.type s%"unhashable type") : Py (List Json))) := by
    rw [getD_obj, py_bind_ok, py_bind_ok]
  rw [e]
  cases hi : (pyGetD (.obj o) k (.arr []) >>= pyIter) with
  | ok l =>
    rw [py_bind_ok]
    have hl := entries_iff.1 hi
    by_cases ha : l.all Json.hashable = true
    · rw [if_pos ha]
      refine .inl ⟨l, _, hl, ?_, (firsts_iff _ _).2 rfl, rfl⟩
      intro x hx
      exact (hashable_iff x).1 (List.all_eq_true.1 ha x hx)
    · rw [if_neg ha]
      refine .inr ⟨_, ?_, rfl⟩
      have : ∃ x ∈ l, Unhashable x := by
        refine Classical.byContradiction fun hn => ha (List.all_eq_true.2 fun x hx => (hashable_iff x).2 fun hu => hn ⟨x, hx, hu⟩)
      obtain ⟨x, hx, hu⟩ := this
      exact .unhashable hl hx hu
  | error e =>
    refine .inr ⟨s%"not iterable", ?_, ?_⟩
    · cases hl : o.lookup k with
      | none =>
        rw [entries_iff.2 (.inl ⟨hl, rfl⟩)] at hi; cases hi
      | some v =>
        refine .noItems hl ?_
        rintro ⟨l, hl'⟩
        rw [entries_iff.2 (.inr ⟨v, hl, hl'⟩)] at hi; cases hi
    · rw [getD_obj, py_bind_ok] at hi
      have : ∀ v e', pyIter v = .error e' → e' = .type s%"not iterable" := by
        intro v e' h
        cases v <;> cases h <;> rfl
      rw [this _ _ hi]; rfl

private theorem stops_no_pairs {o : Obj} {k : Str} {m : PMsg} (h : stops o k m) (ms : List PMsg) : ¬ pairs o k ms := by
  rintro ⟨l, l', mss, he, hu, _⟩
  cases h with
  | noItems hl hn =>
    rcases he with ⟨h, _⟩ | ⟨v, h, hi⟩
    · rw [h] at hl; cases hl
    · rw [h] at hl; cases hl; exact hn ⟨_, hi⟩
  | unhashable he' hx hux => rw [entries_eq he' he] at hx; exact hu _ hx hux

private theorem stops_unique {o : Obj} {k : Str} {m m' : PMsg} (h : stops o k m) (h' : stops o k m') : m = m' := by
  have no : ∀ {v l}, o.lookup k = some v → NoItems v → ¬ Entries o k l := by
    rintro v l hl hn (⟨h, _⟩ | ⟨w, h, hi⟩)
    · rw [h] at hl; cases hl
    · rw [h] at hl; cases hl; exact hn ⟨_, hi⟩
  cases h with
  | noItems hl hn =>
    cases h' with
    | noItems => rfl
    | unhashable he => exact absurd he (no hl hn)
  | unhashable he =>
    cases h' with
    | noItems hl hn => exact absurd he (no hl hn)
    | unhashable => rfl

/-- The relationships to the distinct entries of a member. -/
theorem logs_pairs {o : Obj} {k : Str} {t : RelationshipType} {ex : List Relationship} (ms : List PMsg) :
    pairs o k ms ↔ ∃ ds, (pyGetD (.obj o) k (.arr []) >>= deleteDuplicates) = .ok ds ∧ (implicitLoop ex (valueAt o s%"SPDXID") t ds).1 = ms := by
  simp only [logged_pairs]
  rcases distinct_entries o k with ⟨l, ds, h1, h2, h3, h4⟩ | ⟨m, h1, h2⟩
  · rw [h4]
    constructor
    · rintro ⟨l', ds', mss, h1', h2', h3', h5, rfl⟩
      cases entries_eq h1 h1'
      rw [(firsts_iff _ _).1 h3'] at h5
      rw [(firsts_iff _ _).1 h3]
      exact ⟨_, rfl, mss, h5, rfl⟩
    · rintro ⟨_, hd, mss, h5, rfl⟩
      cases hd
      exact ⟨l, ds, mss, h1, h2, h3, h5, rfl⟩
  · rw [h2]
    exact ⟨fun h => absurd h (stops_no_pairs h1 ms), fun ⟨_, h, _⟩ => (by cases h)⟩

theorem wrap_nil {w : Str} {ms : List PMsg} : wrap w [] ms ↔ ms = [] := by
  unfold wrap
  exact ⟨fun h => h.elim (·.2) fun h => absurd rfl h.1, fun h => .inl ⟨rfl, h⟩⟩

/-- The loop over the packages. -/
theorem files_cases (ex : List Relationship) (l : List Json) :
    (∃ mss t, All2 (object fun o => pairs o s%"hasFiles") l mss ∧ hasFilesLoop ex l = .ok (mss.flatten, t)) ∨
    (∃ l1 o l2 mss m, l = l1 ++ .obj o :: l2 ∧ All2 (object fun o => pairs o s%"hasFiles") l1 mss ∧ stops o s%"hasFiles" (.text m) ∧
      hasFilesLoop ex l = .error (.type m)) ∨
    (∃ l1 v l2 mss m, l = l1 ++ v :: l2 ∧ All2 (object fun o => pairs o s%"hasFiles") l1 mss ∧ NoObject v ∧ hasFilesLoop ex l = .error (.other m)) := by
  induction l with
  | nil => exact .inl ⟨[], [], .nil, rfl⟩
  | cons j js ih =>
    cases j with
    | obj o =>
      rw [hasFilesLoop.eq_2]
      simp only [get_obj, lift_bind]
      rcases distinct_entries o s%"hasFiles" with ⟨_, ds, _, _, _, h4⟩ | ⟨m, h1, h2⟩
      · have hp := (logs_pairs (ex := ex) (t := .CONTAINS) _).2 ⟨ds, h4, rfl⟩
        rw [h4, lift_bind]
        generalize implicitLoop ex (valueAt o s%"SPDXID") .CONTAINS ds = here at hp
        have step : ∀ c : P (List Relationship), hasFilesLoop ex js = c → ((.ok here : P (List Relationship)) >>= fun h : List Relationship => do
            let r ← hasFilesLoop ex js
            return h ++ r : P (List Relationship)) = (match c with
              | .ok (ms, r) => .ok (here.1 ++ ms, here.2 ++ r)
              | .error e => .error e : P (List Relationship)) := by
          rintro c rfl
          generalize hasFilesLoop ex js = c
          match c with
          | .error e => rfl
          | .ok (ms, r) =>
            show Except.ok (here.1 ++ (ms ++ []), here.2 ++ r) = _
            rw [List.append_nil]
        rcases ih with ⟨mss, t, h5, h6⟩ | ⟨l1, o', l2, mss, m, rfl, h5, h6, h7⟩ | ⟨l1, v, l2, mss, m, rfl, h5, h6, h7⟩
        · exact .inl ⟨here.1 :: mss, _, .cons ⟨o, rfl, hp⟩ h5, step _ h6⟩
        · exact .inr (.inl ⟨.obj o :: l1, o', l2, here.1 :: mss, m, rfl, .cons ⟨o, rfl, hp⟩ h5, h6, step _ h7⟩)
        · exact .inr (.inr ⟨.obj o :: l1, v, l2, here.1 :: mss, m, rfl, .cons ⟨o, rfl, hp⟩ h5, h6, step _ h7⟩)
      · rw [h2]
        exact .inr (.inl ⟨[], o, js, [], m, rfl, .nil, h1, rfl⟩)
    | _ => exact .inr (.inr ⟨[], _, js, [], _, rfl, .nil, fun o h => (by cases h), rfl⟩)

private theorem pairs_unique {v : Json} {k : Str} {a b : List PMsg} (h : object (fun o => pairs o k) v a) (h' : object (fun o => pairs o k) v b) : a = b := by
  obtain ⟨o, rfl, h⟩ := h
  obtain ⟨_, he, h'⟩ := h'
  cases he
  obtain ⟨ds, h1, rfl⟩ := (logs_pairs (ex := []) (t := .CONTAINS) _).1 h
  obtain ⟨ds', h1', rfl⟩ := (logs_pairs (ex := []) (t := .CONTAINS) _).1 h'
  rw [h1] at h1'; cases h1'; rfl

private theorem stops_not {o : Obj} {k : Str} {m : PMsg} (h : stops o k m) (b : List PMsg) : ¬ object (fun o => pairs o k) (.obj o) b := by
  rintro ⟨_, he, h'⟩; cases he; exact stops_no_pairs h b h'

theorem said_contains (ex : List Relationship) (v : Json) (ms : List PMsg) : said (parseHasFiles ex v) = some ms ↔ aboutContains v ms := by
  unfold parseHasFiles
  have hG : ∀ l ms, said ((hasFilesLoop ex l).orRaiseIn s%"package contains relationships") = some ms ↔
      (∃ l1 o l2 mss m, l = l1 ++ .obj o :: l2 ∧ All2 (object fun o => pairs o s%"hasFiles") l1 mss ∧ stops o s%"hasFiles" m ∧ ms = [m]) ∨
      (∃ mss, All2 (object fun o => pairs o s%"hasFiles") l mss ∧ wrap s%"package contains relationships" mss.flatten ms) := by
    intro l ms
    rcases files_cases ex l with ⟨mss, t, h1, h2⟩ | ⟨l1, o, l2, mss, m, rfl, h1, h2, h3⟩ | ⟨l1, v, l2, mss, m, rfl, h1, h2, h3⟩
    · rw [h2]
      have hl : Logs1 (.ok (mss.flatten, t) : P (List Relationship)) (· = mss.flatten) (fun _ => True) :=
        ⟨fun fs => ⟨fun ⟨t, h⟩ => (by cases h; rfl), fun h => ⟨t, by rw [h]⟩⟩, fun _ _ => trivial⟩
      rw [orRaiseIn_said hl (hard_ok _)]
      constructor
      · rintro ⟨_, rfl, hw⟩; exact .inr ⟨mss, h1, hw⟩
      · rintro (⟨l1, o, l2, mss', m, rfl, h3, h4, _⟩ | ⟨mss', h3, hw⟩)
        · obtain ⟨b, hb⟩ := all2_split h1
          exact absurd hb (stops_not h4 b)
        · rw [all2_unique (R := object fun o => pairs o s%"hasFiles") (fun _ _ _ => pairs_unique) h3 h1] at hw
          exact ⟨_, rfl, hw⟩
    · rw [h3]
      have : said (P.orRaiseIn s%"package contains relationships" (.error (.type m) : P (List Relationship))) = some [.text m] := rfl
      rw [this]
      constructor
      · intro h; cases h; exact .inl ⟨l1, o, l2, mss, _, rfl, h1, h2, rfl⟩
      · rintro (⟨l1', o', l2', mss', m', he, h4, h5, rfl⟩ | ⟨mss', h4, hw⟩)
        · have := all2_stop h1 h4 (stops_not h2) (stops_not h5) he
          cases this
          rw [stops_unique h2 h5]
        · obtain ⟨b, hb⟩ := all2_split h4
          exact absurd hb (stops_not h2 b)
    · rw [h3]
      have : said (P.orRaiseIn s%"package contains relationships" (.error (.other m) : P (List Relationship))) = none := rfl
      rw [this]
      have hno : ∀ b, ¬ object (fun o => pairs o s%"hasFiles") v b := by rintro b ⟨o, rfl, _⟩; exact h2 o rfl
      refine ⟨fun h => (by cases h), ?_⟩
      rintro (⟨l1', o', l2', mss', m', he, h4, h5, rfl⟩ | ⟨mss', h4, hw⟩)
      · have := all2_stop h1 h4 hno (stops_not h5) he
        exact absurd this (h2 o')
      · obtain ⟨b, hb⟩ := all2_split h4
        exact absurd hb (hno b)
  rw [iter_said hG]
  constructor
  · rintro (⟨l, hl, ⟨l1, o, l2, mss, m, rfl, h1, h2, rfl⟩ | ⟨mss, h1, hw⟩⟩ | ⟨hn, rfl⟩)
    · exact .stopped hl h1 h2
    · exact .all ⟨l, mss, hl, h1, rfl⟩ hw
    · exact .noItems hn
  · intro h
    cases h with
    | noItems hn => exact .inr ⟨hn, rfl⟩
    | stopped hl h1 h2 => exact .inl ⟨_, hl, .inl ⟨_, _, _, _, _, rfl, h1, h2, rfl⟩⟩
    | all hi hw =>
      obtain ⟨l, mss, hl, h1, rfl⟩ := hi
      exact .inl ⟨_, hl, .inr ⟨_, h1, hw⟩⟩

theorem tells_contains (ex : List Relationship) : Tells (parseHasFiles ex) (fun v a => parseHasFiles ex v = .ok a) aboutContains where
  reads := reads_self fun _ => ne_bind (ne_quiet (quiet_iter _)) fun _ => ne_orRaiseIn (quietP_hasFilesLoop _ _)
  iff := said_contains ex

theorem tells_describes (id : Json) (ex : List Relationship) (ds : List Json) :
    Tells (fun _ => parseDocumentDescribes id ex ds) (fun _ a => parseDocumentDescribes id ex ds = .ok a)
      (fun _ ms => wrap s%"document describes relationships" (implicitLoop ex id .DESCRIBES ds).1 ms) where
  reads := reads_self fun _ => ne_orRaiseIn fun ms h => by cases h
  iff _ ms := by
    unfold parseDocumentDescribes
    have hl : Logs1 (.ok (implicitLoop ex id .DESCRIBES ds) : P (List Relationship)) (· = (implicitLoop ex id .DESCRIBES ds).1) (fun _ => True) :=
      ⟨fun fs => ⟨fun ⟨t, h⟩ => (Prod.mk.inj (Except.ok.inj h).symm).1, fun h => ⟨(implicitLoop ex id .DESCRIBES ds).2, by subst h; rfl⟩⟩, fun _ _ => trivial⟩
    rw [orRaiseIn_said hl (hard_ok _)]
    exact ⟨fun ⟨_, h, hw⟩ => h ▸ hw, fun h => ⟨_, rfl, h⟩⟩

theorem told_relationships (o : Obj) (ms : List PMsg) : told (parseAllRelationships (.obj o)) = some ms ↔ aboutRelationships o ms := by
  unfold parseAllRelationships aboutRelationships
  refine orRaise_told (K := fun _ => True) ?_ ?_ ms
  rotate_left
  · exact (quietP_bind (quietP_lift (quiet_get _ _ _)) fun _ => quietP_bind (quietP_field _ _) fun _ =>
    quietP_bind (quietP_lift (quiet_bind (quiet_get _ _ _) fun _ => quiet_deleteDuplicates _)) fun _ =>
    quietP_bind (quietP_lift (quiet_get _ _ _)) fun _ => quietP_bind (quietP_field _ _) fun _ =>
    quietP_bind (quietP_lift (quiet_get _ _ _)) fun _ => quietP_bind (quietP_field _ _) fun _ => quietP_pure _)
  simp only [get_obj, getD_obj, lift_bind]
  refine logs_cons (logs_fieldD (tells_list tells_relationship)) fun ex => ?_
  refine logs_entries (G := fun ds ms => wrap s%"document describes relationships" (implicitLoop (withoutComments (ex.getD [])) (valueAt o s%"SPDXID") .DESCRIBES ds).1 ms)
    (K1 := fun _ => True) (fun ds => ?_) (fun ms => ?_) fun describes => ?_
  · refine logs1_mono (logs1_congr (logs_field (tells_describes _ _ ds)) fun ms => ?_) fun _ _ => trivial
    unfold orBlank
    cases ds with
    | nil =>
      exact ⟨fun h => h.elim (fun h => wrap_nil.2 h.2) (·.2), fun h => .inl ⟨(JsonSays.blank_iff _).2 (by decide), wrap_nil.1 h⟩⟩
    | cons d ds =>
      have hb : ¬ Blank (.arr (d :: ds)) := fun h => (JsonSays.blank_iff _).1 h rfl
      exact ⟨fun h => h.elim (fun h => absurd h.1 hb) (·.2), fun h => .inr ⟨hb, h⟩⟩
  · unfold aboutDescribes
    constructor
    · rintro ⟨fs, hp, hw⟩
      obtain ⟨ds, hd, rfl⟩ := (logs_pairs (ex := withoutComments (ex.getD [])) (t := .DESCRIBES) _).1 hp
      exact ⟨ds, hd, hw⟩
    · rintro ⟨ds, hd, hw⟩
      exact ⟨_, (logs_pairs (ex := withoutComments (ex.getD [])) (t := .DESCRIBES) _).2 ⟨ds, hd, rfl⟩, hw⟩
  · refine logs_cons (logs_fieldD (tells_contains _)) fun _ => ?_
    apply logs_pure
    intros; trivial

/-! ### The document -/

theorem part_logs {α : Type} {x : Py α} {F : List PMsg → Prop} (h : ∀ ms, told x = some ms ↔ F ms) (ne : NE x) : Logs1 (part x) F (fun t => ∃ a, t = some a) where
  iff fs := by
    rw [← h]
    match x with
    | .ok a => exact ⟨fun ⟨t, h⟩ => (by cases h; rfl), fun h => (by cases h; exact ⟨_, rfl⟩)⟩
    | .error (.parsing ms) => exact ⟨fun ⟨t, h⟩ => (by cases h; rfl), fun h => (by cases h; exact ⟨_, rfl⟩)⟩
    | .error (.type m) => exact ⟨fun ⟨t, h⟩ => (by cases h), fun h => (by cases h)⟩
    | .error (.value m) => exact ⟨fun ⟨t, h⟩ => (by cases h), fun h => (by cases h)⟩
    | .error (.other m) => exact ⟨fun ⟨t, h⟩ => (by cases h), fun h => (by cases h)⟩
  val t ht := by
    obtain ⟨a, _, rfl⟩ := (part_iff ne).1 ht
    exact ⟨a, rfl⟩

theorem optPart_logs {α : Type} {m : Json → Py α} {A : About} {v : Json} (h : ∀ ms, told (m v) = some ms ↔ A v ms) (ne : NE (m v)) :
    Logs1 (optPart v m) (orBlank A v) (fun _ => True) := by
  by_cases ht : v.truthy = true
  · have hb : ¬ Blank v := fun h => (JsonSays.blank_iff _).1 h ht
    have e : optPart v m = part (m v) := if_pos ht
    rw [e]
    refine logs1_mono (logs1_congr (part_logs h ne) fun ms => ?_) fun _ _ => trivial
    exact ⟨fun h => .inr ⟨hb, h⟩, fun h => h.elim (fun h => absurd h.1 hb) (·.2)⟩
  · have hb : Blank v := (JsonSays.blank_iff _).2 ht
    have e : optPart v m = .ok ([], none) := if_neg ht
    rw [e]
    refine ⟨fun fs => ⟨fun ⟨t, h⟩ => (by cases h; exact .inl ⟨hb, rfl⟩), ?_⟩, fun _ _ => trivial⟩
    rintro (⟨_, rfl⟩ | ⟨h, _⟩)
    · exact ⟨none, rfl⟩
    · exact absurd hb h

/-- A part that looks at the document itself. -/
theorem optPart_self {α : Type} {m : Json → Py α} {F : Obj → List PMsg → Prop} (h : ∀ o ms, told (m (.obj o)) = some ms ↔ F o ms) (ne : ∀ v, NE (m v))
    (empty : told (m (.obj [])) = some []) (o : Obj) : Logs1 (optPart (.obj o) m) (F o) (fun _ => True) := by
  cases o with
  | nil =>
    have e : optPart (.obj []) m = .ok ([], none) := rfl
    rw [e]
    refine ⟨fun fs => ?_, fun _ _ => trivial⟩
    rw [← h, empty]
    exact ⟨fun ⟨t, h⟩ => (by cases h; rfl), fun h => (by cases h; exact ⟨none, rfl⟩)⟩
  | cons x o =>
    have e : optPart (.obj (x :: o)) m = part (m (.obj (x :: o))) := rfl
    rw [e]
    exact logs1_mono (part_logs (h _) (ne _)) fun _ _ => trivial

theorem iter_told {α : Type} {g : List Json → Py α} {v : Json} {G : List Json → List PMsg → Prop} (h : ∀ l ms, told (g l) = some ms ↔ G l ms) (ms : List PMsg) :
    told (pyIter v >>= g) = some ms ↔ ∃ l, Items v l ∧ G l ms := by
  cases hi : pyIter v with
  | ok l =>
    have hl := JsonSays.iter_iff.1 hi
    rw [JsonCrash.ok_bind, h]
    exact ⟨fun h => ⟨l, hl, h⟩, fun ⟨l', hl', h⟩ => (by rw [items_unique hl hl']; exact h)⟩
  | error e =>
    have he : e = .type s%"not iterable" := by cases v <;> cases hi <;> rfl
    subst he
    refine ⟨fun h => (by cases h), fun ⟨l, hl, _⟩ => ?_⟩
    rw [JsonSays.iter_iff.2 hl] at hi; cases hi

theorem told_list {α : Type} {m : Json → Py α} {R : Json → α → Prop} {A : About} (t : Tells m R A) (v : Json) (ms : List PMsg) :
    told (parseList m v) = some ms ↔ items A v ms := by
  unfold parseList
  rw [iter_told (G := fun l ms => ∃ mss, All2 A l mss ∧ ms = mss.flatten) fun l ms => orRaise_told (collect_said t l) (quietP_collect m l) ms]
  exact ⟨fun ⟨l, h1, mss, h2⟩ => ⟨l, mss, h1, h2⟩, fun ⟨l, mss, h1, h2⟩ => ⟨l, h1, mss, h2⟩⟩

theorem told_packages (L : LicText) (v : Json) (ms : List PMsg) : told (parsePackages L v) = some ms ↔ items (object (aboutPackageEntry L)) v ms := by
  unfold parsePackages
  rw [iter_told fun l ms => orRaise_told (logs_packages L l) (quietP_collectPackages L l) ms]
  exact ⟨fun ⟨l, h1, mss, h2⟩ => ⟨l, mss, h1, h2⟩, fun ⟨l, mss, h1, h2⟩ => ⟨l, h1, mss, h2⟩⟩

/-- Faults that are said as such, or not at all. -/
def Soft {α : Type} (x : Py α) : Prop := told x = said x

theorem soft_raise {α β : Type} {p : P α} {f : α → Py β} {w : Str} (hh : Hard p) (hf : ∀ a, Soft (f a)) : Soft (p.orRaiseIn w >>= f) := by
  match p, hh with
  | .error e, hh =>
    have := hh e rfl
    cases e with
    | other m => rfl
    | _ => cases this
  | .ok ([], a), _ => exact hf a
  | .ok (m :: fs, a), _ => rfl

theorem soft_construct {α : Type} {cls : Str} {c : Check α} : Soft (construct cls c) := by
  cases c <;> rfl

theorem told_creationInfo (o : Obj) (ms : List PMsg) : told (parseCreationInfo (.obj o)) = some ms ↔ aboutCreationInfo o ms := by
  cases hc : valueAt o s%"creationInfo" with
  | null =>
    have : parseCreationInfo (.obj o) = .error (.parsing [.wrapped s%"document" [.text s%"CreationInfo does not exist."]]) := by
      unfold parseCreationInfo
      simp only [get_obj, py_bind_ok, hc]; rfl
    rw [this]
    constructor
    · intro h; cases h; exact .missing hc
    · intro h
      cases h with
      | missing => rfl
      | given h => rw [hc] at h; cases h
  | obj i =>
    have soft : Soft (parseCreationInfo (.obj o)) := by
      unfold parseCreationInfo
      simp only [get_obj, py_bind_ok, hc]
      rw [if_neg (by simp)]
      simp only [lift_bind]
      exact soft_raise (by hard) fun _ => soft_construct
    rw [soft, said_creationInfo o i hc]
    constructor
    · exact .given hc
    · intro h
      cases h with
      | missing h => rw [hc] at h; cases h
      | given h h' => rw [hc] at h; cases h; exact h'
  | _ =>
    have : told (parseCreationInfo (.obj o)) = none := by
      unfold parseCreationInfo
      simp only [get_obj, py_bind_ok, hc]; rfl
    rw [this]
    refine ⟨fun h => (by cases h), fun h => ?_⟩
    cases h with
    | missing h => rw [hc] at h; cases h
    | given h => rw [hc] at h; cases h

theorem construct_told {α β : Type} {p : P α} {f : α → Py β} {F : List PMsg → Prop} {K : α → Prop} (h : Logs1 p F K) (hq : QuietP p)
    (hf : ∀ t, K t → ∃ b, f t = .ok b) (ms : List PMsg) : told (p.orRaise >>= f) = some ms ↔ F ms := by
  rw [← orRaise_told h hq]
  match p, h, hq with
  | .error e, _, hq => cases e <;> exact Iff.rfl
  | .ok ([], a), h, _ =>
    obtain ⟨b, hb⟩ := hf a (h.val a rfl)
    have e : (P.orRaise (.ok ([], a) : P α) >>= f) = f a := rfl
    rw [e, hb]; rfl
  | .ok (m :: fs, a), _, _ => rfl

theorem told_document (L : LicText) (o : Obj) (ms : List PMsg) : told (parseDocument L (.obj o)) = some ms ↔ aboutDocument L o ms := by
  unfold parseDocument aboutDocument
  simp only [get_obj, lift_bind]
  refine construct_told (K := fun t => ∃ a, t.1 = some a) ?_ ?_ ?_ ms
  · refine logs_cons (part_logs (told_creationInfo o) (ne_creationInfo (.obj o))) fun info => ?_
    refine logs_cons (optPart_logs (told_packages L (valueAt o s%"packages")) ((reads_packages L).ne _)) fun packages => ?_
    refine logs_cons (optPart_logs (told_list (tells_file L) (valueAt o s%"files")) ((tells_list (tells_file L)).reads.ne _)) fun files => ?_
    refine logs_cons (optPart_self told_annotations ne_allAnnotations rfl o) fun annotations => ?_
    refine logs_cons (optPart_logs (told_list (tells_snippet L) (valueAt o s%"snippets")) ((tells_list (tells_snippet L)).reads.ne _)) fun snippets => ?_
    refine logs_cons (optPart_self told_relationships ne_allRelationships rfl o) fun relationships => ?_
    refine logs_cons (optPart_logs (told_list tells_extracted (valueAt o s%"hasExtractedLicensingInfos")) ((tells_list tells_extracted).reads.ne _)) fun extracted => ?_
    apply logs_pure
    intros
    assumption
  · exact quietP_bind (quietP_part _) fun _ => quietP_bind (quietP_optPart _ _) fun _ => quietP_bind (quietP_optPart _ _) fun _ =>
      quietP_bind (quietP_optPart _ _) fun _ => quietP_bind (quietP_optPart _ _) fun _ => quietP_bind (quietP_optPart _ _) fun _ =>
      quietP_bind (quietP_optPart _ _) fun _ => quietP_pure _
  · rintro ⟨_, packages, files, annotations, snippets, relationships, extracted⟩ ⟨a, rfl⟩
    exact ⟨_, document_made a _ _ _ _ _ _⟩

end Spdx.JsonSaying
