import Verif.Lemmas.TagValueMeaning
import Verif.Props.C03
/-
The dates that the tag-value parser stores come from `datetime_from_str`, so they have no offset.
-/
namespace Spdx.TvDates

/-- The dates among the values have no offset. -/
def Plain (d : Dict Str TvVal) : Prop := ∀ k t, d.get? k = some (.one (.date t)) → t.tz = none

def PlainPackage (p : Package) : Prop :=
  ∀ t, ((p.releaseDate = some t ∨ p.builtDate = some t) ∨ p.validUntilDate = some t) → t.tz = none

/-- No date in the state has an offset. -/
structure Naive (s : TvState) : Prop where
  info : Plain s.info
  elem : Plain s.elem
  packages : ∀ p ∈ s.packages.getD [], PlainPackage p
  annotations : ∀ a ∈ s.annotations, a.annotationDate.tz = none

/-- The item is no date with an offset. -/
def NaiveItem (x : TvItem) : Prop := ∀ t, x = .date t → t.tz = none

theorem plain_nil : Plain [] := fun _ _ h => by cases h

theorem plain_set {d : Dict Str TvVal} (h : Plain d) (k : Str) (v : TvVal) (hv : ∀ t, v = .one (.date t) → t.tz = none) : Plain (d.set k v) := by
  intro k' t e
  rw [Dict.get?_set] at e
  split at e
  · exact hv t (Option.some.inj e)
  · exact h k' t e

theorem plain_append {d : Dict Str TvVal} (h : Plain d) (k : Str) (x : TvItem) : Plain (tvAppend d k x) := by
  unfold tvAppend
  split
  · exact plain_set h _ _ fun t e => by cases e
  · exact h
  · exact plain_set h _ _ fun t e => by cases e

theorem ite_inv {α : Type} {p : Prop} [Decidable p] {a b x : α} (e : (if p then a else b) = x) : a = x ∨ b = x := by
  split at e
  · exact .inl e
  · exact .inr e

theorem req_date {d : Dict Str TvVal} (h : Plain d) {k : Str} {t : DateTime} (e : tvReq TvItem.date? d k = .ok t) : t.tz = none := by
  unfold tvReq at e
  cases hd : d.get? k with
  | none => rw [hd] at e; cases e
  | some v =>
    rw [hd] at e
    cases v with
    | many l => cases e
    | one x =>
      cases x
      case date t' => cases e; exact h _ _ hd
      all_goals cases e

theorem opt_date {d : Dict Str TvVal} (h : Plain d) {k : Str} {x : Option DateTime} (e : tvOpt TvItem.date? d k = .ok x) (t : DateTime)
    (ht : x = some t) : t.tz = none := by
  subst ht
  unfold tvOpt at e
  split at e
  · cases e
  · cases e
  · rename_i x _ hx
    cases x <;> simp only [TvItem.date?] at e <;> cases e
    exact h _ _ hx
  · cases e

theorem info_date {d : Dict Str TvVal} (h : Plain d) {c : CreationInfo} (hx : mkInfo d = .ok c) : c.created.tz = none := by
  unfold mkInfo at hx
  have h11 := tvOnly_ok hx
  obtain ⟨_, _, h10, -, q11⟩ := ap_inv h11
  obtain ⟨_, _, h9, -, q10⟩ := ap_inv h10
  obtain ⟨_, _, h8, -, q9⟩ := ap_inv h9
  obtain ⟨_, _, h7, -, q8⟩ := ap_inv h8
  obtain ⟨_, _, h6, -, q7⟩ := ap_inv h7
  obtain ⟨_, _, h5, e6, q6⟩ := ap_inv h6
  obtain ⟨_, _, h4, -, q5⟩ := ap_inv h5
  obtain ⟨_, _, h3, -, q4⟩ := ap_inv h4
  obtain ⟨_, _, h2, -, q3⟩ := ap_inv h3
  obtain ⟨_, _, h1, -, q2⟩ := ap_inv h2
  obtain ⟨_, _, h0, -, q1⟩ := ap_inv h1
  cases h0
  subst q1 q2 q3 q4 q5 q6 q7 q8 q9 q10 q11
  exact req_date h e6

theorem annotation_date {d : Dict Str TvVal} (h : Plain d) {a : Annotation} (hx : mkAnnotation d = .ok a) : a.annotationDate.tz = none := by
  unfold mkAnnotation at hx
  have h5 := tvOnly_ok hx
  obtain ⟨_, _, h4, -, q5⟩ := ap_inv h5
  obtain ⟨_, _, h3, e4, q4⟩ := ap_inv h4
  obtain ⟨_, _, h2, -, q3⟩ := ap_inv h3
  obtain ⟨_, _, h1, -, q2⟩ := ap_inv h2
  obtain ⟨_, _, h0, -, q1⟩ := ap_inv h1
  cases h0
  subst q1 q2 q3 q4 q5
  exact req_date h e4

theorem package_dates {d : Dict Str TvVal} (h : Plain d) {p : Package} (hx : mkPackage d = .ok p) : PlainPackage p := by
  unfold mkPackage at hx
  have h26 := tvOnly_ok hx
  clear hx
  obtain ⟨_, _, h25, e26, q26⟩ := ap_inv h26
  obtain ⟨_, _, h24, e25, q25⟩ := ap_inv h25
  obtain ⟨_, _, h23, e24, q24⟩ := ap_inv h24
  obtain ⟨_, _, h22, -, q23⟩ := ap_inv h23
  obtain ⟨_, _, h21, -, q22⟩ := ap_inv h22
  obtain ⟨_, _, h20, -, q21⟩ := ap_inv h21
  obtain ⟨_, _, h19, -, q20⟩ := ap_inv h20
  obtain ⟨_, _, h18, -, q19⟩ := ap_inv h19
  obtain ⟨_, _, h17, -, q18⟩ := ap_inv h18
  obtain ⟨_, _, h16, -, q17⟩ := ap_inv h17
  obtain ⟨_, _, h15, -, q16⟩ := ap_inv h16
  obtain ⟨_, _, h14, -, q15⟩ := ap_inv h15
  obtain ⟨_, _, h13, -, q14⟩ := ap_inv h14
  obtain ⟨_, _, h12, -, q13⟩ := ap_inv h13
  obtain ⟨_, _, h11, -, q12⟩ := ap_inv h12
  obtain ⟨_, _, h10, -, q11⟩ := ap_inv h11
  obtain ⟨_, _, h9, -, q10⟩ := ap_inv h10
  obtain ⟨_, _, h8, -, q9⟩ := ap_inv h9
  obtain ⟨_, _, h7, -, q8⟩ := ap_inv h8
  obtain ⟨_, _, h6, -, q7⟩ := ap_inv h7
  obtain ⟨_, _, h5, -, q6⟩ := ap_inv h6
  obtain ⟨_, _, h4, -, q5⟩ := ap_inv h5
  obtain ⟨_, _, h3, -, q4⟩ := ap_inv h4
  obtain ⟨_, _, h2, -, q3⟩ := ap_inv h3
  obtain ⟨_, _, h1, -, q2⟩ := ap_inv h2
  obtain ⟨_, _, h0, -, q1⟩ := ap_inv h1
  cases h0
  subst q1 q2 q3 q4 q5 q6 q7 q8 q9 q10 q11 q12 q13 q14 q15 q16 q17 q18 q19 q20 q21 q22 q23 q24 q25 q26
  rintro t ((ht | ht) | ht)
  · exact opt_date h e24 t ht
  · exact opt_date h e25 t ht
  · exact opt_date h e26 t ht

/-! ### The steps -/

theorem naive_logElem {s : TvState} (h : Naive s) (m : PMsg) : Naive (s.logElem m) := ⟨h.info, h.elem, h.packages, h.annotations⟩
theorem naive_logInfo {s : TvState} (h : Naive s) (m : PMsg) : Naive (s.logInfo m) := ⟨h.info, h.elem, h.packages, h.annotations⟩
theorem naive_log {s : TvState} (h : Naive s) (l : List PMsg) : Naive { s with log := l } := ⟨h.info, h.elem, h.packages, h.annotations⟩
theorem naive_cls {s : TvState} (h : Naive s) (c : Option TvClass) : Naive { s with cls := c } := ⟨h.info, h.elem, h.packages, h.annotations⟩
theorem naive_set {s : TvState} (h : Naive s) (k : Str) (x : TvItem) (hx : NaiveItem x) : Naive { s with elem := s.elem.set k (.one x) } :=
  ⟨h.info, plain_set h.elem _ _ fun t e => hx t (by cases e; rfl), h.packages, h.annotations⟩
theorem naive_setInfoKey {s : TvState} (h : Naive s) (k : Str) (x : TvItem) (hx : NaiveItem x) :
    Naive { s with info := s.info.set k (.one x) } :=
  ⟨plain_set h.info _ _ fun t e => hx t (by cases e; rfl), h.elem, h.packages, h.annotations⟩
theorem naive_append {s : TvState} (h : Naive s) (k : Str) (x : TvItem) : Naive (s.appendElem k x) :=
  ⟨h.info, plain_append h.elem k x, h.packages, h.annotations⟩
theorem naive_appendInfo {s : TvState} (h : Naive s) (k : Str) (x : TvItem) : Naive (s.appendInfo k x) :=
  ⟨plain_append h.info k x, h.elem, h.packages, h.annotations⟩

theorem naive_setElem {s : TvState} (h : Naive s) (tag : Str) (v : Except PMsg TvItem) (hv : ∀ x, v = .ok x → NaiveItem x) :
    Naive (s.setElem tag v) := by
  unfold TvState.setElem
  split
  · exact naive_logElem h _
  · split
    · exact naive_set h _ _ (hv _ rfl)
    · exact naive_logElem h _

theorem naive_setInfo {s : TvState} (h : Naive s) (tag : Str) (v : Except PMsg TvItem) (hv : ∀ x, v = .ok x → NaiveItem x) :
    Naive (s.setInfo tag v) := by
  unfold TvState.setInfo
  split
  · exact naive_logInfo h _
  · split
    · exact naive_setInfoKey h _ _ (hv _ rfl)
    · exact naive_logInfo h _

theorem naive_inScope {s : TvState} (h : Naive s) (c : TvClass) (k : TvState → TvState) (hk : ∀ s, Naive s → Naive (k s)) :
    Naive (s.inScope c k) := by
  unfold TvState.inScope
  split
  · exact hk s h
  · exact naive_log h _

theorem naive_addContains {s : TvState} (h : Naive s) (f : File) : Naive (s.addContains f) := by
  unfold TvState.addContains
  repeat' split
  all_goals exact ⟨h.info, h.elem, h.packages, h.annotations⟩

theorem naive_build {s : TvState} (h : Naive s) (c : TvClass) : Naive (s.build c) := by
  unfold TvState.build
  split
  · exact naive_log h _
  · cases c
    · dsimp only
      split
      · refine naive_addContains ?_ _
        exact ⟨h.info, h.elem, h.packages, h.annotations⟩
      · exact naive_log h _
    · dsimp only
      split
      · rename_i a ha
        refine ⟨h.info, h.elem, h.packages, fun q hq => ?_⟩
        rcases List.mem_append.1 hq with hq | hq
        · exact h.annotations q hq
        · obtain rfl := List.mem_singleton.1 hq
          exact annotation_date h.elem ha
      · exact naive_log h _
    · dsimp only
      split
      all_goals exact ⟨h.info, h.elem, h.packages, h.annotations⟩
    · dsimp only
      split
      all_goals exact ⟨h.info, h.elem, h.packages, h.annotations⟩
    · dsimp only
      split
      · rename_i p hp
        refine ⟨h.info, h.elem, fun q hq => ?_, h.annotations⟩
        rcases List.mem_append.1 hq with hq | hq
        · exact h.packages q hq
        · obtain rfl := List.mem_singleton.1 hq
          exact package_dates h.elem hp
      · exact ⟨h.info, h.elem, h.packages, h.annotations⟩
    · dsimp only
      split
      all_goals exact ⟨h.info, h.elem, h.packages, h.annotations⟩

theorem naive_finish {s : TvState} (h : Naive s) : Naive s.finish := by
  unfold TvState.finish
  split
  · exact h
  · rename_i c _
    have hb := naive_build h c
    exact ⟨hb.info, plain_nil, hb.packages, hb.annotations⟩

theorem naive_start {s : TvState} (h : Naive s) (c : TvClass) : Naive (s.start c) := naive_cls (naive_finish h) _

theorem naive_logLicense {s : TvState} (h : Naive s) (m : Option PMsg) : Naive (s.logLicense m) := by
  cases m
  · exact h
  · exact naive_logElem h _

theorem item_naive {x : TvItem} (h : ∀ t, x ≠ .date t) : NaiveItem x := fun t e => absurd e (h t)

theorem naive_generic {s s' : TvState} (h : Naive s) {tag : Str} {x : TvItem} (hx : ∀ t, x ≠ .date t) (e : s.generic tag x = .ok s') :
    Naive s' := by
  unfold TvState.generic at e
  split at e
  · cases e
  · cases e
    refine naive_inScope ?_ _ _ fun s h => naive_setElem h _ _ fun y hy => by cases hy; exact item_naive hx
    split
    · exact naive_start h _
    · exact h

theorem naive_dateItem (v : Str) : ∀ x, dateItem v = .ok x → NaiveItem x := by
  intro x hx t e
  subst e
  unfold dateItem at hx
  split at hx
  · cases hx
    exact (C03.read_valid v _ (by assumption)).2.1
  · cases hx

theorem special_no_date (v : Tok) (t : DateTime) : lineOrSpecialValue v ≠ .date t := by cases v <;> simp [lineOrSpecialValue]

theorem license_no_date (L : LicText) (v : Tok) (t : DateTime) : (licenseValue L v).1 ≠ .date t := by
  unfold licenseValue
  repeat' split
  all_goals simp

theorem naive_checksum {s s' : TvState} (h : Naive s) {c : TvClass} {v : Str} (e : s.checksumAttr c v = .ok s') : Naive s' := by
  unfold TvState.checksumAttr at e
  split at e
  · split at e
    · cases e; exact naive_append h _ _
    · cases e
  · cases e; exact naive_inScope h _ _ fun s h => h

theorem naive_attr {L : LicText} {s s' : TvState} (h : Naive s) {tag : Str} {v : Tok} (e : s.attr L tag v = .ok s') : Naive s' := by
  unfold TvState.attr at e
  rcases ite_inv e with e | e
  · exact naive_generic h (by simp) e
  rcases ite_inv e with e | e
  · exact naive_generic h (special_no_date v) e
  rcases ite_inv e with e | e
  · exact naive_generic (naive_logLicense h _) (license_no_date L v) e
  rcases ite_inv e with e | e
  · split at e
    · exact naive_generic h (by simp) e
    · split at e
      · exact naive_generic h (by simp) e
      · cases e
  rcases ite_inv e with e | e
  · cases e; exact naive_setInfo h _ _ fun x hx => by cases hx; exact item_naive (by simp)
  rcases ite_inv e with e | e
  · cases e
    refine naive_setInfo h _ _ fun x hx => ?_
    split at hx <;> cases hx
    exact item_naive (by simp)
  rcases ite_inv e with e | e
  · cases e
    split
    · exact naive_appendInfo h _ _
    · exact naive_logInfo h _
  rcases ite_inv e with e | e
  · split at e
    · cases e; exact naive_appendInfo h _ _
    · cases e
  rcases ite_inv e with e | e
  · cases e; exact naive_setInfo h _ _ (naive_dateItem _)
  rcases ite_inv e with e | e
  · cases e
    refine naive_inScope h _ _ fun s h => ?_
    split
    · exact naive_append h _ _
    · exact naive_logElem h _
  rcases ite_inv e with e | e
  · exact naive_checksum h e
  rcases ite_inv e with e | e
  · exact naive_checksum h e
  rcases ite_inv e with e | e
  · cases e; exact naive_append (naive_inScope h _ _ fun s h => h) _ _
  rcases ite_inv e with e | e
  · cases e
    refine naive_inScope h _ _ fun s h => ?_
    split
    · exact naive_logElem h _
    · split
      · exact naive_set h _ _ (item_naive (by simp))
      · exact naive_logElem h _
  rcases ite_inv e with e | e
  · cases e
    refine naive_inScope h _ _ fun s h => ?_
    split
    · exact naive_logElem h _
    · split
      · exact naive_set h _ _ (item_naive (by simp))
      · split
        · exact naive_set h _ _ (item_naive (by simp))
        · exact naive_logElem h _
  rcases ite_inv e with e | e
  · cases e
    refine naive_inScope h _ _ fun s h => naive_setElem h _ _ fun x hx => ?_
    split at hx <;> cases hx
    exact item_naive (by simp)
  rcases ite_inv e with e | e
  · cases e
    exact naive_inScope h _ _ fun s h => naive_setElem h _ _ (naive_dateItem _)
  rcases ite_inv e with e | e
  · cases e
    refine naive_inScope h _ _ fun s h => ?_
    split
    · exact naive_logElem h _
    · split
      · exact naive_set h _ _ (item_naive (by simp))
      · exact naive_logElem h _
  rcases ite_inv e with e | e
  · cases e
    refine naive_setElem (naive_start h _) _ _ fun x hx => ?_
    unfold actorItem at hx
    split at hx <;> cases hx
    exact item_naive (by simp)
  rcases ite_inv e with e | e
  · cases e
    exact naive_inScope h _ _ fun s h => naive_setElem h _ _ (naive_dateItem _)
  rcases ite_inv e with e | e
  · cases e
    refine naive_inScope h _ _ fun s h => naive_setElem h _ _ fun x hx => ?_
    split at hx <;> cases hx
    exact item_naive (by simp)
  split at e
  · cases e
    exact naive_inScope h _ _ fun s h => naive_append h _ _
  split at e
  · cases e
    exact naive_inScope (naive_logLicense h _) _ _ fun s h => naive_append h _ _
  · cases e

theorem naive_bad {s s' : TvState} (h : Naive s) {tag : Str} (e : s.badAttr tag = .ok s') : Naive s' := by
  unfold TvState.badAttr at e
  split at e
  · cases e; exact naive_logInfo h _
  · split at e
    · split at e
      · cases e
      · cases e; exact naive_logElem (naive_start h _) _
    · cases e; exact naive_logElem h _

theorem naive_relationship {s : TvState} (h : Naive s) (line : Str) (c : Option Str) : Naive (s.setRelationship line c) := by
  have hr : ∀ b t, relatedItem b ≠ .date t := by
    intro b t
    unfold relatedItem
    repeat' split
    all_goals simp
  unfold TvState.setRelationship
  split
  · dsimp only
    rename_i a t b _
    have h1 : Naive (match RelationshipType.ofName? t with
      | some t => { s with elem := s.elem.set s%"relationship_type" (.one (.relationshipType t)) }
      | none => s.logElem (.invalid s%"RelationshipType" (.str t))) := by
      split
      · exact naive_set h _ _ (item_naive (by simp))
      · exact naive_logElem h _
    have h2 := naive_set (naive_set h1 s%"related_spdx_element_id" (relatedItem b) (item_naive (hr b))) s%"spdx_element_id" (.str a)
      (item_naive (by simp))
    split
    · exact naive_set h2 _ _ (item_naive (by simp))
    · exact h2
  · exact naive_logElem h _

theorem naive_step {L : LicText} {s s' : TvState} (h : Naive s) {a : TvAttr} (e : s.step L a = .ok s') : Naive s' := by
  cases a with
  | value tag v => exact naive_attr h e
  | bad tag => exact naive_bad h e
  | spdxId v =>
    simp only [TvState.step] at e
    cases e
    split
    · exact naive_set h _ _ (item_naive (by simp))
    · exact naive_setInfoKey h _ _ (item_naive (by simp))
  | unknown => cases e; exact naive_log h _
  | commented tag line c =>
    simp only [TvState.step] at e
    split at e
    · cases e; exact naive_relationship (naive_start h _) _ _
    · cases e
      refine naive_inScope h _ _ fun s h => ?_
      split
      · exact naive_append h _ _
      · exact naive_logElem h _

theorem naive_run {L : LicText} (as : List TvAttr) {s s' : TvState} (h : Naive s) (e : s.run L as = .ok s') : Naive s' := by
  induction as generalizing s with
  | nil => cases e; exact h
  | cons a as ih =>
    simp only [TvState.run] at e
    split at e
    · exact ih (naive_step h (by assumption)) e
    · cases e

/-- The dates of a document read from a tag-value text have no offset. -/
theorem read_naive {L : LicText} {text : Str} {d : Document} (h : parseTagValue L text = .ok d) :
    d.creationInfo.created.tz = none ∧ (∀ p ∈ d.packages, PlainPackage p) ∧ ∀ a ∈ d.annotations, a.annotationDate.tz = none := by
  unfold parseTagValue at h
  split at h
  · rename_i s hs
    have hn := naive_finish (naive_run _ ⟨plain_nil, plain_nil, by simp, by simp⟩ hs)
    unfold TvState.result at h
    generalize s.finish = s' at h hn
    dsimp only at h
    rcases ite_inv h with h | h
    · cases h
    · cases hm : mkInfo s'.info with
      | error e => rw [hm] at h; cases h
      | ok c =>
        rw [hm] at h
        cases h
        exact ⟨info_date hn.info hm, hn.packages, hn.annotations⟩
  · cases h

end Spdx.TvDates
