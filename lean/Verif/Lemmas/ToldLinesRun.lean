import Verif.Lemmas.ToldLinesStep
import Verif.Lemmas.TagValueToldRun
/- All attributes: the reader with line numbers and the reader without them. -/
namespace Spdx.Told
open Spdx Spec
section
variable {L : LicText} {n : Nat} {e t s t' s' : TvState}

/-- Results that are the same but for the line numbers. -/
def Same (x : Py Document) (y : Py Document) : Prop := y = x.mapError errWithoutLines

theorem run_same (as : List (TvAttr × Nat)) : ∀ t : TvState,
    (∃ t', t.runAt L as = .ok t' ∧ (bare t).run L (as.map (·.1)) = .ok (bare t')) ∨
    (∃ x, t.runAt L as = .error x ∧ (bare t).run L (as.map (·.1)) = .error x ∧ errWithoutLines x = x) := by
  induction as with
  | nil => intro t; exact .inl ⟨t, rfl, rfl⟩
  | cons p as ih =>
    obtain ⟨a, n⟩ := p
    intro t
    have h := says_step (L := L) (n := n) (t := t) a
    rw [List.map_cons, TvState.runAt, TvState.run]
    dsimp only
    revert h
    generalize t.stepAt L n a = A
    generalize (bare t).step L a = B
    intro h
    cases A with
    | ok A => cases B with
      | ok B =>
        have hb : bare A = B := Says.erase h
        subst hb
        exact ih A
      | error y => exact False.elim h
    | error x => cases B with
      | ok B => exact False.elim h
      | error y =>
        obtain ⟨rfl, h⟩ := (h : _ ∧ _)
        exact .inr ⟨x, rfl, rfl, h⟩

theorem result_same (t : TvState) : Same t.result (bare t).result := by
  unfold Same TvState.result
  rw [← bare_finish]
  generalize t.finish = u
  have hl : (bare u).log ++ (if (bare u).infoLog = [] then [] else [PMsg.wrapped s%"CreationInfo" (bare u).infoLog]) =
      (u.log ++ (if u.infoLog = [] then [] else [PMsg.wrapped s%"CreationInfo" u.infoLog])).map withoutLines := by
    rw [List.map_append]
    congr 1
    by_cases h : u.infoLog = []
    · rw [if_pos h, if_pos (by simp [bare, h])]; rfl
    · rw [if_neg h, if_neg (by simpa [bare] using h)]
      simp [bare, withoutLines, all_eq]
  dsimp only
  rw [hl]
  generalize u.log ++ (if u.infoLog = [] then [] else [PMsg.wrapped s%"CreationInfo" u.infoLog]) = ms
  by_cases h : ms = []
  · subst h
    rw [if_neg (by simp), if_neg (by simp)]
    have hi : (bare u).info = u.info := rfl
    rw [hi]
    unfold construct
    cases mkInfo u.info with
    | ok c => rfl
    | error x => rfl
  · rw [if_pos h, if_pos (by simpa using h)]
    rfl

theorem build_quiet (c : TvClass) (h : t.elemLog = []) : ∃ D, (t.build c).log = t.log ++ D ∧ ((bare t).build c).log = (bare t).log ++ D := by
  unfold TvState.build
  have hd : (bare t).elem = t.elem := rfl
  rw [hd, if_neg (not_not_intro h), if_neg (not_not_intro (by simp [bare, h]))]
  cases c
  case file =>
    dsimp only
    cases mkFile t.elem with
    | error x => exact ⟨_, rfl, rfl⟩
    | ok f =>
      unfold TvState.addContains
      have hp : (bare t).packages = t.packages := rfl
      have hr : (bare t).relationships = t.relationships := rfl
      dsimp only
      rw [hp, hr]
      cases t.packages with
      | none => exact ⟨[], (List.append_nil _).symm, (List.append_nil _).symm⟩
      | some ps =>
        dsimp only
        cases ps.getLast? with
        | none => exact ⟨_, rfl, rfl⟩
        | some p =>
          dsimp only
          split
          · exact ⟨[], (List.append_nil _).symm, (List.append_nil _).symm⟩
          · exact ⟨[], (List.append_nil _).symm, (List.append_nil _).symm⟩
  case package =>
    dsimp only
    cases mkPackage t.elem with
    | error x => exact ⟨_, rfl, rfl⟩
    | ok f => exact ⟨[], (List.append_nil _).symm, (List.append_nil _).symm⟩
  case snippet =>
    dsimp only
    cases mkSnippet t.elem with
    | error x => exact ⟨_, rfl, rfl⟩
    | ok f => exact ⟨[], (List.append_nil _).symm, (List.append_nil _).symm⟩
  case annotation =>
    dsimp only
    cases mkAnnotation t.elem with
    | error x => exact ⟨_, rfl, rfl⟩
    | ok f => exact ⟨[], (List.append_nil _).symm, (List.append_nil _).symm⟩
  case relationship =>
    dsimp only
    cases mkRelationship t.elem with
    | error x => exact ⟨_, rfl, rfl⟩
    | ok f => exact ⟨[], (List.append_nil _).symm, (List.append_nil _).symm⟩
  case extracted =>
    dsimp only
    cases mkExtracted t.elem with
    | error x => exact ⟨_, rfl, rfl⟩
    | ok f => exact ⟨[], (List.append_nil _).symm, (List.append_nil _).symm⟩

theorem build_infoLog (c : TvClass) : (t.build c).infoLog = t.infoLog := by
  unfold TvState.build
  split
  · rfl
  · split
    · split
      · unfold TvState.addContains
        split
        · rfl
        · split
          · rfl
          · split <;> rfl
      · rfl
    all_goals split <;> rfl

/-! ### The specification, one attribute more -/

theorem lastFrom_snoc (as : List (TvAttr × Nat)) (a : TvAttr) (n : Nat) : ∀ (pre : List TvAttr) (b : List (Spec.Place × Nat)),
    lastFrom pre b (as ++ [(a, n)]) =
      (if (opens a).isSome ∧ (current (pre ++ as.map (·.1))).isSome then [] else lastFrom pre b as) ++ [(⟨pre ++ as.map (·.1), a⟩, n)] := by
  induction as with
  | nil => intro pre b; simp [lastFrom]
  | cons p as ih =>
    intro pre b
    obtain ⟨x, k⟩ := p
    rw [List.cons_append, lastFrom, ih, lastFrom]
    simp

/-- The part of the attributes that stays when the next one comes. -/
def kept (pre : List (TvAttr × Nat)) (a : TvAttr) : List (Spec.Place × Nat) :=
  if (opens a).isSome ∧ (current (pre.map (·.1))).isSome then [] else lastLines pre

theorem last_snoc (pre : List (TvAttr × Nat)) (a : TvAttr) (n : Nat) :
    lastLines (pre ++ [(a, n)]) = kept pre a ++ [(⟨pre.map (·.1), a⟩, n)] := by
  unfold lastLines kept
  rw [lastFrom_snoc]
  simp [lastLines]

theorem opened_last (P : Sections) (pre : List TvAttr) (a : TvAttr) :
    (P.opened pre a).last = if (opens a).isSome ∧ (current pre).isSome then [] else P.last := by
  unfold Sections.opened
  cases opens a with
  | none => rfl
  | some c => cases current pre with
    | none => rfl
    | some c => rfl

theorem lastFrom_fst (as : List (TvAttr × Nat)) : ∀ (pre : List TvAttr) (b : List (Spec.Place × Nat)) (P : Sections), b.map (·.1) = P.last →
    (lastFrom pre b as).map (·.1) = (partsFrom pre P (as.map (·.1))).last := by
  induction as with
  | nil => intro pre b P h; exact h
  | cons p as ih =>
    intro pre b P h
    obtain ⟨a, n⟩ := p
    rw [lastFrom, List.map_cons, partsFrom]
    refine ih _ _ _ ?_
    unfold Sections.add
    dsimp only
    rw [opened_last, List.map_append]
    congr 1
    split
    · rfl
    · exact h

theorem last_fst (pre : List (TvAttr × Nat)) : (lastLines pre).map (·.1) = (parts (pre.map (·.1))).last := lastFrom_fst pre [] [] {} rfl

theorem kept_fst (pre : List (TvAttr × Nat)) (a : TvAttr) :
    (kept pre a).map (·.1) = ((parts (pre.map (·.1))).opened (pre.map (·.1)) a).last := by
  rw [opened_last, ← last_fst]
  unfold kept
  split <;> rfl

theorem lined_snoc (b : List (Spec.Place × Nat)) (p : Spec.Place) (n : Nat) : ∀ earlier : List Spec.Place,
    linedFrom L earlier (b ++ [(p, n)]) = linedFrom L earlier b ++ (p.complaints L (earlier ++ b.map (·.1))).map (onLine n) := by
  induction b with
  | nil => intro earlier; simp [linedFrom]
  | cons q b ih =>
    intro earlier
    obtain ⟨q, k⟩ := q
    rw [List.cons_append, linedFrom, ih, linedFrom]
    simp

theorem infoLined_snoc (as : List (TvAttr × Nat)) (a : TvAttr) (n : Nat) : ∀ pre : List TvAttr,
    infoLinedFrom pre (as ++ [(a, n)]) = infoLinedFrom pre as ++ (infoComplaints (pre ++ as.map (·.1)) a).map (onLine n) := by
  induction as with
  | nil => intro pre; simp [infoLinedFrom]
  | cons p as ih =>
    intro pre
    obtain ⟨x, k⟩ := p
    rw [List.cons_append, infoLinedFrom, ih, infoLinedFrom]
    simp

/-! ### The state of the reader with line numbers -/

/-- After the attributes `pre`. -/
structure Lined (L : LicText) (pre : List (TvAttr × Nat)) (t : TvState) : Prop where
  plain : Inv L (current (pre.map (·.1))) (parts (pre.map (·.1))) (pre.map (·.1)) (bare t)
  elemLog : t.elemLog = linedFrom L [] (lastLines pre)
  infoLog : t.infoLog = infoLinedFrom [] pre

theorem Lined.nil : Lined L [] {} := ⟨Inv.nil, rfl, rfl⟩

variable {pre : List (TvAttr × Nat)}

theorem Lined.closing (h : Lined L pre t) : t.finish.log = t.log ++ closingLines L pre := by
  unfold closingLines TvState.finish
  have hp := h.plain
  have hcls : t.cls = current (pre.map (·.1)) := hp.cls
  rw [hcls]
  cases hc : current (pre.map (·.1)) with
  | none => exact (List.append_nil _).symm
  | some c =>
    dsimp only
    rw [← h.elemLog]
    by_cases hl : t.elemLog = []
    · rw [if_neg (not_not_intro hl)]
      rw [hc] at hp
      obtain ⟨D, h1, h2⟩ := build_quiet c hl
      rw [h1]
      have := (built hp).log
      rw [h2] at this
      have := List.append_cancel_left this
      unfold Spec.closing
      rw [hc, this]
    · rw [if_pos hl]
      unfold TvState.build
      rw [if_pos hl]

theorem finish_infoLog : t.finish.infoLog = t.infoLog := by
  unfold TvState.finish
  split
  · rfl
  · exact build_infoLog _

theorem Lined.enter (h : Lined L pre t) (a : TvAttr) :
    (t.entry a).log = t.log ++ (if (opens a).isSome then closingLines L pre else []) ∧
    (t.entry a).elemLog = linedFrom L [] (kept pre a) ∧ (t.entry a).infoLog = t.infoLog := by
  unfold TvState.entry
  rw [starts_eq]
  unfold kept
  cases ho : opens a with
  | none => exact ⟨(List.append_nil _).symm, h.elemLog, rfl⟩
  | some c =>
    refine ⟨h.closing, ?_, finish_infoLog⟩
    show t.finish.elemLog = _
    unfold TvState.finish
    have hcls : t.cls = current (pre.map (·.1)) := h.plain.cls
    rw [hcls]
    cases hc : current (pre.map (·.1)) with
    | none => exact h.elemLog
    | some c => rfl

theorem Lined.step (h : Lined L pre t) {a : TvAttr} (hf : Fine a) (n : Nat) : ∃ t', t.stepAt L n a = .ok t' ∧ Lined L (pre ++ [(a, n)]) t' ∧
    t'.log = t.log ++ (if (opens a).isSome then closingLines L pre else []) ++ (Spec.Place.misplaced ⟨pre.map (·.1), a⟩).map (onLine n) := by
  have hs := says_step (L := L) (n := n) (t := t) a
  rw [step_act (s := bare t) hf, ← bare_entry] at hs
  revert hs
  cases t.stepAt L n a with
  | error x => exact fun hs => False.elim hs
  | ok t' =>
    intro hs
    have hs : Says n (t.entry a) t' (act L (bare (t.entry a)) a) := hs
    refine ⟨t', rfl, ?_⟩
    obtain ⟨h1, _⟩ := Told.enter h.plain a
    rw [← bare_entry] at h1
    obtain ⟨h3, h4⟩ := act_inv h1 rfl hf
    obtain ⟨e1, e2, e3⟩ := h.enter a
    have hb := hs.erase
    obtain ⟨l, x, i, _, _, _, k4, k5, k6, rfl⟩ := hs
    rw [h4] at k4
    have kl := List.append_cancel_left k4
    rw [h3.elem.log, complaints_snoc, h1.elem.log] at k5
    have kx := List.append_cancel_left k5
    rw [h3.infoLog, info_snoc, h1.infoLog] at k6
    have ki := List.append_cancel_left k6
    subst kl kx ki
    refine ⟨⟨?_, ?_, ?_⟩, ?_⟩
    · rw [hb, List.map_append, List.map_cons, List.map_nil, parts_snoc]
      exact h3
    · rw [last_snoc, lined_snoc, ← e2, List.nil_append, kept_fst]
    · rw [infoLined_snoc, ← h.infoLog, ← e3]
      rfl
    · rw [← e1]

theorem run_lined (as : List (TvAttr × Nat)) : ∀ (pre : List (TvAttr × Nat)) (t : TvState), Lined L pre t → (∀ p ∈ as, Fine p.1) →
    ∃ t', t.runAt L as = .ok t' ∧ Lined L (pre ++ as) t' ∧ t'.finish.log = t.log ++ toldLinesFrom L pre as := by
  induction as with
  | nil =>
    intro pre t h _
    exact ⟨t, rfl, by rw [List.append_nil]; exact h, h.closing⟩
  | cons p as ih =>
    obtain ⟨a, n⟩ := p
    intro pre t h hf
    obtain ⟨t1, h1, h2, h3⟩ := h.step (hf (a, n) List.mem_cons_self) n
    obtain ⟨t2, h4, h5, h6⟩ := ih _ t1 h2 fun p hp => hf p (List.mem_cons_of_mem _ hp)
    refine ⟨t2, ?_, ?_, ?_⟩
    · rw [TvState.runAt, h1]; exact h4
    · rw [List.append_assoc] at h5; exact h5
    · rw [h6, h3, toldLinesFrom]
      simp only [List.append_assoc]

theorem result_lined {as : List (TvAttr × Nat)} (hf : ∀ p ∈ as, Fine p.1) : ∃ t, TvState.runAt L {} as = .ok t ∧
    ((toldLines L as = [] ∧ ∃ d, t.result = .ok d) ∨ (toldLines L as ≠ [] ∧ t.result = .error (.parsing (toldLines L as)))) := by
  obtain ⟨t, h1, h2, h3⟩ := run_lined (L := L) as [] {} Lined.nil hf
  refine ⟨t, h1, ?_⟩
  rw [List.nil_append] at h2
  have h3 : t.finish.log = toldLinesFrom L [] as := h3
  have hinfo : t.finish.infoLog = infoLinedFrom [] as := finish_infoLog.trans h2.infoLog
  have hp := h2.plain
  have hi : t.finish.info = (bare t).info := by
    have : (bare t).finish.info = (bare t).info := by
      unfold TvState.finish
      rw [hp.cls]
      cases hc : current (as.map (·.1)) with
      | none => rfl
      | some c => rw [hc] at hp; exact (built hp).info
    rw [← bare_finish] at this
    exact this
  unfold toldLines TvState.result
  dsimp only
  rw [h3, hinfo, hi]
  by_cases hm : toldLinesFrom L [] as ++ (if infoLinedFrom [] as = [] then [] else [PMsg.wrapped s%"CreationInfo" (infoLinedFrom [] as)]) = []
  · rw [if_neg (not_not_intro hm), if_neg (not_not_intro hm)]
    rcases (info_errs hp.info).split with ⟨he, x, hx⟩ | ⟨he, hx⟩
    · rw [if_pos he, hx]
      exact .inl ⟨rfl, _, rfl⟩
    · rw [if_neg he, hx]
      exact .inr ⟨by simp, rfl⟩
  · rw [if_pos hm, if_pos hm]
    exact .inr ⟨hm, rfl⟩

end
end Spdx.Told
