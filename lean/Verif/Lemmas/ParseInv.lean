import Verif.Lemmas.Report
import Verif.Lemmas.JsonParse
/- What follows from the success of a parser function. -/
namespace Spdx

theorem pbind_ok_nil {x : P α} {f : α → P β} {b : β} : (x >>= f) = .ok ([], b) ↔ ∃ a, x = .ok ([], a) ∧ f a = .ok ([], b) := by
  constructor
  · intro h
    change P.bind x f = _ at h
    match x, h with
    | .error e, h => cases h
    | .ok (ms, a), h =>
      change (match f a with
        | .error e => .error e
        | .ok (ms'', b) => .ok (ms ++ ms'', b) : P β) = _ at h
      match hf : f a, h with
      | .error e, h => cases h
      | .ok (ms', b'), h =>
        have h := Except.ok.inj h
        simp only [Prod.mk.injEq, List.append_eq_nil_iff] at h
        obtain ⟨⟨rfl, rfl⟩, rfl⟩ := h
        exact ⟨a, rfl, hf⟩
  · rintro ⟨a, rfl, h⟩
    show P.bind (.ok ([], a)) f = _
    simp only [P.bind, h, List.append_nil]
    rfl

theorem py_bind_inv {x : Py α} {f : α → Py β} {b : β} (h : (x >>= f) = .ok b) : ∃ a, x = .ok a ∧ f a = .ok b := by
  cases x with
  | error e => cases h
  | ok a => exact ⟨a, rfl, h⟩

theorem ok_orRaise {p : P α} {a : α} (h : p.orRaise = .ok a) : p = .ok ([], a) := by
  match p, h with
  | .ok ([], b), h => cases h; rfl

theorem orRaise_ne_empty {p : P α} (q : QuietP p) : p.orRaise ≠ .error (.parsing []) := by
  match p, q with
  | .error e, q => intro h; cases h; exact q _ rfl
  | .ok ([], a), _ => intro h; cases h
  | .ok (x :: ms, a), _ => intro h; cases h

theorem orRaiseIn_ne_empty {p : P α} {w : Str} (q : QuietP p) : p.orRaiseIn w ≠ .error (.parsing []) := by
  match p, q with
  | .error e, q => intro h; cases h; exact q _ rfl
  | .ok ([], a), _ => intro h; cases h
  | .ok (x :: ms, a), _ => intro h; cases h

theorem ok_part {x : Py α} {o : Option α} (h : part x = .ok ([], o)) (hx : x ≠ .error (.parsing [])) :
    ∃ a, x = .ok a ∧ o = some a := by
  match x, h, hx with
  | .ok a, h, _ => cases h; exact ⟨a, rfl, rfl⟩
  | .error (.parsing ms), h, hx => cases h; exact absurd rfl hx

theorem ok_optPart {j : Json} {f : Json → Py α} {o : Option α} (h : optPart j f = .ok ([], o)) (hx : f j ≠ .error (.parsing [])) :
    if j.truthy then ∃ a, f j = .ok a ∧ o = some a else o = none := by
  by_cases ht : j.truthy = true
  · rw [show optPart j f = part (f j) from if_pos ht] at h
    rw [if_pos ht]; exact ok_part h hx
  · rw [show optPart j f = pure none from if_neg ht] at h
    rw [if_neg ht]; cases h; rfl

theorem ok_lift {x : Py α} {a : α} (h : Py.lift x = .ok ([], a)) : x = .ok a := by
  match x, h with
  | .ok b, h => cases h; rfl

theorem ok_collect {f : Json → Py α} {l : List Json} {xs : List α} (h : collect f l = .ok ([], xs)) (hf : ∀ j, f j ≠ .error (.parsing [])) :
    l.map f = xs.map .ok := by
  induction l generalizing xs with
  | nil => cases h; rfl
  | cons j l ih =>
    unfold collect at h
    cases hj : f j with
    | ok a =>
      cases hc : collect f l with
      | error e => rw [hj, hc] at h; cases h
      | ok r =>
        obtain ⟨ms, as⟩ := r
        rw [hj, hc] at h
        cases h
        simp [hj, ih hc]
    | error e =>
      cases hl : e.logged with
      | none => rw [hj] at h; simp only [hl] at h; cases h
      | some ms' =>
        cases hc : collect f l with
        | error e => rw [hj, hc] at h; simp only [hl] at h; cases h
        | ok r =>
          obtain ⟨ms, as⟩ := r
          rw [hj, hc] at h
          simp only [hl] at h
          have h := congrArg Prod.fst (Except.ok.inj h)
          simp only [List.append_eq_nil_iff] at h
          obtain ⟨rfl, rfl⟩ := h
          cases e <;> simp [PyErr.logged] at hl
          subst hl
          exact absurd hj (hf j)

/-- Raises no parsing error without messages. -/
def NE (x : Py α) : Prop := x ≠ .error (.parsing [])
theorem ne_quiet {x : Py α} (h : Quiet x) : NE x := h []
theorem ne_bind {x : Py α} {f : α → Py β} (h : NE x) (hf : ∀ a, NE (f a)) : NE (x >>= f) := by
  cases x with
  | error e => intro h'; exact h (by cases h'; rfl)
  | ok a => exact hf a
theorem ne_construct (cls : Str) (c : Check α) : NE (construct cls c) := by
  match c with
  | .ok a => intro h; cases h
  | .error e => intro h; cases h
theorem ne_orRaise {p : P α} (q : QuietP p) : NE p.orRaise := orRaise_ne_empty q
theorem ne_orRaiseIn {p : P α} {w : Str} (q : QuietP p) : NE (p.orRaiseIn w) := orRaiseIn_ne_empty q

macro "has_messages" : tactic => `(tactic| (repeat' (first
  | exact ne_quiet (quiet_get _ _ _) | exact ne_construct _ _ | refine ne_orRaiseIn ?_ | refine ne_orRaise ?_
  | refine ne_bind ?_ fun _ => ?_)) <;> quiet)

theorem ne_package (L : LicText) (j : Json) : NE (parsePackage L j) := by unfold parsePackage pyGet; has_messages
theorem ne_file (L : LicText) (j : Json) : NE (parseFile L j) := by unfold parseFile pyGet; has_messages
theorem ne_snippet (L : LicText) (j : Json) : NE (parseSnippet L j) := by unfold parseSnippet pyGet; has_messages
theorem ne_extracted (j : Json) : NE (parseExtracted j) := by unfold parseExtracted pyGet; has_messages
theorem ne_relationship (j : Json) : NE (parseRelationship j) := by unfold parseRelationship pyGet; has_messages
theorem ne_annotation (i j : Json) : NE (parseAnnotation i j) := by unfold parseAnnotation pyGet; has_messages
theorem ne_creationInfo (j : Json) : NE (parseCreationInfo j) := by
  unfold parseCreationInfo pyGet
  repeat' (first | exact ne_quiet (quiet_get _ _ _) | refine ne_bind ?_ fun _ => ?_)
  split
  · intro h; cases h
  · has_messages

theorem ok_parseList {f : Json → Py α} {l : List Json} {xs : List α} (h : parseList f (.arr l) = .ok xs)
    (hf : ∀ j, NE (f j)) : l.map f = xs.map .ok :=
  ok_collect (ok_orRaise h) hf

theorem ok_collectPackages {L : LicText} {l : List Json} {xs : List Package} (h : collectPackages L l = .ok ([], xs)) :
    l.map (parsePackage L) = xs.map .ok := by
  induction l generalizing xs with
  | nil => cases h; rfl
  | cons j l ih =>
    unfold collectPackages at h
    cases hj : parsePackage L j with
    | ok a =>
      cases hc : collectPackages L l with
      | error e => rw [hj, hc] at h; cases h
      | ok r =>
        obtain ⟨ms, as⟩ := r
        rw [hj, hc] at h
        have h := Except.ok.inj h
        simp only [Prod.mk.injEq, List.append_eq_nil_iff] at h
        obtain ⟨⟨_, rfl⟩, rfl⟩ := h
        simp [hj, ih hc]
    | error e =>
      cases hl : e.logged with
      | none => rw [hj] at h; simp only [hl] at h; cases h
      | some ms' =>
        cases hc : collectPackages L l with
        | error e => rw [hj, hc] at h; simp only [hl] at h; cases h
        | ok r =>
          obtain ⟨ms, as⟩ := r
          rw [hj, hc] at h
          simp only [hl] at h
          have h := congrArg Prod.fst (Except.ok.inj h)
          simp only [List.append_eq_nil_iff] at h
          obtain ⟨⟨_, rfl⟩, rfl⟩ := h
          cases e <;> simp [PyErr.logged] at hl
          subst hl
          exact absurd hj (ne_package L j)


end Spdx
