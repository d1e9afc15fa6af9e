import Verif.Lemmas.RdfReport
import Verif.Lemmas.RdfRead
import Verif.Spec.RdfCrash
/- When the RDF reader raises an exception that it does not catch. -/
namespace Spdx.RdfCrash
open Spdx Spdx.RdfReport
open Spdx.Spec.RdfSays hiding Bad

/-- The exceptions `parse_from_file` does not turn into an `SPDXParsingError`. -/
def NotParsing (e : PyErr) : Prop := ∀ ms, e ≠ .parsing ms

/-- With a logger: it raises such an exception exactly if `Q`, and goes on exactly if `R`. -/
structure Out {α : Type} (x : P α) (Q R : Prop) : Prop where
  crash : (∃ e, NotParsing e ∧ x = Except.error e) ↔ Q
  goes : (∃ ms a, x = Except.ok (ms, a)) ↔ R

/-- It raises such an exception exactly if `Q`, and returns exactly if `R`. -/
structure PyOut {α : Type} (x : Py α) (Q R : Prop) : Prop where
  crash : (∃ e, NotParsing e ∧ x = .error e) ↔ Q
  goes : (∃ a, x = .ok a) ↔ R

theorem notParsing_other (s : Str) : NotParsing (.other s) := fun _ h => nomatch h

theorem errs {α : Type} (e : PyErr) : (∃ e', NotParsing e' ∧ (.error e : Except PyErr α) = .error e') ↔ NotParsing e :=
  ⟨fun ⟨_, h, he⟩ => by cases he; exact h, fun h => ⟨e, h, rfl⟩⟩

theorem lift_bind {α β : Type} (a : α) (f : α → P β) : (Py.lift (.ok a) >>= f) = f a := by
  have key : ∀ x : Except PyErr (List PMsg × β),
      (match x with | .error e => .error e | .ok (ms', b) => .ok ([] ++ ms', b) : Except PyErr (List PMsg × β)) = x := by
    intro x; cases x <;> rfl
  exact key (f a)

theorem Out.congr {α : Type} {x : P α} {Q R Q' R' : Prop} (h : Out x Q R) (hq : Q ↔ Q') (hr : R ↔ R') : Out x Q' R' := by
  rwa [propext hq, propext hr] at h
theorem PyOut.congr {α : Type} {x : Py α} {Q R Q' R' : Prop} (h : PyOut x Q R) (hq : Q ↔ Q') (hr : R ↔ R') : PyOut x Q' R' := by
  rwa [propext hq, propext hr] at h

theorem out_bind {α β : Type} {x : P α} {f : α → P β} {Q R Q' R' : Prop} (h : Out x Q R) (hf : ∀ a, Out (f a) Q' R') :
    Out (x >>= f) (Q ∨ R ∧ Q') (R ∧ R') := by
  have hc := h.crash
  have hg := h.goes
  change Out (P.bind x f) _ _
  unfold P.bind
  match x with
  | .error e =>
    have nr : ¬ R := fun r => by obtain ⟨_, _, h⟩ := hg.2 r; cases h
    constructor
    · have hc := (errs (α := List PMsg × α) e).symm.trans hc
      exact (errs e).trans ⟨fun h => .inl (hc.1 h), fun h => h.elim hc.2 fun h => absurd h.1 nr⟩
    · exact ⟨fun ⟨_, _, h⟩ => (nomatch h), fun h => absurd h.1 nr⟩
  | .ok (ms, a) =>
    have nq : ¬ Q := fun q => by obtain ⟨_, _, h⟩ := hc.2 q; cases h
    have r : R := hg.1 ⟨_, _, rfl⟩
    have hfc := (hf a).crash
    have hfg := (hf a).goes
    dsimp only
    revert hfc hfg
    match f a with
    | .error e =>
      intro hfc hfg
      constructor
      · constructor
        · rintro ⟨e', he', h⟩
          cases h
          exact .inr ⟨r, hfc.1 ⟨_, he', rfl⟩⟩
        · rintro (h | ⟨_, h⟩)
          · exact absurd h nq
          · obtain ⟨e', he', h⟩ := hfc.2 h
            cases h
            exact ⟨_, he', rfl⟩
      · exact ⟨fun ⟨_, _, h⟩ => (nomatch h), fun h => by obtain ⟨_, _, h⟩ := hfg.2 h.2; cases h⟩
    | .ok (ms', b) =>
      intro hfc hfg
      constructor
      · exact ⟨fun ⟨_, _, h⟩ => (nomatch h), fun h => h.elim (fun h => absurd h nq) fun h => by obtain ⟨_, _, h⟩ := hfc.2 h.2; cases h⟩
      · exact ⟨fun _ => ⟨r, hfg.1 ⟨_, _, rfl⟩⟩, fun _ => ⟨_, _, rfl⟩⟩

/-- after something that never raises anything -/
theorem out_skip {α β : Type} {x : P α} {f : α → P β} {Q R : Prop} (h : Out x False True) (hf : ∀ a, Out (f a) Q R) : Out (x >>= f) Q R :=
  (out_bind h hf).congr (by simp) (by simp)

/-- after something that raises or goes on -/
theorem out_try {α β : Type} {x : P α} {f : α → P β} {Q Q' : Prop} (h : Out x Q (¬ Q)) (hf : ∀ a, Out (f a) Q' (¬ Q')) :
    Out (x >>= f) (Q ∨ Q') (¬ (Q ∨ Q')) :=
  (out_bind h hf).congr ⟨fun h => h.imp id And.right, fun h => by by_cases q : Q; exact .inl q; exact .inr ⟨q, h.resolve_left q⟩⟩
    ⟨fun h q => q.elim h.1 h.2, fun h => ⟨fun q => h (.inl q), fun q => h (.inr q)⟩⟩

theorem out_pure {α : Type} (a : α) : Out (pure a : P α) False True :=
  ⟨⟨fun ⟨_, _, h⟩ => (nomatch h), False.elim⟩, ⟨fun _ => trivial, fun _ => ⟨_, _, rfl⟩⟩⟩

theorem out_end {α : Type} (a : α) : Out (pure a : P α) False (¬ False) := (out_pure a).congr .rfl (by simp)

theorem out_lift {α : Type} {x : Py α} {Q R : Prop} (h : PyOut x Q R) : Out x.lift Q R := by
  have hc := h.crash
  have hg := h.goes
  cases x with
  | ok a =>
    exact ⟨⟨fun ⟨_, _, h⟩ => (nomatch h), fun q => by obtain ⟨_, _, h⟩ := hc.2 q; cases h⟩, ⟨fun _ => hg.1 ⟨_, rfl⟩, fun _ => ⟨_, _, rfl⟩⟩⟩
  | error e =>
    constructor
    · exact ⟨fun ⟨e', h', h⟩ => hc.1 ⟨e', h', by cases h; rfl⟩, fun q => by obtain ⟨e', h', h⟩ := hc.2 q; cases h; exact ⟨_, h', rfl⟩⟩
    · exact ⟨fun ⟨_, _, h⟩ => (nomatch h), fun r => by obtain ⟨_, h⟩ := hg.2 r; cases h⟩

theorem pyOut_bind {α β : Type} {x : Py α} {f : α → Py β} {Q R Q' R' : Prop} (h : PyOut x Q R) (hf : ∀ a, PyOut (f a) Q' R') :
    PyOut (x >>= f) (Q ∨ R ∧ Q') (R ∧ R') := by
  have hc := h.crash
  have hg := h.goes
  cases x with
  | error e =>
    have nr : ¬ R := fun r => by obtain ⟨_, h⟩ := hg.2 r; cases h
    constructor
    · exact ⟨fun ⟨e', he, h⟩ => .inl (hc.1 ⟨e', he, by cases h; rfl⟩),
        fun h => h.elim (fun q => by obtain ⟨e', he, h⟩ := hc.2 q; cases h; exact ⟨_, he, rfl⟩) fun h => absurd h.1 nr⟩
    · exact ⟨fun ⟨_, h⟩ => (nomatch h), fun h => absurd h.1 nr⟩
  | ok a =>
    have nq : ¬ Q := fun q => by obtain ⟨_, _, h⟩ := hc.2 q; cases h
    have r : R := hg.1 ⟨_, rfl⟩
    exact ⟨⟨fun h => .inr ⟨r, (hf a).crash.1 h⟩, fun h => h.elim (fun h => absurd h nq) fun h => (hf a).crash.2 h.2⟩,
      ⟨fun h => ⟨r, (hf a).goes.1 h⟩, fun h => (hf a).goes.2 h.2⟩⟩

/-- When it raises such an exception. -/
def Crash {α : Type} (x : Py α) (Q : Prop) : Prop := (∃ e, NotParsing e ∧ x = .error e) ↔ Q

theorem Crash.congr {α : Type} {x : Py α} {Q Q' : Prop} (h : Crash x Q) (hq : Q ↔ Q') : Crash x Q' := Iff.trans h hq

theorem crash_orRaiseIn {α : Type} {p : P α} {Q R : Prop} {w : Str} (h : Out p Q R) : Crash (p.orRaiseIn w) Q := by
  have hc := h.crash
  match p with
  | .error e => exact (errs e).trans ((errs e).symm.trans hc)
  | .ok ([], a) => exact ⟨fun ⟨_, _, h⟩ => (nomatch h), fun q => by obtain ⟨_, _, h⟩ := hc.2 q; cases h⟩
  | .ok (m :: ms, a) => exact ⟨fun ⟨_, n, h⟩ => by cases h; exact absurd rfl (n _), fun q => by obtain ⟨_, _, h⟩ := hc.2 q; cases h⟩

theorem crash_orRaise {α : Type} {p : P α} {Q R : Prop} (h : Out p Q R) : Crash p.orRaise Q := by
  have hc := h.crash
  match p with
  | .error e => exact (errs e).trans ((errs e).symm.trans hc)
  | .ok ([], a) => exact ⟨fun ⟨_, _, h⟩ => (nomatch h), fun q => by obtain ⟨_, _, h⟩ := hc.2 q; cases h⟩
  | .ok (m :: ms, a) => exact ⟨fun ⟨_, n, h⟩ => by cases h; exact absurd rfl (n _), fun q => by obtain ⟨_, _, h⟩ := hc.2 q; cases h⟩

theorem crash_construct {α : Type} (cls : Str) (c : Check α) : Crash (construct cls c) False := by
  cases c with
  | ok a => exact ⟨fun ⟨_, _, h⟩ => (nomatch h), False.elim⟩
  | error e => exact ⟨fun ⟨_, n, h⟩ => by cases h; exact absurd rfl (n _), False.elim⟩

theorem crash_bind {α β : Type} {x : Py α} {f : α → Py β} {Q : Prop} (h : Crash x Q) (hf : ∀ a, Crash (f a) False) : Crash (x >>= f) Q := by
  unfold Crash at *
  cases x with
  | error e => exact ⟨fun ⟨e', he, h'⟩ => h.1 ⟨e', he, by cases h'; rfl⟩, fun q => by obtain ⟨e', he, h'⟩ := h.2 q; cases h'; exact ⟨_, he, rfl⟩⟩
  | ok a => exact ⟨fun h' => ((hf a).1 h').elim, fun q => by obtain ⟨_, _, h'⟩ := h.2 q; cases h'⟩

theorem crash_after {α β : Type} {x : Py α} {f : α → Py β} {Q Q' : Prop} (h : PyOut x Q (¬ Q)) (hf : ∀ a, Crash (f a) Q') : Crash (x >>= f) (Q ∨ Q') := by
  have hc := h.crash
  have hg := h.goes
  unfold Crash at *
  cases x with
  | error e =>
    have q : Q := Classical.byContradiction fun q => by obtain ⟨_, h⟩ := hg.2 q; cases h
    exact ⟨fun _ => .inl q, fun _ => by obtain ⟨e', he, h'⟩ := hc.2 q; cases h'; exact ⟨_, he, rfl⟩⟩
  | ok a =>
    have nq : ¬ Q := hg.1 ⟨_, rfl⟩
    exact ⟨fun h => .inr ((hf a).1 h), fun h => (hf a).2 (h.resolve_left nq)⟩

/-- returned values are known from `Model/RdfParser` -/
theorem pyOut_of {α : Type} {x : Py α} {Q : Prop} (h : Crash x Q) {o : Option α} (hv : val x = o) : PyOut x Q (∃ a, o = some a) := by
  refine ⟨h, ?_⟩
  subst hv
  exact ⟨fun ⟨a, h⟩ => ⟨a, val_ok.2 h⟩, fun ⟨a, h⟩ => ⟨a, val_ok.1 h⟩⟩

theorem pyOut_mapM {ν α : Type} {m : ν → Py α} {Q R : ν → Prop} (h : ∀ v, PyOut (m v) (Q v) (R v)) :
    ∀ l : List ν, PyOut (l.mapM m) (FirstBad R Q l) (∀ v ∈ l, R v)
  | [] => ⟨⟨fun ⟨_, _, h⟩ => (nomatch h), fun h => by cases h⟩, ⟨fun _ _ h => (nomatch h), fun _ => ⟨_, rfl⟩⟩⟩
  | v :: l => by
    rw [List.mapM_cons]
    have hp : ∀ a : α, ∀ as : List α, PyOut (pure (a :: as) : Py (List α)) False True := fun a as =>
      ⟨⟨fun ⟨_, _, h⟩ => (nomatch h), False.elim⟩, ⟨fun _ => trivial, fun _ => ⟨_, rfl⟩⟩⟩
    refine (pyOut_bind (h v) fun a => pyOut_bind (pyOut_mapM h l) fun as => hp a as).congr ?_ ?_
    · constructor
      · rintro (q | ⟨r, q | ⟨_, h⟩⟩)
        · exact .here q
        · exact .later r q
        · exact h.elim
      · intro h
        cases h with
        | here q => exact .inl q
        | later r q => exact .inr ⟨r, .inl q⟩
    · simp

/-! ### Values -/

theorem out_unique (g : RdfGraph) (s : RdfNode) (p : Pred) : Out (readUnique g s p) False True := by
  unfold readUnique
  match g.objects s p with
  | [] => exact out_pure _
  | [v] => exact out_pure _
  | _ :: _ :: _ => exact ⟨⟨fun ⟨_, _, h⟩ => (nomatch h), False.elim⟩, ⟨fun _ => trivial, fun _ => ⟨_, _, rfl⟩⟩⟩

/-- an exception of a method that is not logged -/
def Thrown {α : Type} (x : Py α) (Q : Prop) : Prop := (∃ s, x = .error (.other s)) ↔ Q

theorem out_apply {α : Type} {m : RdfNode → Py α} {v : RdfNode} {Q : Prop} (h : Thrown (m v) Q) : Out (applyOrLog m v) Q (¬ Q) := by
  unfold Thrown at h
  unfold applyOrLog
  generalize m v = x at h ⊢
  match x, h with
  | .ok a, h =>
    have nq : ¬ Q := fun q => by obtain ⟨_, h⟩ := h.2 q; cases h
    exact ⟨⟨fun ⟨_, _, h⟩ => (nomatch h), fun q => absurd q nq⟩, ⟨fun _ => nq, fun _ => ⟨_, _, rfl⟩⟩⟩
  | .error (.parsing ms), h =>
    have nq : ¬ Q := fun q => by obtain ⟨_, h⟩ := h.2 q; cases h
    exact ⟨⟨fun ⟨_, _, h⟩ => (nomatch h), fun q => absurd q nq⟩, ⟨fun _ => nq, fun _ => ⟨_, _, rfl⟩⟩⟩
  | .error (.type ms), h =>
    have nq : ¬ Q := fun q => by obtain ⟨_, h⟩ := h.2 q; cases h
    exact ⟨⟨fun ⟨_, _, h⟩ => (nomatch h), fun q => absurd q nq⟩, ⟨fun _ => nq, fun _ => ⟨_, _, rfl⟩⟩⟩
  | .error (.value ms), h =>
    have nq : ¬ Q := fun q => by obtain ⟨_, h⟩ := h.2 q; cases h
    exact ⟨⟨fun ⟨_, _, h⟩ => (nomatch h), fun q => absurd q nq⟩, ⟨fun _ => nq, fun _ => ⟨_, _, rfl⟩⟩⟩
  | .error (.other s), h =>
    have q : Q := h.1 ⟨_, rfl⟩
    exact ⟨⟨fun _ => q, fun _ => ⟨_, notParsing_other s, rfl⟩⟩, ⟨fun ⟨_, _, h⟩ => (nomatch h), fun n => absurd q n⟩⟩

theorem out_never {α : Type} {x : P α} {Q : Prop} (h : Out x Q (¬ Q)) (hq : ¬ Q) : Out x False True := h.congr ⟨hq, False.elim⟩ ⟨fun _ => trivial, fun _ => hq⟩

/-- `parse_literal` -/
theorem out_literal {α : Type} {m : RdfNode → Py α} {Q : RdfNode → Prop} (h : ∀ v, Thrown (m v) (Q v)) (g : RdfGraph) (s : RdfNode) (p : Pred) :
    Out (readLiteral g s p m) (∃ v, values g s p = [v] ∧ ¬ Blank v ∧ Q v) (¬ ∃ v, values g s p = [v] ∧ ¬ Blank v ∧ Q v) := by
  rw [RdfSays.values_eq]
  unfold readLiteral readUnique
  match g.objects s p with
  | [] =>
    refine (out_pure (none : Option α)).congr ⟨False.elim, fun ⟨_, h, _⟩ => (nomatch h)⟩ ⟨fun _ ⟨_, h, _⟩ => (nomatch h), fun _ => trivial⟩
  | [v] =>
    have he : (∃ w, [v] = [w] ∧ ¬ Blank w ∧ Q w) ↔ ¬ Blank v ∧ Q v := ⟨fun ⟨w, e, h⟩ => by cases e; exact h, fun h => ⟨v, rfl, h⟩⟩
    have key : Out (if v.truthy = true then applyOrLog m v else pure none) (¬ Blank v ∧ Q v) (¬ (¬ Blank v ∧ Q v)) := by
      by_cases ht : v.truthy = true
      · rw [if_pos ht]
        have hb : ¬ Blank v := fun h => by rw [(RdfSays.truthy_iff v).2 h] at ht; cases ht
        exact (out_apply (h v)).congr ⟨fun q => ⟨hb, q⟩, And.right⟩ ⟨fun n q => n q.2, fun n q => n ⟨hb, q⟩⟩
      · rw [if_neg ht]
        have hb : Blank v := (RdfSays.truthy_iff v).1 (Bool.eq_false_iff.2 ht)
        exact (out_pure _).congr ⟨False.elim, fun q => q.1 hb⟩ ⟨fun _ q => q.1 hb, fun _ => trivial⟩
    refine Out.congr ?_ he.symm (not_congr he.symm)
    change Out (Py.lift (.ok (some v)) >>= _) _ _
    rw [lift_bind]
    exact key
  | a :: b :: l =>
    exact ⟨⟨fun ⟨_, _, h⟩ => (nomatch h), fun ⟨_, h, _⟩ => (nomatch h)⟩, ⟨fun _ ⟨_, h, _⟩ => (nomatch h), fun _ => ⟨_, _, rfl⟩⟩⟩

/-- a literal read by a method whose exceptions are all logged -/
theorem out_plain {α : Type} {m : RdfNode → Py α} (h : ∀ v, Thrown (m v) False) (g : RdfGraph) (s : RdfNode) (p : Pred) : Out (readLiteral g s p m) False True :=
  out_never (out_literal h g s p) fun ⟨_, _, _, h⟩ => h

theorem out_typed {α : Type} {m : RdfNode → Py (Option α)} {v : RdfNode} {Q : Prop} (h : Thrown (m v) Q) :
    Out (readTyped m v) (¬ Blank v ∧ ¬ NoAssertion v ∧ ¬ IsNone v ∧ Q) (¬ (¬ Blank v ∧ ¬ NoAssertion v ∧ ¬ IsNone v ∧ Q)) := by
  unfold readTyped
  by_cases h1 : ¬ v.truthy = true
  · rw [if_pos h1]
    have hb : Blank v := (RdfSays.truthy_iff v).1 (Bool.eq_false_iff.2 h1)
    exact (out_pure _).congr ⟨False.elim, fun q => q.1 hb⟩ ⟨fun _ q => q.1 hb, fun _ => trivial⟩
  rw [if_neg h1]
  have hb : ¬ Blank v := fun h => h1 (by rw [(RdfSays.truthy_iff v).2 h]; decide)
  by_cases h2 : v = spdxTerm s%"noassertion" ∨ v.toPyStr = some s%"NOASSERTION"
  · rw [if_pos h2]
    have hn := (RdfSays.noAssertion_iff v).1 h2
    exact (out_pure _).congr ⟨False.elim, fun q => q.2.1 hn⟩ ⟨fun _ q => q.2.1 hn, fun _ => trivial⟩
  rw [if_neg h2]
  by_cases h3 : v = spdxTerm s%"none" ∨ v.toPyStr = some s%"NONE"
  · rw [if_pos h3]
    have hn := (RdfSays.none_iff v).1 h3
    exact (out_pure _).congr ⟨False.elim, fun q => q.2.2.1 hn⟩ ⟨fun _ q => q.2.2.1 hn, fun _ => trivial⟩
  rw [if_neg h3]
  rw [RdfSays.noAssertion_iff] at h2
  rw [RdfSays.none_iff] at h3
  exact (out_bind (out_apply h) fun _ => out_pure _).congr ⟨fun q => q.elim (fun q => ⟨hb, h2, h3, q⟩) fun q => q.2.elim, fun q => .inl q.2.2.2⟩
    ⟨fun q n => q.1 n.2.2.2, fun n => ⟨fun q => n ⟨hb, h2, h3, q⟩, trivial⟩⟩

/-- `parse_literal_or_no_assertion_or_none` -/
theorem out_special {α : Type} {m : RdfNode → Py (Option α)} {Q : RdfNode → Prop} (h : ∀ v, Thrown (m v) (Q v)) (g : RdfGraph) (s : RdfNode) (p : Pred) :
    Out (readSpecial g s p m) (∃ v, values g s p = [v] ∧ ¬ Blank v ∧ ¬ NoAssertion v ∧ ¬ IsNone v ∧ Q v)
      (¬ ∃ v, values g s p = [v] ∧ ¬ Blank v ∧ ¬ NoAssertion v ∧ ¬ IsNone v ∧ Q v) := by
  rw [RdfSays.values_eq]
  unfold readSpecial readUnique
  match g.objects s p with
  | [] =>
    exact (out_pure (none : Option (OrSpecial α))).congr ⟨False.elim, fun ⟨_, h, _⟩ => (nomatch h)⟩ ⟨fun _ ⟨_, h, _⟩ => (nomatch h), fun _ => trivial⟩
  | [v] =>
    have he : (∃ w, [v] = [w] ∧ ¬ Blank w ∧ ¬ NoAssertion w ∧ ¬ IsNone w ∧ Q w) ↔ ¬ Blank v ∧ ¬ NoAssertion v ∧ ¬ IsNone v ∧ Q v :=
      ⟨fun ⟨w, e, h⟩ => by cases e; exact h, fun h => ⟨v, rfl, h⟩⟩
    refine Out.congr ?_ he.symm (not_congr he.symm)
    change Out (Py.lift (.ok (some v)) >>= _) _ _
    rw [lift_bind]
    exact out_typed (h v)
  | a :: b :: l =>
    exact ⟨⟨fun ⟨_, _, h⟩ => (nomatch h), fun ⟨_, h, _⟩ => (nomatch h)⟩, ⟨fun _ ⟨_, h, _⟩ => (nomatch h), fun _ => ⟨_, _, rfl⟩⟩⟩

theorem out_plainSpecial {α : Type} {m : RdfNode → Py (Option α)} (h : ∀ v, Thrown (m v) False) (g : RdfGraph) (s : RdfNode) (p : Pred) :
    Out (readSpecial g s p m) False True :=
  out_never (out_special h g s p) fun ⟨_, _, _, _, _, h⟩ => h

theorem out_each {α : Type} {m : RdfNode → Py α} (h : ∀ v, Thrown (m v) False) : ∀ l, Out (readEach m l) False True
  | [] => out_pure _
  | v :: l => by
    rw [readEach]
    exact out_skip (out_never (out_apply (h v)) id) fun _ => out_skip (out_each h l) fun _ => out_pure _

/-! Methods -/

theorem thrown_strip (v : RdfNode) : Thrown (readStrip v) False := ⟨fun ⟨_, h⟩ => (nomatch h), False.elim⟩
theorem thrown_stripS (v : RdfNode) : Thrown (readStripSpecial v) False := ⟨fun ⟨_, h⟩ => (nomatch h), False.elim⟩
theorem thrown_dataLicense (v : RdfNode) : Thrown (.ok (removePrefix v.text licenseNamespace) : Py Str) False := ⟨fun ⟨_, h⟩ => (nomatch h), False.elim⟩

theorem thrown_enum (cls pre : Str) (f : Str → Option α) (v : RdfNode) : Thrown (readEnum cls f pre v) False := by
  refine ⟨fun ⟨_, h⟩ => ?_, False.elim⟩
  unfold readEnum at h
  split at h <;> cases h

theorem thrown_actor (v : RdfNode) : Thrown (readActor v.text) False := by
  refine ⟨fun ⟨_, h⟩ => ?_, False.elim⟩
  unfold readActor at h
  split at h <;> cases h

theorem thrown_actorS (v : RdfNode) : Thrown ((readActor v.text).map some) False := by
  refine ⟨fun ⟨_, h⟩ => ?_, False.elim⟩
  unfold readActor at h
  split at h <;> cases h

theorem thrown_date (v : RdfNode) : Thrown (readDate v) False := by
  refine ⟨fun ⟨_, h⟩ => ?_, False.elim⟩
  unfold readDate at h
  split at h <;> cases h

theorem thrown_version (v : RdfNode) : Thrown (readVersion v) False := by
  refine ⟨fun ⟨_, h⟩ => ?_, False.elim⟩
  unfold readVersion at h
  split at h <;> cases h

theorem thrown_algorithm (v : RdfNode) : Thrown (readAlgorithm v) False := by
  refine ⟨fun ⟨_, h⟩ => ?_, False.elim⟩
  unfold readAlgorithm at h
  split at h <;> cases h

/-- what raises nothing but parsing errors is logged -/
theorem thrown_of_crash {α : Type} {x : Py α} (h : Crash x False) : Thrown x False := ⟨fun ⟨_, e⟩ => h.1 ⟨_, notParsing_other _, e⟩, False.elim⟩

theorem crash_checksum (g : RdfGraph) (n : RdfNode) : Crash (readChecksum g n) False := by
  unfold readChecksum
  refine crash_bind (crash_orRaiseIn (R := True) ?_) fun _ => crash_construct _ _
  exact out_skip (out_plain thrown_algorithm _ _ _) fun _ => out_skip (out_plain thrown_strip _ _ _) fun _ => out_pure _

theorem crash_code (g : RdfGraph) (n : RdfNode) : Crash (readVerificationCode g n) False := by
  unfold readVerificationCode
  exact crash_bind (crash_orRaiseIn (out_plain thrown_strip _ _ _)) fun _ => crash_construct _ _

/-- errors that are not logged, where all are such -/
theorem thrown_of_val {α : Type} {x : Py α} (h : ∀ e, x = .error e → ∃ s, e = .other s) : Thrown x (¬ ∃ a, val x = some a) := by
  unfold Thrown
  cases x with
  | ok a => exact ⟨fun ⟨_, h⟩ => (nomatch h), fun n => absurd ⟨a, rfl⟩ n⟩
  | error e =>
    obtain ⟨s, rfl⟩ := h e rfl
    exact ⟨fun _ ⟨_, h⟩ => (nomatch h), fun _ => ⟨s, rfl⟩⟩

theorem other_bind {α β : Type} {x : Py α} {f : α → Py β} (h : ∀ e, x = .error e → ∃ s, e = .other s) (hf : ∀ a e, f a = .error e → ∃ s, e = .other s) :
    ∀ e, (x >>= f) = .error e → ∃ s, e = .other s := by
  intro e he
  cases x with
  | ok a => exact hf a e he
  | error e' => cases he; exact h _ rfl

theorem other_mapM {ν α : Type} {m : ν → Py α} (h : ∀ v e, m v = .error e → ∃ s, e = .other s) : ∀ (l : List ν) e, l.mapM m = .error e → ∃ s, e = .other s
  | [], _, he => by cases he
  | v :: l, e, he => by
    rw [List.mapM_cons] at he
    exact other_bind (h v) (fun _ => other_bind (other_mapM h l) fun _ _ h => by cases h) e he

theorem other_licText (env : RdfEnv) (s : Str) (e : PyErr) (h : readLicText env s = .error e) : ∃ s, e = .other s := by
  unfold readLicText at h
  split at h <;> cases h
  exact ⟨_, rfl⟩

theorem other_notNone {α : Type} (o : Option α) (e : PyErr) (h : notNone o = .error e) : ∃ s, e = .other s := by
  unfold notNone at h
  split at h <;> cases h
  exact ⟨_, rfl⟩

theorem other_license (env : RdfEnv) (g : RdfGraph) (ns : Str) : ∀ k v e, readLicense env g ns k v = .error e → ∃ s, e = .other s
  | 0, v, e, h => by rw [readLicense.eq_def] at h; cases h; exact ⟨_, rfl⟩
  | k + 1, v, e, h => by
    rw [readLicense.eq_def] at h
    dsimp only at h
    have ih := other_license env g ns k
    split at h
    · exact other_licText _ _ _ h
    split at h
    · split at h
      · exact other_licText _ _ _ h
      · cases h; exact ⟨_, rfl⟩
    split at h
    · exact other_licText _ _ _ h
    split at h
    · exact other_bind (other_mapM ih _) (fun _ => other_licText _ _) _ h
    split at h
    · exact other_bind (other_mapM ih _) (fun _ => other_licText _ _) _ h
    split at h
    · exact other_bind (other_notNone _) (fun _ => other_bind (ih _) fun _ => other_bind (other_notNone _) fun _ => other_bind (other_notNone _) fun _ => other_licText _ _) _ h
    · exact other_licText _ _ _ h

theorem thrown_license (env : RdfEnv) (g : RdfGraph) (ns : Str) (v : RdfNode) :
    Thrown (readLicense env g ns env.depth v) (∀ o, ¬ License env g ns env.depth v o) := by
  refine Iff.trans (thrown_of_val (other_license env g ns env.depth v)) ?_
  rw [(agree_lic env g ns).val]
  constructor
  · intro n o h; exact n ⟨o, (RdfSays.licM_iff ..).2 h⟩
  · rintro n ⟨o, h⟩; exact n o ((RdfSays.licM_iff ..).1 h)

theorem out_license (env : RdfEnv) (g : RdfGraph) (ns : Str) (n : RdfNode) (p : Pred) :
    Out (readSpecial g n p (readLicense env g ns env.depth)) (BadLicenseAt env g ns n p) (¬ BadLicenseAt env g ns n p) :=
  out_special (thrown_license env g ns) g n p

theorem out_licenses (env : RdfEnv) (g : RdfGraph) (ns : Str) : ∀ l, Out (readLicenses env g ns l) (∃ v ∈ l, BadLicense env g ns v) (¬ ∃ v ∈ l, BadLicense env g ns v)
  | [] => (out_pure _).congr ⟨False.elim, fun ⟨_, h, _⟩ => (nomatch h)⟩ ⟨fun _ ⟨_, h, _⟩ => (nomatch h), fun _ => trivial⟩
  | v :: l => by
    rw [readLicenses]
    have he : (∃ w ∈ v :: l, BadLicense env g ns w) ↔ BadLicense env g ns v ∨ (∃ w ∈ l, BadLicense env g ns w) ∨ False := by simp
    refine Out.congr ?_ he.symm (not_congr he.symm)
    exact out_try (out_typed (thrown_license env g ns v)) fun _ => out_try (out_licenses env g ns l) fun _ => out_end _

theorem out_licensesIn (env : RdfEnv) (g : RdfGraph) (ns : Str) (n : RdfNode) (p : Pred) :
    Out (readLicenses env g ns (g.objects n p)) (BadLicenseIn env g ns n p) (¬ BadLicenseIn env g ns n p) := by
  unfold BadLicenseIn
  rw [RdfSays.values_eq]
  exact out_licenses ..

theorem literalId_iff (b : Bindings) (ns : Str) (v : RdfNode) : parseRdfId b ns v = none ↔ LiteralId ns v := by
  have key : parseRdfId b ns v = none ↔ ∀ o, ¬ IdS b ns v o := by
    constructor
    · intro h o ho; rw [(RdfSays.parseId_iff b ns v o).2 ho] at h; cases h
    · intro h
      cases hp : parseRdfId b ns v with
      | none => rfl
      | some o => exact absurd ((RdfSays.parseId_iff b ns v o).1 hp) (h o)
  rw [key]
  constructor
  · intro h
    have hq : ∀ q, v ≠ .bnode q := fun q e => h none (.inr ⟨.inl ⟨q, e⟩, rfl⟩)
    have hb : ¬ Blank v := fun hb => h none (.inr ⟨.inr hb, rfl⟩)
    have hs : startsWith v.text (ns ++ s%"#") = true := Classical.byContradiction fun hs => by
      have hs := Bool.eq_false_iff.2 hs
      by_cases hh : '#' ∈ v.text
      · exact h _ (.inl ⟨_, .external v hq hb hs hh, rfl⟩)
      · exact h _ (.inl ⟨_, .plain v hq hb hs hh, rfl⟩)
    exact ⟨hs, fun u e => by subst e; exact h _ (.inl ⟨_, .internal u hs, rfl⟩), hq⟩
  · rintro ⟨hs, hu, hq⟩ o (⟨id, hi, _⟩ | ⟨h | h, _⟩)
    · cases hi with
      | internal u => exact hu u rfl
      | external _ _ _ h => exact absurd (hs.symm.trans h) (by decide)
      | plain _ _ _ h => exact absurd (hs.symm.trans h) (by decide)
    · obtain ⟨q, e⟩ := h; exact hq q e
    · have hm : '#' ∈ v.text := by
        obtain ⟨t, ht⟩ := List.isPrefixOf_iff_prefix.1 hs
        rw [← ht]
        exact List.mem_append_left _ (List.mem_append_right _ (List.mem_singleton.2 rfl))
      rcases h with rfl | rfl | rfl | rfl
      · exact hu _ rfl
      · cases hm
      · exact absurd hm (by decide)
      · exact absurd hm (by decide +kernel)

theorem pyOut_id (b : Bindings) (ns : Str) (v : RdfNode) : PyOut (readId b ns v) (LiteralId ns v) (¬ LiteralId ns v) := by
  rw [← literalId_iff b]
  unfold readId
  cases parseRdfId b ns v with
  | none => exact ⟨⟨fun _ => rfl, fun _ => ⟨_, notParsing_other _, rfl⟩⟩, ⟨fun ⟨_, h⟩ => (nomatch h), fun n => absurd rfl n⟩⟩
  | some o => exact ⟨⟨fun ⟨_, _, h⟩ => (nomatch h), fun h => (nomatch h)⟩, ⟨fun _ h => (nomatch h), fun _ => ⟨_, rfl⟩⟩⟩

theorem thrown_id (b : Bindings) (ns : Str) (v : RdfNode) : Thrown (readId b ns v) (LiteralId ns v) := by
  rw [← literalId_iff b]
  unfold readId
  cases parseRdfId b ns v with
  | none => exact ⟨fun _ => rfl, fun _ => ⟨_, rfl⟩⟩
  | some o => exact ⟨fun ⟨_, h⟩ => (nomatch h), fun h => (nomatch h)⟩

/-! ### Elements -/

theorem pyOut_checksums (g : RdfGraph) (n : RdfNode) : PyOut ((g.objects n .checksum).mapM (readChecksum g)) False (GoodChecksums g n) := by
  unfold GoodChecksums
  rw [RdfSays.values_eq]
  refine (pyOut_mapM (fun v => pyOut_of (crash_checksum g v) ((agree_checksum g).val v)) _).congr ⟨?_, False.elim⟩ ?_
  · generalize g.objects n .checksum = l
    intro h
    induction h with
    | here h => exact h
    | later _ _ ih => exact ih
  · exact ⟨fun h v hv => by obtain ⟨c, hc⟩ := h v hv; exact ⟨c, (RdfSays.checksum_iff ..).1 hc⟩,
      fun h v hv => by obtain ⟨c, hc⟩ := h v hv; exact ⟨c, (RdfSays.checksum_iff ..).2 hc⟩⟩

theorem thrown_refType (ns : Str) (v : RdfNode) : Thrown (readRefType ns v) (startsWith v.text ns = true ∧ ∀ u, v ≠ .uri u) := by
  unfold readRefType
  by_cases h : startsWith v.text ns = true
  · rw [if_pos h]
    cases v with
    | uri s => exact ⟨fun ⟨_, h⟩ => (nomatch h), fun n => absurd rfl (n.2 s)⟩
    | bnode q => exact ⟨fun _ => ⟨h, fun _ e => (nomatch e)⟩, fun _ => ⟨_, rfl⟩⟩
    | str s => exact ⟨fun _ => ⟨h, fun _ e => (nomatch e)⟩, fun _ => ⟨_, rfl⟩⟩
    | int s => exact ⟨fun _ => ⟨h, fun _ e => (nomatch e)⟩, fun _ => ⟨_, rfl⟩⟩
    | bool s => exact ⟨fun _ => ⟨h, fun _ e => (nomatch e)⟩, fun _ => ⟨_, rfl⟩⟩
  · rw [if_neg h]
    refine ⟨fun ⟨_, e⟩ => ?_, fun q => absurd q.1 h⟩
    split at e <;> cases e

theorem crash_packageRef (g : RdfGraph) (ns : Str) (n : RdfNode) : Crash (readPackageRef g ns n) (BadPackageRef g ns n) := by
  unfold readPackageRef
  refine crash_bind (crash_orRaiseIn (R := ¬ (BadPackageRef g ns n ∨ False)) ?_) fun _ => crash_construct _ _
  refine out_skip (out_plain thrown_strip _ _ _) fun _ => out_skip (out_plain (thrown_enum _ _ _) _ _ _) fun _ => ?_
  exact (out_try (out_literal (thrown_refType ns) g n .referenceType) fun _ => (out_skip (out_plain thrown_strip _ _ _) fun _ => out_end _)).congr (or_false _ ▸ .rfl) .rfl

theorem pyOut_refs (g : RdfGraph) (ns : Str) (n : RdfNode) : PyOut ((g.objects n .externalRef).mapM (readPackageRef g ns))
    (FirstBad (fun r => ∃ x, IsPackageRef g ns r x) (BadPackageRef g ns) (values g n .externalRef)) (∀ r ∈ values g n .externalRef, ∃ x, IsPackageRef g ns r x) := by
  rw [RdfSays.values_eq]
  refine pyOut_mapM (fun r => ?_) _
  exact (pyOut_of (crash_packageRef g ns r) ((agree_packageRef g ns).val r)).congr .rfl
    ⟨fun ⟨x, h⟩ => ⟨x, (RdfSays.packageRef_iff ..).1 h⟩, fun ⟨x, h⟩ => ⟨x, (RdfSays.packageRef_iff ..).2 h⟩⟩

theorem crash_package (env : RdfEnv) (b : Bindings) (g : RdfGraph) (ns : Str) (n : RdfNode) : Crash (readPackage env b g ns n) (BadPackage env g ns n) := by
  unfold readPackage BadPackage
  refine crash_after (pyOut_id b ns n) fun _ => crash_bind ?_ fun _ => crash_construct _ _
  refine crash_orRaiseIn (R := GoodChecksums g n ∧ (∀ r ∈ values g n .externalRef, ∃ x, IsPackageRef g ns r x) ∧ ¬ (BadLicenseAt env g ns n .licenseConcluded ∨ BadLicenseAt env g ns n .licenseDeclared ∨
    BadLicenseIn env g ns n .licenseInfoFromFiles ∨ False)) ?_
  refine out_skip (out_plain thrown_strip _ _ _) fun _ => out_skip (out_plainSpecial thrown_stripS _ _ _) fun _ => ?_
  refine Out.congr (out_bind (out_lift (pyOut_checksums g n)) fun _ => ?_) (by rw [false_or]) .rfl
  refine out_skip (out_plain thrown_strip _ _ _) fun _ => out_skip (out_plain thrown_strip _ _ _) fun _ => ?_
  refine out_skip (out_plainSpecial thrown_actorS _ _ _) fun _ => out_skip (out_plainSpecial thrown_actorS _ _ _) fun _ => ?_
  refine out_skip (out_plain (fun v => thrown_of_crash (crash_code g v)) _ _ _) fun _ => ?_
  refine out_bind (out_lift (pyOut_refs g ns n)) fun _ => ?_
  refine Out.congr (out_try (out_license env g ns n .licenseConcluded) fun _ => out_try (out_license env g ns n .licenseDeclared) fun _ =>
    out_try (Q' := False) (out_licensesIn env g ns n .licenseInfoFromFiles) fun _ => ?_) (by rw [or_false]) .rfl
  repeat first
    | exact out_end _
    | refine out_skip (out_plain thrown_strip _ _ _) fun _ => ?_
    | refine out_skip (out_plain thrown_date _ _ _) fun _ => ?_
    | refine out_skip (out_plain (thrown_enum _ _ _) _ _ _) fun _ => ?_
    | refine out_skip (out_plainSpecial thrown_stripS _ _ _) fun _ => ?_

theorem crash_file (env : RdfEnv) (b : Bindings) (g : RdfGraph) (ns : Str) (n : RdfNode) : Crash (readFile env b g ns n) (BadFile env g ns n) := by
  unfold readFile BadFile
  refine crash_after (pyOut_id b ns n) fun _ => crash_bind ?_ fun _ => crash_construct _ _
  refine crash_orRaiseIn (R := GoodChecksums g n ∧ ¬ (BadLicenseAt env g ns n .licenseConcluded ∨ BadLicenseIn env g ns n .licenseInfoInFile ∨ False)) ?_
  refine out_skip (out_plain thrown_strip _ _ _) fun _ => ?_
  refine Out.congr (out_bind (out_lift (pyOut_checksums g n)) fun _ => ?_) (by rw [false_or]) .rfl
  refine out_skip (out_each (thrown_enum _ _ _) _) fun _ => ?_
  refine Out.congr (out_try (out_license env g ns n .licenseConcluded) fun _ =>
    out_try (Q' := False) (out_licensesIn env g ns n .licenseInfoInFile) fun _ => ?_) (by rw [or_false]) .rfl
  repeat first
    | exact out_end _
    | refine out_skip (out_plain thrown_strip _ _ _) fun _ => ?_
    | refine out_skip (out_plainSpecial thrown_stripS _ _ _) fun _ => ?_

theorem crash_annotation (b : Bindings) (g : RdfGraph) (ns : Str) (e : RdfNode × RdfNode) : Crash (readAnnotation b g ns e) (LiteralId ns e.1) := by
  unfold readAnnotation
  refine Crash.congr (crash_after (Q' := False) (pyOut_id b ns e.1) fun _ => crash_bind ?_ fun _ => crash_construct _ _) (by rw [or_false])
  refine crash_orRaiseIn (R := True) ?_
  exact out_skip (out_plain thrown_actor _ _ _) fun _ => out_skip (out_plain (thrown_enum _ _ _) _ _ _) fun _ => out_skip (out_plain thrown_date _ _ _) fun _ =>
    out_skip (out_plain thrown_strip _ _ _) fun _ => out_pure _

theorem literal_not_blank {ns : Str} {v : RdfNode} (h : LiteralId ns v) : ¬ Blank v := by
  intro hb
  have := (literalId_iff [] ns v).2 h
  rw [(RdfSays.parseId_iff [] ns v none).2 (.inr ⟨.inr hb, rfl⟩)] at this
  cases this

theorem crash_relationship (b : Bindings) (g : RdfGraph) (ns : Str) (e : RdfNode × RdfNode) : Crash (readRelationship b g ns e) (BadRelationship g ns e) := by
  unfold readRelationship BadRelationship
  refine crash_after (pyOut_id b ns e.1) fun _ => crash_bind ?_ fun _ => crash_construct _ _
  refine crash_orRaiseIn (R := ¬ ((∃ v, values g e.2 .relatedSpdxElement = [v] ∧ ¬ Blank v ∧ ¬ NoAssertion v ∧ ¬ IsNone v ∧ LiteralId ns v) ∨ False)) ?_
  refine out_skip (out_plain (thrown_enum _ _ _) _ _ _) fun _ => ?_
  refine Out.congr (out_try (Q' := False) (out_special (thrown_id b ns) g e.2 .relatedSpdxElement) fun _ =>
    out_skip (out_plain thrown_strip _ _ _) fun _ => out_end _) ?_ .rfl
  rw [or_false]
  exact ⟨fun ⟨v, h, _, h2, h3, h4⟩ => ⟨v, h, h2, h3, h4⟩, fun ⟨v, h, h2, h3, h4⟩ => ⟨v, h, literal_not_blank h4, h2, h3, h4⟩⟩

theorem crash_implicit (b : Bindings) (ns : Str) (t : RelationshipType) (e : RdfNode × RdfNode) :
    Crash (readImplicit b ns t e) (LiteralId ns e.1 ∨ LiteralId ns e.2) := by
  unfold readImplicit
  refine crash_after (pyOut_id b ns e.1) fun _ => ?_
  exact (crash_after (Q' := False) (pyOut_id b ns e.2) fun _ => crash_construct _ _).congr (by rw [or_false])

theorem out_known {α β : Type} {ms : List PMsg} {a : α} {f : α → P β} {Q R : Prop} (h : Out (f a) Q R) :
    Out ((Except.ok (ms, a) : P α) >>= f) Q R := by
  have hc := h.crash
  have hg := h.goes
  change Out (match f a with | .error e => .error e | .ok (ms', b) => .ok (ms ++ ms', b)) Q R
  generalize f a = x at hc hg ⊢
  match x with
  | .error e => exact ⟨(errs e).trans ((errs e).symm.trans hc), ⟨fun ⟨_, _, h⟩ => (nomatch h), fun r => by obtain ⟨_, _, h⟩ := hg.2 r; cases h⟩⟩
  | .ok (ms', b) => exact ⟨⟨fun ⟨_, _, h⟩ => (nomatch h), fun q => by obtain ⟨_, _, h⟩ := hc.2 q; cases h⟩, ⟨fun _ => hg.1 ⟨_, _, rfl⟩, fun _ => ⟨_, _, rfl⟩⟩⟩

theorem licenseId_read (g : RdfGraph) (n : RdfNode) : ∃ ms o, readLiteral g n .licenseId readStrip = .ok (ms, o) ∧
    ((∃ c id, o = some (c :: id)) ↔ ∃ v, values g n .licenseId = [v] ∧ ¬ Blank v ∧ strip v.text ≠ []) := by
  rw [RdfSays.values_eq]
  unfold readLiteral readUnique
  match g.objects n .licenseId with
  | [] => exact ⟨[], none, rfl, ⟨fun ⟨_, _, h⟩ => (nomatch h), fun ⟨_, h, _⟩ => (nomatch h)⟩⟩
  | [v] =>
    by_cases h : v.truthy = true
    · refine ⟨[], some (strip v.text), ?_, ?_⟩
      · change P.bind (.ok ([], some v)) _ = _
        simp only [P.bind, applyOrLog, readStrip, List.nil_append]
        rw [h]
        rfl
      · refine ⟨fun ⟨c, id, e⟩ => ⟨v, rfl, fun hb => ?_, fun e' => ?_⟩, fun ⟨w, e, _, h'⟩ => ?_⟩
        · rw [(RdfSays.truthy_iff v).2 hb] at h; cases h
        · rw [e'] at e; cases e
        · cases e
          cases hs : strip v.text with
          | nil => exact absurd hs h'
          | cons c id => exact ⟨c, id, rfl⟩
    · refine ⟨[], none, ?_, ⟨fun ⟨_, _, h⟩ => (nomatch h), fun ⟨w, e, hb, _⟩ => ?_⟩⟩
      · change P.bind (.ok ([], some v)) _ = _
        simp only [P.bind, if_neg h]
        rfl
      · cases e
        exact absurd ((RdfSays.truthy_iff v).1 (Bool.eq_false_iff.2 h)) hb
  | _ :: _ :: _ => exact ⟨[multipleValues .licenseId], none, rfl, ⟨fun ⟨_, _, h⟩ => (nomatch h), fun ⟨_, h, _⟩ => (nomatch h)⟩⟩

theorem pyOut_never {α : Type} {a : α} {Q : Prop} (h : ¬ Q) : PyOut (.ok a) Q (¬ Q) :=
  ⟨⟨fun ⟨_, _, h⟩ => (nomatch h), fun q => absurd q h⟩, ⟨fun _ => h, fun _ => ⟨_, rfl⟩⟩⟩

theorem pyOut_raises {α : Type} {s : Str} {Q : Prop} (h : Q) : PyOut (α := α) (.error (.other s)) Q (¬ Q) :=
  ⟨⟨fun _ => h, fun _ => ⟨_, notParsing_other s, rfl⟩⟩, ⟨fun ⟨_, h⟩ => (nomatch h), fun n => absurd h n⟩⟩

theorem out_licenseId (ns : Str) (n : RdfNode) (o : Option Str) : Out (Py.lift (readLicenseId ns n o))
    (¬ (∃ c id, o = some (c :: id)) ∧ startsWith n.text (ns ++ s%"#") = true ∧ ∀ u, n ≠ .uri u)
    (¬ (¬ (∃ c id, o = some (c :: id)) ∧ startsWith n.text (ns ++ s%"#") = true ∧ ∀ u, n ≠ .uri u)) := by
  have rest : ∀ o : Option Str, ¬ (∃ c id, o = some (c :: id)) → readLicenseId ns n o = (if startsWith n.text (ns ++ s%"#") then
      match n with
      | .uri s => .ok (some (fragmentOf s))
      | _ => .error attributeError
    else .ok n.toPyStr) := by
    intro o ho
    match o with
    | none => rfl
    | some [] => rfl
    | some (c :: id) => exact absurd ⟨c, id, rfl⟩ ho
  refine out_lift ?_
  by_cases ho : ∃ c id, o = some (c :: id)
  · obtain ⟨c, id, rfl⟩ := ho
    exact pyOut_never fun h => h.1 ⟨c, id, rfl⟩
  · rw [rest o ho]
    by_cases h : startsWith n.text (ns ++ s%"#") = true
    · rw [if_pos h]
      cases n with
      | uri s => exact pyOut_never fun h => h.2.2 s rfl
      | bnode q => exact pyOut_raises ⟨ho, h, fun _ e => (nomatch e)⟩
      | str q => exact pyOut_raises ⟨ho, h, fun _ e => (nomatch e)⟩
      | int q => exact pyOut_raises ⟨ho, h, fun _ e => (nomatch e)⟩
      | bool q => exact pyOut_raises ⟨ho, h, fun _ e => (nomatch e)⟩
    · rw [if_neg h]
      exact pyOut_never fun q => h q.2.1

theorem crash_extracted (g : RdfGraph) (ns : Str) (n : RdfNode) : Crash (readExtracted g ns n) (BadExtracted g ns n) := by
  unfold readExtracted
  refine crash_bind ?_ fun _ => crash_construct _ _
  unfold BadExtracted
  obtain ⟨ms, o, ho, hv⟩ := licenseId_read g n
  refine crash_orRaiseIn (R := ¬ ((¬ (∃ c id, o = some (c :: id)) ∧ startsWith n.text (ns ++ s%"#") = true ∧ ∀ u, n ≠ .uri u) ∨ False)) ?_
  rw [ho]
  refine out_known ?_
  refine Out.congr (out_try (Q' := False) (out_licenseId ns n o) fun _ => ?_) (by rw [or_false, hv]) .rfl
  exact out_skip (out_plain thrown_strip _ _ _) fun _ => out_skip (out_plain thrown_strip _ _ _) fun _ => out_skip (out_plainSpecial thrown_stripS _ _ _) fun _ => out_end _

theorem readRangeValue_notOther (g : RdfGraph) (n : RdfNode) (p : Pred) : ¬ ∃ e, readRangeValue g n p = .error (.other e) := by
  rintro ⟨e, h⟩
  unfold readRangeValue at h
  split at h
  · cases h
  · split at h
    · split at h <;> cases h
    · cases h
  · cases h

theorem readPointer_cases (g : RdfGraph) (n : RdfNode) (p : Pred) :
    (∃ v, g.objects n p = [v] ∧ ¬ Blank v ∧ readPointer g n p = .ok (someValue g v .type, v)) ∨
      ((¬ ∃ v, g.objects n p = [v] ∧ ¬ Blank v) ∧ ∃ ms, readPointer g n p = .error (.parsing ms)) := by
  unfold readPointer
  split
  · next h => exact .inr ⟨fun ⟨_, e, _⟩ => by rw [h] at e; (nomatch e), _, rfl⟩
  · next v h =>
    by_cases ht : v.truthy = true
    · rw [if_pos ht]
      exact .inl ⟨v, h, fun hb => (by rw [(RdfSays.truthy_iff v).2 hb] at ht; cases ht), rfl⟩
    · rw [if_neg ht]
      refine .inr ⟨fun ⟨_, e, hb⟩ => ?_, _, rfl⟩
      rw [h] at e
      cases e
      exact hb ((RdfSays.truthy_iff v).1 (Bool.eq_false_iff.2 ht))
  · next h1 h2 =>
    refine .inr ⟨fun ⟨v, e, _⟩ => h2 v e, _, rfl⟩

theorem rangeKind_none (o : Option RdfNode) : o.bind rangeKind = none ↔
    ∀ cls ∈ [s%"ByteOffsetPointer", s%"LineCharPointer"], o ≠ some (.uri (s%"http://www.w3.org/2009/pointers#" ++ cls)) := by
  cases o with
  | none => exact ⟨fun _ _ _ h => (nomatch h), fun _ => rfl⟩
  | some v =>
    change rangeKind v = none ↔ _
    unfold rangeKind
    by_cases h1 : v = pointerTerm s%"ByteOffsetPointer"
    · rw [if_pos h1]
      exact ⟨fun h => (nomatch h), fun h => absurd (congrArg some h1) (h _ (.head _))⟩
    · rw [if_neg h1]
      by_cases h2 : v = pointerTerm s%"LineCharPointer"
      · rw [if_pos h2]
        exact ⟨fun h => (nomatch h), fun h => absurd (congrArg some h2) (h _ (.tail _ (.head _)))⟩
      · rw [if_neg h2]
        refine ⟨fun _ cls hc e => ?_, fun _ => rfl⟩
        cases e
        cases hc with
        | head => exact h1 rfl
        | tail _ hc => cases hc with
          | head => exact h2 rfl
          | tail _ hc => cases hc

theorem thrown_range (g : RdfGraph) (n : RdfNode) : Thrown (readRange g n) (BadRange g n) := by
  unfold readRange BadRange
  simp only [RdfSays.values_eq]
  rcases readPointer_cases g n .startPointer with ⟨p, hp, bp, ep⟩ | ⟨hp, ms, ep⟩
  · rcases readPointer_cases g n .endPointer with ⟨q, hq, bq, eq⟩ | ⟨hq, ms, eq⟩
    · rw [ep, eq]
      have he : (∃ p q, g.objects n .startPointer = [p] ∧ ¬ Blank p ∧ g.objects n .endPointer = [q] ∧ ¬ Blank q ∧ (g.objects p .type).head? = (g.objects q .type).head? ∧
          ∀ cls ∈ [s%"ByteOffsetPointer", s%"LineCharPointer"], (g.objects p .type).head? ≠ some (.uri (s%"http://www.w3.org/2009/pointers#" ++ cls))) ↔
          ((g.objects p .type).head? = (g.objects q .type).head? ∧ (g.objects p .type).head?.bind rangeKind = none) := by
        rw [rangeKind_none]
        refine ⟨?_, fun ⟨h, h'⟩ => ⟨p, q, hp, bp, hq, bq, h, h'⟩⟩
        rintro ⟨p', q', hp', _, hq', _, h, h'⟩
        rw [hp] at hp'
        rw [hq] at hq'
        cases hp'
        cases hq'
        exact ⟨h, h'⟩
      rw [he]
      change Thrown (if ¬ (g.objects p .type).head? = (g.objects q .type).head? then _ else _) _
      by_cases ht : (g.objects p .type).head? = (g.objects q .type).head?
      · rw [if_neg (not_not_intro ht)]
        change Thrown (match (g.objects p .type).head?.bind rangeKind with | none => .error keyError | some kind => _) _
        cases hk : (g.objects p .type).head?.bind rangeKind with
        | none => exact ⟨fun _ => ⟨ht, rfl⟩, fun _ => ⟨_, rfl⟩⟩
        | some kind =>
          refine ⟨fun ⟨e, h⟩ => ?_, fun h => (nomatch h.2)⟩
          have h1 := readRangeValue_notOther g p kind.number
          have h2 := readRangeValue_notOther g q kind.number
          change (readRangeValue g p kind.number >>= fun a => readRangeValue g q kind.number >>= fun z => pure (kind, (a, z))) = _ at h
          generalize readRangeValue g p kind.number = x at h h1
          generalize readRangeValue g q kind.number = y at h h2
          cases x with
          | error e' => cases h; exact absurd ⟨_, rfl⟩ h1
          | ok a =>
            cases y with
            | error e' => cases h; exact absurd ⟨_, rfl⟩ h2
            | ok z => cases h
      · rw [if_pos ht]
        exact ⟨fun ⟨_, h⟩ => (nomatch h), fun h => absurd h.1 ht⟩
    · rw [ep, eq]
      exact ⟨fun ⟨_, h⟩ => (nomatch h), fun ⟨_, q, _, _, h, b, _⟩ => absurd ⟨q, h, b⟩ hq⟩
  · rw [ep]
    exact ⟨fun ⟨_, h⟩ => (nomatch h), fun ⟨p, _, h, b, _⟩ => absurd ⟨p, h, b⟩ hp⟩

theorem out_ranges (g : RdfGraph) : ∀ l rs, Out (readRanges g rs l) (∃ r ∈ l, BadRange g r) (¬ ∃ r ∈ l, BadRange g r)
  | [], rs => (out_pure _).congr ⟨False.elim, fun ⟨_, h, _⟩ => (nomatch h)⟩ ⟨fun _ ⟨_, h, _⟩ => (nomatch h), fun _ => trivial⟩
  | v :: l, rs => by
    rw [readRanges]
    have he : (∃ r ∈ v :: l, BadRange g r) ↔ BadRange g v ∨ ∃ r ∈ l, BadRange g r := by simp
    refine Out.congr ?_ he.symm (not_congr he.symm)
    refine out_try (out_apply (thrown_range g v)) fun r => ?_
    refine out_skip ?_ fun rs => out_ranges g l rs
    unfold setReadRange
    split
    · exact out_pure _
    · split
      · exact out_pure _
      · exact ⟨⟨fun ⟨_, _, h⟩ => (nomatch h), False.elim⟩, ⟨fun _ => trivial, fun _ => ⟨_, _, rfl⟩⟩⟩
    · split
      · exact out_pure _
      · exact ⟨⟨fun ⟨_, _, h⟩ => (nomatch h), False.elim⟩, ⟨fun _ => trivial, fun _ => ⟨_, _, rfl⟩⟩⟩

theorem crash_snippet (env : RdfEnv) (b : Bindings) (g : RdfGraph) (ns : Str) (n : RdfNode) : Crash (readSnippet env b g ns n) (BadSnippet env g ns n) := by
  unfold readSnippet BadSnippet
  refine crash_after (pyOut_id b ns n) fun _ => ?_
  have hf : PyOut (readIdOf b ns (someValue g n .snippetFromFile)) (∃ f, (values g n .snippetFromFile).head? = some f ∧ LiteralId ns f)
      (¬ ∃ f, (values g n .snippetFromFile).head? = some f ∧ LiteralId ns f) := by
    rw [RdfSays.values_eq]
    change PyOut (readIdOf b ns (g.objects n .snippetFromFile).head?) _ _
    cases (g.objects n .snippetFromFile).head? with
    | none => exact ⟨⟨fun ⟨_, _, h⟩ => (nomatch h), fun ⟨_, h, _⟩ => (nomatch h)⟩, ⟨fun _ ⟨_, h, _⟩ => (nomatch h), fun _ => ⟨_, rfl⟩⟩⟩
    | some f =>
      have he : (∃ f', some f = some f' ∧ LiteralId ns f') ↔ LiteralId ns f := ⟨fun ⟨_, e, h⟩ => by cases e; exact h, fun h => ⟨f, rfl, h⟩⟩
      exact (pyOut_id b ns f).congr he.symm (not_congr he.symm)
  refine crash_after hf fun _ => crash_bind ?_ fun _ => crash_construct _ _
  rw [RdfSays.values_eq]
  refine crash_orRaiseIn (R := ¬ ((∃ r ∈ g.objects n .range, BadRange g r) ∨ BadLicenseAt env g ns n .licenseConcluded ∨ BadLicenseIn env g ns n .licenseInfoInSnippet ∨ False)) ?_
  refine Out.congr (out_try (out_ranges g _ _) fun _ => out_try (out_license env g ns n .licenseConcluded) fun _ =>
    out_try (Q' := False) (out_licensesIn env g ns n .licenseInfoInSnippet) fun _ => ?_) (by rw [or_false]) .rfl
  repeat first
    | exact out_end _
    | refine out_skip (out_plain thrown_strip _ _ _) fun _ => ?_
    | refine out_skip (out_plainSpecial thrown_stripS _ _ _) fun _ => ?_

/-! ### The creation information -/

theorem crash_val {α β : Type} {x : Py α} {f : α → Py β} {Q : Prop} {Q' : α → Prop} (h : Crash x Q) (hf : ∀ a, x = .ok a → Crash (f a) (Q' a)) :
    Crash (x >>= f) (Q ∨ ∃ a, x = .ok a ∧ Q' a) := by
  unfold Crash at *
  cases x with
  | error e =>
    refine ⟨fun ⟨e', he, h'⟩ => .inl (h.1 ⟨e', he, by cases h'; rfl⟩), fun q => ?_⟩
    rcases q with q | ⟨_, h', _⟩
    · obtain ⟨e', he, h'⟩ := h.2 q
      cases h'
      exact ⟨_, he, rfl⟩
    · cases h'
  | ok a =>
    refine ⟨fun h' => .inr ⟨a, rfl, (hf a rfl).1 h'⟩, fun q => ?_⟩
    rcases q with q | ⟨_, h', q⟩
    · obtain ⟨_, _, h'⟩ := h.2 q
      cases h'
    · cases h'
      exact (hf a rfl).2 q

theorem crash_unheard {α : Type} {p : P α} {Q R : Prop} (h : Out p Q R) : Crash p.unheard Q := by
  have hc := h.crash
  match p with
  | .error e => exact (errs e).trans ((errs e).symm.trans hc)
  | .ok (_, a) => exact ⟨fun ⟨_, _, h⟩ => (nomatch h), fun q => by obtain ⟨_, _, h⟩ := hc.2 q; cases h⟩

/-- a reference to another document, before its prefix is bound -/
def anyRef (g : RdfGraph) (ns : Str) (b : Bindings) (n : RdfNode) : Py ExternalDocumentRef := do
  let id ← readId b ns n
  let (uri, checksum) ← P.unheard do
    let uri ← readLiteral g n .spdxDocument readStrip
    let checksum ← readLiteral g n .checksum (readChecksum g)
    return (uri, checksum)
  construct s%"ExternalDocumentRef"
    (.ok ExternalDocumentRef.mk ⊛ chkSome s%"document_ref_id" id ⊛ chkSome s%"document_uri" uri ⊛ chkSome s%"checksum" checksum)

theorem extRef_eq (g : RdfGraph) (ns : Str) (b : Bindings) (n : RdfNode) : readExtRef g ns b n = anyRef g ns b n >>= fun r =>
    if ' ' ∈ r.documentRefId then .error keyError else .ok (r, b.bind r.documentRefId (r.documentUri ++ s%"#")) := by
  unfold readExtRef anyRef
  simp only [bind_assoc]

theorem anyRef_iff (g : RdfGraph) (ns : Str) (b : Bindings) (n : RdfNode) (r : ExternalDocumentRef) :
    val (anyRef g ns b n) = some r ↔ AnyExternalRef g b ns n r := by
  have hr : AnyExternalRef g b ns n r ↔ (do
      let id ← needed (parseRdfId b ns n)
      let uri ← needed (rdfLiteral g n .spdxDocument stripText)
      let checksum ← needed (rdfLiteral g n .checksum (parseRdfChecksum g))
      some (ExternalDocumentRef.mk id uri checksum)) = some r := by
    simp only [Option.bind_eq_bind, Option.bind_eq_some_iff]
    constructor
    · intro ⟨h1, h2, h3⟩
      exact ⟨_, RdfSays.id_iff.2 h1, _, (RdfSays.oneN_iff RdfSays.text_iff).2 h2, _, (RdfSays.oneN_iff (RdfSays.checksum_iff g)).2 h3, rfl⟩
    · rintro ⟨_, h1, _, h2, _, h3, e⟩
      cases e
      exact ⟨RdfSays.id_iff.1 h1, (RdfSays.oneN_iff RdfSays.text_iff).1 h2, (RdfSays.oneN_iff (RdfSays.checksum_iff g)).1 h3⟩
  rw [hr]
  unfold anyRef
  values
  simp only [(agree_id b ns).val, val_unheard, RdfReport.out_bind, RdfReport.out_pure]
  steps
  simp only [← clean_literal agree_strip, ← clean_literal (agree_checksum g)]
  have hn : ∀ {β : Type} (o : Option (Option β)) (y : β), needed o = some y ↔ o = some (some y) := by
    intro β o y
    cases o with
    | none => exact ⟨fun h => (nomatch h), fun h => (nomatch h)⟩
    | some o => exact ⟨fun h => congrArg some h, fun h => Option.some.inj h⟩
  simp only [hn, ← RdfReport.out_literal]
  constructor
  · rintro ⟨o1, h1, _, ⟨o2, h2, o3, h3, rfl⟩, f1, e1, f2, e2, e3⟩
    cases o1 with
    | none => cases e1
    | some _ => cases o2 with
      | none => cases e2
      | some _ => cases o3 with
        | none => cases e3
        | some _ =>
          cases e1
          cases e2
          cases e3
          exact ⟨_, h1, _, h2, _, h3, rfl⟩
  · rintro ⟨_, h1, _, h2, _, h3, rfl⟩
    exact ⟨_, h1, _, ⟨_, h2, _, h3, rfl⟩, _, rfl, _, rfl, rfl⟩

theorem crash_anyRef (g : RdfGraph) (ns : Str) (b : Bindings) (n : RdfNode) : Crash (anyRef g ns b n) (LiteralId ns n) := by
  unfold anyRef
  refine Crash.congr (crash_after (Q' := False) (pyOut_id b ns n) fun _ => crash_bind ?_ fun _ => crash_construct _ _) (by rw [or_false])
  refine crash_unheard (R := True) ?_
  exact out_skip (out_plain thrown_strip _ _ _) fun _ => out_skip (out_plain (fun v => thrown_of_crash (crash_checksum g v)) _ _ _) fun _ => out_pure _

theorem crash_extRef (g : RdfGraph) (ns : Str) (b : Bindings) (n : RdfNode) :
    Crash (readExtRef g ns b n) (LiteralId ns n ∨ ∃ r, AnyExternalRef g b ns n r ∧ ' ' ∈ r.documentRefId) := by
  rw [extRef_eq]
  refine (crash_val (Q' := fun r => ' ' ∈ r.documentRefId) (crash_anyRef g ns b n) fun r _ => ?_).congr (or_congr .rfl ?_)
  · by_cases h : ' ' ∈ r.documentRefId
    · rw [if_pos h]
      exact ⟨fun _ => h, fun _ => ⟨_, notParsing_other _, rfl⟩⟩
    · rw [if_neg h]
      exact ⟨fun ⟨_, _, h⟩ => (nomatch h), fun q => absurd q h⟩
  · exact ⟨fun ⟨r, h, q⟩ => ⟨r, (anyRef_iff ..).1 (val_ok.2 h), q⟩, fun ⟨r, h, q⟩ => ⟨r, val_ok.1 ((anyRef_iff ..).2 h), q⟩⟩

theorem crash_extRefs (g : RdfGraph) (ns : Str) : ∀ l b, Crash (readExtRefs g ns b l) (BadExternalRefs g ns b l)
  | [], b => ⟨fun ⟨_, _, h⟩ => (nomatch h), fun h => by cases h⟩
  | n :: l, b => by
    rw [readExtRefs]
    refine (crash_val (Q' := fun x => BadExternalRefs g ns x.2 l) (crash_extRef g ns b n) fun x _ => ?_).congr ?_
    · obtain ⟨r, b'⟩ := x
      exact crash_bind (crash_extRefs g ns l b') fun _ => ⟨fun ⟨_, _, h⟩ => (nomatch h), False.elim⟩
    · constructor
      · rintro ((h | ⟨r, h, hb⟩) | ⟨⟨r, b'⟩, h, hl⟩)
        · exact .literal h
        · exact .blank h hb
        · obtain ⟨h1, h2⟩ := (RdfSays.extRef_iff ..).1 ((extRef_val ..).symm.trans (val_ok.2 h))
          subst h2
          exact .later h1 hl
      · intro h
        cases h with
        | literal h => exact .inl (.inl h)
        | blank h hb => exact .inl (.inr ⟨_, h, hb⟩)
        | later h hl => exact .inr ⟨(_, _), val_ok.1 ((extRef_val ..).trans ((RdfSays.extRef_iff ..).2 ⟨h, rfl⟩)), hl⟩

theorem pyOut_creator (v : RdfNode) : PyOut (readCreator v) (NoText v) (GoodCreator v) := by
  unfold readCreator NoText GoodCreator
  have hr : ∀ s, Raw v s ↔ v.toPyStr = some s := fun s => (RdfSays.toPyStr_iff v s).symm
  simp only [hr]
  cases v.toPyStr with
  | none => exact ⟨⟨fun _ _ h => (nomatch h), fun _ => ⟨_, fun _ h => (by cases h), rfl⟩⟩, ⟨fun ⟨_, h⟩ => (nomatch h), fun ⟨_, _, h, _⟩ => (nomatch h)⟩⟩
  | some s =>
    dsimp only
    refine ⟨⟨fun ⟨e, n, h⟩ => ?_, fun h => absurd rfl (h s)⟩, ?_⟩
    · unfold readActor at h
      split at h <;> first | cases h; done | (cases h; exact absurd rfl (n _))
    · unfold readActor
      constructor
      · rintro ⟨a, h⟩
        refine ⟨s, a, rfl, ?_⟩
        split at h <;> first | cases h; assumption | cases h; done
      · rintro ⟨_, a, e, h⟩
        cases e
        rw [h]
        exact ⟨a, rfl⟩

theorem crash_infoNode (b : Bindings) (g : RdfGraph) (ns : Str) (doc i : RdfNode) (ms : List PMsg) : Crash (readInfoNode b g ns doc i ms)
    (FirstBad GoodCreator NoText (values g i .creator) ∨
      ((∀ v ∈ values g i .creator, GoodCreator v) ∧ BadExternalRefs g ns b (values g doc .externalDocumentRef))) := by
  simp only [RdfSays.values_eq]
  unfold readInfoNode readInfoFields
  refine crash_orRaiseIn (R := (∀ v ∈ g.objects i .creator, GoodCreator v) ∧ ∃ a, parseExtRefs g ns b (g.objects doc .externalDocumentRef) = some a) ?_
  refine out_known ?_
  have hc : PyOut ((g.objects i .creator).mapM readCreator) _ _ := pyOut_mapM pyOut_creator _
  have he := pyOut_of (crash_extRefs g ns (g.objects doc .externalDocumentRef) b) (extRefs_val g ns _ b)
  refine out_bind ?_ fun x => out_skip ?_ fun _ => ?_
  · refine Out.congr (out_skip (out_plain thrown_date _ _ _) fun _ => out_skip (out_plain thrown_version _ _ _) fun _ => out_skip (out_plain thrown_strip _ _ _) fun _ =>
      out_bind (out_lift hc) fun _ => out_pure _) (by simp) (by simp)
  · cases x.2.2.2 with
    | nil => exact ⟨⟨fun ⟨_, _, h⟩ => (nomatch h), False.elim⟩, ⟨fun _ => trivial, fun _ => ⟨_, _, rfl⟩⟩⟩
    | cons => exact ⟨⟨fun ⟨_, _, h⟩ => (nomatch h), False.elim⟩, ⟨fun _ => trivial, fun _ => ⟨_, _, rfl⟩⟩⟩
  · exact Out.congr (out_bind (out_lift he) fun _ => out_pure _) (by simp) (by simp)

theorem namespace_cases (env : RdfEnv) (g : RdfGraph) : (NoDocument env g ∧ readNamespace env g = .error systemExit) ∨
    (¬ NoDocument env g ∧ ∃ doc id, nodes g s%"SpdxDocument" = [doc] ∧ readNamespace env g = .ok (env.defrag doc.text, id, doc)) := by
  unfold NoDocument readNamespace
  rw [RdfSays.nodes_eq]
  match g.subjects .type (spdxTerm s%"SpdxDocument") with
  | [] => exact .inl ⟨fun ⟨_, h, _⟩ => (nomatch h), rfl⟩
  | [n] =>
    dsimp only
    by_cases h1 : '#' ∈ n.text
    · rw [if_pos h1]
      by_cases h2 : env.defrag n.text = []
      · rw [if_pos h2]
        exact .inl ⟨fun ⟨_, h, _, h'⟩ => by cases h; exact h' h2, rfl⟩
      · rw [if_neg h2]
        exact .inr ⟨fun h => h ⟨n, rfl, h1, h2⟩, n, _, rfl, rfl⟩
    · rw [if_neg h1]
      exact .inl ⟨fun ⟨_, h, h', _⟩ => by cases h; exact h1 h', rfl⟩
  | _ :: _ :: _ => exact .inl ⟨fun ⟨_, h, _⟩ => (nomatch h), rfl⟩

theorem out_docFields (g : RdfGraph) (doc : RdfNode) : Out (readDocFields g doc) False True := by
  unfold readDocFields
  exact out_skip (out_plain thrown_strip _ _ _) fun _ => out_skip (out_plain thrown_dataLicense _ _ _) fun _ => out_skip (out_plain thrown_strip _ _ _) fun _ =>
    out_skip (out_plain thrown_strip _ _ _) fun _ => out_pure _

theorem crash_creationInfo (env : RdfEnv) (b : Bindings) (g : RdfGraph) :
    Crash (readCreationInfo env b g) (NoDocument env g ∨ (¬ NoDocument env g ∧ BadInfo env b g)) := by
  unfold readCreationInfo
  rcases namespace_cases env g with ⟨hn, h⟩ | ⟨hn, doc, id, hd, h⟩
  · rw [h]
    exact ⟨fun _ => .inl hn, fun _ => ⟨_, notParsing_other _, rfl⟩⟩
  · rw [h]
    obtain ⟨ms, f, hf⟩ := (out_docFields g doc).goes.2 trivial
    have hb : BadInfo env b g ↔ ∃ i, ((g.subjects .type (spdxTerm s%"CreationInfo")).head?).filter RdfNode.truthy = some i ∧
        (FirstBad GoodCreator NoText (values g i .creator) ∨
          ((∀ v ∈ values g i .creator, GoodCreator v) ∧ BadExternalRefs g (env.defrag doc.text) b (values g doc .externalDocumentRef))) := by
      unfold BadInfo
      rw [hd, RdfSays.nodes_eq]
      constructor
      · rintro ⟨_, i, e, hi, ht, h⟩
        cases e
        refine ⟨i, ?_, h⟩
        rw [hi]
        refine Option.filter_some_pos ?_
        cases ht' : i.truthy with
        | true => rfl
        | false => exact absurd ((RdfSays.truthy_iff i).1 ht') ht
      · rintro ⟨i, hi, h⟩
        obtain ⟨h1, h2⟩ := Option.filter_eq_some_iff.1 hi
        exact ⟨doc, i, rfl, h1, fun hb => (by rw [(RdfSays.truthy_iff i).2 hb] at h2; cases h2), h⟩
    refine Crash.congr (Q := BadInfo env b g) ?_ ⟨fun h => .inr ⟨hn, h⟩, fun h => h.elim (fun h => absurd h hn) And.right⟩
    refine Crash.congr ?_ hb.symm
    change Crash (match readDocFields g doc with | .error e => .error e | .ok (logged, version, license, comment, name) => _) _
    rw [hf]
    obtain ⟨version, license, comment, name⟩ := f
    dsimp only
    cases ((g.subjects .type (spdxTerm s%"CreationInfo")).head?).filter RdfNode.truthy with
    | none => exact ⟨fun ⟨_, n, h⟩ => by cases h; exact absurd rfl (n _), fun ⟨_, h, _⟩ => (nomatch h)⟩
    | some i =>
      dsimp only
      refine Crash.congr (crash_bind (crash_infoNode b g _ doc i ms) fun _ => crash_bind (crash_construct _ _) fun _ => ⟨fun ⟨_, _, h⟩ => (nomatch h), False.elim⟩) ?_
      exact ⟨fun h => ⟨i, rfl, h⟩, fun ⟨_, e, h⟩ => by cases e; exact h⟩

/-! ### The elements together -/

theorem out_raised {α : Type} {e : PyErr} {Q : Prop} (he : NotParsing e) (h : (∃ e', NotParsing e' ∧ (.error e : Py α) = .error e') ↔ Q) : Out (α := Option α) (Except.error e) Q (¬ Q) :=
  ⟨⟨fun _ => h.1 ⟨e, he, rfl⟩, fun _ => ⟨e, he, rfl⟩⟩, ⟨fun ⟨_, _, h⟩ => (nomatch h), fun n => absurd (h.1 ⟨e, he, rfl⟩) n⟩⟩

theorem out_part {α : Type} {x : Py α} {Q : Prop} (h : Crash x Q) : Out (part x) Q (¬ Q) := by
  unfold Crash at h
  match x, h with
  | .ok a, h =>
    have nq : ¬ Q := fun q => by obtain ⟨_, _, h⟩ := h.2 q; cases h
    exact ⟨⟨fun ⟨_, _, h⟩ => (nomatch h), fun q => absurd q nq⟩, ⟨fun _ => nq, fun _ => ⟨_, _, rfl⟩⟩⟩
  | .error (.parsing ms), h =>
    have nq : ¬ Q := fun q => by obtain ⟨_, n, h⟩ := h.2 q; cases h; exact n ms rfl
    exact ⟨⟨fun ⟨_, _, h⟩ => (nomatch h), fun q => absurd q nq⟩, ⟨fun _ => nq, fun _ => ⟨_, _, rfl⟩⟩⟩
  | .error (.type s), h => exact out_raised (fun _ e => by cases e) h
  | .error (.value s), h => exact out_raised (fun _ e => by cases e) h
  | .error (.other s), h => exact out_raised (fun _ e => by cases e) h

theorem out_all {ν α : Type} {m : ν → Py α} {Q : ν → Prop} (h : ∀ n, Crash (m n) (Q n)) : ∀ l, Out (readAll m l) (∃ n ∈ l, Q n) (¬ ∃ n ∈ l, Q n)
  | [] => (out_pure _).congr ⟨False.elim, fun ⟨_, h, _⟩ => (nomatch h)⟩ ⟨fun _ ⟨_, h, _⟩ => (nomatch h), fun _ => trivial⟩
  | n :: l => by
    rw [readAll]
    have he : (Q n ∨ (∃ n ∈ l, Q n) ∨ False) ↔ ∃ r ∈ n :: l, Q r := by simp
    exact Out.congr (out_try (out_part (h n)) fun _ => out_try (out_all h l) fun _ => out_end _) he (not_congr he)

theorem out_implicits (b : Bindings) (ns : Str) (t : RelationshipType) : ∀ l rels, Out (readImplicits b ns t rels l)
    (∃ e ∈ l, LiteralId ns e.1 ∨ LiteralId ns e.2) (¬ ∃ e ∈ l, LiteralId ns e.1 ∨ LiteralId ns e.2)
  | [], _ => (out_pure _).congr ⟨False.elim, fun ⟨_, h, _⟩ => (nomatch h)⟩ ⟨fun _ ⟨_, h, _⟩ => (nomatch h), fun _ => trivial⟩
  | e :: l, rels => by
    rw [readImplicits]
    have he : ((LiteralId ns e.1 ∨ LiteralId ns e.2) ∨ ∃ e ∈ l, LiteralId ns e.1 ∨ LiteralId ns e.2) ↔ ∃ r ∈ e :: l, LiteralId ns r.1 ∨ LiteralId ns r.2 := by simp
    exact Out.congr (out_try (out_part (crash_implicit b ns t e)) fun _ => out_implicits b ns t l _) he (not_congr he)

theorem crash_rdf (env : RdfEnv) (b : Bindings) (g : RdfGraph) : Crash (readRdf env b g) (Spec.RdfSays.Bad env b g) := by
  unfold readRdf
  refine (crash_val (Q' := fun x => BadElement env g x.1.documentNamespace) (crash_creationInfo env b g) fun x _ => ?_).congr ?_
  · obtain ⟨c, b'⟩ := x
    refine crash_bind ?_ fun _ => ⟨fun ⟨_, _, h⟩ => (nomatch h), False.elim⟩
    unfold BadElement
    simp only [RdfSays.nodes_eq, RdfSays.related_eq]
    have ho := out_try (out_all (crash_package env b' g c.documentNamespace) (g.subjects .type (spdxTerm s%"Package"))) fun packages =>
      out_try (out_all (crash_file env b' g c.documentNamespace) (g.subjects .type (spdxTerm s%"File"))) fun files =>
      out_try (out_all (crash_snippet env b' g c.documentNamespace) (g.subjects .type (spdxTerm s%"Snippet"))) fun snippets =>
      out_try (out_all (crash_annotation b' g c.documentNamespace) (g.pairs .annotation)) fun annotations =>
      out_try (out_all (crash_relationship b' g c.documentNamespace) (g.pairs .relationship)) fun rels =>
      out_try (out_implicits b' c.documentNamespace .CONTAINS (g.pairs .hasFile) rels) fun rels =>
      out_try (out_implicits b' c.documentNamespace .DESCRIBES (g.pairs .describesPackage) rels) fun rels =>
      out_try (out_all (fun e => crash_extracted g c.documentNamespace e.2) (g.pairs .hasExtractedLicensingInfo)) fun extracted =>
      out_end (packages, files, snippets, annotations, rels, extracted)
    exact (crash_orRaise ho).congr (by rw [or_false])
  · constructor
    · rintro ((h | ⟨h, h'⟩) | ⟨⟨c, b'⟩, h, hb⟩)
      · exact .document h
      · exact .info h h'
      · obtain ⟨doc, i, hi⟩ := (RdfSays.info_iff ..).1 ((creationInfo_val ..).symm.trans (val_ok.2 h))
        exact .element hi hb
    · intro h
      cases h with
      | document h => exact .inl (.inl h)
      | info h h' => exact .inl (.inr ⟨h, h'⟩)
      | element hi hb => exact .inr ⟨(_, _), val_ok.1 ((creationInfo_val ..).trans ((RdfSays.info_iff ..).2 ⟨_, _, hi⟩)), hb⟩

end Spdx.RdfCrash
