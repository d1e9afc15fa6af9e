import Verif.Spec.Reported
import Verif.Model.JsonParser
/- How messages travel through the parser functions. -/
namespace Spdx

theorem Mentioned.mono {m : PMsg} {ms ms' : List PMsg} (h : Mentioned m ms) (hs : ∀ x ∈ ms, x ∈ ms') : Mentioned m ms' := by
  cases h with
  | here h => exact .here (hs _ h)
  | inside h h' => exact .inside (hs _ h) h'

theorem Mentioned.left {m : PMsg} {ms : List PMsg} (h : Mentioned m ms) (l : List PMsg) : Mentioned m (ms ++ l) :=
  h.mono fun _ hx => List.mem_append_left _ hx

theorem Mentioned.right {m : PMsg} {ms : List PMsg} (h : Mentioned m ms) (l : List PMsg) : Mentioned m (l ++ ms) :=
  h.mono fun _ hx => List.mem_append_right _ hx

theorem Mentioned.ne_nil {m : PMsg} {ms : List PMsg} (h : Mentioned m ms) : ms ≠ [] := by
  rintro rfl
  cases h with
  | here h => simp at h
  | inside h _ => simp at h

/-- A computation that logs the message whenever it completes and reports it whenever it raises a parsing error. -/
def Logs (p : P α) (m : PMsg) : Prop :=
  match p with
  | .ok (ms, _) => Mentioned m ms
  | .error (.parsing ms) => Mentioned m ms
  | .error _ => True

/-- It raises no parsing error. -/
def Quiet (p : Py α) : Prop := ∀ ms, p ≠ .error (.parsing ms)

/-- It raises no parsing error (it logs instead). -/
def QuietP (p : P α) : Prop := ∀ ms, p ≠ .error (.parsing ms)

theorem quiet_get (j : Json) (k : Str) (dflt : Json) : Quiet (pyGetD j k dflt) := by
  intro ms; unfold pyGetD; split <;> simp

theorem quiet_iter (j : Json) : Quiet (pyIter j) := by intro ms; unfold pyIter; split <;> simp

theorem quiet_ok (a : α) : Quiet (.ok a : Py α) := by intro ms; simp

theorem quiet_bind {x : Py α} {f : α → Py β} (h : Quiet x) (hf : ∀ a, Quiet (f a)) : Quiet (x >>= f) := by
  intro ms
  cases x with
  | error e => intro h'; exact h ms (by cases h'; rfl)
  | ok a => exact hf a ms

theorem quietP_pure (a : α) : QuietP (pure a : P α) := by intro ms h; cases h

theorem quietP_lift {x : Py α} (h : Quiet x) : QuietP (Py.lift x) := by
  intro ms
  cases x with
  | ok a => intro h'; cases h'
  | error e => intro h'; exact h ms (by cases h'; rfl)

theorem quietP_bind {x : P α} {f : α → P β} (h : QuietP x) (hf : ∀ a, QuietP (f a)) : QuietP (x >>= f) := by
  intro ms
  show P.bind x f ≠ _
  match x, h with
  | .error e, h => intro h'; exact h ms (by cases h'; rfl)
  | .ok (ms', a), h =>
    have := hf a ms
    show (match f a with
      | .error e => .error e
      | .ok (ms'', b) => .ok (ms' ++ ms'', b) : P β) ≠ _
    cases hfa : f a with
    | ok y => intro h'; cases h'
    | error e => rw [hfa] at this; intro h'; exact this (by cases h'; rfl)

theorem logged_none {e : PyErr} (h : e.logged = none) (ms : List PMsg) : e ≠ .parsing ms := by
  rintro rfl; simp [PyErr.logged] at h

theorem parseField_error {j : Json} {f : Json → Py α} {e : PyErr} (h : f j = .error e) (ht : j.truthy = true) :
    parseField j f = (match e.logged with
      | some ms => .ok (ms, none)
      | none => .error e : P (Option α)) := by
  refine (if_pos ht).trans ?_
  rw [h]; rfl

theorem parseField_falsy {j : Json} {f : Json → Py α} (ht : ¬ j.truthy = true) : parseField j f = (pure none : P (Option α)) := by
  exact if_neg ht

theorem parseField_ok {j : Json} {f : Json → Py α} {a : α} (h : f j = .ok a) (ht : j.truthy = true) :
    parseField j f = (pure (some a) : P (Option α)) := by
  refine (if_pos ht).trans ?_
  rw [h]; rfl

theorem quietP_field (j : Json) (f : Json → Py α) : QuietP (parseField j f) := by
  by_cases ht : j.truthy = true
  · cases h : f j with
    | ok a => rw [parseField_ok h ht]; exact quietP_pure _
    | error e =>
      rw [parseField_error h ht]
      intro ms
      cases hl : e.logged with
      | some ms => intro h'; cases h'
      | none => intro h'; cases h'; exact logged_none hl ms rfl
  · rw [parseField_falsy ht]; exact quietP_pure _

theorem quietP_collect (f : Json → Py α) (l : List Json) : QuietP (collect f l) := by
  intro ms
  induction l generalizing ms with
  | nil => intro h; cases h
  | cons j l ih =>
    unfold collect
    cases f j with
    | ok a => cases h : collect f l with
      | ok x => intro h'; cases h'
      | error e => intro h'; cases h'; exact ih ms h
    | error e => cases hl : e.logged with
      | none => intro h'; simp only [hl] at h'; cases h'; exact logged_none hl ms rfl
      | some ms' => cases h : collect f l with
        | ok x => simp only [hl]; intro h'; cases h'
        | error e => simp only [hl]; intro h'; cases h'; exact ih ms h

theorem quietP_collectPackages (L : LicText) (l : List Json) : QuietP (collectPackages L l) := by
  intro ms
  induction l generalizing ms with
  | nil => intro h; cases h
  | cons j l ih =>
    unfold collectPackages
    cases parsePackage L j with
    | ok a => cases h : collectPackages L l with
      | ok x => intro h'; cases h'
      | error e => intro h'; cases h'; exact ih ms h
    | error e => cases hl : e.logged with
      | none => intro h'; simp only [hl] at h'; cases h'; exact logged_none hl ms rfl
      | some ms' => cases h : collectPackages L l with
        | ok x => simp only [hl]; intro h'; cases h'
        | error e => simp only [hl]; intro h'; cases h'; exact ih ms h

theorem quietP_part (x : Py α) : QuietP (part x) := by
  intro ms
  match x with
  | .ok a => intro h; cases h
  | .error (.parsing ms) => intro h; cases h
  | .error (.type _) => intro h; cases h
  | .error (.value _) => intro h; cases h
  | .error (.other _) => intro h; cases h

theorem quietP_optPart (j : Json) (f : Json → Py α) : QuietP (optPart j f) := by
  by_cases h : j.truthy = true
  · have e : optPart j f = part (f j) := if_pos h
    rw [e]; exact quietP_part _
  · have e : optPart j f = pure none := if_neg h
    rw [e]; exact quietP_pure _

theorem quietP_collectFields (f : Json → Py α) (l : List Json) : QuietP (collectFields f l) := by
  induction l with
  | nil => exact quietP_pure _
  | cons j l ih => exact quietP_bind (quietP_field _ _) fun _ => quietP_bind ih fun _ => quietP_pure _

theorem quietP_annotationsFrom (l : List Json) : QuietP (annotationsFrom l) := by
  induction l with
  | nil => exact quietP_pure _
  | cons j l ih =>
    exact quietP_bind (quietP_lift (quiet_get _ _ _)) fun _ => quietP_bind (quietP_lift (quiet_get _ _ _)) fun _ =>
      quietP_bind (quietP_field _ _) fun _ => quietP_bind ih fun _ => quietP_pure _

theorem quiet_deleteDuplicates (j : Json) : Quiet (deleteDuplicates j) := by
  refine quiet_bind (quiet_iter _) fun l => ?_
  intro ms
  split <;> simp

theorem quietP_hasFilesLoop (ex : List Relationship) (l : List Json) : QuietP (hasFilesLoop ex l) := by
  induction l with
  | nil => exact quietP_pure _
  | cons j l ih =>
    refine quietP_bind (quietP_lift (quiet_get _ _ _)) fun _ =>
      quietP_bind (quietP_lift (quiet_bind (quiet_get _ _ _) fun _ => quiet_deleteDuplicates _)) fun _ => quietP_bind ?_ fun _ =>
      quietP_bind ih fun _ => quietP_pure _
    intro ms h; cases h

/-! Messages are kept -/

theorem logs_left {x : P α} {m : PMsg} (h : Logs x m) {f : α → P β} (hf : ∀ a, QuietP (f a)) : Logs (x >>= f) m := by
  show Logs (P.bind x f) m
  match x, h with
  | .error (.parsing ms), h => exact h
  | .error (.type _), h => trivial
  | .error (.value _), h => trivial
  | .error (.other _), h => trivial
  | .ok (ms, a), h =>
    have q := hf a
    show Logs (match f a with
      | .error e => .error e
      | .ok (ms'', b) => .ok (ms ++ ms'', b) : P β) m
    match f a, q with
    | .ok (ms', b), _ => exact Mentioned.left h _
    | .error (.parsing ms'), q => exact absurd rfl (q ms')
    | .error (.type _), q => trivial
    | .error (.value _), q => trivial
    | .error (.other _), q => trivial

theorem logs_right {x : P α} {m : PMsg} {f : α → P β} (hx : QuietP x) (hf : ∀ a ms, x = .ok (ms, a) → Logs (f a) m) :
    Logs (x >>= f) m := by
  show Logs (P.bind x f) m
  match x, hx, hf with
  | .error (.parsing ms), h, _ => exact absurd rfl (h ms)
  | .error (.type _), h, _ => trivial
  | .error (.value _), h, _ => trivial
  | .error (.other _), h, _ => trivial
  | .ok (ms, a), h, hf =>
    have q := hf a ms rfl
    show Logs (match f a with
      | .error e => .error e
      | .ok (ms'', b) => .ok (ms ++ ms'', b) : P β) m
    match f a, q with
    | .ok (ms', b), q => exact Mentioned.right q _
    | .error (.parsing ms'), q => exact q
    | .error (.type _), q => trivial
    | .error (.value _), q => trivial
    | .error (.other _), q => trivial

theorem logs_lift {x : Py α} {m : PMsg} {f : α → P β} (hx : Quiet x) (hf : ∀ a, x = .ok a → Logs (f a) m) :
    Logs (Py.lift x >>= f) m := by
  refine logs_right (quietP_lift hx) fun a ms h => hf a ?_
  cases x with
  | ok b => cases h; rfl
  | error e => cases h

theorem reports_orRaise {p : P α} {m : PMsg} (h : Logs p m) : Reports p.orRaise m := by
  match p, h with
  | .error (.parsing ms), h => exact h
  | .error (.type _), h => trivial
  | .error (.value _), h => trivial
  | .error (.other _), h => trivial
  | .ok ([], a), h => exact absurd rfl h.ne_nil
  | .ok (x :: ms, a), h => exact h

theorem reports_orRaiseIn {p : P α} {m : PMsg} (w : Str) (h : Logs p m) : Reports (p.orRaiseIn w) m := by
  match p, h with
  | .error (.parsing ms), h => exact h
  | .error (.type _), h => trivial
  | .error (.value _), h => trivial
  | .error (.other _), h => trivial
  | .ok ([], a), h => exact absurd rfl h.ne_nil
  | .ok (x :: ms, a), h => exact .inside List.mem_cons_self h

theorem reports_left {x : Py α} {m : PMsg} {f : α → Py β} (h : Reports x m) : Reports (x >>= f) m := by
  match x, h with
  | .error (.parsing ms), h => exact h
  | .error (.type _), h => trivial
  | .error (.value _), h => trivial
  | .error (.other _), h => trivial

theorem reports_right {x : Py α} {m : PMsg} {f : α → Py β} (hx : Quiet x) (hf : ∀ a, x = .ok a → Reports (f a) m) :
    Reports (x >>= f) m := by
  match x, hx, hf with
  | .error (.parsing ms), h, _ => exact absurd rfl (h ms)
  | .error (.type _), h, _ => trivial
  | .error (.value _), h, _ => trivial
  | .error (.other _), h, _ => trivial
  | .ok a, _, hf => exact hf a rfl

theorem logs_crash {e : PyErr} {m : PMsg} (h : e.logged = none) : Logs (.error e : P α) m := by
  cases e <;> simp [PyErr.logged] at h
  trivial

/-- Where type and value errors are logged too, a faulty field is reported. -/
theorem logs_field {j : Json} {f : Json → Py α} {m : PMsg} (ht : j.truthy = true) (h : Faulty (f j) m) : Logs (parseField j f) m := by
  obtain ⟨e, he, hm⟩ := h
  rw [parseField_error he ht]
  cases hl : e.logged with
  | some ms => exact hm ms hl
  | none => exact logs_crash hl

theorem logs_collect {f : Json → Py α} {l : List Json} {j : Json} {m : PMsg} (hj : j ∈ l) (h : Faulty (f j) m) :
    Logs (collect f l) m := by
  have q := quietP_collect f l
  induction l with
  | nil => simp at hj
  | cons x l ih =>
    rcases List.mem_cons.mp hj with rfl | hj
    · obtain ⟨e, he, hm⟩ := h
      have q := quietP_collect f l
      unfold collect
      cases hl : e.logged with
      | none => simp only [he, hl]; exact logs_crash hl
      | some ms =>
        simp only [he, hl]
        match collect f l, q with
        | .ok (ms', b), _ => exact Mentioned.left (hm ms hl) _
        | .error (.parsing ms'), q => exact absurd rfl (q ms')
        | .error (.type _), q => trivial
        | .error (.value _), q => trivial
        | .error (.other _), q => trivial
    · have := ih hj (quietP_collect f l)
      unfold collect at q ⊢
      cases hx : f x with
      | ok a =>
        match collect f l, this with
        | .ok (ms', b), h => exact h
        | .error (.parsing ms'), h => exact h
        | .error (.type _), q => trivial
        | .error (.value _), q => trivial
        | .error (.other _), q => trivial
      | error e =>
        rw [hx] at q
        cases hl : e.logged with
        | some ms =>
          simp only [hl]
          match collect f l, this with
          | .ok (ms', b), h => exact Mentioned.right h _
          | .error (.parsing ms'), h => exact h
          | .error (.type _), q => trivial
          | .error (.value _), q => trivial
          | .error (.other _), q => trivial
        | none => simp only [hl]; exact logs_crash hl

/-- Only parsing errors, and errors that are not logged, come out. -/
def Tame (x : Py α) : Prop := ∀ e, x = .error e → (∃ ms, e = .parsing ms) ∨ e.logged = none

def TameP (x : P α) : Prop := ∀ e, x = .error e → e.logged = none

theorem faulty_of_reports {x : Py α} {m : PMsg} (h : Reports x m) (t : Tame x) : Faulty x m := by
  cases x with
  | ok a => exact h.elim
  | error e =>
    refine ⟨e, rfl, fun ms hl => ?_⟩
    rcases t e rfl with ⟨ms', rfl⟩ | hn
    · simp only [PyErr.logged, Option.some.injEq] at hl
      subst hl; exact h
    · rw [hn] at hl; cases hl

theorem tame_ok (a : α) : Tame (.ok a : Py α) := by intro e h; cases h
theorem tame_parsing (ms : List PMsg) : Tame (.error (.parsing ms) : Py α) := by intro e h; cases h; exact .inl ⟨ms, rfl⟩
theorem tame_get (j : Json) (k : Str) (dflt : Json) : Tame (pyGetD j k dflt) := by
  intro e h; unfold pyGetD at h; split at h
  · cases h
  · cases h; exact .inr rfl
theorem tame_construct (cls : Str) (c : Check α) : Tame (construct cls c) := by
  intro e h
  match c, h with
  | .error fs, h => exact .inl ⟨_, (Except.error.inj h).symm⟩
theorem tame_bind {x : Py α} {f : α → Py β} (h : Tame x) (hf : ∀ a, Tame (f a)) : Tame (x >>= f) := by
  intro e he
  cases x with
  | error e' => cases he; exact h _ rfl
  | ok a => exact hf a e he
theorem tame_orRaise {p : P α} (h : TameP p) : Tame p.orRaise := by
  intro e he
  match p, h, he with
  | .error e', h, he => cases he; exact .inr (h _ rfl)
  | .ok (x :: ms, a), _, he => cases he; exact .inl ⟨_, rfl⟩
theorem tame_orRaiseIn {p : P α} (w : Str) (h : TameP p) : Tame (p.orRaiseIn w) := by
  intro e he
  match p, h, he with
  | .error e', h, he => cases he; exact .inr (h _ rfl)
  | .ok (x :: ms, a), _, he => cases he; exact .inl ⟨_, rfl⟩

theorem tameP_pure (a : α) : TameP (pure a : P α) := by intro e h; cases h
theorem tameP_lift {x : Py α} (h : Tame x) (q : Quiet x) : TameP (Py.lift x) := by
  intro e he
  cases x with
  | ok a => cases he
  | error e' =>
    cases he
    rcases h _ rfl with ⟨ms, rfl⟩ | hn
    · exact absurd rfl (q ms)
    · exact hn
theorem tameP_get (j : Json) (k : Str) (dflt : Json) : TameP (Py.lift (pyGetD j k dflt)) :=
  tameP_lift (tame_get _ _ _) (quiet_get _ _ _)
theorem tameP_bind {x : P α} {f : α → P β} (h : TameP x) (hf : ∀ a, TameP (f a)) : TameP (x >>= f) := by
  intro e he
  change P.bind x f = _ at he
  match x, h with
  | .error e', h => cases he; exact h _ rfl
  | .ok (ms', a), h =>
    have := hf a e
    change (match f a with
      | .error e => .error e
      | .ok (ms'', b) => .ok (ms' ++ ms'', b) : P β) = _ at he
    cases hfa : f a with
    | ok y => rw [hfa] at he; cases he
    | error e' => rw [hfa] at he this; cases he; exact this rfl
theorem tameP_field (j : Json) (f : Json → Py α) : TameP (parseField j f) := by
  by_cases ht : j.truthy = true
  · cases h : f j with
    | ok a => rw [parseField_ok h ht]; exact tameP_pure _
    | error e =>
      rw [parseField_error h ht]
      intro e' he
      cases hl : e.logged with
      | some ms => rw [hl] at he; cases he
      | none => rw [hl] at he; cases he; exact hl
  · rw [parseField_falsy ht]; exact tameP_pure _
theorem tameP_collect (f : Json → Py α) (l : List Json) : TameP (collect f l) := by
  induction l with
  | nil => intro e h; cases h
  | cons j l ih =>
    intro e he
    unfold collect at he
    cases hj : f j with
    | ok a => cases h : collect f l with
      | ok x => rw [hj, h] at he; cases he
      | error e => rw [hj, h] at he; cases he; exact ih _ h
    | error e' => cases hl : e'.logged with
      | none => rw [hj] at he; simp only [hl] at he; cases he; exact hl
      | some ms' => cases h : collect f l with
        | ok x => rw [hj, h] at he; simp only [hl] at he; cases he
        | error e => rw [hj, h] at he; simp only [hl] at he; cases he; exact ih _ h

/-- Solves goals about the absence of raised parsing errors by following the structure of the computation. -/
macro "quiet" : tactic => `(tactic| repeat' (first
  | exact quiet_get _ _ _ | exact quiet_iter _ | exact quiet_ok _ | exact quietP_pure _ | exact quietP_field _ _
  | exact quietP_collect _ _ | exact quietP_collectFields _ _ | exact quietP_annotationsFrom _ | exact quietP_part _
  | exact quietP_optPart _ _ | exact quietP_collectPackages _ _ | exact quiet_deleteDuplicates _
  | refine quietP_lift ?_ | refine quietP_bind ?_ fun _ => ?_ | refine quiet_bind ?_ fun _ => ?_))

macro "tame" : tactic => `(tactic| repeat' (first
  | exact tame_get _ _ _ | exact tameP_get _ _ _ | exact tame_ok _ | exact tame_construct _ _ | exact tame_parsing _
  | exact tameP_pure _ | exact tameP_field _ _
  | exact tameP_collect _ _ | refine tame_orRaise ?_ | refine tame_orRaiseIn _ ?_
  | refine tameP_bind ?_ fun _ => ?_ | refine tame_bind ?_ fun _ => ?_ | split))

theorem faulty_list {f : Json → Py α} {l : List Json} {j : Json} {m : PMsg} (hj : j ∈ l)
    (h : Faulty (f j) m) : Faulty (parseList f (.arr l)) m :=
  faulty_of_reports (reports_orRaise (logs_collect hj h)) (tame_orRaise (tameP_collect f l))

theorem HasField.get {j : Json} {key : Str} {v : Json} (h : HasField j key v) (dflt : Json) : pyGetD j key dflt = .ok v := by
  obtain ⟨fields, rfl, hv⟩ := h
  simp only [pyGetD, hv, Option.getD_some]

theorem truthy_of_mem {l : List Json} {e : Json} (h : e ∈ l) : (Json.arr l).truthy = true := by
  cases l with
  | nil => simp at h
  | cons => rfl

end Spdx
