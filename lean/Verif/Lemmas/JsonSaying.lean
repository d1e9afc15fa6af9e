import Verif.Spec.JsonFaults
import Verif.Lemmas.JsonReadElems
import Verif.Lemmas.JsonCrash
/- Each parser function of the JSON-like formats says what `Spec/JsonFaults` says it does. -/
namespace Spdx.JsonSaying
open Spdx Spdx.Spec Spdx.Spec.JsonFaults
open JsonSays (Obj valueAt Blank Items Object Field Entries)
open Spdx.JsonSays (Reads reads_date reads_actor reads_actorOrNoAssertion reads_version reads_enum reads_license reads_list reads_object)
open RdfSays (All2)

/-- What is logged about the computation by the functions that call it; `none` if its exception is not caught. -/
def said {α : Type} (x : Py α) : Option (List PMsg) :=
  match x with
  | .ok _ => some []
  | .error e => e.logged

structure Tells {α : Type} (m : Json → Py α) (R : Json → α → Prop) (A : About) : Prop where
  reads : Reads m R
  iff : ∀ v ms, said (m v) = some ms ↔ A v ms

theorem said_nil {α : Type} {x : Py α} (hn : NE x) : said x = some [] ↔ ∃ a, x = .ok a := by
  match x with
  | .ok a => exact ⟨fun _ => ⟨a, rfl⟩, fun _ => rfl⟩
  | .error (.parsing ms) =>
    refine ⟨fun h => ?_, fun ⟨a, h⟩ => (by cases h)⟩
    cases h; exact absurd rfl hn
  | .error (.type m) => exact ⟨fun h => (by cases h), fun ⟨a, h⟩ => (by cases h)⟩
  | .error (.value m) => exact ⟨fun h => (by cases h), fun ⟨a, h⟩ => (by cases h)⟩
  | .error (.other m) => exact ⟨fun h => (by cases h), fun ⟨a, h⟩ => (by cases h)⟩

/-! ### Lists of messages -/

theorem all2_length {α β : Type} {R : α → β → Prop} {l : List α} {m : List β} (h : All2 R l m) : l.length = m.length := by
  induction h with
  | nil => rfl
  | cons _ _ ih => simp [ih]

theorem concat_nil {ms : List PMsg} : Concat [] ms ↔ ms = [] := by
  constructor
  · rintro ⟨mss, h, rfl⟩; cases h; rfl
  · rintro rfl; exact ⟨[], .nil, rfl⟩

theorem concat_cons {F : List PMsg → Prop} {Fs : List (List PMsg → Prop)} {ms : List PMsg} :
    Concat (F :: Fs) ms ↔ ∃ a b, F a ∧ Concat Fs b ∧ ms = a ++ b := by
  constructor
  · rintro ⟨mss, h, rfl⟩
    cases h with
    | cons h1 h2 => exact ⟨_, _, h1, ⟨_, h2, rfl⟩, rfl⟩
  · rintro ⟨a, b, h1, ⟨mss, h2, rfl⟩, rfl⟩
    exact ⟨_, .cons h1 h2, rfl⟩

/-! ### Computations with a logger -/

/-- The computation logs this, and if it logs nothing its value is one of these. -/
structure Logs1 {α : Type} (p : P α) (F : List PMsg → Prop) (K : α → Prop) : Prop where
  iff : ∀ fs, (∃ t, p = .ok (fs, t)) ↔ F fs
  val : ∀ t, p = .ok ([], t) → K t

abbrev Logs {α : Type} (p : P α) (F : List (List PMsg → Prop)) (K : α → Prop) : Prop := Logs1 p (Concat F) K

theorem pbind_ok {α β : Type} {p : P α} {f : α → P β} {ms : List PMsg} {b : β} :
    (p >>= f) = .ok (ms, b) ↔ ∃ m1 a m2, p = .ok (m1, a) ∧ f a = .ok (m2, b) ∧ ms = m1 ++ m2 := by
  have hb : ∀ (ms : List PMsg) (a : α) (y : Except PyErr (List PMsg × β)), y = f a → (@Bind.bind P _ α β (Except.ok (ms, a)) f) = match y with
      | .error e => .error e
      | .ok (ms', b) => .ok (ms ++ ms', b) := fun ms a y h => by rw [h]; rfl
  match p with
  | .error e =>
    constructor
    · intro h; cases h
    · rintro ⟨_, _, _, h, _⟩; cases h
  | .ok (m1, a) =>
    constructor
    · intro h
      match hf : f a with
      | .error e => rw [hb m1 a _ hf.symm] at h; cases h
      | .ok (m2, b') =>
        rw [hb m1 a _ hf.symm] at h
        cases h
        exact ⟨m1, a, m2, rfl, hf, rfl⟩
    · rintro ⟨m1', a', m2, h1, h2, rfl⟩
      cases h1
      exact hb m1 a _ h2.symm

theorem logs_cons {α β : Type} {p : P α} {f : α → P β} {F : List PMsg → Prop} {Fs : List (List PMsg → Prop)} {K1 : α → Prop} {K : β → Prop}
    (h : Logs1 p F K1) (hf : ∀ a, Logs (f a) Fs fun t => K1 a → K t) : Logs (p >>= f) (F :: Fs) K where
  iff fs := by
    rw [concat_cons]
    constructor
    · rintro ⟨t, ht⟩
      obtain ⟨m1, a, m2, h1, h2, rfl⟩ := pbind_ok.1 ht
      exact ⟨m1, m2, (h.iff m1).1 ⟨a, h1⟩, ((hf a).iff m2).1 ⟨t, h2⟩, rfl⟩
    · rintro ⟨m1, m2, h1, h2, rfl⟩
      obtain ⟨a, ha⟩ := (h.iff m1).2 h1
      obtain ⟨t, ht⟩ := ((hf a).iff m2).2 h2
      exact ⟨t, pbind_ok.2 ⟨m1, a, m2, ha, ht, rfl⟩⟩
  val t ht := by
    obtain ⟨m1, a, m2, h1, h2, he⟩ := pbind_ok.1 ht
    obtain ⟨rfl, rfl⟩ := List.append_eq_nil_iff.1 he.symm
    exact (hf a).val t h2 (h.val a h1)

theorem logs_pure {α : Type} {a : α} {K : α → Prop} (h : K a) : Logs (pure a) [] K where
  iff fs := by
    rw [concat_nil]
    exact ⟨fun ⟨t, h⟩ => (by cases h; rfl), fun h => ⟨a, by rw [h]; rfl⟩⟩
  val t ht := by cases ht; exact h

theorem logs1_of {α : Type} {p : P α} {F : List PMsg → Prop} {K : α → Prop} (h : Logs p [F] K) : Logs1 p F K where
  iff fs := by
    rw [h.iff, concat_cons]
    simp only [concat_nil]
    constructor
    · rintro ⟨a, b, h, rfl, rfl⟩; rwa [List.append_nil]
    · intro h; exact ⟨fs, [], h, rfl, (List.append_nil _).symm⟩
  val := h.val

theorem logs_of {α : Type} {p : P α} {F : List PMsg → Prop} {K : α → Prop} (h : Logs1 p F K) : Logs p [F] K where
  iff fs := by
    rw [h.iff, concat_cons]
    simp only [concat_nil]
    constructor
    · intro h; exact ⟨fs, [], h, rfl, (List.append_nil _).symm⟩
    · rintro ⟨a, b, h, rfl, rfl⟩; rwa [List.append_nil]
  val := h.val

theorem logs1_mono {α : Type} {p : P α} {F : List PMsg → Prop} {K K' : α → Prop} (h : Logs1 p F K) (hk : ∀ t, K t → K' t) : Logs1 p F K' :=
  ⟨h.iff, fun t ht => hk t (h.val t ht)⟩

theorem logs1_congr {α : Type} {p : P α} {F G : List PMsg → Prop} {K : α → Prop} (h : Logs1 p F K) (e : ∀ ms, F ms ↔ G ms) : Logs1 p G K :=
  ⟨fun ms => (h.iff ms).trans (e ms), h.val⟩

/-- The computation raises only what no parser function catches. -/
def Hard {α : Type} (p : P α) : Prop := ∀ e, p = .error e → e.logged = none

theorem hard_bind {α β : Type} {p : P α} {f : α → P β} (h : Hard p) (hf : ∀ a, Hard (f a)) : Hard (p >>= f) := by
  have hb : ∀ (ms : List PMsg) (a : α) (y : Except PyErr (List PMsg × β)), y = f a → (@Bind.bind P _ α β (Except.ok (ms, a)) f) = match y with
      | .error e => .error e
      | .ok (ms', b) => .ok (ms ++ ms', b) := fun ms a y h => by rw [h]; rfl
  intro e he
  match p, h with
  | .error e', h => cases he; exact h e rfl
  | .ok (ms, a), _ =>
    match hg : f a with
    | .error e' =>
      rw [hb ms a _ hg.symm] at he
      cases he
      exact hf a e hg
    | .ok (ms', b) => rw [hb ms a _ hg.symm] at he; cases he

theorem hard_ok {α : Type} (x : List PMsg × α) : Hard (.ok x : P α) := fun _ h => by cases h
theorem hard_pure {α : Type} (a : α) : Hard (pure a : P α) := fun _ h => by cases h

theorem parseField_logged {α : Type} {m : Json → Py α} {v : Json} {e : PyErr} (ht : v.truthy = true) (h : m v = .error e) :
    parseField v m = (match e.logged with
      | some ms => .ok (ms, none)
      | none => .error e : P (Option α)) := by
  unfold parseField; rw [h]; exact if_pos ht
theorem parseField_blank {α : Type} {m : Json → Py α} {v : Json} (ht : ¬ v.truthy = true) : parseField v m = .ok ([], none) := if_neg ht

theorem hard_field {α : Type} (v : Json) (m : Json → Py α) : Hard (parseField v m) := by
  intro e he
  by_cases ht : v.truthy = true
  · cases hm : m v with
    | ok a => rw [parseField_some ht hm] at he; cases he
    | error e' =>
      rw [parseField_logged ht hm] at he
      cases hl : e'.logged with
      | some ms => rw [hl] at he; cases he
      | none => rw [hl] at he; cases he; exact hl
  · rw [parseField_blank ht] at he; cases he

macro "hard" : tactic => `(tactic| repeat (first | exact hard_pure _ | exact hard_ok _ | exact hard_field _ _ | refine hard_bind ?_ fun _ => ?_))

theorem logs_field {α : Type} {m : Json → Py α} {R : Json → α → Prop} {A : About} (t : Tells m R A) {v : Json} :
    Logs1 (parseField v m) (orBlank A v) (Field R v) where
  iff fs := by
    unfold orBlank
    rw [JsonSays.blank_iff]
    by_cases ht : v.truthy = true
    · have hv := t.iff v fs
      cases hm : m v with
      | ok a =>
        rw [hm] at hv
        rw [parseField_some ht hm]
        constructor
        · rintro ⟨x, hx⟩; cases hx
          exact .inr ⟨by simpa using ht, hv.1 rfl⟩
        · rintro (⟨h, _⟩ | ⟨_, h⟩)
          · exact absurd ht h
          · have := hv.2 h
            cases this
            exact ⟨some a, rfl⟩
      | error e =>
        rw [hm] at hv
        have hv : e.logged = some fs ↔ A v fs := hv
        rw [parseField_logged ht hm]
        constructor
        · rintro ⟨x, hx⟩
          cases hl : e.logged with
          | none => rw [hl] at hx; cases hx
          | some ms => rw [hl] at hx; cases hx; exact .inr ⟨by simpa using ht, hv.1 hl⟩
        · rintro (⟨h, _⟩ | ⟨_, h⟩)
          · exact absurd ht h
          · exact ⟨none, by rw [hv.2 h]⟩
    · rw [parseField_blank ht]
      constructor
      · rintro ⟨x, hx⟩; cases hx; exact .inl ⟨ht, rfl⟩
      · rintro (⟨_, rfl⟩ | ⟨h, _⟩)
        · exact ⟨none, rfl⟩
        · exact absurd ht h
  val x hx := (JsonSays.field_iff t.reads).1 hx

/-! ### Lists -/

theorem collect_said {α : Type} {m : Json → Py α} {R : Json → α → Prop} {A : About} (t : Tells m R A) (l : List Json) :
    Logs1 (collect m l) (fun fs => ∃ mss, All2 A l mss ∧ fs = mss.flatten) (All2 R l) where
  iff fs := by
    induction l generalizing fs with
    | nil =>
      constructor
      · rintro ⟨x, hx⟩; cases hx; exact ⟨[], .nil, rfl⟩
      · rintro ⟨mss, h, rfl⟩; cases h; exact ⟨[], rfl⟩
    | cons j js ih =>
      have step : (∃ x, collect m (j :: js) = .ok (fs, x)) ↔ ∃ a b, said (m j) = some a ∧ (∃ x, collect m js = .ok (b, x)) ∧ fs = a ++ b := by
        rw [collect.eq_2]
        generalize collect m js = c
        cases hm : m j with
        | ok a =>
          dsimp only
          match c with
          | .ok (ms, as) =>
            constructor
            · rintro ⟨x, hx⟩; cases hx; exact ⟨[], _, rfl, ⟨as, rfl⟩, rfl⟩
            · rintro ⟨a', b, h1, ⟨x, h2⟩, rfl⟩
              cases h1; cases h2
              exact ⟨_, rfl⟩
          | .error e =>
            constructor
            · rintro ⟨x, hx⟩; cases hx
            · rintro ⟨a', b, h1, ⟨x, h2⟩, rfl⟩; cases h2
        | error e =>
          dsimp only
          have hs : said (.error e : Py α) = e.logged := rfl
          rw [hs]
          cases hl : e.logged with
          | none =>
            constructor
            · rintro ⟨x, hx⟩; cases hx
            · rintro ⟨a', b, h1, _⟩; cases h1
          | some ms' =>
            dsimp only
            match c with
            | .ok (ms, as) =>
              constructor
              · rintro ⟨x, hx⟩; cases hx; exact ⟨ms', ms, rfl, ⟨as, rfl⟩, rfl⟩
              · rintro ⟨a', b, h1, ⟨x, h2⟩, rfl⟩
                cases h1; cases h2
                exact ⟨_, rfl⟩
            | .error e =>
              constructor
              · rintro ⟨x, hx⟩; cases hx
              · rintro ⟨a', b, h1, ⟨x, h2⟩, rfl⟩; cases h2
      rw [step]
      simp only [t.iff, ih]
      constructor
      · rintro ⟨a, b, h1, ⟨mss, h2, rfl⟩, rfl⟩
        exact ⟨_, .cons h1 h2, rfl⟩
      · rintro ⟨mss, h, rfl⟩
        cases h with
        | cons h1 h2 => exact ⟨_, _, h1, ⟨_, h2, rfl⟩, rfl⟩
  val xs hxs := (JsonSays.collect_iff t.reads).1 hxs

theorem hard_collect {α : Type} (m : Json → Py α) (l : List Json) : Hard (collect m l) := by
  induction l with
  | nil => intro e he; cases he
  | cons j js ih =>
    intro e he
    unfold collect at he
    cases hm : m j with
    | ok a =>
      rw [hm] at he
      dsimp only at he
      match hc : collect m js with
      | .ok (ms, as) => rw [hc] at he; cases he
      | .error e' => rw [hc] at he; cases he; exact ih _ hc
    | error e' =>
      rw [hm] at he
      dsimp only at he
      cases hl : e'.logged with
      | none => rw [hl] at he; cases he; exact hl
      | some ms' =>
        rw [hl] at he
        dsimp only at he
        match hc : collect m js with
        | .ok (ms, as) => rw [hc] at he; cases he
        | .error e' => rw [hc] at he; cases he; exact ih _ hc

theorem orRaise_said {α : Type} {p : P α} {F : List PMsg → Prop} {K : α → Prop} (h : Logs1 p F K) (hh : Hard p) (ms : List PMsg) :
    said p.orRaise = some ms ↔ F ms := by
  rw [← h.iff]
  match p, hh with
  | .error e, hh =>
    have : said (P.orRaise (.error e : P α)) = none := hh e rfl
    rw [this]
    exact ⟨fun h => (by cases h), fun ⟨t, h⟩ => (by cases h)⟩
  | .ok ([], a), _ => exact ⟨fun h => by cases h; exact ⟨a, rfl⟩, fun ⟨t, h⟩ => by cases h; rfl⟩
  | .ok (m :: l, a), _ => exact ⟨fun h => by cases h; exact ⟨a, rfl⟩, fun ⟨t, h⟩ => by cases h; rfl⟩

theorem orRaiseIn_said {α : Type} {p : P α} {F : List PMsg → Prop} {K : α → Prop} {w : Str} (h : Logs1 p F K) (hh : Hard p) (ms : List PMsg) :
    said (p.orRaiseIn w) = some ms ↔ ∃ fs, F fs ∧ wrap w fs ms := by
  simp only [← h.iff]
  match p, hh with
  | .error e, hh =>
    have : said (P.orRaiseIn w (.error e : P α)) = none := hh e rfl
    rw [this]
    exact ⟨fun h => (by cases h), fun ⟨_, ⟨t, h⟩, _⟩ => (by cases h)⟩
  | .ok ([], a), _ =>
    constructor
    · intro h; cases h; exact ⟨[], ⟨a, rfl⟩, .inl ⟨rfl, rfl⟩⟩
    · rintro ⟨fs, ⟨t, h⟩, hw⟩
      cases h
      rcases hw with ⟨_, rfl⟩ | ⟨h, _⟩
      · rfl
      · exact absurd rfl h
  | .ok (m :: l, a), _ =>
    constructor
    · intro h; cases h; exact ⟨_, ⟨a, rfl⟩, .inr ⟨by simp, rfl⟩⟩
    · rintro ⟨fs, ⟨t, h⟩, hw⟩
      cases h
      rcases hw with ⟨h, _⟩ | ⟨_, rfl⟩
      · cases h
      · rfl

theorem iter_said {α : Type} {g : List Json → Py α} {v : Json} {G : List Json → List PMsg → Prop} (h : ∀ l ms, said (g l) = some ms ↔ G l ms) (ms : List PMsg) :
    said (pyIter v >>= g) = some ms ↔ (∃ l, Items v l ∧ G l ms) ∨ (NoItems v ∧ ms = [notIterable]) := by
  cases hi : pyIter v with
  | ok l =>
    have hl := JsonSays.iter_iff.1 hi
    rw [JsonCrash.ok_bind, h]
    constructor
    · intro hg; exact .inl ⟨l, hl, hg⟩
    · rintro (⟨l', hl', hg⟩ | ⟨hn, _⟩)
      · rwa [JsonCrash.items_unique hl hl']
      · exact absurd ⟨l, hl⟩ hn
  | error e =>
    have he : e = .type s%"not iterable" := by cases v <;> cases hi <;> rfl
    have hn : NoItems v := by
      rintro ⟨l, hl⟩
      rw [JsonSays.iter_iff.2 hl] at hi; cases hi
    subst he
    have : said ((Except.error (.type s%"not iterable") : Py (List Json)) >>= g) = some [notIterable] := rfl
    rw [this]
    constructor
    · intro h; cases h; exact .inr ⟨hn, rfl⟩
    · rintro (⟨l', hl', _⟩ | ⟨_, rfl⟩)
      · exact absurd ⟨l', hl'⟩ hn
      · rfl

theorem tells_list {α : Type} {m : Json → Py α} {R : Json → α → Prop} {A : About} (t : Tells m R A) :
    Tells (parseList m) (JsonSays.ListOf R) (each A) where
  reads := reads_list t.reads (quietP_collect m)
  iff v ms := by
    unfold parseList
    rw [iter_said (G := fun l ms => ∃ mss, All2 A l mss ∧ ms = mss.flatten) fun l ms => orRaise_said (collect_said t l) (hard_collect m l) ms]
    unfold each items
    constructor
    · rintro (⟨l, h1, mss, h2, h3⟩ | h)
      · exact .inl ⟨l, mss, h1, h2, h3⟩
      · exact .inr h
    · rintro (⟨l, mss, h1, h2, h3⟩ | h)
      · exact .inl ⟨l, h1, mss, h2, h3⟩
      · exact .inr h

/-! ### Fields -/

/-- The fields whose check failed. -/
def CheckSays {α : Type} (c : Check α) (names : List Str) : Prop := (names = [] ∧ ∃ a, c = .ok a) ∨ (names ≠ [] ∧ c = .error names)

def Checks {α : Type} (c : Check α) (wrong : List (Str × Prop)) : Prop := ∃ names, Named wrong names ∧ CheckSays c names

theorem named_append {w w' : List (Str × Prop)} {n n' : List Str} (h : Named w n) (h' : Named w' n') : Named (w ++ w') (n ++ n') := by
  induction h with
  | nil => exact h'
  | wrong q _ ih => exact .wrong q ih
  | right q _ ih => exact .right q ih

theorem named_unique {w : List (Str × Prop)} {n n' : List Str} (h : Named w n) (h' : Named w n') : n = n' := by
  induction h generalizing n' with
  | nil => cases h'; rfl
  | wrong q _ ih =>
    cases h' with
    | wrong _ h => rw [ih h]
    | right q' _ => exact absurd q q'
  | right q _ ih =>
    cases h' with
    | wrong q' _ => exact absurd q' q
    | right _ h => exact ih h

theorem checks_ap {α β : Type} {f : Check (α → β)} {a : Check α} {w w' : List (Str × Prop)} (h : Checks f w) (h' : Checks a w') :
    Checks (f ⊛ a) (w ++ w') := by
  obtain ⟨n, hn, hf⟩ := h
  obtain ⟨n', hn', ha⟩ := h'
  refine ⟨n ++ n', named_append hn hn', ?_⟩
  rcases hf with ⟨rfl, g, rfl⟩ | ⟨h1, rfl⟩ <;> rcases ha with ⟨rfl, x, rfl⟩ | ⟨h2, rfl⟩
  · exact .inl ⟨rfl, g x, rfl⟩
  · exact .inr ⟨h2, rfl⟩
  · rw [List.append_nil]; exact .inr ⟨h1, rfl⟩
  · exact .inr ⟨by simp [h1], rfl⟩

theorem checks_ok {α : Type} {a : α} : Checks (.ok a : Check α) [] := ⟨[], .nil, .inl ⟨rfl, a, rfl⟩⟩

theorem checks_of {α : Type} {c : Check α} {w w' : List (Str × Prop)} (h : Checks c w) (e : w = w') : Checks c w' := e ▸ h

/-- A check of one field. -/
theorem checks_one {α : Type} {f : Str} {c : Check α} {Q : Prop} (h : (∃ a, c = .ok a) ∨ c = .error [f]) (hq : Q ↔ ¬ ∃ a, c = .ok a) : Checks c [(f, Q)] := by
  rcases h with h | h
  · exact ⟨[], .right (fun q => hq.1 q h) .nil, .inl ⟨rfl, h⟩⟩
  · refine ⟨[f], .wrong (hq.2 ?_) .nil, .inr ⟨by simp, h⟩⟩
    rintro ⟨a, ha⟩; rw [h] at ha; cases ha

theorem checks_str {f : Str} {v : Json} : Checks (chkStr f v) [(f, NoText v)] := by
  refine checks_one ?_ ?_
  · cases v <;> first | exact .inl ⟨_, rfl⟩ | exact .inr rfl
  · simp only [JsonSays.chkStr_iff, NoText, not_exists, ne_eq]

theorem checks_optStr {f : Str} {v : Json} : Checks (chkOptStr f v) [(f, NoOptText v)] := by
  refine checks_one ?_ ?_
  · cases v <;> first | exact .inl ⟨_, rfl⟩ | exact .inr rfl
  · simp only [JsonSays.chkOptStr_iff, NoOptText]

theorem checks_strList {f : Str} {o : Obj} {k : Str} : Checks (chkStrList f ((o.lookup k).getD (.arr []))) [(f, NoTexts (valueAt o k))] := by
  refine checks_one ?_ ?_
  · generalize (o.lookup k).getD (.arr []) = v
    cases v <;> try first | exact .inl ⟨_, rfl⟩ | exact .inr rfl
    rw [chkStrList.eq_def]
    dsimp only
    split
    · exact .inl ⟨_, rfl⟩
    · exact .inr rfl
  · simp only [JsonSays.texts_getD, NoTexts]

theorem checks_special {f : Str} {v : Json} : Checks (chkSpecial f (parseSpecial v)) [(f, NoSpecial v)] := by
  refine checks_one ?_ ?_
  · generalize parseSpecial v = x
    rcases x with v | _ | _
    · cases v <;> first | exact .inl ⟨_, rfl⟩ | exact .inr rfl
    · exact .inl ⟨_, rfl⟩
    · exact .inl ⟨_, rfl⟩
  · simp only [JsonSays.special_iff, NoSpecial]

theorem checks_optSpecial {f : Str} {v : Json} : Checks (chkOptSpecial f (parseSpecial v)) [(f, NoOptSpecial v)] := by
  refine checks_one ?_ ?_
  · generalize parseSpecial v = x
    rcases x with v | _ | _
    · cases v <;> first | exact .inl ⟨_, rfl⟩ | exact .inr rfl
    · exact .inl ⟨_, rfl⟩
    · exact .inl ⟨_, rfl⟩
  · simp only [JsonSays.optSpecial_iff, NoOptSpecial]

theorem checks_optNoAssertion {f : Str} {v : Json} :
    Checks (chkOptNoAssertion f (parseNoAssertion v)) [(f, ¬ ∃ x, JsonSays.OptNoAssertion v x)] := by
  refine checks_one ?_ ?_
  · generalize parseNoAssertion v = x
    rcases x with v | _
    · cases v <;> first | exact .inl ⟨_, rfl⟩ | exact .inr rfl
    · exact .inl ⟨_, rfl⟩
  · simp only [JsonSays.optNoAssertion_iff]

theorem checks_analyzed {f : Str} {v : Json} : Checks (chkBool f (filesAnalyzedValue v)) [(f, ¬ ∃ b, JsonSays.FilesAnalyzed v b)] := by
  refine checks_one ?_ ?_
  · generalize filesAnalyzedValue v = v
    cases v <;> first | exact .inl ⟨_, rfl⟩ | exact .inr rfl
  · simp only [JsonSays.analyzed_iff]

theorem checks_some {α : Type} {f : Str} {v : Json} {x : Option α} {R : Json → α → Prop} (h : Field R v x) : Checks (chkSome f x) [(f, Blank v)] := by
  refine checks_one ?_ ?_
  · cases x <;> first | exact .inl ⟨_, rfl⟩ | exact .inr rfl
  · rcases h with ⟨h, rfl⟩ | ⟨h, a, _, rfl⟩
    · exact ⟨fun _ ⟨a, ha⟩ => (by cases ha), fun _ => h⟩
    · exact ⟨fun hb => absurd hb h, fun hn => absurd ⟨a, rfl⟩ hn⟩

/-- A list some of whose items may mean nothing. -/
theorem checks_all {α : Type} {f : Str} {v : Json} {x : Option (List (Option α))} {R : Json → Option α → Prop}
    (hu : ∀ v a b, R v a → R v b → a = b) (h : Field (JsonSays.ListOf R) v x) :
    Checks (chkAll f x) [(f, ∃ l, Items v l ∧ ∃ y ∈ l, R y none)] := by
  have key : ∀ (items : List Json) (xs : List (Option α)), All2 R items xs → ((∃ y ∈ items, R y none) ↔ none ∈ xs) := by
    intro items xs ha
    induction ha with
    | nil => simp
    | cons h1 _ ih =>
      rename_i a b l m h2
      constructor
      · rintro ⟨y, hy, hr⟩
        rcases List.mem_cons.1 hy with rfl | hy
        · exact hu _ _ _ hr h1 ▸ .head _
        · exact .tail _ (ih.1 ⟨y, hy, hr⟩)
      · intro hm
        rcases List.mem_cons.1 hm with rfl | hm
        · exact ⟨a, .head _, h1⟩
        · obtain ⟨y, hy, hr⟩ := ih.2 hm
          exact ⟨y, .tail _ hy, hr⟩
  refine checks_one ?_ ?_
  · rcases x with _ | l
    · exact .inl ⟨_, rfl⟩
    · rw [chkAll.eq_def]
      dsimp only
      split
      · exact .inl ⟨_, rfl⟩
      · exact .inr rfl
  · rcases h with ⟨h, rfl⟩ | ⟨h, xs, ⟨items, hi, ha⟩, rfl⟩
    · constructor
      · rintro ⟨l, hl, y, hy, _⟩
        exfalso
        rcases h with rfl | rfl | rfl | rfl | rfl | rfl <;> rcases hl with h | ⟨_, h, rfl⟩ | ⟨_, h, rfl⟩ <;> cases h <;> cases hy
      · intro hn; exact absurd ⟨[], rfl⟩ hn
    · have e : (∃ l, Items v l ∧ ∃ y ∈ l, R y none) ↔ none ∈ xs := by
        rw [← key items xs ha]
        exact ⟨fun ⟨l, hl, h⟩ => JsonCrash.items_unique hl hi ▸ h, fun h => ⟨items, hi, h⟩⟩
      rw [e]
      simp only [JsonSays.chkAll_iff]
      constructor
      · rintro hm ⟨a, (⟨h, _⟩ | h)⟩
        · cases h
        · cases h
          simp at hm
      · intro hn
        refine Classical.byContradiction fun hm => hn ?_
        have : ∃ as : List α, xs = as.map some := by
          clear hn e h ha
          induction xs with
          | nil => exact ⟨[], rfl⟩
          | cons x xs ih =>
            obtain ⟨as, rfl⟩ := ih fun h => hm (.tail _ h)
            cases x with
            | none => exact absurd (.head _) hm
            | some a => exact ⟨a :: as, rfl⟩
        obtain ⟨as, rfl⟩ := this
        exact ⟨as, .inr rfl⟩

/-! ### Objects -/

/-- The object is made of fields that are checked. -/
def Builds {α : Type} (x : Py α) (cls : Str) (wrong : List (Str × Prop)) : Prop := ∃ c, x = construct cls c ∧ Checks c wrong

theorem builds_said {α : Type} {x : Py α} {cls : Str} {wrong : List (Str × Prop)} (h : Builds x cls wrong) (ms : List PMsg) :
    said x = some ms ↔ fields cls wrong ms := by
  obtain ⟨c, rfl, n, hn, hc⟩ := h
  unfold fields
  rcases hc with ⟨rfl, a, rfl⟩ | ⟨hne, rfl⟩
  · have : said (construct cls (.ok a : Check α)) = some [] := rfl
    rw [this]
    constructor
    · intro h; cases h; exact ⟨[], hn, .inl ⟨rfl, rfl⟩⟩
    · rintro ⟨n', hn', (⟨_, rfl⟩ | ⟨h, _⟩)⟩
      · rfl
      · exact absurd (named_unique hn' hn) h
  · have : said (construct cls (.error n : Check α)) = some [.constructing cls n] := rfl
    rw [this]
    constructor
    · intro h; cases h; exact ⟨n, hn, .inr ⟨hne, rfl⟩⟩
    · rintro ⟨n', hn', (⟨h, _⟩ | ⟨h, rfl⟩)⟩
      · exact absurd (named_unique hn hn' ▸ h) hne
      · rw [named_unique hn' hn]

theorem element_said {α β : Type} {p : P α} {f : α → Py β} {what cls : Str} {F : List (List PMsg → Prop)} {wrong : List (Str × Prop)}
    (hh : Hard p) (h : Logs p F fun t => Builds (f t) cls wrong) (ms : List PMsg) :
    said (p.orRaiseIn what >>= f) = some ms ↔ element what cls F wrong ms := by
  unfold element
  simp only [← h.iff]
  match p, hh, h with
  | .error e, hh, _ =>
    have : said (P.orRaiseIn what (.error e : P α) >>= f) = none := hh e rfl
    rw [this]
    constructor
    · intro h; cases h
    · rintro (⟨fs, ⟨t, h⟩, _⟩ | ⟨⟨t, h⟩, _⟩) <;> cases h
  | .ok ([], a), _, h =>
    have e : (P.orRaiseIn what (.ok ([], a) : P α) >>= f) = f a := rfl
    rw [e, builds_said (h.val a rfl)]
    constructor
    · intro h; exact .inr ⟨⟨a, rfl⟩, h⟩
    · rintro (⟨fs, ⟨t, h⟩, hn, _⟩ | ⟨_, h⟩)
      · cases h; exact absurd rfl hn
      · exact h
  | .ok (m :: l, a), _, _ =>
    have : said (P.orRaiseIn what (.ok (m :: l, a) : P α) >>= f) = some [.wrapped what (m :: l)] := rfl
    rw [this]
    constructor
    · intro h; cases h; exact .inl ⟨_, ⟨a, rfl⟩, by simp, rfl⟩
    · rintro (⟨fs, ⟨t, h⟩, _, rfl⟩ | ⟨⟨t, h⟩, _⟩)
      · cases h; rfl
      · cases h

theorem tells_object {α : Type} {m : Json → Py α} {R : Obj → α → Prop} {A : Obj → List PMsg → Prop} (r : Reads m (Object R))
    (h : ∀ o ms, said (m (.obj o)) = some ms ↔ A o ms) (hn : ∀ v, NoObject v → said (m v) = none) : Tells m (Object R) (object A) where
  reads := r
  iff v ms := by
    cases v with
    | obj o =>
      rw [h]
      exact ⟨fun h => ⟨o, rfl, h⟩, by rintro ⟨o', e, h⟩; cases e; exact h⟩
    | _ =>
      rw [hn _ (by intro o e; cases e)]
      exact ⟨fun h => (by cases h), by rintro ⟨o', e, h⟩; cases e⟩

/-! ### Single values -/

/-- A function that always says something is determined by what it says of what it refuses. -/
theorem tells_expect {α : Type} {m : Json → Py α} {R : Json → α → Prop} {M : Json → PMsg → Prop} (r : Reads m R)
    (hm : ∀ v e, m v = .error e → ∃ x, e.logged = some [x] ∧ ∀ y, M v y ↔ y = x) : Tells m R (expect R M) where
  reads := r
  iff v ms := by
    unfold expect
    cases h : m v with
    | ok a =>
      have hr : ∃ a, R v a := ⟨a, (r.iff v a).1 h⟩
      constructor
      · intro h; cases h; exact .inl ⟨hr, rfl⟩
      · rintro (⟨_, rfl⟩ | ⟨h, _⟩)
        · rfl
        · exact absurd hr h
    | error e =>
      have hr : ¬ ∃ a, R v a := fun ⟨a, ha⟩ => by rw [(r.iff v a).2 ha] at h; cases h
      obtain ⟨x, hx, hM⟩ := hm v e h
      have : said (.error e : Py α) = some [x] := hx
      rw [this]
      constructor
      · intro h; cases h; exact .inr ⟨hr, x, (hM x).2 rfl, rfl⟩
      · rintro (⟨h, _⟩ | ⟨_, y, hy, rfl⟩)
        · exact absurd h hr
        · rw [(hM y).1 hy]

theorem textOr_str {T : Str → PMsg → Prop} {other : Json → PMsg} {s : Str} {m : PMsg} : textOr T other (.str s) m ↔ T s m := by
  constructor
  · rintro (⟨t, h, ht⟩ | ⟨h, _⟩)
    · cases h; exact ht
    · exact absurd rfl (h s)
  · intro h; exact .inl ⟨s, rfl, h⟩
theorem textOr_other {T : Str → PMsg → Prop} {other : Json → PMsg} {v : Json} {m : PMsg} (h : NoText v) : textOr T other v m ↔ m = other v := by
  constructor
  · rintro (⟨t, rfl, ht⟩ | ⟨_, h⟩)
    · exact absurd rfl (h t)
    · exact h
  · intro h'; exact .inr ⟨h, h'⟩

theorem kind_eq (v : Json) : v.typeName = kind v := by cases v <;> rfl

theorem tells_date : Tells parseDate JsonSays.Date aboutDate := by
  refine tells_expect reads_date fun v e h => ?_
  cases v with
  | str s =>
    rw [parseDate.eq_def] at h
    dsimp only at h
    cases hd : datetimeFromStr s with
    | some t => rw [hd] at h; cases h
    | none => rw [hd] at h; cases h; exact ⟨_, rfl, fun y => textOr_str⟩
  | _ => cases h; exact ⟨_, rfl, fun y => textOr_other fun s e => (by cases e)⟩

private theorem actor_error {s : Str} {e : PyErr} (h : parseActorJson (.str s) = .error e) :
    ∃ x, e.logged = some [x] ∧ ∀ y, actorMessages (.str s) y ↔ y = x := by
  unfold actorMessages
  simp only [textOr_str]
  unfold parseActorJson withStr at h
  dsimp only at h
  match hp : parseActor s, h with
  | .ok b, h => cases h
  | .error .noToolName, h => cases h; exact ⟨_, rfl, fun y => ⟨fun ⟨e, he, hy⟩ => by cases he; exact hy, fun hy => ⟨_, rfl, hy⟩⟩⟩
  | .error .noName, h => cases h; exact ⟨_, rfl, fun y => ⟨fun ⟨e, he, hy⟩ => by cases he; exact hy, fun hy => ⟨_, rfl, hy⟩⟩⟩
  | .error .noMatch, h => cases h; exact ⟨_, rfl, fun y => ⟨fun ⟨e, he, hy⟩ => by cases he; exact hy, fun hy => ⟨_, rfl, hy⟩⟩⟩

private theorem actor_error' {v : Json} {e : PyErr} (h : parseActorJson v = .error e) : ∃ x, e.logged = some [x] ∧ ∀ y, actorMessages v y ↔ y = x := by
  cases v with
  | str s => exact actor_error h
  | _ => cases h; exact ⟨_, rfl, fun y => textOr_other fun s e => (by cases e)⟩

theorem tells_actor : Tells parseActorJson JsonSays.IsActor aboutActor := tells_expect reads_actor fun _ _ h => actor_error' h

theorem tells_actorOrNoAssertion : Tells parseActorOrNoAssertion JsonSays.ActorOrNoAssertion aboutActorOrNoAssertion := by
  refine tells_expect reads_actorOrNoAssertion fun v e h => ?_
  unfold parseActorOrNoAssertion parseNoAssertion at h
  by_cases hv : v = .str s%"NOASSERTION"
  · subst v; rw [if_pos rfl] at h; cases h
  · rw [if_neg hv] at h
    change (parseActorJson v).map OrNoAssertion.val = _ at h
    cases ha : parseActorJson v with
    | ok a => rw [ha] at h; cases h
    | error e' => rw [ha] at h; cases h; exact actor_error' ha

theorem tells_version : Tells parseVersion JsonSays.IsVersion aboutVersion := by
  refine tells_expect reads_version fun v e h => ?_
  cases v with
  | str s =>
    unfold parseVersion withStr at h
    dsimp only at h
    cases hd : versionFromString s with
    | some t => rw [hd] at h; cases h
    | none => rw [hd] at h; cases h; exact ⟨_, rfl, fun y => textOr_str⟩
  | _ => cases h; exact ⟨_, rfl, fun y => textOr_other fun s e => (by cases e)⟩

theorem tells_member {α : Type} {name : α → Str} {ofName? : Str → Option α} (n : JsonSays.Names name ofName?) (what : Str) :
    Tells (parseEnum what ofName?) (JsonSays.Member name) (aboutMember what name) := by
  refine tells_expect (reads_enum n what) fun v e h => ?_
  cases v with
  | str s =>
    rw [parseEnum.eq_def] at h
    dsimp only at h
    cases hd : ofName? (jsonStrToEnumName s) with
    | some t => rw [hd] at h; cases h
    | none => rw [hd] at h; cases h; exact ⟨_, rfl, fun y => textOr_str⟩
  | _ => cases h; exact ⟨_, rfl, fun y => textOr_other fun s e => (by cases e)⟩

theorem tells_license (L : LicText) : Tells (parseLicense L) (JsonSays.LicenseText L) (aboutLicense L) := by
  refine tells_expect (reads_license L) fun v e h => ?_
  cases v with
  | str s =>
    rw [parseLicense.eq_def] at h
    dsimp only at h
    split at h
    · cases h
    · split at h
      · cases h
      · split at h
        · cases h
        · cases h; exact ⟨_, rfl, fun y => Iff.rfl⟩
  | _ => cases h; exact ⟨_, rfl, fun y => Iff.rfl⟩

end Spdx.JsonSaying
