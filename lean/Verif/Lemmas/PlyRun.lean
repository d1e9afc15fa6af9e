import Verif.Lemmas.TvActions
/-
The run of PLY's driver with the tables of the tag-value grammar, on any list of tokens.
-/
namespace Spdx.TvGrammar
open Spdx Spdx.Spec Spdx.Spec.Lalr

abbrev Stack := List (GSym × List Tok)

/-- The symbols on the stack, the bottom first -/
def syms (st : Stack) : List GSym := (st.map (·.1)).reverse

theorem syms_append (m st : Stack) : syms (m ++ st) = syms st ++ syms m := by
  unfold syms; rw [List.map_append, List.reverse_append]

theorem syms_cons (x : GSym × List Tok) (st : Stack) : syms (x :: st) = syms st ++ [x.1] := syms_append [x] st

def lookOf : List Tok → PlyLook
  | [] => .fin
  | v :: _ => .tok v

/-- The driver has read the first of the tokens that are left. -/
def at' (st : Stack) (ts : List Tok) (o : List (Production × List Tok)) : PlyState := ⟨st, some (lookOf ts), [], ts.tail, o⟩

/-- The driver stops, with these attributes. -/
def Good (T : PlyTables) (s : PlyState) (as : List TvAttr) : Prop :=
  ∃ evs, PlyRuns T s (s.out ++ evs) ∧ evs.filterMap attrOf = as

variable {T : PlyTables}

/-! ### Steps -/

theorem good_go {s s' : PlyState} {as : List TvAttr} (h : plyStep T s = .go s') (ho : s'.out = s.out) (g : Good T s' as) : Good T s as := by
  obtain ⟨evs, hr, he⟩ := g
  rw [ho] at hr
  exact ⟨evs, .go h hr, he⟩

theorem good_done {s : PlyState} (h : plyStep T s = .done s.out) : Good T s [] :=
  ⟨[], by rw [List.append_nil]; exact .done h, rfl⟩

theorem step_look (hT : IsLalr G T) (st : Stack) (l : PlyLook) (ps : List PlyLook) (inp : List Tok) (o : List (Production × List Tok)) :
    plyStep T ⟨st, some l, ps, inp, o⟩ = match T.action (syms st) l.type with
      | some .shift => .go ⟨(l.type, l.yield) :: st, none, ps, inp, o⟩
      | some (.reduce p) => .go (PlyState.reduce ⟨st, some l, ps, inp, o⟩ p)
      | some .accept => .done o
      | none => plyError ⟨st, some l, ps, inp, o⟩ l := by
  unfold plyStep
  rw [no_default hT]
  rfl

variable {st : Stack} {l : PlyLook} {ps : List PlyLook} {inp : List Tok} {o : List (Production × List Tok)} {as : List TvAttr}

theorem good_shift (hT : IsLalr G T) (h : T.action (syms st) l.type = some .shift)
    (g : Good T ⟨(l.type, l.yield) :: st, none, ps, inp, o⟩ as) : Good T ⟨st, some l, ps, inp, o⟩ as := by
  refine good_go (s' := ⟨(l.type, l.yield) :: st, none, ps, inp, o⟩) ?_ rfl g
  rw [step_look hT, h]

theorem good_reduce (hT : IsLalr G T) {p : Production} (h : T.action (syms st) l.type = some (.reduce p))
    (g : Good T ⟨(p.lhs, topYield p.rhs.length st) :: st.drop p.rhs.length, some l, ps, inp, o ++ [(p, topYield p.rhs.length st)]⟩ as) :
    Good T ⟨st, some l, ps, inp, o⟩ ((attrOf (p, topYield p.rhs.length st)).toList ++ as) := by
  obtain ⟨evs, hr, he⟩ := g
  refine ⟨(p, topYield p.rhs.length st) :: evs, .go (s' := PlyState.reduce ⟨st, some l, ps, inp, o⟩ p) ?_ ?_, ?_⟩
  · rw [step_look hT, h]
  · dsimp only at hr ⊢
    rw [List.append_assoc] at hr
    exact hr
  · rw [List.filterMap_cons, ← he]
    cases attrOf (p, topYield p.rhs.length st) <;> rfl

theorem good_accept (hT : IsLalr G T) (h : T.action (syms st) l.type = some .accept) : Good T ⟨st, some l, ps, inp, o⟩ [] := by
  refine good_done ?_
  rw [step_look hT, h]

theorem good_read (hT : IsLalr G T) {ts : List Tok} (g : Good T (at' st ts o) as) : Good T ⟨st, none, [], ts, o⟩ as := by
  cases ts with
  | nil =>
    refine good_go (s' := at' st [] o) ?_ rfl g
    unfold plyStep
    rw [no_default hT]
    rfl
  | cons v r =>
    refine good_go (s' := at' st (v :: r) o) ?_ rfl g
    unfold plyStep
    rw [no_default hT]
    rfl

theorem good_pushed (hT : IsLalr G T) (g : Good T ⟨st, some l, ps, inp, o⟩ as) : Good T ⟨st, none, l :: ps, inp, o⟩ as := by
  refine good_go (s' := ⟨st, some l, ps, inp, o⟩) ?_ rfl g
  unfold plyStep
  rw [no_default hT]

theorem good_end (hT : IsLalr G T) (h : T.action (syms st) s%"$end" = none) : Good T (at' st [] o) [] := by
  refine good_done ?_
  unfold at'
  rw [step_look hT]
  rw [show (lookOf []).type = s%"$end" from rfl, h]
  cases st <;> rfl

theorem good_pop (hT : IsLalr G T) {x : GSym × List Tok} (hl : l.type = s%"error") (h : T.action (syms (x :: st)) s%"error" = none)
    (g : Good T ⟨st, some l, ps, inp, o⟩ as) : Good T ⟨x :: st, some l, ps, inp, o⟩ as := by
  refine good_go (s' := ⟨st, some l, ps, inp, o⟩) ?_ rfl g
  rw [step_look hT, hl, h]
  have : l ≠ .fin := by rintro rfl; cases hl
  unfold plyError
  obtain ⟨y, ys⟩ := x
  dsimp only
  rw [if_neg this, if_pos hl]

theorem good_nuke (hT : IsLalr G T) {y : List Tok} {v : Tok} (hv : v.type ≠ s%"error")
    (h : T.action (syms ((s%"error", y) :: st)) v.type = none) (g : Good T ⟨(s%"error", y) :: st, none, ps, inp, o⟩ as) :
    Good T ⟨(s%"error", y) :: st, some (.tok v), ps, inp, o⟩ as := by
  refine good_go (s' := ⟨(s%"error", y) :: st, none, ps, inp, o⟩) ?_ rfl g
  rw [step_look hT, show (PlyLook.tok v).type = v.type from rfl, h]
  unfold plyError
  dsimp only
  rw [if_neg (by intro e; cases e), if_neg (show ¬ (PlyLook.tok v).type = _ from hv), if_pos rfl]

theorem good_err (hT : IsLalr G T) {x : GSym × List Tok} {v : Tok} (hx : x.1 ≠ s%"error") (hv : v.type ≠ s%"error")
    (h : T.action (syms (x :: st)) v.type = none) (g : Good T ⟨x :: st, some .err, .tok v :: ps, inp, o⟩ as) :
    Good T ⟨x :: st, some (.tok v), ps, inp, o⟩ as := by
  refine good_go (s' := ⟨x :: st, some .err, .tok v :: ps, inp, o⟩) ?_ rfl g
  rw [step_look hT, show (PlyLook.tok v).type = v.type from rfl, h]
  unfold plyError
  obtain ⟨y, ys⟩ := x
  dsimp only at hx ⊢
  rw [if_neg (by intro e; cases e), if_neg (show ¬ (PlyLook.tok v).type = _ from hv), if_neg hx]

theorem good_bottom (hT : IsLalr G T) (hl : l ≠ .fin) (h : T.action [] l.type = none) (g : Good T ⟨[], none, [], inp, o⟩ as) :
    Good T ⟨[], some l, ps, inp, o⟩ as := by
  refine good_go (s' := ⟨[], none, [], inp, o⟩) ?_ rfl g
  rw [step_look hT, show syms [] = [] from rfl, h]
  unfold plyError
  dsimp only
  rw [if_neg hl]

/-! ### Errors -/

/-- The symbols are popped until there is an entry for `error`. -/
theorem pop_to (hT : IsLalr G T) (hl : l.type = s%"error") : ∀ (m : Stack),
    (∀ k, k ≠ [] → k <:+ m → T.action (syms (k ++ st)) s%"error" = none) → Good T ⟨st, some l, ps, inp, o⟩ as →
    Good T ⟨m ++ st, some l, ps, inp, o⟩ as
  | [], _, g => g
  | x :: m, h, g =>
    good_pop hT hl (h (x :: m) (List.cons_ne_nil _ _) (List.suffix_refl _))
      (pop_to hT hl m (fun k hk hs => h k hk (hs.trans (List.suffix_cons x m))) g)

/-- Without an entry for `error` everything is lost: the stack, and the token. -/
theorem lost (hT : IsLalr G T) {v : Tok} {r : List Tok} (h : ∀ k, k <:+ st → T.action (syms k) s%"error" = none)
    (hv : v.type ≠ s%"error" → T.action (syms st) v.type = none) (hx : ∀ x ∈ st.head?, x.1 ≠ s%"error") (g : Good T (at' [] r o) as) :
    Good T (at' st (v :: r) o) as := by
  have hl : ∀ (l : PlyLook) (ps : List PlyLook), l.type = s%"error" → Good T ⟨st, some l, ps, r, o⟩ as := by
    intro l ps hl
    have := pop_to (st := []) (ps := ps) (inp := r) (o := o) (as := as) hT hl st
      (fun k _ hs => by rw [List.append_nil]; exact h k hs)
      (good_bottom hT (by rintro rfl; cases hl) (by rw [hl]; exact h [] (List.nil_suffix)) (good_read hT g))
    rwa [List.append_nil] at this
  by_cases he : v.type = s%"error"
  · exact hl (.tok v) [] he
  · cases st with
    | nil => exact good_bottom hT (by intro e; cases e) (hv he) (good_read hT g)
    | cons x st => exact good_err hT (hx x rfl) he (hv he) (hl .err _ rfl)

/-- With one, the symbol `error` is pushed there, and the token is looked at again. -/
theorem caught (hT : IsLalr G T) {m : Stack} {v : Tok} {r : List Tok}
    (h : ∀ k, k ≠ [] → k <:+ m → T.action (syms (k ++ st)) s%"error" = none) (hs : T.action (syms st) s%"error" = some .shift)
    (hv : v.type ≠ s%"error" → T.action (syms (m ++ st)) v.type = none) (hx : ∀ x ∈ (m ++ st).head?, x.1 ≠ s%"error") (hne : m ++ st ≠ [])
    (g : if v.type = s%"error" then ∀ y, Good T (at' ((s%"error", y) :: st) r o) as
      else ∀ y, Good T (at' ((s%"error", y) :: st) (v :: r) o) as) :
    Good T (at' (m ++ st) (v :: r) o) as := by
  by_cases he : v.type = s%"error"
  · rw [if_pos he] at g
    refine pop_to hT (l := .tok v) he m h (good_shift hT ((congrArg _ he).trans hs) ?_)
    rw [show (PlyLook.tok v).type = s%"error" from he]
    exact good_read hT (g _)
  · rw [if_neg he] at g
    have key : Good T ⟨m ++ st, some .err, [.tok v], r, o⟩ as :=
      pop_to hT (l := .err) rfl m h (good_shift hT hs (good_pushed hT (g _)))
    generalize m ++ st = st' at *
    cases st' with
    | nil => exact absurd rfl hne
    | cons x st' => exact good_err hT (hx x rfl) he (hv he) key

/-! ### Reductions -/

theorem follow_look {ts : List Tok} (h : Lexed ts) : Follow (lookOf ts).type ↔ follows ts = true := by
  cases ts with
  | nil => exact ⟨fun _ => rfl, fun _ => .inl rfl⟩
  | cons v r => exact follow_tok h.head

theorem topYield_append {m st : Stack} {n : Nat} (h : n = m.length) : topYield n (m ++ st) = m.reverse.flatMap (·.2) := by
  unfold topYield
  rw [h, List.take_left]

theorem p_silent {p : Production} (h : p.handler ∈ silentHandlers) (y : List Tok) : attrOf (p, y) = none := if_pos h

/-- An attribute is complete. -/
theorem good_name (hT : IsLalr G T) {p : Production} {ts : List Tok} {y : List Tok} (hb : Base (syms st)) (hp : p ∈ rules)
    (he : isEntry p = true) (hf : Follow (lookOf ts).type) (g : ∀ y o, Good T (at' [(s%"start", y)] ts o) as) :
    Good T (at' ((p.lhs, y) :: st) ts o) as := by
  refine good_reduce (p := ⟨s%"attrib", [p.lhs], s%"p_attrib"⟩) hT (by rw [syms_cons]; exact act_name hT hb hp he hf) ?_
  dsimp only [List.length_cons, List.length_nil, List.drop]
  generalize topYield (0 + 1) ((p.lhs, y) :: st) = y'
  generalize o ++ [_] = o'
  have hs : st = [] ∨ ∃ z, st = [(s%"start", z)] := by
    rcases hb with h | h
    · cases st with
      | nil => exact .inl rfl
      | cons x st => rw [syms_cons] at h; cases hq : syms st <;> rw [hq] at h <;> cases h
    · cases st with
      | nil => cases h
      | cons x st =>
        rw [syms_cons] at h
        cases st with
        | nil => exact .inr ⟨x.2, by rw [← (List.cons.inj h).1]⟩
        | cons z st =>
          rw [syms_cons] at h
          have := congrArg List.length h
          rw [List.length_append, List.length_append] at this
          simp only [List.length_cons, List.length_nil] at this
          omega
  rcases hs with rfl | ⟨z, rfl⟩
  · exact good_reduce (p := p2) hT (act_attrib2 hT hf) (g _ _)
  · exact good_reduce (p := p1) hT (act_attrib1 hT hf) (g _ _)

theorem good_entry (hT : IsLalr G T) {p : Production} {ts : List Tok} {m : Stack} (hb : Base (syms st)) (hp : p ∈ rules)
    (he : isEntry p = true) (hm : syms m = p.rhs) (hf : Follow (lookOf ts).type) (g : ∀ y o, Good T (at' [(s%"start", y)] ts o) as) :
    Good T (at' (m ++ st) ts o) ((attrOf (p, m.reverse.flatMap (·.2))).toList ++ as) := by
  have hl : p.rhs.length = m.length := by rw [← hm]; unfold syms; rw [List.length_reverse, List.length_map]
  rw [← topYield_append hl]
  refine good_reduce hT (by rw [syms_append, hm]; exact act_entry hT hb hp he hf) ?_
  rw [hl, List.drop_left]
  exact good_name hT hb hp he hf g

theorem good_value (hT : IsLalr G T) {p q : Production} {a : GSym} {y : List Tok} {σ : List GSym} {ts : List Tok} {m : Stack}
    (hb : Base (syms st)) (hq : q ∈ rules) (he : isEntry q = true) (hσ : q.rhs = σ ++ [p.lhs]) (hp : p ∈ rules) (hv : isValue p = true)
    (hr : p.rhs = [a]) (hm : syms m = σ) (hf : Follow (lookOf ts).type) (g : ∀ o, Good T (at' ((p.lhs, y) :: (m ++ st)) ts o) as) :
    Good T (at' ((a, y) :: (m ++ st)) ts o) as := by
  have h1 : topYield p.rhs.length ((a, y) :: (m ++ st)) = y := by
    rw [hr]; exact List.append_nil y
  have := good_reduce (p := p) (o := o) (ps := []) (inp := ts.tail) (l := lookOf ts) (st := (a, y) :: (m ++ st)) (as := as) hT (by
    rw [syms_cons, syms_append, hm]
    have := act_value hT hb hq he hσ hp hv hf
    rw [hr] at this
    rwa [List.append_assoc]) (by
    rw [h1, hr]
    exact g _)
  rw [h1, p_silent (value_silent p hp hv)] at this
  exact this

/-! ### Tags with one value -/

/-- The productions for the tag `t` are `t` alone, `t error` and `t value` with a value of these types. -/
structure TagTwo (t : GSym) (A : List GSym) : Prop where
  start : t ∈ starters
  entries : ∀ p ∈ rules, p.rhs.head? = some t → isEntry p = true → ∀ y ∈ p.rhs.tail, p.rhs.length = 2 ∧
    (y = s%"error" ∨ y ∈ A ∨ y ∈ valueNts ∧ ∀ r ∈ rules, r.lhs = y → ∀ a ∈ r.rhs, a ∈ A)
  term : ∀ a ∈ A, term a = true ∧ inner a = true ∧ a ≠ s%"error"

theorem TagTwo.ne_error {t : GSym} {A : List GSym} (h : TagTwo t A) : t ≠ s%"error" := by
  rintro rfl; exact absurd h.start (by decide +kernel)

theorem value_not_first {t : GSym} {p q : Production} {σ : List GSym} (hp : p ∈ rules) (hv : isValue p = true)
    (hq : q ∈ rules) (he : isEntry q = true) (hσ : q.rhs = σ ++ [p.lhs]) (h : σ ++ p.rhs = [t]) : False := by
  obtain ⟨t', σ', rfl, _⟩ := value_after hq he hσ (lhs_nts p hp)
  obtain ⟨y, _, ey, _⟩ := value_rules p hp hv
  rw [ey] at h
  have := congrArg List.length h
  simp only [List.length_append, List.length_cons, List.length_nil] at this
  omega

/-- There is no entry after the tag for anything else. -/
theorem two_none1 (hT : IsLalr G T) {b : List GSym} {t a : GSym} {A : List GSym} (hb : Base b) (h : TagTwo t A) (ha : a ∉ A)
    (hf : (∃ p ∈ rules, isEntry p = true ∧ p.rhs = [t]) → ¬ Follow a)
    (hr : a = s%"error" → ∀ p ∈ rules, isEntry p = true → p.rhs ≠ [t, s%"error"]) : T.action (b ++ [t]) a = none := by
  cases e : T.action (b ++ [t]) a with
  | none => rfl
  | some x =>
    exfalso
    rcases inside_cases hT hb h.start e with ⟨p, hp, he, ⟨e1, hfa⟩ | ⟨r, e1, hta⟩⟩ | ⟨p, hp, hv, q, hq, he, σ, hσ, ⟨e1, hfa⟩ | ⟨e1, e2⟩⟩
    · exact hf ⟨p, hp, he, e1⟩ hfa
    · obtain ⟨hl, h1⟩ := h.entries p hp (by rw [e1]; rfl) he a (by rw [e1]; exact List.mem_cons_self)
      rcases h1 with h1 | h1 | ⟨h1, _⟩
      · rw [e1] at hl
        cases r with
        | nil => exact hr h1 p hp he (by rw [e1, h1]; rfl)
        | cons _ _ => simp only [List.length_append, List.length_cons, List.length_nil] at hl; omega
      · exact ha h1
      · rw [value_not_term h1] at hta; cases hta
    · exact value_not_first hp hv hq he hσ e1
    · subst e1
      obtain ⟨_, h1⟩ := h.entries q hq (by rw [hσ]; rfl) he p.lhs (by rw [hσ]; exact List.mem_cons_self)
      rcases h1 with h1 | h1 | ⟨_, h1⟩
      · have := lhs_nts p hp
        rw [h1] at this
        exact absurd this (by decide +kernel)
      · have := (h.term _ h1).1
        rw [not_term_lhs hp] at this; cases this
      · exact ha (h1 p hp rfl a (by rw [e2]; exact List.mem_cons_self))

/-- After the value there are entries only if the attribute can end here. -/
theorem two_none2 (hT : IsLalr G T) {b : List GSym} {t c a : GSym} {A : List GSym} (hb : Base b) (h : TagTwo t A) (hf : ¬ Follow a) :
    T.action (b ++ [t, c]) a = none := by
  cases e : T.action (b ++ [t, c]) a with
  | none => rfl
  | some x =>
    exfalso
    rcases inside_cases hT hb h.start e with ⟨p, hp, he, ⟨e1, hfa⟩ | ⟨r, e1, hta⟩⟩ | ⟨p, hp, hv, q, hq, he, σ, hσ, ⟨e1, hfa⟩ | ⟨e1, e2⟩⟩
    · exact hf hfa
    · have hl := (h.entries p hp (by rw [e1]; rfl) he c (by rw [e1]; exact List.mem_cons_self)).1
      rw [e1] at hl
      simp only [List.length_append, List.length_cons, List.length_nil] at hl
      omega
    · exact hf hfa
    · subst e1
      have hl := (h.entries q hq (by rw [hσ]; rfl) he c (by rw [hσ]; exact List.mem_cons_self)).1
      rw [hσ] at hl
      simp only [List.length_append, List.length_cons, List.length_nil] at hl
      omega

/-- The tag and the value are reduced by a production with such a method. -/
def TwoValue (t a : GSym) (P : Str → Prop) : Prop :=
  (∃ p ∈ rules, p.rhs = [t, a] ∧ isEntry p = true ∧ P p.handler) ∨
  ∃ r ∈ rules, isValue r = true ∧ r.rhs = [a] ∧ ∃ p ∈ rules, p.rhs = [t, r.lhs] ∧ isEntry p = true ∧ P p.handler

theorem two_shift (hT : IsLalr G T) {b : List GSym} {t a : GSym} {P : Str → Prop} (hb : Base b) (h : TwoValue t a P)
    (ha : term a = true) : T.action (b ++ [t]) a = some .shift := by
  rcases h with ⟨p, hp, hr, he, _⟩ | ⟨r, hr, hv, er, p, hp, hpr, he, _⟩
  · exact act_shift_entry hT hb hp he (w := [t]) (r := []) hr ha
  · exact act_shift_value hT hb hp he (σ := [t]) hpr hr hv er ha

theorem two_value (hT : IsLalr G T) {t a : GSym} {P : Str → Prop} {y z : List Tok} {ts : List Tok} {x : Option TvAttr}
    (hb : Base (syms st)) (h : TwoValue t a P) (hx : ∀ p : Production, P p.handler → attrOf (p, y ++ z) = x)
    (hf : Follow (lookOf ts).type) (g : ∀ y o, Good T (at' [(s%"start", y)] ts o) as) :
    Good T (at' ((a, z) :: (t, y) :: st) ts o) (x.toList ++ as) := by
  have hy : ([(a, z), (t, y)] : Stack).reverse.flatMap (·.2) = y ++ z := by
    show y ++ (z ++ []) = y ++ z
    rw [List.append_nil]
  rcases h with ⟨p, hp, hr, he, hP⟩ | ⟨r, hr, hv, er, p, hp, hpr, he, hP⟩
  · have := good_entry (o := o) hT (m := [(a, z), (t, y)]) hb hp he (by rw [hr]; rfl) hf g
    rw [hy, hx p hP] at this
    exact this
  · refine good_value hT (m := [(t, y)]) (σ := [t]) hb hp he hpr hr hv er rfl hf ?_
    intro o
    have := good_entry (o := o) hT (m := [(r.lhs, z), (t, y)]) hb hp he (by rw [hpr]; rfl) hf g
    rw [show ([(r.lhs, z), (t, y)] : Stack).reverse.flatMap (·.2) = y ++ z from hy, hx p hP] at this
    exact this

/-! ### After an error -/

/-- What is known of shorter lists of tokens -/
def Below (T : PlyTables) (n : Nat) : Prop :=
  ∀ u : List Tok, u.length ≤ n → Lexed u → ∀ st o, Base (syms st) → Good T (at' st u o) (attrs u)

theorem Below.mono {n k : Nat} (h : Below T n) (hk : k ≤ n) : Below T k := fun u hu => h u (Nat.le_trans hu hk)

theorem base_start (y : List Tok) : Base (syms [(s%"start", y)]) := .inr rfl

theorem attrs_drop {v : Tok} {r : List Tok} (h : v.starts = false) : attrs (v :: r) = attrs r := by
  refine attrs_step (a := none) ?_
  cases v with
  | tag t =>
    unfold Tok.starts at h
    simp only [Bool.or_eq_false_iff, decide_eq_false_iff_not] at h
    unfold attrOne
    dsimp only
    rw [if_neg h.2]
    cases e : tvSyntax.lookup t with
    | some x => rw [e] at h; exact absurd h.1.1 (fun h => nomatch h)
    | none =>
      cases e2 : commentTag t with
      | some x => rw [e2] at h; exact absurd h.1.2 (fun h => nomatch h)
      | none => rfl
  | unknown s => cases h
  | _ => rfl

theorem error_none (hT : IsLalr G T) {b : List GSym} {t a : GSym} (hb : Base b) (ht : t ∈ starters) (hf : ¬ Follow a) :
    T.action (b ++ [t, s%"error"]) a = none := by
  cases e : T.action (b ++ [t, s%"error"]) a with
  | none => rfl
  | some x =>
    exfalso
    rcases inside_cases hT hb ht e with ⟨p, hp, he, ⟨e1, hfa⟩ | ⟨r, e1, hta⟩⟩ | ⟨p, hp, hv, q, hq, he, σ, hσ, ⟨e1, hfa⟩ | ⟨e1, e2⟩⟩
    · exact hf hfa
    · have hl := error_last p hp he (by rw [e1]; rfl)
      rw [e1] at hl
      simp only [List.length_append, List.length_cons, List.length_nil] at hl
      omega
    · exact hf hfa
    · subst e1
      have hl := error_last q hq he (by rw [hσ]; rfl)
      rw [hσ] at hl
      simp only [List.length_append, List.length_cons, List.length_nil] at hl
      omega

/-- The symbol `error` after a tag: the tokens up to the next attribute are dropped, and the tag is reported. -/
theorem err_state (hT : IsLalr G T) {t : Str} {p : Production} (hp : p ∈ rules) (hr : p.rhs = [ty t, s%"error"]) (he : isEntry p = true)
    (hh : p.handler ∈ errorHandlers) (ht : ty t ∈ starters) (hb : Base (syms st)) : ∀ (u : List Tok), Below T u.length → Lexed u →
    ∀ y o, Good T (at' ((s%"error", y) :: (ty t, [.tag t]) :: st) u o) (.bad t :: attrs u) := by
  have red : ∀ (u : List Tok), Below T u.length → Lexed u → Follow (lookOf u).type →
      ∀ y o, Good T (at' ((s%"error", y) :: (ty t, [.tag t]) :: st) u o) (.bad t :: attrs u) := by
    intro u hB hL hf y o
    have := good_entry (o := o) hT (m := [(s%"error", y), (ty t, [.tag t])]) hb hp he (by rw [hr]; rfl) hf
      (fun z o => hB u (Nat.le_refl _) hL [(s%"start", z)] o (base_start z))
    have ha : attrOf (p, ([(s%"error", y), (ty t, [Tok.tag t])] : Stack).reverse.flatMap (·.2)) = some (.bad t) := by
      unfold attrOf
      rw [if_neg (by intro h; exact absurd h ((show ∀ h ∈ errorHandlers, h ∉ silentHandlers by decide +kernel) _ hh)), if_pos hh]
      rfl
    rw [ha] at this
    exact this
  intro u
  induction u with
  | nil => intro hB hL y o; exact red [] hB hL (.inl rfl) y o
  | cons v r ih =>
    intro hB hL y o
    cases hs : v.starts with
    | true => exact red (v :: r) hB hL ((follow_tok hL.head).2 hs) y o
    | false =>
      rw [attrs_drop hs]
      have hB' : Below T r.length := hB.mono (Nat.le_succ _)
      have hf : ¬ Follow v.type := fun h => by rw [(follow_tok hL.head).1 h] at hs; cases hs
      have hn : ∀ a, ¬ Follow a → T.action (syms ((s%"error", y) :: (ty t, [.tag t]) :: st)) a = none := fun a ha => by
        rw [syms_cons, syms_cons, List.append_assoc]
        exact error_none hT hb ht ha
      by_cases hv : v.type = s%"error"
      · refine good_pop (l := .tok v) hT hv (hn _ (hv ▸ hf)) (good_shift hT ?_ ?_)
        · rw [show (PlyLook.tok v).type = s%"error" from hv, syms_cons]
          exact act_shift_entry hT hb hp he (w := [ty t]) (r := []) hr (by decide +kernel)
        · rw [show (PlyLook.tok v).type = s%"error" from hv]
          exact good_read hT (ih hB' hL.tail _ _)
      · exact good_nuke hT hv (hn _ hf) (good_read hT (ih hB' hL.tail _ _))

/-! ### The cases -/

theorem syntax_two {e : Str × TvSyntax} (h : e ∈ tvSyntax) : TagTwo (ty e.1) (TvSyntax.types e.2) where
  start := syntax_starters e h
  entries := by
    intro p hp hh he y hy
    have := syntax_entries e h p hp hh he
    unfold okEntry at this
    split at this
    · rename_i t' y' er
      rw [er] at hy ⊢
      rw [List.mem_singleton.1 hy]
      simp only [Bool.or_eq_true, Bool.and_eq_true, decide_eq_true_eq, List.all_eq_true] at this
      refine ⟨rfl, ?_⟩
      rcases this with (h | h) | ⟨h, h'⟩
      · exact .inl h
      · exact .inr (.inl h)
      · exact .inr (.inr ⟨h, fun r hr e a ha => ((h' r hr).resolve_left fun n => n e) a ha⟩)
    · cases this
  term := fun a ha => ⟨(types_other e.2 a ha).2.1, (types_other e.2 a ha).2.2.1, (types_other e.2 a ha).2.2.2⟩

theorem suffix_pair {α : Type} {k : List α} {a b : α} (h : k <:+ [a, b]) : k = [a, b] ∨ k = [b] ∨ k = [] := by
  rcases List.suffix_cons_iff.1 h with h | h
  · exact .inl h
  · rcases List.suffix_cons_iff.1 h with h | h
    · exact .inr (.inl h)
    · exact .inr (.inr (List.suffix_nil.1 h))

theorem suffix_one {α : Type} {k : List α} {a : α} (h : k <:+ [a]) : k = [a] ∨ k = [] := by
  rcases List.suffix_cons_iff.1 h with h | h
  · exact .inl h
  · exact .inr (List.suffix_nil.1 h)

theorem error_not_follow : ¬ Follow s%"error" := by
  rintro (h | h)
  · exact absurd h (by decide)
  · exact absurd h (by decide +kernel)

theorem not_follow {w : Tok} {r : List Tok} (h : TokOk w) (hf : follows (w :: r) = false) : ¬ Follow w.type := fun hw => by
  have h1 := (follow_tok h).1 hw
  have h2 : w.starts = false := hf
  rw [h1] at h2; cases h2

/-- There is a production `TAG error`. -/
def ErrTag (t : Str) : Prop := ty t ∈ starters ∧ ∃ p ∈ rules, p.rhs = [ty t, s%"error"] ∧ isEntry p = true ∧ p.handler ∈ errorHandlers

theorem caught_bad (hT : IsLalr G T) {t : Str} {m : Stack} {v : Tok} {r : List Tok} (hE : ErrTag t) (hb : Base (syms st))
    (hL : Lexed (v :: r)) (hB : Below T (v :: r).length)
    (h : ∀ k, k ≠ [] → k <:+ m → T.action (syms st ++ (ty t :: syms k)) s%"error" = none)
    (hv : v.type ≠ s%"error" → T.action (syms st ++ (ty t :: syms m)) v.type = none) (hx : ∀ x ∈ m.head?, x.1 ≠ s%"error") :
    Good T (at' (m ++ (ty t, [.tag t]) :: st) (v :: r) o) (.bad t :: attrs (v :: r)) := by
  obtain ⟨hs, p, hp, hr, he, hh⟩ := hE
  have hsy : ∀ k : Stack, syms (k ++ (ty t, [.tag t]) :: st) = syms st ++ (ty t :: syms k) := fun k => by
    rw [syms_append, syms_cons, List.append_assoc]; rfl
  refine caught hT ?_ ?_ ?_ ?_ ?_ ?_
  · intro k hk hks
    rw [hsy]
    exact h k hk hks
  · rw [syms_cons]
    exact act_shift_entry hT hb hp he (w := [ty t]) (r := []) hr (by decide +kernel)
  · intro hve
    rw [hsy]
    exact hv hve
  · intro x hxm
    cases m with
    | nil =>
      cases hxm
      intro e
      dsimp only at e
      rw [e] at hs
      exact absurd hs (by decide +kernel)
    | cons y m => exact hx x hxm
  · cases m <;> exact List.cons_ne_nil _ _
  · split
    · rename_i hve
      have hs' : v.starts = false := by
        cases hs' : v.starts with
        | false => rfl
        | true => exact absurd (hve ▸ (follow_tok hL.head).2 hs') error_not_follow
      intro y
      rw [attrs_drop hs']
      exact err_state hT hp hr he hh hs hb r (hB.mono (Nat.le_succ _)) hL.tail y o
    · intro y
      exact err_state hT hp hr he hh hs hb (v :: r) hB hL y o

/-- The first token starts an attribute. -/
theorem good_first (hT : IsLalr G T) {v : Tok} {r : List Tok} (hb : Base (syms st)) (hv : v.type ∈ starters)
    (g : Good T (at' ((v.type, [v]) :: st) r o) as) : Good T (at' st (v :: r) o) as :=
  good_shift (l := .tok v) hT (act_base_shift hT hb hv) (good_read hT g)

theorem attrOne_syntax {t : Str} {x : TvSyntax} {r : List Tok} (h : tvSyntax.lookup t = some x) :
    attrOne (.tag t :: r) = match r with
      | [] => some (none, [])
      | v :: r =>
        if x.accepts v then
          if follows r then some (some (.value t v), r) else some (some (.bad t), r)
        else some (some (.bad t), v :: r) := by
  have ht := (tvSyntax_tags t (List.mem_map_of_mem (f := (·.1)) (lookup_mem h))).2
  rw [attrOne.eq_def]
  dsimp only
  rw [if_neg ht, h]
  rfl

theorem attrs_syntax {t : Str} {x : TvSyntax} {v : Tok} {r : List Tok} (h : tvSyntax.lookup t = some x) :
    attrs (.tag t :: v :: r) = if x.accepts v then (if follows r then .value t v :: attrs r else .bad t :: attrs r)
      else .bad t :: attrs (v :: r) := by
  have e := attrOne_syntax (r := v :: r) h
  dsimp only at e
  cases ha : x.accepts v with
  | false => rw [ha] at e; exact attrs_step e
  | true =>
    rw [ha] at e
    cases hf : follows r with
    | false => rw [hf] at e; exact attrs_step e
    | true => rw [hf] at e; exact attrs_step e

theorem plain_attr {p : Production} {t : Str} {v : Tok} (h : plainHandler p.handler = true) :
    attrOf (p, [.tag t] ++ [v]) = some (.value t v) := by
  unfold plainHandler at h
  simp only [Bool.and_eq_true, decide_eq_true_eq] at h
  obtain ⟨⟨⟨⟨h1, h2⟩, h3⟩, h4⟩, h5⟩ := h
  unfold attrOf
  rw [if_neg h1, if_neg h2, if_neg h3, if_neg h4, if_neg h5]
  rfl

theorem case_syntax (hT : IsLalr G T) {t : Str} {x : TvSyntax} {r : List Tok} (hx : tvSyntax.lookup t = some x) (hL : Lexed (.tag t :: r))
    (hB : Below T r.length) (hb : Base (syms st)) : Good T (at' st (.tag t :: r) o) (attrs (.tag t :: r)) := by
  have hm := lookup_mem hx
  have h2 := syntax_two hm
  dsimp only at h2
  have hE : ErrTag t := ⟨h2.start, syntax_error _ hm⟩
  have nobare : ¬ ∃ p ∈ rules, isEntry p = true ∧ p.rhs = [ty t] := by
    rintro ⟨q, hq, heq, hrq⟩
    have := syntax_entries _ hm q hq (by rw [hrq]; rfl) heq
    unfold okEntry at this
    rw [hrq] at this
    cases this
  refine good_first hT hb h2.start ?_
  show Good T (at' ((ty t, [.tag t]) :: st) r o) _
  cases r with
  | nil =>
    rw [attrs_step ((attrOne_syntax hx).trans rfl)]
    refine good_end hT ?_
    rw [syms_cons]
    exact two_none1 hT hb h2 (fun h => absurd (inner_not_follow (h2.term _ h).2.1) (fun n => n (.inl rfl))) (fun h => absurd h nobare)
      (fun e => absurd e (by decide))
  | cons v r =>
    have hLv := hL.tail.head
    have hLr := hL.tail.tail
    rw [attrs_syntax hx]
    cases ha : x.accepts v with
    | true =>
      have hA : v.type ∈ TvSyntax.types x := of_decide_eq_true ((accepts_iff hLv x).symm.trans ha)
      have hV : TwoValue (ty t) v.type (fun h => plainHandler h = true) := syntax_values _ hm _ hA
      refine good_shift (l := .tok v) hT (by rw [syms_cons]; exact two_shift hT hb hV (h2.term _ hA).1) (good_read hT ?_)
      show Good T (at' ((v.type, [v]) :: (ty t, [.tag t]) :: st) r o) _
      cases hf : follows r with
      | true =>
        exact two_value hT hb hV (fun p hP => plain_attr hP) ((follow_look hLr).2 hf)
          (fun y o => hB.mono (Nat.le_succ _) r (Nat.le_refl _) hLr _ o (base_start y))
      | false =>
        cases r with
        | nil => cases hf
        | cons w r =>
          refine caught_bad hT (m := [(v.type, [v])]) hE hb hLr (hB.mono (Nat.le_succ _)) ?_
            (fun _ => two_none2 hT hb h2 (not_follow hLr.head hf)) ?_
          · intro k hk hs
            rcases suffix_one hs with rfl | rfl
            · exact two_none2 hT hb h2 error_not_follow
            · exact absurd rfl hk
          · intro y hy
            cases hy
            exact (h2.term _ hA).2.2
    | false =>
      have hA : v.type ∉ TvSyntax.types x := of_decide_eq_false ((accepts_iff hLv x).symm.trans ha)
      refine caught_bad hT (m := []) hE hb hL.tail hB ?_ ?_ (fun _ h => nomatch h)
      · intro k hk hs
        exact absurd (List.suffix_nil.1 hs) hk
      · intro hv
        exact two_none1 hT hb h2 hA (fun h => absurd h nobare) (fun e => absurd e hv)

/-! #### `SPDXID` -/

theorem spdxId_two : TagTwo s%"SPDX_ID" [s%"LINE"] where
  start := by decide +kernel
  entries := by decide +kernel
  term := by decide +kernel

theorem spdxId_entries : ∀ p ∈ rules, isEntry p = true → p.rhs ≠ [s%"SPDX_ID", s%"error"] ∧ p.rhs ≠ [s%"SPDX_ID"] := by decide +kernel
theorem spdxId_value : TwoValue s%"SPDX_ID" s%"LINE" (· = s%"p_spdx_id") := by unfold TwoValue; decide +kernel

theorem base_error (hT : IsLalr G T) (hb : Base (syms st)) : ∀ k, k <:+ st → T.action (syms k) s%"error" = none := by
  intro k hk
  refine act_base_none hT ?_ error_not_follow
  obtain ⟨m, rfl⟩ := hk
  rw [syms_append] at hb
  rcases hb with h | h
  · exact .inl (List.append_eq_nil_iff.1 h).1
  · cases hq : syms k with
    | nil => exact .inl rfl
    | cons x l =>
      rw [hq] at h
      obtain ⟨h1, h2⟩ := List.cons.inj h
      rw [h1, (List.append_eq_nil_iff.1 h2).1]
      exact .inr rfl

theorem line_type {v : Tok} (h : TokOk v) (hv : v.type = s%"LINE") : ∃ s, v = .line s := by
  cases v with
  | line s => exact ⟨s, rfl⟩
  | tag w => exact absurd (show ty w ∈ otherTypes by unfold ty; rw [hv]; decide) (tag_types w h).1
  | _ => cases hv

theorem case_spdxId (hT : IsLalr G T) {r : List Tok} (hL : Lexed (.tag s%"SPDXID" :: r))
    (hB : Below T r.length) (hb : Base (syms st)) : Good T (at' st (.tag s%"SPDXID" :: r) o) (attrs (.tag s%"SPDXID" :: r)) := by
  have h2 := spdxId_two
  have hty : (Tok.tag s%"SPDXID").type = s%"SPDX_ID" := by decide +kernel
  refine good_first hT hb (by rw [hty]; exact h2.start) ?_
  rw [hty]
  have hend : ∀ a, a ≠ s%"LINE" → T.action (syms ((s%"SPDX_ID", [Tok.tag s%"SPDXID"]) :: st)) a = none := fun a ha => by
    rw [syms_cons]
    exact two_none1 hT hb h2 (fun h => ha (List.mem_singleton.1 h)) (fun ⟨p, hp, he, hr⟩ => absurd hr (spdxId_entries p hp he).2)
      (fun _ p hp he => (spdxId_entries p hp he).1)
  cases r with
  | nil =>
    rw [attrs_step (a := none) (r := []) rfl]
    exact good_end hT (hend _ (by decide))
  | cons v r =>
    have hLv := hL.tail.head
    have hLr := hL.tail.tail
    by_cases hl : v.type = s%"LINE"
    · obtain ⟨s, rfl⟩ := line_type hLv hl
      refine good_shift (l := .tok (.line s)) hT (by rw [syms_cons]; exact two_shift hT hb spdxId_value (show term s%"LINE" = true by decide +kernel))
        (good_read hT ?_)
      show Good T (at' ((s%"LINE", [.line s]) :: (s%"SPDX_ID", [Tok.tag s%"SPDXID"]) :: st) r o) _
      have e : attrOne (.tag s%"SPDXID" :: .line s :: r) = if follows r then some (some (.spdxId s), r) else some (none, r.tail) := rfl
      cases hf : follows r with
      | true =>
        rw [hf] at e
        rw [attrs_step e]
        refine two_value hT hb spdxId_value (fun p hP => ?_) ((follow_look hLr).2 hf)
          (fun y o => hB.mono (Nat.le_succ _) r (Nat.le_refl _) hLr _ o (base_start y))
        unfold attrOf
        rw [show p.handler = s%"p_spdx_id" from hP]
        rfl
      | false =>
        cases r with
        | nil => cases hf
        | cons w r =>
          rw [hf] at e
          rw [attrs_step e]
          refine lost hT ?_ (fun _ => ?_) ?_ ((hB.mono (Nat.le_trans (Nat.le_succ _) (Nat.le_succ _))) r (Nat.le_refl _) hLr.tail [] o (.inl rfl))
          · intro k hk
            rcases List.suffix_cons_iff.1 hk with rfl | hk
            · rw [syms_cons, syms_cons, List.append_assoc]
              exact two_none2 hT hb h2 error_not_follow
            · rcases List.suffix_cons_iff.1 hk with rfl | hk
              · exact hend _ (by decide)
              · exact base_error hT hb k hk
          · rw [syms_cons, syms_cons, List.append_assoc]
            exact two_none2 hT hb h2 (not_follow hLr.head hf)
          · intro y hy
            cases hy
            exact (by decide : s%"LINE" ≠ s%"error")
    · have e : attrOne (.tag s%"SPDXID" :: v :: r) = some (none, r) := by
        cases v with
        | line s => exact absurd rfl hl
        | _ => rfl
      rw [attrs_step e]
      refine lost hT ?_ (fun _ => hend _ hl) ?_ ((hB.mono (Nat.le_succ _)) r (Nat.le_refl _) hLr [] o (.inl rfl))
      · intro k hk
        rcases List.suffix_cons_iff.1 hk with rfl | hk
        · exact hend _ (by decide)
        · exact base_error hT hb k hk
      · intro y hy
        cases hy
        exact (by decide : s%"SPDX_ID" ≠ s%"error")

/-! #### Unknown tags -/

def unknownTypes : List GSym := [s%"TEXT", s%"LINE", s%"NO_ASSERTION", s%"NONE", s%"ISO8601_DATE", s%"PERSON_VALUE"]

theorem unknown_two : TagTwo s%"UNKNOWN_TAG" unknownTypes where
  start := by decide +kernel
  entries := by decide +kernel
  term := by decide +kernel

theorem unknown_entries : ∀ p ∈ rules, isEntry p = true → p.rhs ≠ [s%"UNKNOWN_TAG", s%"error"] := by decide +kernel
theorem unknown_values : ∀ a ∈ unknownTypes, TwoValue s%"UNKNOWN_TAG" a (· = s%"p_unknown_tag") := by unfold TwoValue; decide +kernel
theorem unknown_bare : ∃ p ∈ rules, isEntry p = true ∧ p.rhs = [s%"UNKNOWN_TAG"] ∧ p.handler = s%"p_unknown_tag" := by decide +kernel

theorem unknown_attr {p : Production} {y : List Tok} (h : p.handler = s%"p_unknown_tag") : attrOf (p, y) = some .unknown := by
  unfold attrOf
  rw [show p.handler = s%"p_unknown_tag" from h]
  rfl

theorem unknownValue_iff {v : Tok} (h : TokOk v) : unknownValue v = decide (v.type ∈ unknownTypes) := by
  cases v with
  | tag w =>
    have hn : (Tok.tag w).type ∉ unknownTypes := fun hm =>
      (tag_types w h).1 ((show ∀ a ∈ unknownTypes, a ∈ otherTypes by decide +kernel) _ hm)
    rw [decide_eq_false hn]
    rfl
  | _ => rfl

theorem case_unknown (hT : IsLalr G T) {u : Str} {r : List Tok} (hL : Lexed (.unknown u :: r))
    (hB : Below T r.length) (hb : Base (syms st)) : Good T (at' st (.unknown u :: r) o) (attrs (.unknown u :: r)) := by
  have h2 := unknown_two
  refine good_first hT hb h2.start ?_
  show Good T (at' ((s%"UNKNOWN_TAG", [.unknown u]) :: st) r o) _
  have bare : Follow (lookOf r).type → Good T (at' ((s%"UNKNOWN_TAG", [.unknown u]) :: st) r o) (.unknown :: attrs r) := by
    intro hf
    obtain ⟨p, hp, he, hr, hh⟩ := unknown_bare
    have := good_entry (o := o) hT (m := [(s%"UNKNOWN_TAG", [.unknown u])]) hb hp he (by rw [hr]; rfl) hf
      (fun y o => hB r (Nat.le_refl _) hL.tail _ o (base_start y))
    rw [unknown_attr hh] at this
    exact this
  have hend : ∀ a, a ∉ unknownTypes → ¬ Follow a → T.action (syms ((s%"UNKNOWN_TAG", [.unknown u]) :: st)) a = none := fun a ha hf => by
    rw [syms_cons]
    exact two_none1 hT hb h2 ha (fun _ => hf) (fun _ p hp he => unknown_entries p hp he)
  cases r with
  | nil =>
    rw [attrs_step (a := some .unknown) (r := []) rfl]
    exact bare (.inl rfl)
  | cons v r =>
    have hLv := hL.tail.head
    have hLr := hL.tail.tail
    have e : attrOne (.unknown u :: v :: r) = if unknownValue v then
        if follows r then some (some .unknown, r) else some (none, r.tail)
      else if v.starts then some (some .unknown, v :: r)
      else some (none, r) := rfl
    cases ha : unknownValue v with
    | true =>
      have hA : v.type ∈ unknownTypes := of_decide_eq_true ((unknownValue_iff hLv).symm.trans ha)
      have hV := unknown_values _ hA
      rw [ha, if_pos rfl] at e
      refine good_shift (l := .tok v) hT (by rw [syms_cons]; exact two_shift hT hb hV (h2.term _ hA).1) (good_read hT ?_)
      show Good T (at' ((v.type, [v]) :: (s%"UNKNOWN_TAG", [.unknown u]) :: st) r o) _
      cases hf : follows r with
      | true =>
        rw [hf] at e
        rw [attrs_step e]
        exact two_value hT hb hV (fun p hP => unknown_attr hP) ((follow_look hLr).2 hf)
          (fun y o => hB.mono (Nat.le_succ _) r (Nat.le_refl _) hLr _ o (base_start y))
      | false =>
        cases r with
        | nil => cases hf
        | cons w r =>
          rw [hf] at e
          rw [attrs_step e]
          refine lost hT ?_ (fun _ => ?_) ?_ ((hB.mono (Nat.le_trans (Nat.le_succ _) (Nat.le_succ _))) r (Nat.le_refl _) hLr.tail [] o (.inl rfl))
          · intro k hk
            rcases List.suffix_cons_iff.1 hk with rfl | hk
            · rw [syms_cons, syms_cons, List.append_assoc]
              exact two_none2 hT hb h2 error_not_follow
            · rcases List.suffix_cons_iff.1 hk with rfl | hk
              · exact hend _ (by decide +kernel) error_not_follow
              · exact base_error hT hb k hk
          · rw [syms_cons, syms_cons, List.append_assoc]
            exact two_none2 hT hb h2 (not_follow hLr.head hf)
          · intro y hy
            cases hy
            exact (h2.term _ hA).2.2
    | false =>
      have hA : v.type ∉ unknownTypes := of_decide_eq_false ((unknownValue_iff hLv).symm.trans ha)
      rw [ha] at e
      cases hs : v.starts with
      | true =>
        rw [hs] at e
        rw [attrs_step e]
        exact bare ((follow_tok hLv).2 hs)
      | false =>
        rw [hs] at e
        rw [attrs_step e]
        have hnf : ¬ Follow v.type := not_follow (r := r) hLv hs
        refine lost hT ?_ (fun _ => hend _ hA hnf) ?_ ((hB.mono (Nat.le_succ _)) r (Nat.le_refl _) hLr [] o (.inl rfl))
        · intro k hk
          rcases List.suffix_cons_iff.1 hk with rfl | hk
          · exact hend _ (by decide +kernel) error_not_follow
          · exact base_error hT hb k hk
        · intro y hy
          cases hy
          exact (by decide : s%"UNKNOWN_TAG" ≠ s%"error")

/-! #### Tags with a comment -/

theorem tag_of_type {v : Tok} (h : v.type ∉ otherTypes) : ∃ w, v = .tag w := by
  cases v with
  | tag w => exact ⟨w, rfl⟩
  | unknown _ => exact absurd (by decide : s%"UNKNOWN_TAG" ∈ otherTypes) h
  | text _ => exact absurd (by decide : s%"TEXT" ∈ otherTypes) h
  | tool _ => exact absurd (by decide : s%"TOOL_VALUE" ∈ otherTypes) h
  | org _ => exact absurd (by decide : s%"ORGANIZATION_VALUE" ∈ otherTypes) h
  | person _ => exact absurd (by decide : s%"PERSON_VALUE" ∈ otherTypes) h
  | date _ => exact absurd (by decide : s%"ISO8601_DATE" ∈ otherTypes) h
  | checksum _ => exact absurd (by decide : s%"CHECKSUM" ∈ otherTypes) h
  | line _ => exact absurd (by decide : s%"LINE" ∈ otherTypes) h
  | noAssertion => exact absurd (by decide : s%"NO_ASSERTION" ∈ otherTypes) h
  | none => exact absurd (by decide : s%"NONE" ∈ otherTypes) h
  | error => exact absurd (by decide : s%"error" ∈ otherTypes) h

/-- The productions for the tag `t` with the comment `c` -/
structure TagCom (t c : Str) : Prop where
  err : ErrTag t
  entries : ∀ p ∈ rules, p.rhs.head? = some (ty t) → isEntry p = true →
    p.rhs = [ty t, s%"error"] ∨ p.rhs = [ty t, s%"LINE"] ∨ p.rhs = [ty t, s%"LINE", ty c, s%"text_or_line"]
  line : ∃ p ∈ rules, isEntry p = true ∧ p.rhs = [ty t, s%"LINE"] ∧ p.handler ∈ commentedHandlers
  comment : ∃ p ∈ rules, isEntry p = true ∧ p.rhs = [ty t, s%"LINE", ty c, s%"text_or_line"] ∧ p.handler ∈ commentedHandlers
  inner : inner (ty c) = true ∧ term (ty c) = true ∧ ty c ≠ s%"error"
  unique : ∀ w ∈ tvTags, ty w = ty c → w = c
  mem : c ∈ tvTags

theorem relationship_com : TagCom s%"Relationship" s%"RelationshipComment" where
  err := by unfold ErrTag; decide +kernel
  entries := by decide +kernel
  line := by decide +kernel
  comment := by decide +kernel
  inner := by decide +kernel
  unique := by decide +kernel
  mem := by decide +kernel

theorem externalRef_com : TagCom s%"ExternalRef" s%"ExternalRefComment" where
  err := by unfold ErrTag; decide +kernel
  entries := by decide +kernel
  line := by decide +kernel
  comment := by decide +kernel
  inner := by decide +kernel
  unique := by decide +kernel
  mem := by decide +kernel

theorem textOrLine_rules : ∀ p ∈ rules, p.lhs = s%"text_or_line" → ∀ a ∈ p.rhs, a ∈ TvSyntax.types .textOrLine := by decide +kernel
theorem textOrLine_values : ∀ a ∈ TvSyntax.types .textOrLine, ∃ p ∈ rules, p.lhs = s%"text_or_line" ∧ p.rhs = [a] ∧ isValue p = true := by
  decide +kernel
theorem textOrLine_nt : s%"text_or_line" ∈ nts ∧ s%"LINE" ∉ nts ∧ s%"error" ∉ nts ∧ term s%"LINE" = true := by decide +kernel

/-- The values inside such an attribute -/
theorem com_value {t c : Str} (h : TagCom t c) {p q : Production} {σ : List GSym} (hp : p ∈ rules) (hq : q ∈ rules)
    (he : isEntry q = true) (hσ : q.rhs = σ ++ [p.lhs]) (hh : q.rhs.head? = some (ty t)) :
    σ = [ty t, s%"LINE", ty c] ∧ p.lhs = s%"text_or_line" := by
  have hn := lhs_nts p hp
  have key : ∀ l : List GSym, ∀ y, q.rhs = l ++ [y] → σ = l ∧ p.lhs = y := fun l y e =>
    let h := List.append_inj' (hσ.symm.trans e) rfl
    ⟨h.1, (List.cons.inj h.2).1⟩
  rcases h.entries q hq hh he with e | e | e
  · have := (key [ty t] _ e).2
    rw [this] at hn
    exact absurd hn textOrLine_nt.2.2.1
  · have := (key [ty t] _ e).2
    rw [this] at hn
    exact absurd hn textOrLine_nt.2.1
  · exact key [ty t, s%"LINE", ty c] _ e

/-- The entries inside such an attribute, for what cannot follow it -/
theorem com_cases (hT : IsLalr G T) {b w : List GSym} {t c : Str} {a : GSym} {x : PlyAct} (h : TagCom t c) (hb : Base b)
    (hx : T.action (b ++ ty t :: w) a = some x) :
    (Follow a ∧ ((∃ p ∈ rules, isEntry p = true ∧ p.rhs = ty t :: w) ∨ ∃ y ∈ TvSyntax.types .textOrLine, w = [s%"LINE", ty c, y])) ∨
    (∃ p ∈ rules, isEntry p = true ∧ ∃ r, p.rhs = ty t :: w ++ a :: r ∧ term a = true) ∨
    (w = [s%"LINE", ty c] ∧ a ∈ TvSyntax.types .textOrLine) := by
  have hhead : ∀ {q p : Production} {σ : List GSym} {l : List GSym}, q ∈ rules → isEntry q = true → q.rhs = σ ++ [p.lhs] → p ∈ rules →
      σ ++ l = ty t :: w → q.rhs.head? = some (ty t) := by
    intro q p σ l hq he hσ hp e
    obtain ⟨t', σ', rfl, _⟩ := value_after hq he hσ (lhs_nts p hp)
    rw [hσ, List.cons_append, List.head?_cons, (List.cons.inj e).1]
  rcases inside_cases hT hb h.err.1 hx with ⟨p, hp, he, ⟨e1, hfa⟩ | ⟨r, e1, hta⟩⟩ | ⟨p, hp, hv, q, hq, he, σ, hσ, ⟨e1, hfa⟩ | ⟨e1, e2⟩⟩
  · exact .inl ⟨hfa, .inl ⟨p, hp, he, e1⟩⟩
  · exact .inr (.inl ⟨p, hp, he, r, e1, hta⟩)
  · refine .inl ⟨hfa, .inr ?_⟩
    obtain ⟨rfl, hl⟩ := com_value h hp hq he hσ (hhead hq he hσ hp e1)
    obtain ⟨y, _, ey, _⟩ := value_rules p hp hv
    rw [ey] at e1
    exact ⟨y, textOrLine_rules p hp hl y (by rw [ey]; exact List.mem_singleton_self y), (List.cons.inj e1).2.symm⟩
  · refine .inr (.inr ?_)
    obtain ⟨rfl, hl⟩ := com_value h hp hq he hσ (hhead hq he hσ hp (l := []) (by rw [List.append_nil]; exact e1))
    exact ⟨(List.cons.inj e1).2.symm, textOrLine_rules p hp hl a (by rw [e2]; exact List.mem_singleton_self a)⟩

theorem textOrLine_not_term : term s%"text_or_line" = false := by decide +kernel

/-- after the tag -/
theorem com_none1 (hT : IsLalr G T) {b : List GSym} {t c : Str} {a : GSym} (h : TagCom t c) (hb : Base b) (h1 : a ≠ s%"LINE")
    (h2 : a ≠ s%"error") : T.action (b ++ [ty t]) a = none := by
  cases e : T.action (b ++ [ty t]) a with
  | none => rfl
  | some x =>
    exfalso
    rcases com_cases hT h hb e with ⟨_, ⟨p, hp, he, e1⟩ | ⟨y, _, e1⟩⟩ | ⟨p, hp, he, r, e1, hta⟩ | ⟨e1, _⟩
    · rcases h.entries p hp (by rw [e1]; rfl) he with e2 | e2 | e2 <;> rw [e1] at e2 <;> cases (List.cons.inj e2).2
    · cases e1
    · rcases h.entries p hp (by rw [e1]; rfl) he with e2 | e2 | e2 <;> rw [e1] at e2 <;> have e3 := (List.cons.inj (List.cons.inj e2).2).1
      · exact h2 e3
      · exact h1 e3
      · exact h1 e3
    · cases e1

/-- after the line -/
theorem com_none2 (hT : IsLalr G T) {b : List GSym} {t c : Str} {a : GSym} (h : TagCom t c) (hb : Base b) (h1 : a ≠ ty c)
    (h2 : ¬ Follow a) : T.action (b ++ [ty t, s%"LINE"]) a = none := by
  cases e : T.action (b ++ [ty t, s%"LINE"]) a with
  | none => rfl
  | some x =>
    exfalso
    rcases com_cases hT h hb e with ⟨hf, _⟩ | ⟨p, hp, he, r, e1, hta⟩ | ⟨e1, _⟩
    · exact h2 hf
    · rcases h.entries p hp (by rw [e1]; rfl) he with e2 | e2 | e2 <;> rw [e1] at e2
      · cases (List.cons.inj (List.cons.inj e2).2).2
      · cases (List.cons.inj (List.cons.inj e2).2).2
      · exact h1 (List.cons.inj (List.cons.inj (List.cons.inj e2).2).2).1
    · cases e1

/-- after the tag of the comment -/
theorem com_none3 (hT : IsLalr G T) {b : List GSym} {t c : Str} {a : GSym} (h : TagCom t c) (hb : Base b)
    (h1 : a ∉ TvSyntax.types .textOrLine) : T.action (b ++ [ty t, s%"LINE", ty c]) a = none := by
  cases e : T.action (b ++ [ty t, s%"LINE", ty c]) a with
  | none => rfl
  | some x =>
    exfalso
    rcases com_cases hT h hb e with ⟨hf, ⟨p, hp, he, e1⟩ | ⟨y, _, e1⟩⟩ | ⟨p, hp, he, r, e1, hta⟩ | ⟨e1, ha⟩
    · rcases h.entries p hp (by rw [e1]; rfl) he with e2 | e2 | e2 <;> rw [e1] at e2 <;> have e3 := (List.cons.inj (List.cons.inj e2).2).2 <;>
        cases e3
    · cases (List.cons.inj e1).2
    · rcases h.entries p hp (by rw [e1]; rfl) he with e2 | e2 | e2 <;> rw [e1] at e2 <;> have e3 := (List.cons.inj (List.cons.inj e2).2).2
      · cases e3
      · cases e3
      · have := (List.cons.inj (List.cons.inj e3).2).1
        rw [this, textOrLine_not_term] at hta; cases hta
    · exact h1 ha

/-- after the comment -/
theorem com_none4 (hT : IsLalr G T) {b : List GSym} {t c : Str} {a y : GSym} (h : TagCom t c) (hb : Base b)
    (h2 : ¬ Follow a) : T.action (b ++ [ty t, s%"LINE", ty c, y]) a = none := by
  cases e : T.action (b ++ [ty t, s%"LINE", ty c, y]) a with
  | none => rfl
  | some x =>
    exfalso
    rcases com_cases hT h hb e with ⟨hf, _⟩ | ⟨p, hp, he, r, e1, hta⟩ | ⟨e1, _⟩
    · exact h2 hf
    · have hl : p.rhs.length ≤ 4 := by
        rcases h.entries p hp (by rw [e1]; rfl) he with e2 | e2 | e2 <;> rw [e2] <;> exact of_decide_eq_true rfl
      rw [e1] at hl
      simp only [List.length_append, List.length_cons, List.length_nil] at hl
      omega
    · cases (List.cons.inj (List.cons.inj e1).2).2

theorem com_attr {p : Production} (h : p.handler ∈ commentedHandlers) (y : List Tok) : attrOf (p, y) = match y with
    | [.tag t, .line s] => some (.commented t s none)
    | [.tag t, .line s, _, w] => some (.commented t s (some w))
    | _ => none := by
  have h' := (show ∀ h ∈ commentedHandlers, h ∉ silentHandlers ∧ h ∉ errorHandlers ∧ h ≠ s%"p_unknown_tag" ∧ h ≠ s%"p_spdx_id" by
    decide +kernel) _ h
  unfold attrOf
  rw [if_neg h'.1, if_neg h'.2.1, if_neg h'.2.2.1, if_neg h'.2.2.2, if_pos h]
  rfl

theorem attrs_commented (t c : Str) (h1 : t ≠ s%"SPDXID") (h2 : tvSyntax.lookup t = none) (h3 : commentTag t = some c) (r : List Tok) :
    attrOne (.tag t :: r) = match r with
        | [] => some (none, [])
        | .line s :: [] => some (some (.commented t s none), [])
        | .line s :: v :: r =>
          if v = .tag c then
            match r with
            | [] => some (none, [])
            | w :: r =>
              if TvSyntax.textOrLine.accepts w then
                if follows r then some (some (.commented t s (some w)), r) else some (some (.bad t), r)
              else some (some (.bad t), w :: r)
          else if v.starts then some (some (.commented t s none), v :: r)
          else some (some (.bad t), v :: r)
        | r => some (some (.bad t), r) := by
  rw [attrOne.eq_def]
  dsimp only
  rw [if_neg h1, h2, h3]
  rfl

theorem case_commented (hT : IsLalr G T) {t c : Str} {r : List Tok} (h : TagCom t c) (h1 : t ≠ s%"SPDXID")
    (h2 : tvSyntax.lookup t = none) (h3 : commentTag t = some c) (hL : Lexed (.tag t :: r))
    (hB : Below T r.length) (hb : Base (syms st)) : Good T (at' st (.tag t :: r) o) (attrs (.tag t :: r)) := by
  refine good_first hT hb h.err.1 ?_
  show Good T (at' ((ty t, [.tag t]) :: st) r o) _
  have e := attrs_commented t c h1 h2 h3 r
  cases r with
  | nil =>
    rw [attrs_step (a := none) (r := []) e]
    refine good_end hT ?_
    rw [syms_cons]
    exact com_none1 hT h hb (by decide) (by decide)
  | cons v r =>
    have hLv := hL.tail.head
    have hLr := hL.tail.tail
    by_cases hl : v.type = s%"LINE"
    case neg =>
      have e' : attrOne (.tag t :: v :: r) = some (some (.bad t), v :: r) := by
        rw [e]
        cases v with
        | line s => exact absurd rfl hl
        | _ => rfl
      rw [attrs_step e']
      refine caught_bad hT (m := []) h.err hb hL.tail hB ?_ (fun hv => com_none1 hT h hb hl hv) (fun _ h => nomatch h)
      intro k hk hs
      exact absurd (List.suffix_nil.1 hs) hk
    obtain ⟨s, rfl⟩ := line_type hLv hl
    refine good_shift (l := .tok (.line s)) hT ?_ (good_read hT ?_)
    · obtain ⟨p, hp, he, hr, _⟩ := h.line
      rw [syms_cons]
      exact act_shift_entry hT hb hp he (w := [ty t]) (r := []) hr textOrLine_nt.2.2.2
    show Good T (at' ((s%"LINE", [.line s]) :: (ty t, [.tag t]) :: st) r o) _
    have done : Follow (lookOf r).type →
        Good T (at' ((s%"LINE", [.line s]) :: (ty t, [.tag t]) :: st) r o) (.commented t s none :: attrs r) := by
      intro hf
      obtain ⟨p, hp, he, hr, hh⟩ := h.line
      have := good_entry (o := o) hT (m := [(s%"LINE", [.line s]), (ty t, [.tag t])]) hb hp he (by rw [hr]; rfl) hf
        (fun y o => hB.mono (Nat.le_succ _) r (Nat.le_refl _) hLr _ o (base_start y))
      rw [com_attr hh] at this
      exact this
    have err2 : ∀ k : Stack, k ≠ [] → k <:+ [(s%"LINE", [Tok.line s])] → T.action (syms st ++ (ty t :: syms k)) s%"error" = none := by
      intro k hk hs
      rcases suffix_one hs with rfl | rfl
      · exact com_none2 hT h hb h.inner.2.2.symm error_not_follow
      · exact absurd rfl hk
    cases r with
    | nil =>
      rw [attrs_step e]
      exact done (.inl rfl)
    | cons w r =>
      dsimp only at e
      by_cases hw : w = .tag c
      case neg =>
        rw [if_neg hw] at e
        cases hs : w.starts with
        | true =>
          rw [hs] at e
          rw [attrs_step e]
          exact done ((follow_tok hLr.head).2 hs)
        | false =>
          rw [hs] at e
          rw [attrs_step e]
          refine caught_bad hT (m := [(s%"LINE", [.line s])]) h.err hb hLr (hB.mono (Nat.le_succ _)) err2 (fun _ => ?_) ?_
          · refine com_none2 hT h hb ?_ (not_follow (r := r) hLr.head hs)
            intro ew
            apply hw
            obtain ⟨u, rfl⟩ := tag_of_type (v := w) (by rw [ew]; exact (tag_types c h.mem).1)
            rw [h.unique u hLr.head ew]
          · intro y hy
            cases hy
            exact (by decide : s%"LINE" ≠ s%"error")
      rw [if_pos hw] at e
      subst hw
      refine good_shift (l := .tok (.tag c)) hT ?_ (good_read hT ?_)
      · obtain ⟨p, hp, he, hr, _⟩ := h.comment
        rw [syms_cons, syms_cons, List.append_assoc]
        exact act_shift_entry hT hb hp he (w := [ty t, s%"LINE"]) (r := [s%"text_or_line"]) hr h.inner.2.1
      show Good T (at' ((ty c, [.tag c]) :: (s%"LINE", [.line s]) :: (ty t, [.tag t]) :: st) r o) _
      have hLr' := hLr.tail
      have err3 : ∀ k : Stack, k ≠ [] → k <:+ [(ty c, [Tok.tag c]), (s%"LINE", [Tok.line s])] →
          T.action (syms st ++ (ty t :: syms k)) s%"error" = none := by
        intro k hk hs
        rcases List.suffix_cons_iff.1 hs with rfl | hs
        · exact com_none3 hT h hb (by decide +kernel)
        · exact err2 k hk hs
      cases r with
      | nil =>
        rw [attrs_step (a := none) (r := []) e]
        refine good_end hT ?_
        rw [syms_cons, syms_cons, syms_cons, List.append_assoc, List.append_assoc]
        exact com_none3 hT h hb (by decide +kernel)
      | cons v r =>
        dsimp only at e
        cases ha : TvSyntax.textOrLine.accepts v with
        | false =>
          have hA : v.type ∉ TvSyntax.types .textOrLine := of_decide_eq_false ((accepts_iff hLr'.head _).symm.trans ha)
          rw [ha] at e
          rw [attrs_step e]
          refine caught_bad hT (m := [(ty c, [.tag c]), (s%"LINE", [.line s])]) h.err hb hLr'
            (hB.mono (Nat.le_trans (Nat.le_succ _) (Nat.le_succ _))) err3 (fun _ => com_none3 hT h hb hA) ?_
          intro y hy
          cases hy
          exact h.inner.2.2
        | true =>
          have hA : v.type ∈ TvSyntax.types .textOrLine := of_decide_eq_true ((accepts_iff hLr'.head _).symm.trans ha)
          rw [ha, if_pos rfl] at e
          obtain ⟨q, hq, hql, hqr, hqv⟩ := textOrLine_values _ hA
          obtain ⟨p, hp, he, hr, hh⟩ := h.comment
          refine good_shift (l := .tok v) hT ?_ (good_read hT ?_)
          · rw [syms_cons, syms_cons, syms_cons, List.append_assoc, List.append_assoc]
            exact act_shift_value hT hb hp he (σ := [ty t, s%"LINE", ty c]) (by rw [hr, hql]; rfl) hq hqv hqr (types_other _ _ hA).2.1
          show Good T (at' ((v.type, [v]) :: (ty c, [.tag c]) :: (s%"LINE", [.line s]) :: (ty t, [.tag t]) :: st) r o) _
          cases hf : follows r with
          | true =>
            rw [hf] at e
            rw [attrs_step e]
            have hF := (follow_look hLr'.tail).2 hf
            refine good_value hT (m := [(ty c, [.tag c]), (s%"LINE", [.line s]), (ty t, [.tag t])]) (σ := [ty t, s%"LINE", ty c]) hb hp he
              (by rw [hr, hql]; rfl) hq hqv hqr rfl hF ?_
            intro o
            have := good_entry (o := o) hT (m := [(q.lhs, [v]), (ty c, [.tag c]), (s%"LINE", [.line s]), (ty t, [.tag t])]) hb hp he
              (by rw [hr, hql]; rfl) hF
              (fun y o => hB.mono (Nat.le_trans (Nat.le_succ _) (Nat.le_trans (Nat.le_succ _) (Nat.le_succ _))) r (Nat.le_refl _) hLr'.tail _ o (base_start y))
            rw [com_attr hh] at this
            exact this
          | false =>
            rw [hf] at e
            rw [attrs_step e]
            cases r with
            | nil => cases hf
            | cons u r =>
              refine caught_bad hT (m := [(v.type, [v]), (ty c, [.tag c]), (s%"LINE", [.line s])]) h.err hb hLr'.tail
                (hB.mono (Nat.le_trans (Nat.le_succ _) (Nat.le_trans (Nat.le_succ _) (Nat.le_succ _)))) ?_
                (fun _ => com_none4 hT h hb (not_follow hLr'.tail.head hf)) ?_
              · intro k hk hs
                rcases List.suffix_cons_iff.1 hs with rfl | hs
                · exact com_none4 hT h hb error_not_follow
                · exact err3 k hk hs
              · intro y hy
                cases hy
                exact (types_other _ _ hA).2.2.2

/-! ### All tokens -/

theorem run_nil (hT : IsLalr G T) (hb : Base (syms st)) : Good T (at' st [] o) (attrs []) := by
  show Good T (at' st [] o) []
  rcases hb with h | h
  · exact good_end hT (by rw [h]; exact act_end_none hT)
  · exact good_accept hT (by rw [h]; exact act_accept hT)

theorem commentTag_cases {t c : Str} (h : commentTag t = some c) :
    (t = s%"ExternalRef" ∧ c = s%"ExternalRefComment") ∨ (t = s%"Relationship" ∧ c = s%"RelationshipComment") := by
  unfold commentTag at h
  split at h
  · cases h; exact .inl ⟨rfl, rfl⟩
  · cases h; exact .inr ⟨rfl, rfl⟩
  · cases h

theorem commentTag_com {t c : Str} (h : commentTag t = some c) : TagCom t c ∧ t ≠ s%"SPDXID" ∧ tvSyntax.lookup t = none := by
  rcases commentTag_cases h with ⟨rfl, rfl⟩ | ⟨rfl, rfl⟩
  · exact ⟨externalRef_com, by decide, by decide +kernel⟩
  · exact ⟨relationship_com, by decide, by decide +kernel⟩

/-- PLY's driver finds the attributes that `attrs` finds. -/
theorem run_all (hT : IsLalr G T) : ∀ (n : Nat), Below T n := by
  intro n
  induction n with
  | zero =>
    intro u hu _ st o hb
    cases u with
    | cons v r => exact absurd hu (Nat.not_succ_le_zero _)
    | nil => exact run_nil hT hb
  | succ n ih =>
    intro u hu hL st o hb
    cases u with
    | nil => exact run_nil hT hb
    | cons v r =>
      have hr : r.length ≤ n := Nat.le_of_succ_le_succ hu
      have hB := ih.mono hr
      cases hs : v.starts with
      | false =>
        rw [attrs_drop hs]
        refine lost hT (base_error hT hb) (fun _ => act_base_none hT hb (not_follow (r := r) hL.head hs)) ?_
          (hB r (Nat.le_refl _) hL.tail [] o (.inl rfl))
        intro x hx e
        cases st with
        | nil => cases hx
        | cons y st =>
          cases hx
          rcases hb with h | h
          · rw [syms_cons] at h
            exact absurd (List.append_eq_nil_iff.1 h).2 (List.cons_ne_nil _ _)
          · rw [syms_cons] at h
            have := (List.append_inj' (t₁ := [x.1]) (s₂ := []) (t₂ := [s%"start"]) h rfl).2
            rw [e] at this
            exact absurd this (by decide)
      | true =>
        cases v with
        | tag t =>
          cases e1 : tvSyntax.lookup t with
          | some x => exact case_syntax hT e1 hL hB hb
          | none =>
            cases e2 : commentTag t with
            | some c =>
              obtain ⟨h1, h2, h3⟩ := commentTag_com e2
              exact case_commented hT h1 h2 h3 e2 hL hB hb
            | none =>
              unfold Tok.starts at hs
              dsimp only at hs
              rw [e1, e2] at hs
              have : t = s%"SPDXID" := of_decide_eq_true hs
              subst this
              exact case_spdxId hT hL hB hb
        | unknown u => exact case_unknown hT hL hB hb
        | _ => cases hs

end Spdx.TvGrammar
