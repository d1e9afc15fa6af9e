import Verif.Lemmas.TvGrammar
/-
The LALR tables of the tag-value grammar: which items are valid after which symbols, what may follow, and what the tables do.
-/
namespace Spdx.TvGrammar
open Spdx Spdx.Spec.Lalr

/-! ### Terminals -/

theorem terminal_iff {x : GSym} : Terminal G x ↔ term x = true := by
  unfold Terminal term
  simp only [Bool.and_eq_true, decide_eq_true_eq]
  constructor
  · rintro ⟨h1, h2⟩
    refine ⟨fun hx => ?_, h1⟩
    obtain ⟨p, hp, e⟩ := nts_lhs x hx
    exact h2 p hp e
  · rintro ⟨h1, h2⟩
    exact ⟨h2, fun p hp e => h1 (e ▸ lhs_nts p hp)⟩

theorem not_term_lhs {p : Production} (hp : p ∈ rules) : term p.lhs = false := by
  unfold term
  rw [decide_eq_false (fun h => h (lhs_nts p hp))]
  rfl

theorem inner_term {x : GSym} (h : inner x = true) : term x = true := by
  unfold inner at h
  exact (Bool.and_eq_true_iff.1 (Bool.and_eq_true_iff.1 h).1).1


theorem starter_term {x : GSym} (h : x ∈ starters) : term x = true := (starters_ok x h).1

/-- A production for an attribute: a tag, then terminals, and perhaps the name of a value at the end. -/
theorem entry_shape {p : Production} (hp : p ∈ rules) (he : isEntry p = true) : ∃ t r, p.rhs = t :: r ∧ t ∈ starters ∧
    ∀ (d : Nat) (x : GSym), r[d]? = some x → inner x = true ∨ (x ∈ valueNts ∧ d + 1 = r.length) := by
  have h := entry_ok p hp he
  unfold entryOk at h
  split at h
  · cases h
  · rename_i t r e
    simp only [Bool.and_eq_true, decide_eq_true_eq] at h
    refine ⟨t, r, e, h.1.1, fun d x hx => ?_⟩
    have hd : d < r.length := (List.getElem?_eq_some_iff.1 hx).1
    by_cases hl : d + 1 = r.length
    · have hlast : r.getLast? = some x := by
        rw [List.getLast?_eq_getElem?, ← hl]; exact hx
      have h2 := h.2
      rw [hlast] at h2
      simp only [Bool.or_eq_true, decide_eq_true_eq] at h2
      exact h2.imp id (fun m => ⟨m, hl⟩)
    · left
      have hm : x ∈ r.dropLast := by
        refine List.mem_of_getElem? (i := d) ?_
        rw [List.dropLast_eq_take, List.getElem?_take, if_pos (by omega)]
        exact hx
      exact List.all_eq_true.1 h.1.2 x hm

/-! ### The items -/

/-- The stack between attributes -/
def Base (b : List GSym) : Prop := b = [] ∨ b = [s%"start"]

inductive Shape : List GSym → Production → Nat → Prop where
  | aug0 : Shape [] aug 0
  | aug1 : Shape [s%"start"] aug 1
  | rec0 : Shape [] p1 0
  | rec1 : Shape [s%"start"] p1 1
  | rec2 : Shape [s%"start", s%"attrib"] p1 2
  | one0 : Shape [] p2 0
  | one1 : Shape [s%"attrib"] p2 1
  | wrap0 {b : List GSym} {p : Production} : Base b → p ∈ rules → p.lhs = s%"attrib" → Shape b p 0
  | wrap1 {b : List GSym} {p : Production} {x : GSym} : Base b → p ∈ rules → p.lhs = s%"attrib" → p.rhs = [x] → Shape (b ++ [x]) p 1
  | entry {b : List GSym} {p : Production} {d : Nat} : Base b → p ∈ rules → isEntry p = true → d ≤ p.rhs.length →
      Shape (b ++ p.rhs.take d) p d
  | value {b σ : List GSym} {p q : Production} {d : Nat} : Base b → q ∈ rules → isEntry q = true → q.rhs = σ ++ [p.lhs] → p ∈ rules →
      isValue p = true → d ≤ p.rhs.length → Shape (b ++ σ ++ p.rhs.take d) p d

theorem value_lhs {x : GSym} {q : Production} (h : x = q.lhs) (hx : x ∈ valueNts) : isValue q = true := by
  subst h; exact decide_eq_true hx

theorem entry_of {q : Production} (h1 : q.lhs ≠ s%"start") (h2 : q.lhs ≠ s%"attrib") (h3 : q.lhs ∉ valueNts) : isEntry q = true := by
  unfold isEntry isValue
  rw [decide_eq_true h1, decide_eq_true h2, decide_eq_false h3]; rfl

theorem shape_of_valid {γ : List GSym} {i : Item} (h : Valid G γ i) : Shape γ i.1 i.2 := by
  induction h with
  | start => exact .aug0
  | @next γ p d x _ hx ih =>
    dsimp only at ih ⊢
    cases ih with
    | aug0 => cases hx; exact .aug1
    | aug1 => cases hx
    | rec0 => cases hx; exact .rec1
    | rec1 => cases hx; exact .rec2
    | rec2 => cases hx
    | one0 => cases hx; exact .one1
    | one1 => cases hx
    | wrap0 hb hp hl =>
      obtain ⟨y, _, e, _⟩ := attrib_rules p hp hl
      rw [e] at hx; cases hx
      exact .wrap1 hb hp hl (by rw [e])
    | wrap1 hb hp hl e => rw [e] at hx; cases hx
    | entry hb hp he hd =>
      have hlt := (List.getElem?_eq_some_iff.1 hx).1
      have := Shape.entry (d := d + 1) hb hp he hlt
      rwa [List.take_add_one, hx, Option.toList_some, ← List.append_assoc] at this
    | value hb hq he hσ hp hv hd =>
      have hlt := (List.getElem?_eq_some_iff.1 hx).1
      have := Shape.value (d := d + 1) hb hq he hσ hp hv hlt
      rwa [List.take_add_one, hx, Option.toList_some, ← List.append_assoc] at this
  | @expand γ p q d _ hq hx ih =>
    dsimp only at ih ⊢
    have hstart : q.lhs = s%"start" → γ = [] → Shape γ q 0 := by
      rintro e rfl
      rcases start_rules q hq e with rfl | rfl
      · exact .rec0
      · exact .one0
    cases ih with
    | aug0 => exact hstart (Option.some.inj hx).symm rfl
    | aug1 => cases hx
    | rec0 => exact hstart (Option.some.inj hx).symm rfl
    | rec1 => exact .wrap0 (.inr rfl) hq (Option.some.inj hx).symm
    | rec2 => cases hx
    | one0 => exact .wrap0 (.inl rfl) hq (Option.some.inj hx).symm
    | one1 => cases hx
    | wrap0 hb hp hl =>
      obtain ⟨y, _, e, h1, h2, h3, _⟩ := attrib_rules p hp hl
      rw [e] at hx
      have e' : y = q.lhs := Option.some.inj hx
      have := Shape.entry (d := 0) hb hq (entry_of (e' ▸ h1) (e' ▸ h2) (e' ▸ h3)) (Nat.zero_le _)
      rwa [List.take_zero, List.append_nil] at this
    | wrap1 hb hp hl e => rw [e] at hx; cases hx
    | @entry b _ _ hb hp he hd =>
      obtain ⟨t, r, e, ht, hr⟩ := entry_shape hp he
      cases d with
      | zero =>
        rw [e] at hx
        have : t = q.lhs := Option.some.inj hx
        have h1 := starter_term ht
        rw [this, not_term_lhs hq] at h1; cases h1
      | succ d =>
        have hx' : r[d]? = some q.lhs := by rw [e] at hx; exact hx
        rcases hr d _ hx' with h | ⟨h, hl⟩
        · have h1 := inner_term h
          rw [not_term_lhs hq] at h1; cases h1
        · have hσ : p.rhs = p.rhs.take (d + 1) ++ [q.lhs] := by
            have : p.rhs = p.rhs.take (d + 1 + 1) := by rw [List.take_of_length_le]; rw [e]; simp; omega
            rw [List.take_add_one, hx, Option.toList_some] at this
            exact this
          have := Shape.value (d := 0) hb hp he hσ hq (value_lhs rfl h) (Nat.zero_le _)
          rwa [List.take_zero, List.append_nil] at this
    | value hb hq' he hσ hp hv hd =>
      obtain ⟨y, _, e, hy⟩ := value_rules p hp hv
      rw [e] at hx
      cases d with
      | zero =>
        have : y = q.lhs := Option.some.inj hx
        have h1 := inner_term hy
        rw [this, not_term_lhs hq] at h1; cases h1
      | succ d => cases hx

theorem valid_base_attrib {b : List GSym} (hb : Base b) : ∃ p d, Valid G b (p, d) ∧ p.rhs[d]? = some s%"attrib" ∧
    p.rhs.drop (d + 1) = [] ∧ p ∈ rules := by
  have h0 : Valid G [] (aug, 0) := .start
  have h1 : Valid G [] (p1, 0) := .expand h0 p1_mem rfl
  rcases hb with rfl | rfl
  · exact ⟨p2, 0, .expand h0 p2_mem rfl, rfl, rfl, p2_mem⟩
  · exact ⟨p1, 1, .next (γ := []) h1 rfl, rfl, rfl, p1_mem⟩

theorem valid_take {b : List GSym} {p : Production} (h : Valid G b (p, 0)) : ∀ d, d ≤ p.rhs.length → Valid G (b ++ p.rhs.take d) (p, d)
  | 0, _ => by rw [List.take_zero, List.append_nil]; exact h
  | d + 1, hd => by
    have ih := valid_take h d (by omega)
    have hx : p.rhs[d]? = some p.rhs[d] := List.getElem?_eq_getElem (by omega)
    have := Valid.next ih hx
    rwa [List.append_assoc, ← Option.toList_some (a := p.rhs[d]), ← hx, ← List.take_add_one] at this

theorem valid_wrap {b : List GSym} {p : Production} (hb : Base b) (hp : p ∈ rules) (hl : p.lhs = s%"attrib") : Valid G b (p, 0) := by
  obtain ⟨q, d, h, hx, _⟩ := valid_base_attrib hb
  exact .expand h hp (by rw [hl]; exact hx)

theorem valid_entry {b : List GSym} {p : Production} (hb : Base b) (hp : p ∈ rules) (he : isEntry p = true) : Valid G b (p, 0) :=
  .expand (valid_wrap hb (entry_wrapped p hp he) rfl) hp rfl

theorem valid_of_shape {γ : List GSym} {p : Production} {d : Nat} (h : Shape γ p d) : Valid G γ (p, d) := by
  have h0 : Valid G [] (aug, 0) := .start
  have h1 : Valid G [] (p1, 0) := .expand h0 p1_mem rfl
  have h2 : Valid G [] (p2, 0) := .expand h0 p2_mem rfl
  cases h with
  | aug0 => exact h0
  | aug1 => exact .next (γ := []) h0 rfl
  | rec0 => exact h1
  | rec1 => exact .next (γ := []) h1 rfl
  | rec2 => exact .next (γ := [s%"start"]) (.next (γ := []) h1 rfl) rfl
  | one0 => exact h2
  | one1 => exact .next (γ := []) h2 rfl
  | wrap0 hb hp hl => exact valid_wrap hb hp hl
  | wrap1 hb hp hl e => exact .next (valid_wrap hb hp hl) (by rw [e]; rfl)
  | entry hb hp he hd => exact valid_take (valid_entry hb hp he) d hd
  | @value b σ _ q _ hb hq he hσ hp hv hd =>
    refine valid_take ?_ d hd
    have h := valid_take (valid_entry hb hq he) σ.length (by rw [hσ]; simp)
    rw [hσ, List.take_left' rfl] at h
    exact .expand h hp (by rw [hσ]; simp)

theorem valid_iff {γ : List GSym} {p : Production} {d : Nat} : Valid G γ (p, d) ↔ Shape γ p d :=
  ⟨fun h => shape_of_valid h, valid_of_shape⟩

/-! ### What may follow -/

/-- The terminals that may follow an attribute -/
def Follow (a : GSym) : Prop := a = s%"$end" ∨ a ∈ starters

theorem follow_term {a : GSym} (h : Follow a) : term a = true := by
  rcases h with rfl | h
  · decide +kernel
  · exact starter_term h

theorem first_terminal {a b : GSym} {w : List GSym} (ha : term a = true) (h : First G (a :: w) b) : b = a := by
  generalize e : a :: w = l at h
  induction h generalizing a w with
  | terminal _ => cases e; rfl
  | @expand p w' b hp _ _ =>
    cases e
    rw [not_term_lhs hp] at ha; cases ha

theorem first_self {a : GSym} {w : List GSym} (h : term a = true) : First G (a :: w) a := .terminal (terminal_iff.2 h)

theorem rhs_of_lhs {p : Production} (hp : p ∈ rules) : p = p1 ∨ p = p2 ∨ p.lhs = s%"attrib" ∨ isEntry p = true ∨ isValue p = true := by
  by_cases h1 : p.lhs = s%"start"
  · exact (start_rules p hp h1).imp id .inl
  by_cases h2 : p.lhs = s%"attrib"
  · exact .inr (.inr (.inl h2))
  by_cases h3 : p.lhs ∈ valueNts
  · exact .inr (.inr (.inr (.inr (decide_eq_true h3))))
  · exact .inr (.inr (.inr (.inl (entry_of h1 h2 h3))))

theorem first_entry {p : Production} {w : List GSym} {b : GSym} (hp : p ∈ rules) (he : isEntry p = true) (h : First G (p.rhs ++ w) b) :
    b ∈ starters := by
  obtain ⟨t, r, e, ht, _⟩ := entry_shape hp he
  rw [e] at h
  rw [first_terminal (starter_term ht) h]; exact ht

theorem first_attrib {w : List GSym} {b : GSym} (h : First G (s%"attrib" :: w) b) : b ∈ starters := by
  generalize e : s%"attrib" :: w = l at h
  cases h with
  | terminal h => cases e; exact absurd (terminal_iff.1 h) (by decide +kernel)
  | @expand p w' _ hp h =>
    simp only [List.cons.injEq] at e
    obtain ⟨x, _, ex, h1, h2, h3, hx⟩ := attrib_rules p hp e.1.symm
    rw [ex] at h
    generalize e' : [x] ++ w' = l' at h
    cases h with
    | terminal h =>
      simp only [List.cons_append, List.nil_append, List.cons.injEq] at e'
      obtain ⟨q, hq, eq⟩ := nts_lhs x hx
      have := terminal_iff.1 h
      rw [← e'.1, ← eq, not_term_lhs hq] at this; cases this
    | @expand q w'' _ hq h =>
      simp only [List.cons_append, List.nil_append, List.cons.injEq] at e'
      rw [e'.1] at h1 h2 h3
      exact first_entry hq (entry_of h1 h2 h3) h

theorem first_attrib_self {w : List GSym} {a : GSym} (ha : a ∈ starters) : First G (s%"attrib" :: w) a := by
  obtain ⟨_, p, hp, he, hh⟩ := starters_ok a ha
  refine First.expand (p := ⟨s%"attrib", [p.lhs], s%"p_attrib"⟩) (entry_wrapped p hp he) ?_
  refine First.expand hp ?_
  obtain ⟨t, r, e, ht, _⟩ := entry_shape hp he
  rw [e] at hh ⊢
  cases hh
  exact first_self (starter_term ht)

theorem aug_not_rule : aug ∉ rules := fun h => absurd (lhs_nts aug h) (by decide +kernel)

/-- Whatever follows an item follows attributes. -/
theorem follow_of_valid1 {γ : List GSym} {i : Item} {a : GSym} (h : Valid1 G γ i a) : Follow a ∧ (i.1 = aug → a = s%"$end") := by
  have key : ∀ {γ : List GSym} {i : Item} {a : GSym}, Valid1 G γ i a → Valid G γ i := by
    intro γ i a h
    induction h with
    | start => exact .start
    | next _ hx ih => exact .next ih hx
    | expand _ hq hx _ ih => exact .expand ih hq hx
  induction h with
  | start => exact ⟨.inl rfl, fun _ => rfl⟩
  | next _ _ ih => exact ih
  | @expand γ p q d a b h hq hx hf ih =>
    refine ⟨?_, fun e => absurd (e ▸ hq : aug ∈ rules) aug_not_rule⟩
    have hs := shape_of_valid (key h)
    dsimp only at hs
    have last : p.rhs.drop (d + 1) = [] → Follow b := by
      intro e
      rw [e, List.nil_append] at hf
      rw [first_terminal (follow_term ih.1) hf]; exact ih.1
    cases hs with
    | aug0 => exact last rfl
    | aug1 => cases hx
    | rec0 => exact .inr (first_attrib hf)
    | rec1 => exact last rfl
    | rec2 => cases hx
    | one0 => exact last rfl
    | one1 => cases hx
    | wrap0 hb hp hl =>
      obtain ⟨y, _, e, _⟩ := attrib_rules p hp hl
      exact last (by rw [e]; rfl)
    | wrap1 hb hp hl e => rw [e] at hx; cases hx
    | @entry b' _ _ hb hp he hd =>
      obtain ⟨t, r, e, ht, hr⟩ := entry_shape hp he
      refine last ?_
      cases d with
      | zero =>
        rw [e] at hx
        have : t = q.lhs := Option.some.inj hx
        have h1 := starter_term ht
        rw [this, not_term_lhs hq] at h1; cases h1
      | succ d =>
        have hx' : r[d]? = some q.lhs := by rw [e] at hx; exact hx
        rcases hr d _ hx' with h | ⟨_, hl⟩
        · have h1 := inner_term h
          rw [not_term_lhs hq] at h1; cases h1
        · rw [e]; simp; omega
    | value hb hq' he hσ hp hv hd =>
      obtain ⟨y, _, e, hy⟩ := value_rules p hp hv
      rw [e] at hx
      cases d with
      | zero =>
        have : y = q.lhs := Option.some.inj hx
        have h1 := inner_term hy
        rw [this, not_term_lhs hq] at h1; cases h1
      | succ d => cases hx

/-- Everything that can follow an attribute can follow any item. -/
theorem valid1_of_follow {a : GSym} (ha : Follow a) {γ : List GSym} {p : Production} {d : Nat} (h : Valid G γ (p, d)) (hp : p ∈ rules) :
    Valid1 G γ (p, d) a := by
  have h0 : Valid1 G [] (aug, 0) s%"$end" := .start
  have hend : ∀ q ∈ rules, q.lhs = s%"start" → Valid1 G [] (q, 0) s%"$end" := fun q hq e =>
    .expand h0 hq (by rw [e]; rfl) (first_self (follow_term (.inl rfl)))
  have hone : ∀ q ∈ rules, q.lhs = s%"start" → Valid1 G [] (q, 0) a := by
    intro q hq e
    rcases ha with rfl | ha
    · exact hend q hq e
    · exact .expand (hend p1 p1_mem rfl) hq (by rw [e]; rfl) (first_attrib_self ha)
  have take : ∀ {b : List GSym} {p : Production}, Valid1 G b (p, 0) a → ∀ d, d ≤ p.rhs.length → Valid1 G (b ++ p.rhs.take d) (p, d) a := by
    intro b p h d
    induction d with
    | zero => intro _; rw [List.take_zero, List.append_nil]; exact h
    | succ d ih =>
      intro hd
      have hx : p.rhs[d]? = some p.rhs[d] := List.getElem?_eq_getElem (by omega)
      have := Valid1.next (ih (by omega)) hx
      rwa [List.append_assoc, ← Option.toList_some (a := p.rhs[d]), ← hx, ← List.take_add_one] at this
  have self : First G ([] ++ [a]) a := first_self (follow_term ha)
  have wrap : ∀ {b : List GSym} {p : Production}, Base b → p ∈ rules → p.lhs = s%"attrib" → Valid1 G b (p, 0) a := by
    intro b p hb hp hl
    rcases hb with rfl | rfl
    · exact .expand (hone p2 p2_mem rfl) hp (by rw [hl]; rfl) self
    · exact .expand (.next (γ := []) (hone p1 p1_mem rfl) rfl) hp (by rw [hl]; rfl) self
  have ent : ∀ {b : List GSym} {p : Production}, Base b → p ∈ rules → isEntry p = true → Valid1 G b (p, 0) a := fun hb hp he =>
    .expand (wrap hb (entry_wrapped _ hp he) rfl) hp rfl self
  cases valid_iff.1 h with
  | aug0 => exact absurd hp aug_not_rule
  | aug1 => exact absurd hp aug_not_rule
  | rec0 => exact hone p1 p1_mem rfl
  | rec1 => exact .next (γ := []) (hone p1 p1_mem rfl) rfl
  | rec2 => exact .next (γ := [s%"start"]) (.next (γ := []) (hone p1 p1_mem rfl) rfl) rfl
  | one0 => exact hone p2 p2_mem rfl
  | one1 => exact .next (γ := []) (hone p2 p2_mem rfl) rfl
  | wrap0 hb hp hl => exact wrap hb hp hl
  | wrap1 hb hp hl e => exact .next (wrap hb hp hl) (by rw [e]; rfl)
  | entry hb hp he hd => exact take (ent hb hp he) d hd
  | @value b σ _ q _ hb hq he hσ hp hv hd =>
    refine take ?_ d hd
    have h := take (ent hb hq he) σ.length (by rw [hσ]; simp)
    rw [hσ, List.take_left' rfl] at h
    exact .expand h hp (by rw [hσ]; simp) (by rw [hσ]; simpa using self)

/-! ### The entries of the table -/

theorem acts_reduce {γ : List GSym} {a : GSym} {p : Production} :
    Acts G γ a (.reduce p) ↔ p ∈ rules ∧ Shape γ p p.rhs.length ∧ Follow a := by
  constructor
  · intro h
    cases h with
    | reduce hp hv _ h1 => exact ⟨hp, valid_iff.1 hv, (follow_of_valid1 h1).1⟩
  · rintro ⟨hp, hs, ha⟩
    exact .reduce hp (valid_iff.2 hs) (fun _ => Iff.rfl) (valid1_of_follow ha (valid_iff.2 hs) hp)

theorem acts_shift {γ : List GSym} {a : GSym} : Acts G γ a .shift ↔ ∃ p d, Shape γ p d ∧ p.rhs[d]? = some a ∧ term a = true := by
  constructor
  · intro h
    cases h with
    | shift hv hx ht => exact ⟨_, _, valid_iff.1 hv, hx, terminal_iff.1 ht⟩
  · rintro ⟨p, d, hs, hx, ht⟩
    exact .shift (valid_iff.2 hs) hx (terminal_iff.2 ht)

theorem acts_accept {γ : List GSym} {a : GSym} : Acts G γ a .accept ↔ γ = [s%"start"] ∧ a = s%"$end" := by
  constructor
  · intro h
    cases h with
    | accept hv ha =>
      refine ⟨?_, ha⟩
      have hs := valid_iff.1 hv
      have hr : ∀ {p : Production}, p = aug → p ∉ rules := by rintro p rfl; exact aug_not_rule
      generalize ep : G.augmented = p at hs
      generalize ed : p.rhs.length = d at hs
      cases hs with
      | aug0 => cases ed
      | aug1 => rfl
      | rec0 => cases ed
      | rec1 => cases ed
      | rec2 => cases ep
      | one0 => cases ed
      | one1 => cases ep
      | wrap0 hb hp hl => exact absurd hp (hr ep.symm)
      | wrap1 hb hp hl e => exact absurd hp (hr ep.symm)
      | entry hb hp he hd => exact absurd hp (hr ep.symm)
      | value hb hq he hσ hp hv hd => exact absurd hp (hr ep.symm)
  · rintro ⟨rfl, rfl⟩
    exact .accept (valid_iff.2 .aug1) rfl

/-! ### The entries at a given place -/

theorem inner_not_follow {x : GSym} (h : inner x = true) : ¬ Follow x := by
  unfold inner at h
  simp only [Bool.and_eq_true, decide_eq_true_eq] at h
  rintro (rfl | hx)
  · exact h.2 rfl
  · exact h.1.2 hx

theorem starter_not_nt {t : GSym} (h : t ∈ starters) : t ∉ nts := by
  have := starter_term h
  unfold term at this
  exact of_decide_eq_true (Bool.and_eq_true_iff.1 this).1

theorem start_nt : s%"start" ∈ nts := by decide +kernel
theorem attrib_nt : s%"attrib" ∈ nts := by decide +kernel

theorem base_nts {b : List GSym} (hb : Base b) : ∀ x ∈ b, x ∈ nts := by
  rcases hb with rfl | rfl
  · intro x h; cases h
  · intro x h; rw [List.mem_singleton.1 h]; exact start_nt

theorem base_inj {b b' w w' : List GSym} {t t' : GSym} (hb : Base b) (hb' : Base b') (ht : t ∉ nts) (ht' : t' ∉ nts)
    (h : b ++ t :: w = b' ++ t' :: w') : b = b' ∧ t = t' ∧ w = w' := by
  rcases hb with rfl | rfl <;> rcases hb' with rfl | rfl
  · exact ⟨rfl, (List.cons.inj h).1, (List.cons.inj h).2⟩
  · exact absurd ((List.cons.inj h).1 ▸ start_nt) ht
  · exact absurd ((List.cons.inj h).1 ▸ start_nt) ht'
  · have := (List.cons.inj h).2
    exact ⟨rfl, (List.cons.inj this).1, (List.cons.inj this).2⟩

/-- A value inside an attribute comes after the tag. -/
theorem value_after {q : Production} {σ : List GSym} {v : GSym} (hq : q ∈ rules) (he : isEntry q = true) (hσ : q.rhs = σ ++ [v])
    (hv : v ∈ nts) : ∃ t σ', σ = t :: σ' ∧ t ∈ starters := by
  obtain ⟨t, r, e, ht, _⟩ := entry_shape hq he
  rw [hσ] at e
  cases σ with
  | nil => exact absurd hv ((List.cons.inj e).1 ▸ starter_not_nt ht)
  | cons t' σ' => exact ⟨t', σ', rfl, (List.cons.inj e).1 ▸ ht⟩

/-- The items inside an attribute -/
theorem shape_inside {b w : List GSym} {t : GSym} {p : Production} {d : Nat} (hb : Base b) (ht : t ∈ starters)
    (h : Shape (b ++ t :: w) p d) : p ∈ rules ∧ d ≤ p.rhs.length ∧ ((isEntry p = true ∧ p.rhs.take d = t :: w) ∨
      (isValue p = true ∧ ∃ q ∈ rules, isEntry q = true ∧ ∃ σ, q.rhs = σ ++ [p.lhs] ∧ σ ++ p.rhs.take d = t :: w)) := by
  have hm : t ∈ b ++ t :: w := List.mem_append_right _ List.mem_cons_self
  have htn := starter_not_nt ht
  have no : ∀ {γ : List GSym}, b ++ t :: w = γ → (∀ x ∈ γ, x ∈ nts) → False := fun e hγ => htn (hγ t (e ▸ hm))
  generalize e : b ++ t :: w = γ at h
  cases h with
  | aug0 => exact (no e (by decide +kernel)).elim
  | aug1 => exact (no e (by decide +kernel)).elim
  | rec0 => exact (no e (by decide +kernel)).elim
  | rec1 => exact (no e (by decide +kernel)).elim
  | rec2 => exact (no e (by decide +kernel)).elim
  | one0 => exact (no e (by decide +kernel)).elim
  | one1 => exact (no e (by decide +kernel)).elim
  | wrap0 hb' hp hl => exact (no e (base_nts hb')).elim
  | wrap1 hb' hp hl er =>
    refine (no e ?_).elim
    obtain ⟨y, _, ey, _, _, _, hy⟩ := attrib_rules p hp hl
    rw [ey] at er
    intro x hx
    rcases List.mem_append.1 hx with hx | hx
    · exact base_nts hb' x hx
    · rw [List.mem_singleton.1 hx, ← (List.cons.inj er).1]; exact hy
  | @entry b' _ _ hb' hp he hd =>
    refine ⟨hp, hd, .inl ⟨he, ?_⟩⟩
    obtain ⟨t', r, er, ht', _⟩ := entry_shape hp he
    rw [er] at e ⊢
    cases d with
    | zero => exact (no e (by rw [List.take_zero, List.append_nil]; exact base_nts hb')).elim
    | succ d =>
      rw [List.take_succ_cons] at e ⊢
      obtain ⟨_, h1, h2⟩ := base_inj hb hb' htn (starter_not_nt ht') e
      rw [h1, h2]
  | @value b' σ _ q _ hb' hq he hσ hp hv hd =>
    refine ⟨hp, hd, .inr ⟨hv, q, hq, he, σ, hσ, ?_⟩⟩
    obtain ⟨t', σ', rfl, ht'⟩ := value_after hq he hσ (lhs_nts p hp)
    rw [List.append_assoc, List.cons_append] at e
    rw [List.cons_append]
    obtain ⟨_, h1, h2⟩ := base_inj hb hb' htn (starter_not_nt ht') e
    rw [h1, h2]

/-- The items between attributes -/
theorem shape_base {b : List GSym} {p : Production} {d : Nat} (hb : Base b) (h : Shape b p d) :
    d < p.rhs.length ∧ (∀ a, p.rhs[d]? = some a → term a = true → a ∈ starters) ∨ p = aug := by
  have nn : ∀ {x : GSym} {a : GSym}, x ∈ nts → some x = some a → term a = true → a ∈ starters := by
    intro x a hx e hta
    cases e
    unfold term at hta
    exact absurd hx (of_decide_eq_true (Bool.and_eq_true_iff.1 hta).1)
  have no : ∀ {t : GSym} {γ : List GSym}, t ∈ starters → b = γ → t ∈ γ → False := fun ht e hm =>
    starter_not_nt ht (base_nts hb _ (e ▸ hm))
  generalize e : b = γ at h
  cases h with
  | aug0 => exact .inr rfl
  | aug1 => exact .inr rfl
  | rec0 => exact .inl ⟨by decide, fun a h => nn start_nt h⟩
  | rec1 => exact .inl ⟨by decide, fun a h => nn attrib_nt h⟩
  | rec2 => rcases hb with rfl | rfl <;> cases e
  | one0 => exact .inl ⟨by decide, fun a h => nn attrib_nt h⟩
  | one1 => rcases hb with rfl | rfl <;> cases e
  | wrap0 hb' hp hl =>
    obtain ⟨y, _, ey, _, _, _, hy⟩ := attrib_rules p hp hl
    subst ey
    exact .inl ⟨by simp, fun a h => nn hy h⟩
  | @wrap1 b' _ x hb' hp hl er =>
    obtain ⟨y, _, ey, h1, h2, _, hy⟩ := attrib_rules p hp hl
    rw [ey] at er
    have exy : y = x := (List.cons.inj er).1
    subst exy
    rcases hb with rfl | rfl <;> rcases hb' with rfl | rfl
    · cases e
    · cases e
    · exact absurd (List.cons.inj e).1.symm h1
    · cases (List.cons.inj e).2
  | @entry b' _ _ hb' hp he hd =>
    obtain ⟨t', r, er, ht', _⟩ := entry_shape hp he
    cases d with
    | zero =>
      rw [er]
      exact .inl ⟨by simp, fun a h _ => by cases h; exact ht'⟩
    | succ d =>
      rw [er, List.take_succ_cons] at e
      exact (no ht' e (List.mem_append_right _ List.mem_cons_self)).elim
  | @value b' σ _ q _ hb' hq he hσ hp hv hd =>
    obtain ⟨t', σ', rfl, ht'⟩ := value_after hq he hσ (lhs_nts p hp)
    exact (no ht' e (List.mem_append_left _ (List.mem_append_right _ List.mem_cons_self))).elim

/-- The items after the name of an attribute -/
theorem shape_name {b : List GSym} {x : GSym} {p : Production} {d : Nat} (hb : Base b) (hx : x ∈ nts) (h1 : x ≠ s%"start")
    (h2 : x ≠ s%"attrib") (h : Shape (b ++ [x]) p d) : p = ⟨s%"attrib", [x], s%"p_attrib"⟩ ∧ d = 1 := by
  have no : ∀ {t : GSym} {γ : List GSym}, t ∈ starters → b ++ [x] = γ → t ∈ γ → False := by
    intro t γ ht e hm
    rw [← e] at hm
    rcases List.mem_append.1 hm with h | h
    · exact starter_not_nt ht (base_nts hb _ h)
    · exact starter_not_nt ht (List.mem_singleton.1 h ▸ hx)
  have last : ∀ {β : List GSym} {y : GSym}, b ++ [x] = β ++ [y] → x = y := fun e => (List.append_inj' e rfl).2 |> List.cons.inj |>.1
  have ne : ∀ {γ : List GSym}, Base γ → b ++ [x] ≠ γ := by
    rintro γ (rfl | rfl) e
    · cases b <;> cases e
    · exact h1 (last (β := []) e)
  generalize e : b ++ [x] = γ at h
  cases h with
  | aug0 => exact (ne (.inl rfl) e).elim
  | aug1 => exact (ne (.inr rfl) e).elim
  | rec0 => exact (ne (.inl rfl) e).elim
  | rec1 => exact (ne (.inr rfl) e).elim
  | rec2 => exact absurd (last (β := [s%"start"]) e) h2
  | one0 => exact (ne (.inl rfl) e).elim
  | one1 => exact absurd (last (β := []) e) h2
  | wrap0 hb' hp hl => exact (ne hb' e).elim
  | wrap1 hb' hp hl er =>
    obtain ⟨y, _, ey, _⟩ := attrib_rules p hp hl
    rw [ey] at er ⊢
    rw [last e, ← (List.cons.inj er).1]; exact ⟨rfl, rfl⟩
  | @entry b' _ _ hb' hp he hd =>
    obtain ⟨t', r, er, ht', _⟩ := entry_shape hp he
    cases d with
    | zero => exact (ne hb' (by rw [e, List.take_zero, List.append_nil])).elim
    | succ d =>
      rw [er, List.take_succ_cons] at e
      exact (no ht' e (List.mem_append_right _ List.mem_cons_self)).elim
  | @value b' σ _ q _ hb' hq he hσ hp hv hd =>
    obtain ⟨t', σ', rfl, ht'⟩ := value_after hq he hσ (lhs_nts p hp)
    exact (no ht' e (List.mem_append_left _ (List.mem_append_right _ List.mem_cons_self))).elim

/-- The items after an attribute -/
theorem shape_attrib {b : List GSym} {p : Production} {d : Nat} (hb : Base b) (h : Shape (b ++ [s%"attrib"]) p d) :
    d = p.rhs.length ∧ ((b = [] ∧ p = p2) ∨ (b = [s%"start"] ∧ p = p1)) := by
  have no : ∀ {t : GSym} {γ : List GSym}, t ∈ starters → b ++ [s%"attrib"] = γ → t ∈ γ → False := by
    intro t γ ht e hm
    rw [← e] at hm
    rcases List.mem_append.1 hm with h | h
    · exact starter_not_nt ht (base_nts hb _ h)
    · exact starter_not_nt ht (List.mem_singleton.1 h ▸ attrib_nt)
  have last : ∀ {β : List GSym} {y : GSym}, b ++ [s%"attrib"] = β ++ [y] → s%"attrib" = y := fun e =>
    (List.append_inj' e rfl).2 |> List.cons.inj |>.1
  have ne : ∀ {γ : List GSym}, Base γ → b ++ [s%"attrib"] ≠ γ := by
    rintro γ (rfl | rfl) e
    · cases b <;> cases e
    · exact absurd (last (β := []) e) (by decide)
  generalize e : b ++ [s%"attrib"] = γ at h
  cases h with
  | aug0 => exact (ne (.inl rfl) e).elim
  | aug1 => exact (ne (.inr rfl) e).elim
  | rec0 => exact (ne (.inl rfl) e).elim
  | rec1 => exact (ne (.inr rfl) e).elim
  | rec2 =>
    refine ⟨rfl, .inr ⟨?_, rfl⟩⟩
    rcases hb with rfl | rfl
    · exact absurd e (by decide)
    · rfl
  | one0 => exact (ne (.inl rfl) e).elim
  | one1 =>
    refine ⟨rfl, .inl ⟨?_, rfl⟩⟩
    rcases hb with rfl | rfl
    · rfl
    · exact absurd e (by decide)
  | wrap0 hb' hp hl => exact (ne hb' e).elim
  | wrap1 hb' hp hl er =>
    obtain ⟨y, _, ey, _, h2, _⟩ := attrib_rules p hp hl
    rw [ey] at er
    exact absurd ((List.cons.inj er).1.trans (last e).symm) h2
  | @entry b' _ _ hb' hp he hd =>
    obtain ⟨t', r, er, ht', _⟩ := entry_shape hp he
    cases d with
    | zero => exact (ne hb' (by rw [e, List.take_zero, List.append_nil])).elim
    | succ d =>
      rw [er, List.take_succ_cons] at e
      exact (no ht' e (List.mem_append_right _ List.mem_cons_self)).elim
  | @value b' σ _ q _ hb' hq he hσ hp hv hd =>
    obtain ⟨t', σ', rfl, ht'⟩ := value_after hq he hσ (lhs_nts p hp)
    exact (no ht' e (List.mem_append_left _ (List.mem_append_right _ List.mem_cons_self))).elim

/-! ### No conflicts -/

/-- The places where something is reduced -/
theorem reduce_place {γ : List GSym} {p : Production} (hp : p ∈ rules) (h : Shape γ p p.rhs.length) :
    (∃ b, Base b ∧ γ = b ++ [s%"attrib"]) ∨
    (∃ b x, Base b ∧ x ∈ nts ∧ x ≠ s%"start" ∧ x ≠ s%"attrib" ∧ γ = b ++ [x]) ∨
    ∃ b t w, Base b ∧ t ∈ starters ∧ γ = b ++ t :: w := by
  generalize e : p.rhs.length = d at h
  cases h with
  | aug0 => cases e
  | aug1 => exact absurd hp aug_not_rule
  | rec0 => cases e
  | rec1 => cases e
  | rec2 => exact .inl ⟨[s%"start"], .inr rfl, rfl⟩
  | one0 => cases e
  | one1 => exact .inl ⟨[], .inl rfl, rfl⟩
  | wrap0 hb' hp hl =>
    obtain ⟨y, _, ey, _⟩ := attrib_rules p hp hl
    rw [ey] at e; cases e
  | @wrap1 b _ x hb' hp hl er =>
    obtain ⟨y, _, ey, h1, h2, _, hy⟩ := attrib_rules p hp hl
    rw [ey] at er
    have exy : y = x := (List.cons.inj er).1
    subst exy
    exact .inr (.inl ⟨b, y, hb', hy, h1, h2, rfl⟩)
  | @entry b _ _ hb' hp he hd =>
    obtain ⟨t', r, er, ht', _⟩ := entry_shape hp he
    rw [er] at e ⊢
    cases d with
    | zero => cases e
    | succ d => exact .inr (.inr ⟨b, t', _, hb', ht', by rw [List.take_succ_cons]⟩)
  | @value b σ _ q _ hb' hq he hσ hp hv hd =>
    obtain ⟨t', σ', rfl, ht'⟩ := value_after hq he hσ (lhs_nts p hp)
    exact .inr (.inr ⟨b, t', _, hb', ht', by rw [List.append_assoc, List.cons_append]⟩)

/-- Inside an attribute only inner symbols are shifted. -/
theorem shift_inner {b w : List GSym} {t a : GSym} {p : Production} {d : Nat} (hb : Base b) (ht : t ∈ starters)
    (h : Shape (b ++ t :: w) p d) (hx : p.rhs[d]? = some a) (hta : term a = true) : inner a = true := by
  obtain ⟨hp, hd, ⟨he, htake⟩ | ⟨hv, q, hq, he, σ, hσ, htake⟩⟩ := shape_inside hb ht h
  · obtain ⟨t', r, er, ht', hr⟩ := entry_shape hp he
    cases d with
    | zero => rw [List.take_zero] at htake; cases htake
    | succ d =>
      rw [er] at hx
      rcases hr d a hx with h | ⟨h, _⟩
      · exact h
      · have : a ∈ nts := (show ∀ x ∈ valueNts, x ∈ nts by decide +kernel) a h
        unfold term at hta
        exact absurd this (of_decide_eq_true (Bool.and_eq_true_iff.1 hta).1)
  · obtain ⟨y, _, ey, hy⟩ := value_rules p hp hv
    rw [ey] at hx
    cases d with
    | zero => cases hx; exact hy
    | succ d => cases hx

theorem shift_base {b : List GSym} {a : GSym} {p : Production} {d : Nat} (hb : Base b) (h : Shape b p d) (hx : p.rhs[d]? = some a)
    (hta : term a = true) : a ∈ starters := by
  rcases shape_base hb h with ⟨_, h⟩ | rfl
  · exact h a hx hta
  · match d, hx with
    | 0, hx => cases hx; exact absurd hta (by decide +kernel)

theorem no_reduce_base {b : List GSym} {p : Production} (hb : Base b) (hp : p ∈ rules) : ¬ Shape b p p.rhs.length := by
  intro h
  rcases shape_base hb h with ⟨h, _⟩ | rfl
  · exact Nat.lt_irrefl _ h
  · exact aug_not_rule hp

/-- What is reduced inside an attribute is determined. -/
theorem reduce_unique {b w : List GSym} {t : GSym} {p q : Production} (hb : Base b) (ht : t ∈ starters)
    (hp : Shape (b ++ t :: w) p p.rhs.length) (hq : Shape (b ++ t :: w) q q.rhs.length) : p = q := by
  obtain ⟨mp, _, hp'⟩ := shape_inside hb ht hp
  obtain ⟨mq, _, hq'⟩ := shape_inside hb ht hq
  have ev : ∀ {p q r : Production} {σ : List GSym}, p ∈ rules → isEntry p = true → p.rhs = t :: w → q ∈ rules → isValue q = true →
      r ∈ rules → isEntry r = true → r.rhs = σ ++ [q.lhs] → σ ++ q.rhs = t :: w → False := by
    intro p q r σ mp he ep mq hv mr her er eq
    obtain ⟨y, _, ey, hy⟩ := value_rules q mq hv
    rw [ey] at eq
    have hd : p.rhs.dropLast = r.rhs.dropLast := by rw [ep, ← eq, er, List.dropLast_concat, List.dropLast_concat]
    have l1 : p.rhs.getLast? = some y := by rw [ep, ← eq, List.getLast?_concat]
    have l2 : r.rhs.getLast? = some q.lhs := by rw [er, List.getLast?_concat]
    have hvn : q.lhs ∈ valueNts := of_decide_eq_true hv
    have hne : p.rhs.getLast? ≠ r.rhs.getLast? := by
      rw [l1, l2]
      intro e
      have : y = q.lhs := Option.some.inj e
      have h1 := inner_term hy
      rw [this, not_term_lhs mq] at h1; cases h1
    have := ((entry_unique r mr her p mp he hd).2 hne q.lhs hvn l2).2 q mq rfl
    exact this (by rw [l1, ey]; rfl)
  rcases hp' with ⟨he, e1⟩ | ⟨hv, r, mr, her, σ, er, e1⟩ <;> rcases hq' with ⟨he', e2⟩ | ⟨hv', r', mr', her', σ', er', e2⟩ <;>
    rw [List.take_length] at e1 e2
  · exact (entry_unique q mq he' p mp he (by rw [e1, e2])).1 (by rw [e1, e2])
  · exact (ev mp he e1 mq hv' mr' her' er' e2).elim
  · exact (ev mq he' e2 mp hv mr her er e1).elim
  · obtain ⟨y, _, ey, hy⟩ := value_rules p mp hv
    obtain ⟨y', _, ey', hy'⟩ := value_rules q mq hv'
    rw [ey, ← e2, ey'] at e1
    obtain ⟨e3, e4⟩ := List.append_inj' e1 rfl
    subst e3
    have l1 : r.rhs.getLast? = some p.lhs := by rw [er, List.getLast?_concat]
    have l2 : r'.rhs.getLast? = some q.lhs := by rw [er', List.getLast?_concat]
    have hd : r.rhs.dropLast = r'.rhs.dropLast := by rw [er, er', List.dropLast_concat, List.dropLast_concat]
    by_cases hne : r.rhs.getLast? = r'.rhs.getLast?
    · rw [l1, l2] at hne
      exact value_unique p mp hv q mq (Option.some.inj hne) (by rw [ey, ey', e4])
    · exact absurd l1 (((entry_unique r' mr' her' r mr her hd).2 hne q.lhs (of_decide_eq_true hv') l2).1 p.lhs (of_decide_eq_true hv))

theorem acts_unique {γ : List GSym} {a : GSym} {x y : PlyAct} (hx : Acts G γ a x) (hy : Acts G γ a y) : x = y := by
  have sr : ∀ {p : Production}, Acts G γ a .shift → Acts G γ a (.reduce p) → False := by
    intro p h1 h2
    obtain ⟨q, d, hs, hq, hta⟩ := acts_shift.1 h1
    obtain ⟨hp, hr, hf⟩ := acts_reduce.1 h2
    rcases reduce_place hp hr with ⟨b, hb, rfl⟩ | ⟨b, n, hb, hn, h3, h4, rfl⟩ | ⟨b, t, w, hb, ht, rfl⟩
    · have := (shape_attrib hb hs).1
      rw [this, List.getElem?_eq_none (Nat.le_refl _)] at hq; cases hq
    · obtain ⟨rfl, rfl⟩ := shape_name hb hn h3 h4 hs
      cases hq
    · exact inner_not_follow (shift_inner hb ht hs hq hta) hf
  have as : Acts G γ a .accept → Acts G γ a .shift → False := by
    intro h1 h2
    obtain ⟨rfl, rfl⟩ := acts_accept.1 h1
    obtain ⟨q, d, hs, hq, hta⟩ := acts_shift.1 h2
    exact absurd (shift_base (.inr rfl) hs hq hta) (by decide +kernel)
  have ar : ∀ {p : Production}, Acts G γ a .accept → Acts G γ a (.reduce p) → False := by
    intro p h1 h2
    obtain ⟨rfl, rfl⟩ := acts_accept.1 h1
    obtain ⟨hp, hr, _⟩ := acts_reduce.1 h2
    exact no_reduce_base (.inr rfl) hp hr
  cases x with
  | shift => cases y with
    | shift => rfl
    | reduce p => exact (sr hx hy).elim
    | accept => exact (as hy hx).elim
  | accept => cases y with
    | shift => exact (as hx hy).elim
    | reduce p => exact (ar hx hy).elim
    | accept => rfl
  | reduce p => cases y with
    | shift => exact (sr hy hx).elim
    | accept => exact (ar hy hx).elim
    | reduce q =>
      obtain ⟨hp, hr, _⟩ := acts_reduce.1 hx
      obtain ⟨hq, hr', _⟩ := acts_reduce.1 hy
      rcases reduce_place hp hr with ⟨b, hb, rfl⟩ | ⟨b, n, hb, hn, h3, h4, rfl⟩ | ⟨b, t, w, hb, ht, rfl⟩
      · rcases (shape_attrib hb hr).2 with ⟨e1, rfl⟩ | ⟨e1, rfl⟩ <;> rcases (shape_attrib hb hr').2 with ⟨e2, rfl⟩ | ⟨e2, rfl⟩
        · rfl
        · rw [e1] at e2; cases e2
        · rw [e1] at e2; cases e2
        · rfl
      · rw [(shape_name hb hn h3 h4 hr).1, (shape_name hb hn h3 h4 hr').1]
      · rw [reduce_unique hb ht hr hr']

end Spdx.TvGrammar
