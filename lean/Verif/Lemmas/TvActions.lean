import Verif.Lemmas.TvTables
import Verif.Lemmas.TagValueRun
import Verif.Spec.TvReductions
/-
The entries of the LALR tables of the tag-value grammar, tag by tag.
-/
namespace Spdx.TvGrammar
open Spdx Spdx.Spec Spdx.Spec.Lalr

theorem tables_exist : ∃ T, IsLalr G T := by
  classical
  refine ⟨⟨fun γ a => if h : ∃ x, Acts G γ a x then some h.choose else none, fun _ => none⟩, ?_, ?_⟩
  · intro γ a x
    by_cases h : ∃ x, Acts G γ a x
    · simp only [dif_pos h, Option.some.injEq]
      exact ⟨fun e => e ▸ h.choose_spec, fun hx => acts_unique h.choose_spec hx⟩
    · simp only [dif_neg h]
      exact ⟨(fun e => nomatch e), fun hx => absurd ⟨x, hx⟩ h⟩
  · intro γ p
    refine ⟨(fun e => nomatch e), ?_⟩
    rintro ⟨a, ha, hb⟩
    have hr : Acts G γ a (.reduce p) := by
      by_cases h : ∃ x, Acts G γ a x
      · simp only [dif_pos h, Option.some.injEq] at ha
        exact ha ▸ h.choose_spec
      · simp only [dif_neg h] at ha; cases ha
    obtain ⟨hp, hs, _⟩ := acts_reduce.1 hr
    have h1 := hb s%"$end" (by
      have h : ∃ x, Acts G γ s%"$end" x := ⟨_, acts_reduce.2 ⟨hp, hs, .inl rfl⟩⟩
      simp only [dif_pos h]; intro e; cases e)
    have h2 := hb s%"UNKNOWN_TAG" (by
      have h : ∃ x, Acts G γ s%"UNKNOWN_TAG" x := ⟨_, acts_reduce.2 ⟨hp, hs, .inr (by decide +kernel)⟩⟩
      simp only [dif_pos h]; intro e; cases e)
    exact absurd (h1.trans h2.symm) (by decide)

variable {T : PlyTables}

theorem no_default (h : IsLalr G T) (γ : List GSym) : T.defaulted γ = none := by
  cases e : T.defaulted γ with
  | none => rfl
  | some p =>
    obtain ⟨a, ha, hb⟩ := (h.defaulted γ p).1 e
    obtain ⟨hp, hs, _⟩ := acts_reduce.1 ((h.action _ _ _).1 ha)
    have hn : ∀ a, Follow a → T.action γ a ≠ none := fun a hf e => by
      have := (h.action γ a _).2 (acts_reduce.2 ⟨hp, hs, hf⟩)
      rw [e] at this; cases this
    exact absurd ((hb s%"$end" (hn _ (.inl rfl))).trans (hb s%"UNKNOWN_TAG" (hn _ (.inr (by decide +kernel)))).symm) (by decide)

theorem act_none (h : IsLalr G T) {γ : List GSym} {a : GSym} (hn : ∀ x, ¬ Acts G γ a x) : T.action γ a = none := by
  cases e : T.action γ a with
  | none => rfl
  | some x => exact absurd ((h.action _ _ _).1 e) (hn x)

/-! ### Between attributes -/

theorem act_base_shift (h : IsLalr G T) {b : List GSym} {a : GSym} (hb : Base b) (ha : a ∈ starters) : T.action b a = some .shift := by
  obtain ⟨ht, p, hp, he, hh⟩ := starters_ok a ha
  refine (h.action _ _ _).2 (acts_shift.2 ⟨p, 0, ?_, ?_, ht⟩)
  · have := Shape.entry (d := 0) hb hp he (Nat.zero_le _)
    rwa [List.take_zero, List.append_nil] at this
  · rw [← List.head?_eq_getElem?]; exact hh

theorem act_base_none (h : IsLalr G T) {b : List GSym} {a : GSym} (hb : Base b) (ha : ¬ Follow a) : T.action b a = none := by
  refine act_none h ?_
  intro x hx
  cases x with
  | shift =>
    obtain ⟨p, d, hs, hx, ht⟩ := acts_shift.1 hx
    exact ha (.inr (shift_base hb hs hx ht))
  | reduce p =>
    obtain ⟨hp, hs, _⟩ := acts_reduce.1 hx
    exact no_reduce_base hb hp hs
  | accept => exact ha (.inl (acts_accept.1 hx).2)

theorem act_end_none (h : IsLalr G T) : T.action [] s%"$end" = none := by
  refine act_none h ?_
  intro x hx
  cases x with
  | shift =>
    obtain ⟨p, d, hs, hx, ht⟩ := acts_shift.1 hx
    exact absurd (shift_base (.inl rfl) hs hx ht) (by decide +kernel)
  | reduce p =>
    obtain ⟨hp, hs, _⟩ := acts_reduce.1 hx
    exact no_reduce_base (.inl rfl) hp hs
  | accept => exact nomatch (acts_accept.1 hx).1

theorem act_accept (h : IsLalr G T) : T.action [s%"start"] s%"$end" = some .accept :=
  (h.action _ _ _).2 (acts_accept.2 ⟨rfl, rfl⟩)

/-! ### After an attribute -/

theorem act_name (h : IsLalr G T) {b : List GSym} {a : GSym} {p : Production} (hb : Base b) (hp : p ∈ rules) (he : isEntry p = true)
    (hf : Follow a) : T.action (b ++ [p.lhs]) a = some (.reduce ⟨s%"attrib", [p.lhs], s%"p_attrib"⟩) :=
  (h.action _ _ _).2 (acts_reduce.2 ⟨entry_wrapped p hp he, .wrap1 hb (entry_wrapped p hp he) rfl rfl, hf⟩)

theorem act_attrib2 (h : IsLalr G T) {a : GSym} (hf : Follow a) : T.action [s%"attrib"] a = some (.reduce p2) :=
  (h.action _ _ _).2 (acts_reduce.2 ⟨p2_mem, .one1, hf⟩)

theorem act_attrib1 (h : IsLalr G T) {a : GSym} (hf : Follow a) : T.action [s%"start", s%"attrib"] a = some (.reduce p1) :=
  (h.action _ _ _).2 (acts_reduce.2 ⟨p1_mem, .rec2, hf⟩)

/-! ### Inside an attribute -/

theorem act_entry (h : IsLalr G T) {b : List GSym} {a : GSym} {p : Production} (hb : Base b) (hp : p ∈ rules) (he : isEntry p = true)
    (hf : Follow a) : T.action (b ++ p.rhs) a = some (.reduce p) := by
  refine (h.action _ _ _).2 (acts_reduce.2 ⟨hp, ?_, hf⟩)
  have := Shape.entry (d := p.rhs.length) hb hp he (Nat.le_refl _)
  rwa [List.take_length] at this

theorem act_value (h : IsLalr G T) {b σ : List GSym} {a : GSym} {p q : Production} (hb : Base b) (hq : q ∈ rules) (he : isEntry q = true)
    (hσ : q.rhs = σ ++ [p.lhs]) (hp : p ∈ rules) (hv : isValue p = true) (hf : Follow a) :
    T.action (b ++ (σ ++ p.rhs)) a = some (.reduce p) := by
  refine (h.action _ _ _).2 (acts_reduce.2 ⟨hp, ?_, hf⟩)
  have := Shape.value (d := p.rhs.length) hb hq he hσ hp hv (Nat.le_refl _)
  rwa [List.take_length, List.append_assoc] at this

theorem act_shift_entry (h : IsLalr G T) {b w r : List GSym} {a : GSym} {p : Production} (hb : Base b) (hp : p ∈ rules)
    (he : isEntry p = true) (hr : p.rhs = w ++ a :: r) (ht : term a = true) : T.action (b ++ w) a = some .shift := by
  refine (h.action _ _ _).2 (acts_shift.2 ⟨p, w.length, ?_, ?_, ht⟩)
  · have := Shape.entry (d := w.length) hb hp he (by rw [hr, List.length_append]; exact Nat.le_add_right _ _)
    rwa [hr, List.take_left] at this
  · rw [hr, List.getElem?_append_right (Nat.le_refl _), Nat.sub_self]; rfl

theorem act_shift_value (h : IsLalr G T) {b σ : List GSym} {a : GSym} {p q : Production} (hb : Base b) (hq : q ∈ rules)
    (he : isEntry q = true) (hσ : q.rhs = σ ++ [p.lhs]) (hp : p ∈ rules) (hv : isValue p = true) (hr : p.rhs = [a])
    (ht : term a = true) : T.action (b ++ σ) a = some .shift := by
  refine (h.action _ _ _).2 (acts_shift.2 ⟨p, 0, ?_, ?_, ht⟩)
  · have := Shape.value (d := 0) hb hq he hσ hp hv (Nat.zero_le _)
    rwa [List.take_zero, List.append_nil] at this
  · rw [hr]; rfl

theorem value_not_term {a : GSym} (h : a ∈ valueNts) : term a = false := by
  have : a ∈ nts := (show ∀ x ∈ valueNts, x ∈ nts by decide +kernel) a h
  unfold term
  rw [decide_eq_false (fun h => h this)]; rfl

/-- Every entry inside an attribute comes from a production for it. -/
theorem inside_cases (h : IsLalr G T) {b w : List GSym} {t a : GSym} {x : PlyAct} (hb : Base b) (ht : t ∈ starters)
    (hx : T.action (b ++ t :: w) a = some x) :
    (∃ p ∈ rules, isEntry p = true ∧ (p.rhs = t :: w ∧ Follow a ∨ ∃ r, p.rhs = t :: w ++ a :: r ∧ term a = true)) ∨
    ∃ p ∈ rules, isValue p = true ∧ ∃ q ∈ rules, isEntry q = true ∧ ∃ σ, q.rhs = σ ++ [p.lhs] ∧
      (σ ++ p.rhs = t :: w ∧ Follow a ∨ σ = t :: w ∧ p.rhs = [a]) := by
  have hA := (h.action _ _ _).1 hx
  cases x with
  | accept =>
    have e := (acts_accept.1 hA).1
    exact absurd (base_nts (.inr rfl) t (e ▸ List.mem_append_right _ List.mem_cons_self)) (starter_not_nt ht)
  | reduce p =>
    obtain ⟨hp, hs, hf⟩ := acts_reduce.1 hA
    obtain ⟨_, _, ⟨he, e⟩ | ⟨hv, q, hq, he, σ, hσ, e⟩⟩ := shape_inside hb ht hs <;> rw [List.take_length] at e
    · exact .inl ⟨p, hp, he, .inl ⟨e, hf⟩⟩
    · exact .inr ⟨p, hp, hv, q, hq, he, σ, hσ, .inl ⟨e, hf⟩⟩
  | shift =>
    obtain ⟨p, d, hs, hx, hta⟩ := acts_shift.1 hA
    obtain ⟨hp, hd, ⟨he, e⟩ | ⟨hv, q, hq, he, σ, hσ, e⟩⟩ := shape_inside hb ht hs
    · refine .inl ⟨p, hp, he, .inr ⟨p.rhs.drop (d + 1), ?_, hta⟩⟩
      have hlt : d < p.rhs.length := by
        rcases Nat.lt_or_ge d p.rhs.length with h | h
        · exact h
        · rw [List.getElem?_eq_none h] at hx; cases hx
      rw [← e]
      have := List.getElem?_eq_some_iff.1 hx
      obtain ⟨h1, h2⟩ := this
      rw [← h2, List.getElem_cons_drop, List.take_append_drop]
    · obtain ⟨y, _, ey, hy⟩ := value_rules p hp hv
      rw [ey] at hx e
      cases d with
      | succ d => cases hx
      | zero =>
        rw [List.take_zero, List.append_nil] at e
        exact .inr ⟨p, hp, hv, q, hq, he, σ, hσ, .inr ⟨e, by rw [ey]; cases hx; rfl⟩⟩

/-! ### Tokens -/

/-- The type of a tag -/
def ty (w : Str) : GSym := (Tok.tag w).type

/-- The tags are the reserved words. -/
def TokOk : Tok → Prop
  | .tag w => w ∈ tvTags
  | _ => True

def Lexed (ts : List Tok) : Prop := ∀ v ∈ ts, TokOk v

theorem Lexed.tail {v : Tok} {ts : List Tok} (h : Lexed (v :: ts)) : Lexed ts := fun x hx => h x (List.mem_cons_of_mem _ hx)
theorem Lexed.head {v : Tok} {ts : List Tok} (h : Lexed (v :: ts)) : TokOk v := h v List.mem_cons_self

theorem scan_all {σ α : Type} {step : List σ → Option (Option α × List σ)} {P : α → Prop}
    (h : ∀ s a r, step s = some (some a, r) → P a) : ∀ (n : Nat) (s : List σ), ∀ a ∈ scan step n s, P a
  | 0, _, _, ha => nomatch ha
  | n + 1, s, a, ha => by
    unfold scan at ha
    cases e : step s with
    | none => rw [e] at ha; cases ha
    | some x =>
      obtain ⟨y, r⟩ := x
      rw [e] at ha
      rcases List.mem_append.1 ha with ha | ha
      · rw [Option.mem_toList] at ha
        rw [ha] at e
        exact h s a r e
      · exact scan_all h n r a ha

theorem reservedTok_ok {w : Str} {d : Tok} (hd : TokOk d) : TokOk (reservedTok w d) := by
  unfold reservedTok
  split
  · trivial
  · split
    · trivial
    · split
      · assumption
      · exact hd

theorem lexValue_ok {s r : Str} {v : Tok} (h : lexValue s = (some v, r)) : TokOk v := by
  unfold lexValue at h
  dsimp only at h
  repeat' split at h
  all_goals (first
    | (cases h; trivial)
    | (cases h; exact reservedTok_ok trivial)
    | cases h)

theorem lexOne_ok (s : Str) (v : Tok) (r : Str) (h : lexOne s = some (some v, r)) : TokOk v := by
  unfold lexOne at h
  split at h
  · cases h
  · repeat' split at h
    · exact lexValue_ok (Option.some.inj h)
    · cases h; exact reservedTok_ok trivial
    · cases h
    · cases h
    · cases h
    · cases h; trivial

theorem lexed_lex (s : Str) : Lexed (lex s) := scan_all lexOne_ok s.length s

/-- The types of the tokens that are not tags -/
def otherTypes : List GSym :=
  [s%"UNKNOWN_TAG", s%"TEXT", s%"TOOL_VALUE", s%"ORGANIZATION_VALUE", s%"PERSON_VALUE", s%"ISO8601_DATE", s%"CHECKSUM", s%"LINE",
   s%"NO_ASSERTION", s%"NONE", s%"error", s%"$end"]

theorem tag_types : ∀ w ∈ tvTags, ty w ∉ otherTypes ∧ (Tok.tag w).starts = decide (ty w ∈ starters) := by decide +kernel

theorem starts_iff {v : Tok} (h : TokOk v) : v.starts = decide (v.type ∈ starters) := by
  cases v with
  | tag w => exact (tag_types w h).2
  | unknown _ => exact (by decide +kernel : true = decide (s%"UNKNOWN_TAG" ∈ starters))
  | text _ => exact (by decide +kernel : false = decide (s%"TEXT" ∈ starters))
  | tool _ => exact (by decide +kernel : false = decide (s%"TOOL_VALUE" ∈ starters))
  | org _ => exact (by decide +kernel : false = decide (s%"ORGANIZATION_VALUE" ∈ starters))
  | person _ => exact (by decide +kernel : false = decide (s%"PERSON_VALUE" ∈ starters))
  | date _ => exact (by decide +kernel : false = decide (s%"ISO8601_DATE" ∈ starters))
  | checksum _ => exact (by decide +kernel : false = decide (s%"CHECKSUM" ∈ starters))
  | line _ => exact (by decide +kernel : false = decide (s%"LINE" ∈ starters))
  | noAssertion => exact (by decide +kernel : false = decide (s%"NO_ASSERTION" ∈ starters))
  | none => exact (by decide +kernel : false = decide (s%"NONE" ∈ starters))
  | error => exact (by decide +kernel : false = decide (s%"error" ∈ starters))

theorem type_ne_end {v : Tok} (h : TokOk v) : v.type ≠ s%"$end" := by
  cases v with
  | tag w =>
    intro e
    have := (tag_types w h).1
    unfold ty at this
    rw [e] at this
    exact this (by decide)
  | unknown _ => exact (by decide : s%"UNKNOWN_TAG" ≠ s%"$end")
  | text _ => exact (by decide : s%"TEXT" ≠ s%"$end")
  | tool _ => exact (by decide : s%"TOOL_VALUE" ≠ s%"$end")
  | org _ => exact (by decide : s%"ORGANIZATION_VALUE" ≠ s%"$end")
  | person _ => exact (by decide : s%"PERSON_VALUE" ≠ s%"$end")
  | date _ => exact (by decide : s%"ISO8601_DATE" ≠ s%"$end")
  | checksum _ => exact (by decide : s%"CHECKSUM" ≠ s%"$end")
  | line _ => exact (by decide : s%"LINE" ≠ s%"$end")
  | noAssertion => exact (by decide : s%"NO_ASSERTION" ≠ s%"$end")
  | none => exact (by decide : s%"NONE" ≠ s%"$end")
  | error => exact (by decide : s%"error" ≠ s%"$end")

theorem follow_tok {v : Tok} (h : TokOk v) : Follow v.type ↔ v.starts = true := by
  rw [starts_iff h, decide_eq_true_eq]
  exact ⟨fun hf => hf.resolve_left (type_ne_end h), .inr⟩

def TvSyntax.types : TvSyntax → List GSym
  | .line => [s%"LINE"]
  | .textOrLine => [s%"TEXT", s%"LINE", s%"NO_ASSERTION", s%"NONE"]
  | .lineOrNoAssertion => [s%"LINE", s%"NO_ASSERTION"]
  | .lineOrSpecial => [s%"TEXT", s%"LINE", s%"NO_ASSERTION", s%"NONE"]
  | .license => [s%"LINE", s%"NO_ASSERTION", s%"NONE"]
  | .actorOrNoAssertion => [s%"PERSON_VALUE", s%"ORGANIZATION_VALUE", s%"NO_ASSERTION"]
  | .actor => [s%"PERSON_VALUE", s%"ORGANIZATION_VALUE", s%"TOOL_VALUE"]
  | .date => [s%"ISO8601_DATE"]
  | .checksum => [s%"CHECKSUM"]

theorem types_other (x : TvSyntax) : ∀ a ∈ TvSyntax.types x, a ∈ otherTypes ∧ term a = true ∧ inner a = true ∧ a ≠ s%"error" := by
  cases x <;> decide +kernel

theorem accepts_iff {v : Tok} (h : TokOk v) (x : TvSyntax) : x.accepts v = decide (v.type ∈ TvSyntax.types x) := by
  cases v with
  | tag w =>
    have hn : (Tok.tag w).type ∉ TvSyntax.types x := fun hm => (tag_types w h).1 (types_other x _ hm).1
    rw [decide_eq_false hn]
    cases x <;> rfl
  | _ => cases x <;> rfl

/-! ### The productions of the tags -/

/-- A method for `TAG value` -/
def plainHandler (h : Str) : Bool :=
  decide (h ∉ silentHandlers) && decide (h ∉ errorHandlers) && decide (h ≠ s%"p_unknown_tag") && decide (h ≠ s%"p_spdx_id") &&
    decide (h ∉ commentedHandlers)

def okEntry (x : TvSyntax) (p : Production) : Bool :=
  match p.rhs with
  | [_, y] => decide (y = s%"error") || decide (y ∈ TvSyntax.types x) ||
    (decide (y ∈ valueNts) && rules.all fun r => decide (r.lhs ≠ y) || r.rhs.all fun a => decide (a ∈ TvSyntax.types x))
  | _ => false

theorem syntax_starters : ∀ e ∈ tvSyntax, ty e.1 ∈ starters := by decide +kernel
theorem syntax_entries : ∀ e ∈ tvSyntax, ∀ p ∈ rules, p.rhs.head? = some (ty e.1) → isEntry p = true → okEntry e.2 p = true := by
  decide +kernel
theorem syntax_error : ∀ e ∈ tvSyntax, ∃ p ∈ rules, p.rhs = [ty e.1, s%"error"] ∧ isEntry p = true ∧ p.handler ∈ errorHandlers := by
  decide +kernel
theorem syntax_values : ∀ e ∈ tvSyntax, ∀ a ∈ TvSyntax.types e.2,
    (∃ p ∈ rules, p.rhs = [ty e.1, a] ∧ isEntry p = true ∧ plainHandler p.handler = true) ∨
    ∃ r ∈ rules, isValue r = true ∧ r.rhs = [a] ∧
      ∃ p ∈ rules, p.rhs = [ty e.1, r.lhs] ∧ isEntry p = true ∧ plainHandler p.handler = true := by decide +kernel
theorem value_silent : ∀ r ∈ rules, isValue r = true → r.handler ∈ silentHandlers := by decide +kernel
theorem error_last : ∀ p ∈ rules, isEntry p = true → p.rhs[1]? = some s%"error" → p.rhs.length = 2 := by decide +kernel

end Spdx.TvGrammar
