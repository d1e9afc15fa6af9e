import Verif.Spec.JsonGrammar
import Verif.Lemmas.Chars
/- The scanner of white space, strings and numbers against the grammar. -/
namespace Spdx
open Spec.JsonGrammar

/-! ### White space -/

theorem ws_iff (w : Str) : Ws w ↔ ∀ c ∈ w, isJsonSpace c = true := by
  unfold Ws isJsonSpace
  constructor
  · intro h c hc
    rcases h c hc with rfl | rfl | rfl | rfl <;> rfl
  · intro h c hc
    have := h c hc
    simp only [Bool.or_eq_true, beq_iff_eq] at this
    rcases this with ((h1 | h1) | h1) | h1 <;> simp [h1]

theorem skip_ws {w : Str} (hw : Ws w) (s : Str) : skipJsonSpace (w ++ s) = skipJsonSpace s := by
  have := (ws_iff w).1 hw
  unfold skipJsonSpace
  clear hw
  induction w with
  | nil => rfl
  | cons c w ih =>
    rw [List.cons_append, List.dropWhile_cons_of_pos (this c (List.mem_cons_self ..))]
    exact ih fun x hx => this x (List.mem_cons_of_mem _ hx)

theorem skip_id {c : Char} {s : Str} (h : isJsonSpace c = false) : skipJsonSpace (c :: s) = c :: s := by
  unfold skipJsonSpace
  rw [List.dropWhile_cons_of_neg]
  rw [h]; exact Bool.false_ne_true

theorem skip_split (s : Str) : ∃ w, Ws w ∧ s = w ++ skipJsonSpace s := by
  refine ⟨s.takeWhile isJsonSpace, (ws_iff _).2 fun c hc => ?_, (List.takeWhile_append_dropWhile).symm⟩
  exact List.all_eq_true.1 List.all_takeWhile c hc

/-- Skipping leaves nothing exactly for white space. -/
theorem skip_nil_iff (s : Str) : skipJsonSpace s = [] ↔ Ws s := by
  constructor
  · intro h
    obtain ⟨w, hw, e⟩ := skip_split s
    rw [h, List.append_nil] at e
    rw [e]; exact hw
  · intro h
    have := skip_ws h []
    rw [List.append_nil] at this
    exact this

/-! ### Hexadecimal digits -/

theorem hexVal_iff (c : Char) (n : Nat) : hexVal c = some n ↔ (c, n) ∈ hexDigits := by
  by_cases hc : c.toNat < 128
  · have key : ∀ c : Char, c.toNat < 128 → (hexVal c = (hexDigits.find? (·.1 = c)).map (·.2)) :=
      fun c hc => char_below (P := fun c => hexVal c = (hexDigits.find? (·.1 = c)).map (·.2)) 128 (by decide +kernel) c hc
    rw [key c hc]
    constructor
    · intro h
      obtain ⟨p, hp, rfl⟩ := Option.map_eq_some_iff.1 h
      have h1 := List.mem_of_find?_eq_some hp
      have h2 := List.find?_some hp
      simp only [decide_eq_true_eq] at h2
      subst h2
      exact h1
    · intro h
      have all : ∀ p ∈ hexDigits, (hexDigits.find? (·.1 = p.1)).map (·.2) = some p.2 := by decide +kernel
      exact all _ h
  · constructor
    · intro h
      simp only [hexVal] at h
      repeat' split at h
      all_goals first | (cases h; done) | omega
    · intro h
      have all : ∀ p ∈ hexDigits, p.1.toNat < 128 := by decide +kernel
      exact absurd (all _ h) hc

theorem hex4_iff (a b c d : Char) (n : Nat) : hex4 a b c d = some n ↔
    ∃ i j k l, (a, i) ∈ hexDigits ∧ (b, j) ∈ hexDigits ∧ (c, k) ∈ hexDigits ∧ (d, l) ∈ hexDigits ∧ n = ((i * 16 + j) * 16 + k) * 16 + l := by
  simp only [← hexVal_iff, hex4, bind, Option.bind, pure]
  constructor
  · intro h
    cases hi : hexVal a with
    | none => rw [hi] at h; cases h
    | some i =>
    cases hj : hexVal b with
    | none => rw [hi, hj] at h; cases h
    | some j =>
    cases hk : hexVal c with
    | none => rw [hi, hj, hk] at h; cases h
    | some k =>
    cases hl : hexVal d with
    | none => rw [hi, hj, hk, hl] at h; cases h
    | some l =>
    rw [hi, hj, hk, hl] at h
    refine ⟨i, j, k, l, rfl, rfl, rfl, rfl, ?_⟩
    have := Option.some.inj h
    omega
  · rintro ⟨i, j, k, l, hi, hj, hk, hl, rfl⟩
    rw [hi, hj, hk, hl]
    simp only [Option.some.injEq]
    omega

/-! ### Strings -/

theorem shortEscape_iff (c : Char) (n : Nat) : shortEscape c = some n ↔ (c, n) ∈ letterEscapes := by
  unfold shortEscape letterEscapes
  simp only [List.mem_cons, List.not_mem_nil, or_false, Prod.mk.injEq]
  constructor
  · intro h
    repeat' split at h
    all_goals first | (cases h; done) | (rename_i h'; simp_all)
  · intro h
    rcases h with ⟨rfl, rfl⟩ | ⟨rfl, rfl⟩ | ⟨rfl, rfl⟩ | ⟨rfl, rfl⟩ | ⟨rfl, rfl⟩ | ⟨rfl, rfl⟩ | ⟨rfl, rfl⟩ | ⟨rfl, rfl⟩ <;> decide

theorem char_not_surrogate (c : Char) : ¬ (55296 ≤ c.toNat ∧ c.toNat ≤ 57343) := by
  have h := c.valid
  intro ⟨h1, h2⟩
  rcases h with h | ⟨h, _⟩
  · have : c.toNat < 55296 := h
    omega
  · have : 57343 < c.toNat := h
    omega

/-- A low surrogate can only be written by an escape. -/
theorem low_head {us : List Nat} {t : Str} {n : Nat} (h : Chars us t) (hu : us.head? = some n) (hn : isLow n = true) :
    ∃ a b c d t' us', t = '\\' :: 'u' :: a :: b :: c :: d :: t' ∧ us = n :: us' ∧ hex4 a b c d = some n ∧ Chars us' t' := by
  simp only [isLow, Bool.and_eq_true, decide_eq_true_eq] at hn
  cases h with
  | nil => cases hu
  | plain c h1 h2 h3 h4 =>
    cases hu
    exact absurd ⟨by omega, hn.2⟩ (char_not_surrogate c)
  | letter c m h1 h2 =>
    cases hu
    have all : ∀ p ∈ letterEscapes, p.2 < 100 := by decide
    have := all _ h1
    dsimp only at this
    omega
  | unit a b c d i j k l h1 h2 h3 h4 h5 =>
    cases hu
    exact ⟨a, b, c, d, _, _, rfl, rfl, (hex4_iff ..).2 ⟨i, j, k, l, h1, h2, h3, h4, rfl⟩, h5⟩

theorem joined_single {u : Nat} {us : List Nat} (h : isHigh u = false ∨ ∀ n, us.head? = some n → isLow n = false) :
    joined (u :: us) = u :: joined us := by
  cases us with
  | nil => rfl
  | cons l r =>
    rw [joined, if_neg]
    rintro ⟨h1, h2, h3, h4⟩
    rcases h with h | h
    · simp [isHigh] at h; omega
    · have := h l rfl
      simp [isLow] at this; omega

theorem joined_pair {u l : Nat} {us : List Nat} (h : isHigh u = true) (hl : isLow l = true) :
    joined (u :: l :: us) = joinSurrogates u l :: joined us := by
  simp only [isHigh, isLow, Bool.and_eq_true, decide_eq_true_eq] at h hl
  rw [joined, if_pos ⟨h.1, by omega, hl.1, by omega⟩]
  have e : 0x10000 + (u - 0xD800) * 0x400 + (l - 0xDC00) = joinSurrogates u l := by unfold joinSurrogates; omega
  rw [e]

theorem chars_unit {us t a b c d n} (h : hex4 a b c d = some n) (hc : Chars us t) :
    Chars (n :: us) ('\\' :: 'u' :: a :: b :: c :: d :: t) := by
  obtain ⟨i, j, k, l, h1, h2, h3, h4, rfl⟩ := (hex4_iff ..).1 h
  exact .unit a b c d i j k l h1 h2 h3 h4 hc

theorem scanString_sound (f : Nat) : ∀ (s r : Str) (v : List Nat), scanString f s = some (v, r) →
    ∃ us body, Chars us body ∧ v = joined us ∧ s = body ++ '"' :: r := by
  induction f with
  | zero => intro s r v h; rw [scanString] at h; cases h
  | succ f ih =>
    intro s r v h
    rw [scanString.eq_def] at h
    dsimp only at h
    split at h
    · cases h
    · cases h
    · cases h
      rename_i heq; cases heq
      exact ⟨[], [], .nil, rfl, rfl⟩
    · rename_i fuel a b c d rest heq
      cases heq
      simp only [bind, Option.bind, pure] at h
      cases hh : hex4 a b c d with
      | none => rw [hh] at h; cases h
      | some u =>
      rw [hh] at h
      dsimp only at h
      have single : ∀ v' r', scanString f rest = some (v', r') →
          (isHigh u = false ∨ ∀ us body n, Chars us body → rest = body ++ '"' :: r' → us.head? = some n → isLow n = false) →
          v = u :: v' → r = r' →
          ∃ us body, Chars us body ∧ v = joined us ∧ ('\\' :: 'u' :: a :: b :: c :: d :: rest) = body ++ '"' :: r := by
        intro v' r' h1 h2 h3 h4
        obtain ⟨us, body, k1, k2, k3⟩ := ih _ _ _ h1
        refine ⟨u :: us, '\\' :: 'u' :: a :: b :: c :: d :: body, chars_unit hh k1, ?_, ?_⟩
        · rw [joined_single, ← k2, h3]
          rcases h2 with h2 | h2
          · exact .inl h2
          · exact .inr fun n hn => h2 us body n k1 k3 hn
        · rw [h4, k3]; rfl
      have fin : ∀ (o : Option (List Nat × Str)), o.bind (fun x => some (u :: x.1, x.2)) = some (v, r) →
          ∃ v', o = some (v', r) ∧ v = u :: v' := by
        intro o ho
        cases o with
        | none => cases ho
        | some p => cases ho; exact ⟨p.1, rfl, rfl⟩
      by_cases hi : isHigh u = true
      · rw [if_pos hi] at h
        split at h
        · rename_i a' b' c' d' r2
          cases hh2 : hex4 a' b' c' d' with
          | none => rw [hh2] at h; cases h
          | some u2 =>
          rw [hh2] at h
          dsimp only at h
          by_cases hl : isLow u2 = true
          · rw [if_pos hl] at h
            cases hr : scanString f r2 with
            | none => rw [hr] at h; cases h
            | some p =>
            rw [hr] at h
            cases h
            obtain ⟨us, body, k1, k2, k3⟩ := ih _ _ _ hr
            refine ⟨u :: u2 :: us, '\\' :: 'u' :: a :: b :: c :: d :: '\\' :: 'u' :: a' :: b' :: c' :: d' :: body,
              chars_unit hh (chars_unit hh2 k1), ?_, ?_⟩
            · rw [joined_pair hi hl, k2]
            · rw [k3]; rfl
          · rw [if_neg hl] at h
            obtain ⟨v', h1, h2⟩ := fin (scanString f ('\\' :: 'u' :: a' :: b' :: c' :: d' :: r2)) h
            refine single v' r h1 (.inr ?_) h2 rfl
            intro us body n g1 g2 g3
            cases hn : isLow n with
            | false => rfl
            | true =>
            obtain ⟨a2, b2, c2, d2, t', us', e1, e2, e3, _⟩ := low_head g1 g3 hn
            rw [e1] at g2
            cases g2
            rw [hh2] at e3
            cases e3
            exact absurd hn hl
        · rename_i hno
          obtain ⟨v', h1, h2⟩ := fin (scanString f rest) h
          refine single v' r h1 (.inr ?_) h2 rfl
          intro us body n g1 g2 g3
          cases hn : isLow n with
          | false => rfl
          | true =>
          obtain ⟨a2, b2, c2, d2, t', us', e1, e2, e3, _⟩ := low_head g1 g3 hn
          rw [e1] at g2
          exact absurd g2 (hno _ _ _ _ _)
      · rw [if_neg hi] at h
        obtain ⟨v', h1, h2⟩ := fin (scanString f rest) h
        exact single v' r h1 (.inl (Bool.eq_false_iff.2 hi)) h2 rfl
    · rename_i fuel e rest _ heq
      cases heq
      simp only [bind, Option.bind, pure] at h
      cases hh : shortEscape e with
      | none => rw [hh] at h; cases h
      | some u =>
      rw [hh] at h
      dsimp only at h
      cases hr : scanString f rest with
      | none => rw [hr] at h; cases h
      | some p =>
      rw [hr] at h
      cases h
      obtain ⟨us, body, k1, k2, k3⟩ := ih _ _ _ hr
      refine ⟨u :: us, '\\' :: e :: body, .letter e u ((shortEscape_iff ..).1 hh) k1, ?_, by rw [k3]; rfl⟩
      rw [joined_single, k2]
      left
      have all : ∀ p ∈ letterEscapes, isHigh p.2 = false := by decide
      exact all _ ((shortEscape_iff ..).1 hh)
    · rename_i fuel c rest hq hu he heq
      cases heq
      by_cases h1 : c = '\\'
      · rw [if_pos h1] at h; cases h
      · rw [if_neg h1] at h
        by_cases h2 : c.toNat < 32
        · rw [if_pos h2] at h; cases h
        · rw [if_neg h2] at h
          simp only [bind, Option.bind, pure] at h
          cases hr : scanString f rest with
          | none => rw [hr] at h; cases h
          | some p =>
          rw [hr] at h
          cases h
          obtain ⟨us, body, k1, k2, k3⟩ := ih _ _ _ hr
          refine ⟨c.toNat :: us, c :: body, .plain c (Nat.le_of_not_lt h2) (fun e => hq (e ▸ rfl)) h1 k1, ?_, by rw [k3]; rfl⟩
          rw [joined_single, k2]
          left
          cases hx : isHigh c.toNat with
          | false => rfl
          | true =>
          simp [isHigh] at hx
          exact absurd ⟨hx.1, by omega⟩ (char_not_surrogate c)

theorem scanString_complete (f : Nat) : ∀ (us : List Nat) (body r : Str), Chars us body → body.length < f →
    scanString f (body ++ '"' :: r) = some (joined us, r) := by
  induction f with
  | zero => intro us body r _ h; exact absurd h (Nat.not_lt_zero _)
  | succ f ih =>
    intro us body r h hf
    cases h with
    | nil => rfl
    | plain c h1 h2 h3 h4 =>
      rename_i us t
      have hj : joined (c.toNat :: us) = c.toNat :: joined us := by
        apply joined_single
        left
        cases hx : isHigh c.toNat with
        | false => rfl
        | true =>
        simp [isHigh] at hx
        exact absurd ⟨hx.1, by omega⟩ (char_not_surrogate c)
      have hs := ih us t r h4 (by simpa using hf)
      rw [hj, List.cons_append, scanString.eq_def]
      generalize t ++ '"' :: r = tl at hs ⊢
      split
      · rename_i e; cases e
      · rename_i e; cases e
      · rename_i e; cases e; exact absurd rfl h2
      · rename_i e; cases e; exact absurd rfl h3
      · rename_i e; cases e; exact absurd rfl h3
      · rename_i e1 e2; cases e1; cases e2
        rw [if_neg h3, if_neg (by omega), hs]
        rfl
    | letter c n h1 h2 =>
      rename_i us t
      have hj : joined (n :: us) = n :: joined us := by
        apply joined_single
        left
        have all : ∀ p ∈ letterEscapes, isHigh p.2 = false := by decide
        exact all _ h1
      have hu : c ≠ 'u' := by
        have all : ∀ p ∈ letterEscapes, p.1 ≠ 'u' := by decide
        exact all _ h1
      have hs := ih us t r h2 (by simp at hf; omega)
      rw [hj, List.cons_append, List.cons_append, scanString.eq_def]
      generalize t ++ '"' :: r = tl at hs ⊢
      split
      · rename_i e; cases e
      · rename_i e; cases e
      · rename_i e; cases e
      · rename_i e; cases e; exact absurd rfl hu
      · rename_i e1 e2; cases e1; cases e2
        rw [(shortEscape_iff ..).2 h1, hs]
        rfl
      · rename_i e1 e2 e3 e4; cases e4; exact absurd rfl (e2 _ _ rfl)
    | unit a b c d i j k l h1 h2 h3 h4 h5 =>
      rename_i us t
      have hh := (hex4_iff a b c d (((i * 16 + j) * 16 + k) * 16 + l)).2 ⟨i, j, k, l, h1, h2, h3, h4, rfl⟩
      generalize ((i * 16 + j) * 16 + k) * 16 + l = u at hh ⊢
      have hs := ih us t r h5 (by simp at hf; omega)
      simp only [List.cons_append]
      rw [scanString.eq_def]
      simp only [bind, Option.bind, pure]
      rw [hh]
      dsimp only
      by_cases hi : isHigh u = true
      · rw [if_pos hi]
        cases h5 with
        | nil => rw [joined_single (.inr (fun n e => (by cases e)))]; simp only [List.nil_append] at hs ⊢; rw [hs]; rfl
        | plain c' g1 g2 g3 g4 =>
          rename_i us t
          rw [joined_single]
          · simp only [List.cons_append] at hs ⊢
            generalize t ++ '"' :: r = tl at hs ⊢
            split
            · rename_i e; cases e; exact absurd rfl g3
            · rw [hs]
          · right
            intro n e
            cases e
            cases hx : isLow c'.toNat with
            | false => rfl
            | true =>
            simp [isLow] at hx
            exact absurd ⟨by omega, by omega⟩ (char_not_surrogate c')
        | letter c' n g1 g2 =>
          rename_i us t
          rw [joined_single]
          · simp only [List.cons_append] at hs ⊢
            generalize t ++ '"' :: r = tl at hs ⊢
            split
            · rename_i e; cases e
              have all : ∀ p ∈ letterEscapes, p.1 ≠ 'u' := by decide
              exact absurd rfl (all _ g1)
            · rw [hs]
          · right
            intro m e
            cases e
            have all : ∀ p ∈ letterEscapes, isLow p.2 = false := by decide
            exact all _ g1
        | unit a' b' c' d' i' j' k' l' g1 g2 g3 g4 g5 =>
          rename_i us t
          have hh2 := (hex4_iff a' b' c' d' (((i' * 16 + j') * 16 + k') * 16 + l')).2 ⟨i', j', k', l', g1, g2, g3, g4, rfl⟩
          generalize ((i' * 16 + j') * 16 + k') * 16 + l' = u2 at hh2 hs ⊢
          simp only [List.cons_append]
          rw [hh2]
          dsimp only
          by_cases hl : isLow u2 = true
          · rw [if_pos hl, joined_pair hi hl, ih us t r g5 (by simp at hf; omega)]
          · rw [if_neg hl, joined_single]
            · simp only [List.cons_append] at hs
              rw [hs]
            · right
              intro n e; cases e
              exact Bool.eq_false_iff.2 hl
      · rw [if_neg hi, hs, joined_single (.inl (Bool.eq_false_iff.2 hi))]

/-! ### Numbers -/

theorem digits_iff (s : Str) : Digits s ↔ s ≠ [] ∧ ∀ c ∈ s, isJsonDigit c = true := by
  have key : ∀ c : Char, c ∈ ['0', '1', '2', '3', '4', '5', '6', '7', '8', '9'] ↔ isJsonDigit c = true := by
    intro c
    by_cases hc : c.toNat < 128
    · exact char_below (P := fun c => c ∈ ['0', '1', '2', '3', '4', '5', '6', '7', '8', '9'] ↔ isJsonDigit c = true) 128
        (by decide +kernel) c hc
    · constructor
      · intro h
        have all : ∀ c ∈ ['0', '1', '2', '3', '4', '5', '6', '7', '8', '9'], c.toNat < 128 := by decide
        exact absurd (all c h) hc
      · intro h
        simp [isJsonDigit] at h
        omega
  unfold Digits
  simp only [key]

/-- What may follow a number. -/
def Stops (r : Str) : Prop := ∀ c, r.head? = some c → isJsonDigit c = false ∧ c ≠ '.' ∧ c ≠ 'e' ∧ c ≠ 'E'

theorem span_digits {s r : Str} (h : ∀ c ∈ s, isJsonDigit c = true) (hr : ∀ c, r.head? = some c → isJsonDigit c = false) :
    (s ++ r).takeWhile isJsonDigit = s ∧ (s ++ r).dropWhile isJsonDigit = r := by
  induction s with
  | nil =>
    cases r with
    | nil => exact ⟨rfl, rfl⟩
    | cons c r =>
      have := hr c rfl
      simp [this]
  | cons c s ih =>
    have hc := h c (List.mem_cons_self ..)
    obtain ⟨h1, h2⟩ := ih fun x hx => h x (List.mem_cons_of_mem _ hx)
    simp [hc, h1, h2]

theorem span_split (s : Str) : s = s.takeWhile isJsonDigit ++ s.dropWhile isJsonDigit := (List.takeWhile_append_dropWhile).symm

theorem taken_digits (s : Str) : ∀ c ∈ s.takeWhile isJsonDigit, isJsonDigit c = true :=
  fun c hc => List.all_eq_true.1 List.all_takeWhile c hc

theorem scanInteger_sound {s i r : Str} (h : scanInteger s = some (i, r)) : IntPart i ∧ s = i ++ r := by
  unfold scanInteger at h
  split at h
  · cases h
    exact ⟨⟨(digits_iff _).2 ⟨by simp, by simp [isJsonDigit]⟩, .inl rfl⟩, rfl⟩
  · rename_i c r' hc
    split at h
    · rename_i hd
      cases h
      refine ⟨⟨(digits_iff _).2 ⟨by simp, ?_⟩, .inr ?_⟩, ?_⟩
      · intro x hx
        rcases List.mem_cons.1 hx with rfl | hx
        · exact hd
        · exact taken_digits _ x hx
      · intro e
        cases e
        exact hc rfl
      · rw [List.cons_append, ← span_split]
    · cases h
  · cases h

theorem scanInteger_complete {i r : Str} (h : IntPart i) (hr : ∀ c, r.head? = some c → isJsonDigit c = false) :
    scanInteger (i ++ r) = some (i, r) := by
  obtain ⟨h1, h2⟩ := h
  obtain ⟨h3, h4⟩ := (digits_iff _).1 h1
  rcases h2 with rfl | h2
  · rfl
  · cases i with
    | nil => exact absurd rfl h3
    | cons c i =>
      have hc := h4 c (List.mem_cons_self ..)
      obtain ⟨g1, g2⟩ := span_digits (s := i) (r := r) (fun x hx => h4 x (List.mem_cons_of_mem _ hx)) hr
      rw [List.cons_append, scanInteger.eq_def]
      split
      · rename_i e; cases e; exact absurd rfl h2
      · rename_i e; cases e; rw [if_pos hc, g1, g2]
      · rename_i e; cases e

theorem scanFraction_sound (s : Str) : Frac (scanFraction s).1 ∧ s = (scanFraction s).1 ++ (scanFraction s).2 := by
  unfold scanFraction
  split
  · rename_i c r
    split
    · rename_i hd
      refine ⟨.inr ⟨_, rfl, (digits_iff _).2 ⟨by simp, ?_⟩⟩, ?_⟩
      · intro x hx
        rcases List.mem_cons.1 hx with rfl | hx
        · exact hd
        · exact taken_digits _ x hx
      · simp only [List.cons_append]
        rw [← span_split]
    · exact ⟨.inl rfl, rfl⟩
  · exact ⟨.inl rfl, rfl⟩

theorem scanFraction_complete {f r : Str} (h : Frac f) (hr : ∀ c, r.head? = some c → isJsonDigit c = false ∧ c ≠ '.') :
    scanFraction (f ++ r) = (f, r) := by
  rcases h with rfl | ⟨t, rfl, ht⟩
  · rw [List.nil_append]
    unfold scanFraction
    split
    · exact absurd rfl (hr '.' rfl).2
    · rfl
  · obtain ⟨h3, h4⟩ := (digits_iff _).1 ht
    cases t with
    | nil => exact absurd rfl h3
    | cons c t =>
      obtain ⟨g1, g2⟩ := span_digits (s := t) (r := r) (fun x hx => h4 x (List.mem_cons_of_mem _ hx)) (fun c hc => (hr c hc).1)
      show (if isJsonDigit c then ('.' :: c :: (t ++ r).takeWhile isJsonDigit, (t ++ r).dropWhile isJsonDigit) else ([], _)) = _
      rw [if_pos (h4 c (List.mem_cons_self ..)), g1, g2]

theorem scanSign_spec (s : Str) : s = (scanSign s).1 ++ (scanSign s).2 ∧
    ((scanSign s).1 = [] ∨ (scanSign s).1 = ['+'] ∨ (scanSign s).1 = ['-']) := by
  unfold scanSign
  split <;> simp

theorem scanExponent_sound (s : Str) : Exp (scanExponent s).1 ∧ s = (scanExponent s).1 ++ (scanExponent s).2 := by
  unfold scanExponent
  split
  · exact ⟨.inl rfl, rfl⟩
  · rename_i e r
    split
    · rename_i he
      obtain ⟨h1, h2⟩ := scanSign_spec r
      dsimp only
      split
      · rename_i c r' hr
        split
        · rename_i hd
          refine ⟨.inr ⟨e, (scanSign r).1, c :: r'.takeWhile isJsonDigit, rfl, he, h2, (digits_iff _).2 ⟨by simp, ?_⟩⟩, ?_⟩
          · intro x hx
            rcases List.mem_cons.1 hx with rfl | hx
            · exact hd
            · exact taken_digits _ x hx
          · simp only [List.cons_append, List.append_assoc]
            rw [← span_split, ← hr, ← h1]
        · exact ⟨.inl rfl, rfl⟩
      · exact ⟨.inl rfl, rfl⟩
    · exact ⟨.inl rfl, rfl⟩

theorem scanExponent_complete {x r : Str} (h : Exp x) (hr : Stops r) : scanExponent (x ++ r) = (x, r) := by
  rcases h with rfl | ⟨e, sign, t, rfl, he, hs, ht⟩
  · rw [List.nil_append]
    unfold scanExponent
    split
    · rfl
    · rename_i c r'
      rw [if_neg]
      have := hr c rfl
      exact fun h => h.elim this.2.2.1 this.2.2.2
  · obtain ⟨h3, h4⟩ := (digits_iff _).1 ht
    cases t with
    | nil => exact absurd rfl h3
    | cons c t =>
      have hc := h4 c (List.mem_cons_self ..)
      obtain ⟨g1, g2⟩ := span_digits (s := t) (r := r) (fun x hx => h4 x (List.mem_cons_of_mem _ hx)) (fun c hc => (hr c hc).1)
      have hsign : scanSign (sign ++ (c :: t) ++ r) = (sign, c :: (t ++ r)) := by
        rcases hs with rfl | rfl | rfl
        · simp only [List.nil_append, List.cons_append]
          unfold scanSign
          split
          · rename_i e; cases e; simp [isJsonDigit] at hc
          · rename_i e; cases e; simp [isJsonDigit] at hc
          · rfl
        · rfl
        · rfl
      rw [List.cons_append, scanExponent, if_pos he]
      dsimp only
      rw [hsign]
      dsimp only
      rw [if_pos hc, g1, g2]

theorem denotes_digitsVal (s : Str) (h : ∀ c ∈ s, isJsonDigit c = true) : Denotes s (digitsVal s) := by
  suffices g : ∀ t : Str, (∀ c ∈ t, isJsonDigit c = true) → Denotes t.reverse (digitsVal t.reverse) by
    have := g s.reverse (fun c hc => h c (List.mem_reverse.1 hc))
    rwa [List.reverse_reverse] at this
  intro t
  induction t with
  | nil => intro _; exact .nil
  | cons c t ih =>
    intro ht
    have h1 := ih fun x hx => ht x (List.mem_cons_of_mem _ hx)
    have h2 : digitsVal (c :: t).reverse = 10 * digitsVal t.reverse + (c.toNat - 48) := by
      simp [digitsVal, List.foldl_append]
    rw [h2, List.reverse_cons]
    refine .snoc c _ h1 ?_
    have hc := ht c (List.mem_cons_self ..)
    have : c.toNat < 128 := by simp [isJsonDigit] at hc; omega
    exact char_below (P := fun c => isJsonDigit c = true → (c, c.toNat - 48) ∈
      [('0', 0), ('1', 1), ('2', 2), ('3', 3), ('4', 4), ('5', 5), ('6', 6), ('7', 7), ('8', 8), ('9', 9)]) 128
      (by decide +kernel) c this hc

theorem digitsVal_of_denotes {s : Str} {n : Nat} (h : Denotes s n) : n = digitsVal s := by
  induction h with
  | nil => rfl
  | snoc c d h1 h2 ih =>
    subst ih
    have all : ∀ p ∈ [('0', 0), ('1', 1), ('2', 2), ('3', 3), ('4', 4), ('5', 5), ('6', 6), ('7', 7), ('8', 8), ('9', 9)],
      p.1.toNat - 48 = p.2 := by decide
    have := all _ h2
    dsimp only at this
    simp [digitsVal, List.foldl_append, this]

/-- What the number scanner accepts. -/
def NumberValue (v : Raw) (t : Str) : Prop :=
  (∃ i, v = .num i ∧ WholeNumber i t) ∨ (v = .float t ∧ ∃ minus i f e, t = minus ++ i ++ f ++ e ∧ (minus = [] ∨ minus = ['-']) ∧ IntPart i ∧
    Frac f ∧ Exp e ∧ (f ≠ [] ∨ e ≠ []))

theorem scanUnsigned_sound {neg : Bool} {s r : Str} {v : Raw} (h : scanUnsigned neg s = some (v, r)) :
    ∃ t, NumberValue v ((if neg then ['-'] else []) ++ t) ∧ s = t ++ r := by
  unfold scanUnsigned at h
  simp only [bind, Option.bind, pure] at h
  cases hi : scanInteger s with
  | none => rw [hi] at h; cases h
  | some p =>
  obtain ⟨i, r1⟩ := p
  rw [hi] at h
  dsimp only at h
  obtain ⟨g1, g2⟩ := scanInteger_sound hi
  obtain ⟨g3, g4⟩ := scanFraction_sound r1
  obtain ⟨g5, g6⟩ := scanExponent_sound (scanFraction r1).2
  split at h
  · rename_i he
    cases h
    refine ⟨i, .inl ⟨_, rfl, ?_⟩, ?_⟩
    · have := denotes_digitsVal i ((digits_iff _).1 g1.1).2
      cases neg
      · exact .pos g1 this
      · exact .neg g1 this
    · rw [he.1, List.nil_append] at g4
      rw [he.2, List.nil_append] at g6
      rw [← g6, ← g4]; exact g2
  · rename_i he
    cases h
    refine ⟨i ++ (scanFraction r1).1 ++ (scanExponent (scanFraction r1).2).1, .inr ⟨by simp, if neg then ['-'] else [], i, _, _, ?_, ?_, g1, g3, g5, ?_⟩, ?_⟩
    · simp
    · cases neg <;> simp
    · by_cases hf : (scanFraction r1).1 = []
      · right; exact fun e => he ⟨hf, e⟩
      · exact .inl hf
    · rw [List.append_assoc, List.append_assoc, ← g6, ← g4, g2]

theorem stops_exp {x r : Str} (h : Exp x) (hr : Stops r) : ∀ c, (x ++ r).head? = some c → isJsonDigit c = false ∧ c ≠ '.' := by
  intro c hc
  rcases h with rfl | ⟨e, sign, t, rfl, he, hs, ht⟩
  · exact ⟨(hr c hc).1, (hr c hc).2.1⟩
  · cases hc
    rcases he with rfl | rfl <;> decide

theorem stops_frac {f x r : Str} (hf : Frac f) (h : Exp x) (hr : Stops r) : ∀ c, (f ++ (x ++ r)).head? = some c → isJsonDigit c = false := by
  intro c hc
  rcases hf with rfl | ⟨t, rfl, ht⟩
  · exact (stops_exp h hr c hc).1
  · cases hc; rfl

theorem scanUnsigned_whole {neg : Bool} {i r : Str} {n : Nat} (hi : IntPart i) (hn : Denotes i n) (hr : Stops r) :
    scanUnsigned neg (i ++ r) = some (.num (if neg then - Int.ofNat n else Int.ofNat n), r) := by
  unfold scanUnsigned
  rw [scanInteger_complete hi (fun c hc => (hr c hc).1)]
  have h1 := scanFraction_complete (f := []) (r := r) (.inl rfl) (fun c hc => ⟨(hr c hc).1, (hr c hc).2.1⟩)
  have h2 := scanExponent_complete (x := []) (r := r) (.inl rfl) hr
  rw [List.nil_append] at h1 h2
  simp only [bind, Option.bind, pure]
  rw [h1]
  dsimp only
  rw [h2, if_pos ⟨rfl, rfl⟩, ← digitsVal_of_denotes hn]

theorem scanUnsigned_float {neg : Bool} {i f e r : Str} (hi : IntPart i) (hf : Frac f) (he : Exp e) (hne : f ≠ [] ∨ e ≠ []) (hr : Stops r) :
    scanUnsigned neg (i ++ (f ++ (e ++ r))) = some (.float ((if neg then ['-'] else []) ++ i ++ f ++ e), r) := by
  unfold scanUnsigned
  rw [scanInteger_complete hi (stops_frac hf he hr)]
  simp only [bind, Option.bind, pure]
  rw [scanFraction_complete hf (stops_exp he hr)]
  dsimp only
  rw [scanExponent_complete he hr]
  dsimp only
  rw [if_neg]
  rintro ⟨h1, h2⟩
  exact hne.elim (fun h => h h1) (fun h => h h2)

end Spdx
