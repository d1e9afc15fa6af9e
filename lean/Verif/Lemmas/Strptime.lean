import Verif.Spec.Strptime
import Verif.Lemmas.PatSame
import Verif.Lemmas.TvLexing
/-
The fields of the pattern behind `strptime` and those of the model's `datetimeFromStr`.
-/
set_option linter.unusedSimpArgs false
namespace Spdx.Strp
open Spdx PatRun PatLang Spec Pat

/-- The flags `strptime` compiles its patterns with. -/
abbrev F : ReFlags := { ignoreCase := true }

theorem lower_not_digit {c : Char} (h : isLowerAZ c = true) : isPyDigit c = false := by
  have hc : c.toNat < 128 := by simp [isLowerAZ] at h; omega
  exact char_below (P := fun c => isLowerAZ c = true → isPyDigit c = false) 128 (by decide +kernel) c hc h

theorem fold_digit (p : Char → Bool) (hp : ∀ c, isLowerAZ c = true → p c = false) (c : Char) : (p c || p (ciFold c)) = p c := by
  rcases ciFold_cases c with h | h
  · rw [h, Bool.or_self]
  · rw [hp _ h, Bool.or_false]

theorem set_digit : setTest F false [.digit] = isPyDigit := by
  funext c
  rw [ci_test' rfl [.digit] isPyDigit (fun c => by simp [CItem.test]) (fun c _ i hi h => by simp at hi; exact absurd hi h)]
  exact fold_digit _ (fun c h => lower_not_digit h) c

theorem upper_of_lower {c : Char} (h : isLowerAZ c = true) : 65 ≤ (ciUpper c).toNat ∧ (ciUpper c).toNat ≤ 90 := by
  have := ciUpper_lower h
  simpa [isUpperAZ] using this

theorem lower_nat {c : Char} (h : isLowerAZ c = true) : 97 ≤ c.toNat ∧ c.toNat ≤ 122 := by simpa [isLowerAZ] using h

theorem set_range (a b : Char) (hb : b.toNat < 65) : setTest F false [.range a b] = isDig a b := by
  funext c
  rw [ci_test' rfl [.range a b] (isDig a b) (fun c => by simp [CItem.test, isDig])
    (fun c hc i hi _ _ _ ht => by
      simp at hi
      subst hi
      have := upper_of_lower hc
      simp [CItem.test] at ht
      omega)]
  refine fold_digit _ (fun c h => ?_) c
  have := lower_nat h
  simp [isDig]
  omega

theorem set_chr (a : Char) (ha : a.toNat < 65) : setTest F false [.chr a] = (fun c => decide (c = a)) := by
  funext c
  rw [ci_test' rfl [.chr a] (fun c => decide (c = a)) (fun c => by simp [CItem.test]; exact Bool.beq_eq_decide_eq c a)
    (fun c hc i hi _ _ _ ht => by
      simp at hi
      subst hi
      have := upper_of_lower hc
      simp [CItem.test] at ht
      rw [ht] at this
      omega)]
  refine fold_digit (fun c => decide (c = a)) (fun c h => ?_) c
  have := lower_nat h
  simp
  rintro rfl
  omega

theorem fold_far {c : Char} (h : ¬ c.toNat < 0x200) (h' : c.toNat ≠ 0x212A) : ciFold c = c ∧ ciUpper c = c := by
  have h1 : isUpperAZ c = false := by simp [isUpperAZ]; omega
  have h2 : isLowerAZ c = false := by simp [isLowerAZ]; omega
  refine ⟨?_, ciUpper_other h2⟩
  unfold ciFold
  rw [if_neg (by simp [h1]), if_neg (by omega), if_neg (by omega), if_neg (by omega)]

theorem set_T : setTest F false [.chr 'T'] = (fun c => c = 'T' || c = 't') := by
  funext c
  by_cases h : c.toNat < 0x200
  · exact char_below (P := fun c => setTest F false [.chr 'T'] c = (decide (c = 'T') || decide (c = 't'))) 0x200 (by decide +kernel) c h
  by_cases h' : c.toNat = 0x212A
  · have hc : c = Char.ofNat 0x212A := by rw [← h', Char.ofNat_toNat]
    rw [hc]
    decide +kernel
  · have n1 : c ≠ 'T' := by rintro rfl; exact h (by decide)
    have n2 : c ≠ 't' := by rintro rfl; exact h (by decide)
    simp [setTest, CItem.testCi, CItem.test, (fold_far h h').1, (fold_far h h').2, n1, n2]

theorem set_Z : setTest F false [.chr 'Z'] = (fun c => c = 'Z' || c = 'z') := by
  funext c
  by_cases h : c.toNat < 0x200
  · exact char_below (P := fun c => setTest F false [.chr 'Z'] c = (decide (c = 'Z') || decide (c = 'z'))) 0x200 (by decide +kernel) c h
  by_cases h' : c.toNat = 0x212A
  · have hc : c = Char.ofNat 0x212A := by rw [← h', Char.ofNat_toNat]
    rw [hc]
    decide +kernel
  · have n1 : c ≠ 'Z' := by rintro rfl; exact h (by decide)
    have n2 : c ≠ 'z' := by rintro rfl; exact h (by decide)
    simp [setTest, CItem.testCi, CItem.test, (fold_far h h').1, (fold_far h h').2, n1, n2]

/-- A pattern for one or two characters. -/
structure Field (p : Pat) (two : Char → Char → Bool) (one : Char → Bool) : Prop where
  nil : ∀ {α : Type} (len : Nat) (k : MSt → Option α) caps, Pat.m F len p k ⟨[], caps⟩ = none
  single : ∀ {α : Type} (len : Nat) (k : MSt → Option α) caps a, Pat.m F len p k ⟨[a], caps⟩ = if one a then k ⟨[], caps⟩ else none
  more : ∀ {α : Type} (len : Nat) (k : MSt → Option α) caps a b r, (two a b = true → k ⟨b :: r, caps⟩ = none) →
    Pat.m F len p k ⟨a :: b :: r, caps⟩ = if two a b then k ⟨r, caps⟩ else if one a then k ⟨b :: r, caps⟩ else none
  digit : ∀ a b, two a b = true → isPyDigit b = true

/-- `dtField` with the text of the field in place of its value -/
def dtText (two : Char → Char → Bool) (one : Char → Bool) (sep : Char → Bool) : Str → Option (Str × Str)
  | a :: b :: c :: rest => if two a b && sep c then some ([a, b], rest) else if one a && sep b then some ([a], c :: rest) else none
  | [a, b] => if one a && sep b then some ([a], []) else none
  | _ => none

theorem m_field {α : Type} {p : Pat} {two : Char → Char → Bool} {one sep : Char → Bool} {items : List CItem} (hp : Field p two one)
    (hs : setTest F false items = sep) (hd : ∀ c, isPyDigit c = true → sep c = false) (len n : Nat) (k : MSt → Option α) (s : Str)
    (caps : List (Nat × Str)) :
    Pat.m F len (.grp n p) (Pat.m F len (.set false items) k) ⟨s, caps⟩ =
      (dtText two one sep s).bind fun x => k ⟨x.2, (n, x.1) :: caps⟩ := by
  rw [m_grp]
  match s with
  | [] => rw [hp.nil]; rfl
  | [a] =>
    rw [hp.single]
    unfold MSt.close
    rw [m_set]
    simp [dtText]
  | [a, b] =>
    rw [hp.more]
    · unfold MSt.close
      rw [m_set, m_set, hs]
      by_cases h2 : two a b
      · rw [if_pos h2]
        simp [dtText, hd b (hp.digit a b h2)]
      · rw [if_neg h2]
        by_cases h1 : one a <;> by_cases h : sep b <;> simp [dtText, h1, h]
    · intro h2
      unfold MSt.close
      rw [m_set, hs]
      simp [hd b (hp.digit a b h2)]
  | a :: b :: c :: r =>
    rw [hp.more]
    · unfold MSt.close
      rw [m_set, m_set, hs]
      by_cases h2 : two a b
      · rw [if_pos h2]
        by_cases h : sep c
        · simp [dtText, h2, h]
        · simp [dtText, h2, h, hd b (hp.digit a b h2)]
      · rw [if_neg h2]
        by_cases h1 : one a <;> by_cases h : sep b <;> simp [dtText, h1, h, h2]
    · intro h2
      unfold MSt.close
      rw [m_set, hs]
      simp [hd b (hp.digit a b h2)]

/-! ## The patterns of the directives -/

def pm : Pat := .alt (.seq (.set false [.chr '1']) (.set false [.range '0' '2'])) (.alt (.seq (.set false [.chr '0']) (.set false [.range '1' '9']))
  (.set false [.range '1' '9']))
def pd : Pat := .alt (.seq (.set false [.chr '3']) (.set false [.range '0' '1'])) (.alt (.seq (.set false [.range '1' '2']) (.set false [.digit]))
  (.alt (.seq (.set false [.chr '0']) (.set false [.range '1' '9'])) (.alt (.set false [.range '1' '9'])
    (.seq (.set false [.chr ' ']) (.set false [.range '1' '9'])))))
def pH : Pat := .alt (.seq (.set false [.chr '2']) (.set false [.range '0' '3'])) (.alt (.seq (.set false [.range '0' '1']) (.set false [.digit]))
  (.set false [.digit]))
def pM : Pat := .alt (.seq (.set false [.range '0' '5']) (.set false [.digit])) (.set false [.digit])
def pS : Pat := .alt (.seq (.set false [.chr '6']) (.set false [.range '0' '1'])) (.alt (.seq (.set false [.range '0' '5']) (.set false [.digit]))
  (.set false [.digit]))

def m2 (a b : Char) : Bool := (a = '1' && isDig '0' '2' b) || (a = '0' && isDig '1' '9' b)
def d2 (a b : Char) : Bool := (a = '3' && isDig '0' '1' b) || (isDig '1' '2' a && isPyDigit b)
    || (a = '0' && isDig '1' '9' b) || (a = ' ' && isDig '1' '9' b)
def H2 (a b : Char) : Bool := (a = '2' && isDig '0' '3' b) || (isDig '0' '1' a && isPyDigit b)
def M2 (a b : Char) : Bool := isDig '0' '5' a && isPyDigit b
def S2 (a b : Char) : Bool := (a = '6' && isDig '0' '1' b) || (isDig '0' '5' a && isPyDigit b)

theorem range_digit {lo hi c : Char} (h1 : 48 ≤ lo.toNat) (h2 : hi.toNat ≤ 57) (h : isDig lo hi c = true) : isPyDigit c = true := by
  simp [isDig] at h
  have hc : c.toNat < 58 := by omega
  exact char_below (P := fun c => 48 ≤ c.toNat → isPyDigit c = true) 58 (by decide +kernel) c hc (by omega)

theorem field_m : Field pm m2 (isDig '1' '9') where
  nil := by intros; unfold pm; simp only [m_alt, m_seq, m_set, Option.or_none]
  single := by
    intros
    unfold pm
    simp only [m_alt, m_seq, m_set, set_chr _ (show '1'.toNat < 65 by decide), set_chr _ (show '0'.toNat < 65 by decide), set_range _ _ (show '9'.toNat < 65 by decide)]
    simp
  more := by
    intro α len k caps a b r h
    unfold pm
    simp only [m_alt, m_seq, m_set, set_chr _ (show '1'.toNat < 65 by decide), set_chr _ (show '0'.toNat < 65 by decide), set_range _ _ (show '9'.toNat < 65 by decide),
      set_range _ _ (show '2'.toNat < 65 by decide)]
    unfold m2 at h ⊢
    revert h
    generalize isDig '1' '9' a = x1
    generalize isDig '1' '9' b = x2
    generalize isDig '0' '2' b = x3
    generalize decide (a = '1') = x4
    generalize decide (a = '0') = x5
    generalize k ⟨b :: r, caps⟩ = v1
    generalize k ⟨r, caps⟩ = v2
    intro h
    cases x1 <;> cases x2 <;> cases x3 <;> cases x4 <;> cases x5 <;> simp at h ⊢ <;> simp [h]
  digit := by
    intro a b h
    simp only [m2, Bool.or_eq_true, Bool.and_eq_true] at h
    rcases h with h | h
    · exact range_digit (by decide) (by decide) h.2
    · exact range_digit (by decide) (by decide) h.2

theorem field_d : Field pd d2 (isDig '1' '9') where
  nil := by intros; unfold pd; simp only [m_alt, m_seq, m_set, Option.or_none]
  single := by
    intros
    unfold pd
    simp only [m_alt, m_seq, m_set, set_chr _ (show '3'.toNat < 65 by decide), set_chr _ (show '0'.toNat < 65 by decide), set_chr _ (show ' '.toNat < 65 by decide), set_range _ _ (show '1'.toNat < 65 by decide), set_range _ _ (show '2'.toNat < 65 by decide), set_range _ _ (show '9'.toNat < 65 by decide), set_digit]
    simp
  more := by
    intro α len k caps a b r h
    unfold pd
    simp only [m_alt, m_seq, m_set, set_chr _ (show '3'.toNat < 65 by decide), set_chr _ (show '0'.toNat < 65 by decide), set_chr _ (show ' '.toNat < 65 by decide), set_range _ _ (show '1'.toNat < 65 by decide), set_range _ _ (show '2'.toNat < 65 by decide), set_range _ _ (show '9'.toNat < 65 by decide), set_digit]
    unfold d2 at h ⊢
    revert h
    generalize isDig '0' '1' b = x0
    generalize isDig '1' '2' a = x1
    generalize isDig '1' '9' a = x2
    generalize isDig '1' '9' b = x3
    generalize isPyDigit b = x4
    generalize decide (a = '3') = x5
    generalize decide (a = '0') = x6
    generalize decide (a = ' ') = x7
    generalize k ⟨b :: r, caps⟩ = v1
    generalize k ⟨r, caps⟩ = v2
    intro h
    cases x0 <;> cases x1 <;> cases x2 <;> cases x3 <;> cases x4 <;> cases x5 <;> cases x6 <;> cases x7 <;> simp at h ⊢ <;> simp [h]
  digit := by
    intro a b h
    simp only [d2, Bool.or_eq_true, Bool.and_eq_true] at h
    rcases h with ((h | h) | h) | h
    · exact range_digit (by decide) (by decide) h.2
    · exact h.2
    · exact range_digit (by decide) (by decide) h.2
    · exact range_digit (by decide) (by decide) h.2

theorem field_H : Field pH H2 isPyDigit where
  nil := by intros; unfold pH; simp only [m_alt, m_seq, m_set, Option.or_none]
  single := by
    intros
    unfold pH
    simp only [m_alt, m_seq, m_set, set_chr _ (show '2'.toNat < 65 by decide), set_range _ _ (show '1'.toNat < 65 by decide), set_range _ _ (show '3'.toNat < 65 by decide), set_digit]
    simp
  more := by
    intro α len k caps a b r h
    unfold pH
    simp only [m_alt, m_seq, m_set, set_chr _ (show '2'.toNat < 65 by decide), set_range _ _ (show '1'.toNat < 65 by decide), set_range _ _ (show '3'.toNat < 65 by decide), set_digit]
    unfold H2 at h ⊢
    revert h
    generalize isDig '0' '3' b = x0
    generalize isDig '0' '1' a = x1
    generalize isPyDigit a = x2
    generalize isPyDigit b = x3
    generalize decide (a = '2') = x4
    generalize k ⟨b :: r, caps⟩ = v1
    generalize k ⟨r, caps⟩ = v2
    intro h
    cases x0 <;> cases x1 <;> cases x2 <;> cases x3 <;> cases x4 <;> simp at h ⊢ <;> simp [h]
  digit := by
    intro a b h
    simp only [H2, Bool.or_eq_true, Bool.and_eq_true] at h
    rcases h with h | h
    · exact range_digit (by decide) (by decide) h.2
    · exact h.2

theorem field_M : Field pM M2 isPyDigit where
  nil := by intros; unfold pM; simp only [m_alt, m_seq, m_set, Option.or_none]
  single := by
    intros
    unfold pM
    simp only [m_alt, m_seq, m_set, set_range _ _ (show '5'.toNat < 65 by decide), set_digit]
    simp
  more := by
    intro α len k caps a b r h
    unfold pM
    simp only [m_alt, m_seq, m_set, set_range _ _ (show '5'.toNat < 65 by decide), set_digit]
    unfold M2 at h ⊢
    revert h
    generalize isDig '0' '5' a = x0
    generalize isPyDigit a = x1
    generalize isPyDigit b = x2
    generalize k ⟨b :: r, caps⟩ = v1
    generalize k ⟨r, caps⟩ = v2
    intro h
    cases x0 <;> cases x1 <;> cases x2 <;> simp at h ⊢ <;> simp [h]
  digit := by
    intro a b h
    simp only [M2, Bool.or_eq_true, Bool.and_eq_true] at h
    exact h.2

theorem field_S : Field pS S2 isPyDigit where
  nil := by intros; unfold pS; simp only [m_alt, m_seq, m_set, Option.or_none]
  single := by
    intros
    unfold pS
    simp only [m_alt, m_seq, m_set, set_chr _ (show '6'.toNat < 65 by decide), set_range _ _ (show '1'.toNat < 65 by decide), set_range _ _ (show '5'.toNat < 65 by decide), set_digit]
    simp
  more := by
    intro α len k caps a b r h
    unfold pS
    simp only [m_alt, m_seq, m_set, set_chr _ (show '6'.toNat < 65 by decide), set_range _ _ (show '1'.toNat < 65 by decide), set_range _ _ (show '5'.toNat < 65 by decide), set_digit]
    unfold S2 at h ⊢
    revert h
    generalize isDig '0' '1' b = x0
    generalize isDig '0' '5' a = x1
    generalize isPyDigit a = x2
    generalize isPyDigit b = x3
    generalize decide (a = '6') = x4
    generalize k ⟨b :: r, caps⟩ = v1
    generalize k ⟨r, caps⟩ = v2
    intro h
    cases x0 <;> cases x1 <;> cases x2 <;> cases x3 <;> cases x4 <;> simp at h ⊢ <;> simp [h]
  digit := by
    intro a b h
    simp only [S2, Bool.or_eq_true, Bool.and_eq_true] at h
    rcases h with h | h
    · exact range_digit (by decide) (by decide) h.2
    · exact h.2

/-! ## The values of the fields -/

theorem int_digits {s : Str} (hne : s ≠ []) (h : ∀ c ∈ s, isPyDigit c = true) : pyIntText s = (digitsVal? s).map (fun n : Nat => (n : Int)) := by
  have hsp : ∀ c ∈ s, isPySpace c = false := fun c hc => by
    cases hb : isPySpace c with
    | false => rfl
    | true => exact absurd (h c hc) (by rw [TvLexing.space_not_digit c hb]; simp)
  have hs : strip s = s := (strip_eq_self_iff s).2 ⟨fun c r e => hsp c (by rw [e]; simp), fun c r e => hsp c (by rw [e]; simp)⟩
  have hu : '_' ∉ s := fun hc => absurd (h '_' hc) (by decide +kernel)
  have hn : pyNatText s = digitsVal? s := by
    unfold pyNatText
    rw [splitOn_none '_' s hu]
    cases s with
    | nil => exact absurd rfl hne
    | cons c r => simp
  unfold pyIntText
  rw [hs]
  split
  · exact absurd (h '-' (by simp)) (by decide +kernel)
  · exact absurd (h '+' (by simp)) (by decide +kernel)
  · rw [hn]
    cases digitsVal? s <;> rfl

theorem int_space {b : Char} (h : isDig '1' '9' b = true) : pyIntText [' ', b] = (digitsVal? ['0', b]).map (fun n : Nat => (n : Int)) := by
  have hc : b.toNat < 58 := by simp [isDig] at h; omega
  exact char_below (P := fun b => isDig '1' '9' b = true → pyIntText [' ', b] = (digitsVal? ['0', b]).map (fun n : Nat => (n : Int))) 58
    (by decide +kernel) b hc h

/-- The value of a field's text, as the model reads it. -/
def num : Str → Option Nat
  | [a, b] => digitsVal? [if a = ' ' then '0' else a, b]
  | s => digitsVal? s

theorem dtField_text (two : Char → Char → Bool) (one sep : Char → Bool) (s : Str) :
    dtField two one sep s = (dtText two one sep s).bind fun x => (num x.1).map (·, x.2) := by
  match s with
  | [] => rfl
  | [a] => rfl
  | [a, b] => unfold dtField dtText; dsimp only; split <;> rfl
  | a :: b :: c :: r =>
    unfold dtField dtText
    dsimp only
    split
    · rfl
    · split <;> rfl

/-- The characters of a field are digits, or a space and a digit. -/
structure Digits (two : Char → Char → Bool) (one : Char → Bool) : Prop where
  two : ∀ a b, two a b = true → (isPyDigit a = true ∧ isPyDigit b = true) ∨ (a = ' ' ∧ isDig '1' '9' b = true)
  one : ∀ a, one a = true → isPyDigit a = true

theorem int_num {two : Char → Char → Bool} {one sep : Char → Bool} (hd : Digits two one) {s : Str} {x : Str × Str} (h : dtText two one sep s = some x) :
    pyIntText x.1 = (num x.1).map (fun n : Nat => (n : Int)) := by
  have h1 : ∀ a, one a = true → pyIntText [a] = (num [a]).map (fun n : Nat => (n : Int)) := fun a ha =>
    int_digits (by simp) (by simp [hd.one a ha])
  unfold dtText at h
  split at h
  · rename_i a b c r
    split at h
    · rename_i h2
      cases h
      rw [Bool.and_eq_true] at h2
      rcases hd.two a b h2.1 with h | ⟨rfl, h⟩
      · have ha : a ≠ ' ' := by rintro rfl; exact absurd h.1 (by decide +kernel)
        show _ = (digitsVal? [if a = ' ' then '0' else a, b]).map _
        rw [if_neg ha]
        exact int_digits (by simp) (by simp [h.1, h.2])
      · exact int_space h
    · split at h
      · rename_i h2
        cases h
        rw [Bool.and_eq_true] at h2
        exact h1 a h2.1
      · cases h
  · rename_i a b
    split at h
    · rename_i h2
      cases h
      rw [Bool.and_eq_true] at h2
      exact h1 a h2.1
    · cases h
  · cases h

theorem digits_m : Digits m2 (isDig '1' '9') where
  two a b h := by
    simp only [m2, Bool.or_eq_true, Bool.and_eq_true, decide_eq_true_eq] at h
    rcases h with ⟨rfl, h⟩ | ⟨rfl, h⟩ <;> exact .inl ⟨by decide +kernel, range_digit (by decide) (by decide) h⟩
  one a h := range_digit (by decide) (by decide) h
theorem digits_d : Digits d2 (isDig '1' '9') where
  two a b h := by
    simp only [d2, Bool.or_eq_true, Bool.and_eq_true, decide_eq_true_eq] at h
    rcases h with ((⟨rfl, h⟩ | ⟨h', h⟩) | ⟨rfl, h⟩) | ⟨rfl, h⟩
    · exact .inl ⟨by decide +kernel, range_digit (by decide) (by decide) h⟩
    · exact .inl ⟨range_digit (by decide) (by decide) h', h⟩
    · exact .inl ⟨by decide +kernel, range_digit (by decide) (by decide) h⟩
    · exact .inr ⟨rfl, h⟩
  one a h := range_digit (by decide) (by decide) h
theorem digits_H : Digits H2 isPyDigit where
  two a b h := by
    simp only [H2, Bool.or_eq_true, Bool.and_eq_true, decide_eq_true_eq] at h
    rcases h with ⟨rfl, h⟩ | ⟨h', h⟩
    · exact .inl ⟨by decide +kernel, range_digit (by decide) (by decide) h⟩
    · exact .inl ⟨range_digit (by decide) (by decide) h', h⟩
  one a h := h
theorem digits_M : Digits M2 isPyDigit where
  two a b h := by
    simp only [M2, Bool.and_eq_true] at h
    exact .inl ⟨range_digit (by decide) (by decide) h.1, h.2⟩
  one a h := h
theorem digits_S : Digits S2 isPyDigit where
  two a b h := by
    simp only [S2, Bool.or_eq_true, Bool.and_eq_true, decide_eq_true_eq] at h
    rcases h with ⟨rfl, h⟩ | ⟨h', h⟩
    · exact .inl ⟨by decide +kernel, range_digit (by decide) (by decide) h⟩
    · exact .inl ⟨range_digit (by decide) (by decide) h', h⟩
  one a h := h

/-! ## The whole pattern -/

def pY : Pat := .seq (.set false [.digit]) (.seq (.set false [.digit]) (.seq (.set false [.digit]) (.set false [.digit])))

/-- The pattern for `%Y-%m-%dT%H:%M:%SZ`. -/
def whole : Pat :=
  .seq (.grp 1 pY) (.seq (.chr '-') (.seq (.grp 2 pm) (.seq (.chr '-') (.seq (.grp 3 pd) (.seq (.chr 'T') (.seq (.grp 4 pH) (.seq (.chr ':')
    (.seq (.grp 5 pM) (.seq (.chr ':') (.seq (.grp 6 pS) (.chr 'Z')))))))))))

theorem whole_parsed : (timePattern s%"%Y-%m-%dT%H:%M:%SZ").bind parsePattern =
    some (whole, [(['Y'], 1), (['m'], 2), (['d'], 3), (['H'], 4), (['M'], 5), (['S'], 6)]) := by decide +kernel

/-- The year and its separator. -/
def yearText : Str → Option (Str × Str)
  | y1 :: y2 :: y3 :: y4 :: '-' :: r => if isPyDigit y1 && isPyDigit y2 && isPyDigit y3 && isPyDigit y4 then some ([y1, y2, y3, y4], r) else none
  | _ => none

theorem m_year {α : Type} (len : Nat) (k : MSt → Option α) (s : Str) :
    Pat.m F len (.grp 1 pY) (Pat.m F len (.chr '-') k) ⟨s, []⟩ = (yearText s).bind fun x => k ⟨x.2, [(1, x.1)]⟩ := by
  rw [m_grp]
  unfold pY
  simp only [m_seq]
  match s with
  | [] => rw [m_set]; rfl
  | [a] => simp only [m_seq, m_set, set_digit, yearText]; split <;> simp
  | [a, b] => simp only [m_seq, m_set, set_digit, yearText]; split <;> simp
  | [a, b, c] => simp only [m_seq, m_set, set_digit, yearText]; split <;> simp
  | [a, b, c, d] => simp only [m_seq, m_set, set_digit, yearText, MSt.close, Pat.chr]; simp
  | a :: b :: c :: d :: e :: r =>
    simp only [m_seq, m_set, set_digit, MSt.close, Pat.chr, set_chr '-' (by decide)]
    by_cases he : e = '-'
    · subst he
      simp only [yearText]
      by_cases h1 : isPyDigit a <;> by_cases h2 : isPyDigit b <;> by_cases h3 : isPyDigit c <;> by_cases h4 : isPyDigit d <;> simp [h1, h2, h3, h4]
    · have : yearText (a :: b :: c :: d :: e :: r) = none := by
        unfold yearText
        split
        · rename_i h; cases h; exact absurd rfl he
        · rfl
      rw [this]
      simp [he]

theorem dash_digit (q : Char) (hq : isPyDigit q = false) (c : Char) (h : isPyDigit c = true) : (decide (c = q)) = false := by
  simp
  rintro rfl
  rw [hq] at h
  cases h

theorem whole_first (s : Str) : whole.first F s =
    (yearText s).bind fun y => (dtText m2 (isDig '1' '9') (· = '-') y.2).bind fun m =>
      (dtText d2 (isDig '1' '9') (fun c => c = 'T' || c = 't') m.2).bind fun d => (dtText H2 isPyDigit (· = ':') d.2).bind fun h =>
        (dtText M2 isPyDigit (· = ':') h.2).bind fun mi => (dtText S2 isPyDigit (fun c => c = 'Z' || c = 'z') mi.2).bind fun s =>
          some ⟨s.2, [(6, s.1), (5, mi.1), (4, h.1), (3, d.1), (2, m.1), (1, y.1)]⟩ := by
  rw [first_eq]
  unfold whole
  have hm : ∀ (a b : Pat) (k : MSt → Option MSt), Pat.m F s.length (.seq a b) k = Pat.m F s.length a (Pat.m F s.length b k) :=
    fun a b k => funext fun x => m_seq a b k x
  simp only [hm]
  rw [m_year]
  congr 1
  funext y
  unfold Pat.chr
  rw [m_field field_m (set_chr '-' (by decide)) (dash_digit '-' (by decide +kernel))]
  congr 1
  funext m
  rw [m_field field_d set_T (fun c h => by simp [dash_digit 'T' (by decide +kernel) c h, dash_digit 't' (by decide +kernel) c h])]
  congr 1
  funext d
  rw [m_field field_H (set_chr ':' (by decide)) (dash_digit ':' (by decide +kernel))]
  congr 1
  funext h
  rw [m_field field_M (set_chr ':' (by decide)) (dash_digit ':' (by decide +kernel))]
  congr 1
  funext mi
  rw [m_field field_S set_Z (fun c h => by simp [dash_digit 'Z' (by decide +kernel) c h, dash_digit 'z' (by decide +kernel) c h])]

end Spdx.Strp
