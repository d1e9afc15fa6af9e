import Verif.Lemmas.PatUri
import Verif.Model.Validation
/- The patterns of identifiers and checksums. -/
namespace Spdx.PatIds
open Spdx Re PatLang Pat PatUri

theorem anchored_dollar {r : Re} {body : Str → Bool} (h : ∀ s, Matches r s ↔ body s = true) (s : Str) : r.anchored s = dollar body s := by
  have e : r.full = body := by
    funext t
    rw [Bool.eq_iff_iff, full_iff, h]
  unfold anchored
  rw [e]

theorem idBody_iff (pre : Str) (p : Char → Bool) (s : Str) : Matches (seqs [lit pre, plus (.set p)]) s ↔ idBody pre p s = true := by
  show Matches (.seq (lit pre) (plus (.set p))) s ↔ _
  rw [seq_iff]
  simp only [lit_iff, plus_set_iff]
  unfold idBody
  rw [Bool.and_eq_true, Bool.and_eq_true]
  unfold startsWith
  rw [List.isPrefixOf_iff_prefix]
  constructor
  · rintro ⟨_, t, rfl, rfl, hn, ht⟩
    refine ⟨⟨⟨t, rfl⟩, ?_⟩, ?_⟩
    · rw [List.drop_left' rfl]
      simpa using hn
    · rw [List.drop_left' rfl]
      simpa using ht
  · rintro ⟨⟨⟨t, rfl⟩, hn⟩, ht⟩
    rw [List.drop_left' rfl] at hn ht
    exact ⟨pre, t, rfl, rfl, by simpa using hn, by simpa using ht⟩

def idItems : List CItem := [.digit, .range 'a' 'z', .range 'A' 'Z', .chr '.', .chr '-']
def docItems : List CItem := [.digit, .range 'a' 'z', .range 'A' 'Z', .chr '.', .chr '+', .chr '-']

theorem idItems_test (c : Char) : idItems.any (·.test {} c) = isIdChar c := by
  show (isPyDigit c || (isLowerAZ c || (isUpperAZ c || (c == '.' || (c == '-' || false))))) = _
  simp [isIdChar, Bool.or_assoc]

theorem docItems_test (c : Char) : docItems.any (·.test {} c) = (isIdChar c || c == '+') := by
  show (isPyDigit c || (isLowerAZ c || (isUpperAZ c || (c == '.' || (c == '+' || (c == '-' || false)))))) = _
  unfold isIdChar
  cases isPyDigit c <;> cases isLowerAZ c <;> cases isUpperAZ c <;> cases c == '.' <;> cases c == '+' <;> cases c == '-' <;> rfl

def idPat (pre : Str) (items : List CItem) : List Pat := lits pre ++ [.plus (cls items)]

theorem idPat_same (pre : Str) (hp : pre ≠ []) {items : List CItem} {p : Char → Bool} (h : ∀ c, items.any (·.test {} c) = p c) :
    Equiv ((cat (idPat pre items)).toRe {}) (seqs [lit pre, plus (.set p)]) := by
  unfold idPat
  refine same_lits flag _ hp (by simp) (by simp) (same_cat_one (same_plus (same_cls flag h)))

theorem spdxId_parsed : parsePattern PatText.spdxId = some (cat (.bos :: idPat s%"SPDXRef-" idItems ++ [.eos]), []) := by decide +kernel
theorem documentRef_parsed : parsePattern PatText.documentRef = some (cat (.bos :: idPat s%"DocumentRef-" docItems ++ [.eos]), []) := by
  decide +kernel
theorem licenseRef_parsed : parsePattern PatText.licenseRef = some (cat (.bos :: idPat s%"LicenseRef-" idItems ++ [.eos]), []) := by
  decide +kernel

/-- `re.match` of `^…$`, when the text of the pattern and its language are known. -/
theorem pyMatch_anchored {E : ReFlags} {text : Str} {l : List Pat} {names : List (Str × Nat)} {r : Re}
    (hp : parsePattern text = some (cat (.bos :: l ++ [.eos]), names)) (hl : (cat l).plain = true) (hr : Equiv ((cat l).toRe E) r) (s : Str) :
    (pyMatch E text s).isSome = r.anchored s := by
  unfold pyMatch
  rw [hp, Option.bind_some, first_between l hl, Bool.eq_iff_iff, anchored_iff, anchored_iff]
  simp only [hr _]

theorem pyMatch_dollar {E : ReFlags} {text : Str} {l : List Pat} {names : List (Str × Nat)} {r : Re} {body : Str → Bool}
    (hp : parsePattern text = some (cat (.bos :: l ++ [.eos]), names)) (hl : (cat l).plain = true) (hr : Equiv ((cat l).toRe E) r)
    (hb : ∀ s, Matches r s ↔ body s = true) (s : Str) : (pyMatch E text s).isSome = dollar body s := by
  rw [pyMatch_anchored hp hl hr, anchored_dollar hb]

/-! ## Hexadecimal digits -/

def hexItems : List CItem := [.range '0' '9', .range 'a' 'f']

theorem hexItems_test (c : Char) : hexItems.any (·.test {} c) = isHexLower c := by
  simp [hexItems, CItem.test, isHexLower, isDigit09]

theorem upTo_set_iff (p : Char → Bool) (n : Nat) (u : Str) :
    Matches (Re.upTo (.set p) n) u ↔ u.length ≤ n ∧ ∀ c ∈ u, p c = true := by
  induction n generalizing u with
  | zero =>
    rw [Re.upTo, eps_iff]
    constructor
    · rintro rfl; simp
    · rintro ⟨h, -⟩; simpa using h
  | succ n ih =>
    rw [Re.upTo, alt_iff, eps_iff, seq_iff]
    constructor
    · rintro (rfl | ⟨s, t, rfl, h1, h2⟩)
      · simp
      · obtain ⟨c, rfl, hc⟩ := (set_iff _ _).1 h1
        obtain ⟨hl, ht⟩ := (ih t).1 h2
        refine ⟨by simp; omega, ?_⟩
        simpa [hc] using ht
    · rintro ⟨hl, h⟩
      cases u with
      | nil => exact .inl rfl
      | cons c cs =>
        simp only [List.length_cons] at hl
        exact .inr ⟨[c], cs, rfl, .set (h c (by simp)), (ih cs).2 ⟨by omega, fun d hd => h d (by simp [hd])⟩⟩

/-- `[0-9a-f]{…}` -/
def hexPat : Nat × Option Nat → Pat
  | (n, some m) => .times (cls hexItems) n (.upTo (cls hexItems) (m - n))
  | (n, none) => .times (cls hexItems) n (.star (cls hexItems))

def hexRe : Nat × Option Nat → Re
  | (n, some m) => .seq (rep (.set isHexLower) n) (Re.upTo (.set isHexLower) (m - n))
  | (n, none) => .seq (rep (.set isHexLower) n) (.star (.set isHexLower))

theorem hex_same (b : Nat × Option Nat) : Equiv ((hexPat b).toRe {}) (hexRe b) := by
  obtain ⟨n, m⟩ := b
  have h : Equiv ((cls hexItems).toRe {}) (.set isHexLower) := same_cls flag hexItems_test
  cases m with
  | none => exact equiv_times h (same_star h) n
  | some m => exact equiv_times h (equiv_upTo h _) n

theorem hex_iff (b : Nat × Option Nat) (hb : ∀ m, b.2 = some m → b.1 ≤ m) (s : Str) : Matches (hexRe b) s ↔ hexBody b s = true := by
  obtain ⟨n, m⟩ := b
  have split : ∀ k ≤ s.length, (∀ c ∈ s, isHexLower c = true) →
      (s.take k).length = k ∧ (∀ c ∈ s.take k, isHexLower c = true) ∧ ∀ c ∈ s.drop k, isHexLower c = true := fun k hk h =>
    ⟨by simp [hk], fun c hc => h c (List.mem_of_mem_take hc), fun c hc => h c (List.mem_of_mem_drop hc)⟩
  cases m with
  | none =>
    rw [hexRe, seq_iff]
    simp only [rep_set_iff, star_set_iff, hexBody, Bool.and_eq_true, List.all_eq_true, decide_eq_true_eq, and_true]
    constructor
    · rintro ⟨u, v, rfl, ⟨hl, hu⟩, hv⟩
      refine ⟨fun c hc => ?_, by simp [hl]⟩
      rcases List.mem_append.1 hc with hc | hc
      · exact hu c hc
      · exact hv c hc
    · rintro ⟨h, hl⟩
      obtain ⟨h1, h2, h3⟩ := split n hl h
      exact ⟨s.take n, s.drop n, (List.take_append_drop n s).symm, ⟨h1, h2⟩, h3⟩
  | some m =>
    have hm := hb m rfl
    rw [hexRe, seq_iff]
    simp only [rep_set_iff, upTo_set_iff, hexBody, Bool.and_eq_true, List.all_eq_true, decide_eq_true_eq]
    constructor
    · rintro ⟨u, v, rfl, ⟨hl, hu⟩, hv, hc⟩
      refine ⟨⟨fun c hc' => ?_, by simp [hl]⟩, by simp [hl]; omega⟩
      rcases List.mem_append.1 hc' with hc' | hc'
      · exact hu c hc'
      · exact hc c hc'
    · rintro ⟨⟨h, hl⟩, hl'⟩
      obtain ⟨h1, h2, h3⟩ := split n hl h
      exact ⟨s.take n, s.drop n, (List.take_append_drop n s).symm, ⟨h1, h2⟩, by simp; omega, h3⟩

/-- `{n}` without a comma. -/
theorem hex_exact (n : Nat) : Equiv ((cat [.times (cls hexItems) n .eps]).toRe {}) (hexRe (n, some n)) := by
  have := hex_same (n, some n)
  unfold hexPat at this
  dsimp only at this
  rw [Nat.sub_self] at this
  exact this

end Spdx.PatIds
