import Verif.Lemmas.Calendar
import Verif.Lemmas.Digits
import Verif.Spec.Calendar
/-
C03 – Timestamps survive writing and reading.
-/
namespace Spdx.C03
open Spdx

/-! ### Specification -/

/-- The instant of a datetime in whole seconds: calendar seconds minus the UTC offset (naive values count as UTC). -/
def instant (d : DateTime) : Int := d.localSeconds - d.tz.getD 0

/-- The form `YYYY-MM-DDThh:mm:ssZ`. -/
def SpdxTimestamp (s : Str) : Prop :=
  ∃ y1 y2 y3 y4 m1 m2 d1 d2 h1 h2 n1 n2 s1 s2 : Char,
    s = [y1, y2, y3, y4, '-', m1, m2, '-', d1, d2, 'T', h1, h2, ':', n1, n2, ':', s1, s2, 'Z'] ∧
    ∀ c ∈ [y1, y2, y3, y4, m1, m2, d1, d2, h1, h2, n1, n2, s1, s2], isDigit09 c = true

/-- The instants a `datetime` can represent in UTC: 0001-01-01T00:00:00 to 9999-12-31T23:59:59. -/
def Representable (t : Int) : Prop := 1 * 86400 ≤ t ∧ t < (3652059 + 1) * 86400

/-! ### Helper lemmas -/

private theorem fields_digits (n : Nat) (h : n < 100) : digitsVal? (fmt2 n) = some n := by
  simp only [fmt2, digitsVal?, digitStep, List.foldl_cons, List.foldl_nil, digitVal_digitChar _ (by omega : n / 10 < 10),
    digitVal_digitChar _ (by omega : n % 10 < 10)]
  congr 1; omega

private theorem year_digits (n : Nat) (h : n < 10000) : digitsVal? (fmt4 n) = some n := by
  simp only [fmt4, digitsVal?, digitStep, List.foldl_cons, List.foldl_nil, digitVal_digitChar _ (by omega : n / 1000 < 10),
    digitVal_digitChar _ (by omega : n / 100 % 10 < 10), digitVal_digitChar _ (by omega : n / 10 % 10 < 10),
    digitVal_digitChar _ (by omega : n % 10 < 10)]
  congr 1; omega

private theorem dtField_two (two : Char → Char → Bool) (one sep : Char → Bool) (n : Nat) (c : Char) (r : Str)
    (hn : n < 100) (h : two (digitChar (n / 10)) (digitChar (n % 10)) = true ∧ digitChar (n / 10) ≠ ' ')
    (hc : sep c = true) : dtField two one sep (fmt2 n ++ c :: r) = some (n, r) := by
  have hd := fields_digits n hn
  simp only [fmt2] at hd
  simp only [fmt2, List.cons_append, List.nil_append, dtField, h.1, hc, Bool.and_self, if_true, if_neg h.2, hd,
    Option.map_some]

private theorem month_read : ∀ n : Nat, n < 13 → 1 ≤ n → ∀ r, monthField (fmt2 n ++ '-' :: r) = some (n, r) := by
  have h : ∀ n : Nat, n < 13 → 1 ≤ n → ((digitChar (n / 10) = '1' && isDig '0' '2' (digitChar (n % 10)))
      || (digitChar (n / 10) = '0' && isDig '1' '9' (digitChar (n % 10)))) = true ∧ digitChar (n / 10) ≠ ' ' := by
    decide +kernel
  intro n hn h1 r
  exact dtField_two _ _ _ n _ r (by omega) (h n hn h1) rfl

private theorem day_read : ∀ n : Nat, n < 32 → 1 ≤ n → ∀ r, dayField (fmt2 n ++ 'T' :: r) = some (n, r) := by
  have h : ∀ n : Nat, n < 32 → 1 ≤ n → ((digitChar (n / 10) = '3' && isDig '0' '1' (digitChar (n % 10)))
      || (isDig '1' '2' (digitChar (n / 10)) && isPyDigit (digitChar (n % 10)))
      || (digitChar (n / 10) = '0' && isDig '1' '9' (digitChar (n % 10)))
      || (digitChar (n / 10) = ' ' && isDig '1' '9' (digitChar (n % 10)))) = true ∧ digitChar (n / 10) ≠ ' ' := by
    decide +kernel
  intro n hn h1 r
  exact dtField_two _ _ _ n _ r (by omega) (h n hn h1) rfl

private theorem hour_read : ∀ n : Nat, n < 24 → ∀ r, hourField (fmt2 n ++ ':' :: r) = some (n, r) := by
  have h : ∀ n : Nat, n < 24 → ((digitChar (n / 10) = '2' && isDig '0' '3' (digitChar (n % 10)))
      || (isDig '0' '1' (digitChar (n / 10)) && isPyDigit (digitChar (n % 10)))) = true ∧ digitChar (n / 10) ≠ ' ' := by
    decide +kernel
  intro n hn r
  exact dtField_two _ _ _ n _ r (by omega) (h n hn) rfl

private theorem sixty : ∀ n : Nat, n < 60 →
    (isDig '0' '5' (digitChar (n / 10)) && isPyDigit (digitChar (n % 10))) = true ∧ digitChar (n / 10) ≠ ' ' := by
  decide +kernel

private theorem minute_read (n : Nat) (hn : n < 60) (r : Str) : minuteField (fmt2 n ++ ':' :: r) = some (n, r) :=
  dtField_two _ _ _ n _ r (by omega) (sixty n hn) rfl

private theorem second_read (n : Nat) (hn : n < 60) (r : Str) : secondField (fmt2 n ++ 'Z' :: r) = some (n, r) :=
  dtField_two _ _ _ n _ r (by omega) ⟨by simp [sixty n hn], (sixty n hn).2⟩ rfl

private theorem dim_le : ∀ l : Bool, ∀ m : Nat, m ≤ 12 → daysInMonth l m ≤ 31 := by decide

private theorem read_iso (d : DateTime) (h : d.Valid) :
    datetimeFromStr (isoformat d ++ ['Z']) = some { d with micro := 0, tz := none } := by
  obtain ⟨h1, h2, h3, h4, h5, h6, h7, h8, h9, h10⟩ := h
  have h31 := dim_le (isLeap d.year) d.month h4
  have hy := year_digits d.year (by omega)
  simp only [fmt4] at hy
  have e : isoformat d ++ ['Z'] = digitChar (d.year / 1000) :: digitChar (d.year / 100 % 10) ::
      digitChar (d.year / 10 % 10) :: digitChar (d.year % 10) :: '-' :: (fmt2 d.month ++ '-' :: (fmt2 d.day ++ 'T' ::
      (fmt2 d.hour ++ ':' :: (fmt2 d.minute ++ ':' :: (fmt2 d.second ++ 'Z' :: []))))) := by
    simp [isoformat, fmt4]
  rw [e, datetimeFromStr]
  simp only [hy, month_read d.month (by omega) h3, day_read d.day (by omega) h5, hour_read d.hour h7,
    minute_read d.minute h8, second_read d.second h9, Option.bind_eq_bind, Option.bind_some]
  rw [if_pos ⟨trivial, h1, h2, h3, h4, h5, h6, h7, h8, h9, by simp⟩]

private theorem iso_form (d : DateTime) (h : d.Valid) : SpdxTimestamp (isoformat d ++ ['Z']) := by
  obtain ⟨h1, h2, h3, h4, h5, h6, h7, h8, h9, h10⟩ := h
  have h31 := dim_le (isLeap d.year) d.month h4
  refine ⟨_, _, _, _, _, _, _, _, _, _, _, _, _, _, by simp only [isoformat, fmt4, fmt2]; rfl, ?_⟩
  simp only [List.mem_cons, List.not_mem_nil, or_false]
  rintro c (rfl | rfl | rfl | rfl | rfl | rfl | rfl | rfl | rfl | rfl | rfl | rfl | rfl | rfl) <;>
    exact isDigit09_digitChar _ (by omega)

private theorem ofSeconds_ok (t : Int) (u : Nat) (hu : u < 1000000) (ht : Representable t) :
    ∃ d, DateTime.ofSeconds t u = some d ∧ d.Valid ∧ d.tz = none ∧ d.micro = u ∧ d.localSeconds = t := by
  unfold Representable at ht
  have hd : 1 ≤ t / 86400 ∧ t / 86400 ≤ 3652059 := by omega
  have ho := ordToYmd_ok (t / 86400).toNat (by omega) (by omega)
  have h0 : (((t % 86400).toNat : Nat) : Int) = t % 86400 := Int.toNat_of_nonneg (by omega)
  have h0' : (((t / 86400).toNat : Nat) : Int) = t / 86400 := Int.toNat_of_nonneg (by omega)
  refine ⟨{ year := (ordToYmd (t / 86400).toNat).1, month := (ordToYmd (t / 86400).toNat).2.1,
            day := (ordToYmd (t / 86400).toNat).2.2, hour := (t % 86400).toNat / 3600,
            minute := (t % 86400).toNat % 3600 / 60, second := (t % 86400).toNat % 60, micro := u },
    by simp only [DateTime.ofSeconds, hd, and_self, if_true], ?_, rfl, rfl, ?_⟩
  · exact ⟨ho.1, ho.2.1, ho.2.2.1, ho.2.2.2.1, ho.2.2.2.2.1, ho.2.2.2.2.2.1, by simp only []; omega,
      by simp only []; omega, by simp only []; omega, hu⟩
  · simp only [DateTime.localSeconds, ho.2.2.2.2.2.2, h0']
    omega

/-- Consecutive days have consecutive day numbers (within a month, across months, across years): the day number used in
    `instant` really counts calendar days. -/
theorem day_number_counts (y m d : Nat) (hy : 1 ≤ y) :
    ymdToOrd y m (d + 1) = ymdToOrd y m d + 1 ∧
    (1 ≤ m → ymdToOrd y (m + 1) 1 = ymdToOrd y m (daysInMonth (isLeap y) m) + 1) ∧
    ymdToOrd (y + 1) 1 1 = ymdToOrd y 12 31 + 1 ∧ ymdToOrd 1 1 1 = 1 := by
  refine ⟨by simp only [ymdToOrd]; omega, ?_, ?_, by decide⟩
  · intro hm
    obtain ⟨k, rfl⟩ : ∃ k, m = k + 1 := ⟨m - 1, by omega⟩
    simp [ymdToOrd, daysBeforeMonth]
    omega
  · have hb : daysBeforeMonth (isLeap (y + 1)) 1 = 0 := by cases isLeap (y + 1) <;> rfl
    have h12 : daysBeforeMonth (isLeap y) 12 = if isLeap y then 335 else 334 := by cases isLeap y <;> rfl
    obtain ⟨k, rfl⟩ : ∃ k, y = k + 1 := ⟨y - 1, by omega⟩
    simp only [ymdToOrd, hb, h12, daysBeforeYear, Nat.add_sub_cancel]
    have e4 : (k + 1) / 4 = k / 4 + (if (k + 1) % 4 = 0 then 1 else 0) := by split <;> omega
    have e100 : (k + 1) / 100 = k / 100 + (if (k + 1) % 100 = 0 then 1 else 0) := by split <;> omega
    have e400 : (k + 1) / 400 = k / 400 + (if (k + 1) % 400 = 0 then 1 else 0) := by split <;> omega
    have l1 : (k + 1) % 400 = 0 → (k + 1) % 100 = 0 := by omega
    have l2 : (k + 1) % 100 = 0 → (k + 1) % 4 = 0 := by omega
    have l3 : k / 100 ≤ k / 4 := by omega
    have hl : isLeap (k + 1) = true ↔ ((k + 1) % 4 = 0 ∧ ((k + 1) % 100 ≠ 0 ∨ (k + 1) % 400 = 0)) := by
      simp [isLeap]
    rw [e4, e100, e400]
    generalize k / 4 = p at *
    generalize k / 100 = q at *
    generalize k / 400 = r at *
    generalize (k + 1) % 4 = u at *
    generalize (k + 1) % 100 = v at *
    generalize (k + 1) % 400 = w at *
    by_cases h1 : u = 0 <;> by_cases h2 : v = 0 <;> by_cases h3 : w = 0 <;>
      simp_all <;> omega

/-! ### Theorems -/

/-- Writing a naive timestamp and reading the text gives the timestamp without its microseconds; the text has SPDX form. -/
theorem naive_roundtrip (d : DateTime) (hv : d.Valid) (ht : d.tz = none) :
    ∃ s, datetimeToIso d = some s ∧ SpdxTimestamp s ∧ datetimeFromStr s = some { d with micro := 0 } := by
  have hv' : ({ d with micro := 0 } : DateTime).Valid := by
    obtain ⟨h1, h2, h3, h4, h5, h6, h7, h8, h9, h10⟩ := hv
    exact ⟨h1, h2, h3, h4, h5, h6, h7, h8, h9, by simp⟩
  refine ⟨_, by simp only [datetimeToIso, toNaiveUtc, ht]; rfl, iso_form _ hv', ?_⟩
  rw [read_iso _ hv']
  simp [ht]

/-- Writing any timestamp and reading the text gives a naive UTC timestamp of the same second, whenever UTC can represent it. -/
theorem roundtrip (d : DateTime) (hv : d.Valid) (hr : Representable (instant d)) :
    ∃ s d', datetimeToIso d = some s ∧ SpdxTimestamp s ∧ datetimeFromStr s = some d' ∧
      d'.Valid ∧ d'.tz = none ∧ d'.micro = 0 ∧ instant d' = instant d := by
  cases ht : d.tz with
  | none =>
    obtain ⟨s, h1, h2, h3⟩ := naive_roundtrip d hv ht
    refine ⟨s, _, h1, h2, h3, ?_, ht, rfl, ?_⟩
    · obtain ⟨h1, h2, h3, h4, h5, h6, h7, h8, h9, h10⟩ := hv
      exact ⟨h1, h2, h3, h4, h5, h6, h7, h8, h9, by simp⟩
    · simp [instant, DateTime.localSeconds]
  | some off =>
    have hr' : Representable (d.localSeconds - off) := by simpa [instant, ht] using hr
    obtain ⟨d', h1, h2, h3, h4, h5⟩ := ofSeconds_ok _ d.micro hv.2.2.2.2.2.2.2.2.2 hr'
    obtain ⟨s, g1, g2, g3⟩ := naive_roundtrip d' h2 h3
    refine ⟨s, _, ?_, g2, g3, ?_, h3, rfl, ?_⟩
    · rw [← g1]; simp only [datetimeToIso, toNaiveUtc, ht, h1, h3]
    · obtain ⟨h1, h2, h3, h4, h5, h6, h7, h8, h9, h10⟩ := h2
      exact ⟨h1, h2, h3, h4, h5, h6, h7, h8, h9, by simp⟩
    · have : instant { d' with micro := 0 } = d'.localSeconds := by simp [instant, h3, DateTime.localSeconds]
      rw [this, h5]; simp [instant, ht]

/-- Outside that range, writing an aware timestamp fails (`OverflowError`). -/
theorem overflow (d : DateTime) (off : Int) (ht : d.tz = some off) (hr : ¬ Representable (instant d)) :
    datetimeToIso d = none := by
  have hr' : ¬ Representable (d.localSeconds - off) := by simpa [instant, ht] using hr
  unfold Representable at hr'
  simp only [datetimeToIso, toNaiveUtc, ht, DateTime.ofSeconds]
  rw [if_neg (by omega)]
  rfl

/-- Two timestamps get the same text only if they denote the same second. -/
theorem same_text_same_second (a b : DateTime) (ha : a.Valid) (hb : b.Valid) (hra : Representable (instant a))
    (hrb : Representable (instant b)) (h : datetimeToIso a = datetimeToIso b) : instant a = instant b := by
  obtain ⟨s, a', h1, -, h2, -, -, -, h3⟩ := roundtrip a ha hra
  obtain ⟨s', b', g1, -, g2, -, -, -, g3⟩ := roundtrip b hb hrb
  have : s = s' := by simpa [h1, g1] using h
  subst this
  have : a' = b' := by simpa [h2] using g2
  subst this
  omega

/-- Whatever text is accepted, the result is a valid naive timestamp without microseconds; other texts are rejected. -/
theorem read_valid (s : Str) (d : DateTime) (h : datetimeFromStr s = some d) : d.Valid ∧ d.tz = none ∧ d.micro = 0 := by
  unfold datetimeFromStr at h
  split at h
  · simp only [Option.bind_eq_bind, Option.bind_eq_some_iff] at h
    obtain ⟨_, -, _, -, _, -, _, -, _, -, _, -, h⟩ := h
    split at h
    · rename_i hh; simp only [Option.some.injEq] at h; subst h; exact ⟨hh.2, rfl, rfl⟩
    · simp at h
  · simp at h

private theorem leap_year (y : Nat) : isLeap y = true ↔ Spec.LeapYear y := by
  unfold isLeap Spec.LeapYear
  split <;> simp only [Bool.and_eq_true, Bool.or_eq_true, decide_eq_true_eq, ne_eq] <;> omega

private theorem month_days (y m : Nat) (h1 : 1 ≤ m) (h2 : m ≤ 12) : daysInMonth (isLeap y) m = Spec.monthLength y m := by
  have table : ∀ l : Bool, ∀ m : Nat, m ≤ 12 → 1 ≤ m →
      daysInMonth l m = if m = 2 then (if l then 29 else 28) else if m = 4 ∨ m = 6 ∨ m = 9 ∨ m = 11 then 30 else 31 := by decide
  rw [table _ _ h2 h1, Spec.monthLength]
  simp only [leap_year]

/-- The timestamps that the reader gives are those on the calendar, and each of them can be read: the text written for it is read as it. -/
theorem on_calendar (d : DateTime) : (∃ s, datetimeFromStr s = some d) ↔ Spec.OnCalendar d ∧ d.tz = none ∧ d.micro = 0 := by
  have valid : d.Valid ↔ Spec.OnCalendar d := by
    constructor
    · rintro ⟨h1, h2, h3, h4, h5, h6, h⟩
      exact ⟨⟨h1, h2⟩, ⟨h3, h4⟩, ⟨h5, by rw [← month_days _ _ h3 h4]; exact h6⟩, h⟩
    · rintro ⟨⟨h1, h2⟩, ⟨h3, h4⟩, ⟨h5, h6⟩, h⟩
      exact ⟨h1, h2, h3, h4, h5, by rw [month_days _ _ h3 h4]; exact h6, h⟩
  rw [← valid]
  constructor
  · rintro ⟨s, h⟩
    exact read_valid s d h
  · rintro ⟨h, ht, hm⟩
    obtain ⟨s, _, _, hs⟩ := naive_roundtrip d h ht
    refine ⟨s, ?_⟩
    rw [hs, ← hm]

example : datetimeFromStr s%"2024-02-29T00:00:00Z" ≠ none ∧ datetimeFromStr s%"2023-02-29T00:00:00Z" = none ∧
    datetimeFromStr s%"2023-08-31T00:00:00Z" ≠ none ∧ datetimeFromStr s%"2023-09-31T00:00:00Z" = none := by decide +kernel

/-! Non-vacuity: an aware timestamp whose UTC date is in the next year. -/
def sample : DateTime :=
  { year := 2023, month := 12, day := 31, hour := 23, minute := 30, second := 5, micro := 7, tz := some (-5400) }
example : sample.Valid ∧ Representable (instant sample) := by unfold Representable; decide +kernel
example : datetimeToIso sample = some s%"2024-01-01T01:00:05Z" := by decide +kernel

end Spdx.C03
