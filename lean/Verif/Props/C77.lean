import Verif.Lemmas.Strptime
/-
C77: a date is read exactly as Python's `strptime` reads it with the format written in the source.

Spec/Strptime says what `strptime` does with a format: which regular expression it makes of it, that the expression must match the whole text,
how the groups become numbers, and which numbers form a date.
-/
namespace Spdx.C77
open Spdx Spec Strp PatRun

private theorem date_of (y m d h mi s : Nat) : datetimeOf y m d h mi s =
    if DateTime.Valid { year := y, month := m, day := d, hour := h, minute := mi, second := s } then
      some { year := y, month := m, day := d, hour := h, minute := mi, second := s } else none := by
  simp [datetimeOf]

private theorem not_digit {c : Char} (h : isPyDigit c = false) : digitVal? c = none := by
  unfold isPyDigit at h
  cases hd : digitVal? c with
  | none => rfl
  | some n => rw [hd] at h; cases h

private theorem year_none {a b c d : Char} (h : (isPyDigit a && isPyDigit b && isPyDigit c && isPyDigit d) = false) :
    digitsVal? [a, b, c, d] = none := by
  simp only [digitsVal?, List.foldl, digitStep]
  rcases Bool.and_eq_false_iff.1 h with h | h
  · rcases Bool.and_eq_false_iff.1 h with h | h
    · rcases Bool.and_eq_false_iff.1 h with h | h
      · simp [not_digit h]
      · simp [not_digit h]
    · simp [not_digit h]
  · simp [not_digit h]

/-- The model's reader, field by field, with the texts of the fields. -/
private theorem reader_texts (s : Str) : datetimeFromStr s =
    (yearText s).bind fun y => (dtText m2 (isDig '1' '9') (· = '-') y.2).bind fun m =>
      (dtText d2 (isDig '1' '9') (fun c => c = 'T' || c = 't') m.2).bind fun d => (dtText H2 isPyDigit (· = ':') d.2).bind fun h =>
        (dtText M2 isPyDigit (· = ':') h.2).bind fun mi => (dtText S2 isPyDigit (fun c => c = 'Z' || c = 'z') mi.2).bind fun s =>
          (digitsVal? y.1).bind fun vy => (num m.1).bind fun vm => (num d.1).bind fun vd => (num h.1).bind fun vh => (num mi.1).bind fun vi =>
            (num s.1).bind fun vs =>
              if s.2 = [] ∧ DateTime.Valid { year := vy, month := vm, day := vd, hour := vh, minute := vi, second := vs } then
                some { year := vy, month := vm, day := vd, hour := vh, minute := vi, second := vs } else none := by
  have fm : ∀ r, monthField r = dtField m2 (isDig '1' '9') (· = '-') r := fun _ => rfl
  have fd : ∀ r, dayField r = dtField d2 (isDig '1' '9') (fun c => c = 'T' || c = 't') r := fun _ => rfl
  have fh : ∀ r, hourField r = dtField H2 isPyDigit (· = ':') r := fun _ => rfl
  have fi : ∀ r, minuteField r = dtField M2 isPyDigit (· = ':') r := fun _ => rfl
  have fs : ∀ r, secondField r = dtField S2 isPyDigit (fun c => c = 'Z' || c = 'z') r := fun _ => rfl
  unfold datetimeFromStr
  split
  · rename_i y1 y2 y3 y4 r
    simp only [yearText]
    by_cases hd : (isPyDigit y1 && isPyDigit y2 && isPyDigit y3 && isPyDigit y4) = true
    · rw [if_pos hd]
      simp only [fm, fd, fh, fi, fs, dtField_text, Option.bind_eq_bind, Option.bind_some]
      cases hy : digitsVal? [y1, y2, y3, y4] with
      | none =>
        cases dtText m2 (isDig '1' '9') (· = '-') r with
        | none => rfl
        | some m =>
        simp only [Option.bind_some]
        cases dtText d2 (isDig '1' '9') (fun c => c = 'T' || c = 't') m.2 with
        | none => rfl
        | some d =>
        simp only [Option.bind_some]
        cases dtText H2 isPyDigit (· = ':') d.2 with
        | none => rfl
        | some h =>
        simp only [Option.bind_some]
        cases dtText M2 isPyDigit (· = ':') h.2 with
        | none => rfl
        | some mi =>
        simp only [Option.bind_some]
        cases dtText S2 isPyDigit (fun c => c = 'Z' || c = 'z') mi.2 <;> rfl
      | some vy =>
      simp only [Option.bind_some]
      cases dtText m2 (isDig '1' '9') (· = '-') r with
      | none => rfl
      | some m =>
      simp only [Option.bind_some]
      cases num m.1 with
      | none =>
        simp only [Option.bind_none, Option.map_none]
        cases dtText d2 (isDig '1' '9') (fun c => c = 'T' || c = 't') m.2 with
        | none => rfl
        | some d =>
        simp only [Option.bind_some]
        cases dtText H2 isPyDigit (· = ':') d.2 with
        | none => rfl
        | some h =>
        simp only [Option.bind_some]
        cases dtText M2 isPyDigit (· = ':') h.2 with
        | none => rfl
        | some mi =>
        simp only [Option.bind_some]
        cases dtText S2 isPyDigit (fun c => c = 'Z' || c = 'z') mi.2 <;> rfl
      | some vm =>
      simp only [Option.bind_some, Option.map_some]
      cases dtText d2 (isDig '1' '9') (fun c => c = 'T' || c = 't') m.2 with
      | none => rfl
      | some d =>
      simp only [Option.bind_some]
      cases num d.1 with
      | none =>
        simp only [Option.bind_none, Option.map_none]
        cases dtText H2 isPyDigit (· = ':') d.2 with
        | none => rfl
        | some h =>
        simp only [Option.bind_some]
        cases dtText M2 isPyDigit (· = ':') h.2 with
        | none => rfl
        | some mi =>
        simp only [Option.bind_some]
        cases dtText S2 isPyDigit (fun c => c = 'Z' || c = 'z') mi.2 <;> rfl
      | some vd =>
      simp only [Option.bind_some, Option.map_some]
      cases dtText H2 isPyDigit (· = ':') d.2 with
      | none => rfl
      | some h =>
      simp only [Option.bind_some]
      cases num h.1 with
      | none =>
        simp only [Option.bind_none, Option.map_none]
        cases dtText M2 isPyDigit (· = ':') h.2 with
        | none => rfl
        | some mi =>
        simp only [Option.bind_some]
        cases dtText S2 isPyDigit (fun c => c = 'Z' || c = 'z') mi.2 <;> rfl
      | some vh =>
      simp only [Option.bind_some, Option.map_some]
      cases dtText M2 isPyDigit (· = ':') h.2 with
      | none => rfl
      | some mi =>
      simp only [Option.bind_some]
      cases num mi.1 with
      | none =>
        simp only [Option.bind_none, Option.map_none]
        cases dtText S2 isPyDigit (fun c => c = 'Z' || c = 'z') mi.2 <;> rfl
      | some vi =>
      simp only [Option.bind_some, Option.map_some]
      cases dtText S2 isPyDigit (fun c => c = 'Z' || c = 'z') mi.2 with
      | none => rfl
      | some x =>
      simp only [Option.bind_some]
      cases num x.1 <;> rfl
    · rw [if_neg hd, year_none (by simpa using hd)]
      rfl
  · rename_i hne
    have : yearText s = none := by
      unfold yearText
      split
      · rename_i y1 y2 y3 y4 r
        exact absurd rfl (hne y1 y2 y3 y4 r)
      · rfl
    rw [this]
    rfl

/-- `datetime_from_str`: the format of the source, read by `strptime`. -/
theorem dates (s : Str) : datetimeFromStr s = strptime s%"%Y-%m-%dT%H:%M:%SZ" s := by
  rw [reader_texts]
  unfold strptime
  rw [← Option.bind_assoc, whole_parsed, Option.bind_some]
  dsimp only
  rw [whole_first]
  cases hy : yearText s with
  | none => rfl
  | some y =>
  simp only [Option.bind_some]
  cases hm : dtText m2 (isDig '1' '9') (· = '-') y.2 with
  | none => rfl
  | some m =>
  simp only [Option.bind_some]
  cases hd : dtText d2 (isDig '1' '9') (fun c => c = 'T' || c = 't') m.2 with
  | none => rfl
  | some d =>
  simp only [Option.bind_some]
  cases hh : dtText H2 isPyDigit (· = ':') d.2 with
  | none => rfl
  | some h =>
  simp only [Option.bind_some]
  cases hi : dtText M2 isPyDigit (· = ':') h.2 with
  | none => rfl
  | some mi =>
  simp only [Option.bind_some]
  cases hs : dtText S2 isPyDigit (fun c => c = 'Z' || c = 'z') mi.2 with
  | none => rfl
  | some x =>
  simp only [Option.bind_some]
  have ey : pyIntText y.1 = (digitsVal? y.1).map (fun n : Nat => (n : Int)) := by
    unfold yearText at hy
    split at hy
    · split at hy
      · rename_i hd
        cases hy
        simp only [Bool.and_eq_true] at hd
        exact int_digits (by simp) (by simp [hd.1.1.1, hd.1.1.2, hd.1.2, hd.2])
      · cases hy
    · cases hy
  have em := int_num digits_m hm
  have ed := int_num digits_d hd
  have eh := int_num digits_H hh
  have ei := int_num digits_M hi
  have es := int_num digits_S hs
  by_cases hr : x.2 = []
  · rw [if_pos hr]
    simp only [hr, true_and]
    show _ = (pyIntText y.1).bind fun vy => (pyIntText m.1).bind fun vm => (pyIntText d.1).bind fun vd => (pyIntText h.1).bind fun vh =>
      (pyIntText mi.1).bind fun vi => (pyIntText x.1).bind fun vs => datetimeOf vy vm vd vh vi vs
    rw [ey, em, ed, eh, ei, es]
    simp only [Option.bind_map, Function.comp_def, date_of]
  · rw [if_neg hr]
    simp only [hr, false_and, if_false]
    cases digitsVal? y.1 <;> cases num m.1 <;> cases num d.1 <;> cases num h.1 <;> cases num mi.1 <;> cases num x.1 <;> rfl

/-- The regular expression that `strptime` makes of the format. -/
theorem pattern_text : timePattern s%"%Y-%m-%dT%H:%M:%SZ" = some
    s%r"(?P<Y>\d\d\d\d)-(?P<m>1[0-2]|0[1-9]|[1-9])-(?P<d>3[0-1]|[1-2]\d|0[1-9]|[1-9]| [1-9])T(?P<H>2[0-3]|[0-1]\d|\d):(?P<M>[0-5]\d|\d):(?P<S>6[0-1]|[0-5]\d|\d)Z" := by
  decide +kernel

-- A date as it is written, and the same one written carelessly: single digits, a space for a zero, small letters.
example : strptime s%"%Y-%m-%dT%H:%M:%SZ" s%"2024-02-05T03:04:09Z" =
    some { year := 2024, month := 2, day := 5, hour := 3, minute := 4, second := 9 } := by decide +kernel
example : datetimeFromStr s%"2024-2- 5t3:4:9z" = strptime s%"%Y-%m-%dT%H:%M:%SZ" s%"2024-02-05T03:04:09Z" := by decide +kernel
-- The pattern matches but there is no such date: 29 February 2023, a leap second.
example : (pyMatch { ignoreCase := true } ((timePattern s%"%Y-%m-%dT%H:%M:%SZ").getD []) s%"2023-02-29T03:04:09Z").isSome = true ∧
    datetimeFromStr s%"2023-02-29T03:04:09Z" = none := by decide +kernel
example : datetimeFromStr s%"2016-12-31T23:59:60Z" = none := by decide +kernel
-- The pattern matches a part of the text only.
example : (pyMatch { ignoreCase := true } ((timePattern s%"%Y-%m-%dT%H:%M:%SZ").getD []) s%"2024-02-05T03:04:09Z\n").isSome = true ∧
    datetimeFromStr s%"2024-02-05T03:04:09Z\n" = none := by decide +kernel

end Spdx.C77
