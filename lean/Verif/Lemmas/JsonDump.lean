import Verif.Lemmas.JsonScan
import Verif.Lemmas.Digits
/- The text that `dumpJson` writes is derivable in the grammar. -/
namespace Spdx
open Spec.JsonGrammar

mutual
/-- The tree as the decoder delivers it. -/
def Json.raw : Json → Raw
  | .null => .null
  | .bool b => .bool b
  | .num i => .num i
  | .str s => .str (s.map Char.toNat)
  | .arr l => .arr (Json.rawList l)
  | .obj l => .obj (Json.rawMembers l)
def Json.rawList : List Json → List Raw
  | [] => []
  | j :: l => j.raw :: Json.rawList l
def Json.rawMembers : List (Str × Json) → List (List Nat × Raw)
  | [] => []
  | (k, j) :: l => (k.map Char.toNat, j.raw) :: Json.rawMembers l
end

theorem codePoints_map (s : Str) : codePoints (s.map Char.toNat) = some s := by
  induction s with
  | nil => rfl
  | cons c s ih =>
    rw [List.map_cons, codePoints, if_pos (show c.toNat.isValidChar from c.valid), ih]
    simp [Char.ofNat_toNat]

mutual
theorem toJson_raw (j : Json) : j.raw.toJson = some j := by
  match j with
  | .null => rfl
  | .bool b => rfl
  | .num i => rfl
  | .str s => rw [Json.raw, Raw.toJson, codePoints_map]; rfl
  | .arr l => rw [Json.raw, Raw.toJson, listToJson_raw l]; rfl
  | .obj l => rw [Json.raw, Raw.toJson, membersToJson_raw l]; rfl
theorem listToJson_raw (l : List Json) : Raw.listToJson (Json.rawList l) = some l := by
  match l with
  | [] => rfl
  | j :: l => rw [Json.rawList, Raw.listToJson, toJson_raw j, listToJson_raw l]; rfl
theorem membersToJson_raw (l : List (Str × Json)) : Raw.membersToJson (Json.rawMembers l) = some l := by
  match l with
  | [] => rfl
  | (k, j) :: l => rw [Json.rawMembers, Raw.membersToJson, codePoints_map, toJson_raw j, membersToJson_raw l]; rfl
end

/-! ### Numbers -/

private theorem digit_cases (d : Nat) (h : d < 10) : (digitChar d, d) ∈
    [('0', 0), ('1', 1), ('2', 2), ('3', 3), ('4', 4), ('5', 5), ('6', 6), ('7', 7), ('8', 8), ('9', 9)] ∧
    (0 < d → digitChar d ≠ '0') ∧ isJsonDigit (digitChar d) = true := by
  have : ∀ d, d < 10 → (digitChar d, d) ∈
    [('0', 0), ('1', 1), ('2', 2), ('3', 3), ('4', 4), ('5', 5), ('6', 6), ('7', 7), ('8', 8), ('9', 9)] ∧
    (0 < d → digitChar d ≠ '0') ∧ isJsonDigit (digitChar d) = true := by decide
  exact this d h

theorem natStr_denotes (n : Nat) : Denotes (natStr n) n := by
  induction n using Nat.strongRecOn with
  | _ n ih =>
    rw [natStr]
    split
    · rename_i h
      have := Denotes.snoc (s := []) (n := 0) _ _ .nil (digit_cases n h).1
      simpa using this
    · rename_i h
      have := Denotes.snoc _ _ (ih (n / 10) (by omega)) (digit_cases (n % 10) (by omega)).1
      rwa [Nat.div_add_mod] at this

theorem natStr_all (n : Nat) : ∀ c ∈ natStr n, isJsonDigit c = true := by
  induction n using Nat.strongRecOn with
  | _ n ih =>
    rw [natStr]
    split
    · rename_i h
      intro c hc
      rw [List.mem_singleton.1 hc]
      exact (digit_cases n h).2.2
    · rename_i h
      intro c hc
      rcases List.mem_append.1 hc with hc | hc
      · exact ih _ (by omega) c hc
      · rw [List.mem_singleton.1 hc]
        exact (digit_cases _ (by omega)).2.2

theorem natStr_head (n : Nat) (hn : 0 < n) : (natStr n).head? ≠ some '0' := by
  induction n using Nat.strongRecOn with
  | _ n ih =>
    rw [natStr]
    split
    · rename_i h
      intro e
      exact (digit_cases n h).2.1 hn (Option.some.inj e)
    · rename_i h
      have h1 := ih (n / 10) (by omega) (by omega)
      have h2 := natStr_ne_nil (n / 10)
      cases hs : natStr (n / 10) with
      | nil => exact absurd hs h2
      | cons c t => rw [hs] at h1; exact h1

theorem natStr_int (n : Nat) : IntPart (natStr n) := by
  refine ⟨(digits_iff _).2 ⟨natStr_ne_nil n, natStr_all n⟩, ?_⟩
  by_cases hn : 0 < n
  · exact .inr (natStr_head n hn)
  · have : n = 0 := by omega
    subst this
    left; decide +kernel

theorem intStr_whole (i : Int) : WholeNumber i (intStr i) := by
  cases i with
  | ofNat n => exact .pos (natStr_int n) (natStr_denotes n)
  | negSucc n => exact .neg (natStr_int (n + 1)) (natStr_denotes (n + 1))

/-! ### Strings -/

private theorem hexDigit_mem (n : Nat) : (hexDigit (n % 16), n % 16) ∈ hexDigits := by
  have : ∀ d, d < 16 → (hexDigit d, d) ∈ hexDigits := by decide +kernel
  exact this _ (Nat.mod_lt _ (by decide))

theorem uEscape_chars {n : Nat} (hn : n < 65536) {us : List Nat} {t : Str} (h : Chars us t) : Chars (n :: us) (uEscape n ++ t) := by
  have := Chars.unit _ _ _ _ _ _ _ _ (hexDigit_mem (n / 4096)) (hexDigit_mem (n / 256)) (hexDigit_mem (n / 16)) (hexDigit_mem n) h
  have e : ((n / 4096 % 16 * 16 + n / 256 % 16) * 16 + n / 16 % 16) * 16 + n % 16 = n := by omega
  rw [e] at this
  exact this

/-- The UTF-16 units of a character. -/
def utf16 (c : Char) : List Nat :=
  if c.toNat < 65536 then [c.toNat] else [55296 + (c.toNat - 65536) / 1024, 56320 + (c.toNat - 65536) % 1024]

theorem char_lt (c : Char) : c.toNat < 1114112 := by
  rcases c.valid with h | ⟨_, h⟩
  · have : c.toNat < 55296 := h
    omega
  · exact h

theorem escapeChar_chars (c : Char) {us : List Nat} {t : Str} (h : Chars us t) : Chars (utf16 c ++ us) (escapeChar c ++ t) := by
  unfold escapeChar
  repeat' split
  · rename_i hc; subst hc; exact .letter _ _ (by decide) h
  · rename_i hc; subst hc; exact .letter _ _ (by decide) h
  · rename_i hc; subst hc; exact .letter _ _ (by decide) h
  · rename_i hc; subst hc; exact .letter _ _ (by decide) h
  · rename_i hc; subst hc; exact .letter _ _ (by decide) h
  · rename_i hc; subst hc; exact .letter _ _ (by decide) h
  · rename_i hc; subst hc; exact .letter _ _ (by decide) h
  · rename_i h1 h2 _ _ _ _ _ h3
    rw [utf16, if_pos (by omega)]
    exact .plain c h3.1 h2 h1 h
  · rename_i h4
    rw [utf16, if_pos h4]
    exact uEscape_chars h4 h
  · rename_i h4
    have := char_lt c
    rw [utf16, if_neg h4, List.append_assoc]
    exact uEscape_chars (by omega) (uEscape_chars (by omega) h)

theorem joined_utf16 (c : Char) (us : List Nat) : joined (utf16 c ++ us) = c.toNat :: joined us := by
  unfold utf16
  split
  · refine joined_single (.inl ?_)
    cases hx : isHigh c.toNat with
    | false => rfl
    | true =>
    simp [isHigh] at hx
    exact absurd ⟨hx.1, by omega⟩ (char_not_surrogate c)
  · rename_i h
    have := char_lt c
    have h1 : isHigh (55296 + (c.toNat - 65536) / 1024) = true := by simp [isHigh]; omega
    have h2 : isLow (56320 + (c.toNat - 65536) % 1024) = true := by simp [isLow]; omega
    show joined (_ :: _ :: us) = _
    rw [joined_pair h1 h2]
    have e : joinSurrogates (55296 + (c.toNat - 65536) / 1024) (56320 + (c.toNat - 65536) % 1024) = c.toNat := by
      unfold joinSurrogates
      omega
    rw [e]

theorem quoteJson_text (s : Str) : StringText (s.map Char.toNat) (quoteJson s) := by
  refine ⟨s.flatMap utf16, s.flatMap escapeChar, ?_, ?_, rfl⟩
  · induction s with
    | nil => exact .nil
    | cons c s ih => rw [List.flatMap_cons, List.flatMap_cons]; exact escapeChar_chars c ih
  · induction s with
    | nil => rfl
    | cons c s ih => rw [List.flatMap_cons, joined_utf16, List.map_cons, ih]

/-! ### Values -/

theorem newlineIndent_ws (w l : Nat) : Ws (newlineIndent w l) := by
  intro c hc
  rcases List.mem_cons.1 hc with rfl | hc
  · simp
  · rw [List.eq_of_mem_replicate hc]; simp

theorem space_ws : Ws [' '] := by intro c hc; rw [List.mem_singleton.1 hc]; simp

theorem nil_ws : Ws [] := fun _ h => nomatch h

mutual
theorem dump_value (w lvl : Nat) (j : Json) : Value j.raw (dumpJson w lvl j) := by
  match j with
  | .null => exact .null
  | .bool true => exact .true
  | .bool false => exact .false
  | .num i => exact .whole (intStr_whole i)
  | .str s => exact .string (quoteJson_text s)
  | .arr [] => exact .emptyArray nil_ws
  | .arr (j :: l) =>
    have := dump_items w (lvl + 1) l (newlineIndent_ws w (lvl + 1)) (dump_value w (lvl + 1) j) (newlineIndent_ws w lvl)
    have := Value.array this
    rw [dumpJson, Json.raw, Json.rawList]
    simp only [List.append_assoc] at this ⊢
    exact this
  | .obj [] => exact .emptyObject nil_ws
  | .obj ((k, j) :: l) =>
    have := dump_members w (lvl + 1) l (newlineIndent_ws w (lvl + 1)) (quoteJson_text k) (dump_value w (lvl + 1) j) (newlineIndent_ws w lvl)
    have := Value.object this
    rw [dumpJson, Json.raw, Json.rawMembers]
    simp only [List.append_assoc, List.cons_append, List.nil_append] at this ⊢
    exact this
theorem dump_items (w lvl : Nat) (l : List Json) {v : Raw} {w₁ t w₂ : Str} (h1 : Ws w₁) (hv : Value v t) (h2 : Ws w₂) :
    Elements (v :: Json.rawList l) (w₁ ++ (t ++ (dumpItems w lvl l ++ w₂))) := by
  match l with
  | [] => exact .one h1 hv h2
  | j :: l =>
    have := dump_items w lvl l (newlineIndent_ws w lvl) (dump_value w lvl j) h2
    have := Elements.cons h1 hv nil_ws this
    rw [dumpItems, Json.rawList]
    simp only [List.append_assoc, List.cons_append, List.nil_append] at this ⊢
    exact this
theorem dump_members (w lvl : Nat) (l : List (Str × Json)) {k : List Nat} {n : Str} {v : Raw} {w₁ t w₂ : Str} (h1 : Ws w₁) (hk : StringText k n)
    (hv : Value v t) (h2 : Ws w₂) : Members ((k, v) :: Json.rawMembers l) (w₁ ++ (n ++ ([] ++ ':' :: ([' '] ++ (t ++ (dumpMembers w lvl l ++ w₂)))))) := by
  match l with
  | [] => exact .one h1 hk nil_ws space_ws hv h2
  | (k', j) :: l =>
    have := dump_members w lvl l (newlineIndent_ws w lvl) (quoteJson_text k') (dump_value w lvl j) h2
    have := Members.cons h1 hk nil_ws space_ws hv nil_ws this
    rw [dumpMembers, Json.rawMembers]
    simp only [List.append_assoc, List.cons_append, List.nil_append] at this ⊢
    exact this
end

/-! ### Only ASCII -/

/-- A printable ASCII character or a line feed. -/
def Printable (c : Char) : Prop := c = '\n' ∨ (32 ≤ c.toNat ∧ c.toNat ≤ 126)

instance (c : Char) : Decidable (Printable c) := by unfold Printable; infer_instance

private theorem hexDigit_printable (n : Nat) : Printable (hexDigit (n % 16)) := by
  have : ∀ d, d < 16 → Printable (hexDigit d) := by decide +kernel
  exact this _ (Nat.mod_lt _ (by decide))

private theorem uEscape_printable (n : Nat) : ∀ c ∈ uEscape n, Printable c := by
  intro c hc
  simp only [uEscape, List.mem_cons, List.not_mem_nil, or_false] at hc
  rcases hc with rfl | rfl | rfl | rfl | rfl | rfl
  · decide
  · decide
  all_goals exact hexDigit_printable _

private theorem escapeChar_printable (c : Char) : ∀ d ∈ escapeChar c, Printable d := by
  unfold escapeChar
  repeat' split
  all_goals first
    | exact uEscape_printable _
    | (intro d hd; simp only [List.mem_cons, List.not_mem_nil, or_false] at hd
       first
       | (rcases hd with rfl | rfl <;> decide)
       | (rename_i h; rw [hd]; exact .inr h))
    | (intro d hd
       rcases List.mem_append.1 hd with hd | hd
       · exact uEscape_printable _ d hd
       · exact uEscape_printable _ d hd)

private theorem quote_printable (s : Str) : ∀ c ∈ quoteJson s, Printable c := by
  intro c hc
  rcases List.mem_cons.1 hc with rfl | hc
  · decide
  · rcases List.mem_append.1 hc with hc | hc
    · obtain ⟨d, _, hd⟩ := List.mem_flatMap.1 hc
      exact escapeChar_printable d c hd
    · rw [List.mem_singleton.1 hc]; decide

private theorem newline_printable (w l : Nat) : ∀ c ∈ newlineIndent w l, Printable c := by
  intro c hc
  rcases List.mem_cons.1 hc with rfl | hc
  · decide
  · rw [List.eq_of_mem_replicate hc]; decide

private theorem natStr_printable (n : Nat) : ∀ c ∈ natStr n, Printable c := by
  intro c hc
  have := natStr_all n c hc
  simp [isJsonDigit] at this
  exact .inr ⟨by omega, by omega⟩

mutual
theorem dump_printable (w lvl : Nat) (j : Json) : ∀ c ∈ dumpJson w lvl j, Printable c := by
  match j with
  | .null => rw [dumpJson]; decide
  | .bool true => rw [dumpJson]; decide
  | .bool false => rw [dumpJson]; decide
  | .num (.ofNat n) => exact natStr_printable n
  | .num (.negSucc n) =>
    intro c hc
    rcases List.mem_cons.1 hc with rfl | hc
    · decide
    · exact natStr_printable _ c hc
  | .str s => exact quote_printable s
  | .arr [] => rw [dumpJson]; decide
  | .arr (j :: l) =>
    intro c hc
    simp only [dumpJson, List.mem_cons, List.mem_append, List.not_mem_nil, or_false] at hc
    rcases hc with rfl | ((((hc | hc) | hc) | hc) | rfl)
    · decide
    · exact newline_printable _ _ c hc
    · exact dump_printable w _ j c hc
    · exact items_printable w _ l c hc
    · exact newline_printable _ _ c hc
    · decide
  | .obj [] => rw [dumpJson]; decide
  | .obj ((k, j) :: l) =>
    intro c hc
    simp only [dumpJson, List.mem_cons, List.mem_append, List.not_mem_nil, or_false] at hc
    rcases hc with rfl | ((((((hc | hc) | rfl | rfl) | hc) | hc) | hc) | rfl)
    · decide
    · exact newline_printable _ _ c hc
    · exact quote_printable k c hc
    · decide
    · decide
    · exact dump_printable w _ j c hc
    · exact members_printable w _ l c hc
    · exact newline_printable _ _ c hc
    · decide
theorem items_printable (w lvl : Nat) (l : List Json) : ∀ c ∈ dumpItems w lvl l, Printable c := by
  match l with
  | [] => intro c hc; cases hc
  | j :: l =>
    intro c hc
    simp only [dumpItems, List.mem_cons, List.mem_append] at hc
    rcases hc with rfl | ((hc | hc) | hc)
    · decide
    · exact newline_printable _ _ c hc
    · exact dump_printable w _ j c hc
    · exact items_printable w _ l c hc
theorem members_printable (w lvl : Nat) (l : List (Str × Json)) : ∀ c ∈ dumpMembers w lvl l, Printable c := by
  match l with
  | [] => intro c hc; cases hc
  | (k, j) :: l =>
    intro c hc
    simp only [dumpMembers, List.mem_cons, List.mem_append, List.not_mem_nil, or_false] at hc
    rcases hc with rfl | ((((hc | hc) | rfl | rfl) | hc) | hc)
    · decide
    · exact newline_printable _ _ c hc
    · exact quote_printable k c hc
    · decide
    · decide
    · exact dump_printable w _ j c hc
    · exact members_printable w _ l c hc
end

end Spdx
