import Verif.Lemmas.JsonStrings
/- The scanner of values against the grammar: what it accepts (`scan_sound`) and that it accepts everything (`scan_complete`). -/
namespace Spdx
open Spec.JsonGrammar

theorem scanWord_none {w s : Str} (h : ∀ c d, w.head? = some c → s.head? = some d → c ≠ d) (hw : w ≠ []) : scanWord w s = none := by
  unfold scanWord
  rw [if_neg]
  rintro ⟨r, rfl⟩
  cases w with
  | nil => exact hw rfl
  | cons c w => exact h c c rfl rfl rfl

theorem scanWord_some {w s r : Str} (h : scanWord w s = some r) : s = w ++ r := by
  unfold scanWord at h
  split at h
  · rename_i hp
    obtain ⟨t, rfl⟩ := hp
    cases h
    rw [List.drop_left]
  · cases h

theorem scanWord_append (w r : Str) : scanWord w (w ++ r) = some r := by
  unfold scanWord
  rw [if_pos (List.prefix_append ..), List.drop_left]

/-- What may follow a value: nothing, white space or a delimiter. -/
def Follows (r : Str) : Prop := ∀ c, r.head? = some c → c ∈ [' ', '\t', '\n', '\r', ',', ']', '}']

theorem Follows.stops {r : Str} (h : Follows r) : Stops r := by
  intro c hc
  have all : ∀ c ∈ [' ', '\t', '\n', '\r', ',', ']', '}'], isJsonDigit c = false ∧ c ≠ '.' ∧ c ≠ 'e' ∧ c ≠ 'E' := by decide
  exact all c (h c hc)

theorem follows_ws {w r : Str} (hw : Ws w) (h : Follows r) : Follows (w ++ r) := by
  intro c hc
  cases w with
  | nil => exact h c hc
  | cons d w =>
    cases hc
    rcases hw c (List.mem_cons_self ..) with rfl | rfl | rfl | rfl <;> decide

theorem follows_cons {c : Char} {r : Str} (h : c ∈ [' ', '\t', '\n', '\r', ',', ']', '}']) : Follows (c :: r) := by
  intro d hd; cases hd; exact h

/-- The first character of a value. -/
theorem value_head {v : Raw} {t : Str} (h : Value v t) : ∃ c t', t = c :: t' ∧ isJsonSpace c = false ∧ c ≠ ']' := by
  have digit : ∀ c, isJsonDigit c = true → isJsonSpace c = false ∧ c ≠ ']' := by
    intro c hc
    have : c.toNat < 128 := by simp [isJsonDigit] at hc; omega
    exact char_below (P := fun c => isJsonDigit c = true → isJsonSpace c = false ∧ c ≠ ']') 128 (by decide +kernel) c this hc
  have int : ∀ i : Str, IntPart i → ∃ c t', i = c :: t' ∧ isJsonSpace c = false ∧ c ≠ ']' := by
    intro i hi
    obtain ⟨h1, h2⟩ := (digits_iff _).1 hi.1
    cases i with
    | nil => exact absurd rfl h1
    | cons c i => exact ⟨c, i, rfl, digit c (h2 c (List.mem_cons_self ..))⟩
  cases h with
  | null => exact ⟨_, _, rfl, by decide, by decide⟩
  | true => exact ⟨_, _, rfl, by decide, by decide⟩
  | false => exact ⟨_, _, rfl, by decide, by decide⟩
  | whole h =>
    cases h with
    | pos h _ => exact int _ h
    | neg h _ => exact ⟨_, _, rfl, by decide, by decide⟩
  | float h =>
    rcases h with h | ⟨minus, i, f, e, rfl, hm, hi, _⟩
    · simp only [List.mem_cons, List.not_mem_nil, or_false] at h
      rcases h with rfl | rfl | rfl <;> exact ⟨_, _, rfl, by decide, by decide⟩
    · rcases hm with rfl | rfl
      · obtain ⟨c, t', rfl, h⟩ := int i hi
        exact ⟨c, t' ++ f ++ e, by simp, h⟩
      · exact ⟨'-', i ++ f ++ e, by simp, by decide, by decide⟩
  | string h => obtain ⟨us, body, _, _, rfl⟩ := h; exact ⟨_, _, rfl, by decide, by decide⟩
  | emptyArray => exact ⟨_, _, rfl, by decide, by decide⟩
  | array => exact ⟨_, _, rfl, by decide, by decide⟩
  | emptyObject => exact ⟨_, _, rfl, by decide, by decide⟩
  | object => exact ⟨_, _, rfl, by decide, by decide⟩

theorem scanNumber_sound {s r : Str} {v : Raw} (h : scanNumber s = some (v, r)) : ∃ t, Value v t ∧ s = t ++ r := by
  have conv : ∀ {v t}, NumberValue v t → Value v t := by
    rintro v t (⟨i, rfl, h⟩ | ⟨rfl, h⟩)
    · exact .whole h
    · exact .float (.inr h)
  unfold scanNumber at h
  split at h
  · obtain ⟨t, h1, rfl⟩ := scanUnsigned_sound h
    exact ⟨'-' :: t, conv h1, rfl⟩
  · obtain ⟨t, h1, rfl⟩ := scanUnsigned_sound h
    exact ⟨t, conv h1, rfl⟩

/-! ### What the scanner accepts is derivable -/

theorem ws_append {w w' : Str} (h : Ws w) (h' : Ws w') : Ws (w ++ w') := by
  intro c hc
  rcases List.mem_append.1 hc with hc | hc
  · exact h c hc
  · exact h' c hc

theorem elements_ws {w t : Str} {l : List Raw} (hw : Ws w) (h : Elements l t) : Elements l (w ++ t) := by
  cases h with
  | one k1 k2 k3 => rw [← List.append_assoc]; exact .one (ws_append hw k1) k2 k3
  | cons k1 k2 k3 k4 => rw [← List.append_assoc]; exact .cons (ws_append hw k1) k2 k3 k4

theorem members_ws {w t : Str} {l : List (List Nat × Raw)} (hw : Ws w) (h : Members l t) : Members l (w ++ t) := by
  cases h with
  | one k1 k2 k3 k4 k5 k6 => rw [← List.append_assoc]; exact .one (ws_append hw k1) k2 k3 k4 k5 k6
  | cons k1 k2 k3 k4 k5 k6 k7 => rw [← List.append_assoc]; exact .cons (ws_append hw k1) k2 k3 k4 k5 k6 k7

theorem scan_sound (f : Nat) :
    (∀ s r v, scanValue f s = some (v, r) → ∃ t, Value v t ∧ s = t ++ r) ∧
    (∀ s r l, scanElements f s = some (l, r) → ∃ t, Elements l t ∧ s = t ++ ']' :: r) ∧
    (∀ s r l, scanMembers f s = some (l, r) → ∃ t, Members l t ∧ s = t ++ '}' :: r) := by
  induction f with
  | zero =>
    refine ⟨?_, ?_, ?_⟩
    · intro s r v h; rw [scanValue] at h; cases h
    · intro s r v h; rw [scanElements] at h; cases h
    · intro s r v h; rw [scanMembers] at h; cases h
  | succ f ih =>
    obtain ⟨ih1, ih2, ih3⟩ := ih
    refine ⟨?_, ?_, ?_⟩
    · intro s r v h
      rw [scanValue.eq_def] at h
      dsimp only at h
      split at h
      · cases h
      · rename_i r'
        simp only [bind, Option.bind, pure] at h
        cases hs : scanString (r'.length + 1) r' with
        | none => rw [hs] at h; cases h
        | some p =>
        rw [hs] at h
        cases h
        obtain ⟨us, body, h1, h2, h3⟩ := scanString_sound _ _ _ _ hs
        exact ⟨'"' :: (body ++ ['"']), .string ⟨us, body, h1, h2, rfl⟩, by rw [h3]; simp⟩
      · rename_i r'
        obtain ⟨w, hw, hr⟩ := skip_split r'
        split at h
        · rename_i r2 hs
          cases h
          exact ⟨'{' :: (w ++ ['}']), .emptyObject hw, by rw [hr, hs]; simp⟩
        · simp only [bind, Option.bind, pure] at h
          cases hs : scanMembers f (skipJsonSpace r') with
          | none => rw [hs] at h; cases h
          | some p =>
          rw [hs] at h
          cases h
          obtain ⟨t, h1, h2⟩ := ih3 _ _ _ hs
          have hm : Members p.1 (w ++ t) := members_ws hw h1
          exact ⟨'{' :: ((w ++ t) ++ ['}']), .object hm, by rw [hr, h2]; simp⟩
      · rename_i r'
        obtain ⟨w, hw, hr⟩ := skip_split r'
        split at h
        · rename_i r2 hs
          cases h
          exact ⟨'[' :: (w ++ [']']), .emptyArray hw, by rw [hr, hs]; simp⟩
        · simp only [bind, Option.bind, pure] at h
          cases hs : scanElements f (skipJsonSpace r') with
          | none => rw [hs] at h; cases h
          | some p =>
          rw [hs] at h
          cases h
          obtain ⟨t, h1, h2⟩ := ih2 _ _ _ hs
          have hm : Elements p.1 (w ++ t) := elements_ws hw h1
          exact ⟨'[' :: ((w ++ t) ++ [']']), .array hm, by rw [hr, h2]; simp⟩
      · split at h
        · rename_i hw; cases h; exact ⟨_, .null, scanWord_some hw⟩
        · split at h
          · rename_i hw; cases h; exact ⟨_, .true, scanWord_some hw⟩
          · split at h
            · rename_i hw; cases h; exact ⟨_, .false, scanWord_some hw⟩
            · split at h
              · rename_i hw; cases h; exact ⟨_, .float (.inl (by decide)), scanWord_some hw⟩
              · split at h
                · rename_i hw; cases h; exact ⟨_, .float (.inl (by decide)), scanWord_some hw⟩
                · split at h
                  · rename_i hw; cases h; exact ⟨_, .float (.inl (by decide)), scanWord_some hw⟩
                  · exact scanNumber_sound h
    · intro s r l h
      rw [scanElements.eq_def] at h
      simp only [bind, Option.bind, pure] at h
      cases hs : scanValue f s with
      | none => rw [hs] at h; cases h
      | some p =>
      obtain ⟨v, r1⟩ := p
      rw [hs] at h
      dsimp only at h
      obtain ⟨t, h1, h2⟩ := ih1 _ _ _ hs
      obtain ⟨w, hw, hr⟩ := skip_split r1
      split at h
      · rename_i r2 hk
        cases h
        exact ⟨[] ++ (t ++ w), .one (fun _ h => (by cases h)) h1 hw, by rw [h2, hr, hk]; simp⟩
      · rename_i r2 hk
        obtain ⟨w', hw', hr'⟩ := skip_split r2
        cases he : scanElements f (skipJsonSpace r2) with
        | none => rw [he] at h; cases h
        | some q =>
        rw [he] at h
        cases h
        obtain ⟨u, h3, h4⟩ := ih2 _ _ _ he
        have hm : Elements q.1 (w' ++ u) := elements_ws hw' h3
        exact ⟨[] ++ (t ++ (w ++ ',' :: (w' ++ u))), .cons (fun _ h => (by cases h)) h1 hw hm, by rw [h2, hr, hk, hr', h4]; simp⟩
      · cases h
    · intro s r l h
      rw [scanMembers.eq_def] at h
      dsimp only at h
      split at h
      · rename_i r0
        simp only [bind, Option.bind, pure] at h
        cases hs : scanString (r0.length + 1) r0 with
        | none => rw [hs] at h; cases h
        | some p =>
        obtain ⟨k, r1⟩ := p
        rw [hs] at h
        dsimp only at h
        obtain ⟨us, body, n1, n2, n3⟩ := scanString_sound _ _ _ _ hs
        have hn : StringText k ('"' :: (body ++ ['"'])) := ⟨us, body, n1, n2, rfl⟩
        obtain ⟨w2, hw2, hr2⟩ := skip_split r1
        split at h
        · rename_i r2 hc
          obtain ⟨w3, hw3, hr3⟩ := skip_split r2
          cases hv : scanValue f (skipJsonSpace r2) with
          | none => rw [hv] at h; cases h
          | some q =>
          obtain ⟨v, r3⟩ := q
          rw [hv] at h
          dsimp only at h
          obtain ⟨t, h1, h2⟩ := ih1 _ _ _ hv
          obtain ⟨w4, hw4, hr4⟩ := skip_split r3
          split at h
          · rename_i r4 hk
            cases h
            refine ⟨[] ++ (('"' :: (body ++ ['"'])) ++ (w2 ++ ':' :: (w3 ++ (t ++ w4)))),
              .one (fun _ h => (by cases h)) hn hw2 hw3 h1 hw4, ?_⟩
            rw [n3, hr2, hc, hr3, h2, hr4, hk]; simp
          · rename_i r4 hk
            obtain ⟨w', hw', hr'⟩ := skip_split r4
            cases he : scanMembers f (skipJsonSpace r4) with
            | none => rw [he] at h; cases h
            | some q =>
            rw [he] at h
            cases h
            obtain ⟨u, h3, h4⟩ := ih3 _ _ _ he
            have hm : Members q.1 (w' ++ u) := members_ws hw' h3
            refine ⟨[] ++ (('"' :: (body ++ ['"'])) ++ (w2 ++ ':' :: (w3 ++ (t ++ (w4 ++ ',' :: (w' ++ u)))))),
              .cons (fun _ h => (by cases h)) hn hw2 hw3 h1 hw4 hm, ?_⟩
            rw [n3, hr2, hc, hr3, h2, hr4, hk, hr', h4]; simp
          · cases h
        · cases h
      · cases h

/-! ### What is derivable is accepted -/

theorem skip_value {v : Raw} {t w : Str} (hw : Ws w) (h : Value v t) (r : Str) : skipJsonSpace (w ++ (t ++ r)) = t ++ r := by
  rw [skip_ws hw]
  obtain ⟨c, t', rfl, hc, _⟩ := value_head h
  exact skip_id hc

theorem scanValue_word {f : Nat} {c : Char} {s : Str} (h : c ∉ ['"', '{', '[']) :
    scanValue (f + 1) (c :: s) = match scanWord s%"null" (c :: s) with
      | some r => some (.null, r)
      | none => match scanWord s%"true" (c :: s) with
        | some r => some (.bool true, r)
        | none => match scanWord s%"false" (c :: s) with
          | some r => some (.bool false, r)
          | none => match scanWord s%"NaN" (c :: s) with
            | some r => some (.float s%"NaN", r)
            | none => match scanWord s%"Infinity" (c :: s) with
              | some r => some (.float s%"Infinity", r)
              | none => match scanWord s%"-Infinity" (c :: s) with
                | some r => some (.float s%"-Infinity", r)
                | none => scanNumber (c :: s) := by
  rw [scanValue.eq_def]
  dsimp only
  split
  · rename_i e; cases e
  · rename_i e; cases e; exact absurd (by decide) h
  · rename_i e; cases e; exact absurd (by decide) h
  · rename_i e; cases e; exact absurd (by decide) h
  · rfl

theorem scanValue_array (f : Nat) (r : Str) (h : ∀ r', skipJsonSpace r ≠ ']' :: r') :
    scanValue (f + 1) ('[' :: r) = (scanElements f (skipJsonSpace r)).bind fun x => some (.arr x.1, x.2) := by
  have e : scanValue (f + 1) ('[' :: r) = match skipJsonSpace r with
      | ']' :: r => some (.arr [], r)
      | r => (scanElements f r).bind fun x => some (.arr x.1, x.2) := rfl
  rw [e]
  split
  · rename_i e; exact absurd e (h _)
  · rfl

theorem scanValue_object (f : Nat) (r : Str) (h : ∀ r', skipJsonSpace r ≠ '}' :: r') :
    scanValue (f + 1) ('{' :: r) = (scanMembers f (skipJsonSpace r)).bind fun x => some (.obj x.1, x.2) := by
  have e : scanValue (f + 1) ('{' :: r) = match skipJsonSpace r with
      | '}' :: r => some (.obj [], r)
      | r => (scanMembers f r).bind fun x => some (.obj x.1, x.2) := rfl
  rw [e]
  split
  · rename_i e; exact absurd e (h _)
  · rfl

theorem scanWord_head {w s : Str} {c d : Char} (h : c ≠ d) : scanWord (c :: w) (d :: s) = none := by
  apply scanWord_none
  · intro a b ha hb; cases ha; cases hb; exact h
  · simp

/-- Before a number no constant is found. -/
theorem scanValue_number {f : Nat} {s : Str} (h : (∃ c t, s = c :: t ∧ isJsonDigit c = true) ∨ ∃ c t, s = '-' :: c :: t ∧ isJsonDigit c = true) :
    scanValue (f + 1) s = scanNumber s := by
  have digit : ∀ c, isJsonDigit c = true → c ∉ ['"', '{', '[', 'n', 't', 'f', 'N', 'I', '-'] := by
    intro c hc
    have : c.toNat < 128 := by simp [isJsonDigit] at hc; omega
    exact char_below (P := fun c => isJsonDigit c = true → c ∉ ['"', '{', '[', 'n', 't', 'f', 'N', 'I', '-']) 128 (by decide +kernel) c this hc
  rcases h with ⟨c, t, rfl, hc⟩ | ⟨c, t, rfl, hc⟩
  · have hd := digit c hc
    simp only [List.mem_cons, List.not_mem_nil, or_false, not_or] at hd
    obtain ⟨h1, h2, h3, h4, h5, h6, h7, h8, h9⟩ := hd
    rw [scanValue_word (by simp [h1, h2, h3]), scanWord_head (Ne.symm h4), scanWord_head (Ne.symm h5), scanWord_head (Ne.symm h6),
      scanWord_head (Ne.symm h7), scanWord_head (Ne.symm h8), scanWord_head (Ne.symm h9)]
  · have hd := digit c hc
    have hI : c ≠ 'I' := fun e => hd (by rw [e]; decide)
    have hm : scanWord s%"-Infinity" ('-' :: c :: t) = none := by
      unfold scanWord
      rw [if_neg]
      rintro ⟨r, hr⟩
      cases hr
      exact hI rfl
    rw [scanValue_word (by decide), scanWord_head (by decide), scanWord_head (by decide), scanWord_head (by decide),
      scanWord_head (by decide), scanWord_head (by decide), hm]

theorem scanNumber_pos {c : Char} {s : Str} (h : isJsonDigit c = true) : scanNumber (c :: s) = scanUnsigned false (c :: s) := by
  unfold scanNumber
  split
  · rename_i e; cases e; cases h
  · rfl

theorem intPart_cons {i : Str} (h : IntPart i) : ∃ c t, i = c :: t ∧ isJsonDigit c = true := by
  obtain ⟨h1, h2⟩ := (digits_iff _).1 h.1
  cases i with
  | nil => exact absurd rfl h1
  | cons c i => exact ⟨c, i, rfl, h2 c (List.mem_cons_self ..)⟩

theorem scan_string_text {k : List Nat} {n r : Str} (h : StringText k n) : ∃ t, n ++ r = '"' :: t ∧ scanString (t.length + 1) t = some (k, r) := by
  obtain ⟨us, body, h1, rfl, rfl⟩ := h
  refine ⟨body ++ '"' :: r, by simp, scanString_complete _ us body r h1 ?_⟩
  simp; omega

theorem scan_complete (f : Nat) :
    (∀ v t r, Value v t → t.length ≤ f → Follows r → scanValue f (t ++ r) = some (v, r)) ∧
    (∀ l t r, Elements l t → t.length + 1 ≤ f → scanElements f (skipJsonSpace (t ++ ']' :: r)) = some (l, r)) ∧
    (∀ l t r, Members l t → t.length + 1 ≤ f → scanMembers f (skipJsonSpace (t ++ '}' :: r)) = some (l, r)) := by
  induction f with
  | zero =>
    refine ⟨?_, ?_, ?_⟩
    · intro v t r h hf _
      obtain ⟨c, t', rfl, _⟩ := value_head h
      exact absurd hf (by simp)
    · intro l t r _ hf; exact absurd hf (by omega)
    · intro l t r _ hf; exact absurd hf (by omega)
  | succ f ih =>
    obtain ⟨ih1, ih2, ih3⟩ := ih
    refine ⟨?_, ?_, ?_⟩
    · intro v t r h hf hr
      cases h with
      | null => rfl
      | true => rfl
      | false => rfl
      | whole h =>
        cases h with
        | pos hi hn =>
          rename_i n
          obtain ⟨c, t', rfl, hc⟩ := intPart_cons hi
          rw [List.cons_append, scanValue_number (.inl ⟨c, t' ++ r, rfl, hc⟩), scanNumber_pos hc, ← List.cons_append,
            scanUnsigned_whole hi hn hr.stops]
          rfl
        | neg hi hn =>
          rename_i n s
          rw [scanValue_number]
          · show scanUnsigned true (_ ++ r) = _
            rw [scanUnsigned_whole hi hn hr.stops]
            rfl
          · obtain ⟨c, t', rfl, hc⟩ := intPart_cons hi
            exact .inr ⟨c, t' ++ r, rfl, hc⟩
      | float h =>
        rcases h with h | ⟨minus, i, x, e, rfl, hm, hi, hx, he, hne⟩
        · simp only [List.mem_cons, List.not_mem_nil, or_false] at h
          rcases h with rfl | rfl | rfl <;> rfl
        · rcases hm with rfl | rfl
          · obtain ⟨c, t', rfl, hc⟩ := intPart_cons hi
            simp only [List.nil_append, List.append_assoc, List.cons_append]
            rw [scanValue_number (.inl ⟨c, _, rfl, hc⟩), scanNumber_pos hc]
            have := scanUnsigned_float (neg := false) hi hx he hne hr.stops
            simp only [List.append_assoc, List.cons_append] at this
            exact this
          · simp only [List.append_assoc, List.cons_append, List.nil_append]
            rw [scanValue_number]
            · show scanUnsigned true _ = _
              have := scanUnsigned_float (neg := true) hi hx he hne hr.stops
              simp only [List.append_assoc] at this
              exact this
            · obtain ⟨c, t', rfl, hc⟩ := intPart_cons hi
              exact .inr ⟨c, _, rfl, hc⟩
      | string h =>
        obtain ⟨t', h1, h2⟩ := scan_string_text (r := r) h
        rw [h1]
        show (scanString (t'.length + 1) t').bind (fun x => some (Raw.str x.1, x.2)) = _
        rw [h2]; rfl
      | emptyArray hw =>
        rename_i w
        rw [List.cons_append, List.append_assoc, List.singleton_append]
        show (match skipJsonSpace (w ++ ']' :: r) with | ']' :: r => some (Raw.arr [], r) | _ => _) = _
        rw [skip_ws hw, skip_id (by decide)]
        rfl
      | array h =>
        rename_i l u
        rw [List.cons_append, List.append_assoc, List.singleton_append]
        have hne : ∀ r', skipJsonSpace (u ++ ']' :: r) ≠ ']' :: r' := by
          intro r' e
          have : ∃ c t', skipJsonSpace (u ++ ']' :: r) = c :: t' ∧ c ≠ ']' := by
            cases h with
            | one k1 k2 k3 =>
              rw [List.append_assoc, List.append_assoc, skip_value k1 k2]
              obtain ⟨c, t', rfl, _, hc⟩ := value_head k2
              exact ⟨c, _, rfl, hc⟩
            | cons k1 k2 k3 k4 =>
              rw [List.append_assoc, List.append_assoc, skip_value k1 k2]
              obtain ⟨c, t', rfl, _, hc⟩ := value_head k2
              exact ⟨c, _, rfl, hc⟩
          obtain ⟨c, t', e', hc⟩ := this
          rw [e'] at e
          cases e
          exact hc rfl
        rw [scanValue_array f _ hne, ih2 l u r h (by simp at hf; omega)]
        rfl
      | emptyObject hw =>
        rename_i w
        rw [List.cons_append, List.append_assoc, List.singleton_append]
        show (match skipJsonSpace (w ++ '}' :: r) with | '}' :: r => some (Raw.obj [], r) | _ => _) = _
        rw [skip_ws hw, skip_id (by decide)]
        rfl
      | object h =>
        rename_i l u
        rw [List.cons_append, List.append_assoc, List.singleton_append]
        have hne : ∀ r', skipJsonSpace (u ++ '}' :: r) ≠ '}' :: r' := by
          intro r' e
          have : ∃ t', skipJsonSpace (u ++ '}' :: r) = '"' :: t' := by
            cases h with
            | one k1 k2 =>
              obtain ⟨us, body, _, _, rfl⟩ := k2
              rw [List.append_assoc, skip_ws k1]
              exact ⟨_, skip_id (by decide)⟩
            | cons k1 k2 =>
              obtain ⟨us, body, _, _, rfl⟩ := k2
              rw [List.append_assoc, skip_ws k1]
              exact ⟨_, skip_id (by decide)⟩
          obtain ⟨t', e'⟩ := this
          rw [e'] at e
          cases e
        rw [scanValue_object f _ hne, ih3 l u r h (by simp at hf; omega)]
        rfl
    · intro l t r h hf
      cases h with
      | one k1 k2 k3 =>
        rename_i v t w w'
        simp only [List.append_assoc]
        rw [skip_value k1 k2, scanElements.eq_def]
        simp only [bind, Option.bind, pure]
        rw [ih1 v t (w' ++ ']' :: r) k2 (by simp at hf; omega) (follows_ws k3 (follows_cons (by decide)))]
        dsimp only
        rw [skip_ws k3, skip_id (by decide)]
        rfl
      | cons k1 k2 k3 k4 =>
        rename_i v t w w' l u
        obtain ⟨c, t', ht, _⟩ := value_head k2
        simp only [List.append_assoc, List.cons_append]
        rw [skip_value k1 k2, scanElements.eq_def]
        simp only [bind, Option.bind, pure]
        rw [ih1 v t (w' ++ ',' :: (u ++ ']' :: r)) k2 (by simp at hf; omega) (follows_ws k3 (follows_cons (by decide)))]
        dsimp only
        rw [skip_ws k3, skip_id (by decide)]
        show Option.bind (scanElements f (skipJsonSpace (u ++ ']' :: r))) (fun x => some (v :: x.1, x.2)) = _
        rw [ih2 l u r k4 (by rw [ht] at hf; simp at hf; omega)]
        rfl
    · intro l t r h hf
      cases h with
      | one k1 k2 k3 k4 k5 k6 =>
        rename_i k v n t w1 w2 w3 w4
        obtain ⟨t', e1, e2⟩ := scan_string_text (r := w2 ++ ':' :: (w3 ++ (t ++ (w4 ++ '}' :: r)))) k2
        simp only [List.append_assoc, List.cons_append]
        rw [skip_ws k1, e1, skip_id (by decide), scanMembers.eq_def]
        simp only [bind, Option.bind, pure]
        rw [e2]
        dsimp only
        rw [skip_ws k3, skip_id (by decide)]
        show Option.bind (scanValue f (skipJsonSpace (w3 ++ (t ++ (w4 ++ '}' :: r))))) _ = _
        rw [skip_value k4 k5, ih1 v t (w4 ++ '}' :: r) k5 (by simp at hf; omega) (follows_ws k6 (follows_cons (by decide)))]
        dsimp only [Option.bind]
        rw [skip_ws k6, skip_id (by decide)]
        rfl
      | cons k1 k2 k3 k4 k5 k6 k7 =>
        rename_i k v n t w1 w2 w3 w4 l u
        obtain ⟨t', e1, e2⟩ := scan_string_text (r := w2 ++ ':' :: (w3 ++ (t ++ (w4 ++ ',' :: (u ++ '}' :: r))))) k2
        simp only [List.append_assoc, List.cons_append]
        rw [skip_ws k1, e1, skip_id (by decide), scanMembers.eq_def]
        simp only [bind, Option.bind, pure]
        rw [e2]
        dsimp only
        rw [skip_ws k3, skip_id (by decide)]
        show Option.bind (scanValue f (skipJsonSpace (w3 ++ (t ++ (w4 ++ ',' :: (u ++ '}' :: r)))))) _ = _
        rw [skip_value k4 k5, ih1 v t (w4 ++ ',' :: (u ++ '}' :: r)) k5 (by simp at hf; omega) (follows_ws k6 (follows_cons (by decide)))]
        dsimp only [Option.bind]
        rw [skip_ws k6, skip_id (by decide)]
        show Option.bind (scanMembers f (skipJsonSpace (u ++ '}' :: r))) (fun x => some ((k, v) :: x.1, x.2)) = _
        rw [ih3 l u r k7 (by simp at hf; omega)]
        rfl

end Spdx
