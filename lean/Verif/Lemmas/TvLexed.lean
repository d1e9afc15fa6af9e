import Verif.Lemmas.TvLexing
import Verif.Model.TagValueParser
/-
From the rules one at a time to the tokens of a whole text.
-/
namespace Spdx.TvLexing
open Spdx PatRun

/-- A token as PLY passes it on. -/
def plyTok (t : Tok) : LexTok := (t.type, t.value)

theorem take_rest (a b : Str) : (a ++ b).take ((a ++ b).length - b.length) = a := by
  rw [List.length_append, Nat.add_sub_cancel, List.take_left']
  rfl

theorem matchChecksum_parts {v m r : Str} (h : matchChecksum v = some (m, r)) : v = m ++ r := by
  unfold matchChecksum at h
  cases e : checksumNames.find? fun n => startsWith v (n ++ [':']) with
  | none => rw [e] at h; cases h
  | some n =>
    rw [e] at h
    have hs := List.find?_some e
    simp only [Option.map_some, Option.some.injEq, Prod.mk.injEq] at h
    unfold startsWith at hs
    obtain ⟨t, ht⟩ := List.isPrefixOf_iff_prefix.1 hs
    have hd : v.drop (n.length + 1) = t := by
      rw [← ht]
      exact List.drop_left' (by simp)
    rw [hd] at h
    rw [← h.1, ← h.2, ← ht]
    simp only [List.append_assoc, List.takeWhile_append_dropWhile]

theorem matchActor_parts {p v m r : Str} (h : matchActor p v = some (m, r)) : v = m ++ r := by
  unfold matchActor at h
  split at h
  · rename_i hc
    simp only [Option.some.injEq, Prod.mk.injEq] at h
    obtain ⟨t, ht⟩ := List.isPrefixOf_iff_prefix.1 hc.1
    have hd : v.drop p.length = t := by rw [← ht]; exact List.drop_left' rfl
    rw [hd] at h
    rw [← h.1, ← h.2, ← ht, List.append_assoc, List.takeWhile_append_dropWhile]
  · cases h

theorem matchDatePat_parts {p v m r : Str} (h : matchDatePat p v = some (m, r)) : v = m ++ r := by
  induction p generalizing v m r with
  | nil => simp only [matchDatePat, Option.some.injEq, Prod.mk.injEq] at h; rw [← h.1, h.2]; rfl
  | cons q p ih =>
    cases v with
    | nil => cases h
    | cons c v =>
      rw [matchDatePat] at h
      split at h
      · cases e : matchDatePat p v with
        | none => rw [e] at h; cases h
        | some x =>
          rw [e] at h
          simp only [Option.map_some, Option.some.injEq, Prod.mk.injEq] at h
          rw [← h.1, ← h.2, ih (m := x.1) (r := x.2) e]
          rfl
      · cases h

theorem dropPrefix_parts {w s r : Str} (h : dropPrefix? w s = some r) : s = w ++ r := by
  unfold dropPrefix? at h
  split at h
  · rename_i hc
    obtain ⟨t, ht⟩ := List.isPrefixOf_iff_prefix.1 hc
    rw [← ht, List.drop_left' rfl, Option.some.injEq] at h
    rw [← ht, h]
  · cases h

theorem lstrip_spaces (a m : Str) (h : ∀ c ∈ a, isPySpace c = true) : lstrip (a ++ m) = lstrip m := by
  unfold lstrip
  exact List.dropWhile_append_of_pos h

theorem strip_spaces (a m : Str) (h : ∀ c ∈ a, isPySpace c = true) : strip (a ++ m) = strip m := by
  unfold strip
  rw [lstrip_spaces a m h]

theorem takeWhile_spaces (r : Str) : ∀ c ∈ r.takeWhile isPySpace, isPySpace c = true := by
  induction r with
  | nil => simp
  | cons c r ih =>
    intro x hx
    rw [List.takeWhile_cons] at hx
    split at hx
    · rcases List.mem_cons.1 hx with rfl | hx
      · assumption
      · exact ih x hx
    · cases hx

/-- The value of a token matched by one of the rules that start with a colon. -/
theorem colon_value {r m rest : Str} (h : r.dropWhile isPySpace = m ++ rest) :
    strip (((':' :: r).take ((':' :: r).length - rest.length)).drop 1) = strip m := by
  have e : ':' :: r = (':' :: (r.takeWhile isPySpace ++ m)) ++ rest := by
    rw [List.cons_append, List.append_assoc, ← h, List.takeWhile_append_dropWhile]
  rw [e, take_rest]
  exact strip_spaces _ _ (takeWhile_spaces r)

theorem lookup_type {w t : Str} (h : reservedTypes.lookup w = some t) (d : Tok) : plyTok (reservedTok w d) = (t, w) := by
  have hall : ∀ x ∈ reservedTypes, ∀ (_ : reservedTypes.lookup x.1 = some x.2),
      x.1 = s%"NOASSERTION" ∧ x.2 = s%"NO_ASSERTION" ∨ x.1 = s%"NONE" ∧ x.2 = s%"NONE" ∨ x.1 ∈ tvTags ∧ x.1 ≠ s%"NOASSERTION" ∧ x.1 ≠ s%"NONE" := by
    decide +kernel
  have hmem : (w, t) ∈ reservedTypes := by
    rw [List.lookup_eq_some_iff] at h
    obtain ⟨l₁, l₂, e, _⟩ := h
    rw [e]
    simp
  rcases hall _ hmem h with ⟨rfl, rfl⟩ | ⟨rfl, rfl⟩ | ⟨hm, h1, h2⟩
  · rfl
  · rfl
  · unfold reservedTok
    rw [if_neg h1, if_neg h2, if_pos hm]
    show ((reservedTypes.lookup w).getD [], w) = (t, w)
    rw [h]
    rfl

theorem lookup_none {w : Str} (h : reservedTypes.lookup w = none) (d : Tok) : reservedTok w d = d := by
  have hall : ∀ x ∈ s%"NOASSERTION" :: s%"NONE" :: tvTags, (reservedTypes.lookup x).isSome = true := by decide +kernel
  unfold reservedTok
  have hn : w ∉ s%"NOASSERTION" :: s%"NONE" :: tvTags := fun hm => by
    have := hall w hm
    rw [h] at this
    cases this
  simp only [List.mem_cons, not_or] at hn
  rw [if_neg hn.1, if_neg hn.2.1, if_neg hn.2.2]

theorem lookup_tok (w dt : Str) (d : Tok) (hd : plyTok d = (dt, w)) :
    (match reservedTypes.lookup w with | some t => t | none => dt, w) = plyTok (reservedTok w d) := by
  cases h : reservedTypes.lookup w with
  | none => rw [lookup_none h, hd]
  | some t => rw [lookup_type h]

/-! One round -/

theorem strip_letters (c : Char) (r : Str) :
    strip ((c :: r).takeWhile isLetterAZ) = (c :: r).takeWhile isLetterAZ := by
  have hl : ∀ x, isLetterAZ x = true → isPySpace x = false := by
    intro x hx
    by_cases h : x.toNat < 128
    · exact char_below (P := fun x => isLetterAZ x = true → isPySpace x = false) 128 (by decide +kernel) x h hx
    · exfalso
      simp [isLetterAZ, isLowerAZ, isUpperAZ] at hx
      omega
  have hall : ∀ (s : Str), ∀ x ∈ s.takeWhile isLetterAZ, isLetterAZ x = true := by
    intro s
    induction s with
    | nil => simp
    | cons d s ih =>
      intro x hx
      rw [List.takeWhile_cons] at hx
      split at hx
      · rcases List.mem_cons.1 hx with rfl | hx
        · assumption
        · exact ih x hx
      · cases hx
  refine (strip_eq_self_iff _).2 ⟨?_, ?_⟩
  · intro x t e
    exact hl x (hall _ x (by rw [e]; simp))
  · intro x t e
    exact hl x (hall _ x (by rw [e]; simp))

/-- The first rule that matches, and what is left. -/
def firstRule (s : Str) : Option (Nat × Str) := initialPats.findSome? fun x => (restOf x.2 s).map fun r => (x.1, r)

theorem lexMatch_initial (s : Str) : lexMatch lexRules s = (firstRule s).bind fun y =>
    (initialNames.find? fun x => x.2 = y.1).map fun x => (x.1, s.take (s.length - y.2.length), y.2) :=
  lexMatch_eq (by decide) initial_parsed s

theorem step_some {s : Str} {n : Nat} {r : Str} {name : Str} (h : firstRule s = some (n, r))
    (hn : (initialNames.find? fun x => x.2 = n).map (·.1) = some name) :
    LexState.step ⟨s, none⟩ = some (lexAction name (s.take (s.length - r.length)) r) := by
  unfold LexState.step
  dsimp only
  rw [lexMatch_initial, h]
  cases e : initialNames.find? fun x => x.2 = n with
  | none => rw [e] at hn; cases hn
  | some x =>
    rw [e] at hn
    dsimp only [Option.bind_some]
    rw [e]
    simp only [Option.map_some, Option.some.injEq] at hn ⊢
    rw [hn]

theorem step_none {s : Str} (h : firstRule s = none) :
    LexState.step ⟨s, none⟩ = some (some (plyTok .error), ⟨s.drop 1, none⟩) := by
  unfold LexState.step
  dsimp only
  rw [lexMatch_initial, h]
  rfl

theorem firstRule_colon (r : Str) : firstRule (':' :: r) =
    match dropPrefix? s%"<text>" (r.dropWhile isPySpace) with
    | some b => some (1, b)
    | none => match matchChecksum (r.dropWhile isPySpace) with
    | some x => some (2, x.2)
    | none => match matchActor s%"Tool:" (r.dropWhile isPySpace) with
    | some x => some (5, x.2)
    | none => match matchActor s%"Organization:" (r.dropWhile isPySpace) with
    | some x => some (6, x.2)
    | none => match matchActor s%"Person:" (r.dropWhile isPySpace) with
    | some x => some (7, x.2)
    | none => match matchDate (r.dropWhile isPySpace) with
    | some x => some (8, x.2)
    | none => if r.takeWhile isDot = [] then none else some (10, r.dropWhile isDot) := by
  unfold firstRule initialPats
  simp only [List.findSome?_cons, List.findSome?_nil, restOf_text, restOf_checksum, restOf_actor 'T' s%"ool:" (by decide), restOf_actor 'O' s%"rganization:" (by decide),
    restOf_actor 'P' s%"erson:" (by decide), restOf_iso, restOf_keyword,
    restOf_line, restOf_comment, restOf_newline, restOf_blank, if_true, if_neg (show ¬ (':' : Char) = '#' by decide),
    if_neg (show ¬ (':' : Char) = '\n' by decide), if_neg (show ¬ ((':' : Char) = ' ' ∨ (':' : Char) = '\t') by decide),
    if_neg (show ¬ isLetterAZ ':' = true by decide), Option.map_none]
  cases dropPrefix? s%"<text>" (r.dropWhile isPySpace) with
  | some _ => rfl
  | none =>
  cases matchChecksum (r.dropWhile isPySpace) with
  | some _ => rfl
  | none =>
  cases matchActor s%"Tool:" (r.dropWhile isPySpace) with
  | some _ => rfl
  | none =>
  cases matchActor s%"Organization:" (r.dropWhile isPySpace) with
  | some _ => rfl
  | none =>
  cases matchActor s%"Person:" (r.dropWhile isPySpace) with
  | some _ => rfl
  | none =>
  cases matchDate (r.dropWhile isPySpace) with
  | some _ => rfl
  | none =>
  by_cases h : r.takeWhile isDot = []
  · simp only [if_pos h]; rfl
  · simp only [if_neg h]; rfl

theorem firstRule_other {c : Char} (hc : c ≠ ':') (r : Str) : firstRule (c :: r) =
    if isLetterAZ c then some (9, r.dropWhile isLetterAZ)
    else if c = '#' then some (11, r.dropWhile isDot)
    else if c = '\n' then some (12, r.dropWhile (· = '\n'))
    else if c = ' ' ∨ c = '\t' then some (13, r.dropWhile (fun c => c = ' ' ∨ c = '\t'))
    else none := by
  unfold firstRule initialPats
  simp only [List.findSome?_cons, List.findSome?_nil, restOf_text, restOf_checksum, restOf_actor 'T' s%"ool:" (by decide), restOf_actor 'O' s%"rganization:" (by decide),
    restOf_actor 'P' s%"erson:" (by decide), restOf_iso, restOf_keyword,
    restOf_line, restOf_comment, restOf_newline, restOf_blank, if_neg hc, Option.map_none]
  by_cases h1 : isLetterAZ c
  · simp only [if_pos h1]; rfl
  by_cases h2 : c = '#'
  · simp only [if_neg h1, if_pos h2]; rfl
  by_cases h3 : c = '\n'
  · simp only [if_neg h1, if_neg h2, if_pos h3]; rfl
  by_cases h4 : c = ' ' ∨ c = '\t'
  · simp only [if_neg h1, if_neg h2, if_neg h3, if_pos h4]; rfl
  · simp only [if_neg h1, if_neg h2, if_neg h3, if_neg h4]; rfl

/-- One round outside of `<text>`. -/
theorem step_value {r : Str} (h : dropPrefix? s%"<text>" (r.dropWhile isPySpace) = none) :
    LexState.step ⟨':' :: r, none⟩ = some ((lexValue r).1.map plyTok, ⟨(lexValue r).2, none⟩) := by
  have hf := firstRule_colon r
  rw [h] at hf
  unfold lexValue
  dsimp only at hf ⊢
  rw [h]
  dsimp only
  cases h1 : matchChecksum (r.dropWhile isPySpace) with
  | some x =>
    rw [h1] at hf
    rw [step_some hf rfl]
    show some (some (s%"CHECKSUM", strip _), _) = _
    rw [colon_value (matchChecksum_parts (m := x.1) (r := x.2) h1)]
    rfl
  | none =>
  rw [h1] at hf
  dsimp only at hf ⊢
  cases h2 : matchActor s%"Tool:" (r.dropWhile isPySpace) with
  | some x =>
    rw [h2] at hf
    rw [step_some hf rfl]
    show some (some (s%"TOOL_VALUE", strip _), _) = _
    rw [colon_value (matchActor_parts (m := x.1) (r := x.2) h2)]
    rfl
  | none =>
  rw [h2] at hf
  dsimp only at hf ⊢
  cases h3 : matchActor s%"Organization:" (r.dropWhile isPySpace) with
  | some x =>
    rw [h3] at hf
    rw [step_some hf rfl]
    show some (some (s%"ORGANIZATION_VALUE", strip _), _) = _
    rw [colon_value (matchActor_parts (m := x.1) (r := x.2) h3)]
    rfl
  | none =>
  rw [h3] at hf
  dsimp only at hf ⊢
  cases h4 : matchActor s%"Person:" (r.dropWhile isPySpace) with
  | some x =>
    rw [h4] at hf
    rw [step_some hf rfl]
    show some (some (s%"PERSON_VALUE", strip _), _) = _
    rw [colon_value (matchActor_parts (m := x.1) (r := x.2) h4)]
    rfl
  | none =>
  rw [h4] at hf
  dsimp only at hf ⊢
  cases h5 : matchDate (r.dropWhile isPySpace) with
  | some x =>
    rw [h5] at hf
    rw [step_some hf rfl]
    show some (some (s%"ISO8601_DATE", strip _), _) = _
    rw [colon_value (matchDatePat_parts (m := x.1) (r := x.2) h5)]
    rfl
  | none =>
  rw [h5] at hf
  dsimp only at hf ⊢
  by_cases h6 : r.takeWhile isDot = []
  · rw [if_pos h6] at hf ⊢
    rw [step_none hf]
    rfl
  · rw [if_neg h6] at hf ⊢
    rw [step_some hf rfl]
    have e : ((':' :: r).take ((':' :: r).length - (r.dropWhile isDot).length)).drop 1 = r.takeWhile isDot := by
      have e1 : ':' :: r = (':' :: r.takeWhile isDot) ++ r.dropWhile isDot := by
        rw [List.cons_append, List.takeWhile_append_dropWhile]
      rw [e1, take_rest]
      rfl
    show some (some (match reservedTypes.lookup (strip _) with | some t => t | none => s%"LINE", strip _), _) = _
    rw [e, lookup_tok (strip (r.takeWhile isDot)) s%"LINE" (.line (strip (r.takeWhile isDot))) rfl]
    rfl

/-- The start of `<text>`. -/
theorem step_text {r b : Str} (h : dropPrefix? s%"<text>" (r.dropWhile isPySpace) = some b) :
    LexState.step ⟨':' :: r, none⟩ = some (none, ⟨b, some (s%"<text>" ++ b)⟩) := by
  have hf := firstRule_colon r
  rw [h] at hf
  rw [step_some hf rfl]
  have e1 : ':' :: r = (':' :: (r.takeWhile isPySpace ++ s%"<text>")) ++ b := by
    rw [List.cons_append, List.append_assoc, ← dropPrefix_parts h, List.takeWhile_append_dropWhile]
  rw [e1, take_rest]
  have e2 : ((':' :: (r.takeWhile isPySpace ++ s%"<text>")).drop ((':' :: (r.takeWhile isPySpace ++ s%"<text>")).length - 6)) = s%"<text>" := by
    rw [← List.cons_append]
    refine List.drop_left' ?_
    rw [List.length_append]
    exact (Nat.add_sub_cancel _ 6).symm
  show some (none, (⟨b, some (_ ++ b)⟩ : LexState)) = _
  rw [e2]

theorem step_other {c : Char} (hc : c ≠ ':') (r : Str) :
    LexState.step ⟨c :: r, none⟩ = (lexOne (c :: r)).map fun x => (x.1.map plyTok, ⟨x.2, none⟩) := by
  have hf := firstRule_other hc r
  rw [lexOne, if_neg hc]
  by_cases h1 : isLetterAZ c
  · rw [if_pos h1] at hf ⊢
    rw [step_some hf rfl]
    have e : (c :: r).take ((c :: r).length - (r.dropWhile isLetterAZ).length) = (c :: r).takeWhile isLetterAZ := by
      have e1 : c :: r = (c :: r).takeWhile isLetterAZ ++ r.dropWhile isLetterAZ := by
        rw [List.takeWhile_cons_of_pos h1, List.cons_append, List.takeWhile_append_dropWhile]
      conv => lhs; rw [e1, take_rest]
    show some (some (match reservedTypes.lookup _ with | some t => t | none => s%"UNKNOWN_TAG", strip _), _) = _
    rw [e, strip_letters, lookup_tok ((c :: r).takeWhile isLetterAZ) s%"UNKNOWN_TAG" (.unknown ((c :: r).takeWhile isLetterAZ)) rfl, List.dropWhile_cons_of_pos h1]
    rfl
  rw [if_neg h1] at hf ⊢
  by_cases h2 : c = '#'
  · rw [if_pos h2] at hf ⊢
    rw [step_some hf rfl]
    rfl
  rw [if_neg h2] at hf ⊢
  by_cases h3 : c = '\n'
  · rw [if_pos h3] at hf ⊢
    rw [step_some hf rfl]
    rfl
  rw [if_neg h3] at hf ⊢
  by_cases h4 : c = ' ' ∨ c = '\t'
  · rw [if_pos h4] at hf ⊢
    rw [step_some hf rfl]
    rfl
  rw [if_neg h4] at hf ⊢
  rw [step_none hf]
  rfl

/-! In the state `text` -/

theorem m_textEnd (s : Str) : restOf textEndPat s = (dropPrefix? s%"</text>" s).map fun r => r.dropWhile isPySpace := by
  rw [restOf_m, textEndPat, m_litThen rfl]
  cases dropPrefix? s%"</text>" s with
  | none => rfl
  | some r =>
    dsimp only
    rw [spaces, m_star_set, space_test rfl, starK_max rfl]
    rfl

theorem m_textAny (c : Char) (r : Str) : restOf textAnyPat (c :: r) = some r := by
  rw [restOf_m, textAnyPat, m_alt, m_chr rfl]
  unfold Pat.any
  rw [m_set]
  by_cases h : c = '\n'
  · subst h
    rfl
  · have : setTest {} true [.chr '\n'] c = true := by
      rw [any_test rfl]
      simpa [isDot] using h
    dsimp only
    rw [if_pos this]
    rfl

theorem step_in_text (c : Char) (r b : Str) : LexState.step ⟨c :: r, some b⟩ =
    match dropPrefix? s%"</text>" (c :: r) with
    | some r' => some (some (s%"TEXT", strip (b.take (b.length - (r'.dropWhile isPySpace).length))), ⟨r'.dropWhile isPySpace, none⟩)
    | none => some (none, ⟨r, some b⟩) := by
  unfold LexState.step
  dsimp only
  rw [lexMatch_eq (by decide) text_parsed]
  unfold textPats
  rw [List.findSome?_cons, List.findSome?_cons, m_textEnd, m_textAny]
  cases dropPrefix? s%"</text>" (c :: r) <;> rfl

/-! Whole texts -/

theorem lexes_iff {s : LexState} (h : s.rest ≠ []) (ts : List LexTok) : PlyLexes s ts ↔
    match s.step with
    | some (none, s') => PlyLexes s' ts
    | some (some t, s') => ∃ ts', ts = t :: ts' ∧ PlyLexes s' ts'
    | none => False := by
  constructor
  · intro hl
    cases hl with
    | done e => exact absurd e h
    | skip _ e hl => rw [e]; exact hl
    | token _ e hl => rw [e]; exact ⟨_, rfl, hl⟩
  · intro hl
    cases e : s.step with
    | none => rw [e] at hl; exact hl.elim
    | some x =>
      obtain ⟨a, s'⟩ := x
      rw [e] at hl
      cases a with
      | none => exact .skip h e hl
      | some t =>
        obtain ⟨ts', rfl, hl⟩ := hl
        exact .token h e hl

theorem lexes_nil {s : LexState} (h : s.rest = []) (ts : List LexTok) : PlyLexes s ts ↔ ts = [] := by
  constructor
  · intro hl
    cases hl with
    | done _ => rfl
    | skip e _ _ => exact absurd h e
    | token e _ _ => exact absurd h e
  · rintro rfl
    exact .done h

/-- In the state `text`: everything up to the first `</text>` is one token. -/
theorem lexes_in_text (s pre : Str) (ts : List LexTok) : PlyLexes ⟨s, some (pre ++ s)⟩ ts ↔
    match cutFirst s%"</text>" s with
    | some (content, rest) => ∃ ts', ts = (s%"TEXT", strip (pre ++ content ++ s%"</text>" ++ rest.takeWhile isPySpace)) :: ts' ∧
        PlyLexes ⟨rest.dropWhile isPySpace, none⟩ ts'
    | none => ts = [] := by
  induction s generalizing pre with
  | nil => exact lexes_nil rfl ts
  | cons c r ih =>
    rw [lexes_iff (by simp), step_in_text, cutFirst]
    by_cases h : (s%"</text>").isPrefixOf (c :: r)
    · have hd : dropPrefix? s%"</text>" (c :: r) = some ((c :: r).drop (s%"</text>").length) := if_pos h
      rw [if_pos h, hd]
      have e : pre ++ (c :: r) = (pre ++ [] ++ s%"</text>" ++ ((c :: r).drop (s%"</text>").length).takeWhile isPySpace) ++
          ((c :: r).drop (s%"</text>").length).dropWhile isPySpace := by
        rw [List.append_assoc (pre ++ [] ++ _), List.takeWhile_append_dropWhile, List.append_nil, List.append_assoc, ← dropPrefix_parts hd]
      dsimp only
      rw [e, take_rest]
    · have hd : dropPrefix? s%"</text>" (c :: r) = none := if_neg h
      rw [if_neg h, hd]
      have := ih (pre ++ [c])
      rw [List.append_assoc] at this
      refine Iff.trans this ?_
      cases cutFirst s%"</text>" r with
      | none => exact Iff.rfl
      | some x =>
        dsimp only [Option.map_some]
        rw [show pre ++ [c] ++ x.1 = pre ++ (c :: x.1) by simp]

theorem strip_text (content sp : Str) (h : ∀ c ∈ sp, isPySpace c = true) :
    strip (s%"<text>" ++ content ++ s%"</text>" ++ sp) = s%"<text>" ++ content ++ s%"</text>" := by
  unfold strip
  have h1 : lstrip (s%"<text>" ++ content ++ s%"</text>" ++ sp) = s%"<text>" ++ content ++ s%"</text>" ++ sp := by
    unfold lstrip
    rfl
  rw [h1]
  unfold rstrip
  rw [List.reverse_append, List.dropWhile_append_of_pos (by simpa using h), List.reverse_append (as := s%"<text>" ++ content)]
  show (List.dropWhile isPySpace (s%">txet/<" ++ (s%"<text>" ++ content).reverse)).reverse = _
  have h2 : List.dropWhile isPySpace (s%">txet/<" ++ (s%"<text>" ++ content).reverse) = s%">txet/<" ++ (s%"<text>" ++ content).reverse := rfl
  rw [h2, List.reverse_append, List.reverse_reverse]
  rfl

/-- The tokens of a text, in the description of PLY and in the model. -/
theorem lexes_lex (n : Nat) : ∀ (s : Str) (ts : List LexTok), s.length ≤ n → (PlyLexes ⟨s, none⟩ ts ↔ ts = (lex s).map plyTok) := by
  induction n with
  | zero =>
    intro s ts h
    have : s = [] := List.eq_nil_of_length_eq_zero (by omega)
    subst this
    exact lexes_nil rfl ts
  | succ n ih =>
    intro s ts h
    cases s with
    | nil => exact lexes_nil rfl ts
    | cons c r =>
      rw [List.length_cons] at h
      by_cases hc : c = ':'
      · subst hc
        rw [lex_value, lexes_iff (by simp)]
        cases hd : dropPrefix? s%"<text>" (r.dropWhile isPySpace) with
        | none =>
          have hl := lexValue_length r
          rw [step_value hd]
          cases hv : (lexValue r).1 with
          | none =>
            dsimp only [Option.map_none]
            rw [ih _ _ (by omega)]
            rfl
          | some t =>
            dsimp only [Option.map_some]
            constructor
            · rintro ⟨ts', rfl, hl'⟩
              rw [(ih _ _ (by omega)).1 hl']
              rfl
            · rintro rfl
              exact ⟨_, rfl, (ih _ _ (by omega)).2 rfl⟩
        | some b =>
          have hl := lexValue_length r
          rw [step_text hd]
          dsimp only
          rw [lexes_in_text]
          have hv : lexValue r = match cutFirst s%"</text>" b with
            | some (content, rest) => (some (.text (s%"<text>" ++ content ++ s%"</text>")), rest.dropWhile isPySpace)
            | none => (none, []) := by
            unfold lexValue
            dsimp only
            rw [hd]
            rfl
          cases hcut : cutFirst s%"</text>" b with
          | none =>
            rw [hcut] at hv
            rw [hv]
            exact Iff.rfl
          | some x =>
            obtain ⟨content, rest⟩ := x
            rw [hcut] at hv
            rw [hv] at hl ⊢
            dsimp only at hl ⊢
            rw [strip_text _ _ (takeWhile_spaces rest)]
            constructor
            · rintro ⟨ts', rfl, hl'⟩
              rw [(ih _ _ (by omega)).1 hl']
              rfl
            · rintro rfl
              exact ⟨_, rfl, (ih _ _ (by omega)).2 rfl⟩
      · rw [lexes_iff (by simp), step_other hc]
        cases e : lexOne (c :: r) with
        | none =>
          rw [lexOne, if_neg hc] at e
          repeat' split at e
          all_goals cases e
        | some x =>
          obtain ⟨a, r'⟩ := x
          have hl := lexOne_length _ _ _ e
          rw [List.length_cons] at hl
          rw [lex_step e]
          cases a with
          | none =>
            dsimp only [Option.map_some, Option.map_none]
            rw [ih _ _ (by omega)]
            rfl
          | some t =>
            dsimp only [Option.map_some]
            constructor
            · rintro ⟨ts', rfl, hl'⟩
              rw [(ih _ _ (by omega)).1 hl']
              rfl
            · rintro rfl
              exact ⟨_, rfl, (ih _ _ (by omega)).2 rfl⟩

end Spdx.TvLexing
