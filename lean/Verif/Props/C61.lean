import Verif.Lemmas.TvLexed
/-
C61: the tag-value reader cuts a text into tokens exactly as its rules say.

The rules are the regular expressions in the source, as texts (`lexRules`, `lexTextRules` in Model/PlyLex); `Spec/PyRe` says what a regular
expression of Python matches, and `PlyLexes` how PLY runs the rules.
-/
namespace Spdx.C61
open Spdx TvLexing

/-- The patterns that PLY makes of the rules of each state are well formed, and each rule keeps its own group. -/
theorem rules_compile : ∀ rules ∈ [lexRules, lexTextRules], ∃ p names, parsePattern (masterPattern rules) = some (p, names) ∧
    names.map (·.1) = rules.map (·.1) ∧ (names.map (·.2)).Nodup := by
  intro rules h
  simp only [List.mem_cons, List.not_mem_nil, or_false] at h
  rcases h with rfl | rfl
  · exact ⟨_, _, initial_parsed, by decide +kernel, by decide +kernel⟩
  · exact ⟨_, _, text_parsed, by decide +kernel, by decide +kernel⟩

/-- Of every text the rules make one list of tokens, with the types and values that the model's lexer gives. -/
theorem tokens (text : Str) (ts : List LexTok) : PlyLexes ⟨text, none⟩ ts ↔ ts = (lex text).map fun t => (t.type, t.value) :=
  lexes_lex text.length text ts (Nat.le_refl _)

/-- The lexer ends, without an exception, on every text, and always in the same way. -/
theorem lexer_total (text : Str) : ∃ ts, PlyLexes ⟨text, none⟩ ts ∧ ∀ ts', PlyLexes ⟨text, none⟩ ts' → ts' = ts :=
  ⟨_, (tokens text _).2 rfl, fun ts' h => (tokens text ts').1 h⟩

/-- A token that the lexer can make: its reserved words are reserved words. -/
def Made (t : Tok) : Prop := ∀ w, t = .tag w → w ∈ tvTags

private theorem reserved_made {w : Str} {d : Tok} (hd : Made d) : Made (reservedTok w d) := by
  unfold reservedTok
  split
  · intro v h; cases h
  split
  · intro v h; cases h
  split
  · intro v h; cases h; assumption
  · exact hd

private theorem value_made (r : Str) : ∀ t ∈ (lexValue r).1, Made t := by
  intro t ht
  unfold lexValue at ht
  dsimp only at ht
  repeat' split at ht
  all_goals first
    | (cases ht; done)
    | (cases ht; intro v h; cases h; done)
    | (cases ht; exact reserved_made (fun v h => by cases h))

private theorem one_made (s : Str) (a : Option Tok) (r : Str) (h : lexOne s = some (a, r)) : ∀ t ∈ a, Made t := by
  cases s with
  | nil => cases h
  | cons c s =>
    rw [lexOne] at h
    split at h
    · rw [Option.some.injEq] at h
      have := value_made s
      rw [h] at this
      exact this
    · repeat' split at h
      all_goals
        simp only [Option.some.injEq, Prod.mk.injEq] at h
        intro t ht
        rw [← h.1] at ht
        first
          | (cases ht; done)
          | (cases ht; intro v e; cases e; done)
          | (cases ht; exact reserved_made (fun v e => by cases e))

private theorem lex_made (n : Nat) : ∀ s : Str, s.length ≤ n → ∀ t ∈ lex s, Made t := by
  induction n with
  | zero =>
    intro s h
    have : s = [] := List.eq_nil_of_length_eq_zero (by omega)
    subst this
    intro t ht
    cases ht
  | succ n ih =>
    intro s h t ht
    cases e : lexOne s with
    | none =>
      cases s with
      | nil => cases ht
      | cons c s =>
        rw [lexOne] at e
        repeat' split at e
        all_goals cases e
    | some x =>
      obtain ⟨a, r⟩ := x
      have hl := lexOne_length _ _ _ e
      rw [lex_step e, List.mem_append] at ht
      rcases ht with ht | ht
      · exact one_made s a r e t (by simpa using ht)
      · exact ih r (by omega) t ht

private def plainTypes : List Str :=
  [s%"UNKNOWN_TAG", s%"TEXT", s%"TOOL_VALUE", s%"ORGANIZATION_VALUE", s%"PERSON_VALUE", s%"ISO8601_DATE", s%"CHECKSUM", s%"LINE",
   s%"NO_ASSERTION", s%"NONE", s%"error"]

private theorem types_of_tags : ∀ w ∈ tvTags, ∃ t, reservedTypes.lookup w = some t ∧
    t ∉ plainTypes := by
  have h : ∀ w ∈ tvTags, ((reservedTypes.lookup w).any fun t => !plainTypes.contains t) = true := by decide +kernel
  intro w hw
  have := h w hw
  cases e : reservedTypes.lookup w with
  | none => rw [e] at this; cases this
  | some t =>
    rw [e] at this
    exact ⟨t, rfl, by simpa using this⟩

private theorem plain_types (t : Tok) (h : ∀ w, t ≠ .tag w) :
    t.type ∈ plainTypes := by
  cases t with
  | tag w => exact absurd rfl (h w)
  | unknown _ => exact (by decide : s%"UNKNOWN_TAG" ∈ plainTypes)
  | text _ => exact (by decide : s%"TEXT" ∈ plainTypes)
  | tool _ => exact (by decide : s%"TOOL_VALUE" ∈ plainTypes)
  | org _ => exact (by decide : s%"ORGANIZATION_VALUE" ∈ plainTypes)
  | person _ => exact (by decide : s%"PERSON_VALUE" ∈ plainTypes)
  | date _ => exact (by decide : s%"ISO8601_DATE" ∈ plainTypes)
  | checksum _ => exact (by decide : s%"CHECKSUM" ∈ plainTypes)
  | line _ => exact (by decide : s%"LINE" ∈ plainTypes)
  | noAssertion => exact (by decide : s%"NO_ASSERTION" ∈ plainTypes)
  | none => exact (by decide : s%"NONE" ∈ plainTypes)
  | error => exact (by decide : s%"error" ∈ plainTypes)

private theorem tag_type {w : Str} (h : w ∈ tvTags) :
    (Tok.tag w).type ∉ plainTypes := by
  obtain ⟨t, ht, hn⟩ := types_of_tags w h
  show (reservedTypes.lookup w).getD [] ∉ _
  rw [ht]
  exact hn

/-- The model's tokens are PLY's: a token of the lexer is determined by its type and its value. -/
theorem token_determined (text text' : Str) (a b : Tok) (ha : a ∈ lex text) (hb : b ∈ lex text')
    (h : (a.type, a.value) = (b.type, b.value)) : a = b := by
  have ma := lex_made _ text (Nat.le_refl _) a ha
  have mb := lex_made _ text' (Nat.le_refl _) b hb
  rw [Prod.mk.injEq] at h
  obtain ⟨ht, hv⟩ := h
  by_cases h1 : ∃ w, a = .tag w
  · obtain ⟨w, rfl⟩ := h1
    by_cases h2 : ∃ w, b = .tag w
    · obtain ⟨w', rfl⟩ := h2
      exact congrArg Tok.tag hv
    · have := plain_types b (fun w e => h2 ⟨w, e⟩)
      rw [← ht] at this
      exact absurd this (tag_type (ma w rfl))
  · by_cases h2 : ∃ w, b = .tag w
    · obtain ⟨w', rfl⟩ := h2
      have := plain_types a (fun w e => h1 ⟨w, e⟩)
      rw [ht] at this
      exact absurd this (tag_type (mb w' rfl))
    · cases a <;> first | exact absurd ⟨_, rfl⟩ h1 | skip
      all_goals cases b <;> first
        | exact absurd ⟨_, rfl⟩ h2
        | exact absurd ht (by simp only [Tok.type]; decide)
        | (simp only [Tok.value] at hv; rw [hv])
        | rfl

/-- All the rules in one text: tags, a text over lines, a checksum, the three kinds of actors, a date, a line, reserved words as values, an
    unknown tag, a comment and a character that no rule matches. -/
example : PlyLexes ⟨s%"# c\nPackageName: x y \nExtractedText: <text>a\nb</text>\n\nFileChecksum: SHA1:  0aZ\nCreator: Tool: t\nA:NONE\nB:\t2020-01-02T03:04:05Z.", none⟩
    [(s%"PKG_NAME", s%"PackageName"), (s%"LINE", s%"x y"), (s%"LICENSE_TEXT", s%"ExtractedText"), (s%"TEXT", s%"<text>a\nb</text>"),
     (s%"FILE_CHECKSUM", s%"FileChecksum"), (s%"CHECKSUM", s%"SHA1:  0a"), (s%"UNKNOWN_TAG", s%"Z"), (s%"CREATOR", s%"Creator"),
     (s%"TOOL_VALUE", s%"Tool: t"), (s%"UNKNOWN_TAG", s%"A"), (s%"NONE", s%"NONE"), (s%"UNKNOWN_TAG", s%"B"),
     (s%"ISO8601_DATE", s%"2020-01-02T03:04:05Z"), (s%"error", s%"Lexer error")] :=
  (tokens _ _).2 (by decide +kernel)

/-- A text that is never closed is swallowed. -/
example : PlyLexes ⟨s%"FileComment: <text>a\nFileName: b", none⟩ [(s%"FILE_COMMENT", s%"FileComment")] :=
  (tokens _ _).2 (by decide +kernel)

/-- The rules are run, not only parsed. -/
example : lexMatch lexRules s%": Person: p (q)\nx" = some (s%"t_PERSON_VALUE", s%": Person: p (q)", s%"\nx") := by decide +kernel

end Spdx.C61
