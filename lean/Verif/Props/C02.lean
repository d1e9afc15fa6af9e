import Verif.Model.JsonNames
import Verif.Model.Enums
import Verif.Lemmas.Chars
/-
C02 – The camelCase names of fields and enum members are unambiguous and convertible back.
-/
namespace Spdx.C02
open Spdx

/-! ### Specification -/

/-- A word of a snake_case name: lower-case letters, then possibly digits. -/
def Word (w : Str) : Prop :=
  ∃ ls ds : Str, w = ls ++ ds ∧ ls ≠ [] ∧ (∀ c ∈ ls, isLowerAZ c = true) ∧ ∀ c ∈ ds, isDigit09 c = true

/-- The snake_case name of a list of words. -/
def snakeOf : List Str → Str := joinWith ['_']

/-- A word with its first letter raised. -/
def capitalized : Str → Str
  | [] => []
  | c :: cs => toUpperC c :: cs

/-- The camelCase name of a list of words: the first word as is, the others capitalised, nothing in between. -/
def camelOf : List Str → Str
  | [] => []
  | w :: ws => w ++ ws.flatMap capitalized

/-- No word strictly between the first and the last is a single character. -/
def InnerLong (ws : List Str) : Prop := ∀ w ∈ ws.tail.dropLast, 2 ≤ w.length

/-! ### Helper lemmas -/

private theorem join_cons (w : Str) (ws : List Str) :
    joinWith ['_'] (w :: ws) = w ++ ws.flatMap (fun v => '_' :: v) := by
  induction ws generalizing w with
  | nil => simp [joinWith]
  | cons v vs ih => simp [joinWith, ih v]

private theorem Word.chars {w : Str} (h : Word w) : ∀ c ∈ w, isLowerAZ c = true ∨ isDigit09 c = true := by
  obtain ⟨ls, ds, rfl, -, h1, h2⟩ := h
  intro c hc
  rcases List.mem_append.1 hc with h | h
  · exact .inl (h1 c h)
  · exact .inr (h2 c h)

private theorem Word.noSep {w : Str} (h : Word w) : ∀ c ∈ w, c ≠ '_' ∧ c ≠ '-' ∧ c ≠ ' ' := by
  intro c hc
  rcases h.chars c hc with h | h
  · have := lower_facts c h; grind
  · have := digit_facts c h; grind

private theorem collapse_append {w : Str} (h : ∀ c ∈ w, c ≠ '_' ∧ c ≠ '-' ∧ c ≠ ' ') (b : Bool) (r : Str)
    (hw : w ≠ []) : collapseSeps b (w ++ r) = w ++ collapseSeps false r := by
  induction w generalizing b with
  | nil => exact absurd rfl hw
  | cons c cs ih =>
    have hc := h c (by simp)
    by_cases hcs : cs = []
    · subst hcs; simp [collapseSeps, hc.1, hc.2.1]
    · simp [collapseSeps, hc.1, hc.2.1, ih (fun x hx => h x (by simp [hx])) false hcs]

private theorem Word.ne_nil {w : Str} (h : Word w) : w ≠ [] := by
  obtain ⟨ls, ds, rfl, h0, -⟩ := h; simp [h0]

private theorem collapse_rest (ws : List Str) (h : ∀ w ∈ ws, Word w) :
    collapseSeps false (ws.flatMap (fun v => '_' :: v)) = ws.flatMap (fun v => ' ' :: v) := by
  induction ws with
  | nil => rfl
  | cons w ws ih =>
    have hw := h w (by simp)
    simp only [List.flatMap_cons, List.cons_append]
    rw [collapseSeps]
    simp only [true_or, if_true, Bool.false_eq_true, if_false]
    rw [collapse_append hw.noSep true _ hw.ne_nil, ih (fun x hx => h x (by simp [hx]))]

private theorem title_digits (ds : Str) (h : ∀ c ∈ ds, isDigit09 c = true) (b : Bool) (r : Str) :
    ∃ b', titleAux b (ds ++ r) = ds ++ titleAux b' r := by
  induction ds generalizing b with
  | nil => exact ⟨b, rfl⟩
  | cons c cs ih =>
    obtain ⟨b', hb'⟩ := ih (fun x hx => h x (by simp [hx])) false
    refine ⟨b', ?_⟩
    simp [titleAux, (digit_facts c (h c (by simp))).1, hb']

private theorem title_letters (ls : Str) (h : ∀ c ∈ ls, isLowerAZ c = true) (r : Str) :
    titleAux true (ls ++ r) = ls ++ titleAux true r := by
  induction ls with
  | nil => rfl
  | cons c cs ih =>
    have hc := lower_facts c (h c (by simp))
    simp [titleAux, hc.1, hc.2.1, ih (fun x hx => h x (by simp [hx]))]

private theorem title_word {w : Str} (h : Word w) (r : Str) :
    ∃ b, titleAux false (w ++ r) = capitalized w ++ titleAux b r := by
  obtain ⟨ls, ds, rfl, h0, h1, h2⟩ := h
  cases ls with
  | nil => exact absurd rfl h0
  | cons c cs =>
    have hc := lower_facts c (h1 c (by simp))
    obtain ⟨b, hb⟩ := title_digits ds h2 true r
    refine ⟨b, ?_⟩
    simp [titleAux, hc.1, capitalized, title_letters cs (fun x hx => h1 x (by simp [hx])), hb]

private theorem title_rest (ws : List Str) (h : ∀ w ∈ ws, Word w) (b : Bool) :
    titleAux b (ws.flatMap (fun v => ' ' :: v)) = ws.flatMap (fun v => ' ' :: capitalized v) := by
  induction ws generalizing b with
  | nil => rfl
  | cons w ws ih =>
    obtain ⟨b', hb'⟩ := title_word (h w (by simp)) (ws.flatMap (fun v => ' ' :: v))
    simp only [List.flatMap_cons, List.cons_append]
    rw [titleAux]
    simp [show isLetterAZ ' ' = false from rfl, hb', ih (fun x hx => h x (by simp [hx]))]

private theorem filter_cap {w : Str} (h : Word w) : (capitalized w).filter (· ≠ ' ') = capitalized w := by
  rw [List.filter_eq_self]
  intro c hc
  obtain ⟨ls, ds, rfl, h0, h1, h2⟩ := h
  cases ls with
  | nil => exact absurd rfl h0
  | cons d cs =>
    simp only [capitalized, List.cons_append, List.mem_cons, List.mem_append] at hc
    rcases hc with rfl | hc | hc
    · simpa using (lower_facts d (h1 d (by simp))).2.2.2.2.2.2.2.1
    · have := lower_facts c (h1 c (by simp [hc])); simpa using this.2.2.2.2.2.2.1
    · have := digit_facts c (h2 c hc); simpa using this.2.2.2.2.1

private theorem filter_rest (ws : List Str) (h : ∀ w ∈ ws, Word w) :
    (ws.flatMap (fun v => ' ' :: capitalized v)).filter (· ≠ ' ') = ws.flatMap capitalized := by
  induction ws with
  | nil => rfl
  | cons w ws ih =>
    have h1 := filter_cap (h w (by simp))
    have h2 := ih (fun x hx => h x (by simp [hx]))
    simp only [List.flatMap_cons, List.cons_append, List.filter_append, List.filter_cons] at h1 h2 ⊢
    simp only [ne_eq, not_true_eq_false, decide_false, Bool.false_eq_true, if_false] at h1 h2 ⊢
    rw [h1, h2]

/-! ### Theorems -/

/-- Converting a snake_case name gives exactly the camelCase name of its words. -/
theorem snakeToCamel_words (w : Str) (ws : List Str) (h : ∀ v ∈ w :: ws, Word v) :
    snakeToCamel (snakeOf (w :: ws)) = some (camelOf (w :: ws)) := by
  have hw := h w (by simp)
  have hws : ∀ v ∈ ws, Word v := fun v hv => h v (by simp [hv])
  obtain ⟨b, hb⟩ := title_word hw (ws.flatMap (fun v => ' ' :: v))
  have e : (titleAux false (collapseSeps false (snakeOf (w :: ws)))).filter (· ≠ ' ')
      = capitalized w ++ ws.flatMap capitalized := by
    rw [snakeOf, join_cons, collapse_append hw.noSep false _ hw.ne_nil, collapse_rest ws hws, hb, title_rest ws hws,
      List.filter_append, filter_cap hw, filter_rest ws hws]
  rw [snakeToCamel, e]
  obtain ⟨ls, ds, rfl, h0, h1, h2⟩ := hw
  cases ls with
  | nil => exact absurd rfl h0
  | cons c cs =>
    simp [capitalized, camelOf, (lower_facts c (h1 c (by simp))).2.2.2.1]

private theorem ins_low (w : Str) (h : ∀ c ∈ w, isUpperAZ c = false ∧ toLowerC c = c) (b : Bool) (r : Str)
    (hw : w ≠ []) :
    (insertUnderscores b (w ++ r)).map toLowerC = w ++ (insertUnderscores false r).map toLowerC := by
  induction w generalizing b with
  | nil => exact absurd rfl hw
  | cons c cs ih =>
    have hc := h c (by simp)
    by_cases hcs : cs = []
    · subst hcs; simp [insertUnderscores, hc.1, hc.2]
    · simp [insertUnderscores, hc.1, hc.2, ih (fun x hx => h x (by simp [hx])) false hcs]

private theorem Word.low {w : Str} (h : Word w) : ∀ c ∈ w, isUpperAZ c = false ∧ toLowerC c = c := by
  intro c hc
  rcases h.chars c hc with h | h
  · have := lower_facts c h; grind
  · have := digit_facts c h; grind

private theorem ins_cap {w : Str} (h : Word w) (r : Str) (hl : 2 ≤ w.length) :
    (insertUnderscores false (capitalized w ++ r)).map toLowerC
      = '_' :: w ++ (insertUnderscores false r).map toLowerC := by
  have hlow := h.low
  obtain ⟨ls, ds, e, h0, h1, h2⟩ := h
  cases ls with
  | nil => exact absurd rfl h0
  | cons c cs =>
    subst e
    have hc := lower_facts c (h1 c (by simp))
    have : cs ++ ds ≠ [] := by intro hh; simp [hh] at hl
    have := ins_low (cs ++ ds) (fun x hx => hlow x (List.mem_cons_of_mem _ hx)) true r this
    simp only [List.append_assoc] at this
    simp [capitalized, insertUnderscores, hc.2.2.1, hc.2.2.2.1, this, show toLowerC '_' = '_' from rfl]

private theorem ins_last {w : Str} (h : Word w) :
    (insertUnderscores false (capitalized w)).map toLowerC = '_' :: w := by
  by_cases hl : 2 ≤ w.length
  · have := ins_cap h [] hl
    simpa [insertUnderscores] using this
  · obtain ⟨ls, ds, rfl, h0, h1, h2⟩ := h
    match ls, h0 with
    | c :: cs, _ =>
      have hc := lower_facts c (h1 c (by simp))
      have : cs = [] ∧ ds = [] := by simp only [List.length_append, List.length_cons] at hl; constructor <;> (apply List.eq_nil_of_length_eq_zero; omega)
      simp [this, capitalized, insertUnderscores, hc.2.2.1, hc.2.2.2.1, show toLowerC '_' = '_' from rfl]

private theorem ins_rest (ws : List Str) (h : ∀ w ∈ ws, Word w) (hl : ∀ w ∈ ws.dropLast, 2 ≤ w.length) :
    (insertUnderscores false (ws.flatMap capitalized)).map toLowerC = ws.flatMap (fun v => '_' :: v) := by
  induction ws with
  | nil => rfl
  | cons w ws ih =>
    cases ws with
    | nil => simpa using ins_last (h w (by simp))
    | cons v vs =>
      rw [List.flatMap_cons, ins_cap (h w (by simp)) _ (hl w (by simp)),
        ih (fun x hx => h x (List.mem_cons_of_mem _ hx)) (fun x hx => hl x (by simp [List.dropLast, hx]))]
      rfl

/-- Converting the camelCase name back gives the snake_case name, if no inner word is a single character. -/
theorem camelToSnake_words (w : Str) (ws : List Str) (h : ∀ v ∈ w :: ws, Word v) (hl : InnerLong (w :: ws)) :
    camelToSnake (camelOf (w :: ws)) = snakeOf (w :: ws) := by
  have hw := h w (by simp)
  have hws : ∀ v ∈ ws, Word v := fun v hv => h v (by simp [hv])
  have hrest := ins_rest ws hws hl
  have hlow := hw.low
  rw [snakeOf, join_cons]
  match w, hw.ne_nil with
  | [c], _ =>
    simp [camelOf, camelToSnake, hrest, (hlow c (by simp)).2]
  | c :: d :: cs, _ =>
    have := ins_low (d :: cs) (fun x hx => hlow x (List.mem_cons_of_mem _ hx)) false (ws.flatMap capitalized) (by simp)
    simp only [camelOf, camelToSnake, List.cons_append, List.map_cons, (hlow c (by simp)).2]
    simp only [List.cons_append] at this
    rw [this, hrest]

/-- Round trip: snake → camel → snake is the identity on such names. -/
theorem snake_camel_snake (w : Str) (ws : List Str) (h : ∀ v ∈ w :: ws, Word v) (hl : InnerLong (w :: ws)) :
    (snakeToCamel (snakeOf (w :: ws))).map camelToSnake = some (snakeOf (w :: ws)) := by
  rw [snakeToCamel_words w ws h, Option.map_some, camelToSnake_words w ws h hl]

/-- Round trip: camel → snake → camel is the identity on the camelCase names of such words. -/
theorem camel_snake_camel (w : Str) (ws : List Str) (h : ∀ v ∈ w :: ws, Word v) (hl : InnerLong (w :: ws)) :
    snakeToCamel (camelToSnake (camelOf (w :: ws))) = some (camelOf (w :: ws)) := by
  rw [camelToSnake_words w ws h hl, snakeToCamel_words w ws h]

/-- Hence distinct names of this shape never get the same camelCase name. -/
theorem snakeToCamel_injective (w v : Str) (ws vs : List Str) (h : ∀ x ∈ w :: ws, Word x) (h' : ∀ x ∈ v :: vs, Word x)
    (hl : InnerLong (w :: ws)) (hl' : InnerLong (v :: vs))
    (e : snakeToCamel (snakeOf (w :: ws)) = snakeToCamel (snakeOf (v :: vs))) :
    snakeOf (w :: ws) = snakeOf (v :: vs) := by
  have := congrArg (Option.map camelToSnake) e
  rw [snake_camel_snake w ws h hl, snake_camel_snake v vs h' hl'] at this
  simpa using this

/-- Without the condition on inner words the law fails: `a_b_c` and `a_bc`… the former comes back as the latter. -/
theorem single_letter_words_collide :
    ¬ ∀ w ws, (∀ v ∈ w :: ws, Word v) → (snakeToCamel (snakeOf (w :: ws))).map camelToSnake = some (snakeOf (w :: ws)) := by
  intro h
  have := h ['a'] [['b'], ['c']] (by
    intro v hv
    refine ⟨v, [], by simp, ?_⟩
    simp only [List.mem_cons, List.not_mem_nil, or_false] at hv
    rcases hv with rfl | rfl | rfl <;> decide)
  exact absurd this (by decide)

/-- Every JSON property name is defined, and within one class no two properties share a JSON name. -/
theorem json_names_distinct : ∀ t ∈ allPropTables,
    (∀ m ∈ t, (jsonPropertyName m).isSome) ∧ (t.filterMap jsonPropertyName).Nodup ∧
      (t.filterMap jsonPropertyName).length = t.length := by decide +kernel

/-- Reading a JSON property name back by the camel → snake conversion gives the enum member's name. -/
theorem json_names_invert : ∀ t ∈ allPropTables, ∀ m ∈ t, m ≠ s%"SPDX_ID" →
    (jsonPropertyName m).map (fun n => upperAscii (camelToSnake n)) = some m := by decide +kernel

/-! Non-vacuity -/
example : snakeToCamel s%"has_extracted_licensing_infos" = some s%"hasExtractedLicensingInfos" := by decide
example : (∀ v ∈ [s%"spdx", s%"version", s%"x2"], Word v) ∧ InnerLong [s%"spdx", s%"version", s%"x2"] := by
  refine ⟨?_, by unfold InnerLong; decide⟩
  intro v hv
  simp only [List.mem_cons, List.not_mem_nil, or_false] at hv
  rcases hv with rfl | rfl | rfl
  · exact ⟨s%"spdx", [], by decide⟩
  · exact ⟨s%"version", [], by decide⟩
  · exact ⟨s%"x", s%"2", by decide⟩

end Spdx.C02
