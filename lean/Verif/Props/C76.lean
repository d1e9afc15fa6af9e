import Verif.Lemmas.Lines
/-
C76: the line number in a tag-value message.
-/
namespace Spdx.C76
open Spdx Spec

/-- Wherever the lexer applies a rule, its line number and the line breaks it has stepped over so far add up to the true number of the
    line. -/
theorem line_number (text : Str) (xs : List Place) (p : Place) (ys : List Place) (h : places 1 text = xs ++ p :: ys) :
    text = p.before ++ p.after ∧ p.line + (xs.map steppedOver).sum = lineAfter p.before := by
  obtain ⟨h1, h2, _⟩ := placesFrom_line text.length 1 0 [] text rfl xs p ys h
  exact ⟨h1.symm, by simpa [lineAfter] using h2⟩

/-- A rule is applied to all that is left of the text, and makes the token that stands there. -/
theorem token_there (text : Str) (p : Place) (h : p ∈ places 1 text) : ∃ r, lexOne p.after = some (p.tok, r) := by
  obtain ⟨xs, ys, e⟩ := List.append_of_mem h
  exact (placesFrom_line text.length 1 0 [] text rfl xs p ys e).2.2

private theorem sum_zero {l : List Nat} : l.sum = 0 ↔ ∀ x ∈ l, x = 0 := by
  induction l with
  | nil => simp
  | cons a l ih => simp [ih]

/-- The line number is right if and only if no earlier value is on another line than its colon … -/
theorem exact_iff (text : Str) (xs : List Place) (p : Place) (ys : List Place) (h : places 1 text = xs ++ p :: ys) :
    p.line = lineAfter p.before ↔ ∀ q ∈ xs, steppedOver q = 0 := by
  have := (line_number text xs p ys h).2
  have hz : (xs.map steppedOver).sum = 0 ↔ ∀ q ∈ xs, steppedOver q = 0 := by simp [sum_zero]
  rw [← hz]
  omega

/-- … and it is never too large. -/
theorem never_too_large (text : Str) (p : Place) (h : p ∈ places 1 text) : p.line ≤ lineAfter p.before := by
  obtain ⟨xs, ys, e⟩ := List.append_of_mem h
  have := (line_number text xs p ys e).2
  omega

/-- The attributes with line numbers are the attributes on which the reader acts. -/
theorem same_attributes (n : Nat) (text : Str) : (readLines n text).map (·.1) = attrs (lex text) := by
  have h1 := (attrLines_scan (lexLines n text).length (lexLines n text)).1
  have h2 : (lexLines n text).map (·.1) = lex text := by
    unfold lexLines lex places
    rw [← placesFrom_toks text.length n [] text, List.map_filterMap]
    congr 1
    funext p
    cases e : p.tok <;> simp [Place.numbered, e]
  unfold readLines attrLines attrs
  rw [h1, h2, ← h2, List.length_map]

/-- Each attribute has the line number of the place where its tag is read; and the tags come in the order of the text. -/
theorem line_of_tag (n : Nat) (text : Str) : ∃ ps, List.Sublist ps (places n text) ∧
    All2 (fun x p => ∃ t, p.tok = some t ∧ TagOf x.1 t ∧ x.2 = p.line) (readLines n text) ps := by
  obtain ⟨sub, h1, h2⟩ := (attrLines_scan (lexLines n text).length (lexLines n text)).2
  have lift : ∀ (l : List Place) (sub : List (Tok × Nat)), sub.Sublist (l.filterMap Place.numbered) →
      ∃ ps, List.Sublist ps l ∧ sub = ps.filterMap Place.numbered ∧ ∀ p ∈ ps, p.tok.isSome := by
    intro l
    induction l with
    | nil =>
      intro sub h
      exact ⟨[], .slnil, by simpa using h, by simp⟩
    | cons q l ih =>
      intro sub h
      cases hq : q.tok with
      | none =>
        have hn : q.numbered = none := by simp [Place.numbered, hq]
        rw [List.filterMap_cons, hn] at h
        obtain ⟨ps, a, b, c⟩ := ih sub h
        exact ⟨ps, a.cons _, b, c⟩
      | some t =>
        have hn : q.numbered = some (t, q.line) := by simp [Place.numbered, hq]
        rw [List.filterMap_cons, hn] at h
        cases h with
        | cons _ h =>
          obtain ⟨ps, a, b, c⟩ := ih sub h
          exact ⟨ps, a.cons _, b, c⟩
        | cons_cons _ h =>
          obtain ⟨ps, a, b, c⟩ := ih _ h
          refine ⟨q :: ps, a.cons_cons _, by rw [List.filterMap_cons, hn, ← b], ?_⟩
          intro p hp
          rcases List.mem_cons.1 hp with rfl | hp
          · rw [hq]; rfl
          · exact c p hp
  obtain ⟨ps, hs, rfl, hps⟩ := lift (places n text) sub h1
  refine ⟨ps, hs, ?_⟩
  change All2 _ (readLines n text) _ at h2
  generalize readLines n text = as at h2
  clear hs h1
  induction ps generalizing as with
  | nil => cases h2; exact .nil
  | cons p ps ih =>
    obtain ⟨t, ht⟩ := Option.isSome_iff_exists.1 (hps p List.mem_cons_self)
    have hn : p.numbered = some (t, p.line) := by simp [Place.numbered, ht]
    rw [List.filterMap_cons, hn] at h2
    cases h2 with
    | cons h h2 => exact .cons ⟨t, ht, h⟩ (ih (fun q hq => hps q (List.mem_cons_of_mem _ hq)) _ h2)

/-- In a text in which every colon is followed by something on the same line, the line number in a message about an attribute is that of
    the line on which its tag stands. -/
theorem exact_line (text : Str) (h : ColonsFollowed text) (a : TvAttr) (n : Nat) (ha : (a, n) ∈ readLines 1 text) :
    ∃ before after t r, text = before ++ after ∧ lexOne after = some (some t, r) ∧ TagOf a t ∧ n = lineAfter before := by
  obtain ⟨ps, hs, h2⟩ := line_of_tag 1 text
  have : ∃ p ∈ ps, ∃ t, p.tok = some t ∧ TagOf a t ∧ n = p.line := by
    generalize readLines 1 text = as at h2 ha
    clear hs
    induction h2 with
    | nil => cases ha
    | cons hx _ ih =>
      rcases List.mem_cons.1 ha with e | ha
      · subst e; exact ⟨_, List.mem_cons_self, hx⟩
      · obtain ⟨p, hp, q⟩ := ih ha
        exact ⟨p, List.mem_cons_of_mem _ hp, q⟩
  obtain ⟨p, hp, t, ht, hta, hn⟩ := this
  have hpm := hs.subset hp
  obtain ⟨r, hr⟩ := token_there text p hpm
  obtain ⟨xs, ys, e⟩ := List.append_of_mem hpm
  refine ⟨p.before, p.after, t, r, (line_number text xs p ys e).1, by rw [hr, ht], hta, ?_⟩
  rw [hn, (exact_iff text xs p ys e)]
  intro q hq
  have hqm : q ∈ places 1 text := by rw [e]; exact List.mem_append_left _ hq
  obtain ⟨xs', ys', e'⟩ := List.append_of_mem hqm
  have hsplit := (line_number text xs' q ys' e').1
  obtain ⟨r', hr'⟩ := token_there text q hqm
  exact stepped_of_colons (fun u v huv => h (q.before ++ u) v (by rw [hsplit, huv, List.append_assoc])) hr'

/-- A parser that has read a text before goes on counting: all the numbers are too large by the same amount. -/
theorem reused (n k : Nat) (text : Str) : (readLines (n + k) text) = (readLines n text).map fun x => (x.1, x.2 + k) := by
  have h1 : lexLines (n + k) text = (lexLines n text).map fun x => (x.1, x.2 + k) := by
    unfold lexLines places
    rw [placesFrom_shift, List.filterMap_map, List.map_filterMap]
    congr 1
    funext p
    cases e : p.tok <;> simp [Place.numbered, e]
  unfold readLines attrLines
  rw [h1, List.length_map]
  exact attrLines_shift k _ _

/-- A text whose second line holds the value of the first tag: the unknown tag stands on line 3. -/
def spread : Str := s%"PackageChecksum:\nSHA1: ab\nFoo: x"

/-- The line number is wrong for a file in which a value follows on the next line. -/
theorem too_small : ∃ text : Str, ∃ p ∈ places 1 text, p.tok = some (.unknown s%"Foo") ∧ p.line < lineAfter p.before :=
  ⟨spread, ⟨some (.unknown s%"Foo"), 2, s%"PackageChecksum:\nSHA1: ab\n", s%"Foo: x"⟩, by decide +kernel, rfl, by decide +kernel⟩

example : (places 1 spread).map (fun p => (p.tok, p.line, lineAfter p.before)) =
    [(some (.tag s%"PackageChecksum"), 1, 1), (some (.checksum s%"SHA1: ab"), 1, 1), (none, 1, 2), (some (.unknown s%"Foo"), 2, 3),
     (some (.line s%"x"), 2, 3)] := by decide +kernel

example : readLines 1 spread = [(.value s%"PackageChecksum" (.checksum s%"SHA1: ab"), 1), (.unknown, 2)] := by decide +kernel

example : readLines 1 s%"Creator: Tool: x\n\nFoo: <text>a\nb</text>\n\nBar: x" =
    [(.value s%"Creator" (.tool s%"Tool: x"), 1), (.unknown, 3), (.unknown, 6)] := by decide +kernel

example : readLines 7 spread = [(.value s%"PackageChecksum" (.checksum s%"SHA1: ab"), 7), (.unknown, 8)] := by decide +kernel

/-- `ColonsFollowed`, computed. -/
private def colonsOk : Str → Bool
  | [] => true
  | c :: r => (c ≠ ':' || gap r == 0) && colonsOk r

private theorem colonsOk_sound : ∀ {s : Str}, colonsOk s = true → ColonsFollowed s
  | [], _ => fun a b e => by cases a <;> cases e
  | c :: s, h => by
    simp only [colonsOk, Bool.and_eq_true, Bool.or_eq_true, decide_eq_true_eq, beq_iff_eq] at h
    intro a b e
    cases a with
    | nil =>
      simp only [List.nil_append, List.cons.injEq] at e
      obtain ⟨rfl, rfl⟩ := e
      rcases h.1 with h | h
      · exact absurd rfl h
      · exact h
    | cons d a =>
      simp only [List.cons_append, List.cons.injEq] at e
      exact colonsOk_sound h.2 a b e.2

-- a text that meets the condition of `exact_line`, with an attribute on its sixth line; and one that does not
example : ColonsFollowed s%"Creator: Tool: x\n\nFoo: <text>a\nb</text>\n\nBar: x" := colonsOk_sound (by decide +kernel)

example : ¬ ColonsFollowed spread := fun h => absurd (h s%"PackageChecksum" s%"\nSHA1: ab\nFoo: x" rfl) (by decide +kernel)

end Spdx.C76
