import Verif.Lemmas.Minified
/-
Lemmas for C90: brackets and quotation marks in JSON texts.
-/
namespace Spdx.JsonCut
open Spec Spec.JsonGrammar Minified

/-- Where one is in a text. -/
inductive Mode where
  | plain | quoted | escaped
deriving DecidableEq

/-- The number of open brackets, and whether a string is open. -/
def step (s : Mode × Nat) (c : Char) : Mode × Nat :=
  match s.1 with
  | .plain => if c = '"' then (.quoted, s.2) else if c = '{' ∨ c = '[' then (.plain, s.2 + 1) else if c = '}' ∨ c = ']' then (.plain, s.2 - 1) else s
  | .quoted => if c = '\\' then (.escaped, s.2) else if c = '"' then (.plain, s.2) else s
  | .escaped => (.quoted, s.2)

def run (s : Mode × Nat) (t : Str) : Mode × Nat := t.foldl step s

theorem run_append (s : Mode × Nat) (a b : Str) : run s (a ++ b) = run (run s a) b := List.foldl_append ..

/-- From the mode `m` the text leads to plain text with as many open brackets, and never has fewer. -/
def BalancedFrom (m : Mode) (t : Str) : Prop :=
  ∀ n, run (m, n) t = (.plain, n) ∧ ∀ u r, t = u ++ r → n ≤ (run (m, n) u).2

abbrev Balanced := BalancedFrom .plain

theorem nil : Balanced [] := fun n => ⟨rfl, fun u r h => by
  obtain ⟨rfl, rfl⟩ := List.append_eq_nil_iff.1 h.symm
  exact Nat.le_refl n⟩

theorem append {m : Mode} {a b : Str} (ha : BalancedFrom m a) (hb : Balanced b) : BalancedFrom m (a ++ b) := by
  intro n
  refine ⟨by rw [run_append, (ha n).1, (hb n).1], ?_⟩
  intro u r h
  rcases List.append_eq_append_iff.1 h with ⟨x, rfl, hx⟩ | ⟨x, rfl, rfl⟩
  · rw [run_append, (ha n).1]
    exact (hb n).2 x r hx
  · exact (ha n).2 u x rfl

/-- A character that neither opens nor closes anything. -/
def Still (c : Char) : Prop := c ≠ '"' ∧ ¬ (c = '{' ∨ c = '[') ∧ ¬ (c = '}' ∨ c = ']')

instance (c : Char) : Decidable (Still c) := inferInstanceAs (Decidable (_ ∧ _))

theorem cons {m m' : Mode} {c : Char} {t : Str} (hc : ∀ n, step (m, n) c = (m', n)) (ht : BalancedFrom m' t) : BalancedFrom m (c :: t) := by
  intro n
  have e : ∀ t, run (m, n) (c :: t) = run (m', n) t := fun t => by
    show run (step (m, n) c) t = _
    rw [hc]
  refine ⟨by rw [e, (ht n).1], ?_⟩
  intro u r h
  cases u with
  | nil => exact Nat.le_refl n
  | cons d u =>
    obtain ⟨rfl, rfl⟩ := List.cons.inj h
    rw [e]
    exact (ht n).2 u r rfl

theorem still {t : Str} (h : ∀ c ∈ t, Still c) : Balanced t := by
  induction t with
  | nil => exact nil
  | cons c t ih =>
    refine cons (fun n => ?_) (ih fun x hx => h x (List.mem_cons_of_mem _ hx))
    have hc := h c List.mem_cons_self
    simp [step, hc.1, hc.2.1, hc.2.2]

/-- A pair of brackets with something in between: inside there is one bracket more. -/
theorem bracket {o c : Char} (ho : o = '{' ∨ o = '[') (hc : c = '}' ∨ c = ']') {t : Str} (h : Balanced t) :
    Balanced (o :: (t ++ [c])) ∧ ∀ n u r, o :: (t ++ [c]) = u ++ r → u ≠ [] → r ≠ [] → n < (run (.plain, n) u).2 := by
  have e : ∀ n t, run (.plain, n) (o :: t) = run (.plain, n + 1) t := by
    intro n t
    show run (step (.plain, n) o) t = _
    rcases ho with rfl | rfl <;> simp [step]
  have inside : ∀ n u r, o :: (t ++ [c]) = u ++ r → u ≠ [] → r ≠ [] → n < (run (.plain, n) u).2 := by
    intro n u r hu hn hr
    cases u with
    | nil => exact absurd rfl hn
    | cons d u =>
      obtain ⟨rfl, hu'⟩ := List.cons.inj hu
      rw [e]
      refine (h (n + 1)).2 u (r.dropLast) ?_
      have := congrArg List.dropLast hu'
      rw [List.dropLast_concat] at this
      rw [this]
      show (u ++ r).dropLast = _
      rw [List.dropLast_append_of_ne_nil hr]
  have whole : ∀ n, run (.plain, n) (o :: (t ++ [c])) = (.plain, n) := by
    intro n
    rw [e, run_append, (h (n + 1)).1]
    show step (.plain, n + 1) c = _
    rcases hc with rfl | rfl <;> simp [step]
  refine ⟨fun n => ⟨whole n, fun u r hu => ?_⟩, inside⟩
  by_cases h1 : u = []
  · subst h1; exact Nat.le_refl n
  by_cases h2 : r = []
  · subst h2
    rw [List.append_nil] at hu
    rw [← hu, whole]
    exact Nat.le_refl n
  exact Nat.le_of_lt (inside n u r hu h1 h2)

theorem ws {w : Str} (h : Ws w) : Balanced w := by
  refine still fun c hc => ?_
  rcases h c hc with rfl | rfl | rfl | rfl <;> decide

theorem digits {t : Str} (h : Digits t) : ∀ c ∈ t, Still c := by
  have all : ∀ c ∈ ['0', '1', '2', '3', '4', '5', '6', '7', '8', '9'], Still c := by decide
  exact fun c hc => all c (h.2 c hc)

theorem whole {i : Int} {t : Str} (h : WholeNumber i t) : ∀ c ∈ t, Still c := by
  cases h with
  | pos h _ => exact digits h.1
  | neg h _ => exact List.forall_mem_cons.2 ⟨by decide, digits h.1⟩

theorem float {t : Str} (h : FloatNumber t) : ∀ c ∈ t, Still c := by
  rcases h with h | ⟨minus, i, f, e, rfl, hm, hi, hf, he, _⟩
  · have all : ∀ s ∈ [s%"NaN", s%"Infinity", s%"-Infinity"], ∀ c ∈ s, Still c := by decide
    exact all t h
  · intro c hc
    simp only [List.mem_append] at hc
    rcases hc with ((hc | hc) | hc) | hc
    · rcases hm with rfl | rfl
      · simp at hc
      · obtain rfl := List.mem_singleton.1 hc; decide
    · exact digits hi.1 c hc
    · rcases hf with rfl | ⟨u, rfl, h⟩
      · simp at hc
      · have all : ∀ c ∈ '.' :: u, Still c := List.forall_mem_cons.2 ⟨by decide, digits h⟩
        exact all c hc
    · rcases he with rfl | ⟨e, sign, u, rfl, he, hs, h⟩
      · simp at hc
      · rcases List.mem_cons.1 hc with rfl | hc
        · rcases he with rfl | rfl <;> decide
        · rcases List.mem_append.1 hc with hc | hc
          · rcases hs with rfl | rfl | rfl
            · simp at hc
            · obtain rfl := List.mem_singleton.1 hc; decide
            · obtain rfl := List.mem_singleton.1 hc; decide
          · exact digits h c hc

theorem in_string {c : Char} (h : c ≠ '\\') (h' : c ≠ '"') (n : Nat) : step (.quoted, n) c = (.quoted, n) := by simp [step, h, h']

theorem chars {us : List Nat} {body : Str} (h : Chars us body) : BalancedFrom .quoted (body ++ ['"']) := by
  induction h with
  | nil => exact cons (fun n => by simp [step]) nil
  | plain c _ h1 h2 _ ih => exact cons (in_string h2 h1) ih
  | letter c n _ _ ih => exact cons (m' := .escaped) (fun n => by simp [step]) (cons (fun n => by simp [step]) ih)
  | unit a b c d i j k l ha hb hc hd _ ih =>
    have q : ∀ {x : Char} {n : Nat}, (x, n) ∈ hexDigits → ∀ n, step (.quoted, n) x = (.quoted, n) := fun hx =>
      in_string (hex_plain hx).1 (hex_plain hx).2
    exact cons (m' := .escaped) (fun n => by simp [step])
      (cons (m' := .quoted) (fun n => by simp [step]) (cons (q ha) (cons (q hb) (cons (q hc) (cons (q hd) ih)))))

theorem string {s : List Nat} {t : Str} (h : StringText s t) : Balanced t := by
  obtain ⟨us, body, hc, _, rfl⟩ := h
  exact cons (fun n => by simp [step]) (chars hc)

theorem one {c : Char} (h : Still c) {t : Str} (ht : Balanced t) : Balanced (c :: t) :=
  append (a := [c]) (still (by simpa using h)) ht

mutual
theorem value : ∀ {v : Raw} {t : Str}, Value v t → Balanced t
  | _, _, .null => still (by decide)
  | _, _, .true => still (by decide)
  | _, _, .false => still (by decide)
  | _, _, .whole h => still (whole h)
  | _, _, .float h => still (float h)
  | _, _, .string h => string h
  | _, _, .emptyArray h => (bracket (.inr rfl) (.inr rfl) (ws h)).1
  | _, _, .array h => (bracket (.inr rfl) (.inr rfl) (elements h)).1
  | _, _, .emptyObject h => (bracket (.inl rfl) (.inl rfl) (ws h)).1
  | _, _, .object h => (bracket (.inl rfl) (.inl rfl) (members h)).1
theorem elements : ∀ {l : List Raw} {t : Str}, Elements l t → Balanced t
  | _, _, .one hw hv hw' => append (ws hw) (append (value hv) (ws hw'))
  | _, _, .cons hw hv hw' hl => append (ws hw) (append (value hv) (append (ws hw') (one (by decide) (elements hl))))
theorem members : ∀ {l : List (List Nat × Raw)} {t : Str}, Members l t → Balanced t
  | _, _, .one h1 hk h2 h3 hv h4 =>
    append (ws h1) (append (string hk) (append (ws h2) (one (by decide) (append (ws h3) (append (value hv) (ws h4))))))
  | _, _, .cons h1 hk h2 h3 hv h4 hl =>
    append (ws h1) (append (string hk) (append (ws h2) (one (by decide) (append (ws h3) (append (value hv)
      (append (ws h4) (one (by decide) (members hl))))))))
end

theorem json {v : Raw} {s : Str} (h : JsonText v s) : Balanced s := by
  obtain ⟨w, t, w', hw, hv, hw', rfl⟩ := h
  exact append (ws hw) (append (value hv) (ws hw'))

/-- The text of an object is in braces. -/
theorem object_text {o : List (List Nat × Raw)} {t : Str} (h : Value (.obj o) t) : ∃ b, Balanced b ∧ t = '{' :: (b ++ ['}']) := by
  cases h with
  | emptyObject h => exact ⟨_, ws h, rfl⟩
  | object h => exact ⟨_, members h, rfl⟩

theorem digit_start {t : Str} (h : Digits t) : ∃ c r, t = c :: r ∧ c ∈ ['0', '1', '2', '3', '4', '5', '6', '7', '8', '9'] := by
  cases t with
  | nil => exact absurd rfl h.1
  | cons c r => exact ⟨c, r, rfl, h.2 c List.mem_cons_self⟩

/-- A value's text begins with something other than white space, and with an opening brace if and only if it is an object. -/
theorem value_start {v : Raw} {t : Str} (h : Value v t) :
    ∃ c r, t = c :: r ∧ ¬ (c = ' ' ∨ c = '\t' ∨ c = '\n' ∨ c = '\r') ∧ (c = '{' → ∃ o, v = .obj o) := by
  have hd : ∀ c ∈ ['0', '1', '2', '3', '4', '5', '6', '7', '8', '9'], ¬ (c = ' ' ∨ c = '\t' ∨ c = '\n' ∨ c = '\r') ∧ c ≠ '{' := by decide
  cases h with
  | null => exact ⟨_, _, rfl, by decide, fun e => absurd e (by decide)⟩
  | true => exact ⟨_, _, rfl, by decide, fun e => absurd e (by decide)⟩
  | false => exact ⟨_, _, rfl, by decide, fun e => absurd e (by decide)⟩
  | whole h =>
    cases h with
    | pos h _ =>
      obtain ⟨c, r, rfl, hc⟩ := digit_start h.1
      exact ⟨c, r, rfl, (hd c hc).1, fun e => absurd e (hd c hc).2⟩
    | neg h _ => exact ⟨_, _, rfl, by decide, fun e => absurd e (by decide)⟩
  | float h =>
    rcases h with h | ⟨minus, i, f, e, rfl, hm, hi, hf, he, _⟩
    · simp only [List.mem_cons, List.not_mem_nil, or_false] at h
      rcases h with rfl | rfl | rfl
      · exact ⟨_, _, rfl, by decide, fun e => absurd e (by decide)⟩
      · exact ⟨_, _, rfl, by decide, fun e => absurd e (by decide)⟩
      · exact ⟨_, _, rfl, by decide, fun e => absurd e (by decide)⟩
    · rcases hm with rfl | rfl
      · obtain ⟨c, r, rfl, hc⟩ := digit_start hi.1
        exact ⟨c, _, rfl, (hd c hc).1, fun e => absurd e (hd c hc).2⟩
      · exact ⟨_, _, rfl, by decide, fun e => absurd e (by decide)⟩
  | string h =>
    obtain ⟨us, body, _, _, rfl⟩ := h
    exact ⟨_, _, rfl, by decide, fun e => absurd e (by decide)⟩
  | emptyArray _ => exact ⟨_, _, rfl, by decide, fun e => absurd e (by decide)⟩
  | array _ => exact ⟨_, _, rfl, by decide, fun e => absurd e (by decide)⟩
  | emptyObject _ => exact ⟨_, _, rfl, by decide, fun _ => ⟨_, rfl⟩⟩
  | object _ => exact ⟨_, _, rfl, by decide, fun _ => ⟨_, rfl⟩⟩

/-- A part of the text of an object without its end is not JSON. -/
theorem part {o : List (List Nat × Raw)} {s u r : Str} (h : JsonText (.obj o) s) (e : s = u ++ r) (hr : ¬ Ws r) (v : Raw) : ¬ JsonText v u := by
  intro hu
  obtain ⟨w, t, w', hw, hv, hw', rfl⟩ := h
  obtain ⟨b, hb, rfl⟩ := object_text hv
  have inside := (bracket (.inl rfl) (.inl rfl) hb).2
  rcases List.append_eq_append_iff.1 e with ⟨x, rfl, hx⟩ | ⟨x, rfl, _⟩
  · rcases List.append_eq_append_iff.1 hx with ⟨y, rfl, hy⟩ | ⟨y, hy, hy'⟩
    · exact hr fun c hc => hw' c (by rw [hy]; exact List.mem_append_right _ hc)
    · have bal := (json hu 0).1
      rw [run_append, (ws hw 0).1] at bal
      by_cases hxn : x = []
      · subst hxn
        rw [List.append_nil] at hu
        obtain ⟨w1, t1, w2, _, hv1, _, rfl⟩ := hu
        obtain ⟨c, r1, rfl, hc, _⟩ := value_start hv1
        exact hc (hw c (by simp))
      · by_cases hyn : y = []
        · subst hyn
          exact hr (by rw [hy']; exact hw')
        · have := inside 0 x y hy hxn hyn
          rw [bal] at this
          exact absurd this (by simp)
  · obtain ⟨w1, t1, w2, _, hv1, _, rfl⟩ := hu
    obtain ⟨c, r1, rfl, hc, _⟩ := value_start hv1
    exact hc (hw c (by simp))

/-- The text of an object with more after it is not JSON. -/
theorem more {o : List (List Nat × Raw)} {s r : Str} (h : JsonText (.obj o) s) (hr : ¬ Ws r) (v : Raw) : ¬ JsonText v (s ++ r) := by
  intro hv
  have hv' := hv
  obtain ⟨w, t, w', hw, ht, hw', e⟩ := hv
  obtain ⟨c, t1, rfl, hc, hobj⟩ := value_start ht
  have hs := h
  obtain ⟨x, u, x', hx, hu, hx', rfl⟩ := h
  obtain ⟨b, _, rfl⟩ := object_text hu
  have first : ∀ (w : Str) (c : Char) (z : Str), Ws w → ¬ (c = ' ' ∨ c = '\t' ∨ c = '\n' ∨ c = '\r') →
      (w ++ c :: z).find? (fun c => ¬ (c = ' ' ∨ c = '\t' ∨ c = '\n' ∨ c = '\r')) = some c := by
    intro w c z hw hc
    induction w with
    | nil => rw [List.nil_append, List.find?_cons_of_pos (by simpa using hc)]
    | cons d w ih =>
      have hd : d = ' ' ∨ d = '\t' ∨ d = '\n' ∨ d = '\r' := hw d List.mem_cons_self
      rw [List.cons_append, List.find?_cons_of_neg (by simp only [hd, not_true, decide_false]; decide)]
      exact ih fun y hy => hw y (List.mem_cons_of_mem _ hy)
  have e1 := first x '{' (b ++ ['}'] ++ x' ++ r) hx (by decide)
  have e2 := first w c (t1 ++ w') hw hc
  have e3 : x ++ '{' :: (b ++ ['}'] ++ x' ++ r) = w ++ c :: (t1 ++ w') := by
    simpa using e
  rw [e3, e2] at e1
  cases e1
  obtain ⟨o', rfl⟩ := hobj rfl
  exact part hv' rfl hr _ hs

end Spdx.JsonCut
