import Verif.Spec.Minified
import Verif.Spec.JsonGrammar
/-
Lemmas for C87: leaving out white space between the tokens of a JSON text.
-/
namespace Spdx.Minified
open Spec Spec.JsonGrammar

theorem ws {w : Str} (h : Ws w) (r : Str) : minify false (w ++ r) = minify false r := by
  induction w with
  | nil => rfl
  | cons c w ih =>
    rw [List.cons_append, minify.eq_def]
    have := h c (by simp)
    simp only [Bool.false_eq_true, if_false]
    rw [if_pos this, ih fun x hx => h x (by simp [hx])]

/-- A character that is neither white space nor a quotation mark. -/
def Plain (c : Char) : Prop := ¬ (c = ' ' ∨ c = '\t' ∨ c = '\n' ∨ c = '\r') ∧ c ≠ '"'

theorem plain {t : Str} (h : ∀ c ∈ t, Plain c) (r : Str) : minify false (t ++ r) = t ++ minify false r := by
  induction t with
  | nil => rfl
  | cons c t ih =>
    have hc := h c (by simp)
    rw [List.cons_append, minify.eq_def]
    simp only [Bool.false_eq_true, if_false]
    rw [if_neg hc.1, if_neg hc.2, ih fun x hx => h x (by simp [hx])]
    rfl

theorem one {c : Char} (h : Plain c) (r : Str) : minify false (c :: r) = c :: minify false r := plain (t := [c]) (by simpa using h) r

instance (c : Char) : Decidable (Plain c) := inferInstanceAs (Decidable (_ ∧ _))

theorem digits {t : Str} (h : Digits t) : ∀ c ∈ t, Plain c := by
  have all : ∀ c ∈ ['0', '1', '2', '3', '4', '5', '6', '7', '8', '9'], Plain c := by decide
  exact fun c hc => all c (h.2 c hc)

theorem whole {i : Int} {t : Str} (h : WholeNumber i t) : ∀ c ∈ t, Plain c := by
  cases h with
  | pos h _ => exact digits h.1
  | neg h _ =>
    intro c hc
    rcases List.mem_cons.1 hc with rfl | hc
    · decide
    · exact digits h.1 c hc

theorem frac {t : Str} (h : Frac t) : ∀ c ∈ t, Plain c := by
  rcases h with rfl | ⟨u, rfl, h⟩
  · simp
  · intro c hc
    rcases List.mem_cons.1 hc with rfl | hc
    · decide
    · exact digits h c hc

theorem exponent {t : Str} (h : Exp t) : ∀ c ∈ t, Plain c := by
  rcases h with rfl | ⟨e, sign, u, rfl, he, hs, h⟩
  · simp
  · intro c hc
    rcases List.mem_cons.1 hc with rfl | hc
    · rcases he with rfl | rfl <;> decide
    · rcases List.mem_append.1 hc with hc | hc
      · rcases hs with rfl | rfl | rfl
        · simp at hc
        · obtain rfl := List.mem_singleton.1 hc; decide
        · obtain rfl := List.mem_singleton.1 hc; decide
      · exact digits h c hc

theorem float {t : Str} (h : FloatNumber t) : ∀ c ∈ t, Plain c := by
  rcases h with h | ⟨minus, i, f, e, rfl, hm, hi, hf, he, _⟩
  · have all : ∀ s ∈ [s%"NaN", s%"Infinity", s%"-Infinity"], ∀ c ∈ s, Plain c := by decide
    exact all t h
  · intro c hc
    simp only [List.mem_append] at hc
    rcases hc with ((hc | hc) | hc) | hc
    · rcases hm with rfl | rfl
      · simp at hc
      · obtain rfl := List.mem_singleton.1 hc; decide
    · exact digits hi.1 c hc
    · exact frac hf c hc
    · exact exponent he c hc

theorem hex_plain {c : Char} {n : Nat} (h : (c, n) ∈ hexDigits) : c ≠ '\\' ∧ c ≠ '"' := by
  have all : ∀ p ∈ hexDigits, p.1 ≠ '\\' ∧ p.1 ≠ '"' := by decide
  exact all _ h

theorem quoted_one {c : Char} (h : c ≠ '\\') (h' : c ≠ '"') (r : Str) : minify true (c :: r) = c :: minify true r := by
  rw [minify.eq_def]
  simp [h, h']

theorem chars {us : List Nat} {body : Str} (h : Chars us body) (r : Str) :
    minify true (body ++ '"' :: r) = body ++ '"' :: minify false r := by
  induction h with
  | nil => rw [List.nil_append, minify.eq_def]; simp
  | plain c _ h1 h2 _ ih => rw [List.cons_append, quoted_one h2 h1, ih]; rfl
  | letter c n _ _ ih => rw [List.cons_append, List.cons_append, minify.eq_def]; simp [ih]
  | unit a b c d i j k l ha hb hc hd _ ih =>
    simp only [List.cons_append]
    rw [minify.eq_def]
    simp only [if_true]
    rw [quoted_one (hex_plain ha).1 (hex_plain ha).2, quoted_one (hex_plain hb).1 (hex_plain hb).2,
      quoted_one (hex_plain hc).1 (hex_plain hc).2, quoted_one (hex_plain hd).1 (hex_plain hd).2, ih]

theorem string {s : List Nat} {t : Str} (h : StringText s t) (r : Str) : minify false (t ++ r) = t ++ minify false r := by
  obtain ⟨us, body, hc, _, rfl⟩ := h
  have : '"' :: (body ++ ['"']) ++ r = '"' :: (body ++ '"' :: r) := by simp
  rw [this, minify.eq_def]
  simp [chars hc]

/-- The text of a value with other white space. -/
def Kept (G : Str → Prop) (t : Str) : Prop := ∃ t', G t' ∧ ∀ r, minify false (t ++ r) = t' ++ minify false r

theorem nows : Ws [] := by intro c hc; cases hc

mutual
theorem value : ∀ {v : Raw} {t : Str}, Value v t → Kept (Value v) t
  | _, _, .null => ⟨_, .null, plain (by decide)⟩
  | _, _, .true => ⟨_, .true, plain (by decide)⟩
  | _, _, .false => ⟨_, .false, plain (by decide)⟩
  | _, _, .whole h => ⟨_, .whole h, plain (whole h)⟩
  | _, _, .float h => ⟨_, .float h, plain (float h)⟩
  | _, _, .string h => ⟨_, .string h, string h⟩
  | _, _, .emptyArray h => ⟨_, .emptyArray nows, fun r => by
      rw [List.cons_append, List.append_assoc, one (by decide), ws h, List.cons_append, one (by decide)]; rfl⟩
  | _, _, .array h => by
    obtain ⟨u, hu, e⟩ := elements h
    refine ⟨_, .array hu, fun r => ?_⟩
    rw [List.cons_append, List.append_assoc, one (by decide), e, List.cons_append, one (by decide)]
    simp
  | _, _, .emptyObject h => ⟨_, .emptyObject nows, fun r => by
      rw [List.cons_append, List.append_assoc, one (by decide), ws h, List.cons_append, one (by decide)]; rfl⟩
  | _, _, .object h => by
    obtain ⟨u, hu, e⟩ := members h
    refine ⟨_, .object hu, fun r => ?_⟩
    rw [List.cons_append, List.append_assoc, one (by decide), e, List.cons_append, one (by decide)]
    simp
theorem elements : ∀ {l : List Raw} {t : Str}, Elements l t → Kept (Elements l) t
  | _, _, .one hw hv hw' => by
    obtain ⟨u, hu, e⟩ := value hv
    refine ⟨_, .one nows hu nows, fun r => ?_⟩
    simp only [List.append_assoc, List.nil_append, ws hw, e, ws hw']
  | _, _, .cons hw hv hw' hl => by
    obtain ⟨u, hu, e⟩ := value hv
    obtain ⟨u', hu', e'⟩ := elements hl
    refine ⟨_, .cons nows hu nows hu', fun r => ?_⟩
    simp only [List.append_assoc, List.nil_append, List.cons_append, ws hw, e, ws hw']
    rw [one (by decide), e']
theorem members : ∀ {l : List (List Nat × Raw)} {t : Str}, Members l t → Kept (Members l) t
  | _, _, .one h1 hk h2 h3 hv h4 => by
    obtain ⟨u, hu, e⟩ := value hv
    refine ⟨_, .one nows hk nows nows hu nows, fun r => ?_⟩
    simp only [List.append_assoc, List.nil_append, List.cons_append, ws h1, string hk, ws h2]
    rw [one (by decide), ws h3, e, ws h4]
  | _, _, .cons h1 hk h2 h3 hv h4 hl => by
    obtain ⟨u, hu, e⟩ := value hv
    obtain ⟨u', hu', e'⟩ := members hl
    refine ⟨_, .cons nows hk nows nows hu nows hu', fun r => ?_⟩
    simp only [List.append_assoc, List.nil_append, List.cons_append, ws h1, string hk, ws h2]
    rw [one (by decide), ws h3, e, ws h4, one (by decide), e']
end

/-- The text without white space between the tokens stands for the same value. -/
theorem json {v : Raw} {s : Str} (h : JsonText v s) : JsonText v (minify false s) := by
  obtain ⟨w, t, w', hw, hv, hw', rfl⟩ := h
  obtain ⟨u, hu, e⟩ := value hv
  refine ⟨[], u, [], nows, hu, nows, ?_⟩
  have := ws hw' []
  rw [List.append_nil] at this
  rw [ws hw, e, this]
  rfl

theorem sub (c : Char) : ∀ (s : Str) (q : Bool), c ∈ minify q s → c ∈ s := by
  intro s
  induction hn : s.length using Nat.strongRecOn generalizing s with
  | _ n ih =>
  subst hn
  intro q h
  rw [minify.eq_def] at h
  split at h
  · exact h
  · rename_i x r
    have skip : ∀ q, c ∈ minify q r → c ∈ x :: r := fun q h => List.mem_cons_of_mem _ (ih r.length (by simp) r rfl q h)
    have cons : ∀ q, c ∈ x :: minify q r → c ∈ x :: r := fun q h => (List.mem_cons.1 h).elim (fun e => by simp [e]) (skip q)
    split at h
    · split at h
      · split at h
        · exact h
        · rename_i y r
          rcases List.mem_cons.1 h with rfl | h
          · simp
          · rcases List.mem_cons.1 h with rfl | h
            · simp
            · exact List.mem_cons_of_mem _ (List.mem_cons_of_mem _ (ih r.length (by simp; omega) r rfl _ h))
      · split at h
        · exact cons _ h
        · exact cons _ h
    · split at h
      · exact skip _ h
      · split at h
        · exact cons _ h
        · exact cons _ h

end Spdx.Minified
