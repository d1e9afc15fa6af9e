import Verif.Lemmas.PatLang
import Verif.Lemmas.Text
import Verif.Lemmas.Chars
/- Patterns as lists of items, next to the regular expressions of Model/Uri. -/
namespace Spdx
open Re

namespace Pat
/-- A sequence, as it is read. -/
def cat : List Pat → Pat
  | [] => .eps
  | [a] => a
  | a :: l => .seq a (cat l)
/-- Alternatives, as they are read. -/
def alts : List Pat → Pat
  | [] => .eps
  | [a] => a
  | a :: l => .alt a (alts l)
/-- A literal text. -/
def lits (s : Str) : List Pat := s.map .chr
/-- `[…]` -/
def cls (items : List CItem) : Pat := .set false items
end Pat

namespace PatLang
open PatRun
variable {E : ReFlags} {len : Nat} {α : Type}

theorem m_cat_cons (a : Pat) (l : List Pat) (k : MSt → Option α) (s : MSt) :
    Pat.m E len (Pat.cat (a :: l)) k s = Pat.m E len a (Pat.m E len (Pat.cat l) k) s := by
  cases l with
  | nil =>
    have : Pat.m E len (Pat.cat []) k = k := funext fun s => m_eps k s
    rw [this]
    rfl
  | cons b l => exact m_seq _ _ _ _

theorem m_cat_append (l l' : List Pat) (k : MSt → Option α) (s : MSt) :
    Pat.m E len (Pat.cat (l ++ l')) k s = Pat.m E len (Pat.cat l) (Pat.m E len (Pat.cat l') k) s := by
  induction l generalizing s with
  | nil => exact (m_eps _ s).symm
  | cons a l ih =>
    rw [List.cons_append, m_cat_cons, m_cat_cons]
    congr 1
    exact funext ih

/-- `^…$` -/
theorem first_between (l : List Pat) (hp : (Pat.cat l).plain = true) (s : Str) :
    ((Pat.cat (.bos :: l ++ [.eos])).first E s).isSome = ((Pat.cat l).toRe E).anchored s := by
  rw [← first_anchored _ hp]
  congr 1
  rw [first_eq, first_eq, List.cons_append, m_cat_cons, anchor, m_seq]
  congr 1
  funext x
  rw [m_cat_append, m_seq]
  rfl

/-! ## The same texts, item by item -/

theorem same_grp {n : Nat} {a : Pat} {r : Re} (h : Equiv (a.toRe E) r) : Equiv ((Pat.grp n a).toRe E) r := h

theorem same_cat_one {a : Pat} {r : Re} (h : Equiv (a.toRe E) r) : Equiv ((Pat.cat [a]).toRe E) (seqs [r]) := h

theorem same_cat {a b : Pat} {l : List Pat} {r t : Re} {R : List Re} (h : Equiv (a.toRe E) r)
    (h' : Equiv ((Pat.cat (b :: l)).toRe E) (seqs (t :: R))) : Equiv ((Pat.cat (a :: b :: l)).toRe E) (seqs (r :: t :: R)) := equiv_seq h h'

theorem same_alts_one {a : Pat} {r : Re} (h : Equiv (a.toRe E) r) : Equiv ((Pat.alts [a]).toRe E) (Re.alts [r]) := h

theorem same_alts {a b : Pat} {l : List Pat} {r t : Re} {R : List Re} (h : Equiv (a.toRe E) r)
    (h' : Equiv ((Pat.alts (b :: l)).toRe E) (Re.alts (t :: R))) : Equiv ((Pat.alts (a :: b :: l)).toRe E) (Re.alts (r :: t :: R)) :=
  equiv_alt h h'

theorem same_opt {a : Pat} {r : Re} (h : Equiv (a.toRe E) r) : Equiv ((Pat.opt a).toRe E) (Re.opt r) := equiv_opt h
theorem same_star {a : Pat} {r : Re} (h : Equiv (a.toRe E) r) : Equiv ((Pat.star a).toRe E) (.star r) := equiv_star h
theorem same_plus {a : Pat} {r : Re} (h : Equiv (a.toRe E) r) : Equiv ((Pat.plus a).toRe E) (Re.plus r) := equiv_seq h (equiv_star h)
theorem same_set {neg : Bool} {items : List CItem} {p : Char → Bool} (h : ∀ c, setTest E neg items c = p c) :
    Equiv ((Pat.set neg items).toRe E) (.set p) := equiv_set h

theorem same_once {a : Pat} {r : Re} (h : Equiv (a.toRe E) r) : Equiv ((Pat.times a 1 .eps).toRe E) r :=
  (equiv_seq_eps h.symm).symm

theorem same_chr (hE : E.ignoreCase = false) (c : Char) : Equiv ((Pat.chr c).toRe E) (Re.chr c) :=
  equiv_set fun x => congrFun (chr_test hE c) x

theorem same_dot (hE : E.ignoreCase = false) : Equiv (Pat.any.toRe E) dot := equiv_set fun x => by
  rw [any_test hE]
  by_cases h : x = '\n' <;> simp [h]

private theorem seqs_cons (r : Re) (R : List Re) (h : R ≠ []) : seqs (r :: R) = .seq r (seqs R) := by
  cases R with
  | nil => exact absurd rfl h
  | cons t R => rfl

private theorem cat_cons (a : Pat) (l : List Pat) (h : l ≠ []) : Pat.cat (a :: l) = .seq a (Pat.cat l) := by
  cases l with
  | nil => exact absurd rfl h
  | cons b l => rfl

/-- Characters one by one, or in a block. -/
private theorem seqs_block (f : Char → Re) (w : Str) (R : List Re) (h : R ≠ []) (hw : w ≠ []) :
    Equiv (seqs (w.map f ++ R)) (.seq (seqs (w.map f)) (seqs R)) := by
  induction w with
  | nil => exact absurd rfl hw
  | cons c w ih =>
    rw [List.map_cons, List.cons_append, seqs_cons _ _ (by simp [h])]
    cases w with
    | nil => exact .refl _
    | cons d w => exact (equiv_assoc (equiv_seq (.refl _) (ih (by simp)).symm)).symm

private theorem toRe_cat (l : List Pat) : (Pat.cat l).toRe E = seqs (l.map (Pat.toRe E)) := by
  induction l with
  | nil => rfl
  | cons a l ih =>
    cases l with
    | nil => rfl
    | cons b l =>
      rw [cat_cons _ _ (by simp), List.map_cons, seqs_cons _ _ (by simp), ← ih]
      rfl

private theorem seqs_same {f g : Char → Re} (w : Str) (h : ∀ c ∈ w, Equiv (f c) (g c)) : Equiv (seqs (w.map f)) (seqs (w.map g)) := by
  induction w with
  | nil => exact .refl _
  | cons c w ih =>
    have ih := ih fun d hd => h d (by simp [hd])
    have h1 := h c (by simp)
    cases w with
    | nil => exact h1
    | cons d w => exact equiv_seq h1 ih

private theorem lit_seqs (w : Str) : lit w = seqs (w.map Re.chr) := by
  induction w with
  | nil => rfl
  | cons c w ih =>
    cases w with
    | nil => rfl
    | cons d w =>
      rw [lit, ih]
      · rfl
      · simp

private theorem same_block {f : Char → Re} (w : Str) (hw : w ≠ []) (hf : ∀ c ∈ w, Equiv ((Pat.chr c).toRe E) (f c)) {l : List Pat} {R : List Re}
    (hl : l ≠ []) (hR : R ≠ []) (h : Equiv ((Pat.cat l).toRe E) (seqs R)) :
    Equiv ((Pat.cat (Pat.lits w ++ l)).toRe E) (seqs (seqs (w.map f) :: R)) := by
  rw [toRe_cat, List.map_append, seqs_cons _ _ hR]
  unfold Pat.lits
  rw [List.map_map]
  refine (seqs_block _ _ _ (by simp [hl]) hw).trans (equiv_seq (seqs_same w hf) ?_)
  rw [toRe_cat] at h
  exact h

private theorem same_block_end {f : Char → Re} (w : Str) (hf : ∀ c ∈ w, Equiv ((Pat.chr c).toRe E) (f c)) :
    Equiv ((Pat.cat (Pat.lits w)).toRe E) (seqs (w.map f)) := by
  rw [toRe_cat]
  unfold Pat.lits
  rw [List.map_map]
  exact seqs_same w hf

theorem same_lits (hE : E.ignoreCase = false) (w : Str) (hw : w ≠ []) {l : List Pat} {R : List Re} (hl : l ≠ []) (hR : R ≠ [])
    (h : Equiv ((Pat.cat l).toRe E) (seqs R)) : Equiv ((Pat.cat (Pat.lits w ++ l)).toRe E) (seqs (lit w :: R)) := by
  rw [lit_seqs]
  exact same_block w hw (fun c _ => same_chr hE c) hl hR h

theorem same_cat_lits {a : Pat} {w : Str} (hw : w ≠ []) {l : List Pat} {r t : Re} {R : List Re} (h : Equiv (a.toRe E) r)
    (h' : Equiv ((Pat.cat (Pat.lits w ++ l)).toRe E) (seqs (t :: R))) :
    Equiv ((Pat.cat (a :: (Pat.lits w ++ l))).toRe E) (seqs (r :: t :: R)) := by
  rw [cat_cons _ _ (by simp [Pat.lits, hw])]
  exact equiv_seq h h'

theorem same_lits_end (hE : E.ignoreCase = false) (w : Str) : Equiv ((Pat.cat (Pat.lits w)).toRe E) (lit w) := by
  rw [lit_seqs]
  exact same_block_end w fun c _ => same_chr hE c

/-! ## `re.IGNORECASE` -/

theorem ciUpper_lower {c : Char} (h : isLowerAZ c = true) : isUpperAZ (ciUpper c) = true := by
  have hc : c.toNat < 128 := by simp [isLowerAZ] at h; omega
  exact char_below (P := fun c => isLowerAZ c = true → isUpperAZ (ciUpper c) = true) 128 (by decide +kernel) c hc h

theorem ciUpper_other {c : Char} (h : isLowerAZ c = false) : ciUpper c = c := by
  unfold ciUpper
  rw [if_neg (by simp [h])]

theorem ciFold_cases (c : Char) : ciFold c = c ∨ isLowerAZ (ciFold c) = true := by
  unfold ciFold
  split
  · rename_i h
    have hc : c.toNat < 128 := by simp [isUpperAZ] at h; omega
    exact .inr (char_below (P := fun c => isUpperAZ c = true → isLowerAZ (Char.ofNat (c.toNat + 32)) = true) 128 (by decide +kernel) c hc h)
  split
  · exact .inr (by decide)
  split
  · exact .inr (by decide)
  split
  · exact .inr (by decide)
  · exact .inl rfl

/-- A class that is the same in upper and lower case, or has lower case letters only. -/
theorem ci_test' (hE : E.ignoreCase = true) (items : List CItem) (p : Char → Bool) (h1 : ∀ c, items.any (·.test E c) = p c)
    (h2 : ∀ c, isLowerAZ c = true → ∀ i ∈ items, i ≠ .digit → i ≠ .space → i ≠ .word → i.test E (ciUpper c) = true → p c = true) (c : Char) :
    setTest E false items c = (p c || p (ciFold c)) := by
  unfold setTest
  rw [hE]
  simp only [if_true, Bool.bne_false]
  rw [Bool.eq_iff_iff, List.any_eq_true]
  constructor
  · rintro ⟨i, hi, ht⟩
    have hp : ∀ x, i.test E x = true → p x = true := fun x hx => by
      rw [← h1, List.any_eq_true]
      exact ⟨i, hi, hx⟩
    unfold CItem.testCi at ht
    rw [Bool.or_eq_true, Bool.or_eq_true] at ht
    rw [Bool.or_eq_true]
    rcases ht with (ht | ht) | ht
    · exact .inl (hp _ ht)
    · exact .inr (hp _ ht)
    · have ht' : i.test E (ciUpper (ciFold c)) = true ∧ i ≠ .digit ∧ i ≠ .space ∧ i ≠ .word := by
        cases i with
        | chr a => exact ⟨ht, by simp, by simp, by simp⟩
        | range a b => exact ⟨ht, by simp, by simp, by simp⟩
        | digit => cases ht
        | space => cases ht
        | word => cases ht
      obtain ⟨hu, n1, n2, n3⟩ := ht'
      by_cases hl : isLowerAZ (ciFold c)
      · exact .inr (h2 _ hl i hi n1 n2 n3 hu)
      · rw [ciUpper_other (by simpa using hl)] at hu
        exact .inr (hp _ hu)
  · intro h
    rw [Bool.or_eq_true, ← h1, ← h1, List.any_eq_true, List.any_eq_true] at h
    rcases h with ⟨i, hi, ht⟩ | ⟨i, hi, ht⟩
    · exact ⟨i, hi, by unfold CItem.testCi; rw [ht]; rfl⟩
    · exact ⟨i, hi, by unfold CItem.testCi; rw [ht, Bool.or_true]; rfl⟩

theorem ci_test (hE : E.ignoreCase = true) (items : List CItem) (p : Char → Bool) (h1 : ∀ c, items.any (·.test E c) = p c)
    (h2 : ∀ c, isLowerAZ c = true → p (ciUpper c) = true → p c = true) (c : Char) : setTest E false items c = (p c || p (ciFold c)) :=
  ci_test' hE items p h1 (fun c hl i hi _ _ _ ht => h2 c hl (by rw [← h1, List.any_eq_true]; exact ⟨i, hi, ht⟩)) c

/-- A class without letters. -/
theorem ci_plain (hE : E.ignoreCase = true) (items : List CItem) (p : Char → Bool) (h1 : ∀ c, items.any (·.test E c) = p c)
    (h2 : ∀ c, isLowerAZ c = true → p c = false) (h3 : ∀ c, isUpperAZ c = true → p c = false) (c : Char) : setTest E false items c = p c := by
  rw [ci_test hE items p h1 (fun c hl hu => by rw [h3 _ (ciUpper_lower hl)] at hu; cases hu)]
  rcases ciFold_cases c with e | e
  · rw [e, Bool.or_self]
  · rw [h2 _ e, Bool.or_false]

theorem ci_chr (hE : E.ignoreCase = true) {c : Char} (hu : isUpperAZ c = false) (d : Char) :
    setTest E false [.chr c] d = (d == c || ciFold d == c) :=
  ci_test hE [.chr c] (· == c) (by simp [CItem.test]) (fun x hl h => by
    simp only [beq_iff_eq] at h
    rw [← h, ciUpper_lower hl] at hu
    cases hu) d

theorem same_ciLits (hE : E.ignoreCase = true) (w : Str) (hw : w ≠ []) (hu : ∀ c ∈ w, isUpperAZ c = false) {l : List Pat} {R : List Re} (hl : l ≠ [])
    (hR : R ≠ []) (h : Equiv ((Pat.cat l).toRe E) (seqs R)) : Equiv ((Pat.cat (Pat.lits w ++ l)).toRe E) (seqs (ciLit w :: R)) :=
  same_block w hw (fun c hc => equiv_set fun d => ci_chr hE (hu c hc) d) hl hR h

theorem same_ciLits_end (hE : E.ignoreCase = true) (w : Str) (hu : ∀ c ∈ w, isUpperAZ c = false) :
    Equiv ((Pat.cat (Pat.lits w)).toRe E) (ciLit w) :=
  same_block_end w fun c hc => equiv_set fun d => ci_chr hE (hu c hc) d

theorem same_ciChr (hE : E.ignoreCase = true) {c : Char} (hu : isUpperAZ c = false) (hl : isLowerAZ c = false) :
    Equiv ((Pat.chr c).toRe E) (Re.chr c) :=
  equiv_set fun d => ci_plain hE [.chr c] (· == c) (by simp [CItem.test])
    (fun x hx => by by_cases h : x = c; · rw [h, hl] at hx; cases hx
                    · simpa using h)
    (fun x hx => by by_cases h : x = c; · rw [h, hu] at hx; cases hx
                    · simpa using h) d

theorem same_ciSet (hE : E.ignoreCase = true) {items : List CItem} {p : Char → Bool} (h1 : ∀ c, items.any (·.test E c) = p c)
    (h2 : ∀ c, isLowerAZ c = true → p (ciUpper c) = true → p c = true) : Equiv ((Pat.cls items).toRe E) (ciSet p) :=
  equiv_set fun c => ci_test hE items p h1 h2 c

theorem same_ciSet' (hE : E.ignoreCase = true) {items : List CItem} {p : Char → Bool} (h1 : ∀ c, items.any (·.test E c) = p c)
    (h2 : ∀ c, isLowerAZ c = true → ∀ i ∈ items, i ≠ .digit → i ≠ .space → i ≠ .word → i.test E (ciUpper c) = true → p c = true) :
    Equiv ((Pat.cls items).toRe E) (ciSet p) :=
  equiv_set fun c => ci_test' hE items p h1 h2 c

theorem same_ciPlain (hE : E.ignoreCase = true) {items : List CItem} {p : Char → Bool} (h1 : ∀ c, items.any (·.test E c) = p c)
    (h2 : ∀ c, isLowerAZ c = true → p c = false) (h3 : ∀ c, isUpperAZ c = true → p c = false) :
    Equiv ((Pat.cls items).toRe E) (.set p) :=
  equiv_set fun c => ci_plain hE items p h1 h2 h3 c

theorem same_ciDot (hE : E.ignoreCase = true) : Equiv (Pat.any.toRe E) dot := equiv_set fun x => by
  have h := ci_plain hE [.chr '\n'] (· == '\n') (by simp [CItem.test])
    (fun c h => by by_cases e : c = '\n'; · rw [e] at h; cases h
                   · simpa using e)
    (fun c h => by by_cases e : c = '\n'; · rw [e] at h; cases h
                   · simpa using e) x
  unfold setTest at h ⊢
  rw [Bool.bne_false] at h
  rw [h]
  cases hx : x == '\n' <;> simp [bne, hx]

end PatLang
end Spdx
