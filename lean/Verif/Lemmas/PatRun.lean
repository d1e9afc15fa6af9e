import Verif.Spec.PyRe
import Verif.Model.Actor
/- How the matcher of `Spec/PyRe` runs, with a continuation for the rest of the pattern. -/
namespace Spdx

/-- The first way to match that the rest, `k`, accepts. -/
def Pat.m {α : Type} (E : ReFlags) (len : Nat) (p : Pat) (k : MSt → Option α) (s : MSt) : Option α := (p.run E len s).findSome? k

/-- `c*` and then `k`: the longest first -/
def starK {α : Type} (c : Char → Bool) (k : Str → Option α) : Str → Option α
  | [] => k []
  | x :: r => if c x then (starK c k r).or (k (x :: r)) else k (x :: r)

namespace PatRun
variable {α : Type} {E : ReFlags} {len : Nat}

theorem findSome_flatMap {β γ : Type} (l : List β) (g : β → List γ) (k : γ → Option α) :
    (l.flatMap g).findSome? k = l.findSome? fun x => (g x).findSome? k := by
  induction l with
  | nil => rfl
  | cons a l ih =>
    rw [List.flatMap_cons, List.findSome?_append, ih, List.findSome?_cons]
    cases (g a).findSome? k <;> rfl

theorem findSome_map {β γ : Type} (l : List β) (g : β → γ) (k : γ → Option α) : (l.map g).findSome? k = l.findSome? (fun x => k (g x)) := by
  induction l with
  | nil => rfl
  | cons a l ih => rw [List.map_cons, List.findSome?_cons, List.findSome?_cons, ih]

theorem head_findSome {β : Type} (l : List β) (f : β → α) : l.head?.map f = l.findSome? (fun x => some (f x)) := by
  cases l <;> rfl

theorem first_map (p : Pat) (s : Str) (f : MSt → α) : (p.first E s).map f = p.m E s.length (fun m => some (f m)) ⟨s, []⟩ :=
  head_findSome _ f

theorem first_eq (p : Pat) (s : Str) : p.first E s = p.m E s.length some ⟨s, []⟩ := by
  have := first_map (E := E) p s id
  rw [Option.map_id] at this
  exact this

theorem m_eps (k : MSt → Option α) (s : MSt) : Pat.m E len .eps k s = k s := by
  unfold Pat.m Pat.run
  rw [List.findSome?_cons]
  cases k s <;> rfl

theorem m_seq (a b : Pat) (k : MSt → Option α) (s : MSt) : Pat.m E len (.seq a b) k s = Pat.m E len a (Pat.m E len b k) s := by
  rw [Pat.m, Pat.run]
  exact findSome_flatMap _ _ _

theorem m_alt (a b : Pat) (k : MSt → Option α) (s : MSt) :
    Pat.m E len (.alt a b) k s = (Pat.m E len a k s).or (Pat.m E len b k s) := by
  rw [Pat.m, Pat.run]
  exact List.findSome?_append

theorem m_grp (n : Nat) (a : Pat) (k : MSt → Option α) (s : MSt) :
    Pat.m E len (.grp n a) k s = Pat.m E len a (fun s' => k (s.close n s')) s := by
  rw [Pat.m, Pat.run]
  exact findSome_map _ _ _

theorem m_set (neg : Bool) (items : List CItem) (k : MSt → Option α) (s : Str) (caps : List (Nat × Str)) :
    Pat.m E len (.set neg items) k ⟨s, caps⟩ = match s with
      | c :: r => if setTest E neg items c then k ⟨r, caps⟩ else none
      | [] => none := by
  rw [Pat.m, Pat.run]
  cases s with
  | nil => rfl
  | cons c r =>
    dsimp only
    by_cases h : setTest E neg items c
    · rw [if_pos h, if_pos h, List.findSome?_cons]
      cases k ⟨r, caps⟩ <;> rfl
    · rw [if_neg h, if_neg h]
      rfl

theorem m_star_set (neg : Bool) (items : List CItem) (k : MSt → Option α) (s : Str) (caps : List (Nat × Str)) :
    Pat.m E len (.star (.set neg items)) k ⟨s, caps⟩ = starK (setTest E neg items) (fun r => k ⟨r, caps⟩) s := by
  rw [Pat.m, Pat.run]
  induction s with
  | nil =>
    show List.findSome? k [⟨[], caps⟩] = k ⟨[], caps⟩
    rw [List.findSome?_cons]
    cases k ⟨[], caps⟩ <;> rfl
  | cons c r ih =>
    rw [starK]
    show List.findSome? k (((Pat.run E len (.set neg items) ⟨c :: r, caps⟩).filter _).flatMap _ ++ [⟨c :: r, caps⟩]) = _
    rw [List.findSome?_append]
    have e : List.findSome? k [⟨c :: r, caps⟩] = k ⟨c :: r, caps⟩ := by
      rw [List.findSome?_cons]
      cases k ⟨c :: r, caps⟩ <;> rfl
    rw [e, Pat.run]
    dsimp only
    by_cases h : setTest E neg items c
    · rw [if_pos h, if_pos h]
      have hl : List.filter (fun s' : MSt => decide (s'.rest.length < (c :: r).length)) [⟨r, caps⟩] = [⟨r, caps⟩] := by
        exact List.filter_eq_self.2 fun a ha => by
          rw [List.mem_singleton.1 ha]
          exact decide_eq_true (Nat.lt_succ_self _)
      rw [hl, List.flatMap_cons, List.flatMap_nil, List.append_nil]
      rw [← ih]
    · rw [if_neg h, if_neg h]
      rfl

theorem m_bos (k : MSt → Option α) (s : MSt) : Pat.m E len .bos k s = if s.rest.length = len then k s else none := by
  rw [Pat.m, Pat.run]
  by_cases h : s.rest.length = len
  · rw [if_pos h, if_pos h, List.findSome?_cons]
    cases k s <;> rfl
  · rw [if_neg h, if_neg h]
    rfl

theorem m_notBos (k : MSt → Option α) (s : MSt) : Pat.m E len .notBos k s = if s.rest.length = len then none else k s := by
  rw [Pat.m, Pat.run]
  by_cases h : s.rest.length = len
  · rw [if_pos h, if_pos h]
    rfl
  · rw [if_neg h, if_neg h, List.findSome?_cons]
    cases k s <;> rfl

theorem m_eos (k : MSt → Option α) (s : MSt) : Pat.m E len .eos k s = if s.rest = [] ∨ s.rest = ['\n'] then k s else none := by
  rw [Pat.m, Pat.run]
  by_cases h : s.rest = [] ∨ s.rest = ['\n']
  · rw [if_pos h, if_pos h, List.findSome?_cons]
    cases k s <;> rfl
  · rw [if_neg h, if_neg h]
    rfl

/-! ### Repetition of a class -/

theorem starK_skip {c : Char → Bool} {k : Str → Option α} (h : ∀ x r, c x = true → k (x :: r) = none) (s : Str) :
    starK c k s = k (s.dropWhile c) := by
  induction s with
  | nil => rfl
  | cons x r ih =>
    rw [starK, List.dropWhile_cons]
    by_cases hx : c x
    · rw [if_pos hx, if_pos hx, ih, h x r hx, Option.or_none]
    · rw [if_neg hx, if_neg hx]

theorem starK_max {c : Char → Bool} {k : Str → Option α} {s : Str} (h : (k (s.dropWhile c)).isSome) : starK c k s = k (s.dropWhile c) := by
  induction s with
  | nil => rfl
  | cons x r ih =>
    rw [List.dropWhile_cons] at h
    rw [starK, List.dropWhile_cons]
    by_cases hx : c x
    · rw [if_pos hx] at h
      rw [if_pos hx, if_pos hx, ih h]
      obtain ⟨v, hv⟩ := Option.isSome_iff_exists.1 h
      rw [hv]
      rfl
    · rw [if_neg hx, if_neg hx]

/-! ### Literal texts -/

/-- `w` and then `p` -/
def litThen : Str → Pat → Pat
  | [], p => p
  | c :: w, p => .seq (.chr c) (litThen w p)

/-- A literal text. -/
def litPat : Str → Pat
  | [] => .eps
  | [c] => .chr c
  | c :: d :: w => .seq (.chr c) (litPat (d :: w))

theorem chr_test (hE : E.ignoreCase = false) (c : Char) : setTest E false [.chr c] = (· == c) := by
  funext x
  simp [setTest, CItem.test, hE]

theorem m_chr (hE : E.ignoreCase = false) (c : Char) (k : MSt → Option α) (s : Str) (caps : List (Nat × Str)) :
    Pat.m E len (.chr c) k ⟨s, caps⟩ = match dropPrefix? [c] s with
      | some r => k ⟨r, caps⟩
      | none => none := by
  unfold Pat.chr
  rw [m_set, chr_test hE]
  cases s with
  | nil => rfl
  | cons x r =>
    dsimp only
    by_cases h : x = c
    · subst h
      rw [if_pos (beq_self_eq_true _)]
      simp [dropPrefix?]
    · rw [if_neg (by simpa using h)]
      simp [dropPrefix?, Ne.symm h]

theorem dropPrefix_cons (c : Char) (w s : Str) : dropPrefix? (c :: w) s = (dropPrefix? [c] s).bind (dropPrefix? w) := by
  cases s with
  | nil => rfl
  | cons x r =>
    by_cases h : c = x
    · subst h
      simp [dropPrefix?]
    · simp [dropPrefix?, h]

theorem m_litThen (hE : E.ignoreCase = false) (w : Str) (p : Pat) (k : MSt → Option α) (s : Str) (caps : List (Nat × Str)) :
    Pat.m E len (litThen w p) k ⟨s, caps⟩ = match dropPrefix? w s with
      | some r => Pat.m E len p k ⟨r, caps⟩
      | none => none := by
  induction w generalizing s with
  | nil => cases s <;> rfl
  | cons c w ih =>
    rw [litThen, m_seq, m_chr hE, dropPrefix_cons c w s]
    cases dropPrefix? [c] s with
    | none => rfl
    | some r => exact ih r

theorem m_litPat (hE : E.ignoreCase = false) (w : Str) (k : MSt → Option α) (s : Str) (caps : List (Nat × Str)) :
    Pat.m E len (litPat w) k ⟨s, caps⟩ = match dropPrefix? w s with
      | some r => k ⟨r, caps⟩
      | none => none := by
  induction w generalizing s with
  | nil =>
    rw [litPat, m_eps]
    cases s <;> rfl
  | cons c w ih =>
    cases w with
    | nil => rw [litPat, m_chr hE]
    | cons d w =>
      rw [litPat, m_seq, m_chr hE, dropPrefix_cons c (d :: w) s]
      cases dropPrefix? [c] s with
      | none => rfl
      | some r => exact ih r

/-! ### Classes -/

theorem space_test (hE : E.ignoreCase = false) : setTest E false [.space] = isPySpace := by
  funext x
  simp [setTest, CItem.test, hE]

theorem digit_test (hE : E.ignoreCase = false) : setTest E false [.digit] = isPyDigit := by
  funext x
  simp [setTest, CItem.test, hE]

theorem any_test (hE : E.ignoreCase = false) : setTest E true [.chr '\n'] = (· ≠ '\n') := by
  funext x
  by_cases h : x = '\n' <;> simp [setTest, CItem.test, hE, h]

end PatRun
end Spdx
