import Verif.Lemmas.PatSame
import Verif.Lemmas.TagValueLex
import Verif.Model.Patterns
import Verif.Model.TagValueParser
/- The patterns whose groups are used. -/
namespace Spdx.PatGroups
open Spdx PatRun PatLang Pat

variable {α : Type}

/-! ## Greedy repetition -/

theorem starK_none {c : Char → Bool} {k : Str → Option α} (s : Str) :
    starK c k s = none ↔ ∀ a b, s = a ++ b → a.all c = true → k b = none := by
  induction s with
  | nil =>
    constructor
    · intro h a b e _
      rw [(List.append_eq_nil_iff.1 e.symm).2]
      exact h
    · intro h
      exact h [] [] rfl rfl
  | cons x r ih =>
    rw [starK]
    by_cases hx : c x
    · rw [if_pos hx, Option.or_eq_none_iff, ih]
      constructor
      · rintro ⟨h1, h2⟩ a b e ha
        cases a with
        | nil => rw [List.nil_append] at e; rw [← e]; exact h2
        | cons y a =>
          rw [List.cons_append, List.cons.injEq] at e
          exact h1 a b e.2 (by simp at ha ⊢; exact ha.2)
      · intro h
        exact ⟨fun a b e ha => h (x :: a) b (by rw [e]; rfl) (by simp at ha ⊢; exact ⟨hx, ha⟩), h [] (x :: r) rfl rfl⟩
    · rw [if_neg hx]
      constructor
      · intro h a b e ha
        cases a with
        | nil => rw [List.nil_append] at e; rw [← e]; exact h
        | cons y a =>
          rw [List.cons_append, List.cons.injEq] at e
          rw [← e.1] at ha
          simp [hx] at ha
      · intro h
        exact h [] (x :: r) rfl rfl

/-- The longest repetition that the rest accepts. -/
theorem starK_some {c : Char → Bool} {k : Str → Option α} (a b : Str) (v : α) (ha : a.all c = true) (hk : k b = some v)
    (hn : starK c k b = k b) : starK c k (a ++ b) = some v := by
  induction a with
  | nil => rw [List.nil_append, hn, hk]
  | cons x a ih =>
    simp only [List.all_cons, Bool.and_eq_true] at ha
    rw [List.cons_append, starK, if_pos ha.1, ih ha.2]
    rfl

theorem starK_congr {c : Char → Bool} {k k' : Str → Option α} (h : ∀ s, k s = k' s) (s : Str) : starK c k s = starK c k' s := by
  rw [show k = k' from funext h]

theorem takeWhile_append_drop (s : Str) (p : Char → Bool) : s.take (s.length - (s.dropWhile p).length) = s.takeWhile p := by
  have e := List.takeWhile_append_dropWhile (p := p) (l := s)
  have hl : s.length - (s.dropWhile p).length = (s.takeWhile p).length := by
    have := congrArg List.length e
    rw [List.length_append] at this
    omega
  rw [hl]
  conv => lhs; arg 2; rw [← e]
  exact List.take_left' rfl

variable {len : Nat}

theorem m_any_star (k : MSt → Option α) (s : Str) (caps : List (Nat × Str)) :
    Pat.m {} len (.star .any) k ⟨s, caps⟩ = starK isDot (fun r => k ⟨r, caps⟩) s := by
  unfold Pat.any
  rw [m_star_set, any_test rfl]
  rfl

theorem m_space_star (k : MSt → Option α) (s : Str) (caps : List (Nat × Str)) :
    Pat.m {} len (.star (.set false [.space])) k ⟨s, caps⟩ = starK isPySpace (fun r => k ⟨r, caps⟩) s := by
  rw [m_star_set, space_test rfl]

theorem m_plus (neg : Bool) (items : List CItem) {p : Char → Bool} (hp : setTest {} neg items = p) (k : MSt → Option α) (s : Str)
    (caps : List (Nat × Str)) : Pat.m {} len (.plus (.set neg items)) k ⟨s, caps⟩ = match s with
      | c :: r => if p c then starK p (fun r => k ⟨r, caps⟩) r else none
      | [] => none := by
  unfold Pat.plus
  rw [m_seq, m_set, hp]
  cases s with
  | nil => rfl
  | cons c r =>
    dsimp only
    by_cases h : p c
    · rw [if_pos h, if_pos h, m_star_set, hp]
    · rw [if_neg h, if_neg h]

/-! ## Two numbers -/

/-- `^(\d+)sep(\d+)$` -/
def numbers (sep : Char) : Pat := cat [.bos, .grp 1 (.plus (.set false [.digit])), .chr sep, .grp 2 (.plus (.set false [.digit])), .eos]

theorem version_parsed : parsePattern PatText.version = some (numbers '.', []) := by decide +kernel
theorem range_parsed : parsePattern PatText.range = some (numbers ':', []) := by decide +kernel

/-- The two numbers and what is left. -/
def numSplit (sep : Char) (s : Str) : Option (Str × Str × Str) :=
  match s.dropWhile isPyDigit with
  | c :: r =>
    if s.takeWhile isPyDigit ≠ [] ∧ c = sep ∧ r.takeWhile isPyDigit ≠ [] ∧ (r.dropWhile isPyDigit = [] ∨ r.dropWhile isPyDigit = ['\n']) then
      some (s.takeWhile isPyDigit, r.takeWhile isPyDigit, r.dropWhile isPyDigit)
    else none
  | [] => none

theorem m_digits (k : MSt → Option α) (n : Nat) (s : Str) (caps : List (Nat × Str)) (hk : ∀ x r caps, isPyDigit x = true → k ⟨x :: r, caps⟩ = none) :
    Pat.m {} len (.grp n (.plus (.set false [.digit]))) k ⟨s, caps⟩ =
      if s.takeWhile isPyDigit = [] then none else k ⟨s.dropWhile isPyDigit, (n, s.takeWhile isPyDigit) :: caps⟩ := by
  rw [m_grp, m_plus _ _ (digit_test rfl)]
  cases s with
  | nil => rfl
  | cons c r =>
    dsimp only
    by_cases h : isPyDigit c
    · rw [if_pos h, List.takeWhile_cons_of_pos h, if_neg (by simp), List.dropWhile_cons_of_pos h]
      rw [starK_skip]
      · have := takeWhile_append_drop (c :: r) isPyDigit
        rw [List.takeWhile_cons_of_pos h, List.dropWhile_cons_of_pos h] at this
        unfold MSt.close
        dsimp only
        rw [this]
      · intro x t hx
        exact hk x t _ hx
    · rw [if_neg h, List.takeWhile_cons_of_neg h, if_pos rfl]

theorem numbers_first (sep : Char) (hs : isPyDigit sep = false) (s : Str) :
    (numbers sep).first {} s = (numSplit sep s).map fun x => ⟨x.2.2, [(2, x.2.1), (1, x.1)]⟩ := by
  have hnl : isPyDigit '\n' = false := by decide +kernel
  rw [first_eq, numbers, m_cat_cons, m_bos, if_pos rfl, m_cat_cons, m_digits]
  · unfold numSplit
    by_cases h1 : s.takeWhile isPyDigit = []
    · rw [if_pos h1]
      split
      · rw [if_neg (by simp [h1])]; rfl
      · rfl
    · rw [if_neg h1, m_cat_cons, m_chr rfl]
      cases hd : s.dropWhile isPyDigit with
      | nil => rfl
      | cons c r =>
        by_cases hc : c = sep
        · subst hc
          have : dropPrefix? [c] (c :: r) = some r := by simp [dropPrefix?]
          rw [this]
          dsimp only
          rw [m_cat_cons, m_digits]
          · by_cases h2 : r.takeWhile isPyDigit = []
            · rw [if_pos h2, if_neg (by simp [h2])]
              rfl
            · rw [if_neg h2]
              show Pat.m {} _ .eos _ _ = _
              rw [m_eos]
              by_cases h3 : r.dropWhile isPyDigit = [] ∨ r.dropWhile isPyDigit = ['\n']
              · rw [if_pos h3, if_pos ⟨h1, rfl, h2, h3⟩]
                rfl
              · rw [if_neg h3, if_neg (fun h => h3 h.2.2.2)]
                rfl
          · intro x t caps hx
            show Pat.m {} _ .eos _ _ = _
            rw [m_eos, if_neg]
            rintro (h | h)
            · cases h
            · cases h
              rw [hnl] at hx
              cases hx
        · have : dropPrefix? [sep] (c :: r) = none := by simp [dropPrefix?, Ne.symm hc]
          rw [this]
          dsimp only
          rw [if_neg (fun h => hc h.2.1)]
          rfl
  · intro x t caps hx
    rw [m_cat_cons, m_chr rfl]
    have : dropPrefix? [sep] (x :: t) = none := by
      have : sep ≠ x := fun e => by rw [← e, hs] at hx; cases hx
      simp [dropPrefix?, this]
    rw [this]

theorem numSplit_iff (sep : Char) (hs : isPyDigit sep = false) (s a b t : Str) : numSplit sep s = some (a, b, t) ↔
    s = a ++ sep :: b ++ t ∧ a ≠ [] ∧ b ≠ [] ∧ a.all isPyDigit = true ∧ b.all isPyDigit = true ∧ (t = [] ∨ t = ['\n']) := by
  have hnl : isPyDigit '\n' = false := by decide +kernel
  have hall : ∀ s : Str, (s.takeWhile isPyDigit).all isPyDigit = true := by
    intro s
    induction s with
    | nil => rfl
    | cons c s ih =>
      rw [List.takeWhile_cons]
      split
      · simp only [List.all_cons, Bool.and_eq_true]; exact ⟨by assumption, ih⟩
      · rfl
  have hcut : ∀ (u v : Str), u.all isPyDigit = true → (∀ c r, v = c :: r → isPyDigit c = false) →
      (u ++ v).takeWhile isPyDigit = u ∧ (u ++ v).dropWhile isPyDigit = v := by
    intro u v hu hv
    induction u with
    | nil =>
      cases v with
      | nil => exact ⟨rfl, rfl⟩
      | cons c r =>
        have := hv c r rfl
        exact ⟨by simp [this], by simp [this]⟩
    | cons c u ih =>
      simp only [List.all_cons, Bool.and_eq_true] at hu
      obtain ⟨h1, h2⟩ := ih hu.2
      rw [List.cons_append, List.takeWhile_cons_of_pos hu.1, List.dropWhile_cons_of_pos hu.1, h1, h2]
      exact ⟨rfl, rfl⟩
  constructor
  · intro h
    unfold numSplit at h
    cases hd : s.dropWhile isPyDigit with
    | nil => rw [hd] at h; cases h
    | cons c r =>
      rw [hd] at h
      dsimp only at h
      split at h
      · rename_i hc
        obtain ⟨h1, rfl, h2, h3⟩ := hc
        simp only [Option.some.injEq, Prod.mk.injEq] at h
        obtain ⟨rfl, rfl, rfl⟩ := h
        refine ⟨?_, h1, h2, hall _, hall _, h3⟩
        rw [List.append_assoc, List.cons_append, List.takeWhile_append_dropWhile, ← hd, List.takeWhile_append_dropWhile]
      · cases h
  · rintro ⟨rfl, ha, hb, da, db, ht⟩
    have e : a ++ sep :: b ++ t = a ++ sep :: (b ++ t) := by simp
    rw [e]
    obtain ⟨h1, h2⟩ := hcut a (sep :: (b ++ t)) da (fun c r h => by cases h; exact hs)
    obtain ⟨h3, h4⟩ := hcut b t db (fun c r h => by
      rcases ht with rfl | rfl
      · cases h
      · cases h; exact hnl)
    unfold numSplit
    rw [h2]
    dsimp only
    rw [h1, h3, h4, if_pos ⟨ha, rfl, hb, ht⟩]

/-! ## Actors -/

theorem starK_last {c : Char → Bool} {k : Str → Option α} (a b : Str) (v : α) (ha : a.all c = true) (hk : k b = some v)
    (hn : ∀ a' b', b = a' ++ b' → a' ≠ [] → a'.all c = true → k b' = none) : starK c k (a ++ b) = some v := by
  refine starK_some a b v ha hk ?_
  cases b with
  | nil => rfl
  | cons x r =>
    rw [starK]
    by_cases hx : c x
    · rw [if_pos hx]
      have : starK c k r = none := (starK_none r).2 fun a' b' e h =>
        hn (x :: a') b' (by rw [e]; rfl) (by simp) (by rw [List.all_cons, hx, h]; rfl)
      rw [this]
      rfl
    · rw [if_neg hx]

theorem all_dot {s : Str} : s.all isDot = true ↔ '\n' ∉ s := by
  rw [List.all_eq_true]
  constructor
  · intro h hm
    have := h _ hm
    simp [isDot] at this
  · intro h c hc
    have : c ≠ '\n' := fun e => h (e ▸ hc)
    simpa [isDot] using this

theorem take_front (a b : Str) : (a ++ b).take ((a ++ b).length - b.length) = a := by
  rw [List.length_append, Nat.add_sub_cancel]
  exact List.take_left' rfl

theorem drop_eq_cons (q : Char) (b : Str) : dropPrefix? [q] (q :: b) = some b := by simp [dropPrefix?]

theorem drop_one {q : Char} {s r : Str} (h : dropPrefix? [q] s = some r) : s = q :: r := by
  cases s with
  | nil => cases h
  | cons x t =>
    unfold dropPrefix? at h
    split at h
    · rename_i hp
      simp at hp h
      rw [hp, h]
    · cases h

/-- `^Tool:\s*(.+)` -/
def tool : Pat := cat (.bos :: (lits s%"Tool:" ++ [.star (.set false [.space]), .grp 1 (.plus .any)]))

theorem tool_parsed : parsePattern PatText.tool = some (tool, []) := by decide +kernel

theorem m_cat_lits (w : Str) (l : List Pat) (k : MSt → Option α) (s : Str) (caps : List (Nat × Str)) :
    Pat.m {} len (cat (lits w ++ l)) k ⟨s, caps⟩ = match dropPrefix? w s with
      | some r => Pat.m {} len (cat l) k ⟨r, caps⟩
      | none => none := by
  induction w generalizing s with
  | nil =>
    cases s <;> rfl
  | cons c w ih =>
    show Pat.m {} len (cat (.chr c :: (lits w ++ l))) k ⟨s, caps⟩ = _
    rw [m_cat_cons, m_chr rfl, dropPrefix_cons c w s]
    cases dropPrefix? [c] s with
    | none => rfl
    | some r => exact ih r

theorem m_dots (n : Nat) (k : MSt → Option α) (s : Str) (caps : List (Nat × Str)) :
    Pat.m {} len (.grp n (.star .any)) k ⟨s, caps⟩ = starK isDot (fun r => k ⟨r, (n, s.take (s.length - r.length)) :: caps⟩) s := by
  rw [m_grp, m_any_star]
  rfl

theorem starK_all {c : Char → Bool} {k : Str → Option α} (hk : ∀ r, (k r).isSome) (s : Str) : starK c k s = k (s.dropWhile c) :=
  starK_max (hk _)

theorem m_dots_plus (n : Nat) (s : Str) (caps : List (Nat × Str)) :
    Pat.m {} len (.grp n (.plus .any)) some ⟨s, caps⟩ =
      if s.takeWhile isDot = [] then none else some ⟨s.dropWhile isDot, (n, s.takeWhile isDot) :: caps⟩ := by
  rw [m_grp]
  unfold Pat.any
  rw [m_plus _ _ (any_test rfl)]
  cases s with
  | nil => rfl
  | cons c r =>
    dsimp only
    by_cases h : isDot c
    · have h' : (decide (c ≠ '\n')) = true := h
      rw [if_pos h', List.takeWhile_cons_of_pos h, if_neg (by simp), List.dropWhile_cons_of_pos h, starK_all (fun r => rfl)]
      have := takeWhile_append_drop (c :: r) isDot
      rw [List.takeWhile_cons_of_pos h, List.dropWhile_cons_of_pos h] at this
      unfold MSt.close
      dsimp only
      show some (MSt.mk (r.dropWhile isDot) ((n, (c :: r).take ((c :: r).length - (r.dropWhile isDot).length)) :: caps)) = _
      rw [this]
    · have h' : ¬(decide (c ≠ '\n')) = true := h
      rw [if_neg h', List.takeWhile_cons_of_neg h, if_pos rfl]

theorem all_of_dropWhile {s : Str} {p : Char → Bool} (h : s.dropWhile p = []) : s.all p = true := by
  have e := List.takeWhile_append_dropWhile (p := p) (l := s)
  rw [h, List.append_nil] at e
  rw [← e]
  exact List.all_takeWhile

theorem takeWhile_nil_iff {s : Str} {p : Char → Bool} : s.takeWhile p = [] ↔ ∀ c r, s = c :: r → p c = false := by
  cases s with
  | nil => exact ⟨fun _ c r h => (nomatch h), fun _ => rfl⟩
  | cons x t =>
    rw [List.takeWhile_cons]
    constructor
    · intro h c r e
      cases e
      cases hp : p x with
      | false => rfl
      | true => rw [hp] at h; cases h
    · intro h
      rw [h x t rfl]
      rfl

/-- The group of the pattern for tools. -/
theorem tool_first (s : Str) : (tool.first {} s).map (·.group 1) = ((dropPrefix? s%"Tool:" s).bind toolGroup).map some := by
  have hnl : isPySpace '\n' = true := by decide +kernel
  rw [first_eq, tool, m_cat_cons, m_bos, if_pos rfl, m_cat_lits]
  cases dropPrefix? s%"Tool:" s with
  | none => rfl
  | some rest =>
    dsimp only
    rw [m_cat_cons, m_space_star, Option.bind_some]
    have e : (fun r => Pat.m {} s.length (cat [.grp 1 (.plus .any)]) some ⟨r, []⟩) = fun r : Str =>
        if r.takeWhile isDot = [] then none else some (MSt.mk (r.dropWhile isDot) [(1, r.takeWhile isDot)]) :=
      funext fun r => m_dots_plus 1 r []
    rw [e]
    unfold toolGroup
    dsimp only
    by_cases hr : rest.dropWhile isPySpace = []
    · rw [if_neg (fun h => h hr)]
      -- only white space
      have hsp : rest.all isPySpace = true := all_of_dropWhile hr
      cases hd : rest.reverse.dropWhile (fun c => decide (c = '\n')) with
      | nil =>
        have hall : ∀ c ∈ rest, c = '\n' := by
          intro c hc
          have := List.all_eq_true.1 (all_of_dropWhile hd) c (by simpa using hc)
          simpa using this
        rw [(starK_none rest).2]
        · rfl
        · intro a b hab _
          rw [if_pos]
          rw [takeWhile_nil_iff]
          intro c r hb
          have := hall c (by rw [hab, hb]; simp)
          rw [this]
          rfl
      | cons c t =>
        -- rest = t.reverse ++ c :: newlines
        have hsplit : rest = t.reverse ++ c :: (rest.reverse.takeWhile (fun c => decide (c = '\n'))).reverse := by
          have := List.takeWhile_append_dropWhile (p := fun c => decide (c = '\n')) (l := rest.reverse)
          rw [hd] at this
          have := congrArg List.reverse this
          rw [List.reverse_append, List.reverse_cons, List.reverse_reverse] at this
          rw [List.append_assoc] at this
          exact this.symm
        have hc : isDot c = true := by
          have : ¬ (decide (c = '\n')) = true := by
            have h2 := List.head?_dropWhile_not (p := fun c => decide (c = '\n')) (l := rest.reverse)
            rw [hd] at h2
            simpa using h2
          simpa [isDot] using this
        generalize hu : (rest.reverse.takeWhile (fun c => decide (c = '\n'))).reverse = u at hsplit
        have hnls : ∀ x ∈ u, x = '\n' := by
          intro x hx
          rw [← hu, List.mem_reverse] at hx
          have := List.all_takeWhile (p := fun c => decide (c = '\n')) (l := rest.reverse)
          rw [List.all_eq_true] at this
          simpa using this x hx
        have htw : u.takeWhile isDot = [] := takeWhile_nil_iff.2 fun x r e => by
          rw [hnls x (by rw [e]; simp)]; rfl
        have hdw : u.dropWhile isDot = u := by
          have := List.takeWhile_append_dropWhile (p := isDot) (l := u)
          rw [htw] at this
          exact this
        rw [hsplit, starK_last t.reverse (c :: u) ⟨u, [(1, [c])]⟩]
        · rfl
        · rw [hsplit, List.all_append, Bool.and_eq_true] at hsp
          exact hsp.1
        · rw [List.takeWhile_cons_of_pos hc, htw, if_neg (by simp), List.dropWhile_cons_of_pos hc, hdw]
        · intro a' b' e hne _
          rw [if_pos]
          refine takeWhile_nil_iff.2 fun x r e' => ?_
          cases a' with
          | nil => exact absurd rfl hne
          | cons y a' =>
            rw [List.cons_append, List.cons.injEq] at e
            rw [hnls x (by rw [e.2, e']; simp)]
            rfl
    · rw [if_pos hr]
      have hne : (rest.dropWhile isPySpace).takeWhile isDot ≠ [] := by
        intro h
        cases hd : rest.dropWhile isPySpace with
        | nil => exact hr hd
        | cons c t =>
          have h1 := takeWhile_nil_iff.1 h c t hd
          have h2 : isPySpace c = false := by
            have h2 := List.head?_dropWhile_not (p := isPySpace) (l := rest)
            rw [hd] at h2
            simpa using h2
          have : c = '\n' := by simpa [isDot] using h1
          rw [this, hnl] at h2
          cases h2
      rw [starK_max]
      · rw [if_neg hne]
        rfl
      · rw [if_neg hne]
        rfl

/-- `(?:(.*)\((.*)\)|(.*))$` -/
def actorTail : List Pat := [.alt (cat [.grp 1 (.star .any), .chr '(', .grp 2 (.star .any), .chr ')']) (.grp 3 (.star .any)), .eos]

/-- `^Person:\s*(?:(.*)\((.*)\)|(.*))$` and the same for organizations -/
def actor (w : Str) : Pat := cat (.bos :: (lits w ++ (.star (.set false [.space]) :: actorTail)))

theorem person_parsed : parsePattern PatText.person = some (actor s%"Person:", []) := by decide +kernel
theorem organization_parsed : parsePattern PatText.organization = some (actor s%"Organization:", []) := by decide +kernel

/-- An end that `$` accepts. -/
def End (t : Str) : Prop := t = [] ∨ t = ['\n']

instance (t : Str) : Decidable (End t) := inferInstanceAs (Decidable (_ ∨ _))

/-- What follows the opening parenthesis. -/
def closeK (k : Str → Str → Option α) (b : Str) : Option α :=
  starK isDot (fun r => match dropPrefix? [')'] r with
    | some t => if End t then k (b.take (b.length - r.length)) t else none
    | none => none) b

theorem closeK_some {k : Str → Str → Option α} (g t : Str) (hg : '\n' ∉ g) (ht : End t) (v : α) (hk : k g t = some v) :
    closeK k (g ++ ')' :: t) = some v := by
  unfold closeK
  refine starK_last g (')' :: t) v (all_dot.2 hg) ?_ ?_
  · rw [drop_eq_cons]
    dsimp only
    rw [if_pos ht, take_front, hk]
  · intro a' b' e hne ha
    cases a' with
    | nil => exact absurd rfl hne
    | cons y a' =>
      rw [List.cons_append, List.cons.injEq] at e
      cases hb : dropPrefix? [')'] b' with
      | none => rfl
      | some r =>
        have hb' := drop_one hb
        dsimp only
        rw [hb'] at e
        -- `t` is empty or a newline, and holds a closing parenthesis
        exfalso
        have : ')' ∈ t := by rw [e.2]; simp
        rcases ht with h | h <;> rw [h] at this <;> simp at this

theorem closeK_none {k : Str → Str → Option α} (b : Str) (h : ∀ g t, b = g ++ ')' :: t → '\n' ∉ g → End t → k g t = none) :
    closeK k b = none := by
  unfold closeK
  rw [starK_none]
  intro a r e ha
  cases hb : dropPrefix? [')'] r with
  | none => rfl
  | some t =>
    dsimp only
    by_cases ht : End t
    · rw [if_pos ht]
      have hr := drop_one hb
      rw [e, take_front]
      exact h a t (by rw [e, hr]) (all_dot.1 ha) ht
    · rw [if_neg ht]

theorem m_actorTail (s : Str) : Pat.m {} len (cat actorTail) some ⟨s, []⟩ =
    (starK isDot (fun r => match dropPrefix? ['('] r with
      | some b => closeK (fun g2 t => some (MSt.mk t [(2, g2), (1, s.take (s.length - r.length))])) b
      | none => none) s).or
    (if End (s.dropWhile isDot) then some ⟨s.dropWhile isDot, [(3, s.takeWhile isDot)]⟩ else none) := by
  rw [actorTail, m_cat_cons, m_alt]
  refine congr (congrArg _ ?_) ?_
  · rw [m_cat_cons, m_dots]
    refine starK_congr (fun r => ?_) s
    rw [m_cat_cons, m_chr rfl]
    cases dropPrefix? ['('] r with
    | none => rfl
    | some b =>
      dsimp only
      rw [m_cat_cons, m_dots]
      unfold closeK
      refine starK_congr (fun r' => ?_) b
      show Pat.m {} len (.chr ')') _ _ = _
      rw [m_chr rfl]
      cases dropPrefix? [')'] r' with
      | none => rfl
      | some t =>
        dsimp only
        show Pat.m {} len .eos some _ = _
        rw [m_eos]
        rfl
  · rw [m_dots, starK_skip]
    · rw [takeWhile_append_drop]
      show Pat.m {} len .eos some _ = _
      rw [m_eos]
      rfl
    · intro x r hx
      show Pat.m {} len .eos some _ = _
      rw [m_eos, if_neg]
      rintro (h | h)
      · cases h
      · cases h
        cases hx

/-- The groups of the pattern for persons and organizations. -/
def actorCaps : (Str × Str) ⊕ Str → List (Nat × Str)
  | .inl (a, b) => [(2, b), (1, a)]
  | .inr c => [(3, c)]

theorem dropFinalNl_split (s : Str) : ∃ e, End e ∧ s = dropFinalNl s ++ e ∧ (e = [] → ∀ r, s ≠ r ++ ['\n']) := by
  unfold dropFinalNl
  split
  · rename_i r hr
    refine ⟨['\n'], .inr rfl, ?_, fun h => (nomatch h)⟩
    have := congrArg List.reverse hr
    rw [List.reverse_reverse, List.reverse_cons] at this
    exact this
  · rename_i hr
    refine ⟨[], .inl rfl, (List.append_nil s).symm, fun _ r e => ?_⟩
    exact hr r.reverse (by rw [e, List.reverse_append]; rfl)

theorem splitLast_some {sep : Char} {s a b : Str} (h : splitLast sep s = some (a, b)) : s = a ++ sep :: b ∧ sep ∉ b := by
  unfold splitLast at h
  have e := List.takeWhile_append_dropWhile (p := fun c => decide (c ≠ sep)) (l := s.reverse)
  split at h
  · cases h
  · rename_i c r hd
    simp only [Option.some.injEq, Prod.mk.injEq] at h
    obtain ⟨rfl, rfl⟩ := h
    have hc : c = sep := by
      have h2 := List.head?_dropWhile_not (p := fun c => decide (c ≠ sep)) (l := s.reverse)
      rw [hd] at h2
      simpa using h2
    subst hc
    rw [hd] at e
    have e' := congrArg List.reverse e
    rw [List.reverse_append, List.reverse_cons, List.reverse_reverse, List.append_assoc] at e'
    refine ⟨e'.symm, fun hm => ?_⟩
    rw [List.mem_reverse] at hm
    have := List.all_eq_true.1 (List.all_takeWhile (p := fun x => decide (x ≠ c)) (l := s.reverse)) c hm
    simp at this

theorem splitLast_none {sep : Char} {s : Str} (h : splitLast sep s = none) : sep ∉ s := by
  unfold splitLast at h
  split at h
  · rename_i hd
    intro hm
    have := List.all_eq_true.1 (all_of_dropWhile hd) sep (by simpa using hm)
    simp at this
  · cases h

theorem dropWhile_dots (t e : Str) (ht : '\n' ∉ t) (he : End e) : (t ++ e).takeWhile isDot = t ∧ (t ++ e).dropWhile isDot = e := by
  induction t with
  | nil => rcases he with rfl | rfl <;> exact ⟨rfl, rfl⟩
  | cons c t ih =>
    simp only [List.mem_cons, not_or] at ht
    have hc : isDot c = true := by simpa [isDot] using Ne.symm ht.1
    obtain ⟨h1, h2⟩ := ih ht.2
    rw [List.cons_append, List.takeWhile_cons_of_pos hc, List.dropWhile_cons_of_pos hc, h1, h2]
    exact ⟨rfl, rfl⟩

theorem end_mem {e : Str} (he : End e) {c : Char} (h : c ∈ e) : c = '\n' := by
  rcases he with rfl | rfl
  · cases h
  · simpa using h

/-- Two ways to write a text with an ending that `$` accepts. -/
theorem end_unique {a b e f : Str} (he : End e) (hf : End f) (h : a ++ e = b ++ f) (ha : '\n' ∉ a) (hb : '\n' ∉ b) : a = b ∧ e = f := by
  have h1 := dropWhile_dots a e ha he
  have h2 := dropWhile_dots b f hb hf
  rw [h] at h1
  exact ⟨h1.1.symm.trans h2.1, h1.2.symm.trans h2.2⟩

theorem actorTail_first (s : Str) (hn : '\n' ∉ dropFinalNl s) : (Pat.m {} len (cat actorTail) some ⟨s, []⟩).map MSt.caps =
    some (actorCaps (match (dropFinalNl s).reverse with
    | ')' :: r => match splitLast '(' r.reverse with
      | some (g1, g2) => .inl (g1, g2)
      | none => .inr (dropFinalNl s)
    | _ => .inr (dropFinalNl s))) := by
  rw [m_actorTail]
  obtain ⟨e, he, hs, -⟩ := dropFinalNl_split s
  generalize hT : dropFinalNl s = t at *
  obtain ⟨h1, h2⟩ := dropWhile_dots t e hn he
  rw [← hs] at h1 h2
  rw [h1, h2, if_pos he]
  -- without a closing parenthesis at the end there is no first alternative
  have hnone : (∀ g1 g2, t ≠ g1 ++ '(' :: (g2 ++ [')'])) → starK isDot (fun r => match dropPrefix? ['('] r with
      | some b => closeK (fun g2 t => some (MSt.mk t [(2, g2), (1, s.take (s.length - r.length))])) b
      | none => none) s = none := by
    intro hno
    rw [starK_none]
    intro a b eab ha
    cases hb : dropPrefix? ['('] b with
    | none => rfl
    | some b' =>
      dsimp only
      refine closeK_none b' fun g u eb hg hu => ?_
      exfalso
      have hb' := drop_one hb
      have : t ++ e = (a ++ '(' :: (g ++ [')'])) ++ u := by
        rw [← hs, eab, hb', eb]
        simp
      have := end_unique he hu this hn (by
        simp only [List.mem_append, List.mem_cons, List.not_mem_nil, not_or]
        exact ⟨all_dot.1 ha, by decide, hg, by decide, nofun⟩)
      exact hno a g this.1
  split
  · rename_i r hr
    have ht : t = r.reverse ++ [')'] := by
      have := congrArg List.reverse hr
      rw [List.reverse_reverse, List.reverse_cons] at this
      exact this
    split
    · rename_i g1 g2 hsp
      obtain ⟨hr', hno⟩ := splitLast_some hsp
      have hg1 : '\n' ∉ g1 := fun h => hn (by rw [ht, hr']; simp [h])
      have hg2 : '\n' ∉ g2 := fun h => hn (by rw [ht, hr']; simp [h])
      have hs' : s = g1 ++ '(' :: (g2 ++ ')' :: e) := by
        rw [hs, ht, hr']
        simp
      have : starK isDot (fun r => match dropPrefix? ['('] r with
          | some b => closeK (fun g2 t => some (MSt.mk t [(2, g2), (1, s.take (s.length - r.length))])) b
          | none => none) s = some ⟨e, [(2, g2), (1, g1)]⟩ := by
        conv => lhs; arg 3; rw [hs']
        refine starK_last g1 _ _ (all_dot.2 hg1) ?_ ?_
        · rw [drop_eq_cons]
          dsimp only
          refine closeK_some g2 e hg2 he _ ?_
          rw [hs', take_front]
        · intro a' b' eab hne ha'
          cases a' with
          | nil => exact absurd rfl hne
          | cons y a' =>
            rw [List.cons_append, List.cons.injEq] at eab
            cases hb : dropPrefix? ['('] b' with
            | none => rfl
            | some b'' =>
              dsimp only
              refine closeK_none b'' fun g u eb hg hu => ?_
              exfalso
              have hb' := drop_one hb
              have hm : '(' ∈ g2 ++ ')' :: e := by rw [eab.2, hb']; simp
              simp only [List.mem_append, List.mem_cons] at hm
              rcases hm with h | h | h
              · exact hno h
              · revert h; decide
              · exact absurd (end_mem he h) (by decide)
      rw [this]
      rfl
    · rename_i hsp
      rw [hnone]
      · rfl
      · intro g1 g2 e'
        have hno := splitLast_none hsp
        rw [ht] at e'
        have e'' : r.reverse ++ [')'] = (g1 ++ '(' :: g2) ++ [')'] := by rw [e']; simp
        have := List.append_cancel_right e''
        exact hno (by rw [this]; simp)
  · rename_i hno
    rw [hnone]
    · rfl
    · intro g1 g2 e'
      refine hno (g1 ++ '(' :: g2).reverse ?_
      rw [e']
      simp

theorem actorTail_none (s : Str) (hn : '\n' ∈ dropFinalNl s) : Pat.m {} len (cat actorTail) some ⟨s, []⟩ = none := by
  rw [m_actorTail]
  obtain ⟨e, he, hs, hfin⟩ := dropFinalNl_split s
  generalize hT : dropFinalNl s = t at *
  -- a text without newlines and an accepted ending is never all of `s`
  have hno : ∀ a u : Str, s = a ++ u → '\n' ∉ a → End u → False := by
    intro a u es ha hu
    rcases hu with rfl | rfl
    · rw [List.append_nil] at es
      apply ha
      rw [← es, hs]
      simp [hn]
    · rcases he with rfl | rfl
      · exact hfin rfl a es
      · have := List.append_cancel_right (hs.symm.trans es)
        exact ha (this ▸ hn)
  rw [if_neg, (starK_none s).2]
  · rfl
  · intro a b eab ha
    cases hb : dropPrefix? ['('] b with
    | none => rfl
    | some b' =>
      dsimp only
      refine closeK_none b' fun g u eb hg hu => ?_
      exfalso
      refine hno (a ++ '(' :: (g ++ [')'])) u ?_ ?_ hu
      · rw [eab, drop_one hb, eb]
        simp
      · simp only [List.mem_append, List.mem_cons, List.not_mem_nil, not_or]
        exact ⟨all_dot.1 ha, by decide, hg, by decide, nofun⟩
  · intro h
    refine hno (s.takeWhile isDot) (s.dropWhile isDot) List.takeWhile_append_dropWhile.symm ?_ h
    exact all_dot.1 List.all_takeWhile

theorem dropFinalNl_append (a r : Str) (h : r ≠ []) : dropFinalNl (a ++ r) = a ++ dropFinalNl r := by
  unfold dropFinalNl
  rw [List.reverse_append]
  cases hr : r.reverse with
  | nil => exact absurd (List.reverse_eq_nil_iff.1 hr) h
  | cons c t =>
    have : r = t.reverse ++ [c] := by
      have := congrArg List.reverse hr
      rw [List.reverse_reverse, List.reverse_cons] at this
      exact this
    rw [List.cons_append]
    by_cases hc : c = '\n'
    · subst hc
      show (t ++ a.reverse).reverse = a ++ t.reverse
      rw [List.reverse_append, List.reverse_reverse]
    · split
      · rename_i heq
        cases heq
        exact absurd rfl hc
      · split
        · rename_i heq
          cases heq
          exact absurd rfl hc
        · rfl

theorem actor_first (w s : Str) : ((actor w).first {} s).map MSt.caps = ((dropPrefix? w s).bind actorGroups).map actorCaps := by
  rw [first_eq, actor, m_cat_cons, m_bos, if_pos rfl, m_cat_lits]
  cases dropPrefix? w s with
  | none => rfl
  | some rest =>
    dsimp only
    rw [m_cat_cons, m_space_star, Option.bind_some]
    unfold actorGroups
    dsimp only
    by_cases hn : '\n' ∈ dropFinalNl (rest.dropWhile isPySpace)
    · rw [if_pos hn, (starK_none rest).2]
      · rfl
      · intro a b eab ha
        refine actorTail_none b ?_
        -- `b` ends with the text after the white space
        have hb : ∃ a', b = a' ++ rest.dropWhile isPySpace := by
          subst eab
          clear hn
          induction a with
          | nil => exact ⟨b.takeWhile isPySpace, List.takeWhile_append_dropWhile.symm⟩
          | cons c a ih =>
            simp only [List.all_cons, Bool.and_eq_true] at ha
            rw [List.cons_append, List.dropWhile_cons_of_pos ha.1]
            exact ih ha.2
        obtain ⟨a', hb⟩ := hb
        have hne : rest.dropWhile isPySpace ≠ [] := fun e => by rw [e] at hn; cases hn
        rw [hb, dropFinalNl_append _ _ hne]
        simp [hn]
    · rw [if_neg hn]
      have key := actorTail_first (len := s.length) (rest.dropWhile isPySpace) hn
      rw [starK_max]
      · rw [key]
        generalize (dropFinalNl (rest.dropWhile isPySpace)) = t
        generalize t.reverse = u
        match u with
        | [] => rfl
        | c :: r =>
          by_cases hc : c = ')'
          · subst hc
            show some (actorCaps (match splitLast '(' r.reverse with
              | some (g1, g2) => .inl (g1, g2)
              | none => .inr t)) = Option.map actorCaps (match splitLast '(' r.reverse with
              | some (g1, g2) => some (.inl (g1, g2))
              | none => some (.inr t))
            cases splitLast '(' r.reverse with
            | some _ => rfl
            | none => rfl
          · split
            · rename_i heq
              exact absurd (List.cons.inj heq).1 hc
            · split
              · rename_i heq
                exact absurd (List.cons.inj heq).1 hc
              · rfl
      · cases hx : Pat.m {} s.length (cat actorTail) some ⟨rest.dropWhile isPySpace, []⟩ with
        | some v => rfl
        | none => rw [hx] at key; cases key

end Spdx.PatGroups
