import Verif.Lemmas.PatGroups
/- The patterns with groups of the tag-value parser, and the substitutions. -/
namespace Spdx.PatGroups
open Spdx PatRun PatLang Pat

variable {α : Type} {len : Nat}

theorem m_times (neg : Bool) (items : List CItem) {p : Char → Bool} (hp : setTest {} neg items = p) (n : Nat) (b : Pat) (k : MSt → Option α)
    (s : Str) (caps : List (Nat × Str)) : Pat.m {} len (.times (.set neg items) n b) k ⟨s, caps⟩ =
      if (s.take n).length = n ∧ (s.take n).all p then Pat.m {} len b k ⟨s.drop n, caps⟩ else none := by
  induction n generalizing s with
  | zero =>
    rw [if_pos ⟨rfl, rfl⟩]
    rfl
  | succ n ih =>
    rw [Pat.times, m_seq, m_set, hp]
    cases s with
    | nil => rw [if_neg (by simp)]
    | cons c r =>
      dsimp only
      rw [ih, List.take_succ_cons, List.drop_succ_cons, List.length_cons, List.all_cons]
      by_cases hc : p c
      · rw [if_pos hc, hc]
        by_cases h : (r.take n).length = n ∧ (r.take n).all p
        · rw [if_pos h, if_pos ⟨by rw [h.1], by rw [h.2]; rfl⟩]
        · rw [if_neg h, if_neg]
          rintro ⟨h1, h2⟩
          exact h ⟨by omega, by simpa using h2⟩
      · rw [if_neg hc, if_neg]
        rintro ⟨_, h2⟩
        simp [hc] at h2

theorem hex_test1 : setTest {} false [.range 'a' 'f', .range '0' '9'] = isLowerHex := by
  funext c
  simp [setTest, CItem.test, isLowerHex, isDigit09, Bool.or_comm]

theorem hex_test2 : setTest {} false [.range '0' '9', .range 'a' 'f'] = isLowerHex := by
  funext c
  simp [setTest, CItem.test, isLowerHex, isDigit09]

theorem space_not_hex {c : Char} (h : isPySpace c = true) : isLowerHex c = false := by
  cases hx : isLowerHex c with
  | false => rfl
  | true =>
    exfalso
    have hlt : c.toNat < 128 := by
      unfold isLowerHex isDigit09 at hx
      simp only [Bool.or_eq_true, Bool.and_eq_true, decide_eq_true_eq] at hx
      have h1 : '9'.toNat = 57 := rfl
      have h2 : 'f'.toNat = 102 := rfl
      omega
    exact absurd hx (by
      have := char_below (P := fun c => isPySpace c = true → isLowerHex c = false) 128 (by decide +kernel) c hlt h
      rw [this]
      decide)

/-! ## External document references -/

/-- `(.*)(\s*SHA1:\s*[a-f0-9]{40})` -/
def docRef : Pat := cat [.grp 1 (.star .any), .grp 2 (cat (.star (.set false [.space]) :: (lits s%"SHA1:" ++
  [.star (.set false [.space]), .times (.set false [.range 'a' 'f', .range '0' '9']) 40 .eps])))]

theorem docRef_parsed : parsePattern PatText.externalDocRef = some (docRef, []) := by decide +kernel

/-- What follows the white space. -/
def shaK (k : Str → Option α) (b : Str) : Option α :=
  match dropPrefix? s%"SHA1:" b with
  | some r => if ((r.dropWhile isPySpace).take 40).length = 40 ∧ ((r.dropWhile isPySpace).take 40).all isLowerHex then
      k ((r.dropWhile isPySpace).drop 40) else none
  | none => none

theorem shaK_of_none {k : Str → Option α} {b : Str} (h : matchSha1 b = none) : shaK k b = none := by
  unfold matchSha1 at h
  unfold shaK
  cases hd : dropPrefix? s%"SHA1:" b with
  | none => rfl
  | some r =>
    rw [hd] at h
    dsimp only at h ⊢
    split at h
    · cases h
    · rename_i hc
      rw [if_neg hc]

theorem dropPrefix_append {w s r : Str} (h : dropPrefix? w s = some r) : s = w ++ r := by
  unfold dropPrefix? at h
  split at h
  · rename_i hp
    simp only [Option.some.injEq] at h
    rw [List.isPrefixOf_iff_prefix] at hp
    obtain ⟨t, rfl⟩ := hp
    rw [List.drop_left' rfl] at h
    rw [h]
  · cases h

theorem shaK_of_some {k : Str → Option α} {b m : Str} (h : matchSha1 b = some m) :
    ∃ t, b = m ++ t ∧ shaK k b = k t ∧ ∃ m', m = 'S' :: m' := by
  unfold matchSha1 at h
  unfold shaK
  cases hd : dropPrefix? s%"SHA1:" b with
  | none => rw [hd] at h; cases h
  | some r =>
    rw [hd] at h
    dsimp only at h ⊢
    split at h
    · rename_i hc
      simp only [Option.some.injEq] at h
      subst h
      rw [if_pos hc]
      refine ⟨(r.dropWhile isPySpace).drop 40, ?_, rfl, _, rfl⟩
      rw [dropPrefix_append hd, List.append_assoc, List.append_assoc, List.take_append_drop, List.takeWhile_append_dropWhile]
    · cases h

theorem splitSha1_none {s : Str} (h : splitSha1 s = none) : ∀ a b, s = a ++ b → matchSha1 b = none := by
  induction s with
  | nil =>
    intro a b e
    rw [(List.append_eq_nil_iff.1 e.symm).2]
    rfl
  | cons c r ih =>
    rw [splitSha1] at h
    cases hr : splitSha1 r with
    | some x => rw [hr] at h; cases h
    | none =>
      rw [hr] at h
      dsimp only at h
      intro a b e
      cases a with
      | nil =>
        rw [List.nil_append] at e
        rw [← e]
        exact Option.map_eq_none_iff.1 h
      | cons y a =>
        rw [List.cons_append, List.cons.injEq] at e
        exact ih hr a b e.2

theorem splitSha1_some {s g1 g2 : Str} (h : splitSha1 s = some (g1, g2)) :
    ∃ r, s = g1 ++ r ∧ matchSha1 r = some g2 ∧ ∀ a b, r = a ++ b → a ≠ [] → matchSha1 b = none := by
  induction s generalizing g1 with
  | nil => cases h
  | cons c r ih =>
    rw [splitSha1] at h
    cases hr : splitSha1 r with
    | some x =>
      obtain ⟨x1, x2⟩ := x
      rw [hr] at h
      simp only [Option.some.injEq, Prod.mk.injEq] at h
      obtain ⟨rfl, rfl⟩ := h
      obtain ⟨t, e, h1, h2⟩ := ih hr
      exact ⟨t, by rw [e]; rfl, h1, h2⟩
    | none =>
      rw [hr] at h
      dsimp only at h
      rw [Option.map_eq_some_iff] at h
      obtain ⟨m, hm, e⟩ := h
      cases e
      refine ⟨c :: r, rfl, hm, fun a b e hne => ?_⟩
      cases a with
      | nil => exact absurd rfl hne
      | cons y a =>
        rw [List.cons_append, List.cons.injEq] at e
        exact splitSha1_none hr a b e.2

theorem m_docRef (s : Str) : docRef.m {} len some ⟨s, []⟩ = starK isDot (fun b => starK isPySpace
    (shaK fun t => some (MSt.mk t [(2, b.take (b.length - t.length)), (1, s.take (s.length - b.length))])) b) s := by
  rw [docRef, m_cat_cons, m_dots]
  refine starK_congr (fun b => ?_) s
  show Pat.m {} len (.grp 2 _) some _ = _
  rw [m_grp, m_cat_cons, m_space_star]
  refine starK_congr (fun c => ?_) b
  rw [m_cat_lits]
  unfold shaK
  cases dropPrefix? s%"SHA1:" c with
  | none => rfl
  | some r =>
    dsimp only
    rw [m_cat_cons, m_space_star]
    have e : (fun r => Pat.m {} len (cat [.times (.set false [.range 'a' 'f', .range '0' '9']) 40 .eps])
        (fun s' => some (MSt.close 2 ⟨b, [(1, s.take (s.length - b.length))]⟩ s')) ⟨r, [(1, s.take (s.length - b.length))]⟩) = fun r : Str =>
        if (r.take 40).length = 40 ∧ (r.take 40).all isLowerHex then
          some (MSt.mk (r.drop 40) [(2, b.take (b.length - (r.drop 40).length)), (1, s.take (s.length - b.length))]) else none := by
      funext r
      show Pat.m {} len (.times _ 40 .eps) _ _ = _
      rw [m_times _ _ hex_test1, m_eps]
      rfl
    rw [e, starK_skip]
    intro x r hx
    rw [if_neg]
    rintro ⟨_, h2⟩
    rw [List.take_succ_cons, List.all_cons, space_not_hex hx] at h2
    cases h2

/-- The groups of the pattern for external document references, on a line. -/
theorem docRef_first (s : Str) (hn : '\n' ∉ s) :
    (docRef.first {} s).map MSt.caps = (splitSha1 s).map fun x => [(2, x.2), (1, x.1)] := by
  rw [first_eq, m_docRef]
  cases hs : splitSha1 s with
  | none =>
    rw [(starK_none s).2]
    · rfl
    · intro a b e _
      rw [starK_none]
      intro c d e' _
      exact shaK_of_none (splitSha1_none hs (a ++ c) d (by rw [e, e', List.append_assoc]))
  | some x =>
    obtain ⟨g1, g2⟩ := x
    obtain ⟨r, e, hm, hlast⟩ := splitSha1_some hs
    have : starK isDot (fun b => starK isPySpace
        (shaK fun t => some (MSt.mk t [(2, b.take (b.length - t.length)), (1, s.take (s.length - b.length))])) b) s =
        some ⟨r.drop g2.length, [(2, g2), (1, g1)]⟩ := by
      conv => lhs; arg 3; rw [e]
      refine starK_last g1 r _ (all_dot.2 fun h => hn (by rw [e]; simp [h])) ?_ ?_
      · obtain ⟨t, ht, hk, m', hm'⟩ := shaK_of_some (k := fun t => some (MSt.mk t [(2, r.take (r.length - t.length)), (1, s.take (s.length - r.length))])) hm
        have hstart : starK isPySpace (shaK fun t => some (MSt.mk t [(2, r.take (r.length - t.length)), (1, s.take (s.length - r.length))])) r =
            shaK (fun t => some (MSt.mk t [(2, r.take (r.length - t.length)), (1, s.take (s.length - r.length))])) r := by
          rw [ht, hm', List.cons_append, starK, if_neg (by decide +kernel)]
        rw [hstart, hk, e, take_front, ht, take_front, List.drop_left' rfl]
      · intro a' b' er hne _
        rw [starK_none]
        intro c d e' _
        exact shaK_of_none (hlast (a' ++ c) d (by rw [er, e', List.append_assoc]) (by simp [hne]))
    rw [this]
    rfl

/-! ## Verification codes -/

/-- `(.+)\)` -/
def excTail : List Pat := [.grp 3 (.plus .any), .chr ')']

/-- `([0-9a-f]{40})\s*(\(excludes:\s*(.+)\))?` -/
def code : Pat := cat [.grp 1 (.times (.set false [.range '0' '9', .range 'a' 'f']) 40 .eps), .star (.set false [.space]),
  .opt (.grp 2 (cat (lits s%"(excludes:" ++ (.star (.set false [.space]) :: excTail))))]

theorem code_parsed : parsePattern PatText.verificationCode = some (code, []) := by decide +kernel

theorem splitLast_append (sep : Char) (a b : Str) (hb : sep ∉ b) : splitLast sep (a ++ sep :: b) = some (a, b) := by
  cases h : splitLast sep (a ++ sep :: b) with
  | none => exact absurd (splitLast_none h) (by simp)
  | some x =>
    obtain ⟨x, y⟩ := x
    obtain ⟨e, hy⟩ := splitLast_some h
    have e1 : ∀ (a x b y : Str), a ++ sep :: b = x ++ sep :: y → sep ∉ b → sep ∉ y → x = a ∧ y = b := by
      intro a
      induction a with
      | nil =>
        intro x b y e hb hy
        cases x with
        | nil => exact ⟨rfl, (List.cons.inj e).2.symm⟩
        | cons z x =>
          rw [List.nil_append, List.cons_append, List.cons.injEq] at e
          exact absurd (by rw [e.2]; simp) hb
      | cons z a ih =>
        intro x b y e hb hy
        cases x with
        | nil =>
          rw [List.nil_append, List.cons_append, List.cons.injEq] at e
          exact absurd (by rw [← e.2]; simp) hy
        | cons w x =>
          rw [List.cons_append, List.cons_append, List.cons.injEq] at e
          obtain ⟨h1, h2⟩ := ih x b y e.2 hb hy
          exact ⟨by rw [e.1, h1], h2⟩
    obtain ⟨h1, h2⟩ := e1 a x b y e hb hy
    rw [h1, h2]

theorem m_excTail (f : MSt → α) (u : Str) (hn : '\n' ∉ u) (caps : List (Nat × Str)) :
    Pat.m {} len (cat excTail) (fun s' => some (f s')) ⟨u, caps⟩ = match splitLast ')' u with
      | some (c :: g, t) => some (f ⟨t, (3, c :: g) :: caps⟩)
      | _ => none := by
  rw [excTail, m_cat_cons, m_grp]
  unfold Pat.any
  rw [m_plus _ _ (any_test rfl)]
  cases u with
  | nil => rfl
  | cons c r =>
    simp only [List.mem_cons, not_or] at hn
    have hc : (decide (c ≠ '\n')) = true := by simpa using Ne.symm hn.1
    dsimp only
    rw [if_pos hc]
    show starK isDot (fun r' => Pat.m {} len (.chr ')') (fun s' => some (f s')) ⟨r', (3, (c :: r).take ((c :: r).length - r'.length)) :: caps⟩) r = _
    have e : (fun r' => Pat.m {} len (.chr ')') (fun s' => some (f s')) ⟨r', (3, (c :: r).take ((c :: r).length - r'.length)) :: caps⟩) =
        fun r' => match dropPrefix? [')'] r' with
          | some t => some (f ⟨t, (3, (c :: r).take ((c :: r).length - r'.length)) :: caps⟩)
          | none => none := by
      funext r'
      rw [m_chr rfl]
      cases dropPrefix? [')'] r' <;> rfl
    rw [e]
    -- the last closing parenthesis after the first character
    cases hs : splitLast ')' r with
    | some x =>
      obtain ⟨g, t⟩ := x
      obtain ⟨er, ht⟩ := splitLast_some hs
      have hsp : splitLast ')' (c :: r) = some (c :: g, t) := by rw [er]; exact splitLast_append ')' (c :: g) t ht
      rw [hsp]
      dsimp only
      have : ∀ r', r = r' → starK isDot (fun r' => match dropPrefix? [')'] r' with
          | some t => some (f ⟨t, (3, (c :: r).take ((c :: r).length - r'.length)) :: caps⟩)
          | none => none) r' = some (f ⟨t, (3, c :: g) :: caps⟩) := by
        intro r' hr'
        rw [← hr', er]
        refine starK_last g (')' :: t) _ (all_dot.2 fun h => hn.2 (by rw [er]; simp [h])) ?_ ?_
        · rw [drop_eq_cons]
          dsimp only
          rw [← List.cons_append, take_front]
        · intro a' b' e' hne _
          cases a' with
          | nil => exact absurd rfl hne
          | cons y a' =>
            rw [List.cons_append, List.cons.injEq] at e'
            cases hb : dropPrefix? [')'] b' with
            | none => rfl
            | some z =>
              exfalso
              exact ht (by rw [e'.2, drop_one hb]; simp)
      exact this r rfl
    | none =>
      have hr := splitLast_none hs
      rw [(starK_none r).2]
      · -- only the first character could be a closing parenthesis
        cases hs' : splitLast ')' (c :: r) with
        | none => rfl
        | some x =>
          obtain ⟨g, t⟩ := x
          obtain ⟨e', _⟩ := splitLast_some hs'
          cases g with
          | nil => rfl
          | cons y g =>
            rw [List.cons_append, List.cons.injEq] at e'
            exact absurd (by rw [e'.2]; simp) hr
      · intro a b e' _
        cases hb : dropPrefix? [')'] b with
        | none => rfl
        | some z =>
          exfalso
          exact hr (by rw [e', drop_one hb]; simp)

/-- The excluded files. -/
theorem m_excludes (f : MSt → α) (s : Str) (hn : '\n' ∉ s) (caps : List (Nat × Str)) :
    ∃ t, Pat.m {} len (cat (.star (.set false [.space]) :: excTail)) (fun s' => some (f s')) ⟨s, caps⟩ =
      (excludesGroup s).map fun g => f ⟨t, (3, g) :: caps⟩ := by
  rw [m_cat_cons, m_space_star]
  have hclose : isPySpace ')' = false := by decide +kernel
  have e : ∀ u : Str, '\n' ∉ u → Pat.m {} len (cat excTail) (fun s' => some (f s')) ⟨u, caps⟩ = match splitLast ')' u with
      | some (c :: g, t) => some (f ⟨t, (3, c :: g) :: caps⟩)
      | _ => none := fun u hu => m_excTail f u hu caps
  have hsuf : ∀ a b : Str, s = a ++ b → '\n' ∉ b := fun a b e h => hn (by rw [e]; simp [h])
  unfold excludesGroup
  cases hs : splitLast ')' s with
  | none =>
    refine ⟨[], ?_⟩
    have hno := splitLast_none hs
    rw [(starK_none s).2]
    · rfl
    · intro a b eab _
      rw [e b (hsuf a b eab)]
      cases hb : splitLast ')' b with
      | none => rfl
      | some x =>
        exfalso
        exact hno (by rw [eab, (splitLast_some (a := x.1) (b := x.2) hb).1]; simp)
  | some x =>
    obtain ⟨body, t⟩ := x
    refine ⟨t, ?_⟩
    obtain ⟨es, ht⟩ := splitLast_some hs
    dsimp only
    cases hd : body.dropWhile isPySpace with
    | cons c g =>
      have hdrop : s.dropWhile isPySpace = c :: g ++ ')' :: t := by
        have e1 := List.takeWhile_append_dropWhile (p := isPySpace) (l := body)
        rw [hd] at e1
        have hc : isPySpace c = false := by
          have h2 := List.head?_dropWhile_not (p := isPySpace) (l := body)
          rw [hd] at h2
          simpa using h2
        have hw : ∀ (w v : Str), w.all isPySpace = true → (∀ c r, v = c :: r → isPySpace c = false) → (w ++ v).dropWhile isPySpace = v := by
          intro w v hw hv
          induction w with
          | nil =>
            cases v with
            | nil => rfl
            | cons c r => exact List.dropWhile_cons_of_neg (by rw [hv c r rfl]; decide)
          | cons x w ih =>
            simp only [List.all_cons, Bool.and_eq_true] at hw
            rw [List.cons_append, List.dropWhile_cons_of_pos hw.1]
            exact ih hw.2
        rw [es, ← e1, List.append_assoc]
        exact hw _ _ List.all_takeWhile fun c' r' e' => by
          rw [List.cons_append, List.cons.injEq] at e'
          rw [← e'.1]
          exact hc
      have hk : Pat.m {} len (cat excTail) (fun s' => some (f s')) ⟨s.dropWhile isPySpace, caps⟩ = some (f ⟨t, (3, c :: g) :: caps⟩) := by
        rw [e _ (hsuf (s.takeWhile isPySpace) _ List.takeWhile_append_dropWhile.symm), hdrop, splitLast_append _ _ _ ht]
      rw [starK_max (by rw [hk]; rfl), hk]
      rfl
    | nil =>
      have hall := all_of_dropWhile hd
      cases hr : body.reverse with
      | nil =>
        have hb : body = [] := List.reverse_eq_nil_iff.1 hr
        subst hb
        rw [(starK_none s).2]
        · rfl
        · intro a b eab ha
          cases a with
          | nil =>
            rw [List.nil_append] at eab
            rw [e b (hsuf [] b eab), ← eab, hs]
          | cons y a =>
            rw [es, List.nil_append, List.cons_append, List.cons.injEq] at eab
            rw [← eab.1, List.all_cons, hclose] at ha
            cases ha
      | cons c w =>
        have hb : body = w.reverse ++ [c] := by
          have := congrArg List.reverse hr
          rw [List.reverse_reverse, List.reverse_cons] at this
          exact this
        have hgl : body.getLast? = some c := by rw [hb]; simp
        rw [hgl]
        have es' : s = w.reverse ++ (c :: ')' :: t) := by rw [es, hb]; simp
        rw [hb, List.all_append, Bool.and_eq_true] at hall
        conv => lhs; arg 3; rw [es']
        refine starK_last w.reverse (c :: ')' :: t) _ hall.1 ?_ ?_
        · rw [e _ (hsuf _ _ es')]
          have := splitLast_append ')' [c] t ht
          rw [List.cons_append, List.nil_append] at this
          rw [this]
        · intro a' b' e' hne ha'
          cases a' with
          | nil => exact absurd rfl hne
          | cons y a' =>
            rw [List.cons_append, List.cons.injEq] at e'
            cases a' with
            | nil =>
              rw [List.nil_append] at e'
              rw [← e'.2, e _ (hsuf (w.reverse ++ [c]) _ (by rw [es']; simp))]
              have := splitLast_append ')' [] t ht
              rw [List.nil_append] at this
              rw [this]
            | cons z a' =>
              rw [List.cons_append, List.cons.injEq] at e'
              rw [← e'.2.1] at ha'
              simp [hclose] at ha'

/-- The groups of the pattern for verification codes, on a line. -/
theorem code_first (s : Str) (hn : '\n' ∉ s) : (code.first {} s).map (fun m => (m.group 1, m.group 3)) =
    if (s.take 40).length = 40 ∧ (s.take 40).all isLowerHex then
      some (some (s.take 40), (dropPrefix? s%"(excludes:" ((s.drop 40).dropWhile isPySpace)).bind excludesGroup) else none := by
  rw [first_map, code, m_cat_cons, m_grp, m_times _ _ hex_test2]
  by_cases h : (s.take 40).length = 40 ∧ (s.take 40).all isLowerHex
  · rw [if_pos h, if_pos h, m_eps]
    unfold MSt.close
    dsimp only
    have hcap : s.take (s.length - (s.drop 40).length) = s.take 40 := by
      have h1 := h.1
      rw [List.length_take] at h1
      rw [List.length_drop]
      congr 1
      omega
    rw [hcap, m_cat_cons, m_space_star, starK_all]
    · show Pat.m {} s.length (.opt _) _ _ = _
      unfold Pat.opt
      rw [m_alt, m_eps, m_grp, m_cat_lits]
      cases hd : dropPrefix? s%"(excludes:" ((s.drop 40).dropWhile isPySpace) with
      | none => rfl
      | some r =>
        dsimp only
        have hr : '\n' ∉ r := by
          intro hm
          have h1 := dropPrefix_append hd
          have h2 : '\n' ∈ (s.drop 40).dropWhile isPySpace := by rw [h1]; simp [hm]
          have h3 : '\n' ∈ s.drop 40 := (List.dropWhile_sublist _).mem h2
          exact hn (List.mem_of_mem_drop h3)
        obtain ⟨t, ht⟩ := m_excludes (len := s.length) (fun s' => ((MSt.close 2 ⟨(s.drop 40).dropWhile isPySpace, [(1, s.take 40)]⟩ s').group 1,
          (MSt.close 2 ⟨(s.drop 40).dropWhile isPySpace, [(1, s.take 40)]⟩ s').group 3)) r hr [(1, s.take 40)]
        rw [ht, Option.bind_some]
        cases excludesGroup r with
        | none => rfl
        | some g => rfl
    · intro r
      show (Pat.m {} s.length (.opt _) _ _).isSome
      unfold Pat.opt
      rw [m_alt, m_eps]
      cases Pat.m {} s.length (.grp 2 _) _ _ <;> rfl
  · rw [if_neg h, if_neg h]

/-! ## Text blocks -/

/-- `(.|\n)` -/
def anyChar : Pat := .grp 2 (.alt .any (.chr '\n'))

/-- `<text>((.|\n)+)</text>` -/
def textBlock : Pat := cat (lits s%"<text>" ++ (.grp 1 (.plus anyChar) :: lits s%"</text>"))

theorem textBlock_parsed : parsePattern PatText.textBlock = some (textBlock, []) := by decide +kernel

theorem run_anyChar (c : Char) (r : Str) (caps : List (Nat × Str)) : anyChar.run {} len ⟨c :: r, caps⟩ = [⟨r, (2, [c]) :: caps⟩] := by
  have h1 : setTest {} true [.chr '\n'] c = decide (c ≠ '\n') := congrFun (any_test rfl) c
  have h2 : setTest {} false [.chr '\n'] c = (c == '\n') := congrFun (chr_test rfl '\n') c
  have hl : (c :: r).length - r.length = 1 := by rw [List.length_cons]; omega
  unfold anyChar Pat.any Pat.chr
  simp only [Pat.run, h1, h2]
  by_cases h : c = '\n' <;> simp [h, MSt.close]

theorem m_star_anyChar {k : MSt → Option α} {k' : Str → Option α} (hk : ∀ r caps, k ⟨r, caps⟩ = k' r) (s : Str) (caps : List (Nat × Str)) :
    Pat.m {} len (.star anyChar) k ⟨s, caps⟩ = starK (fun _ => true) k' s := by
  rw [Pat.m, Pat.run]
  induction s generalizing caps with
  | nil =>
    show List.findSome? k [⟨[], caps⟩] = k' []
    rw [List.findSome?_cons, hk]
    cases k' [] <;> rfl
  | cons c r ih =>
    rw [starK, if_pos rfl]
    show List.findSome? k (((anyChar.run {} len ⟨c :: r, caps⟩).filter _).flatMap _ ++ [⟨c :: r, caps⟩]) = _
    rw [List.findSome?_append]
    have e : List.findSome? k [⟨c :: r, caps⟩] = k' (c :: r) := by
      rw [List.findSome?_cons, hk]
      cases k' (c :: r) <;> rfl
    rw [e, run_anyChar]
    have hl : List.filter (fun s' : MSt => decide (s'.rest.length < (c :: r).length)) [⟨r, (2, [c]) :: caps⟩] = [⟨r, (2, [c]) :: caps⟩] := by
      exact List.filter_eq_self.2 fun a ha => by
        rw [List.mem_singleton.1 ha]
        exact decide_eq_true (Nat.lt_succ_self _)
    rw [hl, List.flatMap_cons, List.flatMap_nil, List.append_nil, ← ih ((2, [c]) :: caps)]

theorem m_plus_anyChar {k : MSt → Option α} {k' : Str → Option α} (hk : ∀ r caps, k ⟨r, caps⟩ = k' r) (s : Str) (caps : List (Nat × Str)) :
    Pat.m {} len (.plus anyChar) k ⟨s, caps⟩ = match s with
      | _ :: r => starK (fun _ => true) k' r
      | [] => none := by
  unfold Pat.plus
  rw [m_seq]
  cases s with
  | nil =>
    rw [Pat.m]
    have : anyChar.run {} len ⟨[], caps⟩ = [] := by rfl
    rw [this]
    rfl
  | cons c r =>
    rw [Pat.m, run_anyChar, List.findSome?_cons, m_star_anyChar hk]
    dsimp only
    cases starK (fun _ => true) k' r <;> rfl

theorem cutLast_none {p s : Str} (hp : p ≠ []) (h : cutLast p s = none) : ∀ a b, s = a ++ b → dropPrefix? p b = none := by
  have hd : ∀ b, p.isPrefixOf b = false → dropPrefix? p b = none := fun b hb => by unfold dropPrefix?; rw [hb]; rfl
  induction s with
  | nil =>
    intro a b e
    rw [(List.append_eq_nil_iff.1 e.symm).2]
    cases p with
    | nil => exact absurd rfl hp
    | cons x p => rfl
  | cons c r ih =>
    rw [cutLast] at h
    cases hr : cutLast p r with
    | some x => rw [hr] at h; cases h
    | none =>
      rw [hr] at h
      dsimp only at h
      intro a b e
      cases a with
      | nil =>
        rw [List.nil_append] at e
        rw [← e]
        split at h
        · cases h
        · rename_i hn
          exact hd _ (Bool.eq_false_iff.2 hn)
      | cons y a =>
        rw [List.cons_append, List.cons.injEq] at e
        exact ih hr a b e.2

theorem cutLast_some {p s x : Str} (hp : p ≠ []) (h : cutLast p s = some x) :
    ∃ r t, s = x ++ r ∧ dropPrefix? p r = some t ∧ ∀ a b, r = a ++ b → a ≠ [] → dropPrefix? p b = none := by
  induction s generalizing x with
  | nil => cases h
  | cons c r ih =>
    rw [cutLast] at h
    cases hr : cutLast p r with
    | some y =>
      rw [hr] at h
      simp only [Option.some.injEq] at h
      subst h
      obtain ⟨u, t, e, h1, h2⟩ := ih hr
      exact ⟨u, t, by rw [e]; rfl, h1, h2⟩
    | none =>
      rw [hr] at h
      dsimp only at h
      split at h
      · rename_i hpre
        cases h
        refine ⟨c :: r, (c :: r).drop p.length, rfl, by unfold dropPrefix?; rw [if_pos hpre], fun a b e hne => ?_⟩
        cases a with
        | nil => exact absurd rfl hne
        | cons y a =>
          rw [List.cons_append, List.cons.injEq] at e
          exact cutLast_none hp hr a b e.2
      · cases h

/-- The group of the pattern for text blocks. -/
theorem textBlock_first (s : Str) : (textBlock.first {} s).map (·.group 1) =
    match (dropPrefix? s%"<text>" s).bind (cutLast s%"</text>") with
    | some (c :: x) => some (some (c :: x))
    | _ => none := by
  rw [first_map, textBlock, m_cat_lits]
  cases dropPrefix? s%"<text>" s with
  | none => rfl
  | some r =>
    dsimp only
    rw [Option.bind_some, m_cat_cons, m_grp]
    have hk : ∀ u caps, (fun s' => Pat.m {} s.length (cat (lits s%"</text>")) (fun m => some (m.group 1)) (MSt.close 1 ⟨r, []⟩ s')) ⟨u, caps⟩ =
        (fun u : Str => (dropPrefix? s%"</text>" u).map fun _ => some (r.take (r.length - u.length))) u := by
      intro u caps
      have := m_cat_lits (len := s.length) s%"</text>" [] (fun m => some (m.group 1)) u ((1, r.take (r.length - u.length)) :: caps)
      rw [List.append_nil] at this
      dsimp only
      unfold MSt.close
      dsimp only
      rw [this]
      cases dropPrefix? s%"</text>" u with
      | none => rfl
      | some t =>
        dsimp only
        show Pat.m {} s.length .eps _ _ = _
        rw [m_eps]
        rfl
    rw [m_plus_anyChar hk]
    cases r with
    | nil => rfl
    | cons c t =>
      dsimp only
      have hp : s%"</text>" ≠ [] := by decide
      cases hc : cutLast s%"</text>" (c :: t) with
      | none =>
        rw [(starK_none t).2]
        intro a b e _
        rw [cutLast_none hp hc (c :: a) b (by rw [e]; rfl)]
        rfl
      | some x =>
        obtain ⟨u, v, e, h1, h2⟩ := cutLast_some hp hc
        cases x with
        | nil =>
          dsimp only
          rw [(starK_none t).2]
          intro a b e' _
          rw [h2 (c :: a) b (by rw [List.nil_append] at e; rw [← e, e']; rfl) (by simp)]
          rfl
        | cons y x =>
          dsimp only
          have e0 := e
          rw [List.cons_append, List.cons.injEq] at e
          conv => lhs; arg 3; rw [e.2]
          refine starK_last x u _ (List.all_eq_true.2 fun _ _ => rfl) ?_ ?_
          · rw [h1, e0, take_front]
            rfl
          · intro a' b' e' hne _
            rw [h2 a' b' e' hne]
            rfl

/-! ## Substitutions -/

def sepPat : Pat := .plus (.set false [.chr '_', .chr '-'])
def capPat : Pat := .seq .notBos (.grp 1 (.plus (.set false [.range 'A' 'Z'])))

theorem separators_parsed : parsePattern PatText.separators = some (sepPat, []) := by decide +kernel
theorem capitals_parsed : parsePattern PatText.capitals = some (capPat, []) := by decide +kernel

def isSep (c : Char) : Bool := c == '_' || c == '-'

theorem sep_test : setTest {} false [.chr '_', .chr '-'] = isSep := by
  funext c
  simp [setTest, CItem.test, isSep]

theorem cap_test : setTest {} false [.range 'A' 'Z'] = isUpperAZ := by
  funext c
  simp [setTest, CItem.test, isUpperAZ]

theorem head_eq (p : Pat) (s : MSt) : (p.run {} len s).head? = p.m {} len some s := by
  have := head_findSome (p.run {} len s) id
  rw [Option.map_id] at this
  exact this

theorem sep_run (s : Str) : (sepPat.run {} len ⟨s, []⟩).head? = match s with
    | c :: r => if isSep c then some ⟨r.dropWhile isSep, []⟩ else none
    | [] => none := by
  rw [head_eq, sepPat, m_plus _ _ sep_test]
  cases s with
  | nil => rfl
  | cons c r =>
    dsimp only
    rw [starK_all (fun _ => rfl)]

theorem collapse_run (s : Str) : collapseSeps true s = collapseSeps false (s.dropWhile isSep) := by
  induction s with
  | nil => rfl
  | cons c r ih =>
    by_cases h : isSep c
    · have h' : c = '_' ∨ c = '-' := by simpa [isSep] using h
      rw [List.dropWhile_cons_of_pos h, ← ih, collapseSeps, if_pos h', if_pos rfl]
    · have h' : ¬(c = '_' ∨ c = '-') := by simpa [isSep] using h
      rw [List.dropWhile_cons_of_neg h, collapseSeps, collapseSeps, if_neg h', if_neg h']

theorem sep_sub (fuel : Nat) (s : Str) (h : s.length ≤ fuel) : sepPat.subGo {} (fun _ => [' ']) len fuel s = collapseSeps false s := by
  induction fuel generalizing s with
  | zero =>
    rw [List.length_eq_zero_iff.1 (Nat.le_zero.1 h)]
    rfl
  | succ n ih =>
    rw [Pat.subGo.eq_def]
    dsimp only
    rw [sep_run]
    cases s with
    | nil => rfl
    | cons c r =>
      rw [List.length_cons] at h
      dsimp only
      by_cases hc : isSep c
      · have h' : c = '_' ∨ c = '-' := by simpa [isSep] using hc
        rw [if_pos hc, collapseSeps, if_pos h']
        dsimp only
        have hl := length_dropWhile_le' isSep r
        rw [ih _ (by omega), collapse_run]
        rfl
      · have h' : ¬(c = '_' ∨ c = '-') := by simpa [isSep] using hc
        rw [if_neg hc, collapseSeps, if_neg h']
        dsimp only
        rw [ih _ (by omega)]

theorem cap_run (s : Str) (hs : s.length < len) : (capPat.run {} len ⟨s, []⟩).head? = match s with
    | c :: r => if isUpperAZ c then some ⟨r.dropWhile isUpperAZ, [(1, c :: r.takeWhile isUpperAZ)]⟩ else none
    | [] => none := by
  rw [head_eq, capPat, m_seq, m_notBos, if_neg (by show s.length ≠ len; omega), m_grp, m_plus _ _ cap_test]
  cases s with
  | nil => rfl
  | cons c r =>
    dsimp only
    by_cases h : isUpperAZ c
    · rw [if_pos h, if_pos h, starK_all (fun _ => rfl)]
      have := takeWhile_append_drop (c :: r) isUpperAZ
      rw [List.takeWhile_cons_of_pos h, List.dropWhile_cons_of_pos h] at this
      unfold MSt.close
      dsimp only
      rw [this]
    · rw [if_neg h, if_neg h]

theorem insert_run (s : Str) : insertUnderscores true s = s.takeWhile isUpperAZ ++ insertUnderscores false (s.dropWhile isUpperAZ) := by
  induction s with
  | nil => rfl
  | cons c r ih =>
    by_cases h : isUpperAZ c
    · rw [List.takeWhile_cons_of_pos h, List.dropWhile_cons_of_pos h, List.cons_append, ← ih, insertUnderscores, if_pos h, if_pos rfl]
    · rw [List.takeWhile_cons_of_neg h, List.dropWhile_cons_of_neg h, List.nil_append, insertUnderscores, insertUnderscores, if_neg h, if_neg h]

/-- `r"_\1"` -/
def underscoreGroup (m : MSt) : Str := '_' :: ((m.group 1).elim [] id)

theorem cap_sub (fuel : Nat) (s : Str) (h : s.length ≤ fuel) (hs : s.length < len) :
    capPat.subGo {} underscoreGroup len fuel s = insertUnderscores false s := by
  induction fuel generalizing s with
  | zero =>
    rw [List.length_eq_zero_iff.1 (Nat.le_zero.1 h)]
    rfl
  | succ n ih =>
    rw [Pat.subGo.eq_def]
    dsimp only
    rw [cap_run s hs]
    cases s with
    | nil => rfl
    | cons c r =>
      rw [List.length_cons] at h hs
      dsimp only
      by_cases hc : isUpperAZ c
      · rw [if_pos hc, insertUnderscores, if_pos hc, if_neg (by decide)]
        dsimp only
        have hl := length_dropWhile_le' isUpperAZ r
        rw [ih _ (by omega) (by omega), insert_run]
        rfl
      · rw [if_neg hc, insertUnderscores, if_neg hc]
        dsimp only
        rw [ih _ (by omega) (by omega)]

theorem cap_sub_all (s : Str) : capPat.sub {} underscoreGroup s = match s with
    | [] => []
    | c :: cs => c :: insertUnderscores false cs := by
  unfold Pat.sub
  cases s with
  | nil => rfl
  | cons c r =>
    show capPat.subGo {} underscoreGroup (r.length + 1) (r.length + 1) (c :: r) = _
    rw [Pat.subGo]
    have : (capPat.run {} (r.length + 1) ⟨c :: r, []⟩).head? = none := by
      rw [head_eq, capPat, m_seq, m_notBos, if_pos (List.length_cons)]
    rw [this]
    dsimp only
    rw [cap_sub _ _ (Nat.le_refl _) (Nat.lt_succ_self _)]

end Spdx.PatGroups
