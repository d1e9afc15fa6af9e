import Verif.Spec.Lines
import Verif.Spec.Same
import Verif.Lemmas.TagValueRun
import Verif.Lemmas.TvLexed
/- The line numbers of the lexer. -/
namespace Spdx
open Spec

theorem newlines_append (a b : Str) : newlines (a ++ b) = newlines a + newlines b := List.count_append

theorem newlines_split (p : Char → Bool) (s : Str) : newlines s = newlines (s.takeWhile p) + newlines (s.dropWhile p) := by
  rw [← newlines_append, List.takeWhile_append_dropWhile]

theorem newlines_zero {s : Str} (h : '\n' ∉ s) : newlines s = 0 := List.count_eq_zero.2 h

theorem newlines_takeWhile {p : Char → Bool} (hp : p '\n' = false) (s : Str) : newlines (s.takeWhile p) = 0 := by
  refine newlines_zero fun h => ?_
  have := List.all_takeWhile (l := s) (p := p)
  rw [List.all_eq_true] at this
  rw [this _ h] at hp
  cases hp

theorem newlines_dropWhile {p : Char → Bool} (hp : p '\n' = false) (s : Str) : newlines (s.dropWhile p) = newlines s := by
  rw [newlines_split p s, newlines_takeWhile hp, Nat.zero_add]

theorem newlines_cons {c : Char} (h : c ≠ '\n') (s : Str) : newlines (c :: s) = newlines s := by
  unfold newlines; rw [List.count_cons_of_ne]; simpa using fun e => h e

theorem newlines_cutFirst {p s a b : Str} (hp : '\n' ∉ p) (h : cutFirst p s = some (a, b)) : newlines s = newlines a + newlines b := by
  induction s generalizing a b with
  | nil => unfold cutFirst at h; split at h <;> simp_all [newlines]
  | cons c r ih =>
    unfold cutFirst at h
    split at h
    · rename_i hpre
      simp only [Option.some.injEq, Prod.mk.injEq] at h
      obtain ⟨t, ht⟩ := List.isPrefixOf_iff_prefix.1 hpre
      rw [← h.1, ← h.2, ← ht, newlines_append, newlines_zero hp]
      simp [newlines]
    · cases e : cutFirst p r with
      | none => rw [e] at h; cases h
      | some x =>
        rw [e] at h
        simp only [Option.map_some, Option.some.injEq, Prod.mk.injEq] at h
        have := ih (a := x.1) (b := x.2) e
        rw [← h.1, ← h.2]
        unfold newlines at this ⊢
        simp only [List.count_cons]
        omega

private theorem names_plain : ∀ n ∈ checksumNames, '\n' ∉ n ∧ ':' ∉ n := by decide +kernel

theorem newlines_matchChecksum {v a b : Str} (h : matchChecksum v = some (a, b)) :
    newlines v = gap ((v.dropWhile (· ≠ ':')).drop 1) + newlines b := by
  unfold matchChecksum at h
  cases e : checksumNames.find? fun n => startsWith v (n ++ [':']) with
  | none => rw [e] at h; cases h
  | some n =>
    rw [e] at h
    simp only [Option.map_some, Option.some.injEq, Prod.mk.injEq] at h
    have hn := names_plain n (List.mem_of_find?_eq_some e)
    have hs := List.find?_some e
    obtain ⟨t, ht⟩ := List.isPrefixOf_iff_prefix.1 hs
    have hd : v.drop (n.length + 1) = t := by
      rw [← ht, List.drop_left' (by simp)]
    have hw : (v.dropWhile (· ≠ ':')).drop 1 = t := by
      rw [← ht]
      have : ∀ (n : Str), ':' ∉ n → ((n ++ [':'] ++ t).dropWhile (· ≠ ':')) = ':' :: t := by
        intro n hn
        induction n with
        | nil => simp
        | cons c n ih =>
          simp only [List.mem_cons, not_or] at hn
          simp only [List.cons_append, List.dropWhile_cons]
          rw [if_pos (by simpa using fun e => hn.1 e.symm)]
          exact ih hn.2
      rw [this n hn.2]; rfl
    rw [hd] at h
    rw [hw, ← h.2, ← ht, newlines_append, newlines_append, newlines_zero hn.1, newlines_dropWhile (by decide)]
    rw [newlines_split isPySpace t]
    simp [newlines, gap]

theorem newlines_matchActor {p v a b : Str} (hp : '\n' ∉ p) (h : matchActor p v = some (a, b)) : newlines v = newlines b := by
  unfold matchActor at h
  split at h
  · rename_i hs
    simp only [Option.some.injEq, Prod.mk.injEq] at h
    obtain ⟨t, ht⟩ := List.isPrefixOf_iff_prefix.1 hs.1
    rw [← h.2, newlines_dropWhile (by decide), ← ht, List.drop_left' rfl, newlines_append, newlines_zero hp, Nat.zero_add]
  · cases h

theorem newlines_matchDatePat {p v a b : Str} (hp : '\n' ∉ p) (h : matchDatePat p v = some (a, b)) : newlines v = newlines b := by
  induction p generalizing v a b with
  | nil => simp only [matchDatePat, Option.some.injEq, Prod.mk.injEq] at h; rw [h.2]
  | cons q p ih =>
    simp only [List.mem_cons, not_or] at hp
    cases v with
    | nil => simp [matchDatePat] at h
    | cons c v =>
      simp only [matchDatePat] at h
      split at h
      · rename_i hc
        cases e : matchDatePat p v with
        | none => rw [e] at h; cases h
        | some x =>
          rw [e] at h
          simp only [Option.map_some, Option.some.injEq, Prod.mk.injEq] at h
          have hne : c ≠ '\n' := by
            rintro rfl
            unfold dateChar at hc
            split at hc
            · exact absurd hc (by decide)
            · exact hp.1 (by simpa using hc)
          rw [newlines_cons hne, ih hp.2 (a := x.1) (b := x.2) e, ← h.2]
      · cases h

private theorem dropPrefix_line {w s r : Str} (h : dropPrefix? w s = some r) : s = w ++ r := by
  unfold dropPrefix? at h
  split at h
  · rename_i hp
    simp only [Option.some.injEq] at h
    obtain ⟨t, ht⟩ := List.isPrefixOf_iff_prefix.1 hp
    rw [← h, ← ht, List.drop_left' rfl]
  · cases h

/-- What a rule that starts with a colon steps over. -/
private theorem value_newlines (r : Str) :
    (lexValue r).2 = [] ∨
      newlines r = counted (':' :: r) + steppedOver ⟨(lexValue r).1, 0, [], ':' :: r⟩ + newlines (lexValue r).2 := by
  have hsp := newlines_split isPySpace r
  unfold lexValue counted
  simp only [if_true]
  cases hb : dropPrefix? s%"<text>" (r.dropWhile isPySpace) with
  | some body =>
    have hbody := dropPrefix_line hb
    cases hc : cutFirst s%"</text>" body with
    | none => exact .inl (by simp only [hc])
    | some x =>
      refine .inr ?_
      simp only [hc]
      have h1 := newlines_cutFirst (by decide) hc
      have h2 := newlines_split isPySpace x.2
      have h3 : newlines s%"<text>" = 0 := by decide
      have h4 : newlines s%"</text>" = 0 := by decide
      rw [hbody] at hsp
      simp only [newlines_append] at hsp ⊢
      simp only [steppedOver, gap, List.drop_one, List.tail_cons]
      omega
  | none =>
    refine .inr ?_
    simp only
    split
    · rename_i h
      have := newlines_matchChecksum h
      simp only [steppedOver, gap, List.drop_one, List.tail_cons] at this ⊢
      omega
    · split
      · rename_i h
        have := newlines_matchActor (by decide) h
        simp only [steppedOver, gap, List.drop_one, List.tail_cons] at this ⊢
        omega
      · split
        · rename_i h
          have := newlines_matchActor (by decide) h
          simp only [steppedOver, gap, List.drop_one, List.tail_cons] at this ⊢
          omega
        · split
          · rename_i h
            have := newlines_matchActor (by decide) h
            simp only [steppedOver, gap, List.drop_one, List.tail_cons] at this ⊢
            omega
          · split
            · rename_i h
              have := newlines_matchDatePat (by decide) h
              simp only [steppedOver, gap, List.drop_one, List.tail_cons] at this ⊢
              omega
            · split
              · simp [steppedOver]
              · have h0 : ∀ w, steppedOver ⟨some (reservedTok w (.line w)), 0, [], ':' :: r⟩ = 0 := by
                  intro w
                  unfold steppedOver reservedTok
                  simp only
                  split <;> rename_i h <;> first | rfl | (exfalso; revert h; repeat' split) <;> simp
                simp only [h0, newlines_dropWhile (p := isDot) (by decide)]
                omega

private theorem stepped_reserved (w : Str) (s : Str) : steppedOver ⟨some (reservedTok w (.unknown w)), 0, [], s⟩ = 0 := by
  unfold steppedOver reservedTok
  simp only
  split <;> rename_i h <;> first | rfl | (exfalso; revert h; repeat' split) <;> simp

theorem steppedOver_congr (p : Place) : steppedOver p = steppedOver ⟨p.tok, 0, [], p.after⟩ := rfl

/-- A rule takes the start of the text, and the line breaks in it are counted or stepped over; unless it swallows the rest. -/
theorem step_newlines {s r : Str} {a : Option Tok} (h : lexOne s = some (a, r)) :
    r = [] ∨ newlines s = counted s + steppedOver ⟨a, 0, [], s⟩ + newlines r := by
  unfold lexOne at h
  split at h
  · cases h
  · rename_i c t
    split at h
    · rename_i hc
      subst hc
      simp only [Option.some.injEq] at h
      have := value_newlines t
      rw [h] at this
      rw [newlines_cons (by decide)]
      exact this
    · rename_i hc
      refine .inr ?_
      split at h
      · rename_i hl
        simp only [Option.some.injEq, Prod.mk.injEq] at h
        have hn : c ≠ '\n' := by rintro rfl; exact absurd hl (by decide)
        rw [← h.1, ← h.2, stepped_reserved, newlines_dropWhile (by decide)]
        simp [counted, hc, hn]
      · split at h
        · rename_i hh
          simp only [Option.some.injEq, Prod.mk.injEq] at h
          subst hh
          rw [← h.1, ← h.2, newlines_dropWhile (by decide), newlines_cons (by decide)]
          simp [counted, steppedOver]
        · split at h
          · rename_i hh
            subst hh
            simp only [Option.some.injEq, Prod.mk.injEq] at h
            rw [← h.1, ← h.2]
            have h1 := newlines_split (· = '\n') t
            have h2 : newlines (t.takeWhile (· = '\n')) = (t.takeWhile (· = '\n')).length := by
              unfold newlines
              rw [List.count_eq_length]
              have := List.all_takeWhile (l := t) (p := (· = '\n'))
              rw [List.all_eq_true] at this
              intro b hb
              exact (by simpa using this b hb : b = '\n').symm
            have h3 : newlines ('\n' :: t) = 1 + newlines t := by simp [newlines, Nat.add_comm]
            simp only [counted, steppedOver, h3, hc, if_false, if_true]
            omega
          · rename_i hh
            split at h
            · rename_i hb
              simp only [Option.some.injEq, Prod.mk.injEq] at h
              rw [← h.1, ← h.2, newlines_dropWhile (by decide), newlines_cons hh]
              simp [counted, steppedOver, hc, hh]
            · simp only [Option.some.injEq, Prod.mk.injEq] at h
              rw [← h.1, ← h.2, newlines_cons hh]
              simp [counted, steppedOver, hc, hh]

theorem cutFirst_suffix {p s a b : Str} (h : cutFirst p s = some (a, b)) : b <:+ s := by
  induction s generalizing a b with
  | nil => unfold cutFirst at h; split at h <;> simp_all
  | cons c r ih =>
    unfold cutFirst at h
    split at h
    · simp only [Option.some.injEq, Prod.mk.injEq] at h
      rw [← h.2]; exact List.drop_suffix _ _
    · cases e : cutFirst p r with
      | none => rw [e] at h; cases h
      | some x =>
        rw [e] at h
        simp only [Option.map_some, Option.some.injEq, Prod.mk.injEq] at h
        rw [← h.2]
        exact (ih (a := x.1) (b := x.2) e).trans (List.suffix_cons _ _)

private theorem lexValue_suffix (r : Str) : (lexValue r).2 <:+ r := by
  have hv : r.dropWhile isPySpace <:+ r := List.dropWhile_suffix _
  unfold lexValue
  simp only
  cases hb : dropPrefix? s%"<text>" (r.dropWhile isPySpace) with
  | some body =>
    have hbody : body <:+ r := List.IsSuffix.trans ⟨_, (dropPrefix_line hb).symm⟩ hv
    cases hc : cutFirst s%"</text>" body with
    | none => simp only [hc]; exact List.nil_suffix
    | some x => simp only [hc]; exact ((List.dropWhile_suffix _).trans (cutFirst_suffix hc)).trans hbody
  | none =>
    simp only
    split
    · rename_i h; exact List.IsSuffix.trans ⟨_, (TvLexing.matchChecksum_parts h).symm⟩ hv
    · split
      · rename_i h; exact List.IsSuffix.trans ⟨_, (TvLexing.matchActor_parts h).symm⟩ hv
      · split
        · rename_i h; exact List.IsSuffix.trans ⟨_, (TvLexing.matchActor_parts h).symm⟩ hv
        · split
          · rename_i h; exact List.IsSuffix.trans ⟨_, (TvLexing.matchActor_parts h).symm⟩ hv
          · split
            · rename_i h; exact List.IsSuffix.trans ⟨_, (TvLexing.matchDatePat_parts h).symm⟩ hv
            · split
              · exact List.suffix_refl _
              · exact List.dropWhile_suffix _

theorem lexOne_suffix {s r : Str} {a : Option Tok} (h : lexOne s = some (a, r)) : r <:+ s := by
  unfold lexOne at h
  split at h
  · cases h
  · rename_i c t
    have ht : t <:+ c :: t := List.suffix_cons _ _
    repeat' split at h
    all_goals simp only [Option.some.injEq] at h
    · rw [show r = (lexValue t).2 by rw [h]]; exact (lexValue_suffix t).trans ht
    all_goals simp only [Prod.mk.injEq] at h; rw [← h.2]
    · exact List.dropWhile_suffix _
    · exact (List.dropWhile_suffix _).trans ht
    · exact (List.dropWhile_suffix _).trans ht
    · exact (List.dropWhile_suffix _).trans ht
    · exact ht

private theorem take_suffix {s r : Str} (h : r <:+ s) : s.take (s.length - r.length) ++ r = s := by
  obtain ⟨u, rfl⟩ := h
  rw [TvLexing.take_rest]

theorem placesFrom_nil (fuel n : Nat) (b : Str) : placesFrom fuel n b [] = [] := by cases fuel <;> rfl

/-- The line number at a place and the line breaks stepped over before it add up to the line breaks before it. -/
theorem placesFrom_line (fuel : Nat) : ∀ (n k : Nat) (b s : Str), n + k = 1 + newlines b → ∀ xs p ys, placesFrom fuel n b s = xs ++ p :: ys →
    p.before ++ p.after = b ++ s ∧ p.line + k + (xs.map steppedOver).sum = 1 + newlines p.before ∧
      ∃ r, lexOne p.after = some (p.tok, r) := by
  induction fuel with
  | zero => intro n k b s _ xs p ys e; cases xs <;> cases e
  | succ fuel ih =>
    intro n k b s h xs p ys e
    simp only [placesFrom] at e
    cases hl : lexOne s with
    | none => rw [hl] at e; cases xs <;> cases e
    | some x =>
      obtain ⟨a, r⟩ := x
      rw [hl] at e
      simp only at e
      cases xs with
      | nil =>
        simp only [List.nil_append, List.cons.injEq] at e
        rw [← e.1]
        exact ⟨rfl, by simpa using h, r, hl⟩
      | cons q xs =>
        simp only [List.cons_append, List.cons.injEq] at e
        have hs := lexOne_suffix hl
        rcases step_newlines hl with hr | hn
        · rw [hr, placesFrom_nil] at e
          cases xs <;> cases e.2
        · have ht := take_suffix hs
          have hb : newlines s = newlines (s.take (s.length - r.length)) + newlines r := by
            rw [← newlines_append, ht]
          obtain ⟨h1, h2, h3⟩ := ih (n + counted s) (k + steppedOver ⟨a, 0, [], s⟩) (b ++ s.take (s.length - r.length)) r
            (by rw [newlines_append]; omega) xs p ys e.2
          refine ⟨by rw [h1, List.append_assoc, ht], ?_, h3⟩
          have h4 : steppedOver q = steppedOver ⟨a, 0, [], s⟩ := by rw [← e.1]; rfl
          rw [List.map_cons, List.sum_cons, h4]
          omega

/-- The tokens at the places are those of the lexer. -/
theorem placesFrom_toks (fuel n : Nat) (b s : Str) : (placesFrom fuel n b s).filterMap (·.tok) = scan lexOne fuel s := by
  induction fuel generalizing n b s with
  | zero => rfl
  | succ fuel ih =>
    simp only [placesFrom, scan]
    cases lexOne s with
    | none => rfl
    | some x =>
      obtain ⟨a, r⟩ := x
      cases a with
      | none => simp only [List.filterMap_cons]; exact ih ..
      | some t => simp only [List.filterMap_cons, ih, Option.toList_some, List.singleton_append]

/-- A lexer that starts with a greater line number. -/
theorem placesFrom_shift (fuel n k : Nat) (b s : Str) :
    placesFrom fuel (n + k) b s = (placesFrom fuel n b s).map fun p => { p with line := p.line + k } := by
  induction fuel generalizing n b s with
  | zero => rfl
  | succ fuel ih =>
    simp only [placesFrom]
    cases lexOne s with
    | none => rfl
    | some x =>
      simp only [List.map_cons, ← ih]
      rw [Nat.add_right_comm]

/-! ## Attributes -/

private theorem attrOne_suffix {s r : List Tok} {a : Option TvAttr} (h : attrOne s = some (a, r)) : r <:+ s := by
  have done : ∀ {x : Option TvAttr} {q : List Tok}, some (x, q) = some (a, r) → q <:+ s → r <:+ s := by
    intro x q e hq
    simp only [Option.some.injEq, Prod.mk.injEq] at e
    rw [← e.2]; exact hq
  have tl : ∀ {α : Type} (l : List α), l.tail <:+ l := fun l => List.tail_suffix l
  have c1 : ∀ {t : Tok} {l q : List Tok}, q <:+ l → q <:+ t :: l := fun h => h.trans (List.suffix_cons _ _)
  unfold attrOne at h
  split at h
  · cases h
  · exact done h List.nil_suffix
  · repeat' split at h
    all_goals
      refine done h ?_
      first
        | exact c1 (List.suffix_refl _) | exact c1 (c1 (List.suffix_refl _)) | exact c1 (c1 (tl _)) | exact List.nil_suffix
  · repeat' split at h
    all_goals
      refine done h ?_
      first
        | exact c1 (List.suffix_refl _) | exact c1 (c1 (List.suffix_refl _)) | exact c1 (c1 (tl _)) | exact List.nil_suffix
        | exact c1 (c1 (c1 (List.suffix_refl _))) | exact c1 (c1 (c1 (c1 (List.suffix_refl _))))
  · exact done h (c1 (List.suffix_refl _))

private theorem attrOne_tag {t : Tok} {s r : List Tok} {a : TvAttr} (h : attrOne (t :: s) = some (some a, r)) : TagOf a t := by
  have done : ∀ {x : Option TvAttr} {q : List Tok}, some (x, q) = some (some a, r) → (∀ y, x = some y → TagOf y t) → TagOf a t := by
    intro x q e hq
    simp only [Option.some.injEq, Prod.mk.injEq] at e
    exact hq a e.1
  have no : ∀ y, (none : Option TvAttr) = some y → TagOf y t := fun _ e => by cases e
  have yes : ∀ {x : TvAttr}, TagOf x t → ∀ y, some x = some y → TagOf y t := fun h _ e => by cases e; exact h
  unfold attrOne at h
  split at h
  · cases h
  · rename_i e
    cases e
    exact done h (yes (.unknown _))
  · rename_i e
    cases e
    repeat' split at h
    all_goals first | exact done h no | exact done h (yes (.unknown _))
  · rename_i e
    cases e
    split at h
    · rename_i ht
      subst ht
      repeat' split at h
      all_goals first | exact done h no | exact done h (yes (.spdxId _))
    · repeat' split at h
      all_goals first
        | exact done h no | exact done h (yes (.value _ _)) | exact done h (yes (.bad _)) | exact done h (yes (.commented _ _ _))
  · rename_i e
    cases e
    exact done h no

theorem attrOneLines_some {ts : List (Tok × Nat)} {a : Option (TvAttr × Nat)} {r : List (Tok × Nat)} (h : attrOneLines ts = some (a, r)) :
    ∃ t ts', ts = t :: ts' ∧ attrOne (ts.map (·.1)) = some (a.map (·.1), r.map (·.1)) ∧ r <:+ ts' ∧
      ∀ x, a = some x → TagOf x.1 t.1 ∧ x.2 = t.2 := by
  unfold attrOneLines at h
  split at h
  · rename_i t ts' b q e
    simp only [Option.some.injEq, Prod.mk.injEq] at h
    have hs := attrOne_suffix e
    have hl := attrOne_length _ _ _ e
    obtain ⟨u, hu⟩ := hs
    have hmap : r.map (·.1) = q := by
      rw [← h.2, List.map_drop, ← hu]
      refine List.drop_left' ?_
      have := congrArg List.length hu
      simp only [List.length_append, List.length_map] at this
      omega
    refine ⟨t, ts', rfl, ?_, ?_, ?_⟩
    · rw [e, hmap, ← h.1]
      cases b <;> rfl
    · rw [← h.2]
      simp only [List.length_cons, List.length_map] at hl ⊢
      rw [show ts'.length + 1 - q.length = (ts'.length - q.length) + 1 by omega, List.drop_succ_cons]
      exact List.drop_suffix _ _
    · intro x hx
      rw [← h.1] at hx
      cases b with
      | none => cases hx
      | some y =>
        cases hx
        exact ⟨attrOne_tag e, rfl⟩
  · cases h

theorem attrOneLines_none {ts : List (Tok × Nat)} (h : attrOneLines ts = none) : attrOne (ts.map (·.1)) = none := by
  cases ts with
  | nil => rfl
  | cons t ts =>
    cases e : attrOne ((t :: ts).map (·.1)) with
    | none => rfl
    | some x => simp only [attrOneLines, e] at h; cases h

theorem attrLines_scan (fuel : Nat) (ts : List (Tok × Nat)) :
    (scan attrOneLines fuel ts).map (·.1) = scan attrOne fuel (ts.map (·.1)) ∧
      ∃ sub, sub.Sublist ts ∧ All2 (fun x t => TagOf x.1 t.1 ∧ x.2 = t.2) (scan attrOneLines fuel ts) sub := by
  induction fuel generalizing ts with
  | zero => exact ⟨rfl, [], List.nil_sublist _, .nil⟩
  | succ fuel ih =>
    simp only [scan]
    cases e : attrOneLines ts with
    | none => rw [attrOneLines_none e]; exact ⟨rfl, [], List.nil_sublist _, .nil⟩
    | some x =>
      obtain ⟨a, r⟩ := x
      obtain ⟨t, ts', rfl, h1, h2, h3⟩ := attrOneLines_some e
      rw [h1]
      obtain ⟨i1, sub, i2, i3⟩ := ih r
      simp only [List.map_append, i1]
      cases a with
      | none => exact ⟨rfl, sub, (i2.trans h2.sublist).trans (List.sublist_cons_self _ _), i3⟩
      | some x => exact ⟨rfl, t :: sub, (i2.trans h2.sublist).cons_cons _, .cons (h3 x rfl) i3⟩

theorem attrOneLines_shift (k : Nat) (ts : List (Tok × Nat)) :
    attrOneLines (ts.map fun x => (x.1, x.2 + k)) =
      (attrOneLines ts).map fun y => (y.1.map fun x => (x.1, x.2 + k), y.2.map fun x => (x.1, x.2 + k)) := by
  cases ts with
  | nil => rfl
  | cons t ts =>
    unfold attrOneLines
    have hm : ((t :: ts).map fun x => (x.1, x.2 + k)).map (·.1) = (t :: ts).map (·.1) := by simp [Function.comp_def]
    rw [hm]
    simp only [List.map_cons]
    cases attrOne (t.1 :: ts.map (·.1)) with
    | none => rfl
    | some x =>
      obtain ⟨a, r⟩ := x
      simp only [Option.map_some, Option.some.injEq, Prod.mk.injEq]
      refine ⟨by cases a <;> rfl, ?_⟩
      rw [List.map_drop, List.map_cons, List.length_cons, List.length_cons, List.length_map]

theorem attrLines_shift (k fuel : Nat) (ts : List (Tok × Nat)) :
    scan attrOneLines fuel (ts.map fun x => (x.1, x.2 + k)) = (scan attrOneLines fuel ts).map fun x => (x.1, x.2 + k) := by
  induction fuel generalizing ts with
  | zero => rfl
  | succ fuel ih =>
    simp only [scan, attrOneLines_shift]
    cases attrOneLines ts with
    | none => rfl
    | some x =>
      simp only [Option.map_some, ih, List.map_append]
      cases x.1 <;> rfl

/-- Where every colon is followed by something on its line nothing is stepped over. -/
theorem stepped_of_colons {p : Place} {r : Str} (h : ∀ u v, p.after = u ++ ':' :: v → gap v = 0) (hr : lexOne p.after = some (p.tok, r)) :
    steppedOver p = 0 := by
  cases ha : p.after with
  | nil => rw [ha] at hr; cases hr
  | cons c t =>
    by_cases hc : c = ':'
    · subst hc
      have g1 : gap t = 0 := h [] t ha
      have g2 : gap ((((t.dropWhile isPySpace)).dropWhile (· ≠ ':')).drop 1) = 0 := by
        cases hd : (t.dropWhile isPySpace).dropWhile (· ≠ ':') with
        | nil => rfl
        | cons d w =>
          have hne : (t.dropWhile isPySpace).dropWhile (· ≠ ':') ≠ [] := by rw [hd]; simp
          have hdc : d = ':' := by
            have := List.head_dropWhile_not (· ≠ ':') (l := t.dropWhile isPySpace) hne
            simp only [hd, List.head_cons] at this
            simpa using this
          obtain ⟨u, hu⟩ := (List.dropWhile_suffix (l := t.dropWhile isPySpace) (· ≠ ':')).trans (List.dropWhile_suffix (l := t) isPySpace)
          refine h (':' :: u) w ?_
          rw [ha, ← hu, hd, hdc]; rfl
      unfold steppedOver
      rw [ha]
      simp only [List.drop_one, List.tail_cons] at g2 ⊢
      split <;> first | rfl | exact g1 | omega
    · rw [ha] at hr
      simp only [lexOne, if_neg hc] at hr
      have hz : ∀ a x, some (a, x) = some (p.tok, r) → steppedOver ⟨a, 0, [], p.after⟩ = 0 → steppedOver p = 0 := by
        intro a x e hs
        simp only [Option.some.injEq, Prod.mk.injEq] at e
        rw [steppedOver_congr, ← e.1]
        exact hs
      repeat' split at hr
      · exact hz _ _ hr (stepped_reserved _ _)
      all_goals exact hz _ _ hr rfl

end Spdx
