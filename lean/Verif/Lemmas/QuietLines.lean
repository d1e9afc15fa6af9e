import Verif.Spec.QuietLines
import Verif.Lemmas.TagValueLex
import Verif.Lemmas.Lines
/-
Blank lines and comments between the lines of a tag-value text, for C82.
-/
namespace Spdx.Quiet
open Spec

/-! ### Texts that begin with quiet lines -/

private theorem lex_blank' (c : Char) (hc : c = ' ' ∨ c = '\t') (r : Str) : lex (c :: r) = lex (r.dropWhile fun c => c = ' ' ∨ c = '\t') := by
  rcases hc with rfl | rfl <;> exact lex_step (a := none) rfl

theorem lex_blank (c : Char) (hc : c = ' ' ∨ c = '\t') (r : Str) : lex (c :: r) = lex r := by
  rw [lex_blank' c hc]
  cases r with
  | nil => rfl
  | cons d r =>
    by_cases h : d = ' ' ∨ d = '\t'
    · rw [List.dropWhile_cons_of_pos (by simpa using h)]
      exact (lex_blank' d h r).symm
    · rw [List.dropWhile_cons_of_neg (by simpa using h)]

theorem lex_blanks {w : Str} (hw : ∀ x ∈ w, x = ' ' ∨ x = '\t') (r : Str) : lex (w ++ r) = lex r := by
  induction w with
  | nil => rfl
  | cons c w ih => rw [List.cons_append, lex_blank c (hw c List.mem_cons_self), ih fun x hx => hw x (List.mem_cons_of_mem _ hx)]

theorem lex_newlines (r : Str) : lex (r.dropWhile (· = '\n')) = lex r := by
  induction r with
  | nil => rfl
  | cons c r ih =>
    by_cases h : c = '\n'
    · subst h
      rw [List.dropWhile_cons_of_pos (by decide), ih, lex_nl]
    · rw [List.dropWhile_cons_of_neg (by simpa using h)]

theorem space_drop {w : Str} (hw : ∀ x ∈ w, isPySpace x = true) (r : Str) : (w ++ r).dropWhile isPySpace = r.dropWhile isPySpace := by
  induction w with
  | nil => rfl
  | cons c w ih => rw [List.cons_append, List.dropWhile_cons_of_pos (hw c List.mem_cons_self), ih fun x hx => hw x (List.mem_cons_of_mem _ hx)]

theorem blank_space {w : Str} (hw : ∀ x ∈ w, x = ' ' ∨ x = '\t') : ∀ x ∈ w, isPySpace x = true := by
  intro x hx
  rcases hw x hx with rfl | rfl <;> decide

/-- `y` reads as `b` does, and after blanks it begins as `b` does or with a comment. -/
structure Like (b y : Str) : Prop where
  tokens : lex y = lex b
  start : y.dropWhile isPySpace = b.dropWhile isPySpace ∨ ∃ z, y.dropWhile isPySpace = '#' :: z ∧ lex ('#' :: z) = lex b

theorem like_quiet {c : Str} (hc : QuietLines c) (b : Str) : Like b (c ++ b) := by
  induction hc with
  | nil => exact ⟨rfl, .inl rfl⟩
  | @blank w c hw _ ih =>
    rw [List.append_assoc, List.cons_append]
    refine ⟨?_, ?_⟩
    · rw [lex_blanks hw, lex_nl, ih.tokens]
    · rw [space_drop (blank_space hw), List.dropWhile_cons_of_pos (by decide)]
      exact ih.start
  | @comment w body c hw hb _ ih =>
    rw [List.append_assoc, List.cons_append, List.append_assoc, List.cons_append]
    have h : lex ('#' :: (body ++ '\n' :: (c ++ b))) = lex b := by
      rw [← List.cons_append, lex_heading hb, ih.tokens]
    refine ⟨?_, .inr ⟨body ++ '\n' :: (c ++ b), ?_, h⟩⟩
    · rw [lex_blanks hw, h]
    · rw [space_drop (blank_space hw), List.dropWhile_cons_of_neg (by decide)]

/-! ### Matching up to a line break -/

theorem while_stop {p : Char → Bool} {u : Str} (h : ∃ c ∈ u, p c = false) (x : Str) :
    (u ++ x).takeWhile p = u.takeWhile p ∧ (u ++ x).dropWhile p = u.dropWhile p ++ x := by
  induction u with
  | nil => obtain ⟨c, hc, _⟩ := h; cases hc
  | cons d u ih =>
    by_cases hd : p d = true
    · have : ∃ c ∈ u, p c = false := by
        obtain ⟨c, hc, hp⟩ := h
        rcases List.mem_cons.1 hc with rfl | hc
        · rw [hd] at hp; cases hp
        · exact ⟨c, hc, hp⟩
      obtain ⟨h1, h2⟩ := ih this
      rw [List.cons_append, List.takeWhile_cons_of_pos hd, List.dropWhile_cons_of_pos hd, List.takeWhile_cons_of_pos hd,
        List.dropWhile_cons_of_pos hd, h1, h2]
      exact ⟨rfl, rfl⟩
    · rw [List.cons_append, List.takeWhile_cons_of_neg hd, List.dropWhile_cons_of_neg hd, List.takeWhile_cons_of_neg hd,
        List.dropWhile_cons_of_neg hd]
      exact ⟨rfl, rfl⟩

theorem while_all {p : Char → Bool} {u : Str} (h : ∀ c ∈ u, p c = true) (x : Str) :
    (u ++ x).takeWhile p = u ++ x.takeWhile p ∧ (u ++ x).dropWhile p = x.dropWhile p := by
  induction u with
  | nil => exact ⟨rfl, rfl⟩
  | cons d u ih =>
    have hd := h d List.mem_cons_self
    obtain ⟨h1, h2⟩ := ih fun c hc => h c (List.mem_cons_of_mem _ hc)
    rw [List.cons_append, List.takeWhile_cons_of_pos hd, List.dropWhile_cons_of_pos hd, h1, h2]
    exact ⟨rfl, rfl⟩

theorem prefix_line {p u : Str} (hp : '\n' ∉ p) (hu : '\n' ∈ u) (x : Str) : p.isPrefixOf (u ++ x) = p.isPrefixOf u := by
  induction p generalizing u with
  | nil => rfl
  | cons a p ih =>
    cases u with
    | nil => cases hu
    | cons c u =>
      rw [List.cons_append]
      simp only [List.isPrefixOf]
      by_cases e : a = c
      · subst e
        have : '\n' ∈ u := by
          rcases List.mem_cons.1 hu with rfl | h
          · exact absurd List.mem_cons_self hp
          · exact h
        rw [ih (fun h => hp (List.mem_cons_of_mem _ h)) this]
      · have : (a == c) = false := by simpa using e
        rw [this]; rfl

theorem prefix_long {p u : Str} (h : p.length ≤ u.length) (x : Str) : p.isPrefixOf (u ++ x) = p.isPrefixOf u := by
  induction p generalizing u with
  | nil => rfl
  | cons a p ih =>
    cases u with
    | nil => cases h
    | cons c u =>
      rw [List.cons_append]
      simp only [List.isPrefixOf]
      rw [ih (Nat.le_of_succ_le_succ h)]

theorem prefix_length {p u : Str} (h : p.isPrefixOf u = true) : p.length ≤ u.length := (List.isPrefixOf_iff_prefix.1 h).length_le

theorem drop_line {p u : Str} (hp : '\n' ∉ p) (hu : '\n' ∈ u) (h : p.isPrefixOf u = true) : '\n' ∈ u.drop p.length := by
  obtain ⟨t, rfl⟩ := List.isPrefixOf_iff_prefix.1 h
  rw [List.drop_left]
  exact (List.mem_append.1 hu).resolve_left hp

theorem cut_append {p u a r : Str} (h : cutFirst p u = some (a, r)) (x : Str) : cutFirst p (u ++ x) = some (a, r ++ x) := by
  induction u generalizing a r with
  | nil =>
    rw [cutFirst] at h
    split at h
    · cases h
      rename_i hp
      subst hp
      cases x <;> simp [cutFirst]
    · cases h
  | cons c u ih =>
    rw [cutFirst] at h
    rw [List.cons_append, cutFirst]
    split at h
    · rename_i hp
      cases h
      have hl := prefix_length hp
      have := prefix_long hl x
      rw [List.cons_append] at this
      rw [if_pos (this.trans hp), ← List.cons_append, List.drop_append_of_le_length hl]
    · rename_i hp
      cases hc : cutFirst p u with
      | none => rw [hc] at h; cases h
      | some y =>
        rw [hc] at h
        cases h
        have hl : p.length ≤ u.length := by
          clear ih hp
          obtain ⟨a, r⟩ := y
          induction u generalizing a r with
          | nil =>
            rw [cutFirst] at hc
            split at hc
            · rename_i e; subst e; exact Nat.le_refl _
            · cases hc
          | cons d u ih =>
            rw [cutFirst] at hc
            split at hc
            · rename_i e; exact prefix_length e
            · cases hc' : cutFirst p u with
              | none => rw [hc'] at hc; cases hc
              | some z => exact Nat.le_succ_of_le (ih z.1 z.2 hc')
        have := prefix_long (p := p) (u := c :: u) (Nat.le_succ_of_le hl) x
        rw [List.cons_append] at this
        rw [if_neg (by rw [this]; exact hp), ih hc]
        rfl

theorem cut_before {p u b a r : Str} (h : cutFirst p (u ++ b) = some (a, r)) (hl : b.length ≤ r.length) : ∃ r0, cutFirst p u = some (a, r0) ∧ r = r0 ++ b := by
  induction u generalizing a r with
  | nil =>
    rw [List.nil_append] at h
    have key : ∀ (b a r : Str), cutFirst p b = some (a, r) → r.length + p.length ≤ b.length := by
      intro b
      induction b with
      | nil =>
        intro a r h0
        rw [cutFirst] at h0
        split at h0
        · rename_i e; cases h0; rw [e]; exact Nat.le_refl _
        · cases h0
      | cons c b ih =>
        intro a r h
        rw [cutFirst] at h
        split at h
        · rename_i e
          cases h
          have := prefix_length e
          rw [List.length_drop]
          omega
        · cases hc : cutFirst p b with
          | none => rw [hc] at h; cases h
          | some z =>
            rw [hc] at h; cases h
            exact Nat.le_succ_of_le (ih z.1 z.2 hc)
    have hk := key b a r h
    have hp : p = [] := List.length_eq_zero_iff.1 (by omega)
    subst hp
    have : a = [] ∧ r = b := by
      cases b with
      | nil => simpa [cutFirst, eq_comm] using h
      | cons c b => simpa [cutFirst, eq_comm] using h
    obtain ⟨rfl, rfl⟩ := this
    exact ⟨[], rfl, rfl⟩
  | cons c u ih =>
    rw [List.cons_append, cutFirst] at h
    rw [cutFirst]
    split at h
    · rename_i e
      cases h
      rw [List.length_drop, List.length_cons, List.length_append] at hl
      have hpl := prefix_length e
      rw [List.length_cons, List.length_append] at hpl
      have hp : p.length ≤ (c :: u).length := by rw [List.length_cons]; omega
      have := prefix_long hp b
      rw [List.cons_append] at this
      rw [if_pos (this.symm.trans e)]
      refine ⟨_, rfl, ?_⟩
      rw [← List.cons_append, List.drop_append_of_le_length hp]
    · rename_i e
      cases hc : cutFirst p (u ++ b) with
      | none => rw [hc] at h; cases h
      | some y =>
        rw [hc] at h; cases h
        obtain ⟨r0, h1, h2⟩ := ih hc hl
        have hne : ¬ p.isPrefixOf (c :: u) = true := by
          intro hx
          have := prefix_long (prefix_length hx) b
          rw [List.cons_append] at this
          exact e (this.trans hx)
        rw [if_neg hne, h1]
        exact ⟨r0, rfl, h2⟩

/-! ### One rule of the lexer -/

def Ends (u : Str) : Prop := ∃ l, u = l ++ ['\n']

theorem Ends.mem {u : Str} (h : Ends u) : '\n' ∈ u := by obtain ⟨l, rfl⟩ := h; simp

theorem Ends.suffix {u w : Str} (h : Ends u) (hw : w <:+ u) (hn : w ≠ []) : Ends w := by
  obtain ⟨l, rfl⟩ := h
  obtain ⟨m, hm⟩ := hw
  refine ⟨w.dropLast, ?_⟩
  have h1 := List.dropLast_concat_getLast hn
  have h2 : (m ++ w).getLast (by simp [hn]) = '\n' := by simp [hm]
  rw [List.getLast_append_of_ne_nil _ hn] at h2
  rw [h2] at h1
  exact h1.symm

theorem Ends.dropWhile {u : Str} (h : Ends u) {p : Char → Bool} (hp : ∃ c ∈ u, p c = false) : Ends (u.dropWhile p) := by
  refine h.suffix (List.dropWhile_suffix _) fun e => ?_
  obtain ⟨c, hc, hpc⟩ := hp
  clear h
  induction u with
  | nil => cases hc
  | cons d u ih =>
    by_cases hd : p d = true
    · rw [List.dropWhile_cons_of_pos hd] at e
      rcases List.mem_cons.1 hc with rfl | hc
      · rw [hd] at hpc; cases hpc
      · exact ih e hc
    · rw [List.dropWhile_cons_of_neg hd] at e
      cases e

theorem Ends.stop {u : Str} (h : Ends u) {p : Char → Bool} (hp : p '\n' = false) : ∃ c ∈ u, p c = false := ⟨_, h.mem, hp⟩

theorem Ends.drop {u p : Str} (h : Ends u) (hp : '\n' ∉ p) (hx : p.isPrefixOf u = true) : Ends (u.drop p.length) :=
  h.suffix (List.drop_suffix _ _) (List.ne_nil_of_mem (drop_line hp h.mem hx))

theorem drop_none {p : Char → Bool} {b : Str} (h : b.length ≤ (b.dropWhile p).length) : b.dropWhile p = b :=
  (List.dropWhile_suffix p).eq_of_length_le h

theorem all_or (p : Char → Bool) (u : Str) : (∀ c ∈ u, p c = true) ∨ ∃ c ∈ u, p c = false := by
  induction u with
  | nil => exact .inl fun c hc => by cases hc
  | cons d u ih =>
    cases hd : p d with
    | false => exact .inr ⟨d, List.mem_cons_self, hd⟩
    | true =>
      rcases ih with h | ⟨c, hc, h⟩
      · exact .inl (List.forall_mem_cons.2 ⟨hd, h⟩)
      · exact .inr ⟨c, List.mem_cons_of_mem _ hc, h⟩

/-- What comes after a rule: more of the text before the place, or the place. -/
def After (b y r r' : Str) : Prop := (∃ u', r = u' ++ b ∧ r' = u' ++ y ∧ Ends u') ∨ (r = b ∧ lex r' = lex b)

theorem like_space {b y : Str} (hy : Like b y) (hb : b.dropWhile isPySpace = b) : lex (y.dropWhile isPySpace) = lex b := by
  rcases hy.start with h | ⟨z, h, hz⟩
  · rw [h, hb]
  · rw [h, hz]

theorem after_space {b y u : Str} (hy : Like b y) (hu : u = [] ∨ Ends u) (hl : b.length ≤ ((u ++ b).dropWhile isPySpace).length) :
    After b y ((u ++ b).dropWhile isPySpace) ((u ++ y).dropWhile isPySpace) := by
  rcases all_or isPySpace u with h | h
  · rw [(while_all h b).2] at hl ⊢
    rw [(while_all h y).2]
    have hb := drop_none hl
    exact .inr ⟨hb, like_space hy hb⟩
  · rw [(while_stop h b).2, (while_stop h y).2]
    refine .inl ⟨_, rfl, rfl, ?_⟩
    rcases hu with rfl | hu
    · obtain ⟨c, hc, _⟩ := h; cases hc
    · exact hu.dropWhile h

theorem strip_spaces (m w : Str) (hw : ∀ c ∈ w, isPySpace c = true) (hm : ∃ c ∈ m, isPySpace c = false) : strip (m ++ w) = strip m := by
  unfold strip lstrip rstrip
  rw [(while_stop hm w).2, List.reverse_append, (while_all (fun c hc => hw c (List.mem_reverse.1 hc)) _).2]

theorem checksum_names : ∀ n ∈ checksumNames, '\n' ∉ n ++ [':'] ∧ (n ++ [':']).length = n.length + 1 ∧ ∃ c ∈ n ++ [':'], isPySpace c = false := by
  decide +kernel

theorem find_same {u : Str} (hu : Ends u) (x : Str) :
    (checksumNames.find? fun n => startsWith (u ++ x) (n ++ [':'])) = checksumNames.find? fun n => startsWith u (n ++ [':']) := by
  have : ∀ l : List Str, (∀ n ∈ l, '\n' ∉ n ++ [':']) → (l.find? fun n => startsWith (u ++ x) (n ++ [':'])) = l.find? fun n => startsWith u (n ++ [':']) := by
    intro l
    induction l with
    | nil => intro _; rfl
    | cons n l ih =>
      intro h
      rw [List.find?_cons, List.find?_cons, ih fun m hm => h m (List.mem_cons_of_mem _ hm)]
      unfold startsWith
      rw [prefix_line (h n List.mem_cons_self) hu.mem x]
  exact this _ fun n hn => (checksum_names n hn).1

theorem date_same (ps : Str) (hp : '\n' ∉ ps) : ∀ {u : Str}, '\n' ∈ u → ∀ x, matchDatePat ps (u ++ x) = (matchDatePat ps u).map fun z => (z.1, z.2 ++ x) := by
  induction ps with
  | nil => intro u _ x; rfl
  | cons p ps ih =>
    intro u hu x
    cases u with
    | nil => cases hu
    | cons c u =>
      rw [List.cons_append, matchDatePat, matchDatePat]
      by_cases h : dateChar p c = true
      · rw [if_pos h, if_pos h]
        have hc : '\n' ∈ u := by
          rcases List.mem_cons.1 hu with e | e
          · subst e
            unfold dateChar at h
            split at h
            · exact absurd h (by decide)
            · have : '\n' = p := by simpa using h
              exact absurd (this ▸ List.mem_cons_self) hp
          · exact e
        rw [ih (fun m => hp (List.mem_cons_of_mem _ m)) hc, Option.map_map, Option.map_map]
        rfl
      · rw [if_neg h, if_neg h]; rfl

theorem date_suffix (ps : Str) : ∀ {v a r : Str}, matchDatePat ps v = some (a, r) → v = a ++ r ∧ a.length = ps.length := by
  induction ps with
  | nil => intro v a r h; cases h; exact ⟨rfl, rfl⟩
  | cons p ps ih =>
    intro v a r h
    cases v with
    | nil => cases h
    | cons c v =>
      rw [matchDatePat] at h
      split at h
      · cases hm : matchDatePat ps v with
        | none => rw [hm] at h; cases h
        | some z =>
          rw [hm] at h; cases h
          obtain ⟨h1, h2⟩ := ih hm
          exact ⟨congrArg (c :: ·) h1, congrArg (· + 1) h2⟩
      · cases h

theorem date_chars (ps : Str) (hp : '\n' ∉ ps) {v a r : Str} (h : matchDatePat ps v = some (a, r)) : '\n' ∉ a := by
  induction ps generalizing v a with
  | nil => cases h; simp
  | cons p ps ih =>
    cases v with
    | nil => cases h
    | cons c v =>
      rw [matchDatePat] at h
      split at h
      · rename_i hd
        cases hm : matchDatePat ps v with
        | none => rw [hm] at h; cases h
        | some z =>
          rw [hm] at h; cases h
          have := ih (fun m => hp (List.mem_cons_of_mem _ m)) hm
          intro hx
          rcases List.mem_cons.1 hx with e | e
          · subst e
            unfold dateChar at hd
            split at hd
            · exact absurd hd (by decide)
            · have : '\n' = p := by simpa using hd
              exact hp (this ▸ List.mem_cons_self)
          · exact this e
      · cases h

/-- The rules for values that look beyond the blanks after the colon, on what they find there. -/
def special (v : Str) : Option (Option Tok × Str) :=
  match dropPrefix? s%"<text>" v with
  | some body => match cutFirst s%"</text>" body with
    | some (content, rest) => some (some (.text (s%"<text>" ++ content ++ s%"</text>")), rest.dropWhile isPySpace)
    | none => some (none, [])
  | none => match matchChecksum v with
  | some (m, rest) => some (some (.checksum (strip m)), rest)
  | none => match matchActor s%"Tool:" v with
  | some (m, rest) => some (some (.tool (strip m)), rest)
  | none => match matchActor s%"Organization:" v with
  | some (m, rest) => some (some (.org (strip m)), rest)
  | none => match matchActor s%"Person:" v with
  | some (m, rest) => some (some (.person (strip m)), rest)
  | none => match matchDate v with
  | some (m, rest) => some (some (.date (strip m)), rest)
  | none => none

/-- The last rule for a value. -/
def ordinary (r : Str) : Option Tok × Str :=
  if r.takeWhile isDot = [] then (some .error, r)
  else (some (reservedTok (strip (r.takeWhile isDot)) (.line (strip (r.takeWhile isDot)))), r.dropWhile isDot)

theorem lexValue_cases (r : Str) : lexValue r = (special (r.dropWhile isPySpace)).getD (ordinary r) := by
  unfold lexValue special ordinary
  dsimp only
  repeat' split
  all_goals first | rfl | simp_all

theorem special_shorter {v : Str} {t : Option Tok} {r : Str} (h : special v = some (t, r)) : r.length < v.length := by
  unfold special at h
  split at h
  · rename_i body hb
    have hb' : body.length < v.length := by
      unfold dropPrefix? at hb
      split at hb
      · rename_i hp
        cases hb
        have := prefix_length hp
        rw [List.length_drop]
        simp only [List.length_cons, List.length_nil] at this ⊢
        omega
      · cases hb
    split at h
    · rename_i content rest hc
      cases h
      have h1 : rest.length ≤ body.length := by
        have := (cutFirst_suffix hc).length_le
        exact this
      have := (List.dropWhile_suffix (l := rest) isPySpace).length_le
      omega
    · cases h
      rw [List.length_nil]; omega
  · have act : ∀ (p : Str), p ≠ [] → ∀ m rest, matchActor p v = some (m, rest) → rest.length < v.length := by
      intro p hp m rest h
      unfold matchActor at h
      split at h
      · rename_i hx
        cases h
        have h1 := prefix_length hx.1
        have h2 := (List.dropWhile_suffix (l := v.drop p.length) isDot).length_le
        have h3 : 0 < p.length := List.length_pos_iff.2 hp
        rw [List.length_drop] at h2
        omega
      · cases h
    split at h
    · rename_i m rest hm
      cases h
      unfold matchChecksum at hm
      cases hf : checksumNames.find? fun n => startsWith v (n ++ [':']) with
      | none => rw [hf] at hm; cases hm
      | some n =>
        rw [hf] at hm
        cases hm
        have hn := List.find?_some hf
        have h1 := prefix_length hn
        have h2 := (List.dropWhile_suffix (l := ((v.drop (n.length + 1)).dropWhile isPySpace)) isLowerHex).length_le
        have h3 := (List.dropWhile_suffix (l := v.drop (n.length + 1)) isPySpace).length_le
        rw [List.length_drop] at h3
        rw [List.length_append, List.length_singleton] at h1
        show List.length (((v.drop (n.length + 1)).dropWhile isPySpace).dropWhile isLowerHex) < _
        omega
    · split at h
      · rename_i hm; cases h; exact act _ (by decide) _ _ hm
      · split at h
        · rename_i hm; cases h; exact act _ (by decide) _ _ hm
        · split at h
          · rename_i hm; cases h; exact act _ (by decide) _ _ hm
          · split at h
            · rename_i hm
              cases h
              obtain ⟨h1, h2⟩ := date_suffix _ hm
              have := congrArg List.length h1
              rw [List.length_append, h2] at this
              simp only [List.length_cons, List.length_nil] at this
              omega
            · cases h

theorem special_comment (z : Str) : special ('#' :: z) = none := by
  have h1 : ∀ p : Str, (∃ c p', p = c :: p' ∧ c ≠ '#') → p.isPrefixOf ('#' :: z) = false := by
    rintro p ⟨c, p', rfl, hc⟩
    simp only [List.isPrefixOf]
    have : (c == '#') = false := by simpa using hc
    rw [this]; rfl
  have h2 : (checksumNames.find? fun n => startsWith ('#' :: z) (n ++ [':'])) = none := by
    rw [List.find?_eq_none]
    intro n hn
    have : ∀ n ∈ checksumNames, (n ++ [':']).head? ≠ some '#' ∧ n ++ [':'] ≠ [] := by decide +kernel
    obtain ⟨a1, a2⟩ := this n hn
    cases he : n ++ [':'] with
    | nil => exact absurd he a2
    | cons c p' =>
      rw [he] at a1
      unfold startsWith
      rw [h1 _ ⟨c, p', rfl, fun e => a1 (by rw [e]; rfl)⟩]
      simp
  unfold special dropPrefix?
  rw [h1 _ ⟨_, _, rfl, by decide⟩]
  simp only [Bool.false_eq_true, if_false]
  unfold matchChecksum
  rw [h2]
  simp only [Option.map_none]
  unfold matchActor startsWith
  simp only [h1 s%"Tool:" ⟨_, _, rfl, by decide⟩, h1 s%"Organization:" ⟨_, _, rfl, by decide⟩, h1 s%"Person:" ⟨_, _, rfl, by decide⟩,
    Bool.false_eq_true, false_and, if_false]
  rfl

theorem cut_infix {p s : Str} (h : ¬ p <:+: s) : cutFirst p s = none := by
  induction s with
  | nil =>
    rw [cutFirst, if_neg]
    rintro rfl
    exact h (List.nil_infix)
  | cons c s ih =>
    rw [cutFirst, if_neg fun hp => h (List.isPrefixOf_iff_prefix.1 hp).isInfix, ih fun hi => h (List.infix_cons hi)]
    rfl

theorem cut_none {p u y : Str} (hp : '\n' ∉ p) (hu : u = [] ∨ Ends u) (h : cutFirst p u = none) (hy : cutFirst p y = none) :
    cutFirst p (u ++ y) = none := by
  induction u with
  | nil => exact hy
  | cons c u ih =>
    have hu : Ends (c :: u) := hu.resolve_left (by simp)
    rw [cutFirst] at h
    rw [List.cons_append, cutFirst, ← List.cons_append, prefix_line hp hu.mem]
    split at h
    · cases h
    · rename_i hx
      rw [if_neg hx]
      cases hc : cutFirst p u with
      | some z => rw [hc] at h; cases h
      | none =>
        rw [ih ?_ hc]
        · rfl
        · by_cases he : u = []
          · exact .inl he
          · exact .inr (hu.suffix (List.suffix_cons c u) he)

theorem dropPrefix_same {p u : Str} (hp : '\n' ∉ p) (hu : Ends u) (x : Str) : dropPrefix? p (u ++ x) = (dropPrefix? p u).map (· ++ x) := by
  unfold dropPrefix?
  rw [prefix_line hp hu.mem]
  split
  · rename_i h
    rw [Option.map_some, List.drop_append_of_le_length (prefix_length h)]
  · rfl

theorem actor_same {p u : Str} (hp : '\n' ∉ p) (hu : Ends u) (x : Str) : matchActor p (u ++ x) = (matchActor p u).map fun z => (z.1, z.2 ++ x) := by
  unfold matchActor startsWith
  rw [prefix_line hp hu.mem]
  by_cases h : p.isPrefixOf u = true
  · rw [List.drop_append_of_le_length (prefix_length h)]
    have hs := (hu.drop hp h).stop (p := isDot) rfl
    rw [(while_stop hs x).1, (while_stop hs x).2]
    split <;> rfl
  · simp [h]

theorem actor_ends {p u m r : Str} (hp : '\n' ∉ p) (hu : Ends u) (h : matchActor p u = some (m, r)) : Ends r := by
  unfold matchActor at h
  split at h
  · rename_i hx
    cases h
    exact (hu.drop hp hx.1).dropWhile ((hu.drop hp hx.1).stop rfl)
  · cases h

/-- The rules that look beyond the blanks, when they find something before the place. -/
theorem special_before {b y u : Str} (hy : Like b y) (hu : Ends u) {t : Option Tok} {r : Str} (h : special (u ++ b) = some (t, r))
    (hl : b.length ≤ r.length) (hb : b ≠ [] ∨ cutFirst s%"</text>" y = none ∨ ¬ s%"<text>" <:+: u) : ∃ r', special (u ++ y) = some (t, r') ∧ After b y r r' := by
  unfold special at h ⊢
  rw [dropPrefix_same (by decide) hu] at h ⊢
  cases hd : dropPrefix? s%"<text>" u with
  | some body =>
    rw [hd] at h
    simp only [Option.map_some] at h ⊢
    have hbe : Ends body := by
      unfold dropPrefix? at hd
      split at hd
      · rename_i hx; cases hd; exact hu.drop (by decide) hx
      · cases hd
    cases hc : cutFirst s%"</text>" (body ++ b) with
    | none =>
      rw [hc] at h
      cases h
      have he := List.length_eq_zero_iff.1 (Nat.le_zero.1 hl)
      subst he
      rw [List.append_nil] at hc
      rcases hb.resolve_left (fun h => h rfl) with hb | hb
      rotate_left
      · unfold dropPrefix? at hd
        split at hd
        · rename_i hx
          exact absurd (List.isPrefixOf_iff_prefix.1 hx).isInfix hb
        · cases hd
      rw [cut_none (by decide) (.inr hbe) hc hb]
      exact ⟨_, rfl, .inr ⟨rfl, rfl⟩⟩
    | some z =>
      obtain ⟨content, rest⟩ := z
      rw [hc] at h
      cases h
      have hl' : b.length ≤ rest.length := Nat.le_trans hl (List.dropWhile_suffix _).length_le
      obtain ⟨r0, h1, rfl⟩ := cut_before hc hl'
      rw [cut_append h1 y]
      refine ⟨_, rfl, after_space hy ?_ hl⟩
      by_cases he : r0 = []
      · exact .inl he
      · exact .inr (hbe.suffix (cutFirst_suffix h1) he)
  | none =>
    rw [hd] at h
    simp only [Option.map_none] at h ⊢
    unfold matchChecksum at h ⊢
    rw [find_same hu] at h ⊢
    cases hf : checksumNames.find? fun n => startsWith u (n ++ [':']) with
    | some n =>
      rw [hf] at h
      simp only [Option.map_some] at h ⊢
      obtain ⟨c1, c2, c3⟩ := checksum_names n (List.mem_of_find?_eq_some hf)
      have hn : (n ++ [':']).isPrefixOf u = true := List.find?_some (p := fun n => startsWith u (n ++ [':'])) hf
      have hle : n.length + 1 ≤ u.length := by rw [← c2]; exact prefix_length hn
      rw [List.drop_append_of_le_length hle] at h ⊢
      have hu1 : Ends (u.drop (n.length + 1)) := by rw [← c2]; exact hu.drop c1 hn
      cases h
      rcases all_or isPySpace (u.drop (n.length + 1)) with ha | ha
      · rw [(while_all ha b).2] at hl
        have hb1 : b.dropWhile isPySpace = b := drop_none (Nat.le_trans hl (List.dropWhile_suffix _).length_le)
        rw [hb1] at hl
        have hb2 : b.dropWhile isLowerHex = b := drop_none hl
        have tk : ∀ {p : Char → Bool} {l : Str}, l.dropWhile p = l → l.takeWhile p = [] := by
          intro p l hpl
          cases l with
          | nil => rfl
          | cons c l =>
            by_cases hc : p c = true
            · rw [List.dropWhile_cons_of_pos hc] at hpl
              have := congrArg List.length hpl
              have h2 := (List.dropWhile_suffix (l := l) p).length_le
              rw [List.length_cons] at this
              omega
            · rw [List.takeWhile_cons_of_neg hc]
        rw [(while_all ha b).1, (while_all ha b).2, (while_all ha y).1, (while_all ha y).2, tk hb1, hb1, tk hb2, hb2]
        have hy2 : (y.dropWhile isPySpace).dropWhile isLowerHex = y.dropWhile isPySpace ∧ (y.dropWhile isPySpace).takeWhile isLowerHex = [] := by
          rcases hy.start with e | ⟨z, e, _⟩
          · rw [e, hb1]; exact ⟨hb2, tk hb2⟩
          · rw [e]; exact ⟨rfl, rfl⟩
        rw [hy2.1, hy2.2]
        refine ⟨_, ?_, .inr ⟨rfl, like_space hy hb1⟩⟩
        simp only [List.append_nil]
        have hm : ∃ c ∈ n ++ ':' :: u.drop (n.length + 1), isPySpace c = false := by
          obtain ⟨c, hc, hp⟩ := c3
          refine ⟨c, ?_, hp⟩
          rcases List.mem_append.1 hc with h | h
          · exact List.mem_append_left _ h
          · exact List.mem_append_right _ (List.mem_cons.2 (.inl (List.mem_singleton.1 h)))
        have := strip_spaces _ (y.takeWhile isPySpace) (fun c hc => List.all_eq_true.1 List.all_takeWhile c hc) hm
        simp only [List.append_assoc, List.cons_append] at this ⊢
        simp [this]
      · have hu2 := hu1.dropWhile ha
        have hs := hu2.stop (p := isLowerHex) rfl
        rw [(while_stop ha b).1, (while_stop ha b).2, (while_stop ha y).1, (while_stop ha y).2, (while_stop hs b).1, (while_stop hs b).2,
          (while_stop hs y).1, (while_stop hs y).2]
        exact ⟨_, rfl, .inl ⟨_, rfl, rfl, hu2.dropWhile hs⟩⟩
    | none =>
      rw [hf] at h
      simp only [Option.map_none] at h ⊢
      rw [actor_same (by decide) hu, actor_same (by decide) hu, actor_same (by decide) hu] at h ⊢
      cases h1 : matchActor s%"Tool:" u with
      | some z =>
        rw [h1] at h; cases h
        exact ⟨_, rfl, .inl ⟨_, rfl, rfl, actor_ends (by decide) hu h1⟩⟩
      | none =>
        rw [h1] at h
        simp only [Option.map_none] at h ⊢
        cases h2 : matchActor s%"Organization:" u with
        | some z =>
          rw [h2] at h; cases h
          exact ⟨_, rfl, .inl ⟨_, rfl, rfl, actor_ends (by decide) hu h2⟩⟩
        | none =>
          rw [h2] at h
          simp only [Option.map_none] at h ⊢
          cases h3 : matchActor s%"Person:" u with
          | some z =>
            rw [h3] at h; cases h
            exact ⟨_, rfl, .inl ⟨_, rfl, rfl, actor_ends (by decide) hu h3⟩⟩
          | none =>
            rw [h3] at h
            simp only [Option.map_none] at h ⊢
            unfold matchDate at h ⊢
            rw [date_same _ (by decide) hu.mem] at h ⊢
            cases h4 : matchDatePat s%"dddd-dd-ddTdd:dd:ddZ" u with
            | none => rw [h4] at h; cases h
            | some z =>
              rw [h4] at h; cases h
              refine ⟨_, rfl, .inl ⟨_, rfl, rfl, ?_⟩⟩
              obtain ⟨e1, _⟩ := date_suffix _ h4
              have hm := date_chars _ (by decide) h4
              refine hu.suffix ⟨z.1, e1.symm⟩ fun e => ?_
              rw [e, List.append_nil] at e1
              exact hm (e1 ▸ hu.mem)

/-- These rules find nothing new before the place. -/
theorem special_none {u : Str} (hu : Ends u) {x : Str} (h : special (u ++ x) = none) (y : Str) : special (u ++ y) = none := by
  unfold special at h ⊢
  rw [dropPrefix_same (by decide) hu] at h ⊢
  cases hd : dropPrefix? s%"<text>" u with
  | some body =>
    rw [hd] at h
    simp only [Option.map_some] at h
    split at h <;> cases h
  | none =>
    rw [hd] at h
    simp only [Option.map_none] at h ⊢
    unfold matchChecksum at h ⊢
    rw [find_same hu] at h ⊢
    cases hf : checksumNames.find? fun n => startsWith u (n ++ [':']) with
    | some n => rw [hf] at h; cases h
    | none =>
      rw [hf] at h
      simp only [Option.map_none] at h ⊢
      rw [actor_same (by decide) hu, actor_same (by decide) hu, actor_same (by decide) hu] at h ⊢
      unfold matchDate at h ⊢
      rw [date_same _ (by decide) hu.mem] at h ⊢
      cases h1 : matchActor s%"Tool:" u <;> cases h2 : matchActor s%"Organization:" u <;> cases h3 : matchActor s%"Person:" u <;>
        cases h4 : matchDatePat s%"dddd-dd-ddTdd:dd:ddZ" u <;> simp_all

theorem ordinary_before {u : Str} (hu : Ends u) (b y : Str) : ∃ t u', ordinary (u ++ b) = (t, u' ++ b) ∧ ordinary (u ++ y) = (t, u' ++ y) ∧ Ends u' := by
  have hs := hu.stop (p := isDot) rfl
  unfold ordinary
  rw [(while_stop hs b).1, (while_stop hs b).2, (while_stop hs y).1, (while_stop hs y).2]
  split
  · exact ⟨_, u, rfl, rfl, hu⟩
  · exact ⟨_, _, rfl, rfl, hu.dropWhile hs⟩

theorem value_before {b y u : Str} (hy : Like b y) (hu : Ends u) {t : Option Tok} {r : Str} (h : lexValue (u ++ b) = (t, r))
    (hl : b.length ≤ r.length) (hb : b ≠ [] ∨ cutFirst s%"</text>" y = none ∨ ¬ s%"<text>" <:+: u) : ∃ r', lexValue (u ++ y) = (t, r') ∧ After b y r r' := by
  rw [lexValue_cases] at h ⊢
  rcases all_or isPySpace u with ha | ha
  · rw [(while_all ha b).2] at h
    rw [(while_all ha y).2]
    cases hsp : special (b.dropWhile isPySpace) with
    | some z =>
      rw [hsp] at h
      rw [Option.getD_some] at h
      subst h
      have h1 := special_shorter hsp
      have h2 := (List.dropWhile_suffix (l := b) isPySpace).length_le
      omega
    | none =>
      rw [hsp] at h
      have hsy : special (y.dropWhile isPySpace) = none := by
        rcases hy.start with e | ⟨z, e, _⟩
        · rw [e, hsp]
        · rw [e, special_comment]
      rw [hsy]
      obtain ⟨t', u', h1, h2, h3⟩ := ordinary_before hu b y
      rw [Option.getD_none, h1] at h
      cases h
      exact ⟨_, h2, .inl ⟨u', rfl, rfl, h3⟩⟩
  · rw [(while_stop ha b).2] at h
    rw [(while_stop ha y).2]
    have hu' := hu.dropWhile ha
    cases hsp : special (u.dropWhile isPySpace ++ b) with
    | some z =>
      rw [hsp] at h
      rw [Option.getD_some] at h
      subst h
      obtain ⟨r', h1, h2⟩ := special_before hy hu' hsp hl (hb.imp_right fun h => h.imp_right fun h hi => h (hi.trans (List.dropWhile_suffix _).isInfix))
      rw [h1]
      exact ⟨r', rfl, h2⟩
    | none =>
      rw [hsp] at h
      rw [special_none hu' hsp y]
      obtain ⟨t', u', h1, h2, h3⟩ := ordinary_before hu b y
      rw [Option.getD_none, h1] at h
      cases h
      exact ⟨_, h2, .inl ⟨u', rfl, rfl, h3⟩⟩

theorem step_before {b y u : Str} (hy : Like b y) (hu : Ends u) {t : Option Tok} {r : Str} (h : lexOne (u ++ b) = some (t, r))
    (hl : b.length ≤ r.length) (hb : b ≠ [] ∨ cutFirst s%"</text>" y = none ∨ ¬ s%"<text>" <:+: u) : ∃ r', lexOne (u ++ y) = some (t, r') ∧ After b y r r' := by
  cases u with
  | nil => obtain ⟨l, hl⟩ := hu; simp at hl
  | cons c u =>
    have htail : c ≠ '\n' → Ends u := by
      intro hc
      refine hu.suffix (List.suffix_cons c u) fun e => ?_
      subst e
      have := hu.mem
      simp at this
      exact hc this.symm
    rw [List.cons_append, lexOne] at h ⊢
    by_cases h1 : c = ':'
    · rw [if_pos h1] at h ⊢
      obtain ⟨r', h2, h3⟩ := value_before hy (htail (by subst h1; decide)) (Option.some.inj h) hl (hb.imp_right fun h => h.imp_right fun h hi => h (List.infix_cons hi))
      exact ⟨r', congrArg some h2, h3⟩
    · rw [if_neg h1] at h ⊢
      by_cases h2 : isLetterAZ c = true
      · rw [if_pos h2] at h ⊢
        have hs := hu.stop (p := isLetterAZ) (by decide)
        rw [← List.cons_append, (while_stop hs b).1, (while_stop hs b).2] at h
        rw [← List.cons_append, (while_stop hs y).1, (while_stop hs y).2]
        cases h
        exact ⟨_, rfl, .inl ⟨_, rfl, rfl, hu.dropWhile hs⟩⟩
      · rw [if_neg h2] at h ⊢
        by_cases h3 : c = '#'
        · rw [if_pos h3] at h ⊢
          have hu' := htail (by subst h3; decide)
          have hs := hu'.stop (p := isDot) rfl
          rw [(while_stop hs b).2] at h
          rw [(while_stop hs y).2]
          cases h
          exact ⟨_, rfl, .inl ⟨_, rfl, rfl, hu'.dropWhile hs⟩⟩
        · rw [if_neg h3] at h ⊢
          by_cases h4 : c = '\n'
          · rw [if_pos h4] at h ⊢
            rcases all_or (· = '\n') u with ha | ha
            · rw [(while_all ha b).2] at h
              rw [(while_all ha y).2]
              cases h
              exact ⟨_, rfl, .inr ⟨drop_none hl, (lex_newlines y).trans hy.tokens⟩⟩
            · rw [(while_stop ha b).2] at h
              rw [(while_stop ha y).2]
              cases h
              have hne : u ≠ [] := by rintro rfl; obtain ⟨c, hc, _⟩ := ha; cases hc
              exact ⟨_, rfl, .inl ⟨_, rfl, rfl, (hu.suffix (List.suffix_cons c u) hne).dropWhile ha⟩⟩
          · rw [if_neg h4] at h ⊢
            have hu' := htail h4
            by_cases h5 : c = ' ' ∨ c = '\t'
            · rw [if_pos h5] at h ⊢
              have hs := hu'.stop (p := fun c => decide (c = ' ' ∨ c = '\t')) (by decide)
              rw [(while_stop hs b).2] at h
              rw [(while_stop hs y).2]
              cases h
              exact ⟨_, rfl, .inl ⟨_, rfl, rfl, hu'.dropWhile hs⟩⟩
            · rw [if_neg h5] at h ⊢
              cases h
              exact ⟨_, rfl, .inl ⟨u, rfl, rfl, hu'⟩⟩

theorem reaches_length {s b : Str} (h : Reaches s b) : b.length ≤ s.length := by
  induction h with
  | here => exact Nat.le_refl _
  | step h _ ih => exact Nat.le_trans ih (Nat.le_of_lt (lexOne_length _ _ _ h))

/-- If the lexer gets to the place, what is put there and reads as what follows changes no token. -/
theorem insert_like {u b y : Str} (hy : Like b y) (hu : u = [] ∨ Ends u) (h : Reaches (u ++ b) b) (hb : b ≠ [] ∨ cutFirst s%"</text>" y = none ∨ ¬ s%"<text>" <:+: u) : lex (u ++ y) = lex (u ++ b) := by
  generalize hs : u ++ b = s at h
  induction h generalizing u with
  | here b =>
    have : u = [] := by
      have := congrArg List.length hs
      rw [List.length_append] at this
      exact List.length_eq_zero_iff.1 (by omega)
    subst this
    exact hy.tokens
  | @step s r b t h h' ih =>
    subst hs
    rcases hu with rfl | hu
    · have h1 := lexOne_length _ _ _ h
      have h2 := reaches_length h'
      simp at h1
      omega
    · obtain ⟨r', h1, h2⟩ := step_before hy hu h (reaches_length h') hb
      rw [lex_step h, lex_step h1]
      rcases h2 with ⟨u', rfl, rfl, hu'⟩ | ⟨rfl, h3⟩
      · have hs : u' <:+ u := by
          obtain ⟨l, hl⟩ := lexOne_suffix h
          rw [← List.append_assoc] at hl
          exact ⟨l, List.append_cancel_right hl⟩
        rw [ih hy (.inr hu') (hb.imp_right fun h => h.imp_right fun h hi => h (hi.trans hs.isInfix)) rfl]
      · rw [h3]

/-- Every rule stops before the place. -/
def Within (u b r : Str) : Prop := ∃ u', r = u' ++ b ∧ u' <:+ u ∧ (u' = [] ∨ Ends u')

theorem ends_suffix {u u' : Str} (hu : Ends u) (h : u' <:+ u) : u' = [] ∨ Ends u' := by
  by_cases he : u' = []
  · exact .inl he
  · exact .inr (hu.suffix h he)

theorem special_within {u : Str} (hu : Ends u) (hc : SameLineValues u) (ht : ¬ s%"<text>" <:+: u) (b : Str) {t : Option Tok} {r : Str}
    (h : special (u ++ b) = some (t, r)) : Within u b r := by
  unfold special at h
  rw [dropPrefix_same (by decide) hu] at h
  have hd : dropPrefix? s%"<text>" u = none := by
    unfold dropPrefix?
    rw [if_neg]
    exact fun hp => ht (List.isPrefixOf_iff_prefix.1 hp).isInfix
  rw [hd] at h
  simp only [Option.map_none] at h
  unfold matchChecksum at h
  rw [find_same hu] at h
  cases hf : checksumNames.find? fun n => startsWith u (n ++ [':']) with
  | some n =>
    rw [hf] at h
    simp only [Option.map_some] at h
    obtain ⟨c1, c2, c3⟩ := checksum_names n (List.mem_of_find?_eq_some hf)
    have hn : (n ++ [':']).isPrefixOf u = true := List.find?_some (p := fun n => startsWith u (n ++ [':'])) hf
    have hle : n.length + 1 ≤ u.length := by rw [← c2]; exact prefix_length hn
    rw [List.drop_append_of_le_length hle] at h
    have hu1 : Ends (u.drop (n.length + 1)) := by rw [← c2]; exact hu.drop c1 hn
    have ha : ∃ x ∈ u.drop (n.length + 1), isPySpace x = false := by
      obtain ⟨m, hm⟩ := List.isPrefixOf_iff_prefix.1 hn
      have e : u = n ++ ':' :: m := by rw [← hm]; simp
      have e2 : u.drop (n.length + 1) = m := by rw [← hm, ← c2]; simp
      obtain ⟨x, hx, hp⟩ := hc n m e
      rw [e2]
      exact ⟨x, (List.takeWhile_prefix _).subset hx, hp⟩
    have hu2 := hu1.dropWhile ha
    have hs := hu2.stop (p := isLowerHex) rfl
    rw [(while_stop ha b).1, (while_stop ha b).2, (while_stop hs b).1, (while_stop hs b).2] at h
    cases h
    exact ⟨_, rfl, ((List.dropWhile_suffix _).trans (List.dropWhile_suffix _)).trans (List.drop_suffix _ _), .inr (hu2.dropWhile hs)⟩
  | none =>
    rw [hf] at h
    simp only [Option.map_none] at h
    have act : ∀ {p : Str} {z : Str × Str}, matchActor p u = some z → z.2 <:+ u := by
      intro p z hz
      unfold matchActor at hz
      split at hz
      · cases hz; exact (List.dropWhile_suffix _).trans (List.drop_suffix _ _)
      · cases hz
    rw [actor_same (by decide) hu, actor_same (by decide) hu, actor_same (by decide) hu] at h
    cases h1 : matchActor s%"Tool:" u with
    | some z =>
      rw [h1] at h; cases h
      exact ⟨_, rfl, act h1, ends_suffix hu (act h1)⟩
    | none =>
      rw [h1] at h
      simp only [Option.map_none] at h
      cases h2 : matchActor s%"Organization:" u with
      | some z =>
        rw [h2] at h; cases h
        exact ⟨_, rfl, act h2, ends_suffix hu (act h2)⟩
      | none =>
        rw [h2] at h
        simp only [Option.map_none] at h
        cases h3 : matchActor s%"Person:" u with
        | some z =>
          rw [h3] at h; cases h
          exact ⟨_, rfl, act h3, ends_suffix hu (act h3)⟩
        | none =>
          rw [h3] at h
          simp only [Option.map_none] at h
          unfold matchDate at h
          rw [date_same _ (by decide) hu.mem] at h
          cases h4 : matchDatePat s%"dddd-dd-ddTdd:dd:ddZ" u with
          | none => rw [h4] at h; cases h
          | some z =>
            rw [h4] at h; cases h
            obtain ⟨e1, _⟩ := date_suffix _ h4
            have hz : z.2 <:+ u := ⟨z.1, e1.symm⟩
            exact ⟨_, rfl, hz, ends_suffix hu hz⟩

theorem colons_suffix {u u' : Str} (h : SameLineValues u) (hs : u' <:+ u) : SameLineValues u' := by
  obtain ⟨l, rfl⟩ := hs
  intro a m e
  exact h (l ++ a) m (by rw [e, List.append_assoc])

theorem step_within {u : Str} (hu : Ends u) (hc : SameLineValues u) (ht : ¬ s%"<text>" <:+: u) {b : Str} (hb : b.head? ≠ some '\n')
    {t : Option Tok} {r : Str} (h : lexOne (u ++ b) = some (t, r)) : Within u b r := by
  cases u with
  | nil => obtain ⟨l, hl⟩ := hu; simp at hl
  | cons c u =>
    have sfx := List.suffix_cons c u
    have htail : c ≠ '\n' → Ends u := by
      intro hn
      refine hu.suffix sfx fun e => ?_
      subst e
      have := hu.mem
      simp at this
      exact hn this.symm
    rw [List.cons_append, lexOne] at h
    by_cases h1 : c = ':'
    · rw [if_pos h1] at h
      subst h1
      have hu' := htail (by decide)
      have ha : ∃ x ∈ u, isPySpace x = false := by
        obtain ⟨x, hx, hp⟩ := hc [] u rfl
        exact ⟨x, (List.takeWhile_prefix _).subset hx, hp⟩
      have h := Option.some.inj h
      rw [lexValue_cases, (while_stop ha b).2] at h
      have hd := hu'.dropWhile ha
      have sd : u.dropWhile isPySpace <:+ ':' :: u := (List.dropWhile_suffix _).trans sfx
      cases hsp : special (u.dropWhile isPySpace ++ b) with
      | some z =>
        rw [hsp, Option.getD_some] at h
        subst h
        obtain ⟨u', e1, e2, e3⟩ := special_within hd (colons_suffix hc sd) (fun hi => ht (hi.trans sd.isInfix)) b hsp
        exact ⟨u', e1, e2.trans sd, e3⟩
      | none =>
        rw [hsp, Option.getD_none] at h
        have hs := hu'.stop (p := isDot) rfl
        unfold ordinary at h
        rw [(while_stop hs b).1, (while_stop hs b).2] at h
        split at h
        · cases h; exact ⟨u, rfl, sfx, .inr hu'⟩
        · cases h; exact ⟨_, rfl, (List.dropWhile_suffix _).trans sfx, .inr (hu'.dropWhile hs)⟩
    · rw [if_neg h1] at h
      by_cases h2 : isLetterAZ c = true
      · rw [if_pos h2] at h
        have hs := hu.stop (p := isLetterAZ) (by decide)
        rw [← List.cons_append, (while_stop hs b).1, (while_stop hs b).2] at h
        cases h
        exact ⟨_, rfl, List.dropWhile_suffix _, .inr (hu.dropWhile hs)⟩
      · rw [if_neg h2] at h
        by_cases h3 : c = '#'
        · rw [if_pos h3] at h
          have hu' := htail (by subst h3; decide)
          have hs := hu'.stop (p := isDot) rfl
          rw [(while_stop hs b).2] at h
          cases h
          exact ⟨_, rfl, (List.dropWhile_suffix _).trans sfx, .inr (hu'.dropWhile hs)⟩
        · rw [if_neg h3] at h
          by_cases h4 : c = '\n'
          · rw [if_pos h4] at h
            rcases all_or (· = '\n') u with ha | ha
            · rw [(while_all ha b).2] at h
              cases h
              refine ⟨[], ?_, List.nil_suffix, .inl rfl⟩
              cases b with
              | nil => rfl
              | cons x b =>
                rw [List.dropWhile_cons_of_neg]
                · rfl
                · intro e
                  exact hb (by rw [List.head?_cons, of_decide_eq_true e])
            · rw [(while_stop ha b).2] at h
              cases h
              exact ⟨_, rfl, (List.dropWhile_suffix _).trans sfx, ends_suffix hu ((List.dropWhile_suffix _).trans sfx)⟩
          · rw [if_neg h4] at h
            have hu' := htail h4
            by_cases h5 : c = ' ' ∨ c = '\t'
            · rw [if_pos h5] at h
              have hs := hu'.stop (p := fun c => decide (c = ' ' ∨ c = '\t')) (by decide)
              rw [(while_stop hs b).2] at h
              cases h
              exact ⟨_, rfl, (List.dropWhile_suffix _).trans sfx, .inr (hu'.dropWhile hs)⟩
            · rw [if_neg h5] at h
              cases h
              exact ⟨u, rfl, sfx, .inr hu'⟩

theorem reaches_within {u b : Str} (hu : u = [] ∨ Ends u) (hc : SameLineValues u) (ht : ¬ s%"<text>" <:+: u) (hb : b.head? ≠ some '\n') :
    Reaches (u ++ b) b := by
  rcases hu with rfl | hu
  · exact .here b
  · cases h : lexOne (u ++ b) with
    | none =>
      cases u with
      | nil => exact .here b
      | cons c l =>
        rw [List.cons_append, lexOne] at h
        exfalso
        repeat' split at h
        all_goals cases h
    | some z =>
      obtain ⟨t, r⟩ := z
      have hl := lexOne_length _ _ _ h
      obtain ⟨u', rfl, h2, h3⟩ := step_within hu hc ht hb h
      have hlt : u'.length < u.length := by
        rw [List.length_append, List.length_append] at hl
        omega
      exact .step h (reaches_within h3 (colons_suffix hc h2) (fun hi => ht (hi.trans h2.isInfix)) hb)
termination_by u.length
decreasing_by exact hlt

theorem reaches_trans {a b c : Str} (h : Reaches a b) (h' : Reaches b c) : Reaches a c := by
  induction h with
  | here => exact h'
  | step h _ ih => exact .step h (ih h')

theorem plain_space {b : Str} (h : StartsPlain b) : b.dropWhile isPySpace = b := by
  cases b with
  | nil => rfl
  | cons c b => rw [List.dropWhile_cons_of_neg]; simp [h c rfl]

theorem plain_append {c b : Str} (hc : StartsPlain c) (hb : StartsPlain b) : StartsPlain (c ++ b) := by
  cases c with
  | nil => exact hb
  | cons x c => exact hc

theorem plain_line {b : Str} (h : StartsPlain b) : b.head? ≠ some '\n' := fun e => absurd (h _ e) (by decide)

theorem drop_prefix (p x : Str) : dropPrefix? p (p ++ x) = some x := by
  unfold dropPrefix?
  rw [if_pos (List.isPrefixOf_iff_prefix.2 (List.prefix_append p x)), List.drop_left]

theorem cut_first {content : Str} (h : ∀ l m, content ++ s%"</text>" = l ++ s%"</text>" ++ m → m = []) (x : Str) :
    cutFirst s%"</text>" (content ++ s%"</text>" ++ x) = some (content, x) := by
  induction content with
  | nil =>
    have : ([] ++ s%"</text>" ++ x) = '<' :: (s%"/text>" ++ x) := rfl
    rw [this, cutFirst, if_pos]
    · rfl
    · exact List.isPrefixOf_iff_prefix.2 ⟨x, rfl⟩
  | cons c content ih =>
    rw [List.cons_append, List.cons_append, cutFirst, if_neg, ih]
    · rfl
    · intro l m e
      exact h (c :: l) m (by rw [List.cons_append, e]; rfl)
    · intro hp
      have hlen : (s%"</text>").length ≤ (c :: (content ++ s%"</text>")).length := by simp
      have h2 : s%"</text>" <+: c :: (content ++ s%"</text>") := by
        refine List.prefix_of_prefix_length_le (List.isPrefixOf_iff_prefix.1 hp) ?_ hlen
        exact ⟨x, by simp⟩
      obtain ⟨m, hm⟩ := h2
      have := h [] m (by rw [List.cons_append, ← hm]; rfl)
      subst this
      have := congrArg List.length hm
      simp at this

theorem reaches_block {key w content : Str} (hk : ∀ c ∈ key, isLetterAZ c = true) (hn : key ≠ []) (hw : ∀ c ∈ w, isPySpace c = true)
    (hc : ∀ l m, content ++ s%"</text>" = l ++ s%"</text>" ++ m → m = []) {x : Str} (hx : StartsPlain x) :
    Reaches (key ++ ':' :: (w ++ s%"<text>" ++ content ++ s%"</text>" ++ '\n' :: x)) x := by
  have h1 : ∀ y, lexOne (key ++ ':' :: y) = some (some (reservedTok key (.unknown key)), ':' :: y) := by
    intro y
    cases key with
    | nil => exact absurd rfl hn
    | cons c key =>
      have hcl := hk c (List.mem_cons_self ..)
      have hcc : c ≠ ':' := by rintro rfl; exact absurd hcl (by decide)
      rw [List.cons_append, lexOne, if_neg hcc, if_pos hcl, ← List.cons_append, (while_all hk _).1, (while_all hk _).2]
      simp [show isLetterAZ ':' = false from by decide]
  have h2 : lexOne (':' :: (w ++ s%"<text>" ++ content ++ s%"</text>" ++ '\n' :: x)) =
      some (some (.text (s%"<text>" ++ content ++ s%"</text>")), x) := by
    rw [lexOne, if_pos rfl, lexValue_cases]
    have e : w ++ s%"<text>" ++ content ++ s%"</text>" ++ '\n' :: x = w ++ (s%"<text>" ++ (content ++ s%"</text>" ++ '\n' :: x)) := by
      simp only [List.append_assoc]
    rw [e, (while_all hw _).2]
    have e2 : (s%"<text>" ++ (content ++ s%"</text>" ++ '\n' :: x)).dropWhile isPySpace = s%"<text>" ++ (content ++ s%"</text>" ++ '\n' :: x) := rfl
    rw [e2, special, drop_prefix]
    simp only
    rw [cut_first hc]
    simp only
    rw [List.dropWhile_cons_of_pos (by decide), plain_space hx]
    rfl
  exact .step (h1 _) (.step h2 (.here x))

theorem no_close {content : Str} (h : ¬ s%"</text>" <:+: content ++ s%"</text") (l m : Str) (e : content ++ s%"</text>" = l ++ s%"</text>" ++ m) : m = [] := by
  by_cases hm : m = []
  · exact hm
  · rw [← List.dropLast_concat_getLast hm, ← List.append_assoc, show s%"</text>" = s%"</text" ++ ['>'] from rfl, ← List.append_assoc content] at e
    have := (List.append_inj' e rfl).1
    exact absurd ⟨l, _, this.symm⟩ h

theorem reaches_tidy {a : Str} (ha : Tidy a) {b : Str} (hb : StartsPlain b) : Reaches (a ++ b) b := by
  induction ha with
  | nil => exact .here b
  | @plain a c h1 h2 h3 h4 _ ih =>
    rw [List.append_assoc]
    exact reaches_trans (reaches_within h1 h2 h3 (plain_line (plain_append h4 hb))) ih
  | @block key w content c h1 h2 h3 h4 h5 _ ih =>
    have := reaches_block h1 h2 h3 (no_close h4) (plain_append h5 hb)
    refine reaches_trans ?_ ih
    simpa using this

theorem tidy_lines {a : Str} (ha : Tidy a) : a = [] ∨ Ends a := by
  have add : ∀ {l c : Str}, Ends l → c = [] ∨ Ends c → Ends (l ++ c) := by
    intro l c hl hc
    rcases hc with rfl | ⟨m, rfl⟩
    · simpa using hl
    · exact ⟨l ++ m, by simp⟩
  induction ha with
  | nil => exact .inl rfl
  | @plain a c h1 h2 h3 h4 _ ih =>
    rcases h1 with rfl | h1
    · exact ih
    · exact .inr (add h1 ih)
  | @block key w content c h1 h2 h3 h4 h5 _ ih =>
    exact .inr (add ⟨key ++ ':' :: (w ++ s%"<text>" ++ content ++ s%"</text>"), by simp⟩ ih)

end Spdx.Quiet
