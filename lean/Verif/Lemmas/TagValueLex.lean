import Verif.Spec.TvOk
import Verif.Lemmas.Text
import Verif.Lemmas.Chars
import Verif.Model.TagValueParser
import Verif.Spec.JsonOk
import Verif.Props.C03
import Verif.Props.C05
import Verif.Props.C06
import Verif.Py.Exacts
/- What the lexer makes of the lines that the tag-value writer puts out. -/
namespace Spdx
open Spec

theorem scan_fuel {step : List σ → Option (Option α × List σ)} (h : ∀ s a r, step s = some (a, r) → r.length < s.length) :
    ∀ n m s, s.length ≤ n → s.length ≤ m → scan step n s = scan step m s
  | 0, 0, _, _, _ => rfl
  | 0, m + 1, s, hn, _ => by
    have : s = [] := List.eq_nil_of_length_eq_zero (by omega)
    subst this
    simp only [scan]
    cases e : step [] with
    | none => rfl
    | some x => have := h [] x.1 x.2 e; simp at this
  | n + 1, 0, s, _, hm => by
    have : s = [] := List.eq_nil_of_length_eq_zero (by omega)
    subst this
    simp only [scan]
    cases e : step [] with
    | none => rfl
    | some x => have := h [] x.1 x.2 e; simp at this
  | n + 1, m + 1, s, hn, hm => by
    simp only [scan]
    cases e : step s with
    | none => rfl
    | some x =>
      have := h s x.1 x.2 e
      simp only
      rw [scan_fuel h n m x.2 (by omega) (by omega)]

theorem scan_step {step : List σ → Option (Option α × List σ)} (h : ∀ s a r, step s = some (a, r) → r.length < s.length)
    {s : List σ} {a : Option α} {r : List σ} (e : step s = some (a, r)) :
    scan step s.length s = a.toList ++ scan step r.length r := by
  have hl := h s a r e
  obtain ⟨n, hn⟩ : ∃ n, s.length = n + 1 := ⟨s.length - 1, by omega⟩
  rw [hn]
  simp only [scan, e]
  rw [scan_fuel h n r.length r (by omega) (Nat.le_refl _)]

theorem length_dropWhile_le (p : α → Bool) (l : List α) : (l.dropWhile p).length ≤ l.length :=
  (List.dropWhile_suffix p).length_le

theorem cutFirst_length {p s a b : Str} (h : cutFirst p s = some (a, b)) : b.length ≤ s.length := by
  induction s generalizing a b with
  | nil => unfold cutFirst at h; split at h <;> simp_all
  | cons c r ih =>
    unfold cutFirst at h
    split at h
    · simp only [Option.some.injEq, Prod.mk.injEq] at h
      rw [← h.2, List.length_drop]; omega
    · cases e : cutFirst p r with
      | none => rw [e] at h; cases h
      | some x =>
        rw [e] at h
        simp only [Option.map_some, Option.some.injEq, Prod.mk.injEq] at h
        have := ih (a := x.1) (b := x.2) e
        rw [← h.2]; simp only [List.length_cons]; omega

theorem matchChecksum_length {v a b : Str} (h : matchChecksum v = some (a, b)) : b.length ≤ v.length := by
  unfold matchChecksum at h
  cases e : checksumNames.find? fun n => startsWith v (n ++ [':']) with
  | none => rw [e] at h; cases h
  | some n =>
    rw [e] at h
    simp only [Option.map_some, Option.some.injEq, Prod.mk.injEq] at h
    rw [← h.2]
    refine Nat.le_trans (length_dropWhile_le _ _) (Nat.le_trans (length_dropWhile_le _ _) ?_)
    rw [List.length_drop]; omega

theorem matchActor_length {p v a b : Str} (h : matchActor p v = some (a, b)) : b.length ≤ v.length := by
  unfold matchActor at h
  split at h
  · simp only [Option.some.injEq, Prod.mk.injEq] at h
    rw [← h.2]
    refine Nat.le_trans (length_dropWhile_le _ _) ?_
    rw [List.length_drop]; omega
  · cases h

theorem matchDatePat_length {p v a b : Str} (h : matchDatePat p v = some (a, b)) : b.length ≤ v.length := by
  induction p generalizing v a b with
  | nil => simp only [matchDatePat, Option.some.injEq, Prod.mk.injEq] at h; rw [h.2]; exact Nat.le_refl _
  | cons q p ih =>
    cases v with
    | nil => simp [matchDatePat] at h
    | cons c v =>
      simp only [matchDatePat] at h
      split at h
      · cases e : matchDatePat p v with
        | none => rw [e] at h; cases h
        | some x =>
          rw [e] at h
          simp only [Option.map_some, Option.some.injEq, Prod.mk.injEq] at h
          have := ih (a := x.1) (b := x.2) e
          rw [← h.2]; simp only [List.length_cons]; omega
      · cases h

theorem lexValue_length (r : Str) : (lexValue r).2.length ≤ r.length := by
  have hv := length_dropWhile_le isPySpace r
  unfold lexValue
  simp only
  split
  · rename_i body hb
    have hbl : body.length ≤ r.length := by
      unfold dropPrefix? at hb
      split at hb
      · simp only [Option.some.injEq] at hb
        rw [← hb, List.length_drop]; omega
      · cases hb
    split
    · rename_i hc
      have := cutFirst_length hc
      exact Nat.le_trans (length_dropWhile_le _ _) (by omega)
    · simp
  · split
    · rename_i h; have := matchChecksum_length h; simp only; omega
    · split
      · rename_i h; have := matchActor_length h; simp only; omega
      · split
        · rename_i h; have := matchActor_length h; simp only; omega
        · split
          · rename_i h; have := matchActor_length h; simp only; omega
          · split
            · rename_i h; have := matchDatePat_length h; simp only; omega
            · split
              · exact Nat.le_refl _
              · exact length_dropWhile_le _ _

theorem lexOne_length (s : Str) (a : Option Tok) (r : Str) (h : lexOne s = some (a, r)) : r.length < s.length := by
  cases s with
  | nil => cases h
  | cons c s =>
    unfold lexOne at h
    simp only at h
    split at h
    · simp only [Option.some.injEq] at h
      have := lexValue_length s
      rw [h] at this
      simp only [List.length_cons] at this ⊢; omega
    · split at h
      · rename_i hc
        simp only [Option.some.injEq, Prod.mk.injEq] at h
        rw [← h.2, List.dropWhile_cons_of_pos hc]
        have := length_dropWhile_le isLetterAZ s
        simp only [List.length_cons]; omega
      · split at h
        · simp only [Option.some.injEq, Prod.mk.injEq] at h
          rw [← h.2]
          have := length_dropWhile_le isDot s
          simp only [List.length_cons]; omega
        · split at h
          · simp only [Option.some.injEq, Prod.mk.injEq] at h
            rw [← h.2]
            have := length_dropWhile_le (· = '\n') s
            simp only [List.length_cons]; omega
          · split at h
            · simp only [Option.some.injEq, Prod.mk.injEq] at h
              rw [← h.2]
              have := length_dropWhile_le (fun c => decide (c = ' ' ∨ c = '\t')) s
              simp only [List.length_cons]; omega
            · simp only [Option.some.injEq, Prod.mk.injEq] at h
              rw [← h.2]; simp

theorem lex_step {s r : Str} {a : Option Tok} (h : lexOne s = some (a, r)) : lex s = a.toList ++ lex r := scan_step lexOne_length h

theorem lex_nil : lex [] = [] := rfl

theorem lex_value (r : Str) : lex (':' :: r) = (lexValue r).1.toList ++ lex (lexValue r).2 :=
  lex_step (a := (lexValue r).1) (r := (lexValue r).2) rfl

private theorem lex_nl' (r : Str) : lex ('\n' :: r) = lex (r.dropWhile (· = '\n')) := lex_step (a := none) rfl

theorem lex_nl (r : Str) : lex ('\n' :: r) = lex r := by
  rw [lex_nl']
  cases r with
  | nil => rfl
  | cons c r =>
    by_cases h : c = '\n'
    · subst h
      rw [List.dropWhile_cons_of_pos (by decide)]
      exact (lex_nl' r).symm
    · rw [List.dropWhile_cons_of_neg (by simpa using h)]

theorem takeWhile_dot {v r : Str} (h : '\n' ∉ v) : (v ++ '\n' :: r).takeWhile isDot = v := by
  induction v with
  | nil => rfl
  | cons c v ih =>
    have hc : c ≠ '\n' := fun e => h (by simp [e])
    rw [List.cons_append, List.takeWhile_cons_of_pos (by simpa [isDot] using hc), ih (fun m => h (List.mem_cons_of_mem _ m))]

theorem dropWhile_dot {v r : Str} (h : '\n' ∉ v) : (v ++ '\n' :: r).dropWhile isDot = '\n' :: r := by
  induction v with
  | nil => rfl
  | cons c v ih =>
    have hc : c ≠ '\n' := fun e => h (by simp [e])
    rw [List.cons_append, List.dropWhile_cons_of_pos (by simpa [isDot] using hc), ih (fun m => h (List.mem_cons_of_mem _ m))]

theorem lex_heading {h r : Str} (hn : '\n' ∉ h) : lex ('#' :: h ++ '\n' :: r) = lex r := by
  have : lexOne ('#' :: (h ++ '\n' :: r)) = some (none, (h ++ '\n' :: r).dropWhile isDot) := rfl
  rw [List.cons_append, lex_step this, dropWhile_dot hn, lex_nl]; rfl

theorem tvTags_letters : ∀ t ∈ tvTags, t ≠ [] ∧ t.all isLetterAZ = true ∧ t ≠ s%"NONE" ∧ t ≠ s%"NOASSERTION" := by decide +kernel

theorem takeWhile_all {p : α → Bool} {l r : List α} {c : α} (h : ∀ x ∈ l, p x = true) (hc : p c = false) :
    (l ++ c :: r).takeWhile p = l ∧ (l ++ c :: r).dropWhile p = c :: r := by
  induction l with
  | nil => simp [hc]
  | cons x l ih =>
    have := ih (fun y hy => h y (List.mem_cons_of_mem _ hy))
    have hx := h x List.mem_cons_self
    simp [hx, this.1, this.2]

theorem reservedTok_tag {t : Str} (h : t ∈ tvTags) (d : Tok) : reservedTok t d = .tag t := by
  have := tvTags_letters t h
  unfold reservedTok
  rw [if_neg this.2.2.2, if_neg this.2.2.1, if_pos h]

theorem lex_tag {t r : Str} (h : t ∈ tvTags) : lex (t ++ ':' :: r) = .tag t :: ((lexValue r).1.toList ++ lex (lexValue r).2) := by
  obtain ⟨hne, hl, _⟩ := tvTags_letters t h
  have hl' : ∀ x ∈ t, isLetterAZ x = true := by simpa using hl
  obtain ⟨h1, h2⟩ := takeWhile_all (r := r) hl' (show isLetterAZ ':' = false by decide)
  have : lexOne (t ++ ':' :: r) = some (some (.tag t), ':' :: r) := by
    cases t with
    | nil => exact absurd rfl hne
    | cons c t =>
      have hc := hl' c List.mem_cons_self
      have hcc : c ≠ ':' := fun e => by rw [e] at hc; exact absurd hc (by decide)
      show (if c = ':' then _ else _) = _
      rw [if_neg hcc, if_pos hc]
      show some (some (reservedTok (((c :: t) ++ ':' :: r).takeWhile isLetterAZ) (.unknown (((c :: t) ++ ':' :: r).takeWhile isLetterAZ))),
        ((c :: t) ++ ':' :: r).dropWhile isLetterAZ) = _
      rw [h1, h2, reservedTok_tag h]
  rw [lex_step this, lex_value]; rfl

/-! ## Values -/

/-- The value, followed by the end of the line, makes this token. -/
def Lexes (v : Str) (t : Tok) : Prop := ∀ r, lexValue (' ' :: (v ++ '\n' :: r)) = (some t, '\n' :: r)

theorem isPrefixOf_line {p v r : Str} (hp : '\n' ∉ p) : p.isPrefixOf (v ++ '\n' :: r) = p.isPrefixOf v := by
  induction p generalizing v with
  | nil => cases v <;> rfl
  | cons c p ih =>
    have hc : c ≠ '\n' := fun e => hp (by simp [e])
    cases v with
    | nil => show (c == '\n' && _) = false; simp [hc]
    | cons d v =>
      show (c == d && p.isPrefixOf (v ++ '\n' :: r)) = (c == d && p.isPrefixOf v)
      rw [ih (fun m => hp (List.mem_cons_of_mem _ m))]

theorem not_isPrefixOf {p v : Str} (h : ¬ p <+: v) : p.isPrefixOf v = false := by
  cases e : p.isPrefixOf v with
  | false => rfl
  | true => exact absurd (List.isPrefixOf_iff_prefix.1 e) h

theorem matchDatePat_line {p v r : Str} (hp : ∀ x ∈ p, dateChar x '\n' = false) (h : matchDatePat p v = none) :
    matchDatePat p (v ++ '\n' :: r) = none := by
  induction p generalizing v with
  | nil => simp [matchDatePat] at h
  | cons q p ih =>
    cases v with
    | nil =>
      show (if dateChar q '\n' then _ else _) = none
      rw [hp q List.mem_cons_self]; rfl
    | cons c v =>
      simp only [matchDatePat] at h
      show (if dateChar q c then (matchDatePat p (v ++ '\n' :: r)).map _ else _) = none
      split
      · rename_i hq
        rw [if_pos hq] at h
        cases e : matchDatePat p v with
        | none => rw [ih (fun x hx => hp x (List.mem_cons_of_mem _ hx)) e]; rfl
        | some x => rw [e] at h; cases h
      · rfl

theorem checksumNames_dot : ∀ n ∈ checksumNames, '\n' ∉ n ++ [':'] := by decide +kernel

theorem matchChecksum_line {v r : Str} (h : ∀ n ∈ checksumNames, ¬ (n ++ [':']) <+: v) : matchChecksum (v ++ '\n' :: r) = none := by
  unfold matchChecksum
  rw [List.find?_eq_none.2]
  · rfl
  · intro n hn
    show ¬ ((n ++ [':']).isPrefixOf (v ++ '\n' :: r) = true)
    rw [isPrefixOf_line (checksumNames_dot n hn), not_isPrefixOf (h n hn)]
    exact Bool.false_ne_true

theorem matchActor_line {p v r : Str} (hp : '\n' ∉ p) (h : ¬ p <+: v) : matchActor p (v ++ '\n' :: r) = none := by
  unfold matchActor
  rw [if_neg]
  intro hh
  have := hh.1
  unfold startsWith at this
  rw [isPrefixOf_line hp, not_isPrefixOf h] at this
  cases this

theorem dropPrefix?_line {p v r : Str} (hp : '\n' ∉ p) (h : ¬ p <+: v) : dropPrefix? p (v ++ '\n' :: r) = none := by
  unfold dropPrefix?
  rw [isPrefixOf_line hp, not_isPrefixOf h]; rfl

theorem not_space_head {v : Str} (hn : v ≠ []) (hs : strip v = v) : ∃ c w, v = c :: w ∧ isPySpace c = false := by
  cases v with
  | nil => exact absurd rfl hn
  | cons c w => exact ⟨c, w, rfl, ((strip_eq_self_iff _).1 hs).1 c w rfl⟩

theorem dropWhile_space_line {v r : Str} (hn : v ≠ []) (hs : strip v = v) :
    (' ' :: (v ++ '\n' :: r)).dropWhile isPySpace = v ++ '\n' :: r := by
  obtain ⟨c, w, rfl, hc⟩ := not_space_head hn hs
  rw [List.dropWhile_cons_of_pos (by decide), List.cons_append, List.dropWhile_cons_of_neg (by simp [hc])]

theorem strip_space {v : Str} (hn : v ≠ []) (hs : strip v = v) : strip (' ' :: v) = v := by
  obtain ⟨c, w, rfl, hc⟩ := not_space_head hn hs
  have : lstrip (' ' :: c :: w) = lstrip (c :: w) := by
    unfold lstrip; rw [List.dropWhile_cons_of_pos (by decide)]
  unfold strip at hs ⊢
  rw [this, hs]

theorem lexes_line {v : Str} (h : OneLine v) : Lexes v (reservedTok v (.line v)) := by
  obtain ⟨hn, hl, hs, ht, hc, ha, hd⟩ := h
  intro r
  have hnl : '\n' ∉ ' ' :: v := by simp [hl]
  have e1 : (' ' :: (v ++ '\n' :: r)).takeWhile isDot = ' ' :: v := takeWhile_dot (v := ' ' :: v) hnl
  have e2 : (' ' :: (v ++ '\n' :: r)).dropWhile isDot = '\n' :: r := dropWhile_dot (v := ' ' :: v) hnl
  unfold lexValue
  simp only
  rw [dropWhile_space_line hn hs, dropPrefix?_line (by decide) ht]
  simp only
  rw [matchChecksum_line hc]
  simp only
  rw [matchActor_line (by decide) (ha s%"Tool:" (by decide))]
  simp only
  rw [matchActor_line (by decide) (ha s%"Organization:" (by decide))]
  simp only
  rw [matchActor_line (by decide) (ha s%"Person:" (by decide))]
  simp only
  have hd' : matchDate (v ++ '\n' :: r) = none := by
    refine matchDatePat_line (by decide +kernel) ?_
    unfold LooksLikeDate matchDate at hd
    cases e : matchDatePat s%"dddd-dd-ddTdd:dd:ddZ" v with
    | none => rfl
    | some x => rw [e] at hd; exact absurd rfl hd
  rw [hd']
  simp only
  rw [e1, e2, if_neg (by simp), strip_space hn hs]

theorem lexes_plain {v : Str} (h : Plain v) : Lexes v (.line v) := by
  have := lexes_line h.1
  unfold reservedTok at this
  rwa [if_neg h.2.2.2, if_neg h.2.2.1, if_neg h.2.1] at this

theorem lexes_none : Lexes s%"NONE" .none := lexes_line (v := s%"NONE") (by decide +kernel)
theorem lexes_noAssertion : Lexes s%"NOASSERTION" .noAssertion := lexes_line (v := s%"NOASSERTION") (by decide +kernel)

/-- An actor's line. -/
theorem matchActor_take {p w r : Str} (hw : w ≠ []) (hl : '\n' ∉ w) : matchActor p (p ++ w ++ '\n' :: r) = some (p ++ w, '\n' :: r) := by
  unfold matchActor startsWith
  have e : (p ++ w ++ '\n' :: r).drop p.length = w ++ '\n' :: r := by
    rw [List.append_assoc, List.drop_left]
  rw [e, takeWhile_dot hl, dropWhile_dot hl, if_pos]
  exact ⟨List.isPrefixOf_iff_prefix.2 ⟨w ++ '\n' :: r, by rw [List.append_assoc]⟩, hw⟩

/-- Only one of the prefixes fits. -/
theorem not_prefix_of_head {p q : Str} {w : Str} (h : p.isPrefixOf (q ++ w) = true) (hl : q.length ≤ p.length) : q <+: p := by
  obtain ⟨x, hx⟩ := List.isPrefixOf_iff_prefix.1 h
  exact List.prefix_of_prefix_length_le ⟨w, rfl⟩ ⟨x, hx⟩ hl

/-- `p` and `q` differ before either ends. -/
def Apart : Str → Str → Bool
  | a :: p, b :: q => a ≠ b || Apart p q
  | _, _ => false

theorem apart_prefix {p q w : Str} (h : Apart p q = true) : p.isPrefixOf (q ++ w) = false := by
  induction p generalizing q with
  | nil => cases q <;> simp [Apart] at h
  | cons a p ih =>
    cases q with
    | nil => simp [Apart] at h
    | cons b q =>
      simp only [Apart, Bool.or_eq_true, decide_eq_true_eq] at h
      show (a == b && p.isPrefixOf (q ++ w)) = false
      rcases h with h | h
      · simp [h]
      · rw [ih h]; simp

/-- What precedes a token in the text (`q`) rules out the rules that come before. -/
theorem matchChecksum_apart {q w : Str} (h : ∀ n ∈ checksumNames, Apart (n ++ [':']) q = true) : matchChecksum (q ++ w) = none := by
  unfold matchChecksum
  rw [List.find?_eq_none.2]
  · rfl
  · intro n hn
    show ¬ ((n ++ [':']).isPrefixOf (q ++ w) = true)
    rw [apart_prefix (h n hn)]; exact Bool.false_ne_true

theorem matchActor_apart {p q w : Str} (h : Apart p q = true) : matchActor p (q ++ w) = none := by
  unfold matchActor startsWith
  rw [if_neg]; rw [apart_prefix h]; simp

theorem dropPrefix?_apart {p q w : Str} (h : Apart p q = true) : dropPrefix? p (q ++ w) = none := by
  unfold dropPrefix?; rw [apart_prefix h]; rfl

theorem lexes_tool {w : Str} (hw : w ≠ []) (hl : '\n' ∉ w) (hs : strip (s%"Tool:" ++ w) = s%"Tool:" ++ w) :
    Lexes (s%"Tool:" ++ w) (.tool (s%"Tool:" ++ w)) := by
  intro r
  unfold lexValue
  simp only
  rw [dropWhile_space_line (by simp) hs]
  have e : s%"Tool:" ++ w ++ '\n' :: r = s%"Tool:" ++ (w ++ '\n' :: r) := List.append_assoc ..
  rw [e, dropPrefix?_apart (by decide +kernel)]
  simp only
  rw [matchChecksum_apart (by decide +kernel)]
  simp only
  rw [← e, matchActor_take hw hl]
  simp only [hs]

theorem lexes_org {w : Str} (hw : w ≠ []) (hl : '\n' ∉ w) (hs : strip (s%"Organization:" ++ w) = s%"Organization:" ++ w) :
    Lexes (s%"Organization:" ++ w) (.org (s%"Organization:" ++ w)) := by
  intro r
  unfold lexValue
  simp only
  rw [dropWhile_space_line (by simp) hs]
  have e : s%"Organization:" ++ w ++ '\n' :: r = s%"Organization:" ++ (w ++ '\n' :: r) := List.append_assoc ..
  rw [e, dropPrefix?_apart (by decide +kernel)]
  simp only
  rw [matchChecksum_apart (by decide +kernel)]
  simp only
  rw [matchActor_apart (by decide +kernel)]
  simp only
  rw [← e, matchActor_take hw hl]
  simp only [hs]

theorem lexes_person {w : Str} (hw : w ≠ []) (hl : '\n' ∉ w) (hs : strip (s%"Person:" ++ w) = s%"Person:" ++ w) :
    Lexes (s%"Person:" ++ w) (.person (s%"Person:" ++ w)) := by
  intro r
  unfold lexValue
  simp only
  rw [dropWhile_space_line (by simp) hs]
  have e : s%"Person:" ++ w ++ '\n' :: r = s%"Person:" ++ (w ++ '\n' :: r) := List.append_assoc ..
  rw [e, dropPrefix?_apart (by decide +kernel)]
  simp only
  rw [matchChecksum_apart (by decide +kernel)]
  simp only
  rw [matchActor_apart (by decide +kernel)]
  simp only
  rw [matchActor_apart (by decide +kernel)]
  simp only
  rw [← e, matchActor_take hw hl]
  simp only [hs]

/-- The token of an actor's line. -/
def actorTok (a : Actor) : Tok :=
  match a.actorType with
  | .TOOL => .tool a.toSerialized
  | .PERSON => .person a.toSerialized
  | .ORGANIZATION => .org a.toSerialized

theorem actorTok_value (a : Actor) : (actorTok a).value = a.toSerialized := by unfold actorTok; split <;> rfl

private def actorRest (a : Actor) : Str :=
  ' ' :: (a.name ++ (match a.email with | some e => if e = [] then [] else s%" (" ++ e ++ [')'] | none => []))

private theorem toSerialized_split (a : Actor) : a.toSerialized = (a.actorType.title ++ [':']) ++ actorRest a := by
  unfold Actor.toSerialized actorRest; cases a.email <;> simp

private theorem actorRest_nl (a : Actor) (h : C05.Expressible a) : '\n' ∉ actorRest a := by
  obtain ⟨_, _, hl, he⟩ := h
  unfold actorRest
  intro hm
  rcases List.mem_cons.1 hm with e | hm
  · cases e
  · rcases List.mem_append.1 hm with e | hm
    · exact hl e
    · cases hE : a.email with
      | none => rw [hE] at hm; cases hm
      | some e =>
        rw [hE] at he hm
        simp only at hm he
        rw [if_neg he.2.1] at hm
        simp only [List.mem_append, List.mem_cons, List.not_mem_nil, or_false] at hm
        rcases hm with (hm | hm) | hm
        · exact absurd hm (by decide)
        · exact he.2.2.2.1 hm
        · cases hm

private theorem strip_of_ends {c d : Char} {m : Str} (hc : isPySpace c = false) (hd : isPySpace d = false) :
    strip (c :: m ++ [d]) = c :: m ++ [d] := by
  refine (strip_eq_self_iff _).2 ⟨?_, ?_⟩
  · intro x r e
    simp only [List.cons_append, List.cons.injEq] at e
    exact e.1 ▸ hc
  · intro x r e
    have := List.append_inj_right' e rfl
    simp only [List.cons.injEq, and_true] at this
    exact this ▸ hd

private theorem actor_strip (a : Actor) (h : C05.Expressible a) : strip a.toSerialized = a.toSerialized := by
  have hh : ∃ c m, a.actorType.title = c :: m ∧ isPySpace c = false := by
    cases a.actorType
    exacts [⟨_, _, rfl, by decide⟩, ⟨_, _, rfl, by decide⟩, ⟨_, _, rfl, by decide⟩]
  obtain ⟨c, m, e, hc⟩ := hh
  obtain ⟨hn, ht, hl, he⟩ := h
  have hlast : ∃ d n, a.name = n ++ [d] ∧ isPySpace d = false := by
    have := List.dropLast_concat_getLast hn
    exact ⟨_, _, this.symm, ht.2 _ _ this.symm⟩
  obtain ⟨d, n, en, hd⟩ := hlast
  unfold Actor.toSerialized
  cases hE : a.email with
  | none =>
    have := strip_of_ends (c := c) (d := d) (m := m ++ [':', ' '] ++ n) hc hd
    simpa [e, en] using this
  | some x =>
    rw [hE] at he
    simp only at he ⊢
    rw [if_neg he.2.1]
    have := strip_of_ends (c := c) (d := ')') (m := m ++ [':', ' '] ++ a.name ++ s%" (" ++ x) hc (by decide)
    simpa [e] using this

theorem lexes_actor (a : Actor) (h : C05.Expressible a) : Lexes a.toSerialized (actorTok a) := by
  have hs := actor_strip a h
  have hl := actorRest_nl a h
  have e := toSerialized_split a
  unfold actorTok
  rw [e] at hs ⊢
  cases hT : a.actorType with
  | TOOL => rw [hT] at hs; exact lexes_tool (by simp [actorRest]) hl hs
  | PERSON => rw [hT] at hs; exact lexes_person (by simp [actorRest]) hl hs
  | ORGANIZATION => rw [hT] at hs; exact lexes_org (by simp [actorRest]) hl hs

/-! ### Dates -/

private theorem digit_head {p w : Str} {c : Char} (hp : p.head?.any (fun x => !isPyDigit x) = true) (hc : isPyDigit c = true) :
    Apart p (c :: w) = true := by
  cases p with
  | nil => cases hp
  | cons a p =>
    simp only [List.head?_cons, Option.any_some, Bool.not_eq_true'] at hp
    have : a ≠ c := fun e => by rw [e, hc] at hp; cases hp
    simp [Apart, this]

theorem lexes_dated {c : Char} {v : Str} (hc : isPyDigit c = true) (hs : strip (c :: v) = c :: v)
    (hm : ∀ r, matchDate (c :: v ++ '\n' :: r) = some (c :: v, '\n' :: r)) : Lexes (c :: v) (.date (c :: v)) := by
  intro r
  unfold lexValue
  simp only
  rw [dropWhile_space_line (by simp) hs]
  rw [dropPrefix?_apart (digit_head (by decide +kernel) hc)]
  simp only
  rw [matchChecksum_apart (fun n hn => digit_head (by
    have : ∀ n ∈ checksumNames, (n ++ [':']).head?.any (fun x => !isPyDigit x) = true := by decide +kernel
    exact this n hn) hc)]
  simp only
  rw [matchActor_apart (digit_head (by decide +kernel) hc)]
  simp only
  rw [matchActor_apart (digit_head (by decide +kernel) hc)]
  simp only
  rw [matchActor_apart (digit_head (by decide +kernel) hc)]
  simp only
  rw [hm]
  simp only [hs]

theorem date_digit (k : Nat) (h : k < 10) : dateChar 'd' (digitChar k) = true := isPyDigit_digitChar k h

private theorem match_iso {y1 y2 y3 y4 m1 m2 d1 d2 h1 h2 n1 n2 s1 s2 : Char} (a1 : dateChar 'd' y1 = true) (a2 : dateChar 'd' y2 = true)
    (a3 : dateChar 'd' y3 = true) (a4 : dateChar 'd' y4 = true) (b1 : dateChar 'd' m1 = true) (b2 : dateChar 'd' m2 = true)
    (c1 : dateChar 'd' d1 = true) (c2 : dateChar 'd' d2 = true) (e1 : dateChar 'd' h1 = true) (e2 : dateChar 'd' h2 = true)
    (f1 : dateChar 'd' n1 = true) (f2 : dateChar 'd' n2 = true) (g1 : dateChar 'd' s1 = true) (g2 : dateChar 'd' s2 = true) (r : Str) :
    matchDate (y1 :: y2 :: y3 :: y4 :: '-' :: m1 :: m2 :: '-' :: d1 :: d2 :: 'T' :: h1 :: h2 :: ':' :: n1 :: n2 :: ':' :: s1 :: s2 :: 'Z' :: r) =
      some ([y1, y2, y3, y4, '-', m1, m2, '-', d1, d2, 'T', h1, h2, ':', n1, n2, ':', s1, s2, 'Z'], r) := by
  have p1 : dateChar '-' '-' = true := by decide
  have p2 : dateChar 'T' 'T' = true := by decide
  have p3 : dateChar ':' ':' = true := by decide
  have p4 : dateChar 'Z' 'Z' = true := by decide
  simp only [matchDate, matchDatePat, a1, a2, a3, a4, b1, b2, c1, c2, e1, e2, f1, f2, g1, g2, p1, p2, p3, p4, if_true, Option.map_some]

theorem lexes_date (t : DateTime) (h : DateOk t) : ∃ s, datetimeToIso t = some s ∧ Lexes s (.date s) ∧ datetimeFromStr s = some t := by
  obtain ⟨s, h1, h2, h3⟩ := C03.naive_roundtrip t h.1 h.2.1
  have e : ({ t with micro := 0 } : DateTime) = t := by rw [← h.2.2]
  rw [e] at h3
  have e1 : datetimeToIso t = some (isoformat t ++ ['Z']) := by
    have : toNaiveUtc t = some t := by unfold toNaiveUtc; rw [h.2.1]
    unfold datetimeToIso
    rw [this, Option.map_some, e]
  refine ⟨s, h1, ?_, h3⟩
  rw [e1] at h1
  simp only [Option.some.injEq] at h1
  subst h1
  obtain ⟨⟨hy1, hy2, hm1, hm2, hd1, hd2, hh, hmi, hs, _⟩, _, _⟩ := h
  have hd3 : t.day ≤ 31 := by
    have : ∀ l : Bool, ∀ m : Nat, m ≤ 12 → daysInMonth l m ≤ 31 := by decide
    exact Nat.le_trans hd2 (this _ _ hm2)
  have a1 := date_digit (t.year / 1000) (by omega)
  have a2 := date_digit (t.year / 100 % 10) (by omega)
  have a3 := date_digit (t.year / 10 % 10) (by omega)
  have a4 := date_digit (t.year % 10) (by omega)
  have b1 := date_digit (t.month / 10) (by omega)
  have b2 := date_digit (t.month % 10) (by omega)
  have c1 := date_digit (t.day / 10) (by omega)
  have c2 := date_digit (t.day % 10) (by omega)
  have d1 := date_digit (t.hour / 10) (by omega)
  have d2 := date_digit (t.hour % 10) (by omega)
  have f1 := date_digit (t.minute / 10) (by omega)
  have f2 := date_digit (t.minute % 10) (by omega)
  have g1 := date_digit (t.second / 10) (by omega)
  have g2 := date_digit (t.second % 10) (by omega)
  have sp : isPySpace (digitChar (t.year / 1000)) = false := by
    have : ∀ k : Nat, k < 10 → isPySpace (digitChar k) = false := by decide +kernel
    exact this _ (by omega)
  unfold isoformat fmt4 fmt2
  refine lexes_dated a1 ?_ ?_
  · exact strip_of_ends sp (by decide)
  · intro r
    exact match_iso a1 a2 a3 a4 b1 b2 c1 c2 d1 d2 f1 f2 g1 g2 _

/-! ### Checksums -/

private theorem find_name (a : ChecksumAlgorithm) (w : Str) :
    (checksumNames.find? fun n => startsWith (C06.specName a ++ ':' :: w) (n ++ [':'])) = some (C06.specName a) := by
  cases a <;> rfl

theorem specName_apart (a : ChecksumAlgorithm) : Apart s%"<text>" (C06.specName a) = true := by cases a <;> decide +kernel

theorem lexes_checksum (a : ChecksumAlgorithm) {v : Str} (hv : v ≠ []) (hh : ∀ c ∈ v, isLowerHex c = true) :
    Lexes (C06.specName a ++ s%": " ++ v) (.checksum (C06.specName a ++ s%": " ++ v)) := by
  have hsp : ∀ c, isLowerHex c = true → isPySpace c = false := by
    intro c hc
    have hlt : c.toNat < 128 := by
      unfold isLowerHex at hc
      simp only [Bool.or_eq_true, Bool.and_eq_true, decide_eq_true_eq] at hc
      rcases hc with hc | hc
      · exact isDigit09_lt hc
      · have : 'f'.toNat = 102 := rfl
        omega
    revert hc
    exact char_below (P := fun c => isLowerHex c = true → isPySpace c = false) 128 (by decide +kernel) c hlt
  have hhead : ∃ c m, C06.specName a = c :: m ∧ isPySpace c = false := by
    cases a <;> exact ⟨_, _, rfl, by decide⟩
  obtain ⟨c, m, e, hc⟩ := hhead
  obtain ⟨d, n, en, hd⟩ : ∃ d n, v = n ++ [d] ∧ isLowerHex d = true :=
    ⟨_, _, (List.dropLast_concat_getLast hv).symm, hh _ (List.getLast_mem hv)⟩
  have hs : strip (C06.specName a ++ s%": " ++ v) = C06.specName a ++ s%": " ++ v := by
    have := strip_of_ends (c := c) (d := d) (m := m ++ s%": " ++ n) hc (hsp d hd)
    simpa [e, en] using this
  intro r
  unfold lexValue
  simp only
  rw [dropWhile_space_line (by simp) hs]
  have e1 : C06.specName a ++ s%": " ++ v ++ '\n' :: r = C06.specName a ++ ':' :: (' ' :: (v ++ '\n' :: r)) := by simp
  rw [e1, dropPrefix?_apart (specName_apart a)]
  simp only
  unfold matchChecksum
  rw [find_name]
  simp only [Option.map_some]
  have e2 : (C06.specName a ++ ':' :: (' ' :: (v ++ '\n' :: r))).drop ((C06.specName a).length + 1) = ' ' :: (v ++ '\n' :: r) := by
    rw [List.drop_append]
    simp
  obtain ⟨h1, h2⟩ := takeWhile_all (r := r) hh (show isLowerHex '\n' = false by decide)
  obtain ⟨x, v', ev⟩ : ∃ x v', v = x :: v' := by cases v with
    | nil => exact absurd rfl hv
    | cons x v' => exact ⟨x, v', rfl⟩
  have hx := hsp x (hh x (by simp [ev]))
  have e3 : (' ' :: (v ++ '\n' :: r)).dropWhile isPySpace = v ++ '\n' :: r := by
    rw [ev, List.dropWhile_cons_of_pos (by decide), List.cons_append, List.dropWhile_cons_of_neg (by simp [hx])]
  have e4 : (' ' :: (v ++ '\n' :: r)).takeWhile isPySpace = [' '] := by
    rw [ev, List.takeWhile_cons_of_pos (by decide), List.cons_append, List.takeWhile_cons_of_neg (by simp [hx])]
  rw [e2, e3, e4, h1, h2]
  have e5 : C06.specName a ++ [':'] ++ [' '] ++ v = C06.specName a ++ s%": " ++ v := by simp
  rw [e5, hs]

/-! ### Multi-line texts -/

theorem cutFirst_here (p w r : Str) (c : Char) (q : Str) (hp : p = c :: q) (hc : c ∉ q) (h : ¬ p <:+: w) :
    cutFirst p (w ++ (p ++ r)) = some (w, r) := by
  induction w with
  | nil =>
    subst hp
    have h1 : (c :: q).isPrefixOf (c :: (q ++ r)) = true := List.isPrefixOf_iff_prefix.2 ⟨r, rfl⟩
    have h2 : (c :: (q ++ r)).drop (c :: q).length = r := List.drop_left (l₁ := c :: q)
    rw [List.nil_append, List.cons_append, cutFirst, if_pos h1, h2]
  | cons x w ih =>
    have h1 : ¬ p <:+: w := fun hh => h (hh.trans (List.suffix_cons x w).isInfix)
    rw [List.cons_append, cutFirst, if_neg, ih h1]
    · rfl
    · intro hp'
      have hpre := List.isPrefixOf_iff_prefix.1 hp'
      by_cases hl : p.length ≤ (x :: w).length
      · have : p <+: x :: w := List.prefix_of_prefix_length_le hpre ⟨p ++ r, by simp⟩ hl
        exact h this.isInfix
      · -- `p` would reach into its own copy
        obtain ⟨z, hz⟩ := hpre
        have hlt : (x :: w).length < p.length := by omega
        have h2 : p[(x :: w).length]'hlt = c := by
          have e1 : (p ++ z)[(x :: w).length]? = (x :: (w ++ (p ++ r)))[(x :: w).length]? := by rw [hz]
          rw [List.getElem?_append_left hlt, List.getElem?_eq_getElem hlt] at e1
          have e2 : (x :: (w ++ (p ++ r)))[(x :: w).length]? = some c := by
            rw [← List.cons_append, List.getElem?_append_right (Nat.le_refl _), hp]; simp
          rw [e2] at e1
          exact Option.some.inj e1
        have h3 : c ∈ q := by
          subst hp
          have : (c :: q)[(x :: w).length]'hlt = q[w.length]'(by simpa using hlt) := by simp
          rw [this] at h2
          exact h2 ▸ List.getElem_mem _
        exact hc h3

/-- The text between the markers, and the white space after it, is taken. -/
theorem lexValue_text {v r : Str} (h : ¬ s%"</text>" <:+: v) :
    lexValue (s%" <text>" ++ v ++ s%"</text>" ++ r) = (some (.text (s%"<text>" ++ v ++ s%"</text>")), r.dropWhile isPySpace) := by
  have e1 : (s%" <text>" ++ v ++ s%"</text>" ++ r).dropWhile isPySpace = s%"<text>" ++ (v ++ (s%"</text>" ++ r)) := by
    simp only [List.append_assoc]
    rfl
  unfold lexValue
  simp only
  rw [e1]
  have e2 : dropPrefix? s%"<text>" (s%"<text>" ++ (v ++ (s%"</text>" ++ r))) = some (v ++ (s%"</text>" ++ r)) := by
    unfold dropPrefix?
    rw [if_pos (List.isPrefixOf_iff_prefix.2 ⟨_, rfl⟩), List.drop_left]
  rw [e2]
  simp only
  rw [cutFirst_here s%"</text>" v r '<' s%"/text>" rfl (by decide) h]

theorem cutLast_here (p w : Str) (c : Char) (q : Str) (hp : p = c :: q) : cutLast p (w ++ p) = some w := by
  induction w with
  | nil =>
    subst hp
    have h0 : ∀ s : Str, s.length < (c :: q).length → cutLast (c :: q) s = none := by
      intro s
      induction s with
      | nil => intro; rfl
      | cons x s ih =>
        intro hl
        have := ih (by simp only [List.length_cons] at hl ⊢; omega)
        simp only [cutLast, this]
        rw [if_neg]
        intro hh
        have := (List.isPrefixOf_iff_prefix.1 hh).length_le
        omega
    show (match cutLast (c :: q) q with | some x => some (c :: x) | none => if (c :: q).isPrefixOf (c :: q) = true then some [] else none) = _
    rw [h0 q (by simp)]
    simp only
    rw [if_pos (List.isPrefixOf_iff_prefix.2 (List.prefix_refl _))]
  | cons x w ih =>
    rw [List.cons_append]
    simp only [cutLast, ih]

theorem strFromText_wrapped {v : Str} (hv : v ≠ []) : strFromText (s%"<text>" ++ v ++ s%"</text>") = v := by
  unfold strFromText
  have e : dropPrefix? s%"<text>" (s%"<text>" ++ v ++ s%"</text>") = some (v ++ s%"</text>") := by
    unfold dropPrefix?
    rw [List.append_assoc, if_pos (List.isPrefixOf_iff_prefix.2 ⟨_, rfl⟩), List.drop_left]
  rw [e]
  simp only [Option.bind_some]
  rw [cutLast_here s%"</text>" v '<' s%"/text>" rfl]
  cases v with
  | nil => exact absurd rfl hv
  | cons c v => rfl

end Spdx
