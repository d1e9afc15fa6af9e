import Verif.Spec.TvLines
import Verif.Lemmas.QuietLines
/-
Lemmas for C88: the tokens of a line do not depend on the blanks in it, nor on what follows it.
-/
namespace Spdx.TvLines
open Spec Quiet

/-- What follows on a line after the last character that is not blank, and after the line. -/
structure Tail (w x : Str) : Prop where
  blanks : Blanks w
  over : LineOver x

theorem Tail.head {w x : Str} (h : Tail w x) {c : Char} (hc : (w ++ x).head? = some c) : c = ' ' ∨ c = '\t' ∨ c = '\n' := by
  cases w with
  | nil =>
    rcases h.over with rfl | hx
    · cases hc
    · rw [List.nil_append, hx] at hc
      cases hc; simp
  | cons d w =>
    cases hc
    rcases h.blanks _ List.mem_cons_self with h | h <;> simp [h]

theorem stop {p : Char → Bool} (hp : p ' ' = false ∧ p '\t' = false ∧ p '\n' = false) {w x : Str} (h : Tail w x) (a : Str) :
    (a ++ (w ++ x)).takeWhile p = a.takeWhile p ∧ (a ++ (w ++ x)).dropWhile p = a.dropWhile p ++ (w ++ x) := by
  rcases all_or p a with ha | ha
  · have h1 := while_all ha []
    simp only [List.append_nil, List.takeWhile_nil, List.dropWhile_nil] at h1
    rw [(while_all ha _).1, (while_all ha _).2, h1.1, h1.2]
    cases hy : w ++ x with
    | nil => simp
    | cons c y =>
      have hc : p c = false := by
        rcases h.head (c := c) (by rw [hy]; rfl) with rfl | rfl | rfl
        · exact hp.1
        · exact hp.2.1
        · exact hp.2.2
      simp [hc]
  · exact while_stop ha _

theorem prefix_stop {p : Str} (hp : ∀ c ∈ p, c ≠ ' ' ∧ c ≠ '\t' ∧ c ≠ '\n') {w x : Str} (h : Tail w x) (v : Str) :
    p.isPrefixOf (v ++ (w ++ x)) = p.isPrefixOf v := by
  induction p generalizing v with
  | nil => simp
  | cons d p ih =>
    cases v with
    | nil =>
      cases hy : w ++ x with
      | nil => rfl
      | cons c y =>
        have hd := hp d List.mem_cons_self
        have : d ≠ c := by
          rcases h.head (c := c) (by rw [hy]; rfl) with rfl | rfl | rfl
          · exact hd.1
          · exact hd.2.1
          · exact hd.2.2
        simp [List.isPrefixOf, this]
    | cons c v =>
      rw [List.cons_append, List.isPrefixOf, List.isPrefixOf, ih fun c hc => hp c (List.mem_cons_of_mem _ hc)]

theorem names_plain : ∀ n ∈ checksumNames, ∀ c ∈ n ++ [':'], c ≠ ' ' ∧ c ≠ '\t' ∧ c ≠ '\n' := by decide +kernel

theorem find_stop {w x : Str} (h : Tail w x) (v : Str) :
    (checksumNames.find? fun n => startsWith (v ++ (w ++ x)) (n ++ [':'])) = checksumNames.find? fun n => startsWith v (n ++ [':']) := by
  have : ∀ l : List Str, (∀ n ∈ l, ∀ c ∈ n ++ [':'], c ≠ ' ' ∧ c ≠ '\t' ∧ c ≠ '\n') →
      (l.find? fun n => startsWith (v ++ (w ++ x)) (n ++ [':'])) = l.find? fun n => startsWith v (n ++ [':']) := by
    intro l
    induction l with
    | nil => intro _; rfl
    | cons n l ih =>
      intro hl
      rw [List.find?_cons, List.find?_cons, ih fun m hm => hl m (List.mem_cons_of_mem _ hm)]
      unfold startsWith
      rw [prefix_stop (hl n List.mem_cons_self) h v]
  exact this _ names_plain

theorem date_stop {ps : Str} (hp : ∀ c ∈ ps, c ≠ ' ' ∧ c ≠ '\t' ∧ c ≠ '\n') {w x : Str} (h : Tail w x) (v : Str) :
    matchDatePat ps (v ++ (w ++ x)) = (matchDatePat ps v).map fun z => (z.1, z.2 ++ (w ++ x)) := by
  induction ps generalizing v with
  | nil => rfl
  | cons d ps ih =>
    cases v with
    | nil =>
      cases hy : w ++ x with
      | nil => rfl
      | cons c y =>
        have hd := hp d List.mem_cons_self
        have : dateChar d c = false := by
          unfold dateChar
          rcases h.head (c := c) (by rw [hy]; rfl) with rfl | rfl | rfl
          · split
            · decide
            · simpa using hd.1.symm
          · split
            · decide
            · simpa using hd.2.1.symm
          · split
            · decide
            · simpa using hd.2.2.symm
        simp [matchDatePat, this]
    | cons c v =>
      rw [List.cons_append, matchDatePat, matchDatePat, ih fun c hc => hp c (List.mem_cons_of_mem _ hc)]
      split
      · cases matchDatePat ps v <;> rfl
      · rfl

/-- What is left of a line value: nothing, or something that ends as the value does. -/
structure Left (u : Str) : Prop where
  one_line : '\n' ∉ u
  no_text : ¬ s%"<text>" <:+: u
  last : u = [] ∨ ∃ c, u.getLast? = some c ∧ isPySpace c = false ∧ c ≠ ':'

theorem Left.suffix {u u' : Str} (h : Left u) (hs : u' <:+ u) : Left u' := by
  refine ⟨fun e => h.one_line (hs.subset e), fun e => h.no_text (e.trans hs.isInfix), ?_⟩
  rcases h.last with rfl | ⟨c, hc, h1⟩
  · exact .inl (List.suffix_nil.1 hs)
  · by_cases hn : u' = []
    · exact .inl hn
    · obtain ⟨l, rfl⟩ := hs
      rw [List.getLast?_append, List.getLast?_eq_some_getLast hn, Option.some_or, ← List.getLast?_eq_some_getLast hn] at hc
      exact .inr ⟨c, hc, h1⟩

theorem Left.visible {u : Str} (h : Left u) (hn : u ≠ []) : ∃ c ∈ u, isPySpace c = false := by
  obtain ⟨c, hc, h1, _⟩ := h.last.resolve_left hn
  exact ⟨c, List.mem_of_getLast? hc, h1⟩

/-- A prefix ending with a colon is not all. -/
theorem Left.more {u p : Str} (h : Left u) (hp : (p ++ [':']).isPrefixOf u = true) : u.drop (p.length + 1) ≠ [] := by
  obtain ⟨r, rfl⟩ := List.isPrefixOf_iff_prefix.1 hp
  intro e
  have : r = [] := by
    rw [show p.length + 1 = (p ++ [':']).length by simp, List.drop_left] at e
    exact e
  subst this
  obtain ⟨c, hc, _, h2⟩ := h.last.resolve_left (by simp)
  simp at hc
  exact h2 hc.symm

/-- Blanks after a colon, on its line. -/
def Gap (g : Str) : Prop := ∀ c ∈ g, isPySpace c = true ∧ c ≠ '\n'

theorem gap_of_blanks {g : Str} (h : Blanks g) : Gap g := by
  intro c hc
  rcases h c hc with rfl | rfl <;> decide

/-- How a value is read whatever the blanks before and after it: a token, after which a rest of the value, or nothing, is left of the line. -/
def Steady (v : Str) : Prop :=
  ∃ t, (∃ r, r <:+ v ∧ ∀ g w x, Gap g → Tail w x → lexValue (g ++ (v ++ (w ++ x))) = (t, r ++ (w ++ x))) ∨
    ∀ g w x, Gap g → Tail w x → lexValue (g ++ (v ++ (w ++ x))) = (t, x)

theorem dots {v w x : Str} (hv : '\n' ∉ v) (h : Tail w x) : (v ++ (w ++ x)).takeWhile isDot = v ++ w ∧ (v ++ (w ++ x)).dropWhile isDot = x := by
  have hv' : ∀ c ∈ v ++ w, isDot c = true := by
    intro c hc
    have : c ≠ '\n' := by
      rcases List.mem_append.1 hc with hc | hc
      · rintro rfl; exact hv hc
      · rintro rfl
        rcases h.blanks _ hc with h | h <;> exact absurd h (by decide)
    simpa [isDot] using this
  rw [← List.append_assoc, (while_all hv' x).1, (while_all hv' x).2]
  rcases h.over with rfl | hx
  · simp
  · cases x with
    | nil => cases hx
    | cons c x => cases hx; simp [isDot]

theorem actor_stop {p : Str} (hp : ∀ c ∈ p ++ [':'], c ≠ ' ' ∧ c ≠ '\t' ∧ c ≠ '\n') {v : Str} (hv : Left v) :
    (∃ m, (∃ c ∈ m, isPySpace c = false) ∧ ∀ w x, Tail w x → matchActor (p ++ [':']) (v ++ (w ++ x)) = some (m ++ w, x)) ∨
      ∀ w x, Tail w x → matchActor (p ++ [':']) (v ++ (w ++ x)) = none := by
  by_cases h : (p ++ [':']).isPrefixOf v = true
  · refine .inl ⟨p ++ [':'] ++ v.drop (p.length + 1), ⟨':', by simp, by decide⟩, fun w x ht => ?_⟩
    have hm := hv.more h
    have hl : (p ++ [':']).length ≤ v.length := prefix_length h
    have hd : (v ++ (w ++ x)).drop (p ++ [':']).length = v.drop (p.length + 1) ++ (w ++ x) := by
      rw [List.drop_append_of_le_length hl]
      simp
    have hn : '\n' ∉ v.drop (p.length + 1) := fun e => hv.one_line (List.mem_of_mem_drop e)
    unfold matchActor
    rw [hd, (dots hn ht).1, (dots hn ht).2, if_pos]
    · simp
    · refine ⟨by unfold startsWith; rw [prefix_stop hp ht]; exact h, ?_⟩
      intro e
      exact hm (List.append_eq_nil_iff.1 e).1
  · refine .inr fun w x ht => ?_
    unfold matchActor
    rw [if_neg]
    rintro ⟨h', _⟩
    unfold startsWith at h'
    rw [prefix_stop hp ht] at h'
    exact h h'

theorem value_steady {v : Str} (hv : Left v) (hf : ∃ c, v.head? = some c ∧ isPySpace c = false) : Steady v := by
  obtain ⟨c0, hc0, hs0⟩ := hf
  have hne : v ≠ [] := by rintro rfl; cases hc0
  have hdrop : ∀ g w x, Gap g → (g ++ (v ++ (w ++ x))).dropWhile isPySpace = v ++ (w ++ x) := by
    intro g w x hg
    rw [(while_all (fun c hc => (hg c hc).1) _).2]
    cases v with
    | nil => cases hc0
    | cons c v => cases hc0; simp [hs0]
  have hnt : ∀ w x, Tail w x → dropPrefix? s%"<text>" (v ++ (w ++ x)) = none := by
    intro w x ht
    unfold dropPrefix?
    rw [prefix_stop (by decide) ht, if_neg]
    intro e
    exact hv.no_text (List.isPrefixOf_iff_prefix.1 e).isInfix
  cases hfind : checksumNames.find? fun n => startsWith v (n ++ [':']) with
  | some n =>
    have hp : (n ++ [':']).isPrefixOf v = true := by simpa [startsWith] using List.find?_some hfind
    have hm := hv.more hp
    have hl : n.length + 1 ≤ v.length := by simpa using prefix_length hp
    have hd := hv.suffix (List.drop_suffix (n.length + 1) v)
    have hvis := hd.visible hm
    refine ⟨some (.checksum (strip (n ++ [':'] ++ (v.drop (n.length + 1)).takeWhile isPySpace ++ ((v.drop (n.length + 1)).dropWhile isPySpace).takeWhile isLowerHex))),
      .inl ⟨((v.drop (n.length + 1)).dropWhile isPySpace).dropWhile isLowerHex, ?_, fun g w x hg ht => ?_⟩⟩
    · exact (List.dropWhile_suffix _).trans ((List.dropWhile_suffix _).trans (List.drop_suffix _ _))
    · have hc : matchChecksum (v ++ (w ++ x)) =
          some (n ++ [':'] ++ (v.drop (n.length + 1)).takeWhile isPySpace ++ ((v.drop (n.length + 1)).dropWhile isPySpace).takeWhile isLowerHex,
            ((v.drop (n.length + 1)).dropWhile isPySpace).dropWhile isLowerHex ++ (w ++ x)) := by
        unfold matchChecksum
        rw [find_stop ht, hfind]
        simp only [Option.map_some]
        rw [List.drop_append_of_le_length hl, (while_stop hvis _).1, (while_stop hvis _).2, (stop (by decide) ht _).1, (stop (by decide) ht _).2]
      rw [lexValue_cases, hdrop g w x hg, special, hnt w x ht]
      simp only [hc]
      rfl
  | none =>
    have hc : ∀ w x, Tail w x → matchChecksum (v ++ (w ++ x)) = none := by
      intro w x ht
      unfold matchChecksum
      rw [find_stop ht, hfind]
      rfl
    rcases actor_stop (p := s%"Tool") (by decide) hv with ⟨m, hm, h1⟩ | h1
    · refine ⟨some (.tool (strip m)), .inr fun g w x hg ht => ?_⟩
      have := h1 w x ht
      rw [lexValue_cases, hdrop g w x hg, special, hnt w x ht]
      simp only [hc w x ht]
      rw [show s%"Tool:" = s%"Tool" ++ [':'] from rfl, this, ← strip_spaces m w (blank_space ht.blanks) hm]
      rfl
    rcases actor_stop (p := s%"Organization") (by decide) hv with ⟨m, hm, h2⟩ | h2
    · refine ⟨some (.org (strip m)), .inr fun g w x hg ht => ?_⟩
      have := h2 w x ht
      rw [lexValue_cases, hdrop g w x hg, special, hnt w x ht]
      simp only [hc w x ht]
      rw [show s%"Tool:" = s%"Tool" ++ [':'] from rfl, h1 w x ht, show s%"Organization:" = s%"Organization" ++ [':'] from rfl, this,
        ← strip_spaces m w (blank_space ht.blanks) hm]
      rfl
    rcases actor_stop (p := s%"Person") (by decide) hv with ⟨m, hm, h3⟩ | h3
    · refine ⟨some (.person (strip m)), .inr fun g w x hg ht => ?_⟩
      have := h3 w x ht
      rw [lexValue_cases, hdrop g w x hg, special, hnt w x ht]
      simp only [hc w x ht]
      rw [show s%"Tool:" = s%"Tool" ++ [':'] from rfl, h1 w x ht, show s%"Organization:" = s%"Organization" ++ [':'] from rfl, h2 w x ht,
        show s%"Person:" = s%"Person" ++ [':'] from rfl, this, ← strip_spaces m w (blank_space ht.blanks) hm]
      rfl
    have hd : ∀ w x, Tail w x → matchDate (v ++ (w ++ x)) = (matchDate v).map fun z => (z.1, z.2 ++ (w ++ x)) :=
      fun w x ht => date_stop (by decide) ht v
    have hspecial : ∀ w x, Tail w x → special (v ++ (w ++ x)) = (matchDate v).map fun z => (some (.date (strip z.1)), z.2 ++ (w ++ x)) := by
      intro w x ht
      rw [special, hnt w x ht]
      simp only [hc w x ht]
      rw [show s%"Tool:" = s%"Tool" ++ [':'] from rfl, h1 w x ht, show s%"Organization:" = s%"Organization" ++ [':'] from rfl, h2 w x ht,
        show s%"Person:" = s%"Person" ++ [':'] from rfl, h3 w x ht, hd w x ht]
      cases matchDate v <;> rfl
    cases hdate : matchDate v with
    | some z =>
      obtain ⟨m, r⟩ := z
      refine ⟨some (.date (strip m)), .inl ⟨r, ?_, fun g w x hg ht => ?_⟩⟩
      · exact ⟨m, (date_suffix _ hdate).1.symm⟩
      · rw [lexValue_cases, hdrop g w x hg, hspecial w x ht, hdate]
        rfl
    | none =>
      refine ⟨some (reservedTok (strip v) (.line (strip v))), .inr fun g w x hg ht => ?_⟩
      have hn : '\n' ∉ g ++ v := by
        intro e
        rcases List.mem_append.1 e with e | e
        · exact (hg _ e).2 rfl
        · exact hv.one_line e
      have hstrip : strip (g ++ v ++ w) = strip v := by
        rw [strip_spaces (g ++ v) w (blank_space ht.blanks) (by
          obtain ⟨c, hc, h⟩ := hv.visible hne
          exact ⟨c, List.mem_append_right _ hc, h⟩)]
        unfold strip lstrip
        rw [(while_all (fun c hc => (hg c hc).1) _).2]
      rw [lexValue_cases, hdrop g w x hg, hspecial w x ht, hdate, Option.map_none, Option.getD_none, ordinary, ← List.append_assoc g v,
        (dots hn ht).1, (dots hn ht).2, if_neg (by
          intro e
          exact hne (List.append_eq_nil_iff.1 (List.append_eq_nil_iff.1 e).1).2), hstrip]

theorem word_step {k : Str} (hk : TagWord k) {y : Str} (hy : ∀ c, y.head? = some c → isLetterAZ c = false) :
    lexOne (k ++ y) = some (some (reservedTok k (.unknown k)), y) := by
  obtain ⟨hn, hk⟩ := hk
  cases k with
  | nil => exact absurd rfl hn
  | cons c k =>
    have hcl := hk c List.mem_cons_self
    have hcc : c ≠ ':' := by rintro rfl; exact absurd hcl (by decide)
    rw [List.cons_append, lexOne, if_neg hcc, if_pos hcl, ← List.cons_append, (while_all hk _).1, (while_all hk _).2]
    cases y with
    | nil => simp
    | cons d y => simp [hy d rfl]

/-- The tokens of what is left of a line do not depend on the blanks at its end, nor on what follows the line. -/
theorem left_tokens {u : Str} (hu : Left u) : ∃ ts, ∀ w x, Tail w x → lex (u ++ (w ++ x)) = ts ++ lex x := by
  induction hn : u.length using Nat.strongRecOn generalizing u with
  | _ n ih =>
  subst hn
  cases u with
  | nil => exact ⟨[], fun w x ht => lex_blanks ht.blanks x⟩
  | cons c u =>
    have hsuf : ∀ {r : Str}, r <:+ u → ∃ ts, ∀ w x, Tail w x → lex (r ++ (w ++ x)) = ts ++ lex x := fun hr =>
      ih _ (Nat.lt_succ_of_le hr.length_le) (hu.suffix (hr.trans (List.suffix_cons c u))) rfl
    by_cases h1 : c = ':'
    · subst h1
      have hne : u ≠ [] := by
        rintro rfl
        obtain ⟨c, hc, _, h2⟩ := hu.last.resolve_left (by simp)
        simp at hc
        exact h2 hc.symm
      have hl := hu.suffix (List.suffix_cons ':' u)
      have hvis := hl.visible hne
      have hsplit : u = u.takeWhile isPySpace ++ u.dropWhile isPySpace := (List.takeWhile_append_dropWhile).symm
      have hgap : Gap (u.takeWhile isPySpace) := by
        intro c hc
        have h := List.all_eq_true.1 List.all_takeWhile c hc
        refine ⟨h, ?_⟩
        rintro rfl
        exact hl.one_line (List.takeWhile_subset _ hc)
      have hd := hl.suffix (List.dropWhile_suffix isPySpace)
      have hne' : u.dropWhile isPySpace ≠ [] := by
        intro e
        obtain ⟨c, hc, h⟩ := hvis
        rw [hsplit, e, List.append_nil] at hc
        rw [(hgap c hc).1] at h; cases h
      have hf : ∃ c, (u.dropWhile isPySpace).head? = some c ∧ isPySpace c = false := by
        cases hdw : u.dropWhile isPySpace with
        | nil => exact absurd hdw hne'
        | cons c r =>
          refine ⟨c, rfl, ?_⟩
          have := List.head?_dropWhile_not isPySpace u
          rw [hdw] at this
          simpa using this
      obtain ⟨t, h | h⟩ := value_steady hd hf
      · obtain ⟨r, hr, h⟩ := h
        obtain ⟨ts, hts⟩ := hsuf (hr.trans (List.dropWhile_suffix _))
        refine ⟨t.toList ++ ts, fun w x ht => ?_⟩
        have := h _ w x hgap ht
        rw [← List.append_assoc (u.takeWhile isPySpace), ← hsplit] at this
        rw [List.cons_append, lex_value, this, hts w x ht, List.append_assoc]
      · refine ⟨t.toList, fun w x ht => ?_⟩
        have := h _ w x hgap ht
        rw [← List.append_assoc (u.takeWhile isPySpace), ← hsplit] at this
        rw [List.cons_append, lex_value, this]
    by_cases h2 : isLetterAZ c = true
    · obtain ⟨ts, hts⟩ := hsuf (r := u.dropWhile isLetterAZ) (List.dropWhile_suffix _)
      refine ⟨reservedTok ((c :: u).takeWhile isLetterAZ) (.unknown ((c :: u).takeWhile isLetterAZ)) :: ts, fun w x ht => ?_⟩
      have e := stop (p := isLetterAZ) (by decide) ht (c :: u)
      have : lexOne (c :: u ++ (w ++ x)) = some (some (reservedTok ((c :: u).takeWhile isLetterAZ) (.unknown ((c :: u).takeWhile isLetterAZ))),
          u.dropWhile isLetterAZ ++ (w ++ x)) := by
        rw [List.cons_append, lexOne, if_neg h1, if_pos h2, ← List.cons_append, e.1, e.2, List.dropWhile_cons_of_pos h2]
      rw [lex_step this, hts w x ht]
      rfl
    by_cases h3 : c = '#'
    · subst h3
      refine ⟨[], fun w x ht => ?_⟩
      have hn : '\n' ∉ u := fun e => hu.one_line (List.mem_cons_of_mem _ e)
      have : lexOne ('#' :: (u ++ (w ++ x))) = some (none, x) := by
        rw [lexOne, if_neg h1, if_neg h2, if_pos rfl, (dots hn ht).2]
      rw [List.cons_append, lex_step this]
      rfl
    by_cases h4 : c = ' ' ∨ c = '\t'
    · obtain ⟨ts, hts⟩ := hsuf (List.suffix_refl u)
      refine ⟨ts, fun w x ht => ?_⟩
      rw [List.cons_append, lex_blank c h4, hts w x ht]
    · have h5 : c ≠ '\n' := by rintro rfl; exact hu.one_line List.mem_cons_self
      obtain ⟨ts, hts⟩ := hsuf (List.suffix_refl u)
      refine ⟨.error :: ts, fun w x ht => ?_⟩
      have : lexOne (c :: (u ++ (w ++ x))) = some (some .error, u ++ (w ++ x)) := by
        rw [lexOne, if_neg h1, if_neg h2, if_neg h3, if_neg h5, if_neg h4]
      rw [List.cons_append, lex_step this, hts w x ht]
      rfl

theorem not_letter {g y : Str} (hg : Blanks g) (c : Char) (h : (g ++ ':' :: y).head? = some c) : isLetterAZ c = false := by
  cases g with
  | nil => cases h; decide
  | cons d g =>
    cases h
    rcases hg _ List.mem_cons_self with rfl | rfl <;> decide

theorem before_value {i k g : Str} (hi : Blanks i) (hk : TagWord k) (hg : Blanks g) (y : Str) :
    lex (i ++ (k ++ (g ++ ':' :: y))) = reservedTok k (.unknown k) :: lex (':' :: y) := by
  rw [lex_blanks hi, lex_step (word_step hk (not_letter hg)), lex_blanks hg]
  rfl

/-- The tokens of a line with a value. -/
theorem line_tokens (k : Str) {v : Str} (hv : LineValue v) : ∃ ts, ∀ i g h w x, TagWord k → Blanks i → Blanks g → Blanks h → Tail w x →
    lex (i ++ (k ++ (g ++ ':' :: (h ++ (v ++ (w ++ x)))))) = ts ++ lex x := by
  have hl : Left v := ⟨hv.one_line, hv.no_text, .inr hv.last⟩
  obtain ⟨t, h | h⟩ := value_steady hl hv.first
  · obtain ⟨r, hr, h⟩ := h
    obtain ⟨ts, hts⟩ := left_tokens (hl.suffix hr)
    refine ⟨reservedTok k (.unknown k) :: (t.toList ++ ts), fun i g h' w x hk hi hg hh ht => ?_⟩
    rw [before_value hi hk hg, lex_value, h _ w x (gap_of_blanks hh) ht, hts w x ht]
    simp
  · refine ⟨reservedTok k (.unknown k) :: t.toList, fun i g h' w x hk hi hg hh ht => ?_⟩
    rw [before_value hi hk hg, lex_value, h _ w x (gap_of_blanks hh) ht]
    simp

theorem letter_space {c : Char} (h : isLetterAZ c = true) : ¬ isPySpace c = true := by
  intro hs
  have h' : 65 ≤ c.toNat ∧ c.toNat ≤ 122 := by
    simp only [isLetterAZ, isLowerAZ, isUpperAZ, Bool.or_eq_true, Bool.and_eq_true, decide_eq_true_eq] at h
    have e1 : 'a'.toNat = 97 := rfl
    have e2 : 'z'.toNat = 122 := rfl
    have e3 : 'A'.toNat = 65 := rfl
    have e4 : 'Z'.toNat = 90 := rfl
    omega
  have : ∀ n ∈ [0x9, 0xa, 0xb, 0xc, 0xd, 0x1c, 0x1d, 0x1e, 0x1f, 0x20, 0x85, 0xa0, 0x1680, 0x2000, 0x2001, 0x2002, 0x2003, 0x2004,
      0x2005, 0x2006, 0x2007, 0x2008, 0x2009, 0x200a, 0x2028, 0x2029, 0x202f, 0x205f, 0x3000], ¬ (65 ≤ n ∧ n ≤ 122) := by decide
  exact this _ (List.contains_iff_mem.1 hs) h'

/-- After white space, a text with entries reads the same. -/
theorem entries_space {es : List (Str × Str)} {t : Str} (h : Entries es t) : lex (t.dropWhile isPySpace) = lex t := by
  have blanks : ∀ {w b : Str}, Blanks w → lex (b.dropWhile isPySpace) = lex b → lex ((w ++ b).dropWhile isPySpace) = lex (w ++ b) := by
    intro w b hw hb
    rw [(while_all (blank_space hw) _).2, lex_blanks hw, hb]
  have word : ∀ {k y : Str}, TagWord k → (k ++ y).dropWhile isPySpace = k ++ y := by
    intro k y hk
    cases k with
    | nil => exact absurd rfl hk.1
    | cons c k =>
      have hc := hk.2 c List.mem_cons_self
      have : isPySpace c = false := by
        cases hs : isPySpace c with
        | false => rfl
        | true => exact absurd hs (letter_space hc)
      rw [List.cons_append, List.dropWhile_cons_of_neg (by simp [this])]
  induction h with
  | @done w hw => simpa using blanks (b := []) hw rfl
  | @remark w body hw hb => exact blanks hw rfl
  | @quiet c t es hc _ ih =>
    have hl := like_quiet hc t
    rcases hl.start with h | ⟨z, h, hz⟩
    · rw [h, ih, hl.tokens]
    · rw [h, hz, hl.tokens]
  | line hi hk _ _ _ _ _ _ _ => exact blanks hi (by rw [word hk])
  | text hi hk _ _ _ _ _ _ _ => exact blanks hi (by rw [word hk])

/-- The tokens of a text in `<text>` and `</text>`. -/
theorem text_tokens {i k g h content w x : Str} {es : List (Str × Str)} (hi : Blanks i) (hk : TagWord k) (hg : Blanks g)
    (hh : ∀ c ∈ h, isPySpace c = true) (hc : ¬ s%"</text>" <:+: content ++ s%"</text") (hw : Blanks w) (hx : Entries es x) :
    lex (i ++ (k ++ (g ++ ':' :: (h ++ (s%"<text>" ++ (content ++ s%"</text>" ++ (w ++ x))))))) =
      reservedTok k (.unknown k) :: .text (s%"<text>" ++ content ++ s%"</text>") :: lex x := by
  have e : lexValue (h ++ (s%"<text>" ++ (content ++ s%"</text>" ++ (w ++ x)))) =
      (some (.text (s%"<text>" ++ content ++ s%"</text>")), x.dropWhile isPySpace) := by
    rw [lexValue_cases, (while_all hh _).2]
    have e2 : (s%"<text>" ++ (content ++ s%"</text>" ++ (w ++ x))).dropWhile isPySpace = s%"<text>" ++ (content ++ s%"</text>" ++ (w ++ x)) := rfl
    rw [e2, special, drop_prefix]
    simp only
    rw [cut_first (no_close hc)]
    simp only
    rw [(while_all (blank_space hw) _).2]
    rfl
  rw [before_value hi hk hg, lex_value, e, entries_space hx]
  rfl

/-- A text with entries has the tokens of the entries, each by itself. -/
theorem entries_tokens {es : List (Str × Str)} {t : Str} (h : Entries es t) : lex t = es.flatMap fun e => lex (e.1 ++ ':' :: e.2) := by
  have nothing : Tail [] [] := ⟨(by intro c hc; cases hc), .inl rfl⟩
  have none : Blanks [] := by intro c hc; cases hc
  induction h with
  | @done w hw => simpa [lex_nil] using lex_blanks hw []
  | @remark w body hw hb =>
    rw [lex_blanks hw]
    have : lexOne ('#' :: body) = some (Option.none, []) := by
      have := (dots hb nothing).2
      simp only [List.append_nil] at this
      rw [lexOne, if_neg (by decide), if_neg (by decide), if_pos rfl, this]
    rw [lex_step this]
    rfl
  | quiet hc _ ih => rw [(like_quiet hc _).tokens, ih]
  | @line i k g h v w x es hi hk hg hh hv hw hx _ ih =>
    obtain ⟨ts, hts⟩ := line_tokens k hv
    have h0 := hts [] [] [] [] [] hk none none none nothing
    simp only [List.append_nil, List.nil_append, lex_nil] at h0
    rw [hts i g h w x hk hi hg hh ⟨hw, hx⟩, List.flatMap_cons, ih, h0]
  | @text i k g h content w x es hi hk hg hh hc hw hx hes ih =>
    have h0 := text_tokens (i := []) (g := []) (h := []) (w := []) none hk none (by simp) hc none (.done none)
    simp only [List.append_nil, List.nil_append, lex_nil] at h0
    rw [text_tokens hi hk hg hh hc hw hes, List.flatMap_cons, ih]
    rw [List.append_assoc, h0, ← List.append_assoc]
    rfl

end Spdx.TvLines
