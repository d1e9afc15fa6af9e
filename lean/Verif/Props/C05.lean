import Verif.Model.Actor
import Verif.Lemmas.Text
/-
C05 – Creator/annotator text round-trips.
-/
namespace Spdx.C05
open Spdx

/-! ### Specification -/

/-- No white space at either end. -/
def Trimmed (s : Str) : Prop := (∀ c r, s = c :: r → isPySpace c = false) ∧ (∀ c r, s = r ++ [c] → isPySpace c = false)

/-- The text ends in a parenthesised group, `…(…)`. -/
def EndsInParens (s : Str) : Prop := ∃ x y : Str, s = x ++ '(' :: y ++ [')']

/-- The actors that the text form can express: a trimmed, non-empty, one-line name; a tool has no e-mail; an e-mail is
    trimmed, non-empty, one-line and has no opening parenthesis; a name without e-mail does not end in `(…)`. -/
def Expressible (a : Actor) : Prop :=
  a.name ≠ [] ∧ Trimmed a.name ∧ '\n' ∉ a.name ∧
    match a.email with
    | none => a.actorType = .TOOL ∨ ¬ EndsInParens a.name
    | some e => a.actorType ≠ .TOOL ∧ e ≠ [] ∧ Trimmed e ∧ '\n' ∉ e ∧ '(' ∉ e

/-! ### Helper lemmas -/

private theorem trimmed_iff (s : Str) : Trimmed s ↔ strip s = s := (strip_eq_self_iff s).symm

private theorem dropFinalNl_of (s : Str) (h : '\n' ∉ s) : dropFinalNl s = s := by
  unfold dropFinalNl
  split
  · rename_i r hr
    have : '\n' ∈ s.reverse := by rw [hr]; simp
    exact absurd (by simpa using this) h
  · rfl

private theorem dropFinalNl_prefix (s : Str) : dropFinalNl s <+: s := by
  unfold dropFinalNl
  split
  · rename_i r hr
    refine ⟨['\n'], ?_⟩
    have := congrArg List.reverse hr
    simpa using this.symm
  · exact List.prefix_refl _

private theorem dropWhile_eq_nil {sep : Char} {s : Str} (h : s.dropWhile (· ≠ sep) = []) : sep ∉ s := by
  induction s with
  | nil => simp
  | cons d ds ih =>
    by_cases hd : d = sep
    · subst hd; simp at h
    · rw [List.dropWhile_cons, if_pos (by simpa using hd)] at h
      simp only [List.mem_cons, not_or]
      exact ⟨Ne.symm hd, ih h⟩

private theorem mem_takeWhile {p : Char → Bool} {s : Str} {c : Char} (h : c ∈ s.takeWhile p) : p c = true := by
  induction s with
  | nil => simp at h
  | cons d ds ih =>
    rw [List.takeWhile_cons] at h
    split at h
    · rename_i hd
      rcases List.mem_cons.1 h with rfl | h
      · exact hd
      · exact ih h
    · simp at h

private theorem takeWhile_self {p : Char → Bool} {s : Str} (h : ∀ c ∈ s, p c = true) : s.takeWhile p = s := by
  induction s with
  | nil => rfl
  | cons d ds ih =>
    rw [List.takeWhile_cons, if_pos (h d (by simp)), ih (fun c hc => h c (by simp [hc]))]

private theorem splitLast_none (sep : Char) (s : Str) (h : splitLast sep s = none) : sep ∉ s := by
  unfold splitLast at h
  split at h
  · rename_i hn
    have := dropWhile_eq_nil hn
    simpa using this
  · simp at h

private theorem splitLast_some (sep : Char) (s a b : Str) (h : splitLast sep s = some (a, b)) :
    s = a ++ sep :: b ∧ sep ∉ b := by
  unfold splitLast at h
  split at h
  · simp at h
  · rename_i x before hx
    simp only [Option.some.injEq, Prod.mk.injEq] at h
    obtain ⟨rfl, rfl⟩ := h
    have hx' : x = sep := by
      have := dropWhile_head hx
      simpa using this
    subst hx'
    constructor
    · have := List.takeWhile_append_dropWhile (p := fun c => decide (c ≠ x)) (l := s.reverse)
      rw [hx] at this
      have := congrArg List.reverse this
      simpa using this.symm
    · simp only [List.mem_reverse]
      intro hm
      have := mem_takeWhile hm
      simp at this

private theorem splitLast_eq (sep : Char) (a b : Str) (h : sep ∉ b) : splitLast sep (a ++ sep :: b) = some (a, b) := by
  cases hs : splitLast sep (a ++ sep :: b) with
  | none => exact absurd (by simp) (splitLast_none _ _ hs)
  | some p =>
    obtain ⟨a', b'⟩ := p
    obtain ⟨e, h'⟩ := splitLast_some _ _ _ _ hs
    have h1 : b = b' := by
      have hr := congrArg List.reverse e
      simp only [List.reverse_append, List.reverse_cons, List.append_assoc, List.cons_append, List.nil_append] at hr
      have g : ∀ (u v x y : Str), sep ∉ u → sep ∉ v → u ++ sep :: x = v ++ sep :: y → u = v := by
        intro u
        induction u with
        | nil =>
          intro v x y _ hv he
          cases v with
          | nil => rfl
          | cons d ds => simp only [List.nil_append, List.cons_append, List.cons.injEq] at he; simp [← he.1] at hv
        | cons c cs ih =>
          intro v x y hu hv he
          cases v with
          | nil => simp only [List.nil_append, List.cons_append, List.cons.injEq] at he; simp [he.1] at hu
          | cons d ds =>
            simp only [List.cons_append, List.cons.injEq] at he
            simp only [List.mem_cons, not_or] at hu hv
            rw [he.1, ih ds x y hu.2 hv.2 he.2]
      have := g _ _ _ _ (by simpa using h) (by simpa using h') hr
      simpa using this
    subst h1
    simp at e
    rw [e]

private theorem strip_append_space (s : Str) (h : Trimmed s) (h0 : s ≠ []) : strip (s ++ [' ']) = s := by
  obtain ⟨c, r, rfl⟩ := List.exists_cons_of_ne_nil h0
  have hc := h.1 c r rfl
  unfold strip rstrip
  rw [lstrip, List.cons_append, dropWhile_none hc]
  simp only [List.reverse_cons, List.reverse_append, List.reverse_nil, List.nil_append, List.cons_append, List.append_assoc]
  rw [List.dropWhile_cons, if_pos (by decide)]
  have := (trimmed_iff (c :: r)).1 h
  unfold strip rstrip at this
  rw [lstrip, dropWhile_none hc] at this
  simpa using this

/-- The text after the colon, given that the name is expressible. -/
private theorem groups_noEmail (n : Str) (h0 : n ≠ []) (ht : Trimmed n) (hn : '\n' ∉ n) :
    actorGroups (' ' :: n) = match n.reverse with
      | ')' :: r => (match splitLast '(' r.reverse with
        | some (g1, g2) => some (.inl (g1, g2))
        | none => some (.inr n))
      | _ => some (.inr n) := by
  obtain ⟨c, r, rfl⟩ := List.exists_cons_of_ne_nil h0
  have hc := ht.1 c r rfl
  unfold actorGroups
  have hsp : isPySpace ' ' = true := by decide
  rw [List.dropWhile_cons, if_pos hsp, dropWhile_none hc, dropFinalNl_of _ hn]
  simp only [hn, if_false]
  rfl

private theorem groups_email (n e : Str) (h0 : n ≠ []) (ht : Trimmed n) (hn : '\n' ∉ n) (he : '\n' ∉ e) (hp : '(' ∉ e) :
    actorGroups (' ' :: n ++ (s%" (" ++ e ++ [')'])) = some (.inl (n ++ [' '], e)) := by
  obtain ⟨c, r, rfl⟩ := List.exists_cons_of_ne_nil h0
  have hc := ht.1 c r rfl
  have hnl : '\n' ∉ (c :: r) ++ (s%" (" ++ e ++ [')']) := by
    simp only [List.mem_append, not_or, List.mem_cons] at hn ⊢
    simp [hn, he]
  unfold actorGroups
  have hsp : isPySpace ' ' = true := by decide
  rw [List.cons_append, List.dropWhile_cons, if_pos hsp, List.cons_append, dropWhile_none hc, ← List.cons_append,
    dropFinalNl_of _ hnl]
  simp only [hnl, if_false]
  have e1 : ((c :: r) ++ (s%" (" ++ e ++ [')'])).reverse = ')' :: ((c :: r) ++ [' '] ++ '(' :: e).reverse := by
    simp
  rw [e1]
  simp only [List.reverse_reverse]
  rw [splitLast_eq _ _ _ hp]

/-- What the groups are made of. -/
private def GroupsOk : (Str × Str) ⊕ Str → Prop
  | .inr t => '\n' ∉ t ∧ (∀ c r, t = c :: r → isPySpace c = false)
  | .inl (g1, g2) => '\n' ∉ g1 ∧ '\n' ∉ g2 ∧ '(' ∉ g2 ∧ (∀ c r, g1 = c :: r → isPySpace c = false)

private theorem groups_shape (rest : Str) (gs : (Str × Str) ⊕ Str) (hgs : actorGroups rest = some gs) : GroupsOk gs := by
  have hhead : ∀ c r, dropFinalNl (rest.dropWhile isPySpace) = c :: r → isPySpace c = false := by
    intro c r hcr
    have hp := dropFinalNl_prefix (rest.dropWhile isPySpace)
    rw [hcr] at hp
    obtain ⟨z, hz⟩ := hp
    exact dropWhile_head (r := r ++ z) (by simpa using hz.symm)
  unfold actorGroups at hgs
  revert hgs hhead
  generalize dropFinalNl _ = t
  intro hgs hhead
  simp only at hgs
  split at hgs
  · simp at hgs
  · rename_i hnl
    split at hgs
    · rename_i r hr
      split at hgs
      · rename_i g1 g2 hsp
        simp only [Option.some.injEq] at hgs; subst hgs
        obtain ⟨e1, e2⟩ := splitLast_some _ _ _ _ hsp
        have ht : t = g1 ++ '(' :: g2 ++ [')'] := by
          rw [← e1]
          have := congrArg List.reverse hr
          simpa using this
        subst ht
        simp only [List.mem_append, List.mem_cons, not_or] at hnl
        refine ⟨hnl.1.1, hnl.1.2.2, e2, ?_⟩
        rintro c r rfl
        exact hhead c _ (by simp; rfl)
      · simp only [Option.some.injEq] at hgs; subst hgs
        exact ⟨hnl, hhead⟩
    · simp only [Option.some.injEq] at hgs; subst hgs
      exact ⟨hnl, hhead⟩

private theorem not_tool (a : Actor) (h : a.actorType ≠ .TOOL) :
    parseActor a.toSerialized = (match actorGroups (' ' :: a.name ++
      (match a.email with
       | some e => if e = [] then [] else s%" (" ++ e ++ [')']
       | none => [])) with
      | some gs => actorFromGroups a.actorType gs
      | none => .error .noMatch) := by
  obtain ⟨ty, n, em⟩ := a
  cases ty with
  | TOOL => exact absurd rfl h
  | PERSON =>
    simp only [parseActor, Actor.toSerialized, ActorType.title, List.append_assoc, List.cons_append, List.nil_append]
    simp only [dropPrefix?, List.isPrefixOf_cons_cons, List.isPrefixOf_nil_left, Bool.and_true]
    simp
    cases em <;> rfl
  | ORGANIZATION =>
    simp only [parseActor, Actor.toSerialized, ActorType.title, List.append_assoc, List.cons_append, List.nil_append]
    simp only [dropPrefix?, List.isPrefixOf_cons_cons, List.isPrefixOf_nil_left, Bool.and_true]
    simp
    cases em <;> rfl

/-! ### Theorems -/

/-- Writing an expressible actor and reading the text gives the same actor. -/
theorem roundtrip (a : Actor) (h : Expressible a) : parseActor a.toSerialized = .ok a := by
  obtain ⟨h0, ht, hn, hm⟩ := h
  by_cases hty : a.actorType = .TOOL
  · obtain ⟨ty, n, em⟩ := a
    simp only at hty h0 ht hn hm
    subst hty
    cases em with
    | some e => exact absurd rfl hm.1
    | none =>
      obtain ⟨c, r, rfl⟩ := List.exists_cons_of_ne_nil h0
      have hc := ht.1 c r rfl
      have htw : (c :: r).takeWhile (· ≠ '\n') = c :: r := by
        apply takeWhile_self
        intro x hx
        simp only [ne_eq, decide_eq_true_eq]
        rintro rfl
        exact hn hx
      have hg : toolGroup (' ' :: c :: r) = some (c :: r) := by
        unfold toolGroup
        have hsp : isPySpace ' ' = true := by decide
        rw [List.dropWhile_cons, if_pos hsp, dropWhile_none hc]
        rw [if_pos (by simp), htw]
      have hs := (trimmed_iff _).1 ht
      simp [parseActor, Actor.toSerialized, ActorType.title, dropPrefix?, hg, hs]
  · rw [not_tool a hty]
    obtain ⟨ty, n, em⟩ := a
    simp only at hty h0 ht hn hm ⊢
    have hs := (trimmed_iff _).1 ht
    cases em with
    | none =>
      simp only [List.append_nil]
      rw [groups_noEmail n h0 ht hn]
      rcases hm with hm | hm
      · exact absurd hm hty
      · split
        · rename_i gs hgs
          split at hgs
          · rename_i r hr
            split at hgs
            · rename_i g1 g2 hsp
              exfalso
              apply hm
              obtain ⟨e1, -⟩ := splitLast_some _ _ _ _ hsp
              refine ⟨g1, g2, ?_⟩
              rw [← e1]
              have := congrArg List.reverse hr
              simpa using this
            · simp only [Option.some.injEq] at hgs; subst hgs
              simp [actorFromGroups, h0, hs]
          · simp only [Option.some.injEq] at hgs; subst hgs
            simp [actorFromGroups, h0, hs]
        · rename_i hgs
          split at hgs
          · split at hgs <;> simp at hgs
          · simp at hgs
    | some e =>
      obtain ⟨-, he0, het, hen, hep⟩ := hm
      simp only [he0, if_false]
      rw [groups_email n e h0 ht hn hen hep]
      have hse := (trimmed_iff _).1 het
      simp [actorFromGroups, strip_append_space n ht h0, hse, he0]

private theorem strip_no_nl {s : Str} (h : '\n' ∉ s) : '\n' ∉ strip s := fun hh => h (mem_of_mem_strip hh)

/-- Conversely, whenever the text is read back as the same actor, the actor is expressible: the description is exact. -/
theorem roundtrip_only (a : Actor) (h : parseActor a.toSerialized = .ok a) : Expressible a := by
  by_cases hty : a.actorType = .TOOL
  · obtain ⟨ty, n, em⟩ := a
    simp only at hty
    subst hty
    have hs : parseActor ({ actorType := .TOOL, name := n, email := em } : Actor).toSerialized =
      (match toolGroup (' ' :: n ++ (match em with
       | some e => if e = [] then [] else s%" (" ++ e ++ [')']
       | none => [])) with
       | some g => if strip g = [] then .error .noToolName else .ok { actorType := .TOOL, name := strip g }
       | none => .error .noMatch) := by
      simp only [parseActor, Actor.toSerialized, ActorType.title, List.append_assoc, List.cons_append, List.nil_append]
      simp only [dropPrefix?, List.isPrefixOf_cons_cons, List.isPrefixOf_nil_left, Bool.and_true]
      simp
      cases em <;> rfl
    rw [hs] at h
    split at h
    · rename_i g hg
      split at h
      · simp at h
      · rename_i hne
        simp only [Except.ok.injEq, Actor.mk.injEq, true_and] at h
        obtain ⟨rfl, rfl⟩ := h
        refine ⟨hne, (trimmed_iff _).2 (strip_trimmed g), ?_, .inl rfl⟩
        apply strip_no_nl
        unfold toolGroup at hg
        simp only at hg
        split at hg
        · simp only [Option.some.injEq] at hg
          intro hm
          rw [← hg] at hm
          have := mem_takeWhile hm
          simp at this
        · split at hg
          · simp at hg
          · rename_i c x hx
            simp only [Option.some.injEq] at hg
            rw [← hg]
            have := dropWhile_head hx
            simp only [decide_eq_false_iff_not] at this
            simpa using Ne.symm this
    · simp at h
  · rw [not_tool a hty] at h
    split at h
    case h_2 => simp at h
    rename_i gs hgs
    have hgr := groups_shape _ _ hgs
    cases gs with
    | inr t =>
      simp only [GroupsOk] at hgr
      simp only [actorFromGroups] at h
      split at h
      case isFalse => simp at h
      rename_i ht0
      simp only [Except.ok.injEq] at h
      have hname : a.name = strip t := by rw [← h]
      have hemail : a.email = none := by rw [← h]
      obtain ⟨c, r, rfl⟩ := List.exists_cons_of_ne_nil ht0
      have hn0 : a.name ≠ [] := by rw [hname]; exact strip_ne_nil (hgr.2 c r rfl)
      have htr : Trimmed a.name := by rw [hname]; exact (trimmed_iff _).2 (strip_trimmed _)
      have hnl : '\n' ∉ a.name := by rw [hname]; exact strip_no_nl hgr.1
      refine ⟨hn0, htr, hnl, ?_⟩
      rw [hemail]
      right
      rintro ⟨x, y, hxy⟩
      simp only [hemail, List.append_nil] at hgs
      rw [groups_noEmail _ hn0 htr hnl] at hgs
      have hrev : a.name.reverse = ')' :: (x ++ '(' :: y).reverse := by rw [hxy]; simp
      rw [hrev] at hgs
      simp only [List.reverse_reverse] at hgs
      split at hgs
      · simp at hgs
      · rename_i hsn
        exact splitLast_none _ _ hsn (by simp)
    | inl p =>
      obtain ⟨g1, g2⟩ := p
      simp only [GroupsOk] at hgr
      simp only [actorFromGroups] at h
      split at h
      case isTrue => simp at h
      rename_i hg0
      simp only [Except.ok.injEq] at h
      have hname : a.name = strip g1 := by rw [← h]
      have hemail : a.email = if strip g2 = [] then none else some (strip g2) := by rw [← h]
      obtain ⟨c, r, rfl⟩ := List.exists_cons_of_ne_nil hg0
      have hn0 : a.name ≠ [] := by rw [hname]; exact strip_ne_nil (hgr.2.2.2 c r rfl)
      have htr : Trimmed a.name := by rw [hname]; exact (trimmed_iff _).2 (strip_trimmed _)
      have hnl : '\n' ∉ a.name := by rw [hname]; exact strip_no_nl hgr.1
      refine ⟨hn0, htr, hnl, ?_⟩
      by_cases hs : strip g2 = []
      · simp only [hs, if_true] at hemail
        exfalso
        simp only [hemail, List.append_nil] at hgs
        rw [groups_noEmail _ hn0 htr hnl] at hgs
        split at hgs
        · rename_i r' hr'
          split at hgs
          · rename_i g1' g2' hsp
            simp only [Option.some.injEq, Sum.inl.injEq, Prod.mk.injEq] at hgs
            obtain ⟨rfl, rfl⟩ := hgs
            obtain ⟨e1, -⟩ := splitLast_some _ _ _ _ hsp
            have hlen : a.name.length = r'.length + 1 := by
              have := congrArg List.length hr'
              simpa using this
            have hlen2 : r'.length = (c :: r).length + 1 + g2'.length := by
              have := congrArg List.length e1
              simp at this
              simp [this]; omega
            have hlen3 : a.name.length ≤ (c :: r).length := by
              rw [hname]
              exact Nat.le_trans (rstrip_prefix _).length_le (length_dropWhile_le' _ _)
            omega
          · simp at hgs
        · simp at hgs
      · simp only [hs, if_false] at hemail
        rw [hemail]
        exact ⟨hty, hs, (trimmed_iff _).2 (strip_trimmed _), strip_no_nl hgr.2.1, fun hm => hgr.2.2.1 (mem_of_mem_strip hm)⟩

/-- Texts that do not begin with one of the three type names are rejected. -/
theorem foreign_rejected (s : Str) (h1 : ¬ s%"Tool:" <+: s) (h2 : ¬ s%"Person:" <+: s) (h3 : ¬ s%"Organization:" <+: s) :
    parseActor s = .error .noMatch := by
  rw [← List.isPrefixOf_iff_prefix] at h1 h2 h3
  simp [parseActor, dropPrefix?, h1, h2, h3]

/-- The unconditional round trip is false: the name `Foo (Bar)` comes back as name `Foo`, e-mail `Bar`. -/
theorem roundtrip_fails :
    parseActor ({ actorType := .PERSON, name := s%"Foo (Bar)" } : Actor).toSerialized
      = .ok { actorType := .PERSON, name := s%"Foo", email := some s%"Bar" } := by decide +kernel

/-- Two different actors can have the same text. -/
theorem same_text_different_actor :
    ({ actorType := .PERSON, name := s%"Foo (Bar)" } : Actor).toSerialized
      = ({ actorType := .PERSON, name := s%"Foo", email := some s%"Bar" } : Actor).toSerialized := by decide +kernel

/-! Non-vacuity -/
example : Expressible { actorType := .PERSON, name := s%"Jane Doe", email := some s%"jane@example.org" } := by
  refine ⟨by decide, (trimmed_iff _).2 (by decide +kernel), by decide, by decide, by decide,
    (trimmed_iff _).2 (by decide +kernel), by decide, by decide⟩
example : Expressible { actorType := .TOOL, name := s%"scanner (v1)" } :=
  ⟨by decide, (trimmed_iff _).2 (by decide +kernel), by decide, .inl rfl⟩

end Spdx.C05
