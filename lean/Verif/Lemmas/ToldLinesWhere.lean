import Verif.Lemmas.ToldLinesRun
/- The line numbers in the messages are those of the attributes. -/
namespace Spdx.Told
open Spdx Spec
section
variable {L : LicText} {n : Nat} {e t s t' s' : TvState} {N : List Nat}

theorem allLines_append (a b : List PMsg) : allLinesIn (a ++ b) = allLinesIn a ++ allLinesIn b := by
  induction a with
  | nil => rfl
  | cons m a ih => rw [List.cons_append, allLinesIn, ih, allLinesIn, List.append_assoc]

mutual
theorem lines_without : ∀ m : PMsg, linesIn (withoutLines m) = []
  | .atLine n m => by rw [withoutLines]; exact lines_without m
  | .wrapped c ms => by rw [withoutLines, linesIn]; exact allLines_without ms
  | .text s => rfl
  | .invalid w v => rfl
  | .constructing c fs => rfl
theorem allLines_without : ∀ ms : List PMsg, allLinesIn (allWithoutLines ms) = []
  | [] => rfl
  | m :: ms => by rw [allWithoutLines, allLinesIn, lines_without m, allLines_without ms]; rfl
end

theorem lines_onLine {m : PMsg} (h : withoutLines m = m) : ∀ k ∈ linesIn (onLine n m), k = n := by
  have h0 : linesIn m = [] := by rw [← h]; exact lines_without m
  unfold onLine
  split
  · rw [h0]; intro k hk; cases hk
  · rw [linesIn, h0]
    intro k hk
    simpa using hk

theorem allLines_onLine {l : List PMsg} (h : ∀ m ∈ l, withoutLines m = m) : ∀ k ∈ allLinesIn (l.map (onLine n)), k = n := by
  induction l with
  | nil => intro k hk; cases hk
  | cons m l ih =>
    intro k hk
    rw [List.map_cons, allLinesIn] at hk
    rcases List.mem_append.1 hk with hk | hk
    · exact lines_onLine (h m List.mem_cons_self) k hk
    · exact ih (fun x hx => h x (List.mem_cons_of_mem _ hx)) k hk

/-- All line numbers are among `N`. -/
structure Within (N : List Nat) (t : TvState) : Prop where
  log : ∀ k ∈ allLinesIn t.log, k ∈ N
  elemLog : ∀ k ∈ allLinesIn t.elemLog, k ∈ N
  infoLog : ∀ k ∈ allLinesIn t.infoLog, k ∈ N

theorem within_append {N : List Nat} {a b : List PMsg} (ha : ∀ k ∈ allLinesIn a, k ∈ N) (hb : ∀ k ∈ allLinesIn b, k ∈ N) :
    ∀ k ∈ allLinesIn (a ++ b), k ∈ N := by
  intro k hk
  rw [allLines_append] at hk
  rcases List.mem_append.1 hk with h | h
  · exact ha k h
  · exact hb k h

theorem Within.says (h : Within N e) (hn : n ∈ N) (hs : Says n e t' s') : Within N t' := by
  obtain ⟨l, x, i, h1, h2, h3, _, _, _, rfl⟩ := hs
  exact ⟨within_append h.log fun k hk => allLines_onLine h1 k hk ▸ hn, within_append h.elemLog fun k hk => allLines_onLine h2 k hk ▸ hn,
    within_append h.infoLog fun k hk => allLines_onLine h3 k hk ▸ hn⟩

/-- What is said when an element is built: its own messages, or one without line numbers. -/
theorem build_log (c : TvClass) : ∃ D, (t.build c).log = t.log ++ D ∧ (D = [.wrapped c.name t.elemLog] ∨ allLinesIn D = []) := by
  unfold TvState.build
  by_cases hl : t.elemLog = []
  · rw [if_neg (not_not_intro hl)]
    cases c
    case file =>
      dsimp only
      cases mkFile t.elem with
      | error x => exact ⟨_, rfl, .inr rfl⟩
      | ok f =>
        unfold TvState.addContains
        dsimp only
        cases t.packages with
        | none => exact ⟨[], (List.append_nil _).symm, .inr rfl⟩
        | some ps =>
          dsimp only
          cases ps.getLast? with
          | none => exact ⟨_, rfl, .inr rfl⟩
          | some p =>
            dsimp only
            split
            · exact ⟨[], (List.append_nil _).symm, .inr rfl⟩
            · exact ⟨[], (List.append_nil _).symm, .inr rfl⟩
    case package =>
      dsimp only
      cases mkPackage t.elem with
      | error x => exact ⟨_, rfl, .inr rfl⟩
      | ok f => exact ⟨[], (List.append_nil _).symm, .inr rfl⟩
    case snippet =>
      dsimp only
      cases mkSnippet t.elem with
      | error x => exact ⟨_, rfl, .inr rfl⟩
      | ok f => exact ⟨[], (List.append_nil _).symm, .inr rfl⟩
    case annotation =>
      dsimp only
      cases mkAnnotation t.elem with
      | error x => exact ⟨_, rfl, .inr rfl⟩
      | ok f => exact ⟨[], (List.append_nil _).symm, .inr rfl⟩
    case relationship =>
      dsimp only
      cases mkRelationship t.elem with
      | error x => exact ⟨_, rfl, .inr rfl⟩
      | ok f => exact ⟨[], (List.append_nil _).symm, .inr rfl⟩
    case extracted =>
      dsimp only
      cases mkExtracted t.elem with
      | error x => exact ⟨_, rfl, .inr rfl⟩
      | ok f => exact ⟨[], (List.append_nil _).symm, .inr rfl⟩
  · rw [if_pos hl]
    exact ⟨_, rfl, .inl rfl⟩

theorem Within.finish (h : Within N t) : Within N t.finish := by
  unfold TvState.finish
  split
  · exact h
  · rename_i c _
    refine ⟨?_, (fun k hk => by cases hk), ?_⟩
    · obtain ⟨D, h1, h2⟩ := build_log (t := t) c
      show ∀ k ∈ allLinesIn (t.build c).log, k ∈ N
      rw [h1]
      refine within_append h.log ?_
      rcases h2 with rfl | h2
      · intro k hk
        refine h.elemLog k ?_
        simpa [allLinesIn, linesIn] using hk
      · rw [h2]; intro k hk; cases hk
    · show ∀ k ∈ allLinesIn (t.build c).infoLog, k ∈ N
      rw [build_infoLog]
      exact h.infoLog

theorem Within.entry (h : Within N t) (a : TvAttr) : Within N (t.entry a) := by
  unfold TvState.entry
  split
  · exact ⟨h.finish.log, h.finish.elemLog, h.finish.infoLog⟩
  · exact h

theorem run_within (as : List (TvAttr × Nat)) : ∀ t : TvState, Within N t → (∀ p ∈ as, p.2 ∈ N) → ∀ t', t.runAt L as = .ok t' → Within N t' := by
  induction as with
  | nil => intro t h _ t' e; cases e; exact h
  | cons p as ih =>
    obtain ⟨a, n⟩ := p
    intro t h hn t' e
    rw [TvState.runAt] at e
    have hs := says_step (L := L) (n := n) (t := t) a
    cases hA : t.stepAt L n a with
    | error x => rw [hA] at e; cases e
    | ok A =>
      rw [hA] at e hs
      cases hB : (bare t).step L a with
      | error y => rw [hB] at hs; exact False.elim hs
      | ok B =>
        rw [hB] at hs
        exact ih A ((h.entry a).says (hn _ List.mem_cons_self) hs) (fun p hp => hn p (List.mem_cons_of_mem _ hp)) t' e

theorem result_within (h : Within N t) {ms : List PMsg} (e : t.result = .error (.parsing ms)) : ∀ k ∈ allLinesIn ms, k ∈ N := by
  have hl : ∀ k ∈ allLinesIn (t.finish.log ++ (if t.finish.infoLog = [] then [] else [PMsg.wrapped s%"CreationInfo" t.finish.infoLog])), k ∈ N := by
    refine within_append h.finish.log ?_
    split
    · intro k hk; cases hk
    · intro k hk
      refine h.finish.infoLog k ?_
      simpa [allLinesIn, linesIn] using hk
  unfold TvState.result at e
  dsimp only at e
  revert e hl
  generalize t.finish.log ++ (if t.finish.infoLog = [] then [] else [PMsg.wrapped s%"CreationInfo" t.finish.infoLog]) = l
  intro e hl
  by_cases h0 : l = []
  · rw [if_neg (not_not_intro h0)] at e
    unfold construct at e
    cases hi : mkInfo t.finish.info with
    | ok c => rw [hi] at e; cases e
    | error x => rw [hi] at e; cases e; intro k hk; cases hk
  · rw [if_pos h0] at e
    cases e
    exact hl

end
end Spdx.Told
