import Verif.Model.TagValueMessages
import Verif.Spec.TvToldLines
import Verif.Lemmas.TagValueStep
/- The reader with line numbers does what the reader without them does, and says the same. -/
namespace Spdx.Told
open Spdx Spec

theorem all_eq (ms : List PMsg) : allWithoutLines ms = ms.map withoutLines := by
  induction ms with
  | nil => rfl
  | cons m ms ih => rw [allWithoutLines, ih]; rfl

/-- The state without line numbers. -/
def bare (s : TvState) : TvState :=
  { s with log := s.log.map withoutLines, elemLog := s.elemLog.map withoutLines, infoLog := s.infoLog.map withoutLines }

/-- `t'` and `s'` are `e`, with and without line numbers, after something has been done: the same, and messages have been added that are the
    same but for the line number. -/
def Says (n : Nat) (e t' s' : TvState) : Prop :=
  ∃ l x i : List PMsg, (∀ m ∈ l, withoutLines m = m) ∧ (∀ m ∈ x, withoutLines m = m) ∧ (∀ m ∈ i, withoutLines m = m) ∧
    s'.log = (bare e).log ++ l ∧ s'.elemLog = (bare e).elemLog ++ x ∧ s'.infoLog = (bare e).infoLog ++ i ∧
    t' = { s' with log := e.log ++ l.map (onLine n), elemLog := e.elemLog ++ x.map (onLine n), infoLog := e.infoLog ++ i.map (onLine n) }

variable {L : LicText} {n : Nat} {e t s t' s' : TvState}

theorem without_onLine {m : PMsg} (h : withoutLines m = m) : withoutLines (onLine n m) = m := by
  unfold onLine
  split
  · exact h
  · exact h

theorem map_onLine {l : List PMsg} (h : ∀ m ∈ l, withoutLines m = m) : (l.map (onLine n)).map withoutLines = l := by
  induction l with
  | nil => rfl
  | cons m l ih =>
    rw [List.map_cons, List.map_cons, ih fun x hx => h x (List.mem_cons_of_mem _ hx), without_onLine (h m List.mem_cons_self)]

theorem Says.erase (h : Says n e t' s') : bare t' = s' := by
  obtain ⟨l, x, i, h1, h2, h3, h4, h5, h6, rfl⟩ := h
  unfold bare
  simp only [List.map_append, map_onLine h1, map_onLine h2, map_onLine h3]
  change { s' with log := (bare e).log ++ l, elemLog := (bare e).elemLog ++ x, infoLog := (bare e).infoLog ++ i } = s'
  rw [← h4, ← h5, ← h6]

theorem Says.trans {t1 s1 t2 s2 : TvState} (h : Says n e t1 s1) (h' : Says n t1 t2 s2) : Says n e t2 s2 := by
  have hb := h.erase
  obtain ⟨l, x, i, h1, h2, h3, h4, h5, h6, rfl⟩ := h
  obtain ⟨l', x', i', k1, k2, k3, k4, k5, k6, rfl⟩ := h'
  rw [hb] at k4 k5 k6
  refine ⟨l ++ l', x ++ x', i ++ i', List.forall_mem_append.2 ⟨h1, k1⟩, List.forall_mem_append.2 ⟨h2, k2⟩, List.forall_mem_append.2 ⟨h3, k3⟩,
    ?_, ?_, ?_, ?_⟩
  · rw [k4, h4, List.append_assoc]
  · rw [k5, h5, List.append_assoc]
  · rw [k6, h6, List.append_assoc]
  · simp only [List.map_append, List.append_assoc]

theorem Says.quiet (d i : Dict Str TvVal) : Says n e { e with elem := d, info := i } { bare e with elem := d, info := i } :=
  ⟨[], [], [], (by simp), (by simp), (by simp), (List.append_nil _).symm, (List.append_nil _).symm, (List.append_nil _).symm, by
    simp [bare]⟩

theorem Says.refl : Says n e e (bare e) := Says.quiet e.elem e.info

theorem Says.logElem {m : PMsg} (hm : withoutLines m = m) : Says n e (e.logElem (onLine n m)) ((bare e).logElem m) :=
  ⟨[], [m], [], (by simp), (by simpa using hm), (by simp), (List.append_nil _).symm, rfl, (List.append_nil _).symm, by
    simp [bare, TvState.logElem]⟩

theorem Says.logInfo {m : PMsg} (hm : withoutLines m = m) : Says n e (e.logInfo (onLine n m)) ((bare e).logInfo m) :=
  ⟨[], [], [m], (by simp), (by simp), (by simpa using hm), (List.append_nil _).symm, (List.append_nil _).symm, rfl, by
    simp [bare, TvState.logInfo]⟩

theorem Says.log {m : PMsg} (hm : withoutLines m = m) : Says n e { e with log := e.log ++ [onLine n m] } { bare e with log := (bare e).log ++ [m] } :=
  ⟨[m], [], [], (by simpa using hm), (by simp), (by simp), rfl, (List.append_nil _).symm, (List.append_nil _).symm, by
    simp [bare]⟩

/-- `m'` is what is said of `m` on the line. -/
def Stamped (n : Nat) (m' m : PMsg) : Prop := m' = onLine n m ∧ withoutLines m = m

theorem stamped_at {m : PMsg} (hm : withoutLines m = m) (hl : lineless m = false) : Stamped n (.atLine n m) m :=
  ⟨by unfold onLine; rw [if_neg (by simp [hl])], hm⟩

theorem stamped_no {m : PMsg} (hm : withoutLines m = m) (hl : lineless m = true) : Stamped n m m :=
  ⟨by unfold onLine; rw [if_pos hl], hm⟩

theorem stamped_text (c : Char) (r : Str) (h : c ≠ 'N' ∧ c ≠ 'd') : Stamped n (.atLine n (.text (c :: r))) (.text (c :: r)) :=
  stamped_at rfl (by simp [lineless, h.1, h.2])

theorem stamped_multiple (tag : Str) : Stamped n (.atLine n (multipleMsg tag)) (multipleMsg tag) := stamped_text 'M' _ (by decide)

theorem stamped_invalid {w : Str} {v : Json} (h : w ∉ [s%"license expression", s%"date", s%"LicenseListVersion", s%"FilesAnalyzed"]) :
    Stamped n (.atLine n (.invalid w v)) (.invalid w v) := stamped_at rfl (by simpa [lineless] using h)

theorem stamped_actor (x : ActorError) : Stamped n (actorMsg x) (actorMsg x) := by
  cases x <;> exact stamped_no rfl (by decide +kernel)

theorem Stamped.elem {m' m : PMsg} (h : Stamped n m' m) : Says n e (e.logElem m') ((bare e).logElem m) := by
  rw [h.1]; exact .logElem h.2

theorem Stamped.info {m' m : PMsg} (h : Stamped n m' m) : Says n e (e.logInfo m') ((bare e).logInfo m) := by
  rw [h.1]; exact .logInfo h.2

theorem Says.inScope {c : TvClass} {k k' : TvState → TvState} (h : Says n e (k e) (k' (bare e))) :
    Says n e (e.inScopeAt n c k) ((bare e).inScope c k') := by
  unfold TvState.inScopeAt TvState.inScope
  have hb : (bare e).cls = e.cls := rfl
  rw [hb]
  by_cases hc : e.cls = some c
  · rw [if_pos hc, if_pos hc]; exact h
  · rw [if_neg hc, if_neg hc]
    have hs : Stamped n (.atLine n (.text (s%"Element " ++ c.name ++ s%" is not the current element in scope"))) _ := stamped_text 'E' _ (by decide)
    rw [hs.1]
    exact .log hs.2

/-- A value, or the messages about it. -/
def Agrees (n : Nat) : Except PMsg TvItem → Except PMsg TvItem → Prop
  | .ok x, .ok y => x = y
  | .error m', .error m => Stamped n m' m
  | _, _ => False

theorem Says.setElem {tag : Str} {v v' : Except PMsg TvItem} (h : Agrees n v v') :
    Says n e (e.setElemAt n tag v) ((bare e).setElem tag v') := by
  unfold TvState.setElemAt TvState.setElem
  have hb : (bare e).elem = e.elem := rfl
  rw [hb]
  by_cases hc : (e.elem.get? (propertyName tag)).isSome = true
  · rw [if_pos hc, if_pos hc]; exact (stamped_multiple tag).elem
  · rw [if_neg hc, if_neg hc]
    cases v with
    | ok x => cases v' with
      | ok y => cases h; exact .quiet _ _
      | error m => cases h
    | error m' => cases v' with
      | ok y => cases h
      | error m => exact Stamped.elem h

theorem Says.setInfo {tag : Str} {v v' : Except PMsg TvItem} (h : Agrees n v v') :
    Says n e (e.setInfoAt n tag v) ((bare e).setInfo tag v') := by
  unfold TvState.setInfoAt TvState.setInfo
  have hb : (bare e).info = e.info := rfl
  rw [hb]
  by_cases hc : (e.info.get? (propertyName tag)).isSome = true
  · rw [if_pos hc, if_pos hc]; exact (stamped_multiple tag).info
  · rw [if_neg hc, if_neg hc]
    cases v with
    | ok x => cases v' with
      | ok y => cases h; exact .quiet _ _
      | error m => cases h
    | error m' => cases v' with
      | ok y => cases h
      | error m => exact Stamped.info h

theorem agrees_date (v : Str) : Agrees n (dateItem v) (dateItem v) := by
  unfold dateItem
  split
  · rfl
  · exact stamped_no rfl (by simp [lineless])

theorem agrees_actor (v : Str) : Agrees n (actorItem v) (actorItem v) := by
  unfold actorItem
  split
  · rfl
  · exact stamped_actor _

theorem Says.license (v : Tok) : Says n e (e.logLicense (licenseValue L v).2) ((bare e).logLicense (licenseValue L v).2) := by
  cases h : (licenseValue L v).2 with
  | none => exact .refl
  | some m =>
    have hm : Stamped n m m := by
      unfold licenseValue at h
      split at h
      · cases h
      · cases h
      · split at h
        · cases h
        · cases h
        · cases h; exact stamped_no rfl (by simp [lineless])
    exact hm.elem

theorem stamped_docRef {v : Str} {m : PMsg} (h : parseDocRef v = .error m) : Stamped n (.atLine n m) m := by
  unfold parseDocRef at h
  split at h
  · cases h; exact stamped_text 'E' _ (by decide)
  · split at h
    · cases h
    · cases h; exact stamped_text 'E' _ (by decide)

theorem stamped_extRef {v : Str} {c : Option Str} {m : PMsg} (h : parseTvExtRef v c = .error m) : Stamped n (.atLine n m) m := by
  unfold parseTvExtRef at h
  split at h
  · split at h
    · cases h
    · cases h; exact stamped_invalid (by decide +kernel)
  · cases h; exact stamped_text 'C' _ (by decide)

theorem Says.relationship (line : Str) (c : Option Str) : Says n e (e.setRelationshipAt n line c) ((bare e).setRelationship line c) := by
  unfold TvState.setRelationshipAt TvState.setRelationship
  have hs : Stamped n (.atLine n (.text s%"Relationship couldn't be split in spdx_element_id, relationship_type and related_spdx_element")) (.text s%"Relationship couldn't be split in spdx_element_id, relationship_type and related_spdx_element") :=
    stamped_at rfl (by decide +kernel)
  generalize splitOn ' ' line = w
  rcases w with _ | ⟨a, _ | ⟨y, _ | ⟨b, _ | ⟨d, r⟩⟩⟩⟩
  · exact hs.elem
  · exact hs.elem
  · exact hs.elem
  · dsimp only
    cases RelationshipType.ofName? y with
    | some r => cases c with
      | some c => exact .quiet _ _
      | none => exact .quiet _ _
    | none =>
      have h1 : Says n e (e.logElem (.atLine n (.invalid s%"RelationshipType" (.str y)))) ((bare e).logElem (.invalid s%"RelationshipType" (.str y))) :=
        Stamped.elem (stamped_invalid (by decide +kernel))
      have hb := h1.erase
      refine h1.trans ?_
      dsimp only
      rw [← hb]
      cases c with
      | some c => exact .quiet _ _
      | none => exact .quiet _ _
  · exact hs.elem

end Spdx.Told
