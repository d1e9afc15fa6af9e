import Verif.Model.TagValueParser
/- What one action of the tag-value parser may change. -/
namespace Spdx

/-- A change within one element: messages are only added, and a value once set stays (except for `spdx_id` of an element). -/
structure Moves (s s' : TvState) : Prop where
  cls : s'.cls = s.cls
  log : s.log <+: s'.log
  infoLog : s.infoLog <+: s'.infoLog
  elemLog : s.elemLog <+: s'.elemLog
  elem : ∀ k x, k ≠ s%"spdx_id" → s.elem.get? k = some (.one x) → s'.elem.get? k = some (.one x)
  elemKeys : ∀ k, (s.elem.get? k).isSome → (s'.elem.get? k).isSome
  info : ∀ k x, s.info.get? k = some (.one x) → s'.info.get? k = some (.one x)
  infoKeys : ∀ k, (s.info.get? k).isSome → (s'.info.get? k).isSome

theorem Moves.refl (s : TvState) : Moves s s :=
  ⟨rfl, List.prefix_refl _, List.prefix_refl _, List.prefix_refl _, fun _ _ _ h => h, fun _ h => h, fun _ _ h => h, fun _ h => h⟩

theorem Moves.trans {s t u : TvState} (h : Moves s t) (h' : Moves t u) : Moves s u :=
  ⟨h'.cls.trans h.cls, h.log.trans h'.log, h.infoLog.trans h'.infoLog, h.elemLog.trans h'.elemLog,
   fun k x hk e => h'.elem k x hk (h.elem k x hk e), fun k e => h'.elemKeys k (h.elemKeys k e), fun k x e => h'.info k x (h.info k x e),
   fun k e => h'.infoKeys k (h.infoKeys k e)⟩

theorem Moves.addLog (s : TvState) (m : List PMsg) : Moves s { s with log := s.log ++ m } :=
  ⟨rfl, List.prefix_append _ _, List.prefix_refl _, List.prefix_refl _, fun _ _ _ h => h, fun _ h => h, fun _ _ h => h, fun _ h => h⟩

theorem Moves.logElem (s : TvState) (m : PMsg) : Moves s (s.logElem m) :=
  ⟨rfl, List.prefix_refl _, List.prefix_refl _, List.prefix_append _ _, fun _ _ _ h => h, fun _ h => h, fun _ _ h => h, fun _ h => h⟩

theorem Moves.logInfo (s : TvState) (m : PMsg) : Moves s (s.logInfo m) :=
  ⟨rfl, List.prefix_refl _, List.prefix_append _ _, List.prefix_refl _, fun _ _ _ h => h, fun _ h => h, fun _ _ h => h, fun _ h => h⟩

private theorem set_keys (d : Dict Str TvVal) (k : Str) (v : TvVal) (k' : Str) (h : (d.get? k').isSome) : ((d.set k v).get? k').isSome := by
  rw [Dict.get?_set]; split
  · rfl
  · exact h

/-- A new value. -/
theorem Moves.set {s : TvState} {k : Str} (v : TvVal) (h : (s.elem.get? k).isSome = false ∨ k = s%"spdx_id") :
    Moves s { s with elem := s.elem.set k v } := by
  refine ⟨rfl, List.prefix_refl _, List.prefix_refl _, List.prefix_refl _, ?_, fun k' e => set_keys _ _ _ _ e, fun _ _ h => h,
    fun _ h => h⟩
  intro k' x hk' e
  rw [Dict.get?_set, if_neg]
  · exact e
  · rintro rfl
    rcases h with h | h
    · rw [e] at h; cases h
    · exact hk' h

theorem Moves.setInfoField {s : TvState} {k : Str} (v : TvVal) (h : (s.info.get? k).isSome = false) :
    Moves s { s with info := s.info.set k v } := by
  refine ⟨rfl, List.prefix_refl _, List.prefix_refl _, List.prefix_refl _, fun _ _ _ h => h, fun _ h => h, ?_,
    fun k' e => set_keys _ _ _ _ e⟩
  intro k' x e
  rw [Dict.get?_set, if_neg]
  · exact e
  · rintro rfl
    rw [e] at h; cases h

private theorem tvAppend_get? (d : Dict Str TvVal) (k : Str) (x : TvItem) :
    (∀ k' y, d.get? k' = some (.one y) → (tvAppend d k x).get? k' = some (.one y)) ∧
    (∀ k', (d.get? k').isSome → ((tvAppend d k x).get? k').isSome) := by
  unfold tvAppend
  split
  · rename_i l e
    refine ⟨fun k' y e' => ?_, fun k' e' => set_keys _ _ _ _ e'⟩
    rw [Dict.get?_set, if_neg]
    · exact e'
    · rintro rfl; rw [e] at e'; cases e'
  · exact ⟨fun _ _ h => h, fun _ h => h⟩
  · rename_i e
    refine ⟨fun k' y e' => ?_, fun k' e' => set_keys _ _ _ _ e'⟩
    rw [Dict.get?_set, if_neg]
    · exact e'
    · rintro rfl; rw [e] at e'; cases e'

theorem Moves.appendElem (s : TvState) (k : Str) (x : TvItem) : Moves s (s.appendElem k x) :=
  ⟨rfl, List.prefix_refl _, List.prefix_refl _, List.prefix_refl _, fun k' y _ => (tvAppend_get? s.elem k x).1 k' y,
   (tvAppend_get? s.elem k x).2, fun _ _ h => h, fun _ h => h⟩

theorem Moves.appendInfo (s : TvState) (k : Str) (x : TvItem) : Moves s (s.appendInfo k x) :=
  ⟨rfl, List.prefix_refl _, List.prefix_refl _, List.prefix_refl _, fun _ _ _ h => h, fun _ h => h, (tvAppend_get? s.info k x).1,
   (tvAppend_get? s.info k x).2⟩

theorem Moves.setElem (s : TvState) (tag : Str) (v : Except PMsg TvItem) : Moves s (s.setElem tag v) := by
  unfold TvState.setElem
  split
  · exact .logElem _ _
  · rename_i h
    split
    · exact .set _ (.inl (by simpa using h))
    · exact .logElem _ _

theorem Moves.setInfo (s : TvState) (tag : Str) (v : Except PMsg TvItem) : Moves s (s.setInfo tag v) := by
  unfold TvState.setInfo
  split
  · exact .logInfo _ _
  · rename_i h
    split
    · exact .setInfoField _ (by simpa using h)
    · exact .logInfo _ _

theorem Moves.inScope (s : TvState) (c : TvClass) {k : TvState → TvState} (h : Moves s (k s)) : Moves s (s.inScope c k) := by
  unfold TvState.inScope
  split
  · exact h
  · exact .addLog _ _

theorem Moves.logLicense (s : TvState) (m : Option PMsg) : Moves s (s.logLicense m) := by
  cases m with
  | none => exact .refl s
  | some m => exact .logElem s m

/-- The class of the element that an attribute starts. -/
def TvAttr.starts : TvAttr → Option TvClass
  | .value tag _ => startTag tag
  | .bad tag => if tag ∈ infoTags then none else startTag tag
  | .commented tag _ _ => if tag = s%"Relationship" then some .relationship else none
  | _ => none

theorem tagClass_of_start : ∀ tag c, startTag tag = some c → tag ≠ s%"Relationship" → tagClass tag = some c := by
  intro tag c h hr
  unfold startTag at h
  split at h
  all_goals first | cases h | skip
  all_goals first | exact absurd rfl hr | decide +kernel

theorem generic_moves {s s' : TvState} {tag : Str} {v : TvItem} (h : s.generic tag v = .ok s') (hr : tag ≠ s%"Relationship") :
    Moves (match startTag tag with | some c => s.start c | none => s) s' := by
  unfold TvState.generic at h
  split at h
  · cases h
  · rename_i c e
    simp only [Except.ok.injEq] at h
    subst h
    cases hst : startTag tag with
    | none => exact .inScope _ _ (.setElem _ _ _)
    | some c' =>
      have := tagClass_of_start tag c' hst hr
      rw [e] at this; cases this
      exact .inScope _ _ (.setElem _ _ _)

/-- The state in which an attribute's values are set. -/
def TvState.entry (s : TvState) (a : TvAttr) : TvState :=
  match a.starts with
  | some c => s.start c
  | none => s

private theorem generic_tags : ∀ t ∈ genericTextTags ++ genericSpecialTags ++ genericLicenseTags, t ≠ s%"Relationship" := by decide +kernel
private theorem license_tags : ∀ t ∈ genericLicenseTags, startTag t = none := by decide +kernel
private theorem info_tags : ∀ t ∈ genericInfoTags, startTag t = none := by decide +kernel
private theorem list_tags : ∀ t ∈ textListTags.map (·.1), startTag t = none := by decide +kernel
private theorem license_list_tags : ∀ t ∈ licenseListTags.map (·.1), startTag t = none := by decide +kernel

private theorem lookup_keys {β : Type} {l : List (Str × β)} {k : Str} {v : β} (h : l.lookup k = some v) : k ∈ l.map (·.1) := by
  induction l with
  | nil => cases h
  | cons p l ih =>
    obtain ⟨a, b⟩ := p
    simp only [List.lookup] at h
    split at h
    · rename_i e
      rw [eq_of_beq e]; exact List.mem_cons_self
    · exact List.mem_cons_of_mem _ (ih h)

theorem entry_none {s : TvState} {tag : Str} {v : Tok} (h : startTag tag = none) : s.entry (.value tag v) = s := by
  show (match startTag tag with | some c => s.start c | none => s) = s
  rw [h]

theorem attr_moves {L : LicText} {s s' : TvState} {tag : Str} {v : Tok} (h : s.attr L tag v = .ok s') : Moves (s.entry (.value tag v)) s' := by
  unfold TvState.attr at h
  by_cases ht : tag ∈ genericTextTags
  · replace h := (if_pos ht).symm.trans h
    exact generic_moves h (generic_tags tag (by simp [ht]))
  replace h := (if_neg ht).symm.trans h
  by_cases ht : tag ∈ genericSpecialTags
  · replace h := (if_pos ht).symm.trans h
    exact generic_moves h (generic_tags tag (by simp [ht]))
  replace h := (if_neg ht).symm.trans h
  by_cases ht : tag ∈ genericLicenseTags
  · replace h := (if_pos ht).symm.trans h
    have := generic_moves h (generic_tags tag (by simp [ht]))
    rw [license_tags tag ht] at this
    rw [entry_none (license_tags tag ht)]
    exact (Moves.logLicense _ _).trans this
  replace h := (if_neg ht).symm.trans h
  by_cases ht : tag = s%"PackageSupplier" ∨ tag = s%"PackageOriginator"
  · replace h := (if_pos ht).symm.trans h
    have hr : tag ≠ s%"Relationship" := by rcases ht with rfl | rfl <;> decide
    split at h
    · exact generic_moves h hr
    · split at h
      · exact generic_moves h hr
      · cases h
  replace h := (if_neg ht).symm.trans h
  by_cases ht : tag ∈ genericInfoTags
  · replace h := (if_pos ht).symm.trans h
    cases h
    rw [entry_none (info_tags tag ht)]
    exact .setInfo _ _ _
  replace h := (if_neg ht).symm.trans h
  by_cases ht : tag = s%"LicenseListVersion"
  · replace h := (if_pos ht).symm.trans h
    subst ht; cases h; exact .setInfo _ _ _
  replace h := (if_neg ht).symm.trans h
  by_cases ht : tag = s%"ExternalDocumentRef"
  · replace h := (if_pos ht).symm.trans h
    subst ht; cases h
    show Moves s _
    split
    · exact .appendInfo _ _ _
    · exact .logInfo _ _
  replace h := (if_neg ht).symm.trans h
  by_cases ht : tag = s%"Creator"
  · replace h := (if_pos ht).symm.trans h
    subst ht
    split at h
    · cases h; exact .appendInfo _ _ _
    · cases h
  replace h := (if_neg ht).symm.trans h
  by_cases ht : tag = s%"Created"
  · replace h := (if_pos ht).symm.trans h
    subst ht; cases h; exact .setInfo _ _ _
  replace h := (if_neg ht).symm.trans h
  by_cases ht : tag = s%"FileType"
  · replace h := (if_pos ht).symm.trans h
    subst ht; cases h
    refine Moves.inScope s _ ?_
    split
    · exact .appendElem _ _ _
    · exact .logElem _ _
  replace h := (if_neg ht).symm.trans h
  have hcs : ∀ c, s.checksumAttr c v.value = .ok s' → Moves s s' := by
    intro c h
    unfold TvState.checksumAttr at h
    split at h
    · split at h
      · cases h; exact .appendElem _ _ _
      · cases h
    · cases h; exact .inScope _ _ (.refl s)
  by_cases ht : tag = s%"FileChecksum"
  · replace h := (if_pos ht).symm.trans h
    subst ht; exact hcs _ h
  replace h := (if_neg ht).symm.trans h
  by_cases ht : tag = s%"PackageChecksum"
  · replace h := (if_pos ht).symm.trans h
    subst ht; exact hcs _ h
  replace h := (if_neg ht).symm.trans h
  by_cases ht : tag = s%"PackageAttributionText"
  · replace h := (if_pos ht).symm.trans h
    subst ht; cases h
    exact (Moves.inScope s _ (.refl s)).trans (.appendElem _ _ _)
  replace h := (if_neg ht).symm.trans h
  by_cases ht : tag = s%"PackageVerificationCode"
  · replace h := (if_pos ht).symm.trans h
    subst ht; cases h
    refine Moves.inScope s _ ?_
    split
    · exact .logElem _ _
    · rename_i hn
      split
      · exact .set _ (.inl (by simpa using hn))
      · exact .logElem _ _
  replace h := (if_neg ht).symm.trans h
  by_cases ht : tag = s%"FilesAnalyzed"
  · replace h := (if_pos ht).symm.trans h
    subst ht; cases h
    refine Moves.inScope s _ ?_
    split
    · exact .logElem _ _
    · rename_i hn
      split
      · exact .set _ (.inl (by simpa using hn))
      · split
        · exact .set _ (.inl (by simpa using hn))
        · exact .logElem _ _
  replace h := (if_neg ht).symm.trans h
  by_cases ht : tag = s%"PrimaryPackagePurpose"
  · replace h := (if_pos ht).symm.trans h
    subst ht; cases h
    exact Moves.inScope s _ (.setElem _ _ _)
  replace h := (if_neg ht).symm.trans h
  by_cases ht : tag = s%"BuiltDate" ∨ tag = s%"ReleaseDate" ∨ tag = s%"ValidUntilDate"
  · replace h := (if_pos ht).symm.trans h
    have : startTag tag = none := by rcases ht with rfl | rfl | rfl <;> decide
    rw [entry_none this]; cases h
    exact .inScope _ _ (.setElem _ _ _)
  replace h := (if_neg ht).symm.trans h
  by_cases ht : tag = s%"SnippetByteRange" ∨ tag = s%"SnippetLineRange"
  · replace h := (if_pos ht).symm.trans h
    have : startTag tag = none := by rcases ht with rfl | rfl <;> decide
    rw [entry_none this]; cases h
    refine .inScope _ _ ?_
    split
    · exact .logElem _ _
    · rename_i hn
      split
      · exact .set _ (.inl (by simpa using hn))
      · exact .logElem _ _
  replace h := (if_neg ht).symm.trans h
  by_cases ht : tag = s%"Annotator"
  · replace h := (if_pos ht).symm.trans h
    subst ht; cases h
    exact Moves.setElem (s.start .annotation) _ _
  replace h := (if_neg ht).symm.trans h
  by_cases ht : tag = s%"AnnotationDate"
  · replace h := (if_pos ht).symm.trans h
    subst ht; cases h
    exact Moves.inScope s _ (.setElem _ _ _)
  replace h := (if_neg ht).symm.trans h
  by_cases ht : tag = s%"AnnotationType"
  · replace h := (if_pos ht).symm.trans h
    subst ht; cases h
    exact Moves.inScope s _ (.setElem _ _ _)
  replace h := (if_neg ht).symm.trans h
  split at h
  · rename_i e
    rw [entry_none (list_tags tag (lookup_keys e))]; cases h
    exact .inScope _ _ (.appendElem _ _ _)
  · split at h
    · rename_i e
      rw [entry_none (license_list_tags tag (lookup_keys e))]; cases h
      exact (Moves.logLicense _ _).trans (.inScope _ _ (.appendElem _ _ _))
    · cases h

/-- An attribute that starts no element changes the state only in these ways. -/
theorem step_moves {L : LicText} {s s' : TvState} {a : TvAttr} (ha : a.starts = none) (h : s.step L a = .ok s') : Moves s s' := by
  cases a with
  | value tag v =>
    have := attr_moves h
    rwa [entry_none ha] at this
  | bad tag =>
    change s.badAttr tag = .ok s' at h
    change (if tag ∈ infoTags then none else startTag tag) = none at ha
    unfold TvState.badAttr at h
    split at h
    · cases h; exact .logInfo _ _
    · rename_i hi
      rw [if_neg hi] at ha
      rw [ha] at h
      cases h; exact .logElem _ _
  | spdxId v =>
    change Except.ok _ = Except.ok s' at h
    cases h
    split
    · exact .set _ (.inr rfl)
    · rename_i hn; exact .setInfoField _ (by simpa using hn)
  | unknown =>
    cases h; exact .addLog _ _
  | commented tag line comment =>
    have ht : tag ≠ s%"Relationship" := by
      intro e; subst e; cases ha
    replace h := (if_neg ht).symm.trans h
    cases h
    refine .inScope _ _ ?_
    split
    · exact .appendElem _ _ _
    · exact .logElem _ _

/-- Messages are only added. -/
structure Grows (s s' : TvState) : Prop where
  cls : s'.cls = s.cls
  log : s.log <+: s'.log
  infoLog : s.infoLog <+: s'.infoLog
  elemLog : s.elemLog <+: s'.elemLog
  info : ∀ k x, s.info.get? k = some (.one x) → s'.info.get? k = some (.one x)
  infoKeys : ∀ k, (s.info.get? k).isSome → (s'.info.get? k).isSome

theorem Moves.grows {s s' : TvState} (h : Moves s s') : Grows s s' := ⟨h.cls, h.log, h.infoLog, h.elemLog, h.info, h.infoKeys⟩

private theorem setRelationship_grows (s : TvState) (line : Str) (comment : Option Str) : Grows s (s.setRelationship line comment) := by
  unfold TvState.setRelationship
  split
  · rename_i a t b e
    cases RelationshipType.ofName? t <;> cases comment
    all_goals first
      | exact ⟨rfl, List.prefix_refl _, List.prefix_refl _, List.prefix_refl _, fun _ _ h => h, fun _ h => h⟩
      | exact ⟨rfl, List.prefix_refl _, List.prefix_refl _, List.prefix_append _ _, fun _ _ h => h, fun _ h => h⟩
  · exact (Moves.logElem _ _).grows

theorem step_grows {L : LicText} {s s' : TvState} {a : TvAttr} (h : s.step L a = .ok s') : Grows (s.entry a) s' := by
  cases hs : a.starts with
  | none =>
    have : s.entry a = s := by unfold TvState.entry; rw [hs]
    rw [this]; exact (step_moves hs h).grows
  | some c =>
    have he : s.entry a = s.start c := by unfold TvState.entry; rw [hs]
    cases a with
    | value tag v => exact (attr_moves h).grows
    | bad tag =>
      rw [he]
      change s.badAttr tag = .ok s' at h
      change (if tag ∈ infoTags then none else startTag tag) = some c at hs
      unfold TvState.badAttr at h
      split at h
      · rename_i hi; rw [if_pos hi] at hs; cases hs
      · rename_i hi
        rw [if_neg hi] at hs
        rw [hs] at h
        change (match tagClass tag with | none => _ | some c => _) = _ at h
        split at h
        · cases h
        · rename_i c' e
          cases h
          have : c' = c := by
            by_cases hr : tag = s%"Relationship"
            · subst hr
              have : tagClass s%"Relationship" = none := by decide +kernel
              rw [this] at e; cases e
            · have := tagClass_of_start tag c hs hr
              rw [e] at this; exact Option.some.inj this
          subst this
          exact (Moves.logElem _ _).grows
    | spdxId v => cases hs
    | unknown => cases hs
    | commented tag line comment =>
      rw [he]
      by_cases ht : tag = s%"Relationship"
      · have : some TvClass.relationship = some c := (if_pos ht).symm.trans hs
        cases this
        replace h := (if_pos ht).symm.trans h
        cases h
        exact setRelationship_grows _ _ _
      · have : none = some c := (if_neg ht).symm.trans hs
        cases this

theorem build_keeps (s : TvState) (c : TvClass) :
    s.log <+: (s.build c).log ∧ (s.build c).infoLog = s.infoLog ∧ (s.elemLog ≠ [] → .wrapped c.name s.elemLog ∈ (s.build c).log) := by
  unfold TvState.build
  split
  · exact ⟨List.prefix_append _ _, rfl, fun _ => by simp⟩
  · rename_i hn
    have hno : s.elemLog ≠ [] → False := hn
    refine ⟨?_, ?_, fun h => absurd h hno⟩
    · cases c <;> simp only <;> split
      all_goals first | exact List.prefix_refl _ | exact List.prefix_append _ _ | skip
      unfold TvState.addContains
      split
      · exact List.prefix_refl _
      · split
        · exact List.prefix_append _ _
        · split <;> exact List.prefix_refl _
    · cases c <;> simp only <;> split
      all_goals first | rfl | skip
      unfold TvState.addContains
      split
      · rfl
      · split
        · rfl
        · split <;> rfl

theorem finish_keeps (s : TvState) : s.log <+: s.finish.log ∧ s.finish.infoLog = s.infoLog ∧
    (∀ c, s.cls = some c → s.elemLog ≠ [] → .wrapped c.name s.elemLog ∈ s.finish.log) := by
  unfold TvState.finish
  split
  · rename_i h; exact ⟨List.prefix_refl _, rfl, fun c e => by rw [h] at e; cases e⟩
  · rename_i c h
    refine ⟨(build_keeps s c).1, (build_keeps s c).2.1, fun c' e he => ?_⟩
    rw [h] at e; cases e
    exact (build_keeps s c).2.2 he

theorem build_info (s : TvState) (c : TvClass) : (s.build c).info = s.info := by
  unfold TvState.build
  split
  · rfl
  · cases c <;> simp only <;> split
    all_goals first | rfl | skip
    unfold TvState.addContains
    split
    · rfl
    · split
      · rfl
      · split <;> rfl

theorem start_info (s : TvState) (c : TvClass) : (s.start c).info = s.info := by
  unfold TvState.start TvState.finish
  split
  · rfl
  · exact build_info s _

theorem step_info {L : LicText} {s s' : TvState} {a : TvAttr} (h : s.step L a = .ok s') :
    (∀ k x, s.info.get? k = some (.one x) → s'.info.get? k = some (.one x)) ∧ ∀ k, (s.info.get? k).isSome → (s'.info.get? k).isSome := by
  have hg := step_grows h
  have he : (s.entry a).info = s.info := by
    unfold TvState.entry
    split
    · exact start_info s _
    · rfl
  rw [← he]; exact ⟨hg.info, hg.infoKeys⟩

theorem run_info {L : LicText} {s s' : TvState} {as : List TvAttr} (h : s.run L as = .ok s') :
    (∀ k x, s.info.get? k = some (.one x) → s'.info.get? k = some (.one x)) ∧ ∀ k, (s.info.get? k).isSome → (s'.info.get? k).isSome := by
  induction as generalizing s with
  | nil => cases h; exact ⟨fun _ _ h => h, fun _ h => h⟩
  | cons a as ih =>
    unfold TvState.run at h
    split at h
    · rename_i s1 e
      have h1 := step_info e
      have h2 := ih h
      exact ⟨fun k x hk => h2.1 k x (h1.1 k x hk), fun k hk => h2.2 k (h1.2 k hk)⟩
    · cases h

/-- A message that the result will report. -/
def Logged (m : PMsg) (s : TvState) : Prop :=
  m ∈ s.log ∨ (∃ n ms, .wrapped n ms ∈ s.log ∧ m ∈ ms) ∨ (s.cls ≠ none ∧ m ∈ s.elemLog) ∨ m ∈ s.infoLog

theorem Logged.grows {m : PMsg} {s s' : TvState} (h : Logged m s) (hg : Grows s s') : Logged m s' := by
  rcases h with h | ⟨n, ms, h, hm⟩ | ⟨hc, h⟩ | h
  · exact .inl (hg.log.subset h)
  · exact .inr (.inl ⟨n, ms, hg.log.subset h, hm⟩)
  · exact .inr (.inr (.inl ⟨hg.cls ▸ hc, hg.elemLog.subset h⟩))
  · exact .inr (.inr (.inr (hg.infoLog.subset h)))

theorem Logged.finish {m : PMsg} {s : TvState} (h : Logged m s) :
    m ∈ s.finish.log ∨ (∃ n ms, .wrapped n ms ∈ s.finish.log ∧ m ∈ ms) ∨ m ∈ s.finish.infoLog := by
  obtain ⟨h1, h2, h3⟩ := finish_keeps s
  rcases h with h | ⟨n, ms, h, hm⟩ | ⟨hc, h⟩ | h
  · exact .inl (h1.subset h)
  · exact .inr (.inl ⟨n, ms, h1.subset h, hm⟩)
  · cases e : s.cls with
    | none => exact absurd e hc
    | some c => exact .inr (.inl ⟨_, _, h3 c e (List.ne_nil_of_mem h), h⟩)
  · exact .inr (.inr (h2 ▸ h))

theorem Logged.start {m : PMsg} {s : TvState} (c : TvClass) (h : Logged m s) : Logged m (s.start c) := by
  rcases h.finish with h | h | h
  · exact .inl h
  · exact .inr (.inl h)
  · exact .inr (.inr (.inr h))

theorem Logged.step {m : PMsg} {L : LicText} {s s' : TvState} {a : TvAttr} (h : Logged m s) (hs : s.step L a = .ok s') : Logged m s' := by
  have hg := step_grows hs
  unfold TvState.entry at hg
  split at hg
  · exact (h.start _).grows hg
  · exact h.grows hg

theorem Logged.run {m : PMsg} {L : LicText} {s s' : TvState} {as : List TvAttr} (h : Logged m s) (hs : s.run L as = .ok s') :
    Logged m s' := by
  induction as generalizing s with
  | nil => cases hs; exact h
  | cons a as ih =>
    unfold TvState.run at hs
    split at hs
    · rename_i s1 e; exact ih (h.step e) hs
    · cases hs

/-- The result is an error which has the message, by itself or in a list of messages for an element. -/
theorem Logged.result {m : PMsg} {s : TvState} (h : Logged m s) :
    ∃ log, s.result = .error (.parsing log) ∧ (m ∈ log ∨ ∃ n ms, .wrapped n ms ∈ log ∧ m ∈ ms) := by
  have hf := h.finish
  unfold TvState.result
  have hmem : m ∈ s.finish.log ++ (if s.finish.infoLog = [] then [] else [.wrapped s%"CreationInfo" s.finish.infoLog]) ∨
      ∃ n ms, .wrapped n ms ∈ s.finish.log ++ (if s.finish.infoLog = [] then [] else [.wrapped s%"CreationInfo" s.finish.infoLog]) ∧
        m ∈ ms := by
    rcases hf with h | ⟨n, ms, h, hm⟩ | h
    · exact .inl (List.mem_append_left _ h)
    · exact .inr ⟨n, ms, List.mem_append_left _ h, hm⟩
    · refine .inr ⟨s%"CreationInfo", _, List.mem_append_right _ ?_, h⟩
      rw [if_neg (List.ne_nil_of_mem h)]
      exact List.mem_singleton.2 rfl
  refine ⟨_, if_pos ?_, hmem⟩
  rcases hmem with h | ⟨n, ms, h, _⟩
  · exact List.ne_nil_of_mem h
  · exact List.ne_nil_of_mem h

end Spdx
