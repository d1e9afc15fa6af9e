import Verif.Lemmas.ToldLines
/- One attribute: the reader with line numbers and the reader without them. -/
namespace Spdx.Told
open Spdx Spec
variable {L : LicText} {n : Nat} {e t s t' s' : TvState}

theorem bare_contains (f : File) : bare (t.addContains f) = (bare t).addContains f := by
  unfold TvState.addContains
  have hb : (bare t).packages = t.packages := rfl
  have hr : (bare t).relationships = t.relationships := rfl
  rw [hb, hr]
  cases t.packages with
  | none => rfl
  | some ps =>
    dsimp only
    cases ps.getLast? with
    | none => simp [bare, withoutLines]
    | some p =>
      dsimp only
      split
      · rfl
      · rfl

theorem bare_build (c : TvClass) : bare (t.build c) = (bare t).build c := by
  unfold TvState.build
  have hd : (bare t).elem = t.elem := rfl
  rw [hd]
  by_cases hl : t.elemLog = []
  · rw [if_neg (not_not_intro hl), if_neg (not_not_intro (by simp [bare, hl]))]
    cases c
    case file =>
      dsimp only
      cases mkFile t.elem with
      | ok f => exact bare_contains (t := { t with files := t.files ++ [f] }) f
      | error x => simp [bare, withoutLines]
    case package =>
      dsimp only
      cases mkPackage t.elem with
      | ok f => rfl
      | error x => simp [bare, withoutLines]
    case snippet =>
      dsimp only
      cases mkSnippet t.elem with
      | ok f => rfl
      | error x => simp [bare, withoutLines]
    case annotation =>
      dsimp only
      cases mkAnnotation t.elem with
      | ok f => rfl
      | error x => simp [bare, withoutLines]
    case relationship =>
      dsimp only
      cases mkRelationship t.elem with
      | ok f => rfl
      | error x => simp [bare, withoutLines]
    case extracted =>
      dsimp only
      cases mkExtracted t.elem with
      | ok f => rfl
      | error x => simp [bare, withoutLines]
  · rw [if_pos hl, if_pos (by simpa [bare] using hl)]
    simp [bare, withoutLines, all_eq]

theorem bare_finish : bare t.finish = (bare t).finish := by
  unfold TvState.finish
  have hb : (bare t).cls = t.cls := rfl
  rw [hb]
  cases t.cls with
  | none => rfl
  | some c => dsimp only; rw [← bare_build]; rfl

theorem bare_start (c : TvClass) : bare (t.start c) = (bare t).start c := by
  unfold TvState.start
  rw [← bare_finish]; rfl

theorem bare_entry (a : TvAttr) : bare (t.entry a) = (bare t).entry a := by
  unfold TvState.entry
  cases a.starts with
  | none => rfl
  | some c => exact bare_start c

/-- The same result, with and without line numbers. -/
def SaysPy (n : Nat) (e : TvState) : Py TvState → Py TvState → Prop
  | .ok t', .ok s' => Says n e t' s'
  | .error x, .error y => x = y ∧ errWithoutLines x = x
  | _, _ => False

theorem says_generic {tag : Str} {v : TvItem} (hr : tag ≠ s%"Relationship") :
    SaysPy n (match startTag tag with | some c => t.start c | none => t) (t.genericAt n tag v) ((bare t).generic tag v) := by
  unfold TvState.genericAt TvState.generic
  cases hc : tagClass tag with
  | none => exact ⟨rfl, rfl⟩
  | some c =>
    dsimp only
    cases hst : startTag tag with
    | none => exact Says.inScope (k := fun s => s.setElemAt n tag (.ok v)) (k' := fun s => s.setElem tag (.ok v)) (.setElem rfl)
    | some c' =>
      have := tagClass_of_start tag c' hst hr
      rw [hc] at this; cases this
      simp only [Option.isSome_some, if_true]
      rw [← bare_start]
      exact Says.inScope (k := fun s => s.setElemAt n tag (.ok v)) (k' := fun s => s.setElem tag (.ok v)) (.setElem rfl)

private theorem generic_tags' : ∀ t ∈ genericTextTags ++ genericSpecialTags ++ genericLicenseTags, t ≠ s%"Relationship" := by decide +kernel
private theorem license_tags' : ∀ t ∈ genericLicenseTags, startTag t = none := by decide +kernel
private theorem info_tags' : ∀ t ∈ genericInfoTags, startTag t = none := by decide +kernel
private theorem list_tags' : ∀ t ∈ textListTags.map (·.1), startTag t = none := by decide +kernel
private theorem license_list_tags' : ∀ t ∈ licenseListTags.map (·.1), startTag t = none := by decide +kernel

private theorem lookup_keys' {β : Type} {l : List (Str × β)} {k : Str} {v : β} (h : l.lookup k = some v) : k ∈ l.map (·.1) := by
  induction l with
  | nil => cases h
  | cons p l ih =>
    obtain ⟨a, b⟩ := p
    simp only [List.lookup] at h
    split at h
    · rename_i e
      rw [eq_of_beq e]; exact List.mem_cons_self
    · exact List.mem_cons_of_mem _ (ih h)

theorem says_checksum (c : TvClass) (v : Str) : SaysPy n t (t.checksumAttrAt n c v) ((bare t).checksumAttr c v) := by
  unfold TvState.checksumAttrAt TvState.checksumAttr
  have hb : (bare t).cls = t.cls := rfl
  rw [hb]
  by_cases hc : t.cls = some c
  · rw [if_pos hc, if_pos hc]
    cases checksumFromTv v with
    | none => exact ⟨rfl, rfl⟩
    | some x => exact Says.quiet _ _
  · rw [if_neg hc, if_neg hc]
    exact Says.inScope (k := id) (k' := id) .refl

theorem says_attr (tag : Str) (v : Tok) : SaysPy n (t.entry (.value tag v)) (t.attrAt L n tag v) ((bare t).attr L tag v) := by
  unfold TvState.attrAt TvState.attr
  by_cases ht : tag ∈ genericTextTags
  · rw [if_pos ht, if_pos ht]
    exact says_generic (generic_tags' tag (by simp [ht]))
  rw [if_neg ht, if_neg ht]
  by_cases ht : tag ∈ genericSpecialTags
  · rw [if_pos ht, if_pos ht]
    exact says_generic (generic_tags' tag (by simp [ht]))
  rw [if_neg ht, if_neg ht]
  by_cases ht : tag ∈ genericLicenseTags
  · rw [if_pos ht, if_pos ht]
    have h1 := Says.license (L := L) (n := n) (e := t) v
    have := says_generic (n := n) (t := t.logLicense (licenseValue L v).2) (v := (licenseValue L v).1) (generic_tags' tag (by simp [ht]))
    rw [h1.erase] at this
    rw [license_tags' tag ht] at this
    rw [entry_none (license_tags' tag ht)]
    revert this
    generalize ((t.logLicense (licenseValue L v).2).genericAt n tag (licenseValue L v).1) = A
    generalize (((bare t).logLicense (licenseValue L v).2).generic tag (licenseValue L v).1) = B
    intro this
    cases A with
    | ok A => cases B with
      | ok B => exact h1.trans this
      | error y => exact this
    | error x => cases B with
      | ok B => exact this
      | error y => exact this
  rw [if_neg ht, if_neg ht]
  by_cases ht : tag = s%"PackageSupplier" ∨ tag = s%"PackageOriginator"
  · rw [if_pos ht, if_pos ht]
    have hr : tag ≠ s%"Relationship" := by rcases ht with rfl | rfl <;> decide
    cases v
    case noAssertion => exact says_generic hr
    all_goals
      dsimp only
      generalize parseActor _ = r
      cases r with
      | ok a => exact says_generic hr
      | error x => exact ⟨rfl, by cases x <;> rfl⟩
  rw [if_neg ht, if_neg ht]
  by_cases ht : tag ∈ genericInfoTags
  · rw [if_pos ht, if_pos ht, entry_none (info_tags' tag ht)]
    exact Says.setInfo rfl
  rw [if_neg ht, if_neg ht]
  by_cases ht : tag = s%"LicenseListVersion"
  · rw [if_pos ht, if_pos ht]
    subst ht
    refine Says.setInfo ?_
    cases versionFromString v.value with
    | some x => rfl
    | none => exact stamped_no rfl (by simp [lineless])
  rw [if_neg ht, if_neg ht]
  by_cases ht : tag = s%"ExternalDocumentRef"
  · rw [if_pos ht, if_pos ht]
    subst ht
    show Says n t _ _
    cases h : parseDocRef v.value with
    | ok r => exact .quiet _ _
    | error m => exact (stamped_docRef h).info
  rw [if_neg ht, if_neg ht]
  by_cases ht : tag = s%"Creator"
  · rw [if_pos ht, if_pos ht]
    subst ht
    cases parseActor v.value with
    | ok x => exact Says.quiet (e := t) _ _
    | error x => exact ⟨rfl, by cases x <;> rfl⟩
  rw [if_neg ht, if_neg ht]
  by_cases ht : tag = s%"Created"
  · rw [if_pos ht, if_pos ht]
    subst ht; exact Says.setInfo (e := t) (agrees_date _)
  rw [if_neg ht, if_neg ht]
  by_cases ht : tag = s%"FileType"
  · rw [if_pos ht, if_pos ht]
    subst ht
    refine Says.inScope (e := t) ?_
    cases FileType.ofName? (strip v.value) with
    | some x => exact .quiet _ _
    | none => exact (stamped_invalid (by decide +kernel)).elem
  rw [if_neg ht, if_neg ht]
  by_cases ht : tag = s%"FileChecksum"
  · rw [if_pos ht, if_pos ht]
    subst ht; exact says_checksum (t := t) _ _
  rw [if_neg ht, if_neg ht]
  by_cases ht : tag = s%"PackageChecksum"
  · rw [if_pos ht, if_pos ht]
    subst ht; exact says_checksum (t := t) _ _
  rw [if_neg ht, if_neg ht]
  by_cases ht : tag = s%"PackageAttributionText"
  · rw [if_pos ht, if_pos ht]
    subst ht
    have h1 : Says n t (t.inScopeAt n .package id) ((bare t).inScope .package id) := Says.inScope (k := id) (k' := id) .refl
    refine Says.trans (e := t) h1 ?_
    have := h1.erase
    rw [← this]
    exact .quiet _ _
  rw [if_neg ht, if_neg ht]
  by_cases ht : tag = s%"PackageVerificationCode"
  · rw [if_pos ht, if_pos ht]
    subst ht
    refine Says.inScope (e := t) ?_
    have hb : (bare t).elem = t.elem := rfl
    rw [hb]
    split
    · exact (stamped_multiple _).elem
    · cases parseTvCode v.value with
      | some x => exact .quiet _ _
      | none => exact (stamped_invalid (by decide +kernel)).elem
  rw [if_neg ht, if_neg ht]
  by_cases ht : tag = s%"FilesAnalyzed"
  · rw [if_pos ht, if_pos ht]
    subst ht
    refine Says.inScope (e := t) ?_
    have hb : (bare t).elem = t.elem := rfl
    rw [hb]
    split
    · exact (stamped_multiple _).elem
    · split
      · exact .quiet _ _
      · split
        · exact .quiet _ _
        · exact (stamped_no rfl (by simp [lineless])).elem
  rw [if_neg ht, if_neg ht]
  by_cases ht : tag = s%"PrimaryPackagePurpose"
  · rw [if_pos ht, if_pos ht]
    subst ht
    refine Says.inScope (e := t) (Says.setElem ?_)
    cases PackagePurpose.ofName? (replaceChar '-' ['_'] v.value) with
    | some x => rfl
    | none => exact stamped_invalid (by decide +kernel)
  rw [if_neg ht, if_neg ht]
  by_cases ht : tag = s%"BuiltDate" ∨ tag = s%"ReleaseDate" ∨ tag = s%"ValidUntilDate"
  · rw [if_pos ht, if_pos ht]
    have : startTag tag = none := by rcases ht with rfl | rfl | rfl <;> decide
    rw [entry_none this]
    exact Says.inScope (e := t) (Says.setElem (agrees_date _))
  rw [if_neg ht, if_neg ht]
  by_cases ht : tag = s%"SnippetByteRange" ∨ tag = s%"SnippetLineRange"
  · rw [if_pos ht, if_pos ht]
    have : startTag tag = none := by rcases ht with rfl | rfl <;> decide
    have hi : tag ∉ [s%"license expression", s%"date", s%"LicenseListVersion", s%"FilesAnalyzed"] := by
      rcases ht with rfl | rfl <;> decide +kernel
    rw [entry_none this]
    refine Says.inScope (e := t) ?_
    have hb : (bare t).elem = t.elem := rfl
    rw [hb]
    split
    · exact (stamped_multiple _).elem
    · cases parseTvRange v.value with
      | some x => exact .quiet _ _
      | none => exact (stamped_invalid hi).elem
  rw [if_neg ht, if_neg ht]
  by_cases ht : tag = s%"Annotator"
  · rw [if_pos ht, if_pos ht]
    subst ht
    rw [← bare_start]
    exact Says.setElem (e := t.start .annotation) (agrees_actor _)
  rw [if_neg ht, if_neg ht]
  by_cases ht : tag = s%"AnnotationDate"
  · rw [if_pos ht, if_pos ht]
    subst ht
    exact Says.inScope (e := t) (Says.setElem (agrees_date _))
  rw [if_neg ht, if_neg ht]
  by_cases ht : tag = s%"AnnotationType"
  · rw [if_pos ht, if_pos ht]
    subst ht
    refine Says.inScope (e := t) (Says.setElem ?_)
    cases AnnotationType.ofName? v.value with
    | some x => rfl
    | none => exact stamped_invalid (by decide +kernel)
  rw [if_neg ht, if_neg ht]
  cases h1 : textListTags.lookup tag with
  | some ck =>
    obtain ⟨c, k⟩ := ck
    rw [entry_none (list_tags' tag (lookup_keys' h1))]
    exact Says.inScope (e := t) (k := fun s => s.appendElem k (.str (textOrLineValue v))) (k' := fun s => s.appendElem k (.str (textOrLineValue v)))
      (.quiet _ _)
  | none =>
    dsimp only
    cases h2 : licenseListTags.lookup tag with
    | some ck =>
      obtain ⟨c, k⟩ := ck
      rw [entry_none (license_list_tags' tag (lookup_keys' h2))]
      have h1 := Says.license (L := L) (n := n) (e := t) v
      refine Says.trans (e := t) h1 ?_
      rw [← h1.erase]
      exact Says.inScope (k := fun s => s.appendElem k (licenseValue L v).1) (k' := fun s => s.appendElem k (licenseValue L v).1) (.quiet _ _)
    | none => exact ⟨rfl, rfl⟩

theorem says_step (a : TvAttr) : SaysPy n (t.entry a) (t.stepAt L n a) ((bare t).step L a) := by
  cases a with
  | value tag v => exact says_attr tag v
  | bad tag =>
    have hm : Stamped n (.atLine n (.text (s%"Error while parsing " ++ tag))) (.text (s%"Error while parsing " ++ tag)) := stamped_text 'E' _ (by decide)
    show SaysPy n (t.entry (.bad tag)) (t.badAttrAt n tag) ((bare t).badAttr tag)
    unfold TvState.badAttrAt TvState.badAttr TvState.entry TvAttr.starts
    by_cases h : tag ∈ infoTags
    · simp only [if_pos h]
      exact hm.info
    · simp only [if_neg h]
      cases hst : startTag tag with
      | none => exact hm.elem
      | some c =>
        simp only [Option.isSome_some, if_true]
        by_cases hr : tag = s%"Relationship"
        · subst hr
          cases hst
          have hk : tagClass s%"Relationship" = none := by decide +kernel
          rw [hk]
          exact ⟨rfl, rfl⟩
        · rw [tagClass_of_start tag c hst hr]
          show Says n (t.start c) _ _
          rw [← bare_start]
          exact hm.elem
  | spdxId v =>
    show Says n t _ _
    have hi : (bare t).info = t.info := rfl
    rw [hi]
    split
    · exact .quiet _ _
    · exact .quiet _ _
  | unknown =>
    have hm : Stamped n (.atLine n (.text s%"Unknown tag provided")) (.text s%"Unknown tag provided") := stamped_text 'U' _ (by decide)
    show Says n t { t with log := t.log ++ [.atLine n (.text s%"Unknown tag provided")] } { bare t with log := (bare t).log ++ [.text s%"Unknown tag provided"] }
    rw [hm.1]
    exact .log hm.2
  | commented tag line c =>
    show SaysPy n (t.entry (.commented tag line c)) (if tag = _ then _ else _) (if tag = _ then _ else _)
    unfold TvState.entry TvAttr.starts
    by_cases h : tag = s%"Relationship"
    · simp only [if_pos h]
      show Says n (t.start .relationship) _ _
      rw [← bare_start]
      exact .relationship _ _
    · simp only [if_neg h]
      refine Says.inScope (e := t) ?_
      cases hx : parseTvExtRef line (c.map textOrLineValue) with
      | ok r => exact .quiet _ _
      | error m => exact (stamped_extRef hx).elem

end Spdx.Told
