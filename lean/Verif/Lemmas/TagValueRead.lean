import Verif.Lemmas.TagValueFaults
import Verif.Spec.TvRead
import Verif.Spec.TvSlots
/- What one attribute does to the values collected. -/
namespace Spdx
open Spec

/-- The item that is kept for a value. -/
def itemOf (L : LicText) (tag : Str) (v : Tok) : Option TvItem :=
  if tag ∈ genericTextTags ∨ tag ∈ genericInfoTags ∨ tag ∈ textListTags.map (·.1) ∨ tag = s%"PackageAttributionText" then
    some (.str (textOrLineValue v))
  else if tag ∈ genericSpecialTags then some (lineOrSpecialValue v)
  else if tag ∈ licenseTags then some (licenseValue L v).1
  else if tag = s%"PackageSupplier" ∨ tag = s%"PackageOriginator" then
    match v with
    | .noAssertion => some .noAssertion
    | v => (asActor v).map .actor
  else if tag = s%"Creator" ∨ tag = s%"Annotator" then (asActor v).map .actor
  else if tag ∈ dateTags then (asDate v).map .date
  else if tag = s%"LicenseListVersion" then (asVersion v).map .version
  else if tag = s%"ExternalDocumentRef" then (asDocRef v).map .docRef
  else if tag = s%"FileType" then (asFileType v).map .fileType
  else if tag = s%"FileChecksum" ∨ tag = s%"PackageChecksum" then (asChecksum v).map .checksum
  else if tag = s%"PackageVerificationCode" then (asCode v).map .code
  else if tag = s%"FilesAnalyzed" then (asBool v).map .bool
  else if tag = s%"PrimaryPackagePurpose" then (asPurpose v).map .purpose
  else if tag = s%"SnippetByteRange" ∨ tag = s%"SnippetLineRange" then (asRange v).map .range
  else if tag = s%"AnnotationType" then (asAnnotationType v).map .annotationType
  else none

/-- The change made by one value. -/
inductive Eff (L : LicText) (e s' : TvState) (tag : Str) (v : Tok) : Prop where
  | one {c k x} : (tag, c, k, false) ∈ slots → e.cls = some c → itemOf L tag v = some x → e.elem.get? k = none →
      s' = { e with elem := e.elem.set k (.one x) } → Eff L e s' tag v
  | many {c k x} : (tag, c, k, true) ∈ slots → e.cls = some c → itemOf L tag v = some x → s' = e.appendElem k x → Eff L e s' tag v
  | infoOne {k x} : (tag, k, false) ∈ infoSlots → itemOf L tag v = some x → e.info.get? k = none →
      s' = { e with info := e.info.set k (.one x) } → Eff L e s' tag v
  | infoMany {k x} : (tag, k, true) ∈ infoSlots → itemOf L tag v = some x → s' = e.appendInfo k x → Eff L e s' tag v

theorem inScope_eff {s s' : TvState} {c : TvClass} {k : TvState → TvState} (h : s.inScope c k = s') :
    (∃ m, Logged m s') ∨ (s.cls = some c ∧ k s = s') := by
  by_cases hc : s.cls = some c
  · exact .inr ⟨hc, by rw [← h]; exact (if_pos hc).symm⟩
  · left; rw [← h]; exact ⟨_, outside_logged hc⟩

theorem setElem_eff {s s' : TvState} {tag : Str} {r : Except PMsg TvItem} (hc : s.cls ≠ none) (h : s.setElem tag r = s') :
    (∃ m, Logged m s') ∨ ∃ x, r = .ok x ∧ s.elem.get? (propertyName tag) = none ∧ s' = { s with elem := s.elem.set (propertyName tag) (.one x) } := by
  subst h
  unfold TvState.setElem
  split
  · exact .inl ⟨_, logElem_logged _ hc⟩
  · rename_i hn
    split
    · exact .inr ⟨_, rfl, by simpa using hn, rfl⟩
    · exact .inl ⟨_, logElem_logged _ hc⟩

theorem setInfo_eff {s s' : TvState} {tag : Str} {r : Except PMsg TvItem} (h : s.setInfo tag r = s') :
    (∃ m, Logged m s') ∨ ∃ x, r = .ok x ∧ s.info.get? (propertyName tag) = none ∧ s' = { s with info := s.info.set (propertyName tag) (.one x) } := by
  subst h
  unfold TvState.setInfo
  split
  · exact .inl ⟨_, logInfo_logged _ _⟩
  · rename_i hn
    split
    · exact .inr ⟨_, rfl, by simpa using hn, rfl⟩
    · exact .inl ⟨_, logInfo_logged _ _⟩

private theorem slots_generic : ∀ p ∈ slots,
    p.1 ∈ genericTextTags ++ genericSpecialTags ++ genericLicenseTags ++ [s%"PackageSupplier", s%"PackageOriginator"] →
      propertyName p.1 = p.2.2.1 ∧ tagClass p.1 = some p.2.1 ∧ p.2.2.2 = false := by decide +kernel

private theorem generic_slots : ∀ t ∈ genericTextTags ++ genericSpecialTags ++ genericLicenseTags ++ [s%"PackageSupplier", s%"PackageOriginator"],
    (tagClass t).any (fun c => (t, c, propertyName t, false) ∈ slots) = true ∧ t ≠ s%"Relationship" := by decide +kernel

private theorem generic_eff {L : LicText} {s s' : TvState} {tag : Str} {x : TvItem} {v : Tok}
    (ht : tag ∈ genericTextTags ++ genericSpecialTags ++ genericLicenseTags ++ [s%"PackageSupplier", s%"PackageOriginator"])
    (hx : itemOf L tag v = some x) (h : s.generic tag x = .ok s') : (∃ m, Logged m s') ∨ Eff L (s.entry (.value tag v)) s' tag v := by
  obtain ⟨h1, h2⟩ := generic_slots tag ht
  unfold TvState.generic at h
  split at h
  · cases h
  · rename_i c e
    rw [e, Option.any_some, decide_eq_true_eq] at h1
    simp only [Except.ok.injEq] at h
    have he : s.entry (.value tag v) = if (startTag tag).isSome then s.start c else s := by
      change (match startTag tag with | some c => s.start c | none => s) = _
      cases hs : startTag tag with
      | none => rfl
      | some c' =>
        have := tagClass_of_start tag c' hs h2
        rw [e] at this; cases this; rfl
    rw [← he] at h
    rcases inScope_eff h with h | ⟨hc, h⟩
    · exact .inl h
    · rcases setElem_eff (cls_ne hc) h with h | ⟨y, hy, hn, h⟩
      · exact .inl h
      · cases hy
        exact .inr (.one h1 hc hx hn h)

theorem item_text {L : LicText} {tag : Str} {v : Tok} (h : tag ∈ genericTextTags) : itemOf L tag v = some (.str (textOrLineValue v)) := by
  unfold itemOf; exact if_pos (.inl h)

theorem item_info {L : LicText} {tag : Str} {v : Tok} (h : tag ∈ genericInfoTags) : itemOf L tag v = some (.str (textOrLineValue v)) := by
  unfold itemOf; exact if_pos (.inr (.inl h))

theorem item_list {L : LicText} {tag : Str} {v : Tok} (h : tag ∈ textListTags.map (·.1)) :
    itemOf L tag v = some (.str (textOrLineValue v)) := by
  unfold itemOf; exact if_pos (.inr (.inr (.inl h)))

theorem item_special {L : LicText} {tag : Str} {v : Tok} (h : tag ∈ genericSpecialTags) : itemOf L tag v = some (lineOrSpecialValue v) := by
  have h' : ∀ t ∈ genericSpecialTags,
      ¬ (t ∈ genericTextTags ∨ t ∈ genericInfoTags ∨ t ∈ textListTags.map (·.1) ∨ t = s%"PackageAttributionText") := by decide +kernel
  unfold itemOf
  exact (if_neg (h' _ h)).trans (if_pos h)

theorem item_license {L : LicText} {tag : Str} {v : Tok} (h : tag ∈ licenseTags) : itemOf L tag v = some (licenseValue L v).1 := by
  have h' : ∀ t ∈ licenseTags,
      ¬ (t ∈ genericTextTags ∨ t ∈ genericInfoTags ∨ t ∈ textListTags.map (·.1) ∨ t = s%"PackageAttributionText") ∧ t ∉ genericSpecialTags := by
    decide +kernel
  unfold itemOf
  exact (if_neg (h' _ h).1).trans ((if_neg (h' _ h).2).trans (if_pos h))

theorem item_supplier {L : LicText} {tag : Str} {v : Tok} (h : tag ∈ [s%"PackageSupplier", s%"PackageOriginator"]) :
    itemOf L tag v = match v with
      | .noAssertion => some .noAssertion
      | v => (asActor v).map .actor := by
  simp only [List.mem_cons, List.not_mem_nil, or_false] at h
  rcases h with rfl | rfl
  · rfl
  · rfl

private theorem logged_license {L : LicText} {s s' : TvState} {v : Tok} (h : Moves (s.logLicense (licenseValue L v).2) s') (hc : s'.cls ≠ none)
    (hn : ¬ ∃ m, Logged m s') : s.logLicense (licenseValue L v).2 = s := by
  cases e : (licenseValue L v).2 with
  | none => rfl
  | some m =>
    exfalso
    rw [e] at h
    refine hn ⟨m, .inr (.inr (.inl ⟨hc, h.elemLog.subset ?_⟩))⟩
    exact List.mem_append_right _ (List.mem_singleton.2 rfl)

private theorem dateItem_ok {x : Str} {i : TvItem} (h : dateItem x = .ok i) : (datetimeFromStr x).map TvItem.date = some i := by
  unfold dateItem at h
  split at h
  · rename_i t e; cases h; rw [e]; rfl
  · cases h

private theorem actorItem_ok {x : Str} {i : TvItem} (h : actorItem x = .ok i) : (parseActor x).toOption.map TvItem.actor = some i := by
  unfold actorItem at h
  split at h
  · rename_i t e; cases h; rw [e]; rfl
  · cases h

private theorem entry_value {s : TvState} {tag : Str} {v : Tok} (h : startTag tag = none) : s.entry (.value tag v) = s := by
  change (match startTag tag with | some c => s.start c | none => s) = s
  rw [h]

private theorem is_none {α : Type} {x : Option α} (h : ¬ x.isSome = true) : x = none := by simpa using h

private theorem mem_slot {p : Str × TvClass × Str × Bool} (h : decide (p ∈ slots) = true) : p ∈ slots := of_decide_eq_true h
private theorem mem_infoSlot {p : Str × Str × Bool} (h : decide (p ∈ infoSlots) = true) : p ∈ infoSlots := of_decide_eq_true h

theorem attr_eff {L : LicText} {s s' : TvState} {tag : Str} {v : Tok} (h : s.attr L tag v = .ok s') :
    (∃ m, Logged m s') ∨ Eff L (s.entry (.value tag v)) s' tag v := by
  by_cases hl : ∃ m, Logged m s'
  · exact .inl hl
  have no : ∀ {P : Prop}, (∃ m, Logged m s') ∨ P → P := fun h => h.resolve_left hl
  right
  by_cases ht : tag ∈ genericTextTags
  · rw [attr_of_text ht] at h
    exact no (generic_eff (by simp [ht]) (item_text ht) h)
  by_cases ht2 : tag ∈ genericSpecialTags
  · rw [attr_of_special ht2] at h
    exact no (generic_eff (by simp [ht2]) (item_special ht2) h)
  by_cases ht3 : tag ∈ genericLicenseTags
  · rw [attr_of_license ht3] at h
    have hs : startTag tag = none := (show ∀ t ∈ genericLicenseTags, startTag t = none by decide +kernel) _ ht3
    have hr : tag ≠ s%"Relationship" := (show ∀ t ∈ genericLicenseTags, t ≠ s%"Relationship" by decide +kernel) _ ht3
    have hi : tag ∈ licenseTags := (show ∀ t ∈ genericLicenseTags, t ∈ licenseTags by decide +kernel) _ ht3
    have hm := generic_moves h hr
    rw [hs] at hm
    have hc : s'.cls ≠ none := by
      intro hn
      refine hl ?_
      unfold TvState.generic at h
      split at h
      · cases h
      · rename_i c e
        simp only [hs, Option.isSome_none, Bool.false_eq_true, if_false, Except.ok.injEq] at h
        rcases inScope_eff h with h | ⟨hc, h⟩
        · exact h
        · rw [hm.cls, hc] at hn; cases hn
    have e := logged_license hm hc hl
    rw [e] at h
    exact no (generic_eff (by simp [ht3]) (item_license hi) h)
  by_cases ht4 : tag ∈ [s%"PackageSupplier", s%"PackageOriginator"]
  · rw [attr_of_supplier ht4] at h
    have hi := item_supplier (L := L) (v := v) ht4
    have hg : tag ∈ genericTextTags ++ genericSpecialTags ++ genericLicenseTags ++ [s%"PackageSupplier", s%"PackageOriginator"] :=
      List.mem_append_right _ ht4
    split at h
    · exact no (generic_eff hg hi h)
    · rename_i w hw
      split at h
      · rename_i a e
        refine no (generic_eff hg ?_ h)
        rw [hi]
        split
        · exact absurd rfl hw
        · unfold asActor; rw [e]; rfl
      · cases h
  have ht4' : ¬ (tag = s%"PackageSupplier" ∨ tag = s%"PackageOriginator") := fun h => ht4 (by
    rcases h with h | h
    · exact List.mem_cons.2 (.inl h)
    · exact List.mem_cons_of_mem _ (List.mem_singleton.2 h))
  unfold TvState.attr at h
  replace h := (if_neg ht).symm.trans h
  replace h := (if_neg ht2).symm.trans h
  replace h := (if_neg ht3).symm.trans h
  replace h := (if_neg ht4').symm.trans h
  clear ht ht2 ht3 ht4 ht4'
  by_cases ht : tag ∈ genericInfoTags
  · replace h := (if_pos ht).symm.trans h
    have hs : startTag tag = none := (show ∀ t ∈ genericInfoTags, startTag t = none by decide +kernel) _ ht
    have hm : (tag, propertyName tag, false) ∈ infoSlots :=
      (show ∀ t ∈ genericInfoTags, (t, propertyName t, false) ∈ infoSlots by decide +kernel) _ ht
    obtain ⟨x, hx, hn, h⟩ := no (setInfo_eff (Except.ok.inj h))
    cases hx
    have he : s.entry (.value tag v) = s := entry_value hs
    rw [he]
    exact .infoOne hm (item_info ht) hn h
  replace h := (if_neg ht).symm.trans h
  by_cases ht : tag = s%"LicenseListVersion"
  · replace h := (if_pos ht).symm.trans h
    subst ht
    obtain ⟨x, hx, hn, h⟩ := no (setInfo_eff (Except.ok.inj h))
    refine .infoOne (k := s%"license_list_version") (mem_infoSlot (by decide +kernel)) (x := x) ?_ hn h
    split at hx
    · rename_i w e; cases hx
      change (versionFromString v.value).map TvItem.version = _
      rw [e]; rfl
    · cases hx
  replace h := (if_neg ht).symm.trans h
  by_cases ht : tag = s%"ExternalDocumentRef"
  · replace h := (if_pos ht).symm.trans h
    subst ht
    replace h := Except.ok.inj h
    split at h
    · rename_i r e
      refine .infoMany (k := s%"external_document_refs") (mem_infoSlot (by decide +kernel)) (x := .docRef r) ?_ h.symm
      change (parseDocRef v.value).toOption.map TvItem.docRef = _
      rw [e]; rfl
    · exact absurd ⟨_, h ▸ logInfo_logged _ _⟩ hl
  replace h := (if_neg ht).symm.trans h
  by_cases ht : tag = s%"Creator"
  · replace h := (if_pos ht).symm.trans h
    subst ht
    split at h
    · rename_i a e
      refine .infoMany (k := s%"creators") (mem_infoSlot (by decide +kernel)) (x := .actor a) ?_ (Except.ok.inj h).symm
      change (parseActor v.value).toOption.map TvItem.actor = _
      rw [e]; rfl
    · cases h
  replace h := (if_neg ht).symm.trans h
  by_cases ht : tag = s%"Created"
  · replace h := (if_pos ht).symm.trans h
    subst ht
    obtain ⟨x, hx, hn, h⟩ := no (setInfo_eff (Except.ok.inj h))
    exact .infoOne (k := s%"created") (mem_infoSlot (by decide +kernel)) (x := x) (dateItem_ok hx) hn h
  replace h := (if_neg ht).symm.trans h
  by_cases ht : tag = s%"FileType"
  · replace h := (if_pos ht).symm.trans h
    subst ht
    obtain ⟨hc, h⟩ := no (inScope_eff (Except.ok.inj h))
    split at h
    · rename_i t e
      refine .many (k := s%"file_types") (c := .file) (mem_slot (by decide +kernel)) hc (x := .fileType t) ?_ h.symm
      change (FileType.ofName? (strip v.value)).map TvItem.fileType = _
      rw [e]; rfl
    · exact absurd ⟨_, h ▸ logElem_logged _ (cls_ne hc)⟩ hl
  replace h := (if_neg ht).symm.trans h
  have hcs : ∀ c, (tag = s%"FileChecksum" ∧ c = .file) ∨ (tag = s%"PackageChecksum" ∧ c = .package) → s.checksumAttr c v.value = .ok s' →
      Eff L (s.entry (.value tag v)) s' tag v := by
    intro c hm h
    have hm' : s.entry (.value tag v) = s ∧ (tag, c, s%"checksums", true) ∈ slots ∧ itemOf L tag v = (checksumFromTv v.value).map TvItem.checksum := by
      rcases hm with ⟨rfl, rfl⟩ | ⟨rfl, rfl⟩
      · exact ⟨rfl, mem_slot (by decide +kernel), rfl⟩
      · exact ⟨rfl, mem_slot (by decide +kernel), rfl⟩
    unfold TvState.checksumAttr at h
    split at h
    · rename_i hc
      split at h
      · rename_i x e
        rw [hm'.1]
        exact .many hm'.2.1 hc (x := .checksum x) (by rw [hm'.2.2, e]; rfl) (Except.ok.inj h).symm
      · cases h
    · rename_i hc
      exact absurd (Except.ok.inj h ▸ ⟨_, outside_logged hc⟩) hl
  by_cases ht : tag = s%"FileChecksum"
  · replace h := (if_pos ht).symm.trans h
    exact hcs .file (.inl ⟨ht, rfl⟩) h
  replace h := (if_neg ht).symm.trans h
  by_cases ht : tag = s%"PackageChecksum"
  · replace h := (if_pos ht).symm.trans h
    exact hcs .package (.inr ⟨ht, rfl⟩) h
  replace h := (if_neg ht).symm.trans h
  clear hcs
  by_cases ht : tag = s%"PackageAttributionText"
  · replace h := (if_pos ht).symm.trans h
    subst ht
    replace h := Except.ok.inj h
    by_cases hc : s.cls = some .package
    · refine .many (k := s%"attribution_texts") (c := .package) (mem_slot (by decide +kernel)) hc (x := .str (textOrLineValue v)) rfl ?_
      rw [← h]
      unfold TvState.inScope
      rw [if_pos hc]; rfl
    · have hm := outside_logged (s := s) (c := .package) (k := id) hc
      exact absurd ⟨_, h ▸ hm.grows (Moves.appendElem _ _ _).grows⟩ hl
  replace h := (if_neg ht).symm.trans h
  by_cases ht : tag = s%"PackageVerificationCode"
  · replace h := (if_pos ht).symm.trans h
    subst ht
    obtain ⟨hc, h⟩ := no (inScope_eff (Except.ok.inj h))
    split at h
    · exact absurd ⟨_, h ▸ logElem_logged _ (cls_ne hc)⟩ hl
    · rename_i hn
      split at h
      · rename_i x e
        refine .one (k := s%"verification_code") (c := .package) (mem_slot (by decide +kernel)) hc (x := .code x) ?_ (is_none hn) h.symm
        change (parseTvCode v.value).map TvItem.code = _
        rw [e]; rfl
      · exact absurd ⟨_, h ▸ logElem_logged _ (cls_ne hc)⟩ hl
  replace h := (if_neg ht).symm.trans h
  by_cases ht : tag = s%"FilesAnalyzed"
  · replace h := (if_pos ht).symm.trans h
    subst ht
    obtain ⟨hc, h⟩ := no (inScope_eff (Except.ok.inj h))
    have hi : itemOf L s%"FilesAnalyzed" v = (asBool v).map TvItem.bool := rfl
    by_cases hn : (s.elem.get? s%"files_analyzed").isSome
    · replace h := (if_pos hn).symm.trans h
      exact absurd ⟨_, h ▸ logElem_logged _ (cls_ne hc)⟩ hl
    · replace h := (if_neg hn).symm.trans h
      by_cases h1 : v.value = s%"true"
      · replace h := (if_pos h1).symm.trans h
        refine .one (k := s%"files_analyzed") (c := .package) (mem_slot (by decide +kernel)) hc (x := .bool true) ?_ (is_none hn) h.symm
        rw [hi]; unfold asBool; rw [if_pos h1]; rfl
      · replace h := (if_neg h1).symm.trans h
        by_cases h2 : v.value = s%"false"
        · replace h := (if_pos h2).symm.trans h
          refine .one (k := s%"files_analyzed") (c := .package) (mem_slot (by decide +kernel)) hc (x := .bool false) ?_ (is_none hn) h.symm
          rw [hi]; unfold asBool; rw [if_neg h1, if_pos h2]; rfl
        · replace h := (if_neg h2).symm.trans h
          exact absurd ⟨_, h ▸ logElem_logged _ (cls_ne hc)⟩ hl
  replace h := (if_neg ht).symm.trans h
  by_cases ht : tag = s%"PrimaryPackagePurpose"
  · replace h := (if_pos ht).symm.trans h
    subst ht
    obtain ⟨hc, h⟩ := no (inScope_eff (Except.ok.inj h))
    obtain ⟨x, hx, hn, h⟩ := no (setElem_eff (cls_ne hc) h)
    refine .one (k := s%"primary_package_purpose") (c := .package) (mem_slot (by decide +kernel)) hc (x := x) ?_ hn h
    change (PackagePurpose.ofName? (replaceChar '-' ['_'] v.value)).map TvItem.purpose = _
    split at hx
    · rename_i w e; cases hx; rw [e]; rfl
    · cases hx
  replace h := (if_neg ht).symm.trans h
  by_cases ht : tag = s%"BuiltDate" ∨ tag = s%"ReleaseDate" ∨ tag = s%"ValidUntilDate"
  · replace h := (if_pos ht).symm.trans h
    obtain ⟨hc, h⟩ := no (inScope_eff (Except.ok.inj h))
    obtain ⟨x, hx, hn, h⟩ := no (setElem_eff (cls_ne hc) h)
    have hm : s.entry (.value tag v) = s ∧ (tag, TvClass.package, propertyName tag, false) ∈ slots ∧
        itemOf L tag v = (datetimeFromStr v.value).map TvItem.date := by
      rcases ht with rfl | rfl | rfl
      · exact ⟨rfl, mem_slot (by decide +kernel), rfl⟩
      · exact ⟨rfl, mem_slot (by decide +kernel), rfl⟩
      · exact ⟨rfl, mem_slot (by decide +kernel), rfl⟩
    rw [hm.1]
    exact .one hm.2.1 hc (hm.2.2.trans (dateItem_ok hx)) hn h
  replace h := (if_neg ht).symm.trans h
  by_cases ht : tag = s%"SnippetByteRange" ∨ tag = s%"SnippetLineRange"
  · replace h := (if_pos ht).symm.trans h
    obtain ⟨hc, h⟩ := no (inScope_eff (Except.ok.inj h))
    have hm : s.entry (.value tag v) = s ∧ (tag, TvClass.snippet, propertyName tag, false) ∈ slots ∧
        itemOf L tag v = (parseTvRange v.value).map TvItem.range := by
      rcases ht with rfl | rfl
      · exact ⟨rfl, mem_slot (by decide +kernel), rfl⟩
      · exact ⟨rfl, mem_slot (by decide +kernel), rfl⟩
    rw [hm.1]
    split at h
    · exact absurd ⟨_, h ▸ logElem_logged _ (cls_ne hc)⟩ hl
    · rename_i hn
      split at h
      · rename_i x e
        exact .one hm.2.1 hc (x := .range x) (by rw [hm.2.2, e]; rfl) (is_none hn) h.symm
      · exact absurd ⟨_, h ▸ logElem_logged _ (cls_ne hc)⟩ hl
  replace h := (if_neg ht).symm.trans h
  by_cases ht : tag = s%"Annotator"
  · replace h := (if_pos ht).symm.trans h
    subst ht
    have hc : (s.start .annotation).cls = some .annotation := rfl
    obtain ⟨x, hx, hn, h⟩ := no (setElem_eff (cls_ne hc) (Except.ok.inj h))
    exact .one (k := s%"annotator") (c := .annotation) (mem_slot (by decide +kernel)) hc (x := x) (actorItem_ok hx) hn h
  replace h := (if_neg ht).symm.trans h
  by_cases ht : tag = s%"AnnotationDate"
  · replace h := (if_pos ht).symm.trans h
    subst ht
    obtain ⟨hc, h⟩ := no (inScope_eff (Except.ok.inj h))
    obtain ⟨x, hx, hn, h⟩ := no (setElem_eff (cls_ne hc) h)
    exact .one (k := s%"annotation_date") (c := .annotation) (mem_slot (by decide +kernel)) hc (x := x) (dateItem_ok hx) hn h
  replace h := (if_neg ht).symm.trans h
  by_cases ht : tag = s%"AnnotationType"
  · replace h := (if_pos ht).symm.trans h
    subst ht
    obtain ⟨hc, h⟩ := no (inScope_eff (Except.ok.inj h))
    obtain ⟨x, hx, hn, h⟩ := no (setElem_eff (cls_ne hc) h)
    refine .one (k := s%"annotation_type") (c := .annotation) (mem_slot (by decide +kernel)) hc (x := x) ?_ hn h
    change (AnnotationType.ofName? v.value).map TvItem.annotationType = _
    split at hx
    · rename_i w e; cases hx; rw [e]; rfl
    · cases hx
  replace h := (if_neg ht).symm.trans h
  have lookup_mem : ∀ {l : List (Str × TvClass × Str)} {p : TvClass × Str}, l.lookup tag = some p → (tag, p) ∈ l := by
    intro l p hp
    induction l with
    | nil => cases hp
    | cons q l ih =>
      obtain ⟨a, b⟩ := q
      simp only [List.lookup] at hp
      split at hp
      · rename_i e; cases hp; rw [eq_of_beq e]; exact List.mem_cons_self
      · exact List.mem_cons_of_mem _ (ih hp)
  split at h
  · rename_i c k e
    have hm := lookup_mem e
    have h1 : ∀ p ∈ textListTags, (p.1, p.2.1, p.2.2, true) ∈ slots ∧ startTag p.1 = none ∧ p.1 ∈ textListTags.map (·.1) := by decide +kernel
    obtain ⟨h1, h2, h3⟩ := h1 _ hm
    obtain ⟨hc, h⟩ := no (inScope_eff (Except.ok.inj h))
    have he : s.entry (.value tag v) = s := entry_value h2
    rw [he]
    exact .many h1 hc (item_list h3) h.symm
  · split at h
    · rename_i c k e
      have hm := lookup_mem e
      have h1 : ∀ p ∈ licenseListTags, (p.1, p.2.1, p.2.2, true) ∈ slots ∧ startTag p.1 = none ∧ p.1 ∈ licenseTags := by decide +kernel
      obtain ⟨h1, h2, h3⟩ := h1 _ hm
      have he : s.entry (.value tag v) = s := entry_value h2
      rw [he]
      have h := Except.ok.inj h
      have hm : Moves (s.logLicense (licenseValue L v).2) s' := by rw [← h]; exact .inScope _ _ (.appendElem _ _ _)
      obtain ⟨hc, h⟩ := no (inScope_eff h)
      rw [logged_license hm (by rw [hm.cls]; exact cls_ne hc) hl] at h hc
      exact .many h1 hc (item_license h3) h.symm
    · cases h

end Spdx
