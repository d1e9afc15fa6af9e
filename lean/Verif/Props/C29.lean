import Verif.Lemmas.TagValueStep
import Verif.Spec.Example
/-
C29: setting a single-valued field twice in one element is reported, and never overwrites the first value.

The full property is false for one tag, `SPDXID`: see `spdx_id_overwritten`.  The theorems with the suffix `_partial` are the property for
all other single-valued tags; nothing else is missing.
-/
namespace Spdx.C29
open Spdx

/-! ## Specification -/

/-- The single-valued tags of the elements, other than `SPDXID` and the tags that start an element. -/
def single : List (Str × TvClass) :=
  [(s%"ExtractedText", .extracted), (s%"LicenseComment", .extracted), (s%"LicenseName", .extracted),
   (s%"FileNotice", .file), (s%"LicenseComments", .file), (s%"FileComment", .file), (s%"FileCopyrightText", .file),
   (s%"LicenseConcluded", .file),
   (s%"PackageDescription", .package), (s%"PackageSummary", .package), (s%"PackageSourceInfo", .package), (s%"PackageComment", .package),
   (s%"PackageFileName", .package), (s%"PackageVersion", .package), (s%"PackageLicenseComments", .package),
   (s%"PackageHomePage", .package), (s%"PackageDownloadLocation", .package), (s%"PackageCopyrightText", .package),
   (s%"PackageLicenseDeclared", .package), (s%"PackageLicenseConcluded", .package), (s%"PackageSupplier", .package),
   (s%"PackageOriginator", .package), (s%"PackageVerificationCode", .package), (s%"FilesAnalyzed", .package),
   (s%"PrimaryPackagePurpose", .package), (s%"BuiltDate", .package), (s%"ReleaseDate", .package), (s%"ValidUntilDate", .package),
   (s%"SnippetName", .snippet), (s%"SnippetComment", .snippet), (s%"SnippetLicenseComments", .snippet),
   (s%"SnippetFromFileSPDXID", .snippet), (s%"SnippetCopyrightText", .snippet), (s%"SnippetLicenseConcluded", .snippet),
   (s%"SnippetByteRange", .snippet), (s%"SnippetLineRange", .snippet),
   (s%"SPDXREF", .annotation), (s%"AnnotationComment", .annotation), (s%"AnnotationDate", .annotation),
   (s%"AnnotationType", .annotation)]

/-- The single-valued tags of the document's creation information. -/
def singleInfo : List Str :=
  [s%"SPDXVersion", s%"DataLicense", s%"DocumentName", s%"DocumentNamespace", s%"DocumentComment", s%"LicenseListVersion", s%"Created",
   s%"CreatorComment"]

/-- The tags that start an element. -/
def starting : List Str := [s%"PackageName", s%"FileName", s%"SnippetSPDXID", s%"LicenseID", s%"Annotator", s%"Relationship"]

/-- The attribute belongs to the element that the attributes before it belong to. -/
def Continues : TvAttr → Prop
  | .value tag _ | .bad tag | .commented tag _ _ => tag ∉ starting
  | .spdxId _ | .unknown => True

/-! ## Proofs -/

/-- What setting a single-valued field does to the current element. -/
private structure Sets (c : TvClass) (key tag : Str) (s s' : TvState) : Prop where
  other : s.cls ≠ some c → ∃ m, Logged m s'
  again : s.cls = some c → (s.elem.get? key).isSome → s'.elem = s.elem ∧ multipleMsg tag ∈ s'.elemLog ∧ s'.cls = some c
  first : s.cls = some c → s'.cls = some c ∧ (s'.elemLog ≠ [] ∨ (s'.elem.get? key).isSome)

private theorem inScope_sets {c : TvClass} {key tag : Str} {s : TvState} {k : TvState → TvState}
    (h : s.cls = some c → Sets c key tag s (k s)) : Sets c key tag s (s.inScope c k) := by
  unfold TvState.inScope
  split
  · rename_i e; exact h e
  · rename_i e
    exact ⟨fun _ => ⟨_, .inl (List.mem_append_right _ (List.mem_singleton.2 rfl))⟩, fun h => absurd h e, fun h => absurd h e⟩

private theorem logElem_sets {c : TvClass} {key tag : Str} {s : TvState} {m : PMsg} (hc : s.cls = some c)
    (h : (s.elem.get? key).isSome → m = multipleMsg tag) : Sets c key tag s (s.logElem m) := by
  refine ⟨fun h => absurd hc h, fun _ hk => ⟨rfl, ?_, hc⟩, fun _ => ⟨hc, .inl ?_⟩⟩
  · rw [h hk]; exact List.mem_append_right _ (List.mem_singleton.2 rfl)
  · exact List.ne_nil_of_mem (List.mem_append_right _ (List.mem_singleton.2 rfl))

private theorem set_sets {c : TvClass} {key tag : Str} {s : TvState} {v : TvVal} (hc : s.cls = some c)
    (h : ¬ (s.elem.get? key).isSome) : Sets c key tag s { s with elem := s.elem.set key v } := by
  refine ⟨fun h => absurd hc h, fun _ hk => absurd hk h, fun _ => ⟨hc, .inr ?_⟩⟩
  rw [Dict.get?_set, if_pos rfl]; rfl

private theorem setElem_sets {c : TvClass} {tag : Str} {s : TvState} {v : Except PMsg TvItem} (hc : s.cls = some c) :
    Sets c (propertyName tag) tag s (s.setElem tag v) := by
  unfold TvState.setElem
  split
  · exact logElem_sets hc (fun _ => rfl)
  · rename_i h
    split
    · exact set_sets hc h
    · exact logElem_sets hc (fun h' => absurd h' h)

private theorem generic_sets {c : TvClass} {tag : Str} {s s' : TvState} {v : TvItem} (hc : tagClass tag = some c) (hs : startTag tag = none)
    (h : s.generic tag v = .ok s') : Sets c (propertyName tag) tag s s' := by
  unfold TvState.generic at h
  rw [hc] at h
  simp only [hs, Option.isSome_none, Bool.false_eq_true, if_false, Except.ok.injEq] at h
  subst h
  exact inScope_sets setElem_sets

private theorem after_log {c : TvClass} {key tag : Str} {s s' : TvState} {m : Option PMsg}
    (h : Sets c key tag (s.logLicense m) s') : Sets c key tag s s' := by
  cases m with
  | none => exact h
  | some m => exact ⟨h.other, h.again, h.first⟩

private theorem lookup_keys {β : Type} {l : List (Str × β)} {k : Str} {v : β} (h : l.lookup k = some v) : k ∈ l.map (·.1) := by
  induction l with
  | nil => cases h
  | cons p l ih =>
    obtain ⟨a, b⟩ := p
    simp only [List.lookup] at h
    split at h
    · rename_i e
      rw [eq_of_beq e]; exact List.mem_cons_self
    · exact List.mem_cons_of_mem _ (ih h)

private theorem table : ∀ t ∈ genericTextTags ++ genericSpecialTags ++ genericLicenseTags ++ [s%"PackageSupplier", s%"PackageOriginator"],
    (single.lookup t).all (fun c => tagClass t = some c && startTag t = none) = true := by decide +kernel

private theorem table' {t : Str} {c : TvClass}
    (h : t ∈ genericTextTags ++ genericSpecialTags ++ genericLicenseTags ++ [s%"PackageSupplier", s%"PackageOriginator"])
    (hc : single.lookup t = some c) : tagClass t = some c ∧ startTag t = none := by
  have := table t h
  rw [hc] at this
  simpa using this

private theorem absent : ∀ t ∈ genericInfoTags ++ [s%"LicenseListVersion", s%"ExternalDocumentRef", s%"Creator", s%"Created", s%"FileType",
    s%"FileChecksum", s%"PackageChecksum", s%"PackageAttributionText", s%"Annotator"] ++ textListTags.map (·.1) ++ licenseListTags.map (·.1),
    single.lookup t = none := by decide +kernel

/-- The name under which the value is kept. -/
private def key (tag : Str) : Str := if tag = s%"PackageVerificationCode" then s%"verification_code" else propertyName tag

private theorem sets {L : LicText} {s s' : TvState} {tag : Str} {v : Tok} {c : TvClass} (hc : single.lookup tag = some c)
    (h : s.attr L tag v = .ok s') : Sets c (key tag) tag s s' := by
  by_cases ht0 : tag = s%"PackageVerificationCode"
  · subst ht0; cases hc
    change Except.ok _ = Except.ok s' at h
    cases h
    refine inScope_sets fun hs => ?_
    show Sets _ s%"verification_code" _ _ _
    split
    · exact logElem_sets hs (fun _ => rfl)
    · rename_i hn
      split
      · exact set_sets hs hn
      · exact logElem_sets hs (fun h' => absurd h' hn)
  have hk : key tag = propertyName tag := if_neg ht0
  rw [hk]
  have no : ∀ {P : Prop}, single.lookup tag = none → P := fun e => by rw [hc] at e; cases e
  unfold TvState.attr at h
  by_cases ht : tag ∈ genericTextTags
  · replace h := (if_pos ht).symm.trans h
    have := table' (t := tag) (by simp [ht]) hc
    exact generic_sets this.1 this.2 h
  replace h := (if_neg ht).symm.trans h
  by_cases ht : tag ∈ genericSpecialTags
  · replace h := (if_pos ht).symm.trans h
    have := table' (t := tag) (by simp [ht]) hc
    exact generic_sets this.1 this.2 h
  replace h := (if_neg ht).symm.trans h
  by_cases ht : tag ∈ genericLicenseTags
  · replace h := (if_pos ht).symm.trans h
    have := table' (t := tag) (by simp [ht]) hc
    exact after_log (generic_sets this.1 this.2 h)
  replace h := (if_neg ht).symm.trans h
  by_cases ht : tag = s%"PackageSupplier" ∨ tag = s%"PackageOriginator"
  · replace h := (if_pos ht).symm.trans h
    have := table' (t := tag) (by rcases ht with rfl | rfl <;> decide) hc
    split at h
    · exact generic_sets this.1 this.2 h
    · split at h
      · exact generic_sets this.1 this.2 h
      · cases h
  replace h := (if_neg ht).symm.trans h
  by_cases ht : tag ∈ genericInfoTags
  · exact no (absent tag (by simp [ht]))
  replace h := (if_neg ht).symm.trans h
  by_cases ht : tag = s%"LicenseListVersion"
  · subst ht; cases hc
  replace h := (if_neg ht).symm.trans h
  by_cases ht : tag = s%"ExternalDocumentRef"
  · subst ht; cases hc
  replace h := (if_neg ht).symm.trans h
  by_cases ht : tag = s%"Creator"
  · subst ht; cases hc
  replace h := (if_neg ht).symm.trans h
  by_cases ht : tag = s%"Created"
  · subst ht; cases hc
  replace h := (if_neg ht).symm.trans h
  by_cases ht : tag = s%"FileType"
  · subst ht; cases hc
  replace h := (if_neg ht).symm.trans h
  by_cases ht : tag = s%"FileChecksum"
  · subst ht; cases hc
  replace h := (if_neg ht).symm.trans h
  by_cases ht : tag = s%"PackageChecksum"
  · subst ht; cases hc
  replace h := (if_neg ht).symm.trans h
  by_cases ht : tag = s%"PackageAttributionText"
  · subst ht; cases hc
  replace h := (if_neg ht).symm.trans h
  by_cases ht : tag = s%"PackageVerificationCode"
  · exact absurd ht ht0
  replace h := (if_neg ht).symm.trans h
  by_cases ht : tag = s%"FilesAnalyzed"
  · replace h := (if_pos ht).symm.trans h
    subst ht; cases hc; cases h
    have hp : propertyName s%"FilesAnalyzed" = s%"files_analyzed" := by decide +kernel
    rw [hp]
    refine inScope_sets fun hs => ?_
    split
    · exact logElem_sets hs (fun _ => rfl)
    · rename_i hn
      split
      · exact set_sets hs hn
      · split
        · exact set_sets hs hn
        · exact logElem_sets hs (fun h' => absurd h' hn)
  replace h := (if_neg ht).symm.trans h
  by_cases ht : tag = s%"PrimaryPackagePurpose"
  · replace h := (if_pos ht).symm.trans h
    subst ht; cases hc; cases h
    exact inScope_sets setElem_sets
  replace h := (if_neg ht).symm.trans h
  by_cases ht : tag = s%"BuiltDate" ∨ tag = s%"ReleaseDate" ∨ tag = s%"ValidUntilDate"
  · replace h := (if_pos ht).symm.trans h
    cases h
    rcases ht with rfl | rfl | rfl <;> cases hc <;> exact inScope_sets setElem_sets
  replace h := (if_neg ht).symm.trans h
  by_cases ht : tag = s%"SnippetByteRange" ∨ tag = s%"SnippetLineRange"
  · replace h := (if_pos ht).symm.trans h
    cases h
    have : c = .snippet := by rcases ht with rfl | rfl <;> cases hc <;> rfl
    subst this
    refine inScope_sets fun hs => ?_
    split
    · exact logElem_sets hs (fun _ => rfl)
    · rename_i hn
      split
      · exact set_sets hs hn
      · exact logElem_sets hs (fun h' => absurd h' hn)
  replace h := (if_neg ht).symm.trans h
  by_cases ht : tag = s%"Annotator"
  · subst ht; cases hc
  replace h := (if_neg ht).symm.trans h
  by_cases ht : tag = s%"AnnotationDate"
  · replace h := (if_pos ht).symm.trans h
    subst ht; cases hc; cases h
    exact inScope_sets setElem_sets
  replace h := (if_neg ht).symm.trans h
  by_cases ht : tag = s%"AnnotationType"
  · replace h := (if_pos ht).symm.trans h
    subst ht; cases hc; cases h
    exact inScope_sets setElem_sets
  replace h := (if_neg ht).symm.trans h
  split at h
  · rename_i e
    exact no (absent tag (List.mem_append_left _ (List.mem_append_right _ (lookup_keys e))))
  · split at h
    · rename_i e
      exact no (absent tag (List.mem_append_right _ (lookup_keys e)))
    · cases h

/-- The same for the creation information. -/
private structure SetsInfo (tag : Str) (s s' : TvState) : Prop where
  again : (s.info.get? (propertyName tag)).isSome → s'.info = s.info ∧ multipleMsg tag ∈ s'.infoLog
  first : (∃ m, Logged m s') ∨ (s'.info.get? (propertyName tag)).isSome

private theorem setInfo_sets {tag : Str} {s : TvState} {v : Except PMsg TvItem} : SetsInfo tag s (s.setInfo tag v) := by
  unfold TvState.setInfo
  split
  · exact ⟨fun _ => ⟨rfl, List.mem_append_right _ (List.mem_singleton.2 rfl)⟩,
      .inl ⟨_, .inr (.inr (.inr (List.mem_append_right _ (List.mem_singleton.2 rfl))))⟩⟩
  · rename_i hn
    refine ⟨fun h => absurd h hn, ?_⟩
    split
    · right
      show ((s.info.set _ _).get? _).isSome = true
      rw [Dict.get?_set, if_pos rfl]; rfl
    · exact .inl ⟨_, .inr (.inr (.inr (List.mem_append_right _ (List.mem_singleton.2 rfl))))⟩

private theorem sets_info {L : LicText} {s s' : TvState} {tag : Str} {v : Tok} (ht : tag ∈ singleInfo) (h : s.attr L tag v = .ok s') :
    SetsInfo tag s s' := by
  have : ∃ x, s' = s.setInfo tag x := by
    simp only [singleInfo, List.mem_cons, List.not_mem_nil, or_false] at ht
    rcases ht with rfl | rfl | rfl | rfl | rfl | rfl | rfl | rfl
    all_goals (change Except.ok _ = Except.ok s' at h; cases h; exact ⟨_, rfl⟩)
  obtain ⟨x, rfl⟩ := this
  exact setInfo_sets

private theorem starts_none {a : TvAttr} (h : Continues a) : a.starts = none := by
  have hs : ∀ tag, tag ∉ starting → startTag tag = none := by
    intro tag ht
    unfold startTag
    split
    all_goals first | rfl | exact absurd (by decide) ht
  cases a with
  | value tag v => exact hs tag h
  | bad tag => exact (ite_eq_left_iff.2 fun _ => hs tag h)
  | spdxId v => rfl
  | unknown => rfl
  | commented tag line comment => exact if_neg (fun e => h (by subst e; decide))

private theorem run_moves {L : LicText} {s s' : TvState} {as : List TvAttr} (h : ∀ a ∈ as, Continues a) (hr : s.run L as = .ok s') :
    Moves s s' := by
  induction as generalizing s with
  | nil => cases hr; exact .refl _
  | cons a as ih =>
    unfold TvState.run at hr
    split at hr
    · rename_i s1 e
      exact (step_moves (starts_none (h a List.mem_cons_self)) e).trans (ih (fun b hb => h b (List.mem_cons_of_mem _ hb)) hr)
    · cases hr

private theorem run_append (L : LicText) (s s' : TvState) (as bs : List TvAttr) (h : s.run L (as ++ bs) = .ok s') :
    ∃ t, s.run L as = .ok t ∧ t.run L bs = .ok s' := by
  induction as generalizing s with
  | nil => exact ⟨s, rfl, h⟩
  | cons a as ih =>
    rw [List.cons_append] at h
    unfold TvState.run at h
    split at h
    · rename_i s1 e
      obtain ⟨t, h1, h2⟩ := ih _ h
      refine ⟨t, ?_, h2⟩
      unfold TvState.run
      rw [e]; exact h1
    · cases h

private theorem run_cons {L : LicText} {s s' : TvState} {a : TvAttr} {as : List TvAttr} (h : s.run L (a :: as) = .ok s') :
    ∃ t, s.step L a = .ok t ∧ t.run L as = .ok s' := by
  unfold TvState.run at h
  split at h
  · rename_i s1 e; exact ⟨s1, e, h⟩
  · cases h

private theorem no_result {s : TvState} (h : ∃ m, Logged m s) (d : Document) : s.result ≠ .ok d := by
  obtain ⟨m, hm⟩ := h
  obtain ⟨log, e, _⟩ := hm.result
  rw [e]; exact fun e => by cases e

private theorem growing {m : PMsg} {L : LicText} {s s' : TvState} {as : List TvAttr} (h : Logged m s) (hr : s.run L as = .ok s') :
    ∃ m, Logged m s' := ⟨m, h.run hr⟩

/-! ## Theorems -/

/-- A text in which a single-valued field (other than `SPDXID`) is given twice for one element is rejected, whatever else is in it. -/
theorem repeated_rejected_partial (L : LicText) (text : Str) (tag : Str) (c : TvClass) (hc : single.lookup tag = some c)
    (pre mid post : List TvAttr) (v w : Tok) (h : attrs (lex text) = pre ++ .value tag v :: mid ++ .value tag w :: post)
    (hm : ∀ a ∈ mid, Continues a) (d : Document) : parseTagValue L text ≠ .ok d := by
  unfold parseTagValue
  rw [h]
  cases hr : TvState.run L {} (pre ++ .value tag v :: mid ++ .value tag w :: post) with
  | error e => intro h; cases h
  | ok s4 =>
    refine no_result ?_ d
    rw [List.append_assoc] at hr
    obtain ⟨s0, _, hr⟩ := run_append _ _ _ _ _ hr
    obtain ⟨s1, h1, hr⟩ := run_cons hr
    obtain ⟨s2, h2, hr⟩ := run_append _ _ _ _ _ hr
    obtain ⟨s3, h3, hr⟩ := run_cons hr
    have k1 := sets hc h1
    have : (∃ m, Logged m s1) ∨ (s1.cls = some c ∧ (s1.elem.get? (key tag)).isSome) := by
      by_cases hs : s0.cls = some c
      · obtain ⟨hc1, h | h⟩ := k1.first hs
        · obtain ⟨m, hm⟩ := List.exists_mem_of_ne_nil _ h
          exact .inl ⟨m, .inr (.inr (.inl ⟨by rw [hc1]; simp, hm⟩))⟩
        · exact .inr ⟨hc1, h⟩
      · exact .inl (k1.other hs)
    rcases this with ⟨m, hm1⟩ | ⟨hc1, hk1⟩
    · exact ⟨m, ((hm1.run h2).step h3).run hr⟩
    · have mv := run_moves hm h2
      have := (sets hc h3).again (mv.cls.trans hc1) (mv.elemKeys _ hk1)
      exact growing (.inr (.inr (.inl ⟨by rw [this.2.2]; simp, this.2.1⟩))) hr

/-- The same for the fields of the document; they may be anywhere in the text. -/
theorem repeated_info_rejected (L : LicText) (text : Str) (tag : Str) (hc : tag ∈ singleInfo) (pre mid post : List TvAttr) (v w : Tok)
    (h : attrs (lex text) = pre ++ .value tag v :: mid ++ .value tag w :: post) (d : Document) : parseTagValue L text ≠ .ok d := by
  unfold parseTagValue
  rw [h]
  cases hr : TvState.run L {} (pre ++ .value tag v :: mid ++ .value tag w :: post) with
  | error e => intro h; cases h
  | ok s4 =>
    refine no_result ?_ d
    rw [List.append_assoc] at hr
    obtain ⟨s0, _, hr⟩ := run_append _ _ _ _ _ hr
    obtain ⟨s1, h1, hr⟩ := run_cons hr
    obtain ⟨s2, h2, hr⟩ := run_append _ _ _ _ _ hr
    obtain ⟨s3, h3, hr⟩ := run_cons hr
    rcases (sets_info hc h1).first with ⟨m, hm1⟩ | hk1
    · exact ⟨m, ((hm1.run h2).step h3).run hr⟩
    · have := (sets_info hc h3).again ((run_info h2).2 _ hk1)
      exact growing (.inr (.inr (.inr this.2))) hr

/-- If the first value was accepted and reading goes on to the end, then the error says that there were several values. -/
theorem second_value_reported_partial (L : LicText) (tag : Str) (c : TvClass) (hc : single.lookup tag = some c) (s s1 s' : TvState)
    (v w : Tok) (hs : s.cls = some c) (h1 : s.step L (.value tag v) = .ok s1) (hl1 : s1.elemLog = [])
    (mid post : List TvAttr) (hm : ∀ a ∈ mid, Continues a) (hr : s1.run L (mid ++ .value tag w :: post) = .ok s') :
    ∃ log, s'.result = .error (.parsing log) ∧
      (multipleMsg tag ∈ log ∨ ∃ n ms, .wrapped n ms ∈ log ∧ multipleMsg tag ∈ ms) := by
  obtain ⟨hc1, h | hk1⟩ := (sets hc h1).first hs
  · exact absurd hl1 h
  obtain ⟨s2, h2, hr⟩ := run_append _ _ _ _ _ hr
  obtain ⟨s3, h3, hr⟩ := run_cons hr
  have mv := run_moves hm h2
  have := (sets hc h3).again (mv.cls.trans hc1) (mv.elemKeys _ hk1)
  exact (Logged.run (.inr (.inr (.inl ⟨by rw [this.2.2]; simp, this.2.1⟩))) hr).result

/-- Whatever is read for the current element, a value once set stays, unless it is its `SPDXID`. -/
theorem first_value_kept_partial (L : LicText) (s s' : TvState) (as : List TvAttr) (h : ∀ a ∈ as, Continues a)
    (hr : s.run L as = .ok s') (field : Str) (hf : field ≠ s%"spdx_id") (x : TvItem) (hx : s.elem.get? field = some (.one x)) :
    s'.elem.get? field = some (.one x) := (run_moves h hr).elem field x hf hx

/-- Whatever is read, a value of the creation information once set stays. -/
theorem first_info_value_kept (L : LicText) (s s' : TvState) (as : List TvAttr) (hr : s.run L as = .ok s') (field : Str) (x : TvItem)
    (hx : s.info.get? field = some (.one x)) : s'.info.get? field = some (.one x) := (run_info hr).1 field x hx

/-! ## Non-vacuity, and the exception -/

private def two : Str :=
  s%"SPDXVersion: SPDX-2.3\nDataLicense: CC0-1.0\nSPDXID: SPDXRef-DOCUMENT\nDocumentName: n\nDocumentNamespace: https://some.uri\nCreator: Person: p\nCreated: 2020-01-01T00:00:00Z\nPackageName: p\nSPDXID: SPDXRef-p\nPackageDownloadLocation: NONE\nPackageVersion: 1\nPackageComment: c\nPackageVersion: 2\n"

/-- A text as in `repeated_rejected_partial`. -/
example : ∃ pre mid post, attrs (lex two) = pre ++ .value s%"PackageVersion" (.line s%"1") :: mid ++ .value s%"PackageVersion" (.line s%"2") :: post ∧
    mid ≠ [] ∧ (∀ a ∈ mid, Continues a) ∧ single.lookup s%"PackageVersion" = some .package :=
  ⟨(attrs (lex two)).take 10, [.value s%"PackageComment" (.line s%"c")], [], by decide +kernel, by decide,
   fun a ha => by rw [List.mem_singleton.1 ha]; exact (by decide : s%"PackageComment" ∉ starting), by decide +kernel⟩

/-- … and in `repeated_info_rejected`. -/
example : ∃ pre mid post, attrs (lex s%"DocumentName: a\nPackageName: p\nDocumentName: b\n") =
    pre ++ .value s%"DocumentName" (.line s%"a") :: mid ++ .value s%"DocumentName" (.line s%"b") :: post ∧ s%"DocumentName" ∈ singleInfo :=
  ⟨[], [.value s%"PackageName" (.line s%"p")], [], by decide +kernel, by decide +kernel⟩

/-- A state as in `second_value_reported_partial`. -/
example (L : LicText) : ∃ s s1 : TvState, s.cls = some .package ∧ s.step L (.value s%"PackageVersion" (.line s%"1")) = .ok s1 ∧ s1.elemLog = [] ∧
    s1.elem.get? s%"version" = some (.one (.str s%"1")) ∧ ∃ s', s1.run L [.value s%"PackageVersion" (.line s%"2")] = .ok s' :=
  ⟨{ cls := some .package }, _, rfl, rfl, rfl, by decide +kernel, _, rfl⟩

private def twoIds : Str :=
  s%"SPDXVersion: SPDX-2.3\nDataLicense: CC0-1.0\nSPDXID: SPDXRef-DOCUMENT\nDocumentName: n\nDocumentNamespace: https://some.uri\nCreator: Person: p\nCreated: 2020-01-01T00:00:00Z\nPackageName: p\nSPDXID: SPDXRef-p\nSPDXID: SPDXRef-q\nPackageDownloadLocation: NONE\n"

/-- The property is false for `SPDXID`: a package with two of them is accepted, and the first one is lost. -/
theorem spdx_id_overwritten (L : LicText) :
    (∃ pre post, attrs (lex twoIds) = pre ++ [.spdxId s%"SPDXRef-p", .spdxId s%"SPDXRef-q"] ++ post) ∧
    ∃ d, parseTagValue L twoIds = .ok d ∧ d.packages.map (·.spdxId) = [s%"SPDXRef-q"] := by
  have e : attrs (lex twoIds) = [.value s%"SPDXVersion" (.line s%"SPDX-2.3"), .value s%"DataLicense" (.line s%"CC0-1.0"),
      .spdxId s%"SPDXRef-DOCUMENT", .value s%"DocumentName" (.line s%"n"), .value s%"DocumentNamespace" (.line s%"https://some.uri"),
      .value s%"Creator" (.person s%"Person: p"), .value s%"Created" (.date s%"2020-01-01T00:00:00Z"),
      .value s%"PackageName" (.line s%"p"), .spdxId s%"SPDXRef-p", .spdxId s%"SPDXRef-q",
      .value s%"PackageDownloadLocation" .none] := by decide +kernel
  refine ⟨⟨(attrs (lex twoIds)).take 8, (attrs (lex twoIds)).drop 10, by decide +kernel⟩, ?_⟩
  unfold parseTagValue
  rw [e]
  exact ⟨_, rfl, rfl⟩

end Spdx.C29
