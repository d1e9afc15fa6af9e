import Verif.Lemmas.TagValueRead
import Verif.Lemmas.TagValueSound
import Verif.Spec.TvTold
/- What one value does to the state of the reader, by the table of tags. -/
namespace Spdx
open Spec

/-- The value, or what is wrong with it. -/
def valueOf (L : LicText) (tag : Str) (v : Tok) : Except PMsg TvItem :=
  match faultOf tag v with
  | some m => .error m
  | none => .ok ((itemOf L tag v).getD .null)

def TvState.putElem (s : TvState) (many : Bool) (f tag : Str) (r : Except PMsg TvItem) : TvState :=
  if many = false ∧ (s.elem.get? f).isSome then s.logElem (multipleMsg tag)
  else match r with
    | .ok x => if many then s.appendElem f x else { s with elem := s.elem.set f (.one x) }
    | .error m => s.logElem m

def TvState.putInfo (s : TvState) (many : Bool) (f tag : Str) (r : Except PMsg TvItem) : TvState :=
  if many = false ∧ (s.info.get? f).isSome then s.logInfo (multipleMsg tag)
  else match r with
    | .ok x => if many then s.appendInfo f x else { s with info := s.info.set f (.one x) }
    | .error m => s.logInfo m

def outsideMsg (c : TvClass) : PMsg := .text (s%"Element " ++ c.name ++ s%" is not the current element in scope")

def TvState.take (L : LicText) (s : TvState) (tag : Str) (v : Tok) : TvState :=
  match slots.lookup tag with
  | some (c, f, many) =>
    let e := (s.entry (.value tag v)).logLicense (licenseFault L tag v)
    if e.cls = some c then e.putElem many f tag (valueOf L tag v)
    else
      let e := { e with log := e.log ++ [outsideMsg c] }
      if tag = s%"PackageAttributionText" then e.appendElem f (.str (textOrLineValue v)) else e
  | none => match infoSlots.lookup tag with
    | some (f, many) => s.putInfo many f tag (valueOf L tag v)
    | none => s

/-- The tags whose values can be wrong. -/
def faultTags : List Str :=
  dateTags ++ [s%"Annotator", s%"ExternalDocumentRef", s%"LicenseListVersion", s%"FileType", s%"PrimaryPackagePurpose", s%"AnnotationType",
    s%"PackageVerificationCode", s%"FilesAnalyzed", s%"SnippetByteRange", s%"SnippetLineRange"]

theorem faultOf_none {tag : Str} (h : tag ∉ faultTags) (v : Tok) : faultOf tag v = none := by
  unfold faultTags at h
  simp only [List.mem_append, List.mem_cons, List.not_mem_nil, or_false, not_or] at h
  obtain ⟨h0, h1, h2, h3, h4, h5, h6, h7, h8, h9, h10⟩ := h
  unfold faultOf
  rw [if_neg h0, if_neg h1, if_neg h2, if_neg h3, if_neg h4, if_neg h5, if_neg h6, if_neg h7, if_neg h8, if_neg (by simp [h9, h10])]

theorem licenseFault_none {L : LicText} {tag : Str} (h : tag ∉ licenseTags) (v : Tok) : licenseFault L tag v = none :=
  if_neg fun hh => h hh.1

theorem licenseFault_eq {L : LicText} {tag : Str} (h : tag ∈ licenseTags) (v : Tok) : licenseFault L tag v = (licenseValue L v).2 := by
  unfold licenseFault
  by_cases h1 : v = .noAssertion
  · subst h1; rw [if_neg (by simp)]; rfl
  by_cases h2 : v = .none
  · subst h2; rw [if_neg (by simp)]; rfl
  by_cases h3 : L.parse v.value = none
  · rw [if_pos ⟨h, h1, h2, h3⟩]
    unfold licenseValue
    split
    · exact absurd rfl h1
    · exact absurd rfl h2
    · rw [h3]
  · rw [if_neg (fun hh => h3 hh.2.2.2)]
    unfold licenseValue
    split
    · exact absurd rfl h1
    · exact absurd rfl h2
    · split
      · rfl
      · rfl
      · rename_i e; exact absurd e h3

private theorem generic_tab : ∀ t ∈ genericTextTags ++ genericSpecialTags ++ genericLicenseTags ++ [s%"PackageSupplier", s%"PackageOriginator"],
    (tagClass t).any (fun c => slots.lookup t = some (c, propertyName t, false) ∧ (startTag t).all (· = c)) = true ∧
      t ≠ s%"PackageAttributionText" ∧ t ∉ faultTags ∧ (t ∈ licenseTags → startTag t = none) := by
  decide +kernel

private theorem generic_take {L : LicText} (s : TvState) {tag : Str} {x : TvItem} {v : Tok}
    (ht : tag ∈ genericTextTags ++ genericSpecialTags ++ genericLicenseTags ++ [s%"PackageSupplier", s%"PackageOriginator"])
    (hx : itemOf L tag v = some x) : (s.logLicense (licenseFault L tag v)).generic tag x = .ok (s.take L tag v) := by
  obtain ⟨h1, h2, h3, h4⟩ := generic_tab tag ht
  unfold TvState.generic
  cases hc : tagClass tag with
  | none => rw [hc] at h1; cases h1
  | some c =>
    rw [hc, Option.any_some, decide_eq_true_eq] at h1
    unfold TvState.take
    rw [h1.1]
    dsimp only
    have he : (if (startTag tag).isSome then (s.logLicense (licenseFault L tag v)).start c else s.logLicense (licenseFault L tag v)) =
        (s.entry (.value tag v)).logLicense (licenseFault L tag v) := by
      have hs : s.entry (.value tag v) = match startTag tag with | some c => s.start c | none => s := rfl
      rw [hs]
      cases hst : startTag tag with
      | none => rfl
      | some c' =>
        have hl : tag ∉ licenseTags := fun h => by rw [h4 h] at hst; cases hst
        have hcc := h1.2
        rw [hst, Option.all_some, decide_eq_true_eq] at hcc
        subst hcc
        rw [licenseFault_none hl]
        rfl
    rw [he]
    generalize (s.entry (.value tag v)).logLicense (licenseFault L tag v) = e
    unfold TvState.inScope
    by_cases hcl : e.cls = some c
    · rw [if_pos hcl, if_pos hcl]
      unfold TvState.setElem TvState.putElem valueOf
      rw [faultOf_none h3, hx]
      simp
    · rw [if_neg hcl, if_neg hcl, if_neg h2]; rfl

theorem take_of {L : LicText} (s : TvState) {tag : Str} {v : Tok} {c : TvClass} {f : Str} {many : Bool} (h : slots.lookup tag = some (c, f, many))
    (hl : tag ∉ licenseTags) (hs : startTag tag = none) (ha : tag ≠ s%"PackageAttributionText") :
    s.take L tag v = s.inScope c fun s => s.putElem many f tag (valueOf L tag v) := by
  unfold TvState.take
  rw [h]
  have he : s.entry (.value tag v) = s := by
    change (match startTag tag with | some c => s.start c | none => s) = s
    rw [hs]
  dsimp only
  rw [licenseFault_none hl, he]
  change (if s.cls = some c then _ else _) = _
  unfold TvState.inScope
  by_cases hc : s.cls = some c
  · rw [if_pos hc, if_pos hc]; rfl
  · rw [if_neg hc, if_neg hc, if_neg ha]; rfl

theorem takeInfo_of {L : LicText} (s : TvState) {tag : Str} {v : Tok} {f : Str} {many : Bool} (h : slots.lookup tag = none)
    (hi : infoSlots.lookup tag = some (f, many)) : s.take L tag v = s.putInfo many f tag (valueOf L tag v) := by
  unfold TvState.take
  rw [h]; dsimp only; rw [hi]

theorem inScope_same {s : TvState} {c : TvClass} {k k' : TvState → TvState} (h : ∀ s, k s = k' s) : s.inScope c k = s.inScope c k' := by
  rw [funext h]

theorem setElem_put (s : TvState) {tag f : Str} (h : propertyName tag = f) (r : Except PMsg TvItem) : s.setElem tag r = s.putElem false f tag r := by
  subst h
  unfold TvState.setElem TvState.putElem
  by_cases hp : (s.elem.get? (propertyName tag)).isSome = true
  · rw [if_pos hp, if_pos ⟨rfl, hp⟩]
  · rw [if_neg hp, if_neg (fun h => hp h.2)]
    cases r <;> rfl

theorem setInfo_put (s : TvState) {tag f : Str} (h : propertyName tag = f) (r : Except PMsg TvItem) : s.setInfo tag r = s.putInfo false f tag r := by
  subst h
  unfold TvState.setInfo TvState.putInfo
  by_cases hp : (s.info.get? (propertyName tag)).isSome = true
  · rw [if_pos hp, if_pos ⟨rfl, hp⟩]
  · rw [if_neg hp, if_neg (fun h => hp h.2)]
    cases r <;> rfl

private theorem info_tab : ∀ t ∈ genericInfoTags, slots.lookup t = none ∧ infoSlots.lookup t = some (propertyName t, false) ∧ t ∉ faultTags := by
  decide +kernel

/-- No supplier, originator or creator is malformed. -/
def ActorFine (tag : Str) (v : Tok) : Prop :=
  (tag = s%"Creator" ∨ ((tag = s%"PackageSupplier" ∨ tag = s%"PackageOriginator") ∧ v ≠ .noAssertion)) → ∃ a, parseActor v.value = .ok a

/-- A value, or the message for one that cannot be read. -/
def orFault {α : Type} (o : Option α) (g : α → TvItem) (m : PMsg) : Except PMsg TvItem :=
  match o with
  | some x => .ok (g x)
  | none => .error m

private theorem value_of {L : LicText} {tag : Str} {v : Tok} {α : Type} {o : Option α} {g : α → TvItem} {m : PMsg}
    (hf : faultOf tag v = complain o.isSome m) (hi : itemOf L tag v = o.map g) : valueOf L tag v = orFault o g m := by
  unfold valueOf
  rw [hf, hi]
  cases o <;> rfl

private theorem date_value {L : LicText} {tag : Str} {v : Tok} (h : tag ∈ dateTags) : valueOf L tag v = dateItem v.value := by
  have hi : itemOf L tag v = (asDate v).map .date := by
    have : ∀ t ∈ dateTags, t ∉ licenseTags ∧ t ∉ genericSpecialTags ∧ ¬ (t = s%"PackageSupplier" ∨ t = s%"PackageOriginator") ∧
        ¬ (t = s%"Creator" ∨ t = s%"Annotator") ∧
        ¬ (t ∈ genericTextTags ∨ t ∈ genericInfoTags ∨ t ∈ textListTags.map (·.1) ∨ t = s%"PackageAttributionText") := by decide +kernel
    obtain ⟨h1, h2, h3, h4, h5⟩ := this tag h
    unfold itemOf
    rw [if_neg h5, if_neg h2, if_neg h1, if_neg h3, if_neg h4, if_pos h]
  rw [value_of (o := asDate v) (m := .invalid s%"date" (.str v.value)) (if_pos h) hi]
  unfold dateItem orFault asDate
  cases datetimeFromStr v.value <;> rfl

private theorem value_ok {L : LicText} {tag : Str} {v : Tok} {x : TvItem} (h : tag ∉ faultTags) (hx : itemOf L tag v = some x) : valueOf L tag v = .ok x := by
  unfold valueOf; rw [faultOf_none h, hx]; rfl

private theorem put_one (s : TvState) (f tag : Str) {α : Type} (o : Option α) (g : α → TvItem) (m : PMsg) :
    s.putElem false f tag (orFault o g m) =
      if (s.elem.get? f).isSome then s.logElem (multipleMsg tag)
      else match o with
        | some x => { s with elem := s.elem.set f (.one (g x)) }
        | none => s.logElem m := by
  unfold TvState.putElem
  by_cases hp : (s.elem.get? f).isSome = true
  · rw [if_pos hp, if_pos ⟨rfl, hp⟩]
  · rw [if_neg hp, if_neg (fun h => hp h.2)]
    cases o <;> rfl

private theorem put_many (s : TvState) (f tag : Str) (r : Except PMsg TvItem) :
    s.putElem true f tag r =
      match r with
        | .ok x => s.appendElem f x
        | .error m => s.logElem m := by
  unfold TvState.putElem
  rw [if_neg (fun h => by cases h.1)]
  cases r <;> rfl

private theorem info_many (s : TvState) (f tag : Str) (r : Except PMsg TvItem) :
    s.putInfo true f tag r =
      match r with
        | .ok x => s.appendInfo f x
        | .error m => s.logInfo m := by
  unfold TvState.putInfo
  rw [if_neg (fun h => by cases h.1)]
  cases r <;> rfl

set_option maxRecDepth 4000 in
theorem attr_take {L : LicText} (s : TvState) {tag : Str} {v : Tok} (h : C68.Sound C68.Good (.value tag v)) (hn : ActorFine tag v) :
    s.attr L tag v = .ok (s.take L tag v) := by
  have hsum := fun ht => C68.checksum_value h ht
  by_cases h1 : tag ∈ genericTextTags
  · have hl : tag ∉ licenseTags := (show ∀ t ∈ genericTextTags, t ∉ licenseTags by decide +kernel) _ h1
    have := generic_take (L := L) (v := v) s (tag := tag) (by simp [h1]) (item_text h1)
    rw [licenseFault_none hl] at this
    rw [attr_of_text h1]
    exact this
  by_cases h2 : tag ∈ genericSpecialTags
  · have hl : tag ∉ licenseTags := (show ∀ t ∈ genericSpecialTags, t ∉ licenseTags by decide +kernel) _ h2
    have := generic_take (L := L) (v := v) s (tag := tag) (by simp [h2]) (item_special h2)
    rw [licenseFault_none hl] at this
    rw [attr_of_special h2]
    exact this
  by_cases h3 : tag ∈ genericLicenseTags
  · have hl : tag ∈ licenseTags := (show ∀ t ∈ genericLicenseTags, t ∈ licenseTags by decide +kernel) _ h3
    have := generic_take (L := L) (v := v) s (tag := tag) (by simp [h3]) (item_license hl)
    rw [licenseFault_eq hl] at this
    rw [attr_of_license h3]
    exact this
  by_cases h4 : tag ∈ [s%"PackageSupplier", s%"PackageOriginator"]
  · have hl : tag ∉ licenseTags := (show ∀ t ∈ [s%"PackageSupplier", s%"PackageOriginator"], t ∉ licenseTags by decide +kernel) _ h4
    have h4' : tag = s%"PackageSupplier" ∨ tag = s%"PackageOriginator" := by simpa using h4
    rw [attr_of_supplier h4]
    have hi := item_supplier (L := L) (v := v) h4
    have hg : tag ∈ genericTextTags ++ genericSpecialTags ++ genericLicenseTags ++ [s%"PackageSupplier", s%"PackageOriginator"] :=
      List.mem_append_right _ h4
    split
    · have := generic_take (L := L) s hg hi
      rw [licenseFault_none hl] at this
      exact this
    · rename_i w hw
      obtain ⟨a, ha⟩ := hn (.inr ⟨h4', hw⟩)
      rw [ha]
      have := generic_take (L := L) (v := v) (x := .actor a) s hg (by
        rw [hi]
        split
        · exact absurd rfl hw
        · unfold asActor; rw [ha]; rfl)
      rw [licenseFault_none hl] at this
      exact this
  have h4' : ¬ (tag = s%"PackageSupplier" ∨ tag = s%"PackageOriginator") := by simpa using h4
  unfold TvState.attr
  refine (if_neg h1).trans ?_
  refine (if_neg h2).trans ?_
  refine (if_neg h3).trans ?_
  refine (if_neg h4').trans ?_
  by_cases h5 : tag ∈ genericInfoTags
  · refine (if_pos h5).trans ?_
    obtain ⟨e1, e2, e3⟩ := info_tab tag h5
    rw [takeInfo_of s e1 e2, value_ok e3 (item_info h5), setInfo_put s rfl]
  refine (if_neg h5).trans ?_
  by_cases ht : tag = s%"LicenseListVersion"
  · refine (if_pos ht).trans ?_
    subst ht
    rw [takeInfo_of s (f := s%"license_list_version") (many := false) (by decide +kernel) (by decide +kernel),
      value_of (o := asVersion v) (g := .version) (m := .invalid s%"LicenseListVersion" (.str v.value)) rfl rfl, setInfo_put s (f := s%"license_list_version") (by decide +kernel)]
    unfold orFault asVersion
    cases versionFromString v.value <;> rfl
  refine (if_neg ht).trans ?_
  by_cases ht2 : tag = s%"ExternalDocumentRef"
  · refine (if_pos ht2).trans ?_
    subst ht2
    rw [takeInfo_of s (f := s%"external_document_refs") (many := true) (by decide +kernel) (by decide +kernel), info_many]
    have hv : valueOf L s%"ExternalDocumentRef" v = match parseDocRef v.value with | .ok r => .ok (.docRef r) | .error m => .error m := by
      unfold valueOf
      have hf : faultOf s%"ExternalDocumentRef" v = match parseDocRef v.value with | .ok _ => none | .error m => some m := rfl
      have hi : itemOf L s%"ExternalDocumentRef" v = (parseDocRef v.value).toOption.map .docRef := rfl
      rw [hf, hi]
      cases parseDocRef v.value <;> rfl
    rw [hv]
    cases parseDocRef v.value <;> rfl
  refine (if_neg ht2).trans ?_
  by_cases ht3 : tag = s%"Creator"
  · refine (if_pos ht3).trans ?_
    obtain ⟨a, ha⟩ := hn (.inl ht3)
    subst ht3
    rw [takeInfo_of s (f := s%"creators") (many := true) (by decide +kernel) (by decide +kernel), info_many, ha,
      value_ok (x := .actor a) (by decide +kernel) (by
        change (parseActor v.value).toOption.map TvItem.actor = _
        rw [ha]; rfl)]
  refine (if_neg ht3).trans ?_
  by_cases ht4 : tag = s%"Created"
  · refine (if_pos ht4).trans ?_
    subst ht4
    rw [takeInfo_of s (f := s%"created") (many := false) (by decide +kernel) (by decide +kernel), date_value (by decide +kernel),
      setInfo_put s (f := s%"created") (by decide +kernel)]
  refine (if_neg ht4).trans ?_
  by_cases ht5 : tag = s%"FileType"
  · refine (if_pos ht5).trans ?_
    subst ht5
    rw [take_of s (c := .file) (f := s%"file_types") (many := true) (by decide +kernel) (by decide +kernel) rfl (by decide +kernel)]
    refine congrArg Except.ok (inScope_same fun s => ?_)
    rw [put_many, value_of (o := asFileType v) (g := .fileType) (m := .invalid s%"FileType" (.str v.value)) rfl rfl]
    unfold orFault asFileType
    cases FileType.ofName? (strip v.value) <;> rfl
  refine (if_neg ht5).trans ?_
  have hck : ∀ c, (tag = s%"FileChecksum" ∧ c = .file) ∨ (tag = s%"PackageChecksum" ∧ c = .package) → s.checksumAttr c v.value = .ok (s.take L tag v) := by
    intro c hm
    have hs := hsum (by rcases hm with ⟨rfl, _⟩ | ⟨rfl, _⟩ <;> decide +kernel)
    have hm' : slots.lookup tag = some (c, s%"checksums", true) ∧ tag ∉ licenseTags ∧ startTag tag = none ∧ tag ≠ s%"PackageAttributionText" ∧
        itemOf L tag v = (checksumFromTv v.value).map TvItem.checksum ∧ tag ∉ faultTags := by
      rcases hm with ⟨rfl, rfl⟩ | ⟨rfl, rfl⟩
      · exact ⟨by decide +kernel, by decide +kernel, rfl, by decide +kernel, rfl, by decide +kernel⟩
      · exact ⟨by decide +kernel, by decide +kernel, rfl, by decide +kernel, rfl, by decide +kernel⟩
    obtain ⟨e1, e2, e3, e4, e5, e6⟩ := hm'
    obtain ⟨x, hx⟩ := Option.isSome_iff_exists.1 hs
    rw [take_of s e1 e2 e3 e4, value_ok e6 (x := .checksum x) (by rw [e5, hx]; rfl)]
    unfold TvState.checksumAttr TvState.inScope
    by_cases hc : s.cls = some c
    · rw [if_pos hc, if_pos hc, hx]
      dsimp only
      rw [put_many]
    · rw [if_neg hc, if_neg hc, if_neg hc]
  by_cases ht6 : tag = s%"FileChecksum"
  · refine (if_pos ht6).trans ?_
    exact hck .file (.inl ⟨ht6, rfl⟩)
  refine (if_neg ht6).trans ?_
  by_cases ht7 : tag = s%"PackageChecksum"
  · refine (if_pos ht7).trans ?_
    exact hck .package (.inr ⟨ht7, rfl⟩)
  refine (if_neg ht7).trans ?_
  clear hck
  by_cases ht8 : tag = s%"PackageAttributionText"
  · refine (if_pos ht8).trans ?_
    subst ht8
    have e1 : slots.lookup s%"PackageAttributionText" = some (.package, s%"attribution_texts", true) := by decide +kernel
    unfold TvState.take
    rw [e1]
    dsimp only
    rw [licenseFault_none (by decide +kernel), value_ok (x := .str (textOrLineValue v)) (by decide +kernel) rfl]
    have he : s.entry (.value s%"PackageAttributionText" v) = s := rfl
    rw [he]
    change _ = Except.ok (if s.cls = some .package then _ else _)
    unfold TvState.inScope
    by_cases hc : s.cls = some .package
    · rw [if_pos hc, if_pos hc, put_many]; rfl
    · rw [if_neg hc, if_neg hc, if_pos rfl]; rfl
  refine (if_neg ht8).trans ?_
  by_cases ht9 : tag = s%"PackageVerificationCode"
  · refine (if_pos ht9).trans ?_
    subst ht9
    rw [take_of s (c := .package) (f := s%"verification_code") (many := false) (by decide +kernel) (by decide +kernel) rfl (by decide +kernel)]
    refine congrArg Except.ok (inScope_same fun s => ?_)
    rw [value_of (o := asCode v) (g := .code) (m := .invalid s%"PackageVerificationCode" (.str v.value)) rfl rfl, put_one]
    unfold asCode
    cases parseTvCode v.value <;> rfl
  refine (if_neg ht9).trans ?_
  by_cases ht10 : tag = s%"FilesAnalyzed"
  · refine (if_pos ht10).trans ?_
    subst ht10
    rw [take_of s (c := .package) (f := s%"files_analyzed") (many := false) (by decide +kernel) (by decide +kernel) rfl (by decide +kernel)]
    refine congrArg Except.ok (inScope_same fun s => ?_)
    rw [value_of (o := asBool v) (g := .bool) (m := .invalid s%"FilesAnalyzed" (.str v.value)) rfl rfl, put_one]
    unfold asBool
    by_cases hp : (s.elem.get? s%"files_analyzed").isSome = true
    · rw [if_pos hp, if_pos hp]
    · rw [if_neg hp, if_neg hp]
      by_cases e1 : v.value = s%"true"
      · rw [if_pos e1, if_pos e1]
      · rw [if_neg e1, if_neg e1]
        by_cases e2 : v.value = s%"false"
        · rw [if_pos e2, if_pos e2]
        · rw [if_neg e2, if_neg e2]
  refine (if_neg ht10).trans ?_
  by_cases ht11 : tag = s%"PrimaryPackagePurpose"
  · refine (if_pos ht11).trans ?_
    subst ht11
    rw [take_of s (c := .package) (f := s%"primary_package_purpose") (many := false) (by decide +kernel) (by decide +kernel) rfl (by decide +kernel)]
    refine congrArg Except.ok (inScope_same fun s => ?_)
    rw [value_of (o := asPurpose v) (g := .purpose) (m := .invalid s%"PrimaryPackagePurpose" (.str v.value)) rfl rfl,
      setElem_put s (f := s%"primary_package_purpose") (by decide +kernel)]
    unfold orFault asPurpose
    cases PackagePurpose.ofName? (replaceChar '-' ['_'] v.value) <;> rfl
  refine (if_neg ht11).trans ?_
  have hd : ∀ (c : TvClass) (f : Str), tag ∈ dateTags → slots.lookup tag = some (c, f, false) → propertyName tag = f → tag ∉ licenseTags →
      startTag tag = none → tag ≠ s%"PackageAttributionText" →
      Except.ok (ε := PyErr) (s.inScope c fun s => s.setElem tag (dateItem v.value)) = .ok (s.take L tag v) := by
    intro c f e0 e1 e2 e3 e4 e5
    rw [take_of s e1 e3 e4 e5]
    refine congrArg Except.ok (inScope_same fun s => ?_)
    rw [date_value e0, setElem_put s e2]
  by_cases ht12 : tag = s%"BuiltDate" ∨ tag = s%"ReleaseDate" ∨ tag = s%"ValidUntilDate"
  · refine (if_pos ht12).trans ?_
    refine hd .package (propertyName tag) ?_ ?_ rfl ?_ ?_ ?_
    all_goals rcases ht12 with rfl | rfl | rfl <;> decide +kernel
  refine (if_neg ht12).trans ?_
  by_cases ht13 : tag = s%"SnippetByteRange" ∨ tag = s%"SnippetLineRange"
  · refine (if_pos ht13).trans ?_
    have hh : slots.lookup tag = some (.snippet, propertyName tag, false) ∧ tag ∉ licenseTags ∧ startTag tag = none ∧ tag ≠ s%"PackageAttributionText" ∧
        faultOf tag v = complain (asRange v).isSome (.invalid tag (.str v.value)) ∧ itemOf L tag v = (asRange v).map .range := by
      rcases ht13 with rfl | rfl
      · exact ⟨by decide +kernel, by decide +kernel, rfl, by decide +kernel, rfl, rfl⟩
      · exact ⟨by decide +kernel, by decide +kernel, rfl, by decide +kernel, rfl, rfl⟩
    obtain ⟨e1, e2, e3, e4, e5, e6⟩ := hh
    rw [take_of s e1 e2 e3 e4]
    refine congrArg Except.ok (inScope_same fun s => ?_)
    rw [value_of e5 e6, put_one]
    unfold asRange
    cases parseTvRange v.value <;> rfl
  refine (if_neg ht13).trans ?_
  by_cases ht14 : tag = s%"Annotator"
  · refine (if_pos ht14).trans ?_
    subst ht14
    have e1 : slots.lookup s%"Annotator" = some (.annotation, s%"annotator", false) := by decide +kernel
    have hv : valueOf L s%"Annotator" v = actorItem v.value := by
      have hf : faultOf s%"Annotator" v = match parseActor v.value with | .ok _ => none | .error e => some (actorMsg e) := rfl
      have hi : itemOf L s%"Annotator" v = (parseActor v.value).toOption.map .actor := rfl
      unfold valueOf actorItem
      rw [hf, hi]
      cases parseActor v.value <;> rfl
    unfold TvState.take
    rw [e1]
    dsimp only
    rw [licenseFault_none (by decide +kernel), hv]
    have he : s.entry (.value s%"Annotator" v) = s.start .annotation := rfl
    rw [he, setElem_put _ (f := s%"annotator") (by decide +kernel)]
    exact congrArg Except.ok (if_pos rfl).symm
  refine (if_neg ht14).trans ?_
  by_cases ht15 : tag = s%"AnnotationDate"
  · refine (if_pos ht15).trans ?_
    refine hd .annotation (propertyName tag) ?_ ?_ rfl ?_ ?_ ?_
    all_goals subst ht15; decide +kernel
  refine (if_neg ht15).trans ?_
  by_cases ht16 : tag = s%"AnnotationType"
  · refine (if_pos ht16).trans ?_
    subst ht16
    rw [take_of s (c := .annotation) (f := s%"annotation_type") (many := false) (by decide +kernel) (by decide +kernel) rfl (by decide +kernel)]
    refine congrArg Except.ok (inScope_same fun s => ?_)
    rw [value_of (o := asAnnotationType v) (g := .annotationType) (m := .invalid s%"AnnotationType" (.str v.value)) rfl rfl,
      setElem_put s (f := s%"annotation_type") (by decide +kernel)]
    unfold orFault asAnnotationType
    cases AnnotationType.ofName? v.value <;> rfl
  refine (if_neg ht16).trans ?_
  cases hl : textListTags.lookup tag with
  | some p =>
    obtain ⟨c, k⟩ := p
    have hm := C68.lookup_mem hl
    have tab : ∀ p ∈ textListTags, slots.lookup p.1 = some (p.2.1, p.2.2, true) ∧ p.1 ∉ licenseTags ∧ startTag p.1 = none ∧
        p.1 ≠ s%"PackageAttributionText" ∧ p.1 ∉ faultTags := by decide +kernel
    obtain ⟨e1, e2, e3, e4, e5⟩ := tab _ hm
    rw [take_of s e1 e2 e3 e4]
    refine congrArg Except.ok (inScope_same fun s => ?_)
    rw [value_ok e5 (item_list (List.mem_map_of_mem hm)), put_many]
  | none =>
    cases hl2 : licenseListTags.lookup tag with
    | some p =>
      obtain ⟨c, k⟩ := p
      have hm := C68.lookup_mem hl2
      have tab : ∀ p ∈ licenseListTags, slots.lookup p.1 = some (p.2.1, p.2.2, true) ∧ p.1 ∈ licenseTags ∧ startTag p.1 = none ∧
          p.1 ≠ s%"PackageAttributionText" ∧ p.1 ∉ faultTags := by decide +kernel
      obtain ⟨e1, e2, e3, e4, e5⟩ := tab _ hm
      unfold TvState.take
      rw [e1]
      have he : s.entry (.value tag v) = s := by
        change (match startTag tag with | some c => s.start c | none => s) = s
        rw [e3]
      dsimp only
      rw [licenseFault_eq e2, he, value_ok e5 (item_license e2), put_many, if_neg e4]
      rfl
    | none =>
      exfalso
      have tab : ∀ p ∈ tvSyntax, p.1 ∈ genericTextTags ++ genericSpecialTags ++ genericLicenseTags ++ [s%"PackageSupplier", s%"PackageOriginator"] ++
          genericInfoTags ++ [s%"LicenseListVersion", s%"ExternalDocumentRef", s%"Creator", s%"Created", s%"FileType", s%"FileChecksum",
          s%"PackageChecksum", s%"PackageAttributionText", s%"PackageVerificationCode", s%"FilesAnalyzed", s%"PrimaryPackagePurpose",
          s%"BuiltDate", s%"ReleaseDate", s%"ValidUntilDate", s%"SnippetByteRange", s%"SnippetLineRange", s%"Annotator",
          s%"AnnotationDate", s%"AnnotationType"] ∨ (textListTags.lookup p.1).isSome ∨ (licenseListTags.lookup p.1).isSome := by decide +kernel
      have := tab _ (C68.lookup_mem h.choose_spec.1)
      rw [hl, hl2] at this
      simp_all
  
end Spdx
