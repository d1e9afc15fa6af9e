import Verif.Lemmas.TagValueBuild
/- Reading back the creation information. -/
namespace Spdx
open Spec

/-- Some fields of the creation information have been read, and nothing else. -/
def infoProg (fs : List (Str × Option TvVal)) : TvState := { info := fieldsOf fs }

/-- Reading `w` adds the field. -/
def InfoField (L : LicText) (w : TvSteps) (k : Str) (v : Option TvVal) : Prop :=
  ∀ fs, k ∉ fs.map (·.1) → Runs L w (infoProg fs) (infoProg (fs ++ [(k, v)]))

structure InfoChain (L : LicText) (w : TvSteps) (fs : List (Str × Option TvVal)) : Prop where
  run : (fs.map (·.1)).Nodup → Runs L w {} (infoProg fs)

theorem InfoChain.field {L : LicText} {w w' : TvSteps} {fs : List (Str × Option TvVal)} {k : Str}
    {v : Option TvVal} (h : InfoChain L w fs) (hf : InfoField L w' k v) : InfoChain L (w ++ w') (fs ++ [(k, v)]) := by
  refine ⟨fun hn => ?_⟩
  rw [List.map_append, List.nodup_append] at hn
  refine (h.run hn.1).append (hf fs ?_)
  intro hm
  exact hn.2.2 _ hm k (by simp) rfl

theorem InfoChain.skip {L : LicText} {w w' : TvSteps} {fs : List (Str × Option TvVal)} (h : InfoChain L w fs) (hf : Gives w' []) :
    InfoChain L (w ++ w') fs := ⟨fun hn => (h.run hn).append (.skip _ hf)⟩

theorem InfoChain.done {L : LicText} {w w' : TvSteps} {fs fs' : List (Str × Option TvVal)}
    (h : InfoChain L w fs) (hw : w = w') (hf : fs = fs') (hn : (fs'.map (·.1)).Nodup) : Runs L w' {} (infoProg fs') := by
  subst hw; subst hf; exact h.run hn

theorem InfoField.one {L : LicText} {k : Str} {w : TvSteps} {a : TvAttr} {v : TvVal} (h : Gives w [a])
    (hs : ∀ s : TvState, s.info.get? k = none → s.step L a = .ok { s with info := s.info.set k v }) : InfoField L w k (some v) := by
  intro fs hk
  refine Runs.one h ?_
  rw [hs (infoProg fs) (fieldsOf_get?_fresh hk)]
  show Except.ok { infoProg fs with info := (fieldsOf fs).set k v } = _
  rw [fieldsOf_set hk]; rfl

theorem InfoField.absent {L : LicText} {k : Str} : InfoField L [] k none := by
  intro fs _
  have : infoProg (fs ++ [(k, none)]) = infoProg fs := by unfold infoProg; rw [fieldsOf_none]
  rw [this]; exact .nil L _

theorem InfoField.opt {L : LicText} {k : Str} {α : Type} {f : α → TvSteps} {v : α → TvVal} (x : Option α)
    (h : ∀ a, x = some a → InfoField L (f a) k (some (v a))) : InfoField L (x.toList.flatMap f) k (x.map v) := by
  cases x with
  | none => exact .absent
  | some a =>
    have : (some a).toList.flatMap f = f a := by simp
    rw [this]; exact h a rfl

theorem InfoField.list {L : LicText} {k : Str} {α : Type} {f : α → TvSteps} {a : α → TvAttr} {v : α → TvItem} (l : List α)
    (hg : ∀ x ∈ l, Gives (f x) [a x]) (hs : ∀ x ∈ l, ∀ s : TvState, s.step L (a x) = .ok (s.appendInfo k (v x))) :
    InfoField L (l.flatMap f) k (manyOf (l.map v)) := by
  intro fs hk
  have : ∀ (l : List α), (∀ x ∈ l, Gives (f x) [a x]) → (∀ x ∈ l, ∀ s : TvState, s.step L (a x) = .ok (s.appendInfo k (v x))) → ∀ pre,
      Runs L (l.flatMap f) (infoProg (fs ++ [(k, manyOf pre)])) (infoProg (fs ++ [(k, manyOf (pre ++ l.map v))])) := by
    intro l
    induction l with
    | nil => intro _ _ pre; rw [List.map_nil, List.append_nil]; exact .nil L _
    | cons x l ih =>
      intro hg hs pre
      rw [List.flatMap_cons, List.map_cons]
      have := ih (fun y hy => hg y (List.mem_cons_of_mem _ hy)) (fun y hy => hs y (List.mem_cons_of_mem _ hy)) (pre ++ [v x])
      rw [List.append_assoc] at this
      refine (Runs.one (hg x List.mem_cons_self) ?_).append this
      rw [hs x List.mem_cons_self _]
      unfold TvState.appendInfo
      show Except.ok { infoProg (fs ++ [(k, manyOf pre)]) with info := tvAppend (fieldsOf (fs ++ [(k, manyOf pre)])) k (v x) } = _
      rw [tvAppend_manyOf hk]; rfl
  have h0 := this l hg hs []
  have e : infoProg (fs ++ [(k, manyOf [])]) = infoProg fs := by
    unfold infoProg manyOf; rw [if_pos rfl, fieldsOf_none]
  rw [e, List.nil_append] at h0
  exact h0

theorem setInfo_ok {s : TvState} {tag k : Str} {v : Except PMsg TvItem} {x : TvItem} (hk : propertyName tag = k) (hf : s.info.get? k = none)
    (hv : v = .ok x) : s.setInfo tag v = { s with info := s.info.set k (.one x) } := by
  unfold TvState.setInfo
  rw [hk, hf, hv]; rfl

theorem info_not_other : ∀ t ∈ genericInfoTags, t ∉ genericTextTags ∧ t ∉ genericSpecialTags ∧ t ∉ genericLicenseTags ∧
    ¬ (t = s%"PackageSupplier" ∨ t = s%"PackageOriginator") := by decide +kernel

theorem attr_info {L : LicText} {s : TvState} {tag : Str} {v : Tok} (h : tag ∈ genericInfoTags) :
    s.attr L tag v = .ok (s.setInfo tag (.ok (.str (textOrLineValue v)))) := by
  obtain ⟨h1, h2, h3, h4⟩ := info_not_other tag h
  exact (if_neg h1).trans ((if_neg h2).trans ((if_neg h3).trans ((if_neg h4).trans (if_pos h))))

theorem info_line {L : LicText} {tag k : Str} (hm : tag ∈ genericInfoTags) (hk : propertyName tag = k) (hx : tvSyntax.lookup tag = some .line)
    {v : Str} (hv : Plain v) : InfoField L (writeValue tag v) k (some (.one (.str v))) :=
  .one (.value hx (lexes_plain hv) rfl) fun s hf => by
    show s.attr L tag _ = _
    rw [attr_info hm, setInfo_ok hk hf rfl]; rfl

theorem info_text? {L : LicText} {tag k : Str} (hm : tag ∈ genericInfoTags) (hk : propertyName tag = k)
    (hx : tvSyntax.lookup tag = some .textOrLine) (v : Option Str) (hv : ∀ t, v = some t → FreeText t) :
    InfoField L (writeText? tag v) k (v.map fun t => .one (.str t)) := by
  refine .opt v fun t e => ?_
  refine .one (.text hx (hv t e)) fun s hf => ?_
  show s.attr L tag _ = _
  rw [attr_info hm, (textTok_value (hv t e)).2, setInfo_ok hk hf rfl]

theorem info_spdxId {L : LicText} {v : Str} (hv : Plain v) : InfoField L (writeValue s%"SPDXID" v) s%"spdx_id" (some (.one (.str v))) :=
  .one (.spdxId hv) fun s hf => by
    refine congrArg Except.ok (if_neg ?_)
    rw [hf]; simp

/-- The text of a version. -/
theorem version_line (v : Version) : Plain v.toStr := by
  unfold Version.toStr
  obtain ⟨c, r, hc⟩ := List.exists_cons_of_ne_nil (natStr_ne_nil v.major)
  have hall : ∀ x ∈ natStr v.major ++ ['.'] ++ natStr v.minor, x = '.' ∨ isDigit09 x = true := by
    intro x hx
    simp only [List.mem_append, List.mem_singleton] at hx
    rcases hx with (hx | hx) | hx
    · exact .inr (natStr_digits _ x hx).1
    · exact .inl hx
    · exact .inr (natStr_digits _ x hx).1
  have hsp : ∀ x ∈ natStr v.major ++ ['.'] ++ natStr v.minor, isPySpace x = false := by
    intro x hx
    rcases hall x hx with rfl | h
    · decide
    · exact (not_space_of_digit h).1
  have hstrip : strip (natStr v.major ++ ['.'] ++ natStr v.minor) = natStr v.major ++ ['.'] ++ natStr v.minor := by
    rw [strip_eq_self_iff]
    exact ⟨fun x r e => hsp x (by rw [e]; simp), fun x r e => hsp x (by rw [e]; simp)⟩
  have hcd : isDigit09 c = true := (natStr_digits v.major c (by rw [hc]; simp)).1
  refine plain_of_space ?_ '.' (by simp) (by decide)
  refine oneLine_of (by simp) ?_ hstrip ?_ ?_
  · intro h
    rcases hall _ h with h | h
    · cases h
    · exact (not_space_of_digit h).2.2.1 rfl
  · rw [hc]
    refine badStarts_head (hex_not_start ?_)
    simp [isLowerHex, hcd]
  · intro h
    have := List.mem_of_getElem? (date_dash h)
    rcases hall _ this with h | h
    · cases h
    · exact (not_space_of_digit h).2.2.2.1 rfl

theorem info_version? {L : LicText} (v : Option Version) :
    InfoField L (writeValue? s%"LicenseListVersion" (v.map Version.toStr)) s%"license_list_version" (v.map fun x => .one (.version x)) := by
  have : writeValue? s%"LicenseListVersion" (v.map Version.toStr) = v.toList.flatMap fun a => writeValue s%"LicenseListVersion" a.toStr := by
    cases v <;> rfl
  rw [this]
  refine .opt v fun x _ => ?_
  refine .one (.value rfl (lexes_plain (version_line x)) rfl) fun s hf => ?_
  show Except.ok (s.setInfo s%"LicenseListVersion" (match versionFromString x.toStr with
      | some x => .ok (.version x)
      | none => .error (.invalid s%"LicenseListVersion" (.str x.toStr)))) = _
  rw [C04.roundtrip]
  rw [setInfo_ok (k := s%"license_list_version") (by decide +kernel) hf rfl]

theorem info_docRefs {L : LicText} (l : List ExternalDocumentRef) (h : ∀ r ∈ l, DocRefTv r) :
    InfoField L (l.flatMap fun r => writeValue s%"ExternalDocumentRef" (externalDocumentRefToTv r)) s%"external_document_refs"
      (manyOf (l.map .docRef)) := by
  refine .list (a := fun r => .value s%"ExternalDocumentRef" (.line (externalDocumentRefToTv r))) l
    (fun r hr => .value rfl (lexes_plain (parseDocRef_written (h r hr)).1) rfl) fun r hr s => ?_
  show Except.ok (match parseDocRef (externalDocumentRefToTv r) with
      | .ok r => s.appendInfo s%"external_document_refs" (.docRef r)
      | .error m => s.logInfo m) = _
  rw [(parseDocRef_written (h r hr)).2]

theorem info_creators {L : LicText} (l : List Actor) (h : ∀ a ∈ l, C05.Expressible a) :
    InfoField L (l.flatMap fun a => writeValue s%"Creator" a.toSerialized) s%"creators" (manyOf (l.map .actor)) := by
  refine .list (a := fun a => .value s%"Creator" (actorTok a)) l
    (fun a ha => .value rfl (actor_accepts a (h a ha)).1 (actor_accepts a (h a ha)).2.2.1) fun a ha s => ?_
  show (match parseActor (actorTok a).value with
    | .ok a => Except.ok (s.appendInfo s%"creators" (.actor a))
    | .error e => .error (PyErr.parsing [actorMsg e])) = _
  rw [(actor_accepts a (h a ha)).2.1]

theorem info_created {L : LicText} {t : DateTime} (h : DateOk t) : InfoField L (writeDate s%"Created" t) s%"created" (some (.one (.date t))) := by
  obtain ⟨x, h1, h2, h3⟩ := lexes_date t h
  unfold writeDate
  rw [h1]
  refine .one (.value rfl h2 rfl) fun s hn => ?_
  show Except.ok (s.setInfo s%"Created" (dateItem x)) = _
  rw [setInfo_ok (k := s%"created") (x := .date t) (by decide +kernel) hn (by unfold dateItem; rw [h3])]

def infoFields (c : CreationInfo) : List (Str × Option TvVal) :=
  [(s%"spdx_version", some (.one (.str c.spdxVersion))), (s%"data_license", some (.one (.str c.dataLicense))),
   (s%"spdx_id", some (.one (.str c.spdxId))), (s%"name", some (.one (.str c.name))),
   (s%"document_namespace", some (.one (.str c.documentNamespace))), (s%"document_comment", c.documentComment.map fun t => .one (.str t)),
   (s%"external_document_refs", manyOf (c.externalDocumentRefs.map .docRef)),
   (s%"license_list_version", c.licenseListVersion.map fun x => .one (.version x)), (s%"creators", manyOf (c.creators.map .actor)),
   (s%"created", some (.one (.date c.created))), (s%"creator_comment", c.creatorComment.map fun t => .one (.str t))]

def infKeys : List Str :=
  [s%"spdx_version", s%"data_license", s%"spdx_id", s%"name", s%"document_namespace", s%"document_comment", s%"external_document_refs",
   s%"license_list_version", s%"creators", s%"created", s%"creator_comment"]

theorem infoFields_nodup (c : CreationInfo) : ((infoFields c).map (·.1)).Nodup := by
  show infKeys.Nodup
  decide +kernel

theorem mkInfo_fields (c : CreationInfo) (h : c.creators ≠ []) : mkInfo (fieldsOf (infoFields c)) = .ok c := by
  have hk : (infoFields c).map (·.1) = infKeys := rfl
  have hn := infoFields_nodup c
  unfold mkInfo
  rw [tvOnly_of (by rw [hk]; decide +kernel),
    tvReq_of (a := c.spdxVersion) hn (List.mem_of_getElem? (i := 0) rfl) rfl,
    tvReq_of (a := c.spdxId) hn (List.mem_of_getElem? (i := 2) rfl) rfl,
    tvReq_of (a := c.name) hn (List.mem_of_getElem? (i := 3) rfl) rfl,
    tvReq_of (a := c.documentNamespace) hn (List.mem_of_getElem? (i := 4) rfl) rfl,
    tvReqList_of (l := c.creators) hn (List.mem_of_getElem? (i := 8) rfl) h (fun _ => rfl),
    tvReq_of (a := c.created) hn (List.mem_of_getElem? (i := 9) rfl) rfl,
    tvOpt_of (x := c.creatorComment) hn (List.mem_of_getElem? (i := 10) rfl) (fun _ => rfl) rfl,
    tvDflt_of (a := c.dataLicense) hn (List.mem_of_getElem? (i := 1) rfl) rfl,
    tvList_of (l := c.externalDocumentRefs) hn (List.mem_of_getElem? (i := 6) rfl) (fun _ => rfl),
    tvOpt_of (x := c.licenseListVersion) hn (List.mem_of_getElem? (i := 7) rfl) (fun _ => rfl) rfl,
    tvOpt_of (x := c.documentComment) hn (List.mem_of_getElem? (i := 5) rfl) (fun _ => rfl) rfl]
  rfl

theorem gives_heading_if (b : Bool) {w : TvSteps} (h : Gives w []) : Gives (writeHeading b w) [] := by
  unfold writeHeading
  cases b
  · exact .nil
  · exact h

theorem runs_info {L : LicText} {c : CreationInfo} (h : InfoTv c) : Runs L (writeCreationInfo c) {} (infoProg (infoFields c)) := by
  have r : InfoChain L [] [] := .mk fun _ => .nil L _
  have r := r.field (info_line (tag := s%"SPDXVersion") (k := s%"spdx_version") (by decide +kernel) (by decide +kernel) rfl h.version)
  have r := r.field (info_line (tag := s%"DataLicense") (k := s%"data_license") (by decide +kernel) (by decide +kernel) rfl h.dataLicense)
  have r := r.field (info_spdxId h.id)
  have r := r.field (info_line (tag := s%"DocumentName") (k := s%"name") (by decide +kernel) (by decide +kernel) rfl h.name)
  have r := r.field (info_line (tag := s%"DocumentNamespace") (k := s%"document_namespace") (by decide +kernel) (by decide +kernel) rfl h.ns)
  have r := r.field (info_text? (tag := s%"DocumentComment") (k := s%"document_comment") (by decide +kernel) (by decide +kernel) rfl _ h.comment)
  have r := r.skip (gives_heading_if (!c.externalDocumentRefs.isEmpty)
    (Gives.blank.append (.heading (h := s%"# External Document References") (by decide))))
  have r := r.field (info_docRefs _ h.refs)
  have r := r.skip (Gives.blank.append (.heading (h := s%"# Creation Information") (by decide)))
  have r := r.field (info_version? c.licenseListVersion)
  have r := r.field (info_creators _ h.actors)
  have r := r.field (info_created h.created)
  have r := r.field (info_text? (tag := s%"CreatorComment") (k := s%"creator_comment") (by decide +kernel) (by decide +kernel) rfl _ h.creatorComment)
  exact r.done (w' := writeCreationInfo c) (by unfold writeCreationInfo; rfl) (fs' := infoFields c)
    (by simp only [List.cons_append, List.nil_append]; rfl) (infoFields_nodup c)

theorem settled_info (c : CreationInfo) : Settled (infoProg (infoFields c)) :=
  ⟨rfl, rfl, rfl, by
    show ((fieldsOf (infoFields c)).get? s%"spdx_id").isSome
    rw [fieldsOf_get? (infoFields_nodup c) (List.mem_of_getElem? (i := 2) rfl)]; rfl⟩

end Spdx
