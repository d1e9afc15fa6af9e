import Verif.Lemmas.TagValueStep
import Verif.Spec.TvFaults
/- A faulty attribute leaves a message. -/
namespace Spdx
open Spec

theorem Logged.mk_log {s : TvState} (h : s.log ≠ []) : ∃ m, Logged m s := by
  obtain ⟨m, hm⟩ := List.exists_mem_of_ne_nil _ h
  exact ⟨m, .inl hm⟩

theorem logElem_logged {s : TvState} (m : PMsg) (h : s.cls ≠ none) : Logged m (s.logElem m) :=
  .inr (.inr (.inl ⟨h, List.mem_append_right _ (List.mem_singleton.2 rfl)⟩))

theorem logInfo_logged (s : TvState) (m : PMsg) : Logged m (s.logInfo m) :=
  .inr (.inr (.inr (List.mem_append_right _ (List.mem_singleton.2 rfl))))

theorem inScope_logged {A : PMsg → Prop} {s : TvState} {c : TvClass} {k : TvState → TvState}
    (ha : A (.text (s%"Element " ++ c.name ++ s%" is not the current element in scope"))) (h : s.cls = some c → ∃ m, A m ∧ Logged m (k s)) :
    ∃ m, A m ∧ Logged m (s.inScope c k) := by
  unfold TvState.inScope
  split
  · rename_i e; exact h e
  · exact ⟨_, ha, .inl (List.mem_append_right _ (List.mem_singleton.2 rfl))⟩

theorem setElem_logged {A : PMsg → Prop} {s : TvState} {tag : Str} {m : PMsg} (ha : A (multipleMsg tag)) (hm : A m) (h : s.cls ≠ none) :
    ∃ m', A m' ∧ Logged m' (s.setElem tag (.error m)) := by
  unfold TvState.setElem
  split
  · exact ⟨_, ha, logElem_logged _ h⟩
  · exact ⟨_, hm, logElem_logged _ h⟩

theorem setInfo_logged {A : PMsg → Prop} (s : TvState) (tag : Str) (m : PMsg) (ha : A (multipleMsg tag)) (hm : A m) :
    ∃ m', A m' ∧ Logged m' (s.setInfo tag (.error m)) := by
  unfold TvState.setInfo
  split
  · exact ⟨_, ha, logInfo_logged _ _⟩
  · exact ⟨_, hm, logInfo_logged _ _⟩

theorem cls_ne {s : TvState} {c : TvClass} (h : s.cls = some c) : s.cls ≠ none := by rw [h]; exact Option.some_ne_none c

private theorem licenseValue_error {L : LicText} {v : Tok} (h1 : v ≠ .noAssertion) (h2 : v ≠ .none) (h3 : L.parse v.value = none) :
    licenseValue L v = (.null, some (.invalid s%"license expression" (.str v.value))) := by
  cases v
  case noAssertion => exact absurd rfl h1
  case none => exact absurd rfl h2
  all_goals
    unfold licenseValue
    simp only []
    rw [h3]

private theorem license_generic {A : PMsg → Prop} {s s' : TvState} {tag : Str} {v : TvItem} {m : PMsg} {c : TvClass} (hc : tagClass tag = some c)
    (hs : startTag tag = none) (ho : A (.text (s%"Element " ++ c.name ++ s%" is not the current element in scope"))) (hm : A m)
    (h : (s.logElem m).generic tag v = .ok s') : ∃ m, A m ∧ Logged m s' := by
  unfold TvState.generic at h
  rw [hc] at h
  simp only [hs, Option.isSome_none, Bool.false_eq_true, if_false, Except.ok.injEq] at h
  subst h
  refine inScope_logged ho fun e => ⟨m, hm, ?_⟩
  exact (logElem_logged m (cls_ne (s := s) e)).grows (Moves.setElem _ _ _).grows

private theorem license_list {A : PMsg → Prop} {s s' : TvState} {c : TvClass} {k : Str} {v : TvItem} {m : PMsg}
    (ho : A (.text (s%"Element " ++ c.name ++ s%" is not the current element in scope"))) (hm : A m)
    (h : (s.logElem m).inScope c (fun s => s.appendElem k v) = s') : ∃ m, A m ∧ Logged m s' := by
  subst h
  refine inScope_logged ho fun e => ⟨m, hm, ?_⟩
  exact (logElem_logged m (cls_ne (s := s) e)).grows (Moves.appendElem _ _ _).grows

theorem attr_of_license {L : LicText} {s : TvState} {tag : Str} {v : Tok} (ht : tag ∈ genericLicenseTags) :
    s.attr L tag v = (s.logLicense (licenseValue L v).2).generic tag (licenseValue L v).1 := by
  have h : ∀ t ∈ genericLicenseTags, t ∉ genericTextTags ∧ t ∉ genericSpecialTags := by decide +kernel
  unfold TvState.attr
  exact (if_neg (h _ ht).1).trans ((if_neg (h _ ht).2).trans (if_pos ht))

theorem attr_of_supplier {L : LicText} {s : TvState} {tag : Str} {v : Tok} (ht : tag ∈ [s%"PackageSupplier", s%"PackageOriginator"]) :
    s.attr L tag v = (match v with
      | .noAssertion => s.generic tag .noAssertion
      | v => match parseActor v.value with
        | .ok a => s.generic tag (.actor a)
        | .error e => .error (.parsing [actorMsg e])) := by
  have h : ∀ t ∈ [s%"PackageSupplier", s%"PackageOriginator"], t ∉ genericTextTags ∧ t ∉ genericSpecialTags ∧ t ∉ genericLicenseTags := by
    decide +kernel
  have hp : tag = s%"PackageSupplier" ∨ tag = s%"PackageOriginator" := by
    rcases List.mem_cons.1 ht with h | h
    · exact .inl h
    · exact .inr (List.mem_singleton.1 h)
  unfold TvState.attr
  exact (if_neg (h _ ht).1).trans ((if_neg (h _ ht).2.1).trans ((if_neg (h _ ht).2.2).trans (if_pos hp)))

private theorem license_heard {L : LicText} {s s' : TvState} {tag : Str} {v : Tok} (ht : tag ∈ licenseTags) (h1 : v ≠ .noAssertion)
    (h2 : v ≠ .none) (h3 : L.parse v.value = none) (h : s.attr L tag v = .ok s') : ∃ m, About (.value tag v) m ∧ Logged m s' := by
  have e := licenseValue_error h1 h2 h3
  have hl : About (.value tag v) (.invalid s%"license expression" (.str v.value)) := .license ht
  simp only [licenseTags, List.mem_cons, List.not_mem_nil, or_false] at ht
  rcases ht with rfl | rfl | rfl | rfl | rfl | rfl | rfl
  case inr.inr.inr.inr.inl | inr.inr.inr.inr.inr.inl | inr.inr.inr.inr.inr.inr =>
    change Except.ok ((s.logLicense (licenseValue L v).2).inScope _ fun s => s.appendElem _ (licenseValue L v).1) = Except.ok s' at h
    rw [e] at h
    exact license_list (.outside (by decide +kernel)) hl (Except.ok.inj h)
  all_goals
    rw [attr_of_license (by decide), e] at h
  · exact license_generic (c := .file) (by decide +kernel) (by decide +kernel) (.outside (by decide +kernel)) hl h
  · exact license_generic (c := .package) (by decide +kernel) (by decide +kernel) (.outside (by decide +kernel)) hl h
  · exact license_generic (c := .package) (by decide +kernel) (by decide +kernel) (.outside (by decide +kernel)) hl h
  · exact license_generic (c := .snippet) (by decide +kernel) (by decide +kernel) (.outside (by decide +kernel)) hl h

private theorem dateItem_error {x : Str} (h : datetimeFromStr x = none) : dateItem x = .error (.invalid s%"date" (.str x)) := by
  unfold dateItem; rw [h]

private theorem actorItem_error {x : Str} {e : ActorError} (h : parseActor x = .error e) : actorItem x = .error (actorMsg e) := by
  unfold actorItem; rw [h]

private theorem date_heard {L : LicText} {s s' : TvState} {tag : Str} {v : Tok} (ht : tag ∈ dateTags) (h3 : datetimeFromStr v.value = none)
    (h : s.attr L tag v = .ok s') : ∃ m, About (.value tag v) m ∧ Logged m s' := by
  have e := dateItem_error h3
  have hd : About (.value tag v) (.invalid s%"date" (.str v.value)) := .date ht
  simp only [dateTags, List.mem_cons, List.not_mem_nil, or_false] at ht
  rcases ht with rfl | rfl | rfl | rfl | rfl
  · change Except.ok (s.setInfo _ (dateItem v.value)) = Except.ok s' at h
    rw [e] at h; rw [← Except.ok.inj h]; exact setInfo_logged _ _ _ .again hd
  all_goals
    change Except.ok (s.inScope _ fun s => s.setElem _ (dateItem v.value)) = Except.ok s' at h
    rw [e] at h; rw [← Except.ok.inj h]
    exact inScope_logged (.outside (by decide +kernel)) fun hc => setElem_logged .again hd (cls_ne hc)

private theorem supplier_stops {L : LicText} {s s' : TvState} {tag : Str} {v : Tok} {e : ActorError}
    (ht : tag ∈ [s%"PackageSupplier", s%"PackageOriginator"]) (hv : v ≠ .noAssertion) (h3 : parseActor v.value = .error e)
    (h : s.attr L tag v = .ok s') : False := by
  rw [attr_of_supplier ht] at h
  split at h
  · exact hv rfl
  · rw [h3] at h; cases h

theorem faulty_heard {L : LicText} {s s' : TvState} {a : TvAttr} (hf : Faulty L a) (h : s.step L a = .ok s') : ∃ m, About a m ∧ Logged m s' := by
  cases hf with
  | unknown =>
    change Except.ok _ = Except.ok s' at h
    cases h
    exact ⟨_, .unknown, .inl (List.mem_append_right _ (List.mem_singleton.2 rfl))⟩
  | creation ht =>
    change TvState.badAttr s _ = .ok s' at h
    unfold TvState.badAttr at h
    have hi : ∀ t ∈ creationTags, t ∈ infoTags := by decide +kernel
    rw [if_pos (hi _ ht)] at h
    cases h
    exact ⟨_, .wrongKind, logInfo_logged _ _⟩
  | license ht h1 h2 h3 => exact license_heard ht h1 h2 h3 h
  | date ht h3 => exact date_heard ht h3 h
  | @actor tag v e ht h3 =>
    simp only [List.mem_cons, List.not_mem_nil, or_false] at ht
    rcases ht with rfl | rfl
    · change (match parseActor v.value with
        | .ok a => .ok (s.appendInfo s%"creators" (.actor a))
        | .error e => .error (.parsing [actorMsg e]) : Py TvState) = .ok s' at h
      rw [h3] at h; cases h
    · change Except.ok ((s.start .annotation).setElem _ (actorItem v.value)) = Except.ok s' at h
      rw [actorItem_error h3] at h; rw [← Except.ok.inj h]
      exact setElem_logged .again (.actor h3) (Option.some_ne_none _)
  | supplier ht h1 h3 => exact absurd h fun h => supplier_stops ht h1 h3 h
  | @checksum tag v ht h3 =>
    have key : ∀ c, (tag, c) ∈ owners → s.checksumAttr c v.value = .ok s' → ∃ m, About (.value tag v) m ∧ Logged m s' := by
      intro c ho h
      unfold TvState.checksumAttr at h
      split at h
      · rw [h3] at h; cases h
      · rename_i hc
        rw [← Except.ok.inj h]
        exact inScope_logged (.outside ho) fun hc' => absurd hc' hc
    simp only [List.mem_cons, List.not_mem_nil, or_false] at ht
    rcases ht with rfl | rfl
    · exact key .file (by decide +kernel) h
    · exact key .package (by decide +kernel) h
  | @fileType v h3 =>
    change Except.ok (s.inScope .file fun s => match FileType.ofName? (strip v.value) with
      | some t => s.appendElem s%"file_types" (.fileType t)
      | none => s.logElem (.invalid s%"FileType" (.str v.value))) = Except.ok s' at h
    rw [h3] at h; rw [← Except.ok.inj h]
    exact inScope_logged (.outside (by decide +kernel)) fun hc => ⟨_, .value, logElem_logged _ (cls_ne hc)⟩
  | @purpose v h3 =>
    change Except.ok (s.inScope .package fun s => s.setElem s%"PrimaryPackagePurpose" (match PackagePurpose.ofName? (replaceChar '-' ['_'] v.value) with
      | some p => .ok (.purpose p)
      | none => .error (.invalid s%"PrimaryPackagePurpose" (.str v.value)))) = Except.ok s' at h
    rw [h3] at h; rw [← Except.ok.inj h]
    exact inScope_logged (.outside (by decide +kernel)) fun hc => setElem_logged .again .value (cls_ne hc)
  | @annotationType v h3 =>
    change Except.ok (s.inScope .annotation fun s => s.setElem s%"AnnotationType" (match AnnotationType.ofName? v.value with
      | some t => .ok (.annotationType t)
      | none => .error (.invalid s%"AnnotationType" (.str v.value)))) = Except.ok s' at h
    rw [h3] at h; rw [← Except.ok.inj h]
    exact inScope_logged (.outside (by decide +kernel)) fun hc => setElem_logged .again .value (cls_ne hc)
  | @version v h3 =>
    change Except.ok (s.setInfo s%"LicenseListVersion" (match versionFromString v.value with
      | some x => .ok (.version x)
      | none => .error (.invalid s%"LicenseListVersion" (.str v.value)))) = Except.ok s' at h
    rw [h3] at h; rw [← Except.ok.inj h]
    exact setInfo_logged _ _ _ .again .value
  | @docRef v m h3 =>
    change Except.ok (match parseDocRef v.value with
      | .ok r => s.appendInfo s%"external_document_refs" (.docRef r)
      | .error m => s.logInfo m) = Except.ok s' at h
    rw [h3] at h; rw [← Except.ok.inj h]
    exact ⟨_, .docRef h3, logInfo_logged _ _⟩
  | @code v h3 =>
    change Except.ok (s.inScope .package fun s =>
      if (s.elem.get? s%"verification_code").isSome then s.logElem (multipleMsg s%"PackageVerificationCode")
      else match parseTvCode v.value with
        | some c => { s with elem := s.elem.set s%"verification_code" (.one (.code c)) }
        | none => s.logElem (.invalid s%"PackageVerificationCode" (.str v.value))) = Except.ok s' at h
    rw [h3] at h; rw [← Except.ok.inj h]
    refine inScope_logged (.outside (by decide +kernel)) fun hc => ?_
    split
    · exact ⟨_, .again, logElem_logged _ (cls_ne hc)⟩
    · exact ⟨_, .value, logElem_logged _ (cls_ne hc)⟩
  | @analyzed v h1 h2 =>
    change Except.ok (s.inScope .package fun s =>
      if (s.elem.get? s%"files_analyzed").isSome then s.logElem (multipleMsg s%"FilesAnalyzed")
      else if v.value = s%"true" then { s with elem := s.elem.set s%"files_analyzed" (.one (.bool true)) }
      else if v.value = s%"false" then { s with elem := s.elem.set s%"files_analyzed" (.one (.bool false)) }
      else s.logElem (.invalid s%"FilesAnalyzed" (.str v.value))) = Except.ok s' at h
    rw [← Except.ok.inj h]
    refine inScope_logged (.outside (by decide +kernel)) fun hc => ?_
    split
    · exact ⟨_, .again, logElem_logged _ (cls_ne hc)⟩
    · exact ⟨_, .value, logElem_logged _ (cls_ne hc)⟩
  | @range tag v ht h3 =>
    have ho : (tag, TvClass.snippet) ∈ owners := by
      simp only [List.mem_cons, List.not_mem_nil, or_false] at ht
      rcases ht with rfl | rfl <;> decide +kernel
    have hh : Except.ok (s.inScope .snippet fun s =>
        if (s.elem.get? (propertyName tag)).isSome then s.logElem (multipleMsg tag)
        else match parseTvRange v.value with
          | some r => { s with elem := s.elem.set (propertyName tag) (.one (.range r)) }
          | none => s.logElem (.invalid tag (.str v.value))) = (Except.ok s' : Py TvState) := by
      simp only [List.mem_cons, List.not_mem_nil, or_false] at ht
      rcases ht with rfl | rfl <;> exact h
    rw [h3] at hh; rw [← Except.ok.inj hh]
    refine inScope_logged (.outside ho) fun hc => ?_
    split
    · exact ⟨_, .again, logElem_logged _ (cls_ne hc)⟩
    · exact ⟨_, .value, logElem_logged _ (cls_ne hc)⟩
  | @relationshipShape line c h3 =>
    change Except.ok ((s.start .relationship).setRelationship line (c.map textOrLineValue)) = Except.ok s' at h
    rw [← Except.ok.inj h]
    unfold TvState.setRelationship
    split
    · rename_i e; rw [e] at h3; exact absurd rfl h3
    · exact ⟨_, .relationshipShape, logElem_logged _ (Option.some_ne_none _)⟩
  | @relationshipType a t b line c h3 h4 =>
    change Except.ok ((s.start .relationship).setRelationship line (c.map textOrLineValue)) = Except.ok s' at h
    rw [← Except.ok.inj h]
    unfold TvState.setRelationship
    rw [h3]
    simp only [h4]
    have hl := logElem_logged (s := s.start .relationship) (.invalid s%"RelationshipType" (.str t)) (Option.some_ne_none _)
    split
    · exact ⟨_, .relationshipType h3, hl⟩
    · exact ⟨_, .relationshipType h3, hl⟩
  | @externalRef line c m h3 =>
    change Except.ok (s.inScope .package fun s => match parseTvExtRef line (c.map textOrLineValue) with
      | .ok r => s.appendElem s%"external_references" (.extRef r)
      | .error m => s.logElem m) = Except.ok s' at h
    rw [h3] at h; rw [← Except.ok.inj h]
    exact inScope_logged .refOutside fun hc => ⟨_, .externalRef h3, logElem_logged _ (cls_ne hc)⟩

/-- A message of an element, which is reported once there is an element. -/
def Pending (m : PMsg) (s : TvState) : Prop := Logged m s ∨ m ∈ s.elemLog

theorem pending_step {L : LicText} {s s' : TvState} {a : TvAttr} {m : PMsg} (h : Pending m s) (hs : s.step L a = .ok s') : Pending m s' := by
  rcases h with h | h
  · exact .inl (h.step hs)
  · cases e : s.cls with
    | some c => exact .inl (Logged.step (.inr (.inr (.inl ⟨cls_ne e, h⟩))) hs)
    | none =>
      have hg := step_grows hs
      unfold TvState.entry at hg
      refine .inr (hg.elemLog.subset ?_)
      split
      · unfold TvState.start TvState.finish; rw [e]; exact h
      · exact h

theorem pending_run {L : LicText} {s s' : TvState} {as : List TvAttr} {m : PMsg} (h : Pending m s) (hs : s.run L as = .ok s') : Pending m s' := by
  induction as generalizing s with
  | nil => cases hs; exact h
  | cons a as ih =>
    unfold TvState.run at hs
    split at hs
    · rename_i s1 e; exact ih (pending_step h e) hs
    · cases hs

theorem step_cls {L : LicText} {s s' : TvState} {a : TvAttr} (h : s.cls ≠ none ∨ a.starts.isSome) (hs : s.step L a = .ok s') :
    s'.cls ≠ none := by
  have hg := step_grows hs
  rw [hg.cls]
  unfold TvState.entry
  split
  · exact Option.some_ne_none _
  · rename_i e
    rw [e] at h
    exact h.resolve_right (by simp)

theorem run_cls {L : LicText} {s s' : TvState} {as : List TvAttr} (h : s.cls ≠ none ∨ ∃ a ∈ as, a.starts.isSome) (hs : s.run L as = .ok s') :
    s'.cls ≠ none := by
  induction as generalizing s with
  | nil => cases hs; exact h.resolve_right (by simp)
  | cons a as ih =>
    unfold TvState.run at hs
    split at hs
    · rename_i s1 e
      refine ih ?_ hs
      rcases h with h | ⟨b, hb, h⟩
      · exact .inl (step_cls (.inl h) e)
      · rcases List.mem_cons.1 hb with rfl | hb
        · exact .inl (step_cls (.inr h) e)
        · exact .inr ⟨b, hb, h⟩
    · cases hs

theorem bad_pending {L : LicText} {s s' : TvState} {tag : Str} (h : s.step L (.bad tag) = .ok s') : Pending (.text (s%"Error while parsing " ++ tag)) s' := by
  change s.badAttr tag = .ok s' at h
  unfold TvState.badAttr at h
  split at h
  · cases h; exact .inl (logInfo_logged _ _)
  · split at h
    · split at h
      · cases h
      · cases h; exact .inl (logElem_logged _ (Option.some_ne_none _))
    · cases h; exact .inr (List.mem_append_right _ (List.mem_singleton.2 rfl))

theorem run_split {L : LicText} {s s' : TvState} {as : List TvAttr} {a : TvAttr} (ha : a ∈ as) (h : s.run L as = .ok s') :
    ∃ (s1 s2 : TvState) (bs : List TvAttr), s1.step L a = .ok s2 ∧ s2.run L bs = .ok s' := by
  induction as generalizing s with
  | nil => cases ha
  | cons b as ih =>
    unfold TvState.run at h
    split at h
    · rename_i s1 e
      rcases List.mem_cons.1 ha with rfl | ha
      · exact ⟨s, s1, as, e, h⟩
      · exact ih ha h
    · cases h

/-! ## An attribute outside its element -/

theorem outside_logged {s : TvState} {c : TvClass} {k : TvState → TvState} (h : s.cls ≠ some c) : Logged (.text (s%"Element " ++ c.name ++ s%" is not the current element in scope")) (s.inScope c k) := by
  unfold TvState.inScope
  rw [if_neg h]
  exact .inl (List.mem_append_right _ (List.mem_singleton.2 rfl))

private theorem outside_generic {s s' : TvState} {tag : Str} {v : TvItem} {c : TvClass} (hc : tagClass tag = some c) (hs : startTag tag = none)
    (h : s.cls ≠ some c) (hr : s.generic tag v = .ok s') : Logged (.text (s%"Element " ++ c.name ++ s%" is not the current element in scope")) s' := by
  unfold TvState.generic at hr
  rw [hc] at hr
  simp only [hs, Option.isSome_none, Bool.false_eq_true, if_false, Except.ok.injEq] at hr
  subst hr
  exact outside_logged h

private theorem outside_license {s s' : TvState} {tag : Str} {v : TvItem} {m : Option PMsg} {c : TvClass} (hc : tagClass tag = some c)
    (hs : startTag tag = none) (h : s.cls ≠ some c) (hr : (s.logLicense m).generic tag v = .ok s') : Logged (.text (s%"Element " ++ c.name ++ s%" is not the current element in scope")) s' := by
  refine outside_generic hc hs ?_ hr
  cases m <;> exact h

theorem attr_of_text {L : LicText} {s : TvState} {tag : Str} {v : Tok} (ht : tag ∈ genericTextTags) :
    s.attr L tag v = s.generic tag (.str (textOrLineValue v)) := by
  unfold TvState.attr
  exact if_pos ht

theorem attr_of_special {L : LicText} {s : TvState} {tag : Str} {v : Tok} (ht : tag ∈ genericSpecialTags) :
    s.attr L tag v = s.generic tag (lineOrSpecialValue v) := by
  have h : ∀ t ∈ genericSpecialTags, t ∉ genericTextTags := by decide +kernel
  unfold TvState.attr
  exact (if_neg (h _ ht)).trans (if_pos ht)

private theorem owners_generic : ∀ p ∈ owners,
    (p.1 ∈ genericTextTags ++ genericSpecialTags ++ genericLicenseTags ++ [s%"PackageSupplier", s%"PackageOriginator"] →
      tagClass p.1 = some p.2 ∧ startTag p.1 = none) := by decide +kernel

private theorem owners_rest : ∀ p ∈ owners,
    (p.1 ∈ genericTextTags ++ genericSpecialTags ++ genericLicenseTags ++ [s%"PackageSupplier", s%"PackageOriginator"]) ∨
    p ∈ [(s%"FileType", .file), (s%"FileChecksum", .file), (s%"LicenseInfoInFile", .file), (s%"FileContributor", .file),
      (s%"FileAttributionText", .file), (s%"PackageChecksum", .package), (s%"PackageAttributionText", .package),
      (s%"PackageVerificationCode", .package), (s%"FilesAnalyzed", .package), (s%"PrimaryPackagePurpose", .package),
      (s%"BuiltDate", .package), (s%"ReleaseDate", .package), (s%"ValidUntilDate", .package), (s%"PackageLicenseInfoFromFiles", .package),
      (s%"SnippetByteRange", .snippet), (s%"SnippetLineRange", .snippet), (s%"LicenseInfoInSnippet", .snippet),
      (s%"SnippetAttributionText", .snippet), (s%"AnnotationDate", .annotation), (s%"AnnotationType", .annotation),
      (s%"LicenseCrossReference", .extracted)] := by decide +kernel

theorem misplaced_heard {L : LicText} {s s' : TvState} {tag : Str} {v : Tok} {c : TvClass} (ho : (tag, c) ∈ owners) (hc : s.cls ≠ some c)
    (h : s.step L (.value tag v) = .ok s') : Logged (.text (s%"Element " ++ c.name ++ s%" is not the current element in scope")) s' := by
  change s.attr L tag v = .ok s' at h
  by_cases hg : tag ∈ genericTextTags ++ genericSpecialTags ++ genericLicenseTags ++ [s%"PackageSupplier", s%"PackageOriginator"]
  · obtain ⟨h1, h2⟩ := owners_generic _ ho hg
    rcases List.mem_append.1 hg with hg | hg
    · rcases List.mem_append.1 hg with hg | hg
      · rcases List.mem_append.1 hg with hg | hg
        · rw [attr_of_text hg] at h; exact outside_generic h1 h2 hc h
        · rw [attr_of_special hg] at h; exact outside_generic h1 h2 hc h
      · rw [attr_of_license hg] at h; exact outside_license h1 h2 hc h
    · rw [attr_of_supplier hg] at h
      split at h
      · exact outside_generic h1 h2 hc h
      · split at h
        · exact outside_generic h1 h2 hc h
        · cases h
  · have hm := (owners_rest _ ho).resolve_left hg
    have hlic : ∀ (m : Option PMsg) (k : TvState → TvState), Logged (.text (s%"Element " ++ c.name ++ s%" is not the current element in scope")) ((s.logLicense m).inScope c k) := by
      intro m k
      refine outside_logged ?_
      cases m <;> exact hc
    have hcs : ∀ x, s.checksumAttr c x = .ok s' → Logged (.text (s%"Element " ++ c.name ++ s%" is not the current element in scope")) s' := by
      intro x h
      unfold TvState.checksumAttr at h
      rw [if_neg hc] at h
      rw [← Except.ok.inj h]; exact outside_logged hc
    simp only [List.mem_cons, List.not_mem_nil, or_false, Prod.mk.injEq] at hm
    rcases hm with ⟨rfl, rfl⟩ | ⟨rfl, rfl⟩ | ⟨rfl, rfl⟩ | ⟨rfl, rfl⟩ | ⟨rfl, rfl⟩ | ⟨rfl, rfl⟩ | ⟨rfl, rfl⟩ | ⟨rfl, rfl⟩ | ⟨rfl, rfl⟩ | ⟨rfl, rfl⟩ |
      ⟨rfl, rfl⟩ | ⟨rfl, rfl⟩ | ⟨rfl, rfl⟩ | ⟨rfl, rfl⟩ | ⟨rfl, rfl⟩ | ⟨rfl, rfl⟩ | ⟨rfl, rfl⟩ | ⟨rfl, rfl⟩ | ⟨rfl, rfl⟩ | ⟨rfl, rfl⟩ | ⟨rfl, rfl⟩
    case inr.inl => exact hcs v.value h
    case inr.inr.inr.inr.inr.inl => exact hcs v.value h
    case inr.inr.inl =>
      change Except.ok _ = Except.ok s' at h
      rw [← Except.ok.inj h]; exact hlic _ _
    case inr.inr.inr.inr.inr.inr.inr.inr.inr.inr.inr.inr.inr.inl =>
      change Except.ok _ = Except.ok s' at h
      rw [← Except.ok.inj h]; exact hlic _ _
    case inr.inr.inr.inr.inr.inr.inr.inr.inr.inr.inr.inr.inr.inr.inr.inr.inl =>
      change Except.ok _ = Except.ok s' at h
      rw [← Except.ok.inj h]; exact hlic _ _
    case inr.inr.inr.inr.inr.inr.inl =>
      change Except.ok ((s.inScope .package id).appendElem _ _) = Except.ok s' at h
      rw [← Except.ok.inj h]
      exact (outside_logged (k := id) hc).grows (Moves.appendElem _ _ _).grows
    all_goals
      change Except.ok _ = Except.ok s' at h
      rw [← Except.ok.inj h]; exact outside_logged hc

theorem misplaced_ref_heard {L : LicText} {s s' : TvState} {line : Str} {c : Option Tok} (hc : s.cls ≠ some .package)
    (h : s.step L (.commented s%"ExternalRef" line c) = .ok s') : Logged (.text s%"Element Package is not the current element in scope") s' := by
  change Except.ok _ = Except.ok s' at h
  rw [← Except.ok.inj h]; exact outside_logged hc

theorem run_append_inv {L : LicText} {s s' : TvState} {as bs : List TvAttr} (h : s.run L (as ++ bs) = .ok s') :
    ∃ s1 : TvState, s.run L as = .ok s1 ∧ s1.run L bs = .ok s' := by
  induction as generalizing s with
  | nil => exact ⟨s, rfl, h⟩
  | cons a as ih =>
    rw [List.cons_append] at h
    unfold TvState.run at h
    split at h
    · rename_i s1 e
      obtain ⟨s2, h1, h2⟩ := ih h
      refine ⟨s2, ?_, h2⟩
      unfold TvState.run
      rw [e]; exact h1
    · cases h

theorem starts_eq (a : TvAttr) : a.starts = opens a := by
  have key : ∀ tag, startTag tag = begins.lookup tag := by
    intro tag
    by_cases h1 : tag = s%"FileName"
    · subst h1; decide
    by_cases h2 : tag = s%"Annotator"
    · subst h2; decide
    by_cases h3 : tag = s%"SnippetSPDXID"
    · subst h3; decide
    by_cases h4 : tag = s%"PackageName"
    · subst h4; decide
    by_cases h5 : tag = s%"LicenseID"
    · subst h5; decide
    by_cases h6 : tag = s%"Relationship"
    · subst h6; decide
    have e : begins.lookup tag = none := by
      unfold begins
      simp only [List.lookup, beq_eq_false_iff_ne.2 h1, beq_eq_false_iff_ne.2 h2, beq_eq_false_iff_ne.2 h3, beq_eq_false_iff_ne.2 h4,
        beq_eq_false_iff_ne.2 h5, beq_eq_false_iff_ne.2 h6]
    rw [e]
    unfold startTag
    split <;> first | contradiction | rfl
  cases a with
  | value tag v => exact key tag
  | bad tag =>
    change (if tag ∈ infoTags then none else startTag tag) = begins.lookup tag
    split
    · rename_i h
      have : ∀ t ∈ infoTags, begins.lookup t = none := by decide +kernel
      exact (this tag h).symm
    · exact key tag
  | commented tag l c => rfl
  | spdxId v => rfl
  | unknown => rfl

theorem no_result {s : TvState} (h : ∃ m, Logged m s) (d : Document) : s.result ≠ .ok d := by
  obtain ⟨m, hm⟩ := h
  obtain ⟨log, e, _⟩ := hm.result
  rw [e]; exact fun e => by cases e

theorem read_run {L : LicText} {text : Str} {d : Document} (h : parseTagValue L text = .ok d) :
    ∃ s, TvState.run L {} (attrs (lex text)) = .ok s ∧ s.result = .ok d := by
  unfold parseTagValue at h
  split at h
  · rename_i s e; exact ⟨s, e, h⟩
  · cases h

theorem run_current {L : LicText} {s s' : TvState} {as : List TvAttr} (h : s.run L as = .ok s') :
    s'.cls = (current as).or s.cls := by
  induction as generalizing s with
  | nil => cases h; rfl
  | cons a as ih =>
    unfold TvState.run at h
    split at h
    · rename_i s1 e
      rw [ih h]
      have hg := (step_grows e).cls
      unfold TvState.entry at hg
      rw [starts_eq] at hg
      change _ = ((current as).or (opens a)).or s.cls
      cases current as with
      | some c => rfl
      | none =>
        change s1.cls = (opens a).or s.cls
        rw [hg]
        cases opens a <;> rfl
    · cases h

end Spdx
