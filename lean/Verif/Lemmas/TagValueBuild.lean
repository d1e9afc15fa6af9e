import Verif.Lemmas.TagValueElems
/- Reading back whole elements. -/
namespace Spdx
open Spec

/-! ## The other kinds of fields -/

theorem actor_accepts (a : Actor) (h : C05.Expressible a) :
    Lexes a.toSerialized (actorTok a) ∧ parseActor (actorTok a).value = .ok a ∧ TvSyntax.actor.accepts (actorTok a) = true ∧
      (a.actorType ≠ .TOOL → TvSyntax.actorOrNoAssertion.accepts (actorTok a) = true) ∧ actorTok a ≠ .noAssertion := by
  refine ⟨lexes_actor a h, by rw [actorTok_value]; exact C05.roundtrip a h, ?_, ?_, ?_⟩ <;> unfold actorTok <;>
    cases a.actorType <;> simp [TvSyntax.accepts]

def actorItemOf : OrNoAssertion Actor → TvItem
  | .val a => .actor a
  | .noAssertion => .noAssertion

theorem actorAttr_ok {L : LicText} {s : TvState} {tag : Str} (ht : tag = s%"PackageSupplier" ∨ tag = s%"PackageOriginator") (v : Tok) :
    s.attr L tag v = match v with
      | .noAssertion => s.generic tag .noAssertion
      | v => match parseActor v.value with
        | .ok a => s.generic tag (.actor a)
        | .error e => .error (.parsing [actorMsg e]) := by
  rcases ht with rfl | rfl <;> rfl

theorem field_actor? {L : LicText} {tag : Str} {k : Str} (ht : tag = s%"PackageSupplier" ∨ tag = s%"PackageOriginator")
    (hk : propertyName tag = k) (hcls : tagClass tag = some .package) (hst : startTag tag = none)
    (hx : tvSyntax.lookup tag = some .actorOrNoAssertion) (v : Option (OrNoAssertion Actor))
    (hv : ∀ a, v = some (.val a) → C05.Expressible a ∧ a.actorType ≠ .TOOL) :
    TvField L (writeActor? tag v) .package k (v.map fun x => .one (actorItemOf x)) := by
  refine opt_map v fun x e => ?_
  cases x with
  | val a =>
    obtain ⟨h1, h2⟩ := hv a e
    obtain ⟨g1, g2, _, g4, g5⟩ := actor_accepts a h1
    refine .one (.value hx g1 (g4 h2)) fun s hc _ hn => ?_
    show s.attr L tag _ = _
    rw [actorAttr_ok ht]
    split
    · rename_i e; exact absurd e g5
    · rw [g2]; exact generic_ok hcls hst hk hc hn _
  | noAssertion =>
    refine .one (.value hx lexes_noAssertion rfl) fun s hc _ hn => ?_
    show s.attr L tag _ = _
    rw [actorAttr_ok ht]
    exact generic_ok hcls hst hk hc hn _

theorem purpose_name (p : PackagePurpose) : Plain (enumNameToTv p.name) ∧
    PackagePurpose.ofName? (replaceChar '-' ['_'] (enumNameToTv p.name)) = some p := by
  cases p <;> decide +kernel

theorem fileType_name (t : FileType) : Plain t.name ∧ FileType.ofName? (strip t.name) = some t := by
  cases t <;> decide +kernel

theorem annotationType_name (t : AnnotationType) : Plain t.name ∧ AnnotationType.ofName? t.name = some t := by
  cases t <;> decide +kernel

/-- A field set by an action that first looks whether it is already there. -/
theorem field_once {L : LicText} {tag v : Str} {c : TvClass} {k : Str} {t : Tok} {x : TvSyntax} {i : TvItem}
    (hx : tvSyntax.lookup tag = some x) (hl : Lexes v t) (ha : x.accepts t = true)
    (hs : ∀ s : TvState, s.elem.get? k = none → s.attr L tag t = .ok (s.inScope c fun s => { s with elem := s.elem.set k (.one i) })) :
    TvField L (writeValue tag v) c k (some (.one i)) := by
  refine .one (.value hx hl ha) fun s hc _ hn => ?_
  show s.attr L tag t = _
  rw [hs s hn]
  unfold TvState.inScope
  rw [if_pos hc]

theorem inScope_congr {s : TvState} {c : TvClass} {f g : TvState → TvState} (h : f s = g s) : s.inScope c f = s.inScope c g := by
  unfold TvState.inScope; rw [h]

theorem setElem_ok {s : TvState} {tag k : Str} (hk : propertyName tag = k) (hn : s.elem.get? k = none) {v : Except PMsg TvItem} {x : TvItem}
    (hv : v = .ok x) : s.setElem tag v = { s with elem := s.elem.set k (.one x) } := by
  unfold TvState.setElem
  rw [hk, hn, hv]; rfl

theorem field_purpose? {L : LicText} (v : Option PackagePurpose) :
    TvField L (writeValue? s%"PrimaryPackagePurpose" (v.map fun x => enumNameToTv x.name)) .package s%"primary_package_purpose"
      (v.map fun x => .one (.purpose x)) := by
  refine opt_map v fun x _ => ?_
  refine field_once rfl (lexes_plain (purpose_name x).1) rfl fun s hn => ?_
  show Except.ok (s.inScope .package _) = _
  refine congrArg Except.ok (inScope_congr ?_)
  exact setElem_ok (by decide +kernel) hn (by simp only [Tok.value, (purpose_name x).2])

theorem field_annotationType {L : LicText} (x : AnnotationType) :
    TvField L (writeValue s%"AnnotationType" x.name) .annotation s%"annotation_type" (some (.one (.annotationType x))) := by
  refine field_once rfl (lexes_plain (annotationType_name x).1) rfl fun s hn => ?_
  show Except.ok (s.inScope .annotation _) = _
  refine congrArg Except.ok (inScope_congr ?_)
  exact setElem_ok (by decide +kernel) hn (by simp only [Tok.value, (annotationType_name x).2])

theorem field_fileTypes {L : LicText} (l : List FileType) :
    TvField L (l.flatMap fun t => writeValue s%"FileType" t.name) .file s%"file_types" (manyOf (l.map .fileType)) := by
  refine .list (a := fun t => .value s%"FileType" (.line t.name)) l (fun t _ => .value rfl (lexes_plain (fileType_name t).1) rfl)
    fun t _ s hc => ?_
  show Except.ok (s.inScope .file fun s => match FileType.ofName? (strip t.name) with
    | some t => s.appendElem s%"file_types" (.fileType t)
    | none => _) = _
  rw [(fileType_name t).2]
  unfold TvState.inScope
  rw [if_pos hc]

theorem field_filesAnalyzed {L : LicText} (b : Bool) :
    TvField L (writeValue s%"FilesAnalyzed" (if b then s%"true" else s%"false")) .package s%"files_analyzed" (some (.one (.bool b))) := by
  cases b with
  | true =>
    refine field_once rfl (lexes_plain (v := s%"true") (by decide +kernel)) rfl fun s hn => ?_
    show Except.ok (s.inScope .package _) = _
    refine congrArg Except.ok (inScope_congr ?_)
    rw [hn]; rfl
  | false =>
    refine field_once rfl (lexes_plain (v := s%"false") (by decide +kernel)) rfl fun s hn => ?_
    show Except.ok (s.inScope .package _) = _
    refine congrArg Except.ok (inScope_congr ?_)
    rw [hn]; rfl

theorem field_code? {L : LicText} (v : Option PackageVerificationCode) (hv : ∀ c, v = some c → CodeTv c) :
    TvField L (writeValue? s%"PackageVerificationCode" (v.map verificationCodeToTv)) .package s%"verification_code"
      (v.map fun x => .one (.code x)) := by
  refine opt_map v fun x e => ?_
  obtain ⟨h1, h2⟩ := code_line (hv x e)
  refine field_once rfl (lexes_plain h1) rfl fun s hn => ?_
  show Except.ok (s.inScope .package _) = _
  refine congrArg Except.ok (inScope_congr ?_)
  rw [hn]
  show (match parseTvCode (verificationCodeToTv x) with | some c => _ | none => _) = _
  rw [h2]

theorem field_range {L : LicText} {tag k : Str} (ht : tag = s%"SnippetByteRange" ∨ tag = s%"SnippetLineRange") (hk : propertyName tag = k)
    (hx : tvSyntax.lookup tag = some .line) (v : Option (Int × Int)) (hv : ∀ r, v = some r → 0 ≤ r.1 ∧ 0 ≤ r.2) :
    TvField L (writeRange tag v) .snippet k (v.map fun r => .one (.range r)) := by
  refine .opt v fun r e => ?_
  obtain ⟨x, y⟩ := r
  obtain ⟨h1, h2⟩ := hv _ e
  obtain ⟨a, rfl⟩ := Int.eq_ofNat_of_zero_le h1
  obtain ⟨b, rfl⟩ := Int.eq_ofNat_of_zero_le h2
  obtain ⟨h1, h2⟩ := range_line a b
  refine field_once hx (lexes_plain h1) rfl fun s hn => ?_
  have : s.attr L tag (.line (natStr a ++ s%":" ++ natStr b)) = .ok (s.inScope .snippet fun s =>
      if (s.elem.get? (propertyName tag)).isSome then s.logElem (multipleMsg tag)
      else match parseTvRange (natStr a ++ s%":" ++ natStr b) with
        | some r => { s with elem := s.elem.set (propertyName tag) (.one (.range r)) }
        | none => s.logElem (.invalid tag (.str (natStr a ++ s%":" ++ natStr b)))) := by
    rcases ht with rfl | rfl <;> rfl
  refine this.trans ?_
  rw [h2, hk]
  refine congrArg Except.ok (inScope_congr ?_)
  rw [hn]; rfl

theorem freeText_ne_nil {c : Str} (h : FreeText c) : c ≠ [] := by
  rintro rfl
  exact ((freeText_cases h).2 (by simp)).1.1 rfl

theorem field_extRefs {L : LicText} (l : List ExternalPackageRef) (hl : ∀ r ∈ l, ExtRefTv r) :
    TvField L (l.flatMap writeExternalRef) .package s%"external_references" (manyOf (l.map .extRef)) := by
  refine .list (a := fun r => .commented s%"ExternalRef" (joinWith s%" " [enumNameToTv r.category.name, r.referenceType, r.locator])
    (r.comment.map textTok)) l (fun r h => ?_) fun r h s hc => ?_
  · obtain ⟨_, _, hline, hcm⟩ := hl r h
    have hw : writeExternalRef r = writeValue s%"ExternalRef" (joinWith s%" " [enumNameToTv r.category.name, r.referenceType, r.locator]) ++
        writeText? s%"ExternalRefComment" r.comment := by
      unfold writeExternalRef
      cases hr : r.comment with
      | none => rfl
      | some c =>
        show _ ++ (if c = [] then [] else writeText s%"ExternalRefComment" c) = _
        rw [if_neg (freeText_ne_nil (hcm c hr))]
        simp [writeText?]
    rw [hw]
    exact .externalRef (plain_of_space hline ' ' (by simp [joinWith]) (by decide)) r.comment hcm
  · obtain ⟨h1, h2, _, hcm⟩ := hl r h
    have hct : (r.comment.map textTok).map textOrLineValue = r.comment := by
      cases hr : r.comment with
      | none => rfl
      | some c => exact congrArg some (textTok_value (hcm c hr)).2
    show Except.ok (s.inScope .package fun s => match parseTvExtRef _ ((r.comment.map textTok).map textOrLineValue) with
      | .ok r => s.appendElem s%"external_references" (.extRef r)
      | .error m => s.logElem m) = _
    rw [hct, parseTvExtRef_written r h1 h2]
    unfold TvState.inScope
    rw [if_pos hc]

theorem field_packageAttribution {L : LicText} (l : List Str) (hl : ∀ t ∈ l, FreeText t) :
    TvField L (l.flatMap (writeText s%"PackageAttributionText")) .package s%"attribution_texts" (manyOf (l.map .str)) := by
  refine .list (a := fun t => .value s%"PackageAttributionText" (textTok t)) l (fun t h => .text rfl (hl t h)) fun t h s hc => ?_
  show Except.ok ((s.inScope .package id).appendElem s%"attribution_texts" (.str (textOrLineValue (textTok t)))) = _
  rw [(textTok_value (hl t h)).2]
  unfold TvState.inScope
  rw [if_pos hc]; rfl

/-- The name of an extracted license. -/
def strNoAssertionItem : OrNoAssertion Str → TvItem
  | .val s => .str s
  | .noAssertion => .noAssertion

theorem field_licenseName? {L : LicText} (v : Option (OrNoAssertion Str)) (hv : ∀ t, v = some (.val t) → Plain t) :
    TvField L (writeValue? s%"LicenseName" (v.map OrNoAssertion.text)) .extracted s%"license_name" (v.map fun x => .one (strNoAssertionItem x)) := by
  have hm : s%"LicenseName" ∈ genericSpecialTags := by decide
  have hc' : tagClass s%"LicenseName" = some .extracted := by decide +kernel
  have hk : propertyName s%"LicenseName" = s%"license_name" := by decide +kernel
  refine opt_map v fun x e => ?_
  cases x with
  | val t =>
    refine .one (.value (t := .line t) rfl (lexes_plain (hv t e)) rfl) fun s hc _ hn => ?_
    show s.attr L s%"LicenseName" _ = _
    rw [attr_special hm, generic_ok hc' rfl hk hc hn]; rfl
  | noAssertion =>
    refine .one (.value (t := .noAssertion) rfl lexes_noAssertion rfl) fun s hc _ hn => ?_
    show s.attr L s%"LicenseName" _ = _
    rw [attr_special hm, generic_ok hc' rfl hk hc hn]; rfl

/-! ## The arguments of the constructors -/

section args
variable {α : Type} {fs : List (Str × Option TvVal)} (hn : (fs.map (·.1)).Nodup)
include hn

theorem tvReq_of {as? : TvItem → Option α} {k : Str} {x : TvItem} {a : α} (h : (k, some (.one x)) ∈ fs) (ha : as? x = some a) :
    tvReq as? (fieldsOf fs) k = .ok a := by
  unfold tvReq
  rw [fieldsOf_get? hn h]
  show chkSome k (as? x) = _
  rw [ha]; rfl

theorem tvOpt_of {as? : TvItem → Option α} {k : Str} {x : Option α} {g : α → TvItem} (h : (k, x.map fun a => .one (g a)) ∈ fs)
    (ha : ∀ a, as? (g a) = some a) (h0 : as? .null = none) : tvOpt as? (fieldsOf fs) k = .ok x := by
  unfold tvOpt
  rw [fieldsOf_get? hn h]
  cases x with
  | none => rfl
  | some a =>
    show (match some (TvVal.one (g a)) with
      | none => Except.ok none
      | some (.one .null) => .ok none
      | some (.one x) => match as? x with | some a => .ok (some a) | none => .error [k]
      | some (.many _) => .error [k]) = _
    split
    · rename_i e; cases e
    · rename_i e
      simp only [Option.some.injEq, TvVal.one.injEq] at e
      have := ha a
      rw [e, h0] at this; cases this
    · rename_i y _ e
      simp only [Option.some.injEq, TvVal.one.injEq] at e
      rw [← e, ha]
    · rename_i e; cases e

theorem tvDflt_of {as? : TvItem → Option α} {d : α} {k : Str} {x : TvItem} {a : α} (h : (k, some (.one x)) ∈ fs) (ha : as? x = some a) :
    tvDflt as? d (fieldsOf fs) k = .ok a := by
  unfold tvDflt
  rw [fieldsOf_get? hn h]
  show chkSome k (as? x) = _
  rw [ha]; rfl

omit hn in
theorem mapM_items {as? : TvItem → Option α} {g : α → TvItem} (ha : ∀ a, as? (g a) = some a) (l : List α) :
    (l.map g).mapM as? = some l := by
  induction l with
  | nil => rfl
  | cons a l ih => rw [List.map_cons, List.mapM_cons, ha, ih]; rfl

theorem tvList_of {as? : TvItem → Option α} {k : Str} {l : List α} {g : α → TvItem} (h : (k, manyOf (l.map g)) ∈ fs)
    (ha : ∀ a, as? (g a) = some a) : tvList as? (fieldsOf fs) k = .ok l := by
  unfold tvList
  rw [fieldsOf_get? hn h]
  unfold manyOf
  cases l with
  | nil => rfl
  | cons a l =>
    rw [if_neg (by simp)]
    show chkSome k ((List.map g (a :: l)).mapM as?) = _
    rw [mapM_items ha]; rfl

theorem tvReqList_of {as? : TvItem → Option α} {k : Str} {l : List α} {g : α → TvItem} (h : (k, manyOf (l.map g)) ∈ fs) (h0 : l ≠ [])
    (ha : ∀ a, as? (g a) = some a) : tvReqList as? (fieldsOf fs) k = .ok l := by
  unfold tvReqList
  rw [fieldsOf_get? hn h]
  unfold manyOf
  rw [if_neg (by simpa using h0)]
  show chkSome k ((List.map g l).mapM as?) = _
  rw [mapM_items ha]; rfl

omit hn in
theorem tvOnly_of {names needed : List Str} {c : Check α} (h : ∀ k ∈ fs.map (·.1), k ∈ names) :
    tvOnly (fieldsOf fs) names needed c = tvMissing (fieldsOf fs) needed c := by
  unfold tvOnly
  rw [List.filter_eq_nil_iff.2 fun k hk => ?_]
  have : k ∈ names := h k (Decidable.byContradiction fun hm => fieldsOf_fresh hm hk)
  simp [this]

end args

/-! ## The elements -/

/-- Between two elements, without any message so far. -/
structure Settled (b : TvState) : Prop where
  cls : b.cls = none
  elem : b.elem = []
  elemLog : b.elemLog = []
  hasId : HasId b

/-- Reading `w` after the elements of `b` gives those of `b'` (the last element is only completed when another one starts). -/
def Reads (L : LicText) (w : TvSteps) (b b' : TvState) : Prop := ∀ s : TvState, s.finish = b → ∃ s', Runs L w s s' ∧ s'.finish = b'

theorem Reads.nil (L : LicText) (b : TvState) : Reads L [] b b := fun s h => ⟨s, .nil L s, h⟩

theorem Reads.append {L : LicText} {w w' : TvSteps} {b b' b'' : TvState} (h : Reads L w b b') (h' : Reads L w' b' b'') :
    Reads L (w ++ w') b b'' := by
  intro s hs
  obtain ⟨s1, r1, e1⟩ := h s hs
  obtain ⟨s2, r2, e2⟩ := h' s1 e1
  exact ⟨s2, r1.append r2, e2⟩

theorem Reads.skip {L : LicText} {w : TvSteps} (h : Gives w []) (b : TvState) : Reads L w b b := fun s hs => ⟨s, .skip s h, hs⟩

theorem Reads.foldl {L : LicText} {α : Type} {f : α → TvSteps} {g : TvState → α → TvState} {I : TvState → Prop} (l : List α)
    (h : ∀ x ∈ l, ∀ b, I b → Reads L (f x) b (g b x) ∧ I (g b x)) (b : TvState) (hb : I b) :
    Reads L (l.flatMap f) b (l.foldl g b) ∧ I (l.foldl g b) := by
  induction l generalizing b with
  | nil => exact ⟨.nil L b, hb⟩
  | cons x l ih =>
    obtain ⟨h1, h2⟩ := h x List.mem_cons_self b hb
    obtain ⟨h3, h4⟩ := ih (fun y hy => h y (List.mem_cons_of_mem _ hy)) (g b x) h2
    rw [List.flatMap_cons, List.foldl_cons]
    exact ⟨h1.append h3, h4⟩

/-- A tag that starts an element. -/
theorem starts_line {L : LicText} {tag : Str} {c : TvClass} {k : Str} (hm : tag ∈ genericTextTags) (hcls : tagClass tag = some c)
    (hst : startTag tag = some c) (hk : propertyName tag = k) (hx : tvSyntax.lookup tag = some .line) {v : Str} (hv : Plain v) {s : TvState}
    (hs : Settled s.finish) : Runs L (writeValue tag v) s (inProg s.finish c [(k, some (.one (.str v)))]) := by
  refine .one (.value hx (lexes_plain hv) rfl) ?_
  show s.attr L tag _ = _
  rw [attr_text hm]
  unfold TvState.generic
  rw [hcls]
  simp only [hst, Option.isSome_some, if_true]
  unfold TvState.inScope
  rw [if_pos (show (s.start c).cls = some c from rfl)]
  have he : (s.start c).elem = [] := hs.elem
  refine congrArg Except.ok ((setElem_ok hk (by rw [he]; rfl) rfl).trans ?_)
  rw [he]; rfl

theorem build_state {b : TvState} {c : TvClass} {fs : List (Str × Option TvVal)} {x : TvState}
    (h : (inProg b c fs).build c = { x with cls := some c, elem := fieldsOf fs }) (hx : Settled x) : (inProg b c fs).finish = x := by
  show { (inProg b c fs).build c with cls := none, elemLog := [], elem := [] } = x
  rw [h]
  show { x with cls := none, elemLog := [], elem := [] } = x
  rw [← hx.cls, ← hx.elem, ← hx.elemLog]

theorem build_clean {b : TvState} (hb : Settled b) (c : TvClass) (fs : List (Str × Option TvVal)) {α : Type} (x y : α) :
    (if (inProg b c fs).elemLog ≠ [] then x else y) = y := if_neg (fun h => h hb.elemLog)

/-! ### Packages -/

def packageFields (p : Package) : List (Str × Option TvVal) :=
  [(s%"name", some (.one (.str p.name))), (s%"spdx_id", some (.one (.str p.spdxId))), (s%"version", p.version.map fun t => .one (.str t)),
   (s%"file_name", p.fileName.map fun t => .one (.str t)), (s%"supplier", p.supplier.map fun x => .one (actorItemOf x)),
   (s%"originator", p.originator.map fun x => .one (actorItemOf x)), (s%"download_location", some (.one (specialItem p.downloadLocation))),
   (s%"files_analyzed", some (.one (.bool p.filesAnalyzed))), (s%"verification_code", p.verificationCode.map fun x => .one (.code x)),
   (s%"checksums", manyOf (p.checksums.map .checksum)), (s%"homepage", p.homepage.map fun x => .one (specialItem x)),
   (s%"source_info", p.sourceInfo.map fun t => .one (.str t)), (s%"license_concluded", p.licenseConcluded.map fun x => .one (licItem x)),
   (s%"license_info_from_files", manyOf (p.licenseInfoFromFiles.map licItem)),
   (s%"license_declared", p.licenseDeclared.map fun x => .one (licItem x)),
   (s%"license_comment", p.licenseComment.map fun t => .one (.str t)), (s%"copyright_text", p.copyrightText.map fun x => .one (specialItem x)),
   (s%"summary", p.summary.map fun t => .one (.str t)), (s%"description", p.description.map fun t => .one (.str t)),
   (s%"comment", p.comment.map fun t => .one (.str t)), (s%"external_references", manyOf (p.externalReferences.map .extRef)),
   (s%"attribution_texts", manyOf (p.attributionTexts.map .str)),
   (s%"primary_package_purpose", p.primaryPackagePurpose.map fun x => .one (.purpose x)),
   (s%"release_date", p.releaseDate.map fun x => .one (.date x)), (s%"built_date", p.builtDate.map fun x => .one (.date x)),
   (s%"valid_until_date", p.validUntilDate.map fun x => .one (.date x))]

theorem special_of (x : OrSpecial Str) : (specialItem x).special? = some x := by cases x <;> rfl
theorem lic_of (x : OrSpecial LicExpr) : (licItem x).lic? = some x := by cases x <;> rfl
theorem actor_of (x : OrNoAssertion Actor) : (actorItemOf x).actorNoAssertion? = some x := by cases x <;> rfl

def pkgKeys : List Str :=
  [s%"name", s%"spdx_id", s%"version", s%"file_name", s%"supplier", s%"originator", s%"download_location", s%"files_analyzed",
   s%"verification_code", s%"checksums", s%"homepage", s%"source_info", s%"license_concluded", s%"license_info_from_files",
   s%"license_declared", s%"license_comment", s%"copyright_text", s%"summary", s%"description", s%"comment", s%"external_references",
   s%"attribution_texts", s%"primary_package_purpose", s%"release_date", s%"built_date", s%"valid_until_date"]

theorem packageFields_nodup (p : Package) : ((packageFields p).map (·.1)).Nodup := by
  show pkgKeys.Nodup
  decide +kernel

theorem mkPackage_fields (p : Package) : mkPackage (fieldsOf (packageFields p)) = .ok p := by
  have hk : (packageFields p).map (·.1) = pkgKeys := rfl
  have hn := packageFields_nodup p
  unfold mkPackage
  rw [tvOnly_of (by rw [hk]; decide +kernel),
    tvReq_of (a := p.spdxId) hn (List.mem_of_getElem? (i := 1) rfl) rfl,
    tvReq_of (a := p.name) hn (List.mem_of_getElem? (i := 0) rfl) rfl,
    tvReq_of (a := p.downloadLocation) hn (List.mem_of_getElem? (i := 6) rfl) (special_of _),
    tvOpt_of (x := p.version) hn (List.mem_of_getElem? (i := 2) rfl) (fun _ => rfl) rfl,
    tvOpt_of (x := p.fileName) hn (List.mem_of_getElem? (i := 3) rfl) (fun _ => rfl) rfl,
    tvOpt_of (x := p.supplier) hn (List.mem_of_getElem? (i := 4) rfl) actor_of rfl,
    tvOpt_of (x := p.originator) hn (List.mem_of_getElem? (i := 5) rfl) actor_of rfl,
    tvDflt_of (a := p.filesAnalyzed) hn (List.mem_of_getElem? (i := 7) rfl) rfl,
    tvOpt_of (x := p.verificationCode) hn (List.mem_of_getElem? (i := 8) rfl) (fun _ => rfl) rfl,
    tvList_of (l := p.checksums) hn (List.mem_of_getElem? (i := 9) rfl) (fun _ => rfl),
    tvOpt_of (x := p.homepage) hn (List.mem_of_getElem? (i := 10) rfl) special_of rfl,
    tvOpt_of (x := p.sourceInfo) hn (List.mem_of_getElem? (i := 11) rfl) (fun _ => rfl) rfl,
    tvOpt_of (x := p.licenseConcluded) hn (List.mem_of_getElem? (i := 12) rfl) lic_of rfl,
    tvList_of (l := p.licenseInfoFromFiles) hn (List.mem_of_getElem? (i := 13) rfl) lic_of,
    tvOpt_of (x := p.licenseDeclared) hn (List.mem_of_getElem? (i := 14) rfl) lic_of rfl,
    tvOpt_of (x := p.licenseComment) hn (List.mem_of_getElem? (i := 15) rfl) (fun _ => rfl) rfl,
    tvOpt_of (x := p.copyrightText) hn (List.mem_of_getElem? (i := 16) rfl) special_of rfl,
    tvOpt_of (x := p.summary) hn (List.mem_of_getElem? (i := 17) rfl) (fun _ => rfl) rfl,
    tvOpt_of (x := p.description) hn (List.mem_of_getElem? (i := 18) rfl) (fun _ => rfl) rfl,
    tvOpt_of (x := p.comment) hn (List.mem_of_getElem? (i := 19) rfl) (fun _ => rfl) rfl,
    tvList_of (l := p.externalReferences) hn (List.mem_of_getElem? (i := 20) rfl) (fun _ => rfl),
    tvList_of (l := p.attributionTexts) hn (List.mem_of_getElem? (i := 21) rfl) (fun _ => rfl),
    tvOpt_of (x := p.primaryPackagePurpose) hn (List.mem_of_getElem? (i := 22) rfl) (fun _ => rfl) rfl,
    tvOpt_of (x := p.releaseDate) hn (List.mem_of_getElem? (i := 23) rfl) (fun _ => rfl) rfl,
    tvOpt_of (x := p.builtDate) hn (List.mem_of_getElem? (i := 24) rfl) (fun _ => rfl) rfl,
    tvOpt_of (x := p.validUntilDate) hn (List.mem_of_getElem? (i := 25) rfl) (fun _ => rfl) rfl]
  rfl

/-- The state with one package more. -/
def TvState.withPackage (b : TvState) (p : Package) : TvState := { b with packages := some (b.packages.getD [] ++ [p]) }

theorem reads_package {L : LicText} {p : Package} (h : PackageTv L p) {b : TvState} (hb : Settled b) :
    Reads L (writePackage L p) b (b.withPackage p) := by
  rintro s rfl
  have hi := hb.hasId
  have r : Chain L s s.finish .package _ _ := .mk fun _ => (Runs.skip (L := L) s (.heading (h := s%"# Package Information") (by decide))).append
    (starts_line (tag := s%"PackageName") (c := .package) (k := s%"name") (by decide +kernel) (by decide +kernel) rfl (by decide +kernel) rfl h.name hb)
  have r := r.field hi (field_spdxId p.spdxId h.id)
  have r := r.field hi (field_line? (tag := s%"PackageVersion") (k := s%"version") (by decide +kernel) p.version h.version)
  have r := r.field hi (field_line? (tag := s%"PackageFileName") (k := s%"file_name") (by decide +kernel) p.fileName h.fileName)
  have r := r.field hi (field_actor? (k := s%"supplier") (.inl rfl) (by decide +kernel) (by decide +kernel) rfl rfl p.supplier h.supplier)
  have r := r.field hi (field_actor? (k := s%"originator") (.inr rfl) (by decide +kernel) (by decide +kernel) rfl rfl p.originator h.originator)
  have r := r.field hi (field_special (tag := s%"PackageDownloadLocation") (k := s%"download_location") (by decide +kernel) p.downloadLocation h.download)
  have r := r.field hi (field_filesAnalyzed p.filesAnalyzed)
  have r := r.field hi (field_code? p.verificationCode h.code)
  have r := r.field hi (field_checksums (tag := s%"PackageChecksum") rfl (fun _ _ => rfl) p.checksums h.checksum)
  have r := r.field hi (field_special? (tag := s%"PackageHomePage") (k := s%"homepage") (by decide +kernel) p.homepage h.homepage)
  have r := r.field hi (field_text? (tag := s%"PackageSourceInfo") (k := s%"source_info") (by decide +kernel) p.sourceInfo h.sourceInfo)
  have r := r.field hi (field_license? (tag := s%"PackageLicenseConcluded") (k := s%"license_concluded") (by decide +kernel) p.licenseConcluded h.concluded)
  have r := r.field hi (field_licenses (tag := s%"PackageLicenseInfoFromFiles") rfl rfl p.licenseInfoFromFiles h.info)
  have r := r.field hi (field_license? (tag := s%"PackageLicenseDeclared") (k := s%"license_declared") (by decide +kernel) p.licenseDeclared h.declared)
  have r := r.field hi (field_text? (tag := s%"PackageLicenseComments") (k := s%"license_comment") (by decide +kernel) p.licenseComment h.licenseComment)
  have r := r.field hi (field_specialText? (tag := s%"PackageCopyrightText") (k := s%"copyright_text") (by decide +kernel) p.copyrightText h.copyright)
  have r := r.field hi (field_text? (tag := s%"PackageSummary") (k := s%"summary") (by decide +kernel) p.summary h.summary)
  have r := r.field hi (field_text? (tag := s%"PackageDescription") (k := s%"description") (by decide +kernel) p.description h.description)
  have r := r.field hi (field_text? (tag := s%"PackageComment") (k := s%"comment") (by decide +kernel) p.comment h.comment)
  have r := r.field hi (field_extRefs p.externalReferences h.refs)
  have r := r.field hi (field_packageAttribution p.attributionTexts h.attribution)
  have r := r.field hi (field_purpose? p.primaryPackagePurpose)
  have r := r.field hi (field_date? (tag := s%"ReleaseDate") (k := s%"release_date") rfl (by decide +kernel) (fun _ _ => rfl) p.releaseDate h.release)
  have r := r.field hi (field_date? (tag := s%"BuiltDate") (k := s%"built_date") rfl (by decide +kernel) (fun _ _ => rfl) p.builtDate h.built)
  have r := r.field hi (field_date? (tag := s%"ValidUntilDate") (k := s%"valid_until_date") rfl (by decide +kernel) (fun _ _ => rfl) p.validUntilDate h.validUntil)
  refine ⟨_, r.done (w' := writePackage L p) (by unfold writePackage; rfl) (by simp only [List.cons_append, List.nil_append]; rfl)
    (packageFields_nodup p), ?_⟩
  refine build_state (x := s.finish.withPackage p) ?_ ⟨hb.cls, hb.elem, hb.elemLog, hb.hasId⟩
  unfold TvState.build
  rw [build_clean hb]
  show (match mkPackage (fieldsOf (packageFields p)) with | .ok p => _ | .error e => _) = _
  rw [mkPackage_fields]; rfl

/-! ### Files -/

def fileFields (f : File) : List (Str × Option TvVal) :=
  [(s%"name", some (.one (.str f.name))), (s%"spdx_id", some (.one (.str f.spdxId))), (s%"file_types", manyOf (f.fileTypes.map .fileType)),
   (s%"checksums", manyOf (f.checksums.map .checksum)), (s%"license_concluded", f.licenseConcluded.map fun x => .one (licItem x)),
   (s%"license_info_in_file", manyOf (f.licenseInfoInFile.map licItem)), (s%"license_comment", f.licenseComment.map fun t => .one (.str t)),
   (s%"copyright_text", f.copyrightText.map fun x => .one (specialItem x)), (s%"comment", f.comment.map fun t => .one (.str t)),
   (s%"notice", f.notice.map fun t => .one (.str t)), (s%"contributors", manyOf ((sortStr f.contributors).map .str)),
   (s%"attribution_texts", manyOf (f.attributionTexts.map .str))]

def flKeys : List Str :=
  [s%"name", s%"spdx_id", s%"file_types", s%"checksums", s%"license_concluded", s%"license_info_in_file", s%"license_comment",
   s%"copyright_text", s%"comment", s%"notice", s%"contributors", s%"attribution_texts"]

theorem fileFields_nodup (f : File) : ((fileFields f).map (·.1)).Nodup := by
  show flKeys.Nodup
  decide +kernel

/-- The file with the contributors in the order in which they are written. -/
def File.sorted (f : File) : File := { f with contributors := sortStr f.contributors }

theorem mkFile_fields (f : File) (hc : f.checksums ≠ []) : mkFile (fieldsOf (fileFields f)) = .ok f.sorted := by
  have hk : (fileFields f).map (·.1) = flKeys := rfl
  have hn := fileFields_nodup f
  unfold mkFile
  rw [tvOnly_of (by rw [hk]; decide +kernel),
    tvReq_of (a := f.name) hn (List.mem_of_getElem? (i := 0) rfl) rfl,
    tvReq_of (a := f.spdxId) hn (List.mem_of_getElem? (i := 1) rfl) rfl,
    tvReqList_of (l := f.checksums) hn (List.mem_of_getElem? (i := 3) rfl) hc (fun _ => rfl),
    tvList_of (l := f.fileTypes) hn (List.mem_of_getElem? (i := 2) rfl) (fun _ => rfl),
    tvOpt_of (x := f.licenseConcluded) hn (List.mem_of_getElem? (i := 4) rfl) lic_of rfl,
    tvList_of (l := f.licenseInfoInFile) hn (List.mem_of_getElem? (i := 5) rfl) lic_of,
    tvOpt_of (x := f.licenseComment) hn (List.mem_of_getElem? (i := 6) rfl) (fun _ => rfl) rfl,
    tvOpt_of (x := f.copyrightText) hn (List.mem_of_getElem? (i := 7) rfl) special_of rfl,
    tvOpt_of (x := f.comment) hn (List.mem_of_getElem? (i := 8) rfl) (fun _ => rfl) rfl,
    tvOpt_of (x := f.notice) hn (List.mem_of_getElem? (i := 9) rfl) (fun _ => rfl) rfl,
    tvList_of (l := sortStr f.contributors) hn (List.mem_of_getElem? (i := 10) rfl) (fun _ => rfl),
    tvList_of (l := f.attributionTexts) hn (List.mem_of_getElem? (i := 11) rfl) (fun _ => rfl)]
  rfl

/-- The state with one file more, and the relationship to the last package. -/
def TvState.withFile (b : TvState) (f : File) : TvState := TvState.addContains { b with files := b.files ++ [f] } f

theorem addContains_frame (s : TvState) (f : File) (c : Option TvClass) (e : Dict Str TvVal) :
    TvState.addContains { s with cls := c, elem := e } f = { s.addContains f with cls := c, elem := e } := by
  obtain ⟨l, il, i, cl, el, em, ps, fs, ss, as, rs, ex⟩ := s
  unfold TvState.addContains
  cases ps with
  | none => rfl
  | some ps =>
    simp only
    cases ps.getLast? with
    | none => rfl
    | some p =>
      simp only
      split <;> rfl

theorem addContains_settled {s : TvState} (h : Settled s) (f : File) : Settled (s.addContains f) := by
  unfold TvState.addContains
  split
  · exact h
  · split
    · exact ⟨h.cls, h.elem, h.elemLog, h.hasId⟩
    · split
      · exact h
      · exact ⟨h.cls, h.elem, h.elemLog, h.hasId⟩

theorem Settled.withPackage {b : TvState} (h : Settled b) (p : Package) : Settled (b.withPackage p) := ⟨h.cls, h.elem, h.elemLog, h.hasId⟩
theorem Settled.withFile {b : TvState} (h : Settled b) (f : File) : Settled (b.withFile f) :=
  addContains_settled (s := { b with files := b.files ++ [f] }) ⟨h.cls, h.elem, h.elemLog, h.hasId⟩ f

theorem reads_file {L : LicText} {f : File} (h : FileTv L f) {b : TvState} (hb : Settled b) : Reads L (writeFile L f) b (b.withFile f.sorted) := by
  rintro s rfl
  have hi := hb.hasId
  have r : Chain L s s.finish .file _ _ := .mk fun _ => (Runs.skip (L := L) s (.heading (h := s%"# File Information") (by decide))).append
    (starts_line (tag := s%"FileName") (c := .file) (k := s%"name") (by decide +kernel) (by decide +kernel) rfl (by decide +kernel) rfl h.name hb)
  have r := r.field hi (field_spdxId f.spdxId h.id)
  have r := r.field hi (field_fileTypes f.fileTypes)
  have r := r.field hi (field_checksums (tag := s%"FileChecksum") rfl (fun _ _ => rfl) f.checksums h.checksum)
  have r := r.field hi (field_license? (tag := s%"LicenseConcluded") (k := s%"license_concluded") (by decide +kernel) f.licenseConcluded h.concluded)
  have r := r.field hi (field_licenses (tag := s%"LicenseInfoInFile") rfl rfl f.licenseInfoInFile h.info)
  have r := r.field hi (field_text? (tag := s%"LicenseComments") (k := s%"license_comment") (by decide +kernel) f.licenseComment h.licenseComment)
  have r := r.field hi (field_specialText? (tag := s%"FileCopyrightText") (k := s%"copyright_text") (by decide +kernel) f.copyrightText h.copyright)
  have r := r.field hi (field_text? (tag := s%"FileComment") (k := s%"comment") (by decide +kernel) f.comment h.comment)
  have r := r.field hi (field_text? (tag := s%"FileNotice") (k := s%"notice") (by decide +kernel) f.notice h.notice)
  have r := r.field hi (field_lines (tag := s%"FileContributor") rfl rfl (sortStr f.contributors) fun t ht => h.contributors t ((mem_sortStr _ _).1 ht))
  have r := r.field hi (field_texts (tag := s%"FileAttributionText") rfl rfl f.attributionTexts h.attribution)
  refine ⟨_, r.done (w' := writeFile L f) (by unfold writeFile; rfl) (by simp only [List.cons_append, List.nil_append]; rfl)
    (fileFields_nodup f), ?_⟩
  refine build_state (x := s.finish.withFile f.sorted) ?_ (hb.withFile _)
  unfold TvState.build
  rw [build_clean hb]
  show (match mkFile (fieldsOf (fileFields f)) with | .ok p => _ | .error e => _) = _
  rw [mkFile_fields f h.checksums]
  exact addContains_frame { s.finish with files := s.finish.files ++ [f.sorted] } f.sorted _ _

/-! ### Snippets -/

def snippetFields (x : Snippet) : List (Str × Option TvVal) :=
  [(s%"spdx_id", some (.one (.str x.spdxId))), (s%"file_spdx_id", some (.one (.str x.fileSpdxId))),
   (s%"byte_range", (some x.byteRange).map fun r => .one (.range r)), (s%"line_range", x.lineRange.map fun r => .one (.range r)),
   (s%"license_concluded", x.licenseConcluded.map fun x => .one (licItem x)),
   (s%"license_info_in_snippet", manyOf (x.licenseInfoInSnippet.map licItem)),
   (s%"license_comment", x.licenseComment.map fun t => .one (.str t)),
   (s%"copyright_text", x.copyrightText.map fun x => .one (specialItem x)), (s%"comment", x.comment.map fun t => .one (.str t)),
   (s%"name", x.name.map fun t => .one (.str t)), (s%"attribution_texts", manyOf (x.attributionTexts.map .str))]

def snipKeys : List Str :=
  [s%"spdx_id", s%"file_spdx_id", s%"byte_range", s%"line_range", s%"license_concluded", s%"license_info_in_snippet", s%"license_comment",
   s%"copyright_text", s%"comment", s%"name", s%"attribution_texts"]

theorem snippetFields_nodup (x : Snippet) : ((snippetFields x).map (·.1)).Nodup := by
  show snipKeys.Nodup
  decide +kernel

theorem mkSnippet_fields (x : Snippet) : mkSnippet (fieldsOf (snippetFields x)) = .ok x := by
  have hk : (snippetFields x).map (·.1) = snipKeys := rfl
  have hn := snippetFields_nodup x
  unfold mkSnippet
  rw [tvOnly_of (by rw [hk]; decide +kernel),
    tvReq_of (a := x.spdxId) hn (List.mem_of_getElem? (i := 0) rfl) rfl,
    tvReq_of (a := x.fileSpdxId) hn (List.mem_of_getElem? (i := 1) rfl) rfl,
    tvReq_of (a := x.byteRange) hn (List.mem_of_getElem? (i := 2) rfl) rfl,
    tvOpt_of (x := x.lineRange) hn (List.mem_of_getElem? (i := 3) rfl) (fun _ => rfl) rfl,
    tvOpt_of (x := x.licenseConcluded) hn (List.mem_of_getElem? (i := 4) rfl) lic_of rfl,
    tvList_of (l := x.licenseInfoInSnippet) hn (List.mem_of_getElem? (i := 5) rfl) lic_of,
    tvOpt_of (x := x.licenseComment) hn (List.mem_of_getElem? (i := 6) rfl) (fun _ => rfl) rfl,
    tvOpt_of (x := x.copyrightText) hn (List.mem_of_getElem? (i := 7) rfl) special_of rfl,
    tvOpt_of (x := x.comment) hn (List.mem_of_getElem? (i := 8) rfl) (fun _ => rfl) rfl,
    tvOpt_of (x := x.name) hn (List.mem_of_getElem? (i := 9) rfl) (fun _ => rfl) rfl,
    tvList_of (l := x.attributionTexts) hn (List.mem_of_getElem? (i := 10) rfl) (fun _ => rfl)]
  rfl

def TvState.withSnippet (b : TvState) (x : Snippet) : TvState := { b with snippets := b.snippets ++ [x] }
theorem Settled.withSnippet {b : TvState} (h : Settled b) (x : Snippet) : Settled (b.withSnippet x) := ⟨h.cls, h.elem, h.elemLog, h.hasId⟩

theorem reads_snippet {L : LicText} {x : Snippet} (h : SnippetTv L x) {b : TvState} (hb : Settled b) :
    Reads L (writeSnippet L x) b (b.withSnippet x) := by
  rintro s rfl
  have hi := hb.hasId
  have r : Chain L s s.finish .snippet _ _ := .mk fun _ => (Runs.skip (L := L) s (.heading (h := s%"# Snippet Information") (by decide))).append
    (starts_line (tag := s%"SnippetSPDXID") (c := .snippet) (k := s%"spdx_id") (by decide +kernel) (by decide +kernel) rfl (by decide +kernel) rfl h.id hb)
  have r := r.field hi (field_line (tag := s%"SnippetFromFileSPDXID") (k := s%"file_spdx_id") (by decide +kernel) x.fileSpdxId h.fileId)
  have r := r.field hi (field_range (tag := s%"SnippetByteRange") (k := s%"byte_range") (.inl rfl) (by decide +kernel) rfl (some x.byteRange)
    (fun r e => by cases e; exact h.byteRange))
  have r := r.field hi (field_range (tag := s%"SnippetLineRange") (k := s%"line_range") (.inr rfl) (by decide +kernel) rfl x.lineRange h.lineRange)
  have r := r.field hi (field_license? (tag := s%"SnippetLicenseConcluded") (k := s%"license_concluded") (by decide +kernel) x.licenseConcluded h.concluded)
  have r := r.field hi (field_licenses (tag := s%"LicenseInfoInSnippet") rfl rfl x.licenseInfoInSnippet h.info)
  have r := r.field hi (field_text? (tag := s%"SnippetLicenseComments") (k := s%"license_comment") (by decide +kernel) x.licenseComment h.licenseComment)
  have r := r.field hi (field_specialText? (tag := s%"SnippetCopyrightText") (k := s%"copyright_text") (by decide +kernel) x.copyrightText h.copyright)
  have r := r.field hi (field_text? (tag := s%"SnippetComment") (k := s%"comment") (by decide +kernel) x.comment h.comment)
  have r := r.field hi (field_line? (tag := s%"SnippetName") (k := s%"name") (by decide +kernel) x.name h.name)
  have r := r.field hi (field_texts (tag := s%"SnippetAttributionText") rfl rfl x.attributionTexts h.attribution)
  refine ⟨_, r.done (w' := writeSnippet L x) (by unfold writeSnippet; rfl) (fs' := snippetFields x) (by simp only [List.cons_append, List.nil_append]; rfl)
    (snippetFields_nodup x), ?_⟩
  refine build_state (x := s.finish.withSnippet x) ?_ (hb.withSnippet x)
  unfold TvState.build
  rw [build_clean hb]
  show (match mkSnippet (fieldsOf (snippetFields x)) with | .ok p => _ | .error e => _) = _
  rw [mkSnippet_fields]; rfl

/-! ### Extracted licensing infos -/

def extractedFields (i : Str) (e : ExtractedLicensingInfo) : List (Str × Option TvVal) :=
  [(s%"license_id", (some i).map fun t => .one (.str t)), (s%"extracted_text", e.extractedText.map fun t => .one (.str t)),
   (s%"license_name", e.licenseName.map fun x => .one (strNoAssertionItem x)),
   (s%"cross_references", manyOf ((sortStr e.crossReferences).map .str)), (s%"comment", e.comment.map fun t => .one (.str t))]

def exKeys : List Str := [s%"license_id", s%"extracted_text", s%"license_name", s%"cross_references", s%"comment"]

theorem extractedFields_nodup (i : Str) (e : ExtractedLicensingInfo) : ((extractedFields i e).map (·.1)).Nodup := by
  show exKeys.Nodup
  decide +kernel

/-- The info with the cross references in the order in which they are written. -/
def ExtractedLicensingInfo.sorted (e : ExtractedLicensingInfo) : ExtractedLicensingInfo := { e with crossReferences := sortStr e.crossReferences }

theorem mkExtracted_fields (i : Str) (e : ExtractedLicensingInfo) (hi : e.licenseId = some i) :
    mkExtracted (fieldsOf (extractedFields i e)) = .ok e.sorted := by
  have hk : (extractedFields i e).map (·.1) = exKeys := rfl
  have hn := extractedFields_nodup i e
  unfold mkExtracted
  rw [tvOnly_of (by rw [hk]; decide +kernel),
    tvOpt_of (x := some i) hn (List.mem_of_getElem? (i := 0) rfl) (fun _ => rfl) rfl,
    tvOpt_of (x := e.extractedText) hn (List.mem_of_getElem? (i := 1) rfl) (fun _ => rfl) rfl,
    tvOpt_of (x := e.licenseName) hn (List.mem_of_getElem? (i := 2) rfl) (fun x => by cases x <;> rfl) rfl,
    tvList_of (l := sortStr e.crossReferences) hn (List.mem_of_getElem? (i := 3) rfl) (fun _ => rfl),
    tvOpt_of (x := e.comment) hn (List.mem_of_getElem? (i := 4) rfl) (fun _ => rfl) rfl]
  show Except.ok (ExtractedLicensingInfo.mk (some i) _ _ _ _) = _
  rw [← hi]; rfl

def TvState.withExtracted (b : TvState) (e : ExtractedLicensingInfo) : TvState := { b with extracted := b.extracted ++ [e] }
theorem Settled.withExtracted {b : TvState} (h : Settled b) (x : ExtractedLicensingInfo) : Settled (b.withExtracted x) :=
  ⟨h.cls, h.elem, h.elemLog, h.hasId⟩

theorem reads_extracted {L : LicText} {e : ExtractedLicensingInfo} (h : ExtractedTv e) {b : TvState} (hb : Settled b) :
    Reads L (writeExtracted e) b (b.withExtracted e.sorted) := by
  rintro s rfl
  have hi := hb.hasId
  obtain ⟨i, hid, hp⟩ := h.id
  have r : Chain L s s.finish .extracted _ _ := .mk fun _ =>
    (starts_line (tag := s%"LicenseID") (c := .extracted) (k := s%"license_id") (by decide +kernel) (by decide +kernel) rfl (by decide +kernel) rfl hp hb)
  have r := r.field hi (field_text? (tag := s%"ExtractedText") (k := s%"extracted_text") (by decide +kernel) e.extractedText h.text)
  have r := r.field hi (field_licenseName? e.licenseName h.name)
  have r := r.field hi (field_lines (tag := s%"LicenseCrossReference") rfl rfl (sortStr e.crossReferences) fun t ht => h.cross t ((mem_sortStr _ _).1 ht))
  have r := r.field hi (field_text? (tag := s%"LicenseComment") (k := s%"comment") (by decide +kernel) e.comment h.comment)
  refine ⟨_, r.done (w' := writeExtracted e) (by unfold writeExtracted; rw [hid]; rfl) (fs' := extractedFields i e)
    (by simp only [List.cons_append, List.nil_append]; rfl) (extractedFields_nodup i e), ?_⟩
  refine build_state (x := s.finish.withExtracted e.sorted) ?_ (hb.withExtracted _)
  unfold TvState.build
  rw [build_clean hb]
  show (match mkExtracted (fieldsOf (extractedFields i e)) with | .ok p => _ | .error e => _) = _
  rw [mkExtracted_fields i e hid]; rfl

/-! ### Annotations -/

def annotationFields (a : Annotation) : List (Str × Option TvVal) :=
  [(s%"annotator", some (.one (.actor a.annotator))), (s%"annotation_date", some (.one (.date a.annotationDate))),
   (s%"annotation_type", some (.one (.annotationType a.annotationType))), (s%"spdx_id", some (.one (.str a.spdxId))),
   (s%"annotation_comment", some (.one (.str a.annotationComment)))]

theorem annotationFields_nodup (a : Annotation) : ((annotationFields a).map (·.1)).Nodup := by
  show [s%"annotator", s%"annotation_date", s%"annotation_type", s%"spdx_id", s%"annotation_comment"].Nodup
  decide +kernel

theorem mkAnnotation_fields (a : Annotation) : mkAnnotation (fieldsOf (annotationFields a)) = .ok a := by
  have hk : (annotationFields a).map (·.1) = [s%"annotator", s%"annotation_date", s%"annotation_type", s%"spdx_id", s%"annotation_comment"] := rfl
  have hn := annotationFields_nodup a
  unfold mkAnnotation
  rw [tvOnly_of (by rw [hk]; decide +kernel),
    tvReq_of (a := a.spdxId) hn (List.mem_of_getElem? (i := 3) rfl) rfl,
    tvReq_of (a := a.annotationType) hn (List.mem_of_getElem? (i := 2) rfl) rfl,
    tvReq_of (a := a.annotator) hn (List.mem_of_getElem? (i := 0) rfl) rfl,
    tvReq_of (a := a.annotationDate) hn (List.mem_of_getElem? (i := 1) rfl) rfl,
    tvReq_of (a := a.annotationComment) hn (List.mem_of_getElem? (i := 4) rfl) rfl]
  rfl

def TvState.withAnnotation (b : TvState) (a : Annotation) : TvState := { b with annotations := b.annotations ++ [a] }
theorem Settled.withAnnotation {b : TvState} (h : Settled b) (x : Annotation) : Settled (b.withAnnotation x) :=
  ⟨h.cls, h.elem, h.elemLog, h.hasId⟩

theorem reads_annotation {L : LicText} {a : Annotation} (h : AnnotationTv a) {b : TvState} (hb : Settled b) :
    Reads L (writeAnnotation a) b (b.withAnnotation a) := by
  rintro s rfl
  have hi := hb.hasId
  obtain ⟨g1, g2, g3, _, _⟩ := actor_accepts a.annotator h.annotator
  have h0 : Runs L (writeValue s%"Annotator" a.annotator.toSerialized) s (inProg s.finish .annotation [(s%"annotator", some (.one (.actor a.annotator)))]) := by
    refine .one (.value rfl g1 g3) ?_
    show Except.ok ((s.start .annotation).setElem s%"Annotator" (actorItem (actorTok a.annotator).value)) = _
    have he : (s.start .annotation).elem = [] := hb.elem
    rw [setElem_ok (k := s%"annotator") (x := .actor a.annotator) (by decide +kernel) (by rw [he]; rfl) (by unfold actorItem; rw [g2]), he]
    rfl
  have r : Chain L s s.finish .annotation _ _ := .mk fun _ => h0
  have r := r.field hi (field_date (tag := s%"AnnotationDate") (k := s%"annotation_date") rfl (by decide +kernel) (fun _ _ => rfl) a.annotationDate h.date)
  have r := r.field hi (field_annotationType a.annotationType)
  have r := r.field hi (field_line (tag := s%"SPDXREF") (k := s%"spdx_id") (by decide +kernel) a.spdxId h.id)
  have r := r.field hi (field_text (tag := s%"AnnotationComment") (k := s%"annotation_comment") (by decide +kernel) a.annotationComment h.comment)
  refine ⟨_, r.done (w' := writeAnnotation a) (by unfold writeAnnotation; rfl) (fs' := annotationFields a)
    (by simp only [List.cons_append, List.nil_append]; rfl) (annotationFields_nodup a), ?_⟩
  refine build_state (x := s.finish.withAnnotation a) ?_ (hb.withAnnotation _)
  unfold TvState.build
  rw [build_clean hb]
  simp only [show (inProg s.finish .annotation (annotationFields a)).elem = fieldsOf (annotationFields a) from rfl, mkAnnotation_fields]
  rfl

/-! ### Relationships -/

def relationshipFields (r : Relationship) : List (Str × Option TvVal) :=
  [(s%"relationship_type", some (.one (.relationshipType r.relationshipType))),
   (s%"related_spdx_element_id", some (.one (specialItem r.relatedSpdxElementId))), (s%"spdx_element_id", some (.one (.str r.spdxElementId))),
   (s%"comment", r.comment.map fun t => .one (.str t))]

theorem relationshipFields_nodup (r : Relationship) : ((relationshipFields r).map (·.1)).Nodup := by
  show [s%"relationship_type", s%"related_spdx_element_id", s%"spdx_element_id", s%"comment"].Nodup
  decide +kernel

theorem mkRelationship_fields (r : Relationship) : mkRelationship (fieldsOf (relationshipFields r)) = .ok r := by
  have hk : (relationshipFields r).map (·.1) = [s%"relationship_type", s%"related_spdx_element_id", s%"spdx_element_id", s%"comment"] := rfl
  have hn := relationshipFields_nodup r
  unfold mkRelationship
  rw [tvOnly_of (by rw [hk]; decide +kernel),
    tvReq_of (a := r.spdxElementId) hn (List.mem_of_getElem? (i := 2) rfl) rfl,
    tvReq_of (a := r.relationshipType) hn (List.mem_of_getElem? (i := 0) rfl) rfl,
    tvReq_of (a := r.relatedSpdxElementId) hn (List.mem_of_getElem? (i := 1) rfl) (special_of _),
    tvOpt_of (x := r.comment) hn (List.mem_of_getElem? (i := 3) rfl) (fun _ => rfl) rfl]
  rfl

def TvState.withRelationship (b : TvState) (r : Relationship) : TvState := { b with relationships := b.relationships ++ [r] }
theorem Settled.withRelationship {b : TvState} (h : Settled b) (x : Relationship) : Settled (b.withRelationship x) :=
  ⟨h.cls, h.elem, h.elemLog, h.hasId⟩

theorem reads_relationship {L : LicText} {r : Relationship} (h : RelTv r) {b : TvState} (hb : Settled b) :
    Reads L (writeRelationship r) b (b.withRelationship r) := by
  rintro s rfl
  obtain ⟨h1, h2⟩ := relationshipLine_split h
  have hct : (r.comment.map textTok).map textOrLineValue = r.comment := by
    cases hr : r.comment with
    | none => rfl
    | some c => exact congrArg some (textTok_value (h.comment c hr)).2
  refine ⟨inProg s.finish .relationship (relationshipFields r), .one (.relationship h1 r.comment h.comment) ?_, ?_⟩
  · show Except.ok ((s.start .relationship).setRelationship (relationshipLine r) ((r.comment.map textTok).map textOrLineValue)) = _
    rw [hct]
    unfold TvState.setRelationship
    rw [h2]
    have he : (s.start .relationship).elem = [] := hb.elem
    simp only [(relType_name r.relationshipType).2, (relatedItem_written h.related).2, he]
    unfold relationshipFields inProg
    cases r.comment <;> rfl
  · refine build_state (x := s.finish.withRelationship r) ?_ (hb.withRelationship _)
    unfold TvState.build
    rw [build_clean hb]
    show (match mkRelationship (fieldsOf (relationshipFields r)) with | .ok p => _ | .error e => _) = _
    rw [mkRelationship_fields]; rfl

end Spdx
