import Verif.Lemmas.JsonParse
import Verif.Props.C03
import Verif.Props.C04
import Verif.Props.C06
/- Each part of a document, written in the JSON form, is read back unchanged. -/
namespace Spdx

theorem checksumKeys_nodup : checksumKeys.Nodup := by decide
theorem annotationKeys_nodup : annotationKeys.Nodup := by decide
theorem relationshipKeys_nodup : relationshipKeys.Nodup := by decide
theorem extractedKeys_nodup : extractedKeys.Nodup := by decide
theorem externalDocumentRefKeys_nodup : externalDocumentRefKeys.Nodup := by decide
theorem externalPackageRefKeys_nodup : externalPackageRefKeys.Nodup := by decide
theorem verificationCodeKeys_nodup : verificationCodeKeys.Nodup := by decide
theorem creationInfoKeys_nodup : creationInfoKeys.Nodup := by decide
theorem fileKeys_nodup : fileKeys.Nodup := by decide
theorem packageKeys_nodup : packageKeys.Nodup := by decide
theorem snippetKeys_nodup : snippetKeys.Nodup := by decide
theorem documentKeys_nodup : documentKeys.Nodup := by decide

theorem checksum_roundtrip (c : Checksum) : parseChecksum (checksumToJson c) = .ok c := by
  have g := mkObj_get checksumKeys [some (.str (algorithmToJson c.algorithm)), some (.str c.value)] checksumKeys_nodup
  simp only [parseChecksum, checksumToJson, pyGet, g 0 rfl rfl, g 1 rfl rfl, py_bind_ok, Option.getD_some, C06.json_roundtrip,
    chkStr_str, ap_ok, construct_ok]

theorem enum_roundtrip {α : Type} (what : Str) (name : α → Str) (ofName : Str → Option α)
    (h : ∀ a, ofName (jsonStrToEnumName (name a)) = some a) (a : α) : parseEnum what ofName (.str (name a)) = .ok a := by
  simp only [parseEnum, h]

theorem category_names (c : ExternalPackageRefCategory) :
    ExternalPackageRefCategory.ofName? (jsonStrToEnumName c.name) = some c := by cases c <;> decide +kernel
theorem purpose_names (c : PackagePurpose) : PackagePurpose.ofName? (jsonStrToEnumName c.name) = some c := by
  cases c <;> decide +kernel
theorem relationshipType_names (c : RelationshipType) : RelationshipType.ofName? (jsonStrToEnumName c.name) = some c := by
  cases c <;> decide +kernel
theorem fileType_names (c : FileType) : FileType.ofName? c.name = some c := by cases c <;> decide +kernel
theorem annotationType_names (c : AnnotationType) : AnnotationType.ofName? c.name = some c := by cases c <;> decide +kernel

theorem category_name_ne (c : ExternalPackageRefCategory) : (Json.str c.name).truthy = true := by cases c <;> rfl
theorem purpose_name_ne (c : PackagePurpose) : (Json.str c.name).truthy = true := by cases c <;> rfl
theorem relationshipType_name_ne (c : RelationshipType) : (Json.str c.name).truthy = true := by cases c <;> rfl
theorem annotationType_name_ne (c : AnnotationType) : (Json.str c.name).truthy = true := by cases c <;> rfl

theorem truthy_str {s : Str} (h : s ≠ []) : (Json.str s).truthy = true := by
  cases s with
  | nil => exact absurd rfl h
  | cons => rfl

theorem actor_text_ne (a : Actor) : a.toSerialized ≠ [] := by
  unfold Actor.toSerialized
  cases a.actorType <;> simp [ActorType.title]

theorem actor_roundtrip (a : Actor) (h : C05.Expressible a) : parseActorJson (.str a.toSerialized) = .ok a := by
  simp only [parseActorJson, withStr, C05.roundtrip a h]

theorem date_roundtrip (t : DateTime) (h : DateOk t) : ∃ s, datetimeToIso t = some s ∧ s ≠ [] ∧ parseDate (.str s) = .ok t := by
  obtain ⟨s, h1, h2, h3⟩ := C03.naive_roundtrip t h.1 h.2.1
  refine ⟨s, h1, ?_, ?_⟩
  · rintro rfl
    simp [datetimeFromStr] at h3
  · have : ({ t with micro := 0 } : DateTime) = t := by rw [← h.2.2]
    simp only [parseDate, withStr, h3, this]

theorem license_roundtrip (L : LicText) (e : OrSpecial LicExpr) (h : ∀ x, e = .val x → LicOk L x) :
    (Json.str (L.str e)).truthy = true ∧ parseLicense L (.str (L.str e)) = .ok (some e) := by
  cases e with
  | val x =>
    obtain ⟨h1, h2, h3, h4⟩ := h x rfl
    refine ⟨truthy_str h2, ?_⟩
    simp only [parseLicense, LicText.str, h3, h4, if_false, h1]
    rfl
  | noAssertion =>
    refine ⟨rfl, ?_⟩
    show parseLicense L (.str s%"NOASSERTION") = _
    rw [parseLicense, if_pos (by decide +kernel)]
  | none =>
    refine ⟨rfl, ?_⟩
    show parseLicense L (.str s%"NONE") = _
    rw [parseLicense, if_neg (by decide +kernel), if_pos (by decide +kernel)]

theorem version_roundtrip (v : Version) : (Json.str v.toStr).truthy = true ∧ parseVersion (.str v.toStr) = .ok v := by
  refine ⟨truthy_str ?_, ?_⟩
  · simp [Version.toStr]
  · simp only [parseVersion, withStr, C04.roundtrip]

/-- `parseField` on an optional license. -/
theorem parseField_license (L : LicText) (o : Option (OrSpecial LicExpr)) (h : ∀ x, o = some (.val x) → LicOk L x) :
    parseField ((o.map fun e => Json.str (L.str e)).getD .null) (parseLicense L) = pure (o.map some) := by
  cases o with
  | none => rfl
  | some e =>
    have := license_roundtrip L e fun x hx => h x (by rw [hx])
    exact parseField_some this.1 this.2

theorem join_map_some (o : Option α) : (o.map some).join = o := by cases o <;> rfl

theorem jstrs_map (f : α → Str) (l : List α) : jstrs (l.map f) = l.map fun a => Json.str (f a) := by
  simp [jstrs, Function.comp_def]

theorem parseField_licenses (L : LicText) (l : List (OrSpecial LicExpr)) (h : ∀ x, .val x ∈ l → LicOk L x) :
    parseField ((orNone (jstrs (l.map L.str))).getD .null) (parseList (parseLicense L)) = pure (listField (l.map some)) := by
  rw [jstrs_map]
  refine parseField_list _ _ _ l (parseList_map _ _ _ l fun e he => ?_)
  exact (license_roundtrip L e fun x hx => h x (hx ▸ he)).2

theorem parseField_checksums (l : List Checksum) :
    parseField ((orNone (l.map checksumToJson)).getD .null) (parseList parseChecksum) = pure (listField l) := by
  have := parseField_list (parseList parseChecksum) checksumToJson id l
    (by simpa using parseList_map parseChecksum checksumToJson id l fun c _ => checksum_roundtrip c)
  simpa using this

theorem parseField_date (o : Option DateTime) (h : ∀ t, o = some t → DateOk t) :
    ∃ j, dateToJson o = some j ∧ parseField (j.getD .null) parseDate = pure o := by
  cases o with
  | none => exact ⟨none, rfl, rfl⟩
  | some t =>
    obtain ⟨s, h1, h2, h3⟩ := date_roundtrip t (h t rfl)
    refine ⟨some (.str s), ?_, parseField_some (truthy_str h2) h3⟩
    simp only [dateToJson, h1, Option.map_some]

theorem externalDocumentRef_roundtrip (r : ExternalDocumentRef) :
    parseExternalDocumentRef (externalDocumentRefToJson r) = .ok r := by
  have g := mkObj_get externalDocumentRefKeys
    [some (.str r.documentRefId), some (.str r.documentUri), some (checksumToJson r.checksum)] externalDocumentRefKeys_nodup
  have hc : parseField (checksumToJson r.checksum) parseChecksum = pure (some r.checksum) :=
    parseField_some (mkObj_truthy _ _ 0 rfl rfl) (checksum_roundtrip _)
  simp only [parseExternalDocumentRef, externalDocumentRefToJson, pyGet, g 0 rfl rfl, g 1 rfl rfl, g 2 rfl rfl, lift_ok,
    pbind_pure, Option.getD_some, hc, orRaiseIn_pure, py_bind_ok, chkStr_str, chkSome_some, ap_ok, construct_ok]

theorem collectFields_map (m : Json → Py α) (f : α → Json) (l : List α) (h : ∀ a ∈ l, (f a).truthy = true ∧ m (f a) = .ok a) :
    collectFields m (l.map f) = pure (l.map some) := by
  induction l with
  | nil => rfl
  | cons a l ih =>
    have ha := h a (by simp)
    simp only [List.map_cons, collectFields, parseField_some ha.1 ha.2, pbind_pure, ih fun b hb => h b (by simp [hb])]

theorem parseField_externalDocumentRefs (l : List ExternalDocumentRef) :
    parseField ((orNone (l.map externalDocumentRefToJson)).getD .null) parseExternalDocumentRefs
      = pure (listField (l.map some)) := by
  refine parseField_list _ _ _ l ?_
  simp only [parseExternalDocumentRefs, pyIter, py_bind_ok]
  rw [collectFields_map _ externalDocumentRefToJson l fun r _ => ⟨mkObj_truthy _ _ 0 rfl rfl, externalDocumentRef_roundtrip r⟩, orRaise_pure]

theorem externalRef_roundtrip (r : ExternalPackageRef) : parseExternalRef (externalPackageRefToJson r) = .ok r := by
  have g := mkObj_get externalPackageRefKeys
    [r.comment.map .str, some (.str r.category.name), some (.str r.locator), some (.str r.referenceType)]
    externalPackageRefKeys_nodup
  have hc : parseField (.str r.category.name) (parseEnum s%"ExternalPackageRefCategory" ExternalPackageRefCategory.ofName?)
      = pure (some r.category) :=
    parseField_some (category_name_ne _) (enum_roundtrip _ _ _ category_names _)
  simp only [parseExternalRef, externalPackageRefToJson, pyGet, g 0 rfl rfl, g 1 rfl rfl, g 2 rfl rfl, g 3 rfl rfl, lift_ok,
    pbind_pure, Option.getD_some, hc, orRaiseIn_pure, py_bind_ok, chkStr_str, chkSome_some, chkOptStr_opt, ap_ok, construct_ok]

theorem parseExternalRefs_roundtrip (l : List ExternalPackageRef) :
    parseExternalRefs (.arr (l.map externalPackageRefToJson)) = .ok l := by
  have := collect_map parseExternalRef externalPackageRefToJson id l fun r _ => externalRef_roundtrip r
  simp only [parseExternalRefs, pyIter, py_bind_ok, this, List.map_id]
  rfl

theorem parseField_externalRefs (l : List ExternalPackageRef) :
    parseField ((orNone (l.map externalPackageRefToJson)).getD .null) parseExternalRefs = pure (listField l) := by
  have := parseField_list parseExternalRefs externalPackageRefToJson id l (by simpa using parseExternalRefs_roundtrip l)
  simpa using this

theorem verificationCode_roundtrip (v : PackageVerificationCode) : parseVerificationCode (verificationCodeToJson v) = .ok v := by
  have g := mkObj_get verificationCodeKeys [orNone (jstrs v.excludedFiles), some (.str v.value)] verificationCodeKeys_nodup
  simp only [parseVerificationCode, verificationCodeToJson, pyGet, g 0 rfl rfl, g 1 rfl rfl, py_bind_ok, Option.getD_some,
    orNone_getD_arr, chkStrList_jstrs, chkStr_str, ap_ok, construct_ok]

theorem actorOrNoAssertion_roundtrip (a : OrNoAssertion Actor) (h : ∀ x, a = .val x → C05.Expressible x) :
    (Json.str (actorOrText a)).truthy = true ∧ parseActorOrNoAssertion (.str (actorOrText a)) = .ok a := by
  cases a with
  | noAssertion =>
    refine ⟨rfl, ?_⟩
    simp only [parseActorOrNoAssertion, parseNoAssertion, actorOrText, if_true]
  | val x =>
    refine ⟨truthy_str (actor_text_ne x), ?_⟩
    have hne : x.toSerialized ≠ s%"NOASSERTION" := by
      unfold Actor.toSerialized
      cases x.actorType <;> simp [ActorType.title]
    simp only [parseActorOrNoAssertion, parseNoAssertion, actorOrText, Json.str.injEq, hne, if_false,
      actor_roundtrip x (h x rfl)]
    rfl

theorem collectFileTypes_map (l : List FileType) : collectFileTypes (l.map fun t => Json.str t.name) = pure l := by
  induction l with
  | nil => rfl
  | cons t l ih =>
    simp only [List.map_cons, collectFileTypes, ih, fileTypeEntry, fileType_names]
    rfl

theorem parseField_fileTypes (l : List FileType) :
    parseField ((orNone (jstrs (l.map FileType.name))).getD .null) parseFileTypes = pure (listField l) := by
  rw [jstrs_map]
  have := parseField_list parseFileTypes (fun t : FileType => Json.str t.name) id l (by
    simp only [parseFileTypes, pyIter, py_bind_ok, collectFileTypes_map, orRaiseIn_pure, List.map_id])
  simpa using this

theorem mapM_some {f : α → Option β} {g : α → β} (l : List α) (h : ∀ a ∈ l, f a = some (g a)) : l.mapM f = some (l.map g) := by
  induction l with
  | nil => rfl
  | cons a l ih => simp [List.mapM_cons, h a (by simp), ih fun b hb => h b (by simp [hb])]

/-- The tree written for an annotation. -/
def annotationJ (a : Annotation) : Json := (annotationToJson a).getD .null

theorem annotation_roundtrip (a : Annotation) (h : AnnotationOk a) :
    annotationToJson a = some (annotationJ a) ∧ parseAnnotation (.str a.spdxId) (annotationJ a) = .ok a := by
  obtain ⟨s, h1, h2, h3⟩ := date_roundtrip _ h.date
  have e : annotationToJson a = some (mkObj annotationKeys
      [some (.str s), some (.str a.annotationType.name), some (.str a.annotator.toSerialized), some (.str a.annotationComment)]) := by
    simp only [annotationToJson, h1]; rfl
  have g := mkObj_get annotationKeys
      [some (.str s), some (.str a.annotationType.name), some (.str a.annotator.toSerialized), some (.str a.annotationComment)]
      annotationKeys_nodup
  have gm := mkObj_get_missing annotationKeys
      [some (.str s), some (.str a.annotationType.name), some (.str a.annotator.toSerialized), some (.str a.annotationComment)]
      (k := s%"SPDXID") (by decide)
  have ht : parseField (.str a.annotationType.name) parseAnnotationType = pure (some a.annotationType) :=
    parseField_some (annotationType_name_ne _) (by simp only [parseAnnotationType, annotationType_names])
  have ha : parseField (.str a.annotator.toSerialized) parseActorJson = pure (some a.annotator) :=
    parseField_some (truthy_str (actor_text_ne _)) (actor_roundtrip _ h.annotator)
  have hd : parseField (.str s) parseDate = pure (some a.annotationDate) := parseField_some (truthy_str h2) h3
  refine ⟨by rw [annotationJ, e]; rfl, ?_⟩
  rw [annotationJ, e, Option.getD_some]
  simp only [parseAnnotation, pyGet, g 0 rfl rfl, g 1 rfl rfl, g 2 rfl rfl, g 3 rfl rfl, gm, lift_ok, py_bind_ok,
    pbind_pure, Option.getD_some, ht, ha, hd, orRaiseIn_pure, chkSome_some, chkStr_str, Json.truthy, Bool.false_eq_true, if_false,
    ap_ok, construct_ok]

theorem annotationsOf_ok (d : Document) (id : Str) (h : ∀ a ∈ d.annotations, AnnotationOk a) :
    annotationsOf d id = some (orNone ((d.annotations.filter fun a => a.spdxId = id).map annotationJ)) := by
  simp only [annotationsOf]
  rw [mapM_some _ fun a ha => (annotation_roundtrip a (h a (List.mem_filter.mp ha).1)).1]
  rfl

theorem file_roundtrip (L : LicText) (d : Document) (f : File) (h : FileOk L f) (ha : ∀ a ∈ d.annotations, AnnotationOk a) :
    ∃ j, fileToJson L d f = some j ∧ parseFile L j = .ok f ∧ pyGet j s%"SPDXID" = .ok (.str f.spdxId) ∧
      pyGetD j s%"annotations" (.arr []) = .ok (.arr ((d.annotations.filter fun a => a.spdxId = f.spdxId).map annotationJ)) := by
  have e := annotationsOf_ok d f.spdxId ha
  obtain ⟨vals, hv⟩ : ∃ v, v =
    [some (.str f.spdxId), orNone ((d.annotations.filter fun a => a.spdxId = f.spdxId).map annotationJ), none,
     orNone (jstrs f.attributionTexts), orNone (f.checksums.map checksumToJson),
     f.comment.map Json.str, f.copyrightText.map (.str ·.text), orNone (jstrs f.contributors), none, some (.str f.name),
     orNone (jstrs (f.fileTypes.map FileType.name)), f.licenseComment.map .str, f.licenseConcluded.map (.str <| L.str ·),
     orNone (jstrs (f.licenseInfoInFile.map L.str)), f.notice.map .str] := ⟨_, rfl⟩
  have g := mkObj_get fileKeys vals fileKeys_nodup
  refine ⟨mkObj fileKeys vals, by simp only [fileToJson, e, hv]; rfl, ?_⟩
  subst hv
  refine ⟨?_, g 0 rfl rfl _, ?_⟩
  · have hl : listField f.checksums = some f.checksums := by simp [listField, h.checksums]
    simp only [parseFile, pyGet, g 0 rfl rfl, g 3 rfl rfl, g 4 rfl rfl, g 5 rfl rfl, g 6 rfl rfl, g 7 rfl rfl, g 9 rfl rfl,
      g 10 rfl rfl, g 11 rfl rfl, g 12 rfl rfl, g 13 rfl rfl, g 14 rfl rfl, lift_ok, py_bind_ok, pbind_pure, Option.getD_some,
      orNone_getD_arr, parseField_checksums, parseField_fileTypes, parseField_license L _ h.concluded,
      parseField_licenses L _ h.info, orRaiseIn_pure, chkStr_str, hl, chkSome_some, listField_getD, join_map_some,
      chkAll_listField, chkOptStr_opt, chkOptSpecial_opt _ _ h.copyright, chkStrList_jstrs, ap_ok, construct_ok]
  · rw [g 1 rfl rfl, orNone_getD_arr]

theorem chkBool_files (f : Str) (b : Bool) : chkBool f (filesAnalyzedValue (.bool b)) = .ok b := rfl

theorem package_roundtrip (L : LicText) (d : Document) (p : Package) (h : PackageOk L p) (ha : ∀ a ∈ d.annotations, AnnotationOk a) :
    ∃ j, packageToJson L d p = some j ∧ parsePackage L j = .ok p ∧ externalRefMessages j = [] ∧
      pyGet j s%"SPDXID" = .ok (.str p.spdxId) ∧
      pyGetD j s%"annotations" (.arr []) = .ok (.arr ((d.annotations.filter fun a => a.spdxId = p.spdxId).map annotationJ)) ∧
      pyGetD j s%"hasFiles" (.arr []) = .ok (.arr []) := by
  have e := annotationsOf_ok d p.spdxId ha
  obtain ⟨built, b1, b2⟩ := parseField_date p.builtDate h.built
  obtain ⟨released, r1, r2⟩ := parseField_date p.releaseDate h.release
  obtain ⟨valid, v1, v2⟩ := parseField_date p.validUntilDate h.validUntil
  obtain ⟨vals, hv⟩ : ∃ v, v =
    [some (.str p.spdxId), orNone ((d.annotations.filter fun a => a.spdxId = p.spdxId).map annotationJ),
     orNone (jstrs p.attributionTexts), built, orNone (p.checksums.map checksumToJson),
     p.comment.map .str, p.copyrightText.map (.str ·.text), p.description.map .str, some (.str p.downloadLocation.text),
     orNone (p.externalReferences.map externalPackageRefToJson), some (.bool p.filesAnalyzed), p.homepage.map (.str ·.text),
     p.licenseComment.map .str, p.licenseConcluded.map (.str <| L.str ·), p.licenseDeclared.map (.str <| L.str ·),
     orNone (jstrs (p.licenseInfoFromFiles.map L.str)), some (.str p.name), p.originator.map (.str <| actorOrText ·),
     p.fileName.map .str, p.verificationCode.map verificationCodeToJson, p.primaryPackagePurpose.map (.str ·.name),
     released, p.sourceInfo.map .str, p.summary.map .str, p.supplier.map (.str <| actorOrText ·), valid,
     p.version.map .str] := ⟨_, rfl⟩
  have g := mkObj_get packageKeys vals packageKeys_nodup
  refine ⟨mkObj packageKeys vals, by simp only [packageToJson, e, b1, r1, v1, hv]; rfl, ?_⟩
  subst hv
  refine ⟨?_, ?_, g 0 rfl rfl _, ?_, mkObj_get_missing _ _ (by decide) _⟩
  · have ho := parseField_opt p.originator (.str <| actorOrText ·) parseActorOrNoAssertion fun a hh =>
      actorOrNoAssertion_roundtrip a fun x hx => h.originator x (by rw [hh, hx])
    have hs := parseField_opt p.supplier (.str <| actorOrText ·) parseActorOrNoAssertion fun a hh =>
      actorOrNoAssertion_roundtrip a fun x hx => h.supplier x (by rw [hh, hx])
    have hc := parseField_opt p.verificationCode verificationCodeToJson parseVerificationCode fun a _ =>
      ⟨mkObj_truthy _ _ 1 rfl rfl, verificationCode_roundtrip a⟩
    have hp := parseField_opt p.primaryPackagePurpose (.str ·.name)
      (parseEnum s%"PrimaryPackagePurpose" PackagePurpose.ofName?) fun a _ =>
      ⟨purpose_name_ne a, enum_roundtrip _ _ _ purpose_names a⟩
    simp only [parsePackage, pyGet, g 0 rfl rfl, g 2 rfl rfl, g 3 rfl rfl, g 4 rfl rfl, g 5 rfl rfl, g 6 rfl rfl, g 7 rfl rfl,
      g 8 rfl rfl, g 9 rfl rfl, g 10 rfl rfl, g 11 rfl rfl, g 12 rfl rfl, g 13 rfl rfl, g 14 rfl rfl, g 15 rfl rfl,
      g 16 rfl rfl, g 17 rfl rfl, g 18 rfl rfl, g 19 rfl rfl, g 20 rfl rfl, g 21 rfl rfl, g 22 rfl rfl, g 23 rfl rfl,
      g 24 rfl rfl, g 25 rfl rfl, g 26 rfl rfl, lift_ok, py_bind_ok, pbind_pure, Option.getD_some,
      orNone_getD_arr, b2, parseField_checksums, parseField_externalRefs, parseField_license L _ h.concluded,
      parseField_license L _ h.declared, parseField_licenses L _ h.info, ho, hs, hc, hp, r2, v2, orRaiseIn_pure, chkStr_str,
      chkSpecial_text _ _ h.download, chkOptStr_opt, chkBool_files, listField_getD, chkOptSpecial_opt _ _ h.homepage,
      chkOptSpecial_opt _ _ h.copyright, chkAll_listField, join_map_some, chkStrList_jstrs, ap_ok, construct_ok]
  · simp only [externalRefMessages, pyGet, g 9 rfl rfl]
    cases hx : p.externalReferences with
    | nil => rfl
    | cons a l =>
      have := collect_map parseExternalRef externalPackageRefToJson id (a :: l) fun r _ => externalRef_roundtrip r
      simp only [List.map_cons] at this
      simp only [orNone, List.map_cons, reduceCtorEq, if_false, Option.getD_some, Json.truthy, List.isEmpty_cons, Bool.not_false,
        if_true, pyIter, this]
      rfl
  · rw [g 1 rfl rfl, orNone_getD_arr]

theorem pointerType_ok (ref : Str) (x : Int) :
    pointerType (pointerToJson ref x s%"offset") = .ok .BYTE ∧ pointerType (pointerToJson ref x s%"lineNumber") = .ok .LINE := by
  constructor <;> rfl

theorem parseRange_byte (r : Int × Int) (file : Str) :
    parseRange (rangeToJson r file s%"offset") = .ok (.BYTE, (.num r.1, .num r.2)) := rfl

theorem parseRange_line (r : Int × Int) (file : Str) :
    parseRange (rangeToJson r file s%"lineNumber") = .ok (.LINE, (.num r.1, .num r.2)) := rfl

theorem snippet_roundtrip (L : LicText) (d : Document) (s : Snippet) (h : SnippetOk L s) (ha : ∀ a ∈ d.annotations, AnnotationOk a) :
    ∃ j, snippetToJson L d s = some j ∧ parseSnippet L j = .ok s ∧ pyGet j s%"SPDXID" = .ok (.str s.spdxId) ∧
      pyGetD j s%"annotations" (.arr []) = .ok (.arr ((d.annotations.filter fun a => a.spdxId = s.spdxId).map annotationJ)) := by
  have e := annotationsOf_ok d s.spdxId ha
  obtain ⟨vals, hv⟩ : ∃ v, v =
    [some (.str s.spdxId), orNone ((d.annotations.filter fun a => a.spdxId = s.spdxId).map annotationJ),
     orNone (jstrs s.attributionTexts), s.comment.map .str,
     s.copyrightText.map (.str ·.text), s.licenseComment.map .str, s.licenseConcluded.map (.str <| L.str ·),
     orNone (jstrs (s.licenseInfoInSnippet.map L.str)), s.name.map .str, some (.arr (rangesToJson s)),
     some (.str s.fileSpdxId)] := ⟨_, rfl⟩
  have g := mkObj_get snippetKeys vals snippetKeys_nodup
  refine ⟨mkObj snippetKeys vals, by simp only [snippetToJson, e, hv]; rfl, ?_⟩
  subst hv
  refine ⟨?_, g 0 rfl rfl _, by rw [g 1 rfl rfl, orNone_getD_arr]⟩
  obtain ⟨rs, hr, hb, hln⟩ : ∃ rs, parseField (.arr (rangesToJson s)) parseRanges = pure (some rs) ∧
      chkRange s%"byte_range" (rangeFromStr (Dict.get? rs .BYTE)) = .ok s.byteRange ∧
      chkOptRange s%"line_range" (rangeFromStr (Dict.get? rs .LINE)) = .ok s.lineRange := by
    obtain ⟨_, file, ⟨b1, b2⟩, lr, _, _, _, _, _, _, _⟩ := s
    cases lr with
    | none =>
      refine ⟨[(.BYTE, (.num b1, .num b2))], parseField_some rfl ?_, rfl, rfl⟩
      simp only [rangesToJson, parseRanges, pyIter, py_bind_ok, collectRanges, parseRange_byte]
      rfl
    | some r =>
      refine ⟨[(.BYTE, (.num b1, .num b2)), (.LINE, (.num r.1, .num r.2))], parseField_some rfl ?_, rfl, rfl⟩
      simp only [rangesToJson, parseRanges, pyIter, py_bind_ok, collectRanges, parseRange_byte, parseRange_line]
      rfl
  simp only [parseSnippet, pyGet, g 0 rfl rfl, g 2 rfl rfl, g 3 rfl rfl, g 4 rfl rfl, g 5 rfl rfl, g 6 rfl rfl, g 7 rfl rfl,
    g 8 rfl rfl, g 9 rfl rfl, g 10 rfl rfl, lift_ok, py_bind_ok, pbind_pure, Option.getD_some, hr, hb, hln,
    parseField_license L _ h.concluded, parseField_licenses L _ h.info, orRaiseIn_pure, chkStr_str, chkOptStr_opt,
    chkOptSpecial_opt _ _ h.copyright, chkAll_listField, join_map_some, orNone_getD_arr, chkStrList_jstrs, ap_ok, construct_ok]

theorem relationship_roundtrip (r : Relationship) (h : RelationshipOk r) : parseRelationship (relationshipToJson r) = .ok r := by
  have g := mkObj_get relationshipKeys
    [some (.str r.spdxElementId), r.comment.map .str, some (.str r.relatedSpdxElementId.text), some (.str r.relationshipType.name)]
    relationshipKeys_nodup
  have ht : parseField (.str r.relationshipType.name) (parseEnum s%"RelationshipType" RelationshipType.ofName?)
      = pure (some r.relationshipType) :=
    parseField_some (relationshipType_name_ne _) (enum_roundtrip _ _ _ relationshipType_names _)
  simp only [parseRelationship, relationshipToJson, pyGet, g 0 rfl rfl, g 1 rfl rfl, g 2 rfl rfl, g 3 rfl rfl, lift_ok, py_bind_ok,
    pbind_pure, Option.getD_some, ht, orRaiseIn_pure, chkStr_str, chkSome_some, chkSpecial_text _ _ h, chkOptStr_opt, ap_ok,
    construct_ok]

theorem extracted_roundtrip (e : ExtractedLicensingInfo) (h : ExtractedOk e) : parseExtracted (extractedToJson e) = .ok e := by
  have g := mkObj_get extractedKeys
    [e.comment.map .str, e.extractedText.map .str, e.licenseId.map .str, e.licenseName.map (.str ·.text),
     orNone (jstrs e.crossReferences)] extractedKeys_nodup
  simp only [parseExtracted, extractedToJson, pyGet, g 0 rfl rfl, g 1 rfl rfl, g 2 rfl rfl, g 3 rfl rfl, g 4 rfl rfl, py_bind_ok,
    chkOptStr_opt, chkOptNoAssertion_opt _ _ h, orNone_getD_arr, chkStrList_jstrs, ap_ok, construct_ok]

theorem collectPackages_map (L : LicText) (f : Package → Json) (l : List Package)
    (h : ∀ p ∈ l, parsePackage L (f p) = .ok p ∧ externalRefMessages (f p) = []) :
    collectPackages L (l.map f) = pure l := by
  induction l with
  | nil => rfl
  | cons p l ih =>
    have hp := h p (by simp)
    simp only [List.map_cons, collectPackages, hp.1, ih fun q hq => h q (by simp [hq]), hp.2]
    rfl

theorem parseField_annotations (id : Str) (l : List Annotation) (h : ∀ a ∈ l, AnnotationOk a ∧ a.spdxId = id) :
    ∃ o, parseField (.arr (l.map annotationJ)) (parseList (parseAnnotation (.str id))) = pure o ∧ o.getD [] = l := by
  cases l with
  | nil => exact ⟨none, rfl, rfl⟩
  | cons a l =>
    refine ⟨some (a :: l), parseField_some rfl ?_, rfl⟩
    have := parseList_map (parseAnnotation (.str id)) annotationJ (fun x => x) (a :: l) fun b hb => by
      have := (annotation_roundtrip b (h b hb).1).2
      rwa [(h b hb).2] at this
    simpa using this

theorem annotationsFrom_map (f : α → Json) (id : α → Str) (anns : List Annotation) (l : List α) (ha : ∀ a ∈ anns, AnnotationOk a)
    (h : ∀ x ∈ l, pyGet (f x) s%"SPDXID" = .ok (.str (id x)) ∧
      pyGetD (f x) s%"annotations" (.arr []) = .ok (.arr ((anns.filter fun a => a.spdxId = id x).map annotationJ))) :
    annotationsFrom (l.map f) = pure ((l.map id).flatMap fun i => anns.filter fun a => a.spdxId = i) := by
  induction l with
  | nil => rfl
  | cons x l ih =>
    have hx := h x (by simp)
    obtain ⟨o, h1, h2⟩ := parseField_annotations (id x) (anns.filter fun a => a.spdxId = id x) fun a h' => by
      have := List.mem_filter.mp h'
      exact ⟨ha a this.1, by simpa using this.2⟩
    simp only [List.map_cons, annotationsFrom, hx.1, hx.2, lift_ok, pbind_pure, h1, ih fun y hy => h y (by simp [hy]), h2,
      List.flatMap_cons]

theorem hasFilesLoop_none (existing : List Relationship) (f : Package → Json) (l : List Package)
    (h : ∀ p ∈ l, pyGet (f p) s%"SPDXID" = .ok (.str p.spdxId) ∧ pyGetD (f p) s%"hasFiles" (.arr []) = .ok (.arr [])) :
    hasFilesLoop existing (l.map f) = pure [] := by
  induction l with
  | nil => rfl
  | cons p l ih =>
    have hp := h p (by simp)
    simp only [List.map_cons, hasFilesLoop, hp.1, hp.2, ih fun q hq => h q (by simp [hq]), lift_ok, py_bind_ok, pbind_pure]
    rfl

end Spdx
