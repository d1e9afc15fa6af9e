import Verif.Lemmas.ParseInv
import Verif.Lemmas.JsonParse
import Verif.Spec.Example
/-
C24: parsing a JSON-like document succeeds only if every part parses; if any part is faulty an error is raised that contains a message
for every faulty list entry, and no partial document is returned.
-/
namespace Spdx.C24
open Spdx

/-- Follows an element parser to its logger. -/
macro "descend" : tactic => `(tactic| repeat (first
  | refine reports_left (reports_orRaiseIn _ ?_) | refine reports_left (reports_orRaise ?_) | refine reports_right (by quiet) fun _ _ => ?_))

/-- Follows a logger to the field under the key. -/
macro "find_field" hk:ident "with" t:term : tactic => `(tactic| repeat (first
  | (refine logs_lift (quiet_get _ _ _) fun a ha => ?_
     first
     | (rw [$hk:ident] at ha; cases ha; first | exact logs_left $t (fun _ => by quiet) | exact $t)
     | skip)
  | refine logs_right (quietP_field _ _) fun _ _ _ => ?_))

/-- Reports a faulty field / list entry of the element parser. -/
macro "field_of" f:ident : tactic => `(tactic| (
  intro hv ht hf
  have hk := hv.get .null
  unfold $f:ident pyGet
  descend
  find_field hk with (logs_field ht hf)))
macro "entry_of" f:ident : tactic => `(tactic| (
  rintro ⟨l, hv, hl⟩ hf
  have hk := hv.get .null
  unfold $f:ident pyGet
  descend
  find_field hk with (logs_field (truthy_of_mem hl) (faulty_list hl hf))))

/-! Nothing is dropped silently: a document is returned only when every part has been parsed, and it consists of the parsed parts. -/

/-- The list under the key (if there is one) has been parsed entry by entry into the list. -/
def ListParsed (j : Json) (key : Str) (parser : Json → Py α) (xs : List α) : Prop :=
  (∀ l, HasField j key (.arr l) → l.map parser = xs.map .ok) ∧ ((∀ v, ¬ HasField j key v) → xs = [])

private theorem listParsed_of {j v : Json} {key : Str} {f : Json → Py α} {m : Json → Py (List α)} {o : Option (List α)}
    (hv : pyGet j key = .ok v) (h : if v.truthy then ∃ a, m v = .ok a ∧ o = some a else o = none)
    (hm : ∀ l xs, m (.arr l) = .ok xs → l.map f = xs.map .ok) : ListParsed j key f (o.getD []) := by
  constructor
  · intro l hl
    rw [pyGet, hl.get .null] at hv
    cases hv
    cases l with
    | nil => rw [if_neg (by decide)] at h; subst h; rfl
    | cons e l =>
      rw [if_pos (show (Json.arr (e :: l)).truthy = true from rfl)] at h
      obtain ⟨a, ha, rfl⟩ := h
      exact hm _ _ ha
  · intro hno
    have : v = .null := by
      unfold pyGet pyGetD at hv
      split at hv
      · rename_i fields
        cases hd : dictGet fields key with
        | none => rw [hd] at hv; cases hv; rfl
        | some x => exact absurd ⟨fields, rfl, hd⟩ (hno x)
      · cases hv
    subst this
    rw [if_neg (by decide)] at h
    subst h; rfl

theorem returned_only_if_all_parsed (L : LicText) (j : Json) (d : Document) (h : parseDocument L j = .ok d) :
    parseCreationInfo j = .ok d.creationInfo ∧
    ListParsed j s%"packages" (parsePackage L) d.packages ∧
    ListParsed j s%"files" (parseFile L) d.files ∧
    ListParsed j s%"snippets" (parseSnippet L) d.snippets ∧
    ListParsed j s%"hasExtractedLicensingInfos" parseExtracted d.extractedLicensingInfo ∧
    parseAllAnnotations j = .ok d.annotations ∧
    parseAllRelationships j = .ok d.relationships := by
  unfold parseDocument at h
  obtain ⟨r, hr, hc⟩ := py_bind_inv h
  have hr := ok_orRaise hr
  obtain ⟨info, h1, hr⟩ := pbind_ok_nil.mp hr
  obtain ⟨vp, h2, hr⟩ := pbind_ok_nil.mp hr
  obtain ⟨ps, h3, hr⟩ := pbind_ok_nil.mp hr
  obtain ⟨vf, h4, hr⟩ := pbind_ok_nil.mp hr
  obtain ⟨fs, h5, hr⟩ := pbind_ok_nil.mp hr
  obtain ⟨as, h6, hr⟩ := pbind_ok_nil.mp hr
  obtain ⟨vs, h7, hr⟩ := pbind_ok_nil.mp hr
  obtain ⟨ss, h8, hr⟩ := pbind_ok_nil.mp hr
  obtain ⟨rs, h9, hr⟩ := pbind_ok_nil.mp hr
  obtain ⟨ve, h10, hr⟩ := pbind_ok_nil.mp hr
  obtain ⟨es, h11, hr⟩ := pbind_ok_nil.mp hr
  cases hr
  obtain ⟨ci, k1, rfl⟩ := ok_part h1 (ne_creationInfo j)
  have h3 := ok_optPart h3 (ne_bind (ne_quiet (quiet_iter _)) fun _ => ne_orRaise (quietP_collectPackages _ _))
  have h5 := ok_optPart h5 (ne_bind (ne_quiet (quiet_iter _)) fun _ => ne_orRaise (quietP_collect _ _))
  have h8 := ok_optPart h8 (ne_bind (ne_quiet (quiet_iter _)) fun _ => ne_orRaise (quietP_collect _ _))
  have h11 := ok_optPart h11 (ne_bind (ne_quiet (quiet_iter _)) fun _ => ne_orRaise (quietP_collect _ _))
  have ht : j.truthy = true := by
    have := ok_lift h2
    clear hc h3 h5 h6 h8 h9 h11 h1 h2 h4 h7 h10
    cases j with
    | obj fields => cases fields with
      | nil => cases k1
      | cons => rfl
    | _ => cases this
  have h6 := ok_optPart h6 (ne_orRaiseIn (by quiet))
  have h9 := ok_optPart h9 (ne_orRaise (by quiet))
  rw [if_pos ht] at h6 h9
  obtain ⟨anns, k6, rfl⟩ := h6
  obtain ⟨rels, k9, rfl⟩ := h9
  cases hc
  exact ⟨k1, listParsed_of (ok_lift h2) h3 fun l xs hx => ok_collectPackages (ok_orRaise hx),
    listParsed_of (ok_lift h4) h5 fun l xs hx => ok_parseList hx (ne_file L),
    listParsed_of (ok_lift h7) h8 fun l xs hx => ok_parseList hx (ne_snippet L),
    listParsed_of (ok_lift h10) h11 fun l xs hx => ok_parseList hx ne_extracted, k6, k9⟩

/-! Every faulty field of an element is reported, whatever else is wrong with the element. -/

/-- `r` reports any fault of the field under the key, as found by `parser`. -/
def FieldReported (j : Json) (key : Str) (parser : Json → Py α) (r : Py β) : Prop :=
  ∀ v m, HasField j key v → v.truthy = true → Faulty (parser v) m → Reports r m

/-- `r` reports any fault of any entry of the list under the key. -/
def EntriesReported (j : Json) (key : Str) (parser : Json → Py α) (r : Py β) : Prop :=
  ∀ e m, HasEntry j key e → Faulty (parser e) m → Reports r m

private theorem package_builtDate (L : LicText) (j : Json) :
    FieldReported j s%"builtDate" parseDate (parsePackage L j) := by
  intro v m
  field_of parsePackage

private theorem package_checksums (L : LicText) (j : Json) :
    EntriesReported j s%"checksums" parseChecksum (parsePackage L j) := by
  intro v m
  entry_of parsePackage

private theorem package_licenseConcluded (L : LicText) (j : Json) :
    FieldReported j s%"licenseConcluded" (parseLicense L) (parsePackage L j) := by
  intro v m
  field_of parsePackage

private theorem package_licenseDeclared (L : LicText) (j : Json) :
    FieldReported j s%"licenseDeclared" (parseLicense L) (parsePackage L j) := by
  intro v m
  field_of parsePackage

private theorem package_licenseInfoFromFiles (L : LicText) (j : Json) :
    EntriesReported j s%"licenseInfoFromFiles" (parseLicense L) (parsePackage L j) := by
  intro v m
  entry_of parsePackage

private theorem package_originator (L : LicText) (j : Json) :
    FieldReported j s%"originator" parseActorOrNoAssertion (parsePackage L j) := by
  intro v m
  field_of parsePackage

private theorem package_packageVerificationCode (L : LicText) (j : Json) :
    FieldReported j s%"packageVerificationCode" parseVerificationCode (parsePackage L j) := by
  intro v m
  field_of parsePackage

private theorem package_primaryPackagePurpose (L : LicText) (j : Json) :
    FieldReported j s%"primaryPackagePurpose" (parseEnum s%"PrimaryPackagePurpose" PackagePurpose.ofName?) (parsePackage L j) := by
  intro v m
  field_of parsePackage

private theorem package_releaseDate (L : LicText) (j : Json) :
    FieldReported j s%"releaseDate" parseDate (parsePackage L j) := by
  intro v m
  field_of parsePackage

private theorem package_supplier (L : LicText) (j : Json) :
    FieldReported j s%"supplier" parseActorOrNoAssertion (parsePackage L j) := by
  intro v m
  field_of parsePackage

private theorem package_validUntilDate (L : LicText) (j : Json) :
    FieldReported j s%"validUntilDate" parseDate (parsePackage L j) := by
  intro v m
  field_of parsePackage

theorem package_faults (L : LicText) (j : Json) :
    FieldReported j s%"builtDate" parseDate (parsePackage L j) ∧
    EntriesReported j s%"checksums" parseChecksum (parsePackage L j) ∧
    FieldReported j s%"licenseConcluded" (parseLicense L) (parsePackage L j) ∧
    FieldReported j s%"licenseDeclared" (parseLicense L) (parsePackage L j) ∧
    EntriesReported j s%"licenseInfoFromFiles" (parseLicense L) (parsePackage L j) ∧
    FieldReported j s%"originator" parseActorOrNoAssertion (parsePackage L j) ∧
    FieldReported j s%"packageVerificationCode" parseVerificationCode (parsePackage L j) ∧
    FieldReported j s%"primaryPackagePurpose" (parseEnum s%"PrimaryPackagePurpose" PackagePurpose.ofName?) (parsePackage L j) ∧
    FieldReported j s%"releaseDate" parseDate (parsePackage L j) ∧
    FieldReported j s%"supplier" parseActorOrNoAssertion (parsePackage L j) ∧
    FieldReported j s%"validUntilDate" parseDate (parsePackage L j) :=
  ⟨package_builtDate L j, package_checksums L j, package_licenseConcluded L j, package_licenseDeclared L j, package_licenseInfoFromFiles L j, package_originator L j, package_packageVerificationCode L j, package_primaryPackagePurpose L j, package_releaseDate L j, package_supplier L j, package_validUntilDate L j⟩

theorem file_faults (L : LicText) (j : Json) :
    EntriesReported j s%"checksums" parseChecksum (parseFile L j) ∧
    FieldReported j s%"licenseConcluded" (parseLicense L) (parseFile L j) ∧
    EntriesReported j s%"licenseInfoInFiles" (parseLicense L) (parseFile L j) := by
  refine ⟨?_, ?_, ?_⟩ <;> intro v m
  · entry_of parseFile
  · field_of parseFile
  · entry_of parseFile

theorem snippet_faults (L : LicText) (j : Json) :
    FieldReported j s%"licenseConcluded" (parseLicense L) (parseSnippet L j) ∧
    EntriesReported j s%"licenseInfoInSnippets" (parseLicense L) (parseSnippet L j) := by
  refine ⟨?_, ?_⟩ <;> intro v m
  · field_of parseSnippet
  · entry_of parseSnippet

theorem annotation_faults (id j : Json) :
    FieldReported j s%"annotationType" parseAnnotationType (parseAnnotation id j) ∧
    FieldReported j s%"annotator" parseActorJson (parseAnnotation id j) ∧
    FieldReported j s%"annotationDate" parseDate (parseAnnotation id j) ∧
    FieldReported j s%"reviewer" parseActorJson (parseReview id j) ∧
    FieldReported j s%"reviewDate" parseDate (parseReview id j) := by
  refine ⟨?_, ?_, ?_, ?_, ?_⟩ <;> intro v m
  · field_of parseAnnotation
  · field_of parseAnnotation
  · field_of parseAnnotation
  · field_of parseReview
  · field_of parseReview

theorem relationship_faults (j : Json) :
    FieldReported j s%"relationshipType" (parseEnum s%"RelationshipType" RelationshipType.ofName?) (parseRelationship j) := by
  intro v m
  field_of parseRelationship

theorem external_reference_faults (j : Json) :
    FieldReported j s%"referenceCategory" (parseEnum s%"ExternalPackageRefCategory" ExternalPackageRefCategory.ofName?)
      (parseExternalRef j) ∧
    FieldReported j s%"checksum" parseChecksum (parseExternalDocumentRef j) := by
  refine ⟨?_, ?_⟩ <;> intro v m
  · field_of parseExternalRef
  · field_of parseExternalDocumentRef

/-! The creation information: the fields under `creationInfo` and those of the document itself. -/

private theorem creation_info_step {j ci : Json} {m : PMsg} (hci : HasField j s%"creationInfo" ci) (hn : ci ≠ .null)
    (h : Logs (do
      let creators ← parseField (← (pyGet ci s%"creators").lift) (parseList parseActorJson)
      let created ← parseField (← (pyGet ci s%"created").lift) parseDate
      let creatorComment ← (pyGet ci s%"comment").lift
      let dataLicense ← (pyGet j s%"dataLicense").lift
      let refs ← parseField (← (pyGet j s%"externalDocumentRefs").lift) parseExternalDocumentRefs
      let version ← parseField (← (pyGet ci s%"licenseListVersion").lift) parseVersion
      let comment ← (pyGet j s%"comment").lift
      return (creators, created, creatorComment, dataLicense, refs, version, comment)) m) :
    Reports (parseCreationInfo j) m := by
  unfold parseCreationInfo
  have hk := hci.get .null
  refine reports_right (quiet_get _ _ _) fun _ _ => ?_
  refine reports_right (quiet_get _ _ _) fun _ _ => ?_
  refine reports_right (quiet_get _ _ _) fun _ _ => ?_
  refine reports_right (quiet_get _ _ _) fun _ _ => ?_
  refine reports_right (quiet_get _ _ _) fun a ha => ?_
  rw [pyGet, hk] at ha; cases ha
  rw [if_neg hn]
  exact reports_left (reports_orRaiseIn _ h)

/-- Reports a faulty field of the creation information. -/
theorem creation_info_faults (j ci : Json) (hci : HasField j s%"creationInfo" ci) (hn : ci ≠ .null) :
    EntriesReported ci s%"creators" parseActorJson (parseCreationInfo j) ∧
    FieldReported ci s%"created" parseDate (parseCreationInfo j) ∧
    FieldReported ci s%"licenseListVersion" parseVersion (parseCreationInfo j) ∧
    FieldReported j s%"externalDocumentRefs" parseExternalDocumentRefs (parseCreationInfo j) := by
  refine ⟨?_, ?_, ?_, ?_⟩
  · rintro v m ⟨l, hv, hl⟩ hf
    have hk := hv.get .null
    refine creation_info_step hci hn ?_
    unfold pyGet
    find_field hk with (logs_field (truthy_of_mem hl) (faulty_list hl hf))
  · intro v m hv ht hf
    have hk := hv.get .null
    refine creation_info_step hci hn ?_
    unfold pyGet
    find_field hk with (logs_field ht hf)
  · intro v m hv ht hf
    have hk := hv.get .null
    refine creation_info_step hci hn ?_
    unfold pyGet
    find_field hk with (logs_field ht hf)
  · intro v m hv ht hf
    have hk := hv.get .null
    refine creation_info_step hci hn ?_
    unfold pyGet
    find_field hk with (logs_field ht hf)

private theorem logs_collectFields {f : Json → Py α} {l : List Json} {e : Json} {m : PMsg} (he : e ∈ l) (ht : e.truthy = true)
    (h : Faulty (f e) m) : Logs (collectFields f l) m := by
  induction l with
  | nil => simp at he
  | cons x l ih =>
    rcases List.mem_cons.mp he with rfl | he
    · exact logs_left (logs_field ht h) fun _ => by quiet
    · exact logs_right (quietP_field _ _) fun _ _ _ => logs_left (ih he) fun _ => by quiet

private theorem tameP_collectFields (f : Json → Py α) (l : List Json) : TameP (collectFields f l) := by
  induction l with
  | nil => exact tameP_pure _
  | cons j l ih => exact tameP_bind (tameP_field _ _) fun _ => tameP_bind ih fun _ => tameP_pure _

theorem external_document_ref_entries (j ci : Json) (hci : HasField j s%"creationInfo" ci) (hn : ci ≠ .null)
    (e : Json) (m : PMsg) (he : HasEntry j s%"externalDocumentRefs" e) (ht : e.truthy = true)
    (hf : Faulty (parseExternalDocumentRef e) m) : Reports (parseCreationInfo j) m := by
  obtain ⟨l, hv, hl⟩ := he
  refine (creation_info_faults j ci hci hn).2.2.2 _ m hv (truthy_of_mem hl) ?_
  exact faulty_of_reports (reports_orRaise (logs_collectFields hl ht hf)) (tame_orRaise (tameP_collectFields _ _))

theorem missing_creation_info (j : Json) (fields : List (Str × Json)) (h : j = .obj fields) (hm : dictGet fields s%"creationInfo" = none) :
    Reports (parseCreationInfo j) (.text s%"CreationInfo does not exist.") := by
  subst h
  have hk : pyGetD (.obj fields) s%"creationInfo" .null = .ok .null := by simp only [pyGetD, hm, Option.getD_none]
  unfold parseCreationInfo pyGet
  refine reports_right (quiet_get _ _ _) fun _ _ => ?_
  refine reports_right (quiet_get _ _ _) fun _ _ => ?_
  refine reports_right (quiet_get _ _ _) fun _ _ => ?_
  refine reports_right (quiet_get _ _ _) fun _ _ => ?_
  refine reports_right (quiet_get _ _ _) fun a ha => ?_
  rw [hk] at ha; cases ha
  rw [if_pos rfl]
  exact .inside (List.mem_singleton.mpr rfl) (.here (List.mem_singleton.mpr rfl))

/-! File types and snippet ranges are read by loops of their own, which give up at the first entry of a wrong kind. -/

private theorem fileTypes_messages (l : List Json) (hl : ∀ e ∈ l, e.hashable = true) :
    ∃ ms ts, collectFileTypes l = .ok (ms, ts) ∧
      ∀ s, .str s ∈ l → FileType.ofName? s = none → .invalid s%"FileType" (.str s) ∈ ms := by
  induction l with
  | nil => exact ⟨[], [], rfl, by simp⟩
  | cons e l ih =>
    obtain ⟨ms, ts, h1, h2⟩ := ih fun x hx => hl x (by simp [hx])
    have he : (∃ t, fileTypeEntry e = .ok (.inr t) ∧ ∀ s, e = .str s → FileType.ofName? s = some t) ∨
        fileTypeEntry e = .ok (.inl (.invalid s%"FileType" e)) := by
      have hh := hl e (by simp)
      cases e with
      | str s =>
        cases hs : FileType.ofName? s with
        | some t => exact .inl ⟨t, by simp only [fileTypeEntry, hs], fun s' h => by cases h; exact hs⟩
        | none => exact .inr (by simp only [fileTypeEntry, hs])
      | arr _ => simp [Json.hashable] at hh
      | obj _ => simp [Json.hashable] at hh
      | null => exact .inr rfl
      | bool _ => exact .inr rfl
      | num _ => exact .inr rfl
    rcases he with ⟨t, ht, hs⟩ | ht
    · refine ⟨ms, t :: ts, by simp only [collectFileTypes, ht, h1]; rfl, fun s hm hn => ?_⟩
      rcases List.mem_cons.mp hm with rfl | hm
      · rw [hs s rfl] at hn; cases hn
      · exact h2 s hm hn
    · refine ⟨.invalid s%"FileType" e :: ms, ts, by simp only [collectFileTypes, ht, h1]; rfl, fun s hm hn => ?_⟩
      rcases List.mem_cons.mp hm with rfl | hm
      · exact List.mem_cons_self
      · exact List.mem_cons_of_mem _ (h2 s hm hn)

private theorem faulty_orRaiseIn {p : P α} {w : Str} {m : PMsg} {ms : List PMsg} {a : α} (h : p = .ok (ms, a)) (hm : m ∈ ms) :
    Faulty (p.orRaiseIn w) m := by
  subst h
  cases ms with
  | nil => simp at hm
  | cons x ms =>
    refine ⟨_, rfl, fun ms' h => ?_⟩
    cases h
    exact .inside List.mem_cons_self (.here hm)

/-- Every unknown file type is reported, provided that no entry of the list is a list or an object. -/
theorem file_type_reported (L : LicText) (j : Json) (l : List Json) (h : HasField j s%"fileTypes" (.arr l))
    (hl : ∀ e ∈ l, e.hashable = true) (s : Str) (hs : .str s ∈ l) (hn : FileType.ofName? s = none) :
    Reports (parseFile L j) (.invalid s%"FileType" (.str s)) := by
  obtain ⟨ms, ts, h1, h2⟩ := fileTypes_messages l hl
  have hk := h.get .null
  have hf : Faulty (parseFileTypes (.arr l)) (.invalid s%"FileType" (.str s)) := faulty_orRaiseIn h1 (h2 s hs hn)
  unfold parseFile pyGet
  descend
  find_field hk with (logs_field (truthy_of_mem hs) hf)

private theorem ranges_messages (l : List Json) (acc : Dict RangeType (Json × Json))
    (hl : ∀ e ∈ l, (∃ x, parseRange e = .ok x) ∨ ∃ t, parseRange e = .error (.value t)) :
    ∃ ms r, collectRanges l acc = .ok (ms, r) ∧ ∀ e ∈ l, ∀ t, parseRange e = .error (.value t) → .text t ∈ ms := by
  induction l generalizing acc with
  | nil => exact ⟨[], acc, rfl, by simp⟩
  | cons e l ih =>
    rcases hl e (by simp) with ⟨⟨ty, se⟩, he⟩ | ⟨t, he⟩
    · obtain ⟨ms, r, h1, h2⟩ := ih (acc.set ty se) fun x hx => hl x (by simp [hx])
      refine ⟨ms, r, by simp only [collectRanges, he, h1]; rfl, fun x hx t ht => ?_⟩
      rcases List.mem_cons.mp hx with rfl | hx
      · rw [he] at ht; cases ht
      · exact h2 x hx t ht
    · obtain ⟨ms, r, h1, h2⟩ := ih acc fun x hx => hl x (by simp [hx])
      refine ⟨.text t :: ms, r, by simp only [collectRanges, he, h1]; rfl, fun x hx t' ht => ?_⟩
      rcases List.mem_cons.mp hx with rfl | hx
      · rw [he] at ht; cases ht; exact List.mem_cons_self
      · exact List.mem_cons_of_mem _ (h2 x hx t' ht)

/-- Every faulty snippet range is reported, provided that no range fails in another way than by lacking or mixing pointers. -/
theorem range_reported (L : LicText) (j : Json) (l : List Json) (h : HasField j s%"ranges" (.arr l))
    (hl : ∀ e ∈ l, (∃ x, parseRange e = .ok x) ∨ ∃ t, parseRange e = .error (.value t))
    (e : Json) (he : e ∈ l) (t : Str) (ht : parseRange e = .error (.value t)) : Reports (parseSnippet L j) (.text t) := by
  obtain ⟨ms, r, h1, h2⟩ := ranges_messages l [] hl
  have hk := h.get (.arr [])
  have hf : Faulty (parseRanges (.arr l)) (.text t) := faulty_orRaiseIn h1 (h2 e he t ht)
  unfold parseSnippet pyGet
  descend
  find_field hk with (logs_field (truthy_of_mem he) hf)

/-- Without that proviso the claim is false: after a range that is no object, what was found wrong with the other ranges is lost. -/
theorem range_message_lost :
    parseRange (.obj []) = .error (.value s%"Startpointer missing in snippet ranges.") ∧
    ∀ L, parseSnippet L (.obj [(s%"SPDXID", .str s%"SPDXRef-s"), (s%"snippetFromFile", .str s%"SPDXRef-f"),
        (s%"ranges", .arr [.obj [], .num 5])]) =
      .error (.parsing [.wrapped s%"snippet" [.text s%"not iterable"]]) := by
  refine ⟨by decide +kernel, fun L => rfl⟩

/-- Likewise for file types. -/
theorem file_type_message_lost (L : LicText) :
    parseFile L (.obj [(s%"SPDXID", .str s%"SPDXRef-f"), (s%"fileName", .str s%"./f"), (s%"fileTypes", .arr [.str s%"FOO", .arr []])]) =
      .error (.parsing [.wrapped s%"File" [.text s%"unhashable type"]]) := rfl

/-! The whole document -/

private theorem logs_part {x : Py α} {m : PMsg} (h : Reports x m) : Logs (part x) m := by
  match x, h with
  | .error (.parsing ms), h => exact h
  | .error (.type _), h => trivial
  | .error (.value _), h => trivial
  | .error (.other _), h => trivial

private theorem logs_optPart {j : Json} {f : Json → Py α} {m : PMsg} (ht : j.truthy = true) (h : Reports (f j) m) :
    Logs (optPart j f) m := by
  have e : optPart j f = part (f j) := if_pos ht
  rw [e]; exact logs_part h

theorem creation_info_reported (L : LicText) (j : Json) (m : PMsg) (h : Reports (parseCreationInfo j) m) :
    Reports (parseDocument L j) m := by
  unfold parseDocument
  exact reports_left (reports_orRaise (logs_left (logs_part h) fun _ => by quiet))

private theorem truthy_of_ne {l : List Json} (h : l ≠ []) : (Json.arr l).truthy = true := truthy_of_mem (List.head_mem h)

private theorem document_step (L : LicText) {j : Json} {m : PMsg}
    (h : (∃ l, HasField j s%"packages" (.arr l) ∧ l ≠ [] ∧ Reports (parsePackages L (.arr l)) m) ∨
      (∃ l, HasField j s%"files" (.arr l) ∧ l ≠ [] ∧ Reports (parseList (parseFile L) (.arr l)) m) ∨
      (j.truthy = true ∧ Reports (parseAllAnnotations j) m) ∨
      (∃ l, HasField j s%"snippets" (.arr l) ∧ l ≠ [] ∧ Reports (parseList (parseSnippet L) (.arr l)) m) ∨
      (j.truthy = true ∧ Reports (parseAllRelationships j) m) ∨
      (∃ l, HasField j s%"hasExtractedLicensingInfos" (.arr l) ∧ l ≠ [] ∧ Reports (parseList parseExtracted (.arr l)) m)) :
    Reports (parseDocument L j) m := by
  unfold parseDocument pyGet
  refine reports_left (reports_orRaise ?_)
  refine logs_right (quietP_part _) fun _ _ _ => ?_
  refine logs_lift (quiet_get _ _ _) fun a ha => ?_
  rcases h with ⟨l, hl, hne, h⟩ | h
  · rw [hl.get .null] at ha; cases ha
    exact logs_left (logs_optPart (truthy_of_ne hne) h) fun _ => by quiet
  refine logs_right (quietP_optPart _ _) fun _ _ _ => ?_
  refine logs_lift (quiet_get _ _ _) fun a ha => ?_
  rcases h with ⟨l, hl, hne, h⟩ | h
  · rw [hl.get .null] at ha; cases ha
    exact logs_left (logs_optPart (truthy_of_ne hne) h) fun _ => by quiet
  refine logs_right (quietP_optPart _ _) fun _ _ _ => ?_
  rcases h with ⟨ht, h⟩ | h
  · exact logs_left (logs_optPart ht h) fun _ => by quiet
  refine logs_right (quietP_optPart _ _) fun _ _ _ => ?_
  refine logs_lift (quiet_get _ _ _) fun a ha => ?_
  rcases h with ⟨l, hl, hne, h⟩ | h
  · rw [hl.get .null] at ha; cases ha
    exact logs_left (logs_optPart (truthy_of_ne hne) h) fun _ => by quiet
  refine logs_right (quietP_optPart _ _) fun _ _ _ => ?_
  rcases h with ⟨ht, h⟩ | h
  · exact logs_left (logs_optPart ht h) fun _ => by quiet
  refine logs_right (quietP_optPart _ _) fun _ _ _ => ?_
  refine logs_lift (quiet_get _ _ _) fun a ha => ?_
  obtain ⟨l, hl, hne, h⟩ := h
  rw [hl.get .null] at ha; cases ha
  exact logs_left (logs_optPart (truthy_of_ne hne) h) fun _ => by quiet

private theorem ne_nil_of_mem {l : List Json} {e : Json} (h : e ∈ l) : l ≠ [] := by rintro rfl; simp at h

/-- Every faulty file, snippet and extracted license is reported. -/
theorem document_entries (L : LicText) (j : Json) :
    EntriesReported j s%"files" (parseFile L) (parseDocument L j) ∧
    EntriesReported j s%"snippets" (parseSnippet L) (parseDocument L j) ∧
    EntriesReported j s%"hasExtractedLicensingInfos" parseExtracted (parseDocument L j) := by
  refine ⟨?_, ?_, ?_⟩ <;> rintro e m ⟨l, hl, he⟩ hf
  · exact document_step L (.inr (.inl ⟨l, hl, ne_nil_of_mem he, reports_orRaise (logs_collect he hf)⟩))
  · exact document_step L (.inr (.inr (.inr (.inl ⟨l, hl, ne_nil_of_mem he, reports_orRaise (logs_collect he hf)⟩))))
  · exact document_step L (.inr (.inr (.inr (.inr (.inr ⟨l, hl, ne_nil_of_mem he, reports_orRaise (logs_collect he hf)⟩)))))

private theorem logs_collectPackages (L : LicText) {l : List Json} {j : Json} {m : PMsg} (hj : j ∈ l)
    (h : Faulty (parsePackage L j) m ∨ Mentioned m (externalRefMessages j)) : Logs (collectPackages L l) m := by
  induction l with
  | nil => simp at hj
  | cons x l ih =>
    rcases List.mem_cons.mp hj with rfl | hj
    · have q := quietP_collectPackages L l
      unfold collectPackages
      cases hp : parsePackage L j with
      | ok a =>
        have h : Mentioned m (externalRefMessages j) := by
          rcases h with ⟨e, he, _⟩ | h
          · rw [hp] at he; cases he
          · exact h
        match collectPackages L l, q with
        | .ok (ms', b), _ => exact h.left _
        | .error (.parsing ms'), q => exact absurd rfl (q ms')
        | .error (.type _), q => trivial
        | .error (.value _), q => trivial
        | .error (.other _), q => trivial
      | error e =>
        cases hl : e.logged with
        | none => simp only [hl]; exact logs_crash hl
        | some ms =>
          simp only [hl]
          have h : Mentioned m (externalRefMessages j ++ ms) := by
            rcases h with ⟨e', he, hm⟩ | h
            · rw [hp] at he; cases he; exact (hm ms hl).right _
            · exact h.left _
          match collectPackages L l, q with
          | .ok (ms', b), _ => exact h.left _
          | .error (.parsing ms'), q => exact absurd rfl (q ms')
          | .error (.type _), q => trivial
          | .error (.value _), q => trivial
          | .error (.other _), q => trivial
    · have := ih hj
      unfold collectPackages
      cases hx : parsePackage L x with
      | ok a =>
        match collectPackages L l, this with
        | .ok (ms', b), h => exact h.right _
        | .error (.parsing ms'), h => exact h
        | .error (.type _), q => trivial
        | .error (.value _), q => trivial
        | .error (.other _), q => trivial
      | error e =>
        cases hl : e.logged with
        | some ms =>
          simp only [hl]
          match collectPackages L l, this with
          | .ok (ms', b), h => exact Mentioned.right h _
          | .error (.parsing ms'), h => exact h
          | .error (.type _), q => trivial
          | .error (.value _), q => trivial
          | .error (.other _), q => trivial
        | none => simp only [hl]; exact logs_crash hl

/-- Every faulty package is reported. -/
theorem package_entries (L : LicText) (j : Json) : EntriesReported j s%"packages" (parsePackage L) (parseDocument L j) := by
  rintro e m ⟨l, hl, he⟩ hf
  exact document_step L (.inl ⟨l, hl, ne_nil_of_mem he, reports_orRaise (logs_collectPackages L he (.inl hf))⟩)

private theorem package_crash (L : LicText) {p : Json} {l : List Json} {e : PyErr} (h : HasField p s%"externalRefs" (.arr l)) (hne : l ≠ [])
    (hc : collect parseExternalRef l = .error e) (m : PMsg) : Reports (parsePackage L p) m := by
  have hn := tameP_collect parseExternalRef l e hc
  have hk := h.get .null
  have hf : Faulty (parseExternalRefs (.arr l)) m := by
    refine ⟨e, by simp only [parseExternalRefs, pyIter, py_bind_ok, hc], fun ms h => ?_⟩
    rw [hn] at h; cases h
  unfold parsePackage pyGet
  descend
  find_field hk with (logs_field (truthy_of_ne hne) hf)

private theorem tame_package (L : LicText) (j : Json) : Tame (parsePackage L j) := by
  unfold parsePackage pyGet
  tame

/-- Every faulty external reference of every package is reported. -/
theorem external_reference_entries (L : LicText) (j p : Json) (hp : HasEntry j s%"packages" p) :
    EntriesReported p s%"externalRefs" parseExternalRef (parseDocument L j) := by
  rintro e m ⟨l, hl, he⟩ hf
  cases hc : collect parseExternalRef l with
  | error err =>
    exact package_entries L j p m hp (faulty_of_reports (package_crash L hl (ne_nil_of_mem he) hc m) (tame_package L p))
  | ok r =>
    obtain ⟨ms, refs⟩ := r
    obtain ⟨lp, hlp, hep⟩ := hp
    have := logs_collect he hf
    rw [hc] at this
    refine document_step L (.inl ⟨lp, hlp, ne_nil_of_mem hep, reports_orRaise (logs_collectPackages L hep (.inr ?_))⟩)
    have e : externalRefMessages p = ms := by
      simp only [externalRefMessages, pyGet, hl.get .null, truthy_of_mem he, if_true, pyIter, hc]
    rw [e]; exact this

/-- Every faulty relationship is reported. -/
theorem relationship_entries (L : LicText) (j : Json) : EntriesReported j s%"relationships" parseRelationship (parseDocument L j) := by
  rintro e m ⟨l, hl, he⟩ hf
  have ht : j.truthy = true := by
    obtain ⟨fields, rfl, h⟩ := hl
    cases fields with
    | nil => simp [dictGet] at h
    | cons => rfl
  refine document_step L (.inr (.inr (.inr (.inr (.inl ⟨ht, ?_⟩)))))
  have hk := hl.get (.arr [])
  unfold parseAllRelationships
  refine reports_orRaise ?_
  refine logs_lift (quiet_get _ _ _) fun a ha => ?_
  rw [hk] at ha; cases ha
  exact logs_left (logs_field (truthy_of_mem he) (faulty_list he hf)) fun _ => by quiet

private theorem logs_annotationsFrom {l : List Json} {el id a : Json} {m : PMsg} (hel : el ∈ l) (hid : pyGet el s%"SPDXID" = .ok id)
    (ha : HasEntry el s%"annotations" a) (hf : Faulty (parseAnnotation id a) m) : Logs (annotationsFrom l) m := by
  induction l with
  | nil => simp at hel
  | cons x l ih =>
    rcases List.mem_cons.mp hel with rfl | hel
    · obtain ⟨la, hla, hma⟩ := ha
      refine logs_lift (quiet_get _ _ _) fun i hi => ?_
      rw [hid] at hi; cases hi
      refine logs_lift (quiet_get _ _ _) fun b hb => ?_
      rw [hla.get (.arr [])] at hb; cases hb
      exact logs_left (logs_field (truthy_of_mem hma) (faulty_list hma hf)) fun _ => by quiet
    · refine logs_lift (quiet_get _ _ _) fun i hi => ?_
      refine logs_lift (quiet_get _ _ _) fun b hb => ?_
      refine logs_right (quietP_field _ _) fun _ _ _ => ?_
      exact logs_left (ih hel) fun _ => by quiet

/-- Every faulty annotation of the document or of one of its elements is reported. -/
theorem annotation_entries (L : LicText) (j el id : Json)
    (hel : el = j ∨ HasEntry j s%"packages" el ∨ HasEntry j s%"files" el ∨ HasEntry j s%"snippets" el)
    (hid : pyGet el s%"SPDXID" = .ok id) : EntriesReported el s%"annotations" (parseAnnotation id) (parseDocument L j) := by
  intro a m ha hf
  have ht : j.truthy = true := by
    have : ∃ k v, HasField j k v := by
      rcases hel with rfl | ⟨l, h, _⟩ | ⟨l, h, _⟩ | ⟨l, h, _⟩
      · obtain ⟨l, h, _⟩ := ha; exact ⟨_, _, h⟩
      · exact ⟨_, _, h⟩
      · exact ⟨_, _, h⟩
      · exact ⟨_, _, h⟩
    obtain ⟨k, v, fields, rfl, h⟩ := this
    cases fields with
    | nil => simp [dictGet] at h
    | cons => rfl
  refine document_step L (.inr (.inr (.inl ⟨ht, ?_⟩)))
  unfold parseAllAnnotations
  refine reports_orRaiseIn _ ?_
  rcases hel with rfl | hel
  · exact logs_left (logs_annotationsFrom (List.mem_singleton.mpr rfl) hid ha hf) fun _ => by quiet
  refine logs_right (quietP_annotationsFrom _) fun _ _ _ => ?_
  refine logs_lift (by quiet) fun _ _ => ?_
  refine logs_lift (quiet_get _ _ _) fun _ _ => ?_
  refine logs_right (quietP_collect _ _) fun _ _ _ => ?_
  refine logs_lift (by quiet) fun ps hps => ?_
  rcases hel with ⟨l, hl, he⟩ | hel
  · rw [hl.get (.arr [])] at hps
    cases hps
    exact logs_left (logs_annotationsFrom he hid ha hf) fun _ => by quiet
  refine logs_right (quietP_annotationsFrom _) fun _ _ _ => ?_
  refine logs_lift (by quiet) fun ps hps => ?_
  rcases hel with ⟨l, hl, he⟩ | ⟨l, hl, he⟩
  · rw [hl.get (.arr [])] at hps
    cases hps
    exact logs_left (logs_annotationsFrom he hid ha hf) fun _ => by quiet
  refine logs_right (quietP_annotationsFrom _) fun _ _ _ => ?_
  refine logs_lift (by quiet) fun ps hps => ?_
  rw [hl.get (.arr [])] at hps
  cases hps
  exact logs_left (logs_annotationsFrom he hid ha hf) fun _ => by quiet

/-- Every faulty review is reported. -/
theorem review_entries (L : LicText) (j id : Json) (hid : pyGet j s%"SPDXID" = .ok id) :
    EntriesReported j s%"revieweds" (parseReview id) (parseDocument L j) := by
  rintro e m ⟨l, hl, he⟩ hf
  have ht : j.truthy = true := by
    obtain ⟨fields, rfl, h⟩ := hl
    cases fields with
    | nil => simp [dictGet] at h
    | cons => rfl
  refine document_step L (.inr (.inr (.inl ⟨ht, ?_⟩)))
  unfold parseAllAnnotations
  refine reports_orRaiseIn _ ?_
  refine logs_right (quietP_annotationsFrom _) fun _ _ _ => ?_
  refine logs_lift (by quiet) fun rs hrs => ?_
  rw [hl.get (.arr [])] at hrs
  cases hrs
  refine logs_lift (quiet_get _ _ _) fun i hi => ?_
  rw [hid] at hi; cases hi
  exact logs_left (logs_collect he hf) fun _ => by quiet

/-! Non-vacuity: a tree with several faults, all of which are reported. -/

def faultyTree : Json :=
  .obj [(s%"SPDXID", .str s%"SPDXRef-DOCUMENT"),
    (s%"files", .arr [.obj [(s%"fileName", .str s%"a"), (s%"SPDXID", .num 3), (s%"checksums", .arr [])]]),
    (s%"relationships", .arr [.obj [(s%"relationshipType", .str s%"FOO")]]),
    (s%"annotations", .arr [.obj [(s%"annotator", .str s%"x")]])]

theorem faultyTree_error (L : LicText) :
    parseDocument L faultyTree = .error (.parsing
      [.wrapped s%"document" [.text s%"CreationInfo does not exist."],
       .constructing s%"File" [s%"spdx_id", s%"checksums"],
       .wrapped s%"annotations" [.wrapped s%"Annotation" [.text s%"Actor x doesn't match any of person, organization or tool."]],
       .wrapped s%"Relationship" [.invalid s%"RelationshipType" (.str s%"FOO")]]) := by
  rfl

example (L : LicText) : HasEntry faultyTree s%"files" (.obj [(s%"fileName", .str s%"a"), (s%"SPDXID", .num 3), (s%"checksums", .arr [])]) ∧
    Faulty (parseFile L (.obj [(s%"fileName", .str s%"a"), (s%"SPDXID", .num 3), (s%"checksums", .arr [])]))
      (.constructing s%"File" [s%"spdx_id", s%"checksums"]) :=
  ⟨⟨_, ⟨_, rfl, rfl⟩, List.mem_singleton.mpr rfl⟩, _, rfl, fun _ h => by cases h; exact .here (List.mem_singleton.mpr rfl)⟩

/-- An entry that is no object is not reported as a parsing error: another exception leaves the parser. -/
theorem non_object_entry_crashes (L : LicText) :
    parseDocument L (.obj [(s%"packages", .arr [.num 5])]) = .error (.other s%"get") := rfl

end Spdx.C24
