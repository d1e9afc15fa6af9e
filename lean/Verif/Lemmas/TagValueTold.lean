import Verif.Lemmas.TagValueTake
/- The invariant of the reader: what the state is after some attributes. -/
namespace Spdx.Told
open Spdx Spec

/-! ## Lists -/

/-- Add a key at the end, unless it is there. -/
def addKey (l : List Str) (k : Str) : List Str := if k ∈ l then l else l ++ [k]

def firsts (l : List Str) : List Str := l.foldl addKey []

theorem firsts_append (l m : List Str) : firsts (l ++ m) = m.foldl addKey (firsts l) := List.foldl_append

theorem mem_addKey (l : List Str) (k x : Str) : x ∈ addKey l k ↔ x ∈ l ∨ x = k := by
  unfold addKey
  split
  · rename_i h
    exact ⟨.inl, fun h' => h'.elim id (fun e => e ▸ h)⟩
  · simp

theorem mem_foldl_addKey (m l : List Str) (x : Str) : x ∈ m.foldl addKey l ↔ x ∈ l ∨ x ∈ m := by
  induction m generalizing l with
  | nil => simp
  | cons k m ih => rw [List.foldl_cons, ih, mem_addKey, List.mem_cons, or_assoc]

theorem mem_firsts (l : List Str) (x : Str) : x ∈ firsts l ↔ x ∈ l := by
  unfold firsts; rw [mem_foldl_addKey]; simp

theorem head_foldl (p : Str → Bool) (m l : List Str) : ((m.foldl addKey l).filter p).head? = (l.filter p ++ m.filter p).head? := by
  induction m generalizing l with
  | nil => simp
  | cons k m ih =>
    rw [List.foldl_cons, ih]
    unfold addKey
    by_cases hk : k ∈ l
    · rw [if_pos hk]
      by_cases hp : p k = true
      · have hne : l.filter p ≠ [] := fun h => by
          have := List.mem_filter.2 ⟨hk, hp⟩
          rw [h] at this; cases this
        cases h : l.filter p with
        | nil => exact absurd h hne
        | cons x xs => rfl
      · rw [List.filter_cons_of_neg hp]
    · rw [if_neg hk, List.filter_append]
      by_cases hp : p k = true
      · rw [List.filter_cons_of_pos hp, List.filter_cons_of_pos hp]; simp
      · rw [List.filter_cons_of_neg hp, List.filter_cons_of_neg hp]; simp

theorem head_firsts (p : Str → Bool) (l : List Str) : ((firsts l).filter p).head? = (l.filter p).head? := by
  unfold firsts; rw [head_foldl]; simp

theorem keys_set (d : Dict Str TvVal) (k : Str) (x : TvVal) : (d.set k x).keys = addKey d.keys k := by
  induction d with
  | nil => rfl
  | cons p d ih =>
    obtain ⟨k', x'⟩ := p
    unfold addKey at ih ⊢
    by_cases h : k' = k
    · subst h
      simp [Dict.set, Dict.keys]
    · have h' : ¬ k = k' := fun e => h e.symm
      simp only [Dict.set, if_neg h, Dict.keys, List.map_cons, List.mem_cons, h', false_or] at ih ⊢
      rw [ih]
      split <;> rename_i hm <;> simp [hm]

theorem keys_append (d : Dict Str TvVal) (k : Str) (x : TvItem) (h : ∀ y, d.get? k ≠ some (.one y)) : (tvAppend d k x).keys = addKey d.keys k := by
  unfold tvAppend
  split
  · exact keys_set _ _ _
  · rename_i e; exact absurd e (h _)
  · exact keys_set _ _ _

/-! ## The parts of the specification, one attribute after the other -/

theorem partsFrom_append (as bs pre : List TvAttr) (P : Sections) : partsFrom pre P (as ++ bs) = partsFrom (pre ++ as) (partsFrom pre P as) bs := by
  induction as generalizing pre P with
  | nil => simp [partsFrom]
  | cons a as ih => rw [List.cons_append, partsFrom, partsFrom, ih, List.append_assoc]; rfl

theorem parts_snoc (as : List TvAttr) (a : TvAttr) : parts (as ++ [a]) = (parts as).add as a := by
  unfold parts
  rw [partsFrom_append]
  rfl

theorem complaintsFrom_append (L : LicText) (e a b : List Place) : complaintsFrom L e (a ++ b) = complaintsFrom L e a ++ complaintsFrom L (e ++ a) b := by
  induction a generalizing e with
  | nil => simp [complaintsFrom]
  | cons x a ih => rw [List.cons_append, complaintsFrom, complaintsFrom, ih, List.append_assoc, List.append_assoc]; rfl

theorem complaints_snoc (L : LicText) (b : List Place) (p : Place) : elementComplaints L (b ++ [p]) = elementComplaints L b ++ p.complaints L b := by
  unfold elementComplaints
  rw [complaintsFrom_append]
  simp [complaintsFrom]

theorem infoFrom_append (pre a b : List TvAttr) : infoComplaintsFrom pre (a ++ b) = infoComplaintsFrom pre a ++ infoComplaintsFrom (pre ++ a) b := by
  induction a generalizing pre with
  | nil => simp [infoComplaintsFrom]
  | cons x a ih => rw [List.cons_append, infoComplaintsFrom, infoComplaintsFrom, ih, List.append_assoc, List.append_assoc]; rfl

theorem info_snoc (pre : List TvAttr) (a : TvAttr) : infoComplaintsFrom [] (pre ++ [a]) = infoComplaintsFrom [] pre ++ infoComplaints pre a := by
  rw [infoFrom_append]; simp [infoComplaintsFrom]

theorem filled_snoc (b : List Place) (p : Place) : filled (b ++ [p]) = filled b ++ p.gives := by
  unfold filled; simp

theorem lastId_snoc (b : List Place) (p : Place) : lastId (b ++ [p]) = match p.newId with | some v => some v | none => lastId b := by
  unfold lastId
  rw [List.filterMap_append]
  cases h : p.newId with
  | none => simp [h]
  | some v => simp [h]

theorem current_snoc (pre : List TvAttr) (a : TvAttr) : current (pre ++ [a]) = (opens a).or (current pre) := by
  induction pre with
  | nil => simp [current]
  | cons x pre ih => rw [List.cons_append, current, ih, current, Option.or_assoc]

/-! ## The kinds of the fields -/

inductive Kind where
  | str | special | textOrNoAssertion | license | actor | actorOrNoAssertion | date | purpose | annotationType | relationshipType | bool | range
  | code | fileType | checksum | extRef | version | docRef
deriving DecidableEq

def Kind.ok : Kind → TvItem → Bool
  | .str, x => x.str?.isSome
  | .special, x => x.special?.isSome
  | .textOrNoAssertion, x => x.strNoAssertion?.isSome
  | .license, x => x = .null || x.lic?.isSome
  | .actor, x => x.actor?.isSome
  | .actorOrNoAssertion, x => x.actorNoAssertion?.isSome
  | .date, x => x.date?.isSome
  | .purpose, x => x.purpose?.isSome
  | .annotationType, x => x.annotationType?.isSome
  | .relationshipType, x => x.relationshipType?.isSome
  | .bool, x => x.bool?.isSome
  | .range, x => x.range?.isSome
  | .code, x => x.code?.isSome
  | .fileType, x => x.fileType?.isSome
  | .checksum, x => x.checksum?.isSome
  | .extRef, x => x.extRef?.isSome
  | .version, x => x.version?.isSome
  | .docRef, x => x.docRef?.isSome

/-- The lists of licenses. -/
def licenseLists : List Str := [s%"license_info_in_file", s%"license_info_from_files", s%"license_info_in_snippet"]

/-- The kinds of the other fields, and whether they are lists. -/
def kinds : List (Str × Kind × Bool) :=
  [(s%"name", .str, false), (s%"notice", .str, false), (s%"comment", .str, false), (s%"license_comment", .str, false),
   (s%"copyright_text", .special, false), (s%"license_concluded", .license, false), (s%"file_types", .fileType, true),
   (s%"checksums", .checksum, true), (s%"contributors", .str, true), (s%"attribution_texts", .str, true), (s%"description", .str, false),
   (s%"summary", .str, false), (s%"source_info", .str, false), (s%"file_name", .str, false), (s%"version", .str, false),
   (s%"homepage", .special, false), (s%"download_location", .special, false), (s%"license_declared", .license, false),
   (s%"supplier", .actorOrNoAssertion, false), (s%"originator", .actorOrNoAssertion, false), (s%"verification_code", .code, false),
   (s%"files_analyzed", .bool, false), (s%"primary_package_purpose", .purpose, false), (s%"release_date", .date, false),
   (s%"built_date", .date, false), (s%"valid_until_date", .date, false), (s%"external_references", .extRef, true), (s%"spdx_id", .str, false),
   (s%"file_spdx_id", .str, false), (s%"byte_range", .range, false), (s%"line_range", .range, false), (s%"annotator", .actor, false),
   (s%"annotation_date", .date, false), (s%"annotation_type", .annotationType, false), (s%"annotation_comment", .str, false),
   (s%"spdx_element_id", .str, false), (s%"relationship_type", .relationshipType, false), (s%"related_spdx_element_id", .special, false),
   (s%"license_id", .str, false), (s%"extracted_text", .str, false), (s%"license_name", .textOrNoAssertion, false),
   (s%"cross_references", .str, true)]

/-- The value of a field is what it should be. -/
def Fits (L : LicText) (b : List Place) (f : Str) (x : TvVal) : Prop :=
  match kinds.lookup f with
  | some (k, false) => ∃ y, x = .one y ∧ k.ok y = true
  | some (k, true) => ∃ l, x = .many l ∧ l.all k.ok = true
  | none => f ∈ licenseLists ∧ ∃ l, x = .many l ∧ l.all (fun y => y.lic?.isSome) = !b.any (·.blankIn L f)

private theorem slot_tab : ∀ p ∈ slots, (p.1 ∈ licenseTags ∧ p.2.2.2 = true → p.2.2.1 ∈ licenseLists ∧ kinds.lookup p.2.2.1 = none) ∧
    (¬ (p.1 ∈ licenseTags ∧ p.2.2.2 = true) → (kinds.lookup p.2.2.1).any (fun k => k.2 = p.2.2.2) = true) := by decide +kernel

private theorem tab1 : ∀ p ∈ slots, (p.1 ∈ genericTextTags ∨ p.1 ∈ genericInfoTags ∨ p.1 ∈ textListTags.map (·.1) ∨ p.1 = s%"PackageAttributionText") →
    kinds.lookup p.2.2.1 = some (.str, p.2.2.2) := by decide +kernel
private theorem tab2 : ∀ p ∈ slots, p.1 ∈ genericSpecialTags → p.1 ≠ s%"LicenseName" → kinds.lookup p.2.2.1 = some (.special, false) := by decide +kernel
private theorem tab3 : ∀ p ∈ slots, p.1 ∈ licenseTags → p.2.2.2 = false → kinds.lookup p.2.2.1 = some (.license, false) := by decide +kernel
private theorem tab4 : ∀ p ∈ slots, p.1 ∈ dateTags → kinds.lookup p.2.2.1 = some (.date, p.2.2.2) := by decide +kernel

private theorem lookup_of_mem : ∀ p ∈ slots, slots.lookup p.1 = some p.2 := by decide +kernel

private theorem special_ok (v : Tok) : Kind.special.ok (lineOrSpecialValue v) = true := by cases v <;> rfl

private theorem lic_ok (L : LicText) (v : Tok) : Kind.license.ok (licenseValue L v).1 = true := by
  unfold licenseValue
  split
  · rfl
  · rfl
  · split <;> rfl

private theorem map_some {α : Type} {o : Option α} {g : α → TvItem} {x : TvItem} {k : Kind} (h : o.map g = some x) (hk : ∀ a, k.ok (g a) = true) :
    k.ok x = true := by
  cases o with
  | none => cases h
  | some a => cases h; exact hk a

/-- The item kept for a value is of the kind of its field. -/
theorem item_kind {L : LicText} {tag : Str} {v : Tok} {c : TvClass} {f : Str} {many : Bool} {x : TvItem}
    (hs : C68.Sound C68.Good (.value tag v)) (hm : slots.lookup tag = some (c, f, many)) (hx : itemOf L tag v = some x)
    (hl : ¬ (tag ∈ licenseTags ∧ many = true)) : ∃ k, kinds.lookup f = some (k, many) ∧ k.ok x = true := by
  have hm := C68.lookup_mem hm
  unfold itemOf at hx
  by_cases h0 : tag ∈ genericTextTags ∨ tag ∈ genericInfoTags ∨ tag ∈ textListTags.map (·.1) ∨ tag = s%"PackageAttributionText"
  · have h := h0
    replace hx := (if_pos h0).symm.trans hx
    cases hx
    exact ⟨_, tab1 _ hm h, rfl⟩
  replace hx := (if_neg h0).symm.trans hx
  by_cases h1 : tag ∈ genericSpecialTags
  · have h := h1
    replace hx := (if_pos h1).symm.trans hx
    cases hx
    by_cases hn : tag = s%"LicenseName"
    · subst hn
      obtain ⟨y, hy, ha, _⟩ := hs
      have e : tvSyntax.lookup s%"LicenseName" = some .lineOrNoAssertion := by decide +kernel
      rw [e] at hy; cases hy
      have e2 : slots.lookup s%"LicenseName" = some (.extracted, s%"license_name", false) := by decide +kernel
      have e3 := lookup_of_mem _ hm
      rw [e2] at e3; cases e3
      refine ⟨.textOrNoAssertion, by decide +kernel, ?_⟩
      cases v <;> first | rfl | cases ha
    · have e1 : ∀ p ∈ slots, p.1 ∈ genericSpecialTags → p.2.2.2 = false := by decide +kernel
      have e2 := e1 _ hm h
      dsimp only at e2
      subst e2
      exact ⟨_, tab2 _ hm h hn, special_ok v⟩
  replace hx := (if_neg h1).symm.trans hx
  by_cases h2 : tag ∈ licenseTags
  · have h := h2
    replace hx := (if_pos h2).symm.trans hx
    cases hx
    have e2 : many = false := by
      cases many with
      | false => rfl
      | true => exact absurd ⟨h, rfl⟩ hl
    subst e2
    exact ⟨_, tab3 _ hm h rfl, lic_ok L v⟩
  replace hx := (if_neg h2).symm.trans hx
  by_cases h3 : tag = s%"PackageSupplier" ∨ tag = s%"PackageOriginator"
  · have h := h3
    replace hx := (if_pos h3).symm.trans hx
    have e1 : ∀ p ∈ slots, (p.1 = s%"PackageSupplier" ∨ p.1 = s%"PackageOriginator") → kinds.lookup p.2.2.1 = some (.actorOrNoAssertion, p.2.2.2) := by
      decide +kernel
    refine ⟨_, e1 _ hm h, ?_⟩
    split at hx
    · cases hx; rfl
    · exact map_some hx fun _ => rfl
  replace hx := (if_neg h3).symm.trans hx
  by_cases h4 : tag = s%"Creator" ∨ tag = s%"Annotator"
  · have h := h4
    replace hx := (if_pos h4).symm.trans hx
    have e1 : ∀ p ∈ slots, (p.1 = s%"Creator" ∨ p.1 = s%"Annotator") → kinds.lookup p.2.2.1 = some (.actor, p.2.2.2) := by
      decide +kernel
    exact ⟨_, e1 _ hm h, map_some hx fun _ => rfl⟩
  replace hx := (if_neg h4).symm.trans hx
  by_cases h5 : tag ∈ dateTags
  · have h := h5
    replace hx := (if_pos h5).symm.trans hx
    exact ⟨_, tab4 _ hm h, map_some hx fun _ => rfl⟩
  replace hx := (if_neg h5).symm.trans hx
  by_cases h6 : tag = s%"LicenseListVersion"
  · have h := h6
    replace hx := (if_pos h6).symm.trans hx
    have e1 : ∀ p ∈ slots, p.1 ≠ s%"LicenseListVersion" := by decide +kernel
    exact absurd h (e1 _ hm)
  replace hx := (if_neg h6).symm.trans hx
  by_cases h7 : tag = s%"ExternalDocumentRef"
  · have h := h7
    replace hx := (if_pos h7).symm.trans hx
    have e1 : ∀ p ∈ slots, p.1 ≠ s%"ExternalDocumentRef" := by decide +kernel
    exact absurd h (e1 _ hm)
  replace hx := (if_neg h7).symm.trans hx
  by_cases h8 : tag = s%"FileType"
  · have h := h8
    replace hx := (if_pos h8).symm.trans hx
    have e1 : ∀ p ∈ slots, p.1 = s%"FileType" → kinds.lookup p.2.2.1 = some (.fileType, p.2.2.2) := by decide +kernel
    exact ⟨_, e1 _ hm h, map_some hx fun _ => rfl⟩
  replace hx := (if_neg h8).symm.trans hx
  by_cases h9 : tag = s%"FileChecksum" ∨ tag = s%"PackageChecksum"
  · have h := h9
    replace hx := (if_pos h9).symm.trans hx
    have e1 : ∀ p ∈ slots, (p.1 = s%"FileChecksum" ∨ p.1 = s%"PackageChecksum") → kinds.lookup p.2.2.1 = some (.checksum, p.2.2.2) := by decide +kernel
    exact ⟨_, e1 _ hm h, map_some hx fun _ => rfl⟩
  replace hx := (if_neg h9).symm.trans hx
  by_cases h10 : tag = s%"PackageVerificationCode"
  · have h := h10
    replace hx := (if_pos h10).symm.trans hx
    have e1 : ∀ p ∈ slots, p.1 = s%"PackageVerificationCode" → kinds.lookup p.2.2.1 = some (.code, p.2.2.2) := by decide +kernel
    exact ⟨_, e1 _ hm h, map_some hx fun _ => rfl⟩
  replace hx := (if_neg h10).symm.trans hx
  by_cases h11 : tag = s%"FilesAnalyzed"
  · have h := h11
    replace hx := (if_pos h11).symm.trans hx
    have e1 : ∀ p ∈ slots, p.1 = s%"FilesAnalyzed" → kinds.lookup p.2.2.1 = some (.bool, p.2.2.2) := by decide +kernel
    exact ⟨_, e1 _ hm h, map_some hx fun _ => rfl⟩
  replace hx := (if_neg h11).symm.trans hx
  by_cases h12 : tag = s%"PrimaryPackagePurpose"
  · have h := h12
    replace hx := (if_pos h12).symm.trans hx
    have e1 : ∀ p ∈ slots, p.1 = s%"PrimaryPackagePurpose" → kinds.lookup p.2.2.1 = some (.purpose, p.2.2.2) := by decide +kernel
    exact ⟨_, e1 _ hm h, map_some hx fun _ => rfl⟩
  replace hx := (if_neg h12).symm.trans hx
  by_cases h13 : tag = s%"SnippetByteRange" ∨ tag = s%"SnippetLineRange"
  · have h := h13
    replace hx := (if_pos h13).symm.trans hx
    have e1 : ∀ p ∈ slots, (p.1 = s%"SnippetByteRange" ∨ p.1 = s%"SnippetLineRange") → kinds.lookup p.2.2.1 = some (.range, p.2.2.2) := by decide +kernel
    exact ⟨_, e1 _ hm h, map_some hx fun _ => rfl⟩
  replace hx := (if_neg h13).symm.trans hx
  by_cases h14 : tag = s%"AnnotationType"
  · have h := h14
    replace hx := (if_pos h14).symm.trans hx
    have e1 : ∀ p ∈ slots, p.1 = s%"AnnotationType" → kinds.lookup p.2.2.1 = some (.annotationType, p.2.2.2) := by decide +kernel
    exact ⟨_, e1 _ hm h, map_some hx fun _ => rfl⟩
  cases (if_neg h14).symm.trans hx

private theorem complain_none {b : Bool} {m : PMsg} (h : complain b m = none) : b = true := by
  cases b with
  | true => rfl
  | false => cases h

private theorem some_of {α : Type} {o : Option α} {g : α → TvItem} (h : o.isSome = true) : ∃ x, o.map g = some x := by
  cases o with
  | none => cases h
  | some a => exact ⟨_, rfl⟩

/-- Where nothing is wrong there is an item. -/
theorem item_some {L : LicText} {tag : Str} {v : Tok} (hs : C68.Sound C68.Good (.value tag v)) (ha : ActorFine tag v) (hf : faultOf tag v = none) :
    ∃ x, itemOf L tag v = some x := by
  unfold itemOf
  by_cases h0 : tag ∈ genericTextTags ∨ tag ∈ genericInfoTags ∨ tag ∈ textListTags.map (·.1) ∨ tag = s%"PackageAttributionText"
  · rw [if_pos h0]
    exact ⟨_, rfl⟩
  rw [if_neg h0]
  by_cases h1 : tag ∈ genericSpecialTags
  · rw [if_pos h1]
    exact ⟨_, rfl⟩
  rw [if_neg h1]
  by_cases h2 : tag ∈ licenseTags
  · rw [if_pos h2]
    exact ⟨_, rfl⟩
  rw [if_neg h2]
  by_cases h3 : tag = s%"PackageSupplier" ∨ tag = s%"PackageOriginator"
  · rw [if_pos h3]
    split
    · exact ⟨_, rfl⟩
    · rename_i hv
      exact (ha (.inr ⟨h3, hv⟩)).elim fun a e => ⟨.actor a, by unfold asActor; rw [e]; rfl⟩
  rw [if_neg h3]
  by_cases h4 : tag = s%"Creator" ∨ tag = s%"Annotator"
  · rw [if_pos h4]
    rcases h4 with h | h
    · exact (ha (.inl h)).elim fun a e => ⟨.actor a, by unfold asActor; rw [e]; rfl⟩
    · subst h
      have e : faultOf s%"Annotator" v = match parseActor v.value with | .ok _ => none | .error e => some (actorMsg e) := rfl
      rw [e] at hf
      unfold asActor
      cases hp : parseActor v.value with
      | ok a => exact ⟨_, rfl⟩
      | error e => rw [hp] at hf; cases hf
  rw [if_neg h4]
  by_cases h5 : tag ∈ dateTags
  · rw [if_pos h5]
    exact some_of (complain_none ((if_pos h5).symm.trans hf))
  rw [if_neg h5]
  by_cases h6 : tag = s%"LicenseListVersion"
  · rw [if_pos h6]
    subst h6; exact some_of (complain_none (m := .invalid s%"LicenseListVersion" (.str v.value)) hf)
  rw [if_neg h6]
  by_cases h7 : tag = s%"ExternalDocumentRef"
  · rw [if_pos h7]
    subst h7
    have e : faultOf s%"ExternalDocumentRef" v = match parseDocRef v.value with | .ok _ => none | .error m => some m := rfl
    rw [e] at hf
    unfold asDocRef
    cases hp : parseDocRef v.value with
    | ok a => exact ⟨_, rfl⟩
    | error e => rw [hp] at hf; cases hf
  rw [if_neg h7]
  by_cases h8 : tag = s%"FileType"
  · rw [if_pos h8]
    subst h8; exact some_of (complain_none (m := .invalid s%"FileType" (.str v.value)) hf)
  rw [if_neg h8]
  by_cases h9 : tag = s%"FileChecksum" ∨ tag = s%"PackageChecksum"
  · rw [if_pos h9]
    exact some_of (C68.checksum_value hs (by simpa using h9))
  rw [if_neg h9]
  by_cases h10 : tag = s%"PackageVerificationCode"
  · rw [if_pos h10]
    subst h10; exact some_of (complain_none (m := .invalid s%"PackageVerificationCode" (.str v.value)) hf)
  rw [if_neg h10]
  by_cases h11 : tag = s%"FilesAnalyzed"
  · rw [if_pos h11]
    subst h11; exact some_of (complain_none (m := .invalid s%"FilesAnalyzed" (.str v.value)) hf)
  rw [if_neg h11]
  by_cases h12 : tag = s%"PrimaryPackagePurpose"
  · rw [if_pos h12]
    subst h12; exact some_of (complain_none (m := .invalid s%"PrimaryPackagePurpose" (.str v.value)) hf)
  rw [if_neg h12]
  by_cases h13 : tag = s%"SnippetByteRange" ∨ tag = s%"SnippetLineRange"
  · rw [if_pos h13]
    rcases h13 with h | h
    · subst h; exact some_of (complain_none (m := .invalid s%"SnippetByteRange" (.str v.value)) hf)
    · subst h; exact some_of (complain_none (m := .invalid s%"SnippetLineRange" (.str v.value)) hf)
  rw [if_neg h13]
  by_cases h14 : tag = s%"AnnotationType"
  · rw [if_pos h14]
    subst h14; exact some_of (complain_none (m := .invalid s%"AnnotationType" (.str v.value)) hf)
  rw [if_neg h14]
  exfalso
  have tab : ∀ p ∈ tvSyntax, p.1 ∈ genericTextTags ++ genericInfoTags ++ textListTags.map (·.1) ++ genericSpecialTags ++ licenseTags ++ dateTags ++
      [s%"PackageAttributionText", s%"PackageSupplier", s%"PackageOriginator", s%"Creator", s%"Annotator", s%"LicenseListVersion", s%"ExternalDocumentRef",
       s%"FileType", s%"FileChecksum", s%"PackageChecksum", s%"PackageVerificationCode", s%"FilesAnalyzed", s%"PrimaryPackagePurpose", s%"SnippetByteRange",
       s%"SnippetLineRange", s%"AnnotationType"] := by decide +kernel
  have := tab _ (C68.lookup_mem hs.choose_spec.1)
  generalize genericTextTags = g1 at *
  generalize genericInfoTags = g2 at *
  generalize textListTags = g3 at *
  generalize genericSpecialTags = g4 at *
  generalize licenseTags = g5 at *
  generalize dateTags = g6 at *
  simp only [List.mem_append, List.mem_cons, List.not_mem_nil, or_false, not_or] at *
  simp_all only [or_self]

end Spdx.Told
