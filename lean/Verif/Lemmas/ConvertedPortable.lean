import Verif.Lemmas.ConvertedSteps
/- What every format can hold stays so: `Portable` goes over from a document to what `Conveys` relates it to. -/
namespace Spdx.Converted
open Spdx Spec ValidSame

variable {X : Ext} {R : RdfEnv} {L : LicText} {b : Bindings} {k : Nat} {d e : Document}

/-! ### License expressions -/

theorem anywhere_same {n : Nat} {x y : LicExpr} (h : LicAnywhere L n x) (hs : SameLic x y) : LicAnywhere L n y := fun m hm => h m (sameLic_trans hs hm)

private theorem opt_mem {α β : Type} {R : α → β → Prop} {x : Option α} {y : Option β} (h : SameOpt R x y) {v : β} (hv : v ∈ y.toList) : ∃ u ∈ x.toList, R u v := by
  cases h with
  | none => cases hv
  | some h => rw [Option.mem_toList] at hv; cases hv; exact ⟨_, by simp, h⟩

private theorem val_of {x : OrSpecial LicExpr} {y : LicExpr} (h : SameLicOr x (.val y)) : ∃ z, x = .val z ∧ SameLic z y := by
  cases h with | val h => exact ⟨_, rfl, h⟩

/-- The license expressions of the one are those of the other, up to order. -/
private def LicsOver (l m : List (OrSpecial LicExpr)) : Prop := ∀ y ∈ m, ∃ x ∈ l, SameLicOr x y

private theorem over_append {a a' b b' : List (OrSpecial LicExpr)} (h1 : LicsOver a a') (h2 : LicsOver b b') : LicsOver (a ++ b) (a' ++ b') := by
  intro y hy
  rcases List.mem_append.1 hy with hy | hy
  · obtain ⟨x, hx, h⟩ := h1 y hy; exact ⟨x, List.mem_append_left _ hx, h⟩
  · obtain ⟨x, hx, h⟩ := h2 y hy; exact ⟨x, List.mem_append_right _ hx, h⟩

private theorem over_all {P : LicExpr → Prop} (hP : ∀ x y, SameLic x y → P x → P y) {l m : List (OrSpecial LicExpr)} (h : LicsOver l m)
    (hl : ∀ x, .val x ∈ l → P x) : ∀ y, .val y ∈ m → P y := by
  intro y hy
  obtain ⟨x, hx, hs⟩ := h _ hy
  obtain ⟨z, rfl, hz⟩ := val_of hs
  exact hP z y hz (hl z hx)

theorem lics_conveyed {P : LicExpr → Prop} (hP : ∀ x y, SameLic x y → P x → P y) (h : Conveys k d e) (hl : AllLics P d) : AllLics P e where
  packages := re_all h.packages hl.packages fun _ _ hs => over_all hP (over_append (over_append (fun _ hy => opt_mem hs.concluded hy)
    (fun _ hy => opt_mem hs.declared hy)) (fun _ hy => re_mem hs.info hy))
  files := re_all h.files hl.files fun _ _ hs => over_all hP (over_append (fun _ hy => opt_mem hs.concluded hy) (fun _ hy => re_mem hs.info hy))
  snippets := re_all h.snippets hl.snippets fun _ _ hs => over_all hP (over_append (fun _ hy => opt_mem hs.concluded hy) (fun _ hy => re_mem hs.info hy))

/-! ### Repeated values -/

private theorem dedupEq_iff {α : Type} [DecidableEq α] (l : List α) : dedupEq l = l ↔ l.Nodup :=
  ⟨fun h => h ▸ nodup_dedupEq l, dedupEq_of_nodup l⟩

/-- No two entries are equal for the library. -/
private def Apart (X : Ext) (l : List (OrSpecial LicExpr)) : Prop := l.Pairwise fun a b => licEntryEq X a b = false

private theorem dedup_iff (l : List (OrSpecial LicExpr)) : dedup (licEntryEq X) l = l ↔ Apart X l :=
  ⟨fun h => by have := dedup_pairwise (licEntryEq X) l; rwa [h] at this, dedup_of_pairwise _ l⟩

private theorem entry_symm (hX : LicEqUnordered X) (x y : OrSpecial LicExpr) : licEntryEq X x y = licEntryEq X y x := by
  cases x <;> cases y <;> first | rfl | exact hX.symm _ _

private theorem entry_same (hX : LicEqUnordered X) {x x' y y' : OrSpecial LicExpr} (hx : SameLicOr x x') (hy : SameLicOr y y') :
    licEntryEq X x' y' = licEntryEq X x y := by
  cases hx <;> cases hy <;> first | rfl | exact hX.same _ _ _ _ ‹_› ‹_›

private theorem apart_over (hX : LicEqUnordered X) {l m : List (OrSpecial LicExpr)} (h : Rearranged2 SameLicOr l m) (hl : Apart X l) : Apart X m :=
  re_pairwise (D := fun a b => licEntryEq X a b = false) (E := fun a b => licEntryEq X a b = false) (fun {x y} h => (entry_symm hX y x).trans h)
    (fun _ _ _ _ h1 h2 h3 => (entry_same hX h1 h2).trans h3) h hl

private theorem apart_nodup (hX : LicEqUnordered X) {l : List (OrSpecial LicExpr)} (h : Apart X l) : l.Nodup := by
  refine List.Pairwise.imp (fun {x y} hxy e => ?_) h
  subst e
  cases x with
  | val a => rw [show licEntryEq X (.val a) (.val a) = true from hX.refl a] at hxy; cases hxy
  | noAssertion => cases hxy
  | none => cases hxy

private structure FileApart (X : Ext) (f : File) : Prop where
  checksums : f.checksums.Nodup
  types : f.fileTypes.Nodup
  info : Apart X f.licenseInfoInFile
  contributors : f.contributors.Nodup
  attribution : f.attributionTexts.Nodup

private structure PackageApart (X : Ext) (p : Package) : Prop where
  checksums : p.checksums.Nodup
  info : Apart X p.licenseInfoFromFiles
  refs : p.externalReferences.Nodup
  attribution : p.attributionTexts.Nodup

private structure SnippetApart (X : Ext) (s : Snippet) : Prop where
  info : Apart X s.licenseInfoInSnippet
  attribution : s.attributionTexts.Nodup

private theorem file_apart (f : File) : File.dedup X f = f ↔ FileApart X f := by
  constructor
  · intro h
    exact ⟨(dedupEq_iff _).1 (congrArg File.checksums h), (dedupEq_iff _).1 (congrArg File.fileTypes h), (dedup_iff _).1 (congrArg File.licenseInfoInFile h),
      (dedupEq_iff _).1 (congrArg File.contributors h), (dedupEq_iff _).1 (congrArg File.attributionTexts h)⟩
  · rintro ⟨h1, h2, h3, h4, h5⟩
    unfold File.dedup
    rw [(dedupEq_iff _).2 h1, (dedupEq_iff _).2 h2, (dedup_iff _).2 h3, (dedupEq_iff _).2 h4, (dedupEq_iff _).2 h5]

private theorem package_apart (p : Package) : Package.dedup X p = p ↔ PackageApart X p := by
  constructor
  · intro h
    exact ⟨(dedupEq_iff _).1 (congrArg Package.checksums h), (dedup_iff _).1 (congrArg Package.licenseInfoFromFiles h),
      (dedupEq_iff _).1 (congrArg Package.externalReferences h), (dedupEq_iff _).1 (congrArg Package.attributionTexts h)⟩
  · rintro ⟨h1, h2, h3, h4⟩
    unfold Package.dedup
    rw [(dedupEq_iff _).2 h1, (dedup_iff _).2 h2, (dedupEq_iff _).2 h3, (dedupEq_iff _).2 h4]

private theorem snippet_apart (s : Snippet) : Snippet.dedup X s = s ↔ SnippetApart X s := by
  constructor
  · intro h
    exact ⟨(dedup_iff _).1 (congrArg Snippet.licenseInfoInSnippet h), (dedupEq_iff _).1 (congrArg Snippet.attributionTexts h)⟩
  · rintro ⟨h1, h2⟩
    unfold Snippet.dedup
    rw [(dedup_iff _).2 h1, (dedupEq_iff _).2 h2]

private theorem map_self {α : Type} {f : α → α} : ∀ {l : List α}, l.map f = l ↔ ∀ x ∈ l, f x = x
  | [] => by simp
  | a :: l => by rw [List.map_cons, List.cons.injEq, map_self (l := l)]; simp

/-- The document has no repeated values. -/
private structure DocApart (X : Ext) (d : Document) : Prop where
  creators : d.creationInfo.creators.Nodup
  refs : d.creationInfo.externalDocumentRefs.Nodup
  files : ∀ f ∈ d.files, FileApart X f
  packages : ∀ p ∈ d.packages, PackageApart X p
  snippets : ∀ s ∈ d.snippets, SnippetApart X s
  licenses : ∀ e ∈ d.extractedLicensingInfo, e.crossReferences.Nodup

private theorem settled_iff (d : Document) : dedupDocument X d = d ↔ DocApart X d := by
  constructor
  · intro h
    have hc := congrArg Document.creationInfo h
    refine ⟨(dedupEq_iff _).1 (congrArg CreationInfo.creators hc), (dedupEq_iff _).1 (congrArg CreationInfo.externalDocumentRefs hc), ?_, ?_, ?_, ?_⟩
    · exact fun f hf => (file_apart f).1 (map_self.1 (congrArg Document.files h) f hf)
    · exact fun f hf => (package_apart f).1 (map_self.1 (congrArg Document.packages h) f hf)
    · exact fun f hf => (snippet_apart f).1 (map_self.1 (congrArg Document.snippets h) f hf)
    · exact fun f hf => (dedupEq_iff _).1 (congrArg ExtractedLicensingInfo.crossReferences (map_self.1 (congrArg Document.extractedLicensingInfo h) f hf))
  · rintro ⟨h1, h2, h3, h4, h5, h6⟩
    unfold dedupDocument
    have e1 : d.creationInfo.dedup = d.creationInfo := by unfold CreationInfo.dedup; rw [(dedupEq_iff _).2 h1, (dedupEq_iff _).2 h2]
    have e2 : d.extractedLicensingInfo.map ExtractedLicensingInfo.dedup = d.extractedLicensingInfo := map_self.2 fun x hx => by
      unfold ExtractedLicensingInfo.dedup; rw [(dedupEq_iff _).2 (h6 x hx)]
    rw [e1, e2, map_self.2 fun x hx => (file_apart x).2 (h3 x hx), map_self.2 fun x hx => (package_apart x).2 (h4 x hx),
      map_self.2 fun x hx => (snippet_apart x).2 (h5 x hx)]

private theorem apart_conveyed (hX : LicEqUnordered X) (h : Conveys k d e) (hd : DocApart X d) : DocApart X e where
  creators := h.info.1.nodup_iff.2 hd.creators
  refs := h.info.2.1.nodup_iff.2 hd.refs
  files := re_all h.files hd.files fun _ _ hs hp => ⟨hs.checksums.nodup_iff.2 hp.checksums, hs.types.nodup_iff.2 hp.types, apart_over hX hs.info hp.info,
    hs.contributors.nodup_iff.2 hp.contributors, hs.attribution.nodup_iff.2 hp.attribution⟩
  packages := re_all h.packages hd.packages fun _ _ hs hp => ⟨hs.checksums.nodup_iff.2 hp.checksums, apart_over hX hs.info hp.info,
    hs.refs.nodup_iff.2 hp.refs, hs.attribution.nodup_iff.2 hp.attribution⟩
  snippets := re_all h.snippets hd.snippets fun _ _ hs hp => ⟨apart_over hX hs.info hp.info, hs.attribution.nodup_iff.2 hp.attribution⟩
  licenses := re_all h.licenses hd.licenses fun _ _ hs hp => hs.1.nodup_iff.2 hp

/-! ### Texts -/

private theorem file_texts {f g : File} (h : Spec.SameFile f g) : ∀ t ∈ fileTexts g, t ∈ fileTexts f := by
  intro t
  simp only [fileTexts, List.mem_append, List.mem_map, h.name, h.id, h.licenseComment, h.copyright, h.comment, h.notice, h.contributors.mem_iff,
    h.attribution.mem_iff, h.checksums.mem_iff]
  exact id

private theorem code_texts {c c' : Option PackageVerificationCode} (h : SameOpt SameCode c c') {t : Str}
    (ht : t ∈ c'.toList.flatMap fun c => c.value :: c.excludedFiles) : t ∈ c.toList.flatMap fun c => c.value :: c.excludedFiles := by
  cases h with
  | none => exact ht
  | some h => simpa [h.value, h.excluded.mem_iff] using ht

private theorem mem_app {α : Type} {a a' b b' : List α} {t : α} (h1 : t ∈ a → t ∈ a') (h2 : t ∈ b → t ∈ b') (h : t ∈ a ++ b) : t ∈ a' ++ b' :=
  List.mem_append.2 ((List.mem_append.1 h).imp h1 h2)

private theorem package_texts {p q : Package} (h : SamePackage p q) : ∀ t ∈ packageTexts q, t ∈ packageTexts p := by
  intro t
  unfold packageTexts
  simp only [h.name, h.id, h.download, h.version, h.fileName, h.supplier, h.originator, h.homepage, h.sourceInfo, h.licenseComment, h.copyright, h.summary,
    h.description, h.comment, h.release, h.built, h.validUntil]
  have hm : t ∈ q.externalReferences.flatMap (fun r => [r.referenceType, r.locator] ++ r.comment.toList) →
      t ∈ p.externalReferences.flatMap (fun r => [r.referenceType, r.locator] ++ r.comment.toList) := (h.refs.flatMap_right _).mem_iff.1
  have hc := code_texts h.code (t := t)
  have hs : t ∈ q.checksums.map (·.value) → t ∈ p.checksums.map (·.value) := (h.checksums.map _).mem_iff.1
  have ha := h.attribution.mem_iff (a := t)
  repeat' refine mem_app ?_ ?_
  all_goals first | exact id | exact hm | exact hc | exact hs | exact ha.1

private theorem snippet_texts {s t : Snippet} (h : SameSnippet s t) : ∀ x ∈ snippetTexts t, x ∈ snippetTexts s := by
  intro x
  simp only [snippetTexts, List.mem_append, h.name, h.id, h.file, h.licenseComment, h.copyright, h.comment, h.attribution.mem_iff]
  exact id

private theorem license_texts {x y : ExtractedLicensingInfo} (h : SameLicense x y) : ∀ t ∈ licenseTexts y, t ∈ licenseTexts x := by
  obtain ⟨hp, he⟩ := h
  generalize y.crossReferences = cs at hp he
  subst he
  intro t
  simp only [licenseTexts, List.mem_append, hp.mem_iff]
  exact id

private theorem info_texts {c c' : CreationInfo} (h : SameInfo c c') : ∀ t ∈ infoTexts c', t ∈ infoTexts c := by
  obtain ⟨hp, hr, he⟩ := h
  generalize c'.creators = cs at hp he
  generalize c'.externalDocumentRefs = rs at hr he
  subst he
  intro t
  have h1 := (hp.map Actor.toSerialized).mem_iff (a := t)
  have h2 := (hr.flatMap_right (fun r => [r.documentRefId, r.documentUri, r.checksum.value])).mem_iff (a := t)
  simp only [infoTexts, List.mem_append, h1, h2]
  exact id

/-- A relationship is one of the document's, or states that a package of the document contains a file of it, as another one does. -/
theorem conveyed_rel {P : Relationship → Prop} (h : Conveys k d e) (hd : ∀ r ∈ d.relationships, P r)
    (hc : ∀ p ∈ d.packages, ∀ f ∈ d.files, ∀ r ∈ d.relationships, Packaged d r p.spdxId f.spdxId → P (contains p.spdxId f.spdxId)) :
    ∀ r ∈ e.relationships, P r := by
  intro r hr
  rcases h.others r hr with hr | ⟨p, f, rfl, r', hr', hk⟩
  · exact hd r hr
  · rw [C27.packagedIds_iff] at hk
    obtain ⟨p', hp', rfl⟩ := List.mem_map.1 hk.1
    obtain ⟨f', hf', rfl⟩ := List.mem_map.1 hk.2.1
    exact hc p' hp' f' hf' r' hr' hk

theorem texts_conveyed {P : Str → Prop} (h : Conveys k d e) (hd : AllTexts P d) : AllTexts P e where
  info := fun t ht => hd.info t (info_texts h.info t ht)
  packages := re_all h.packages hd.packages fun _ _ hs hp t ht => hp t (package_texts hs t ht)
  files := re_all h.files hd.files fun _ _ hs hp t ht => hp t (file_texts hs t ht)
  snippets := re_all h.snippets hd.snippets fun _ _ hs hp t ht => hp t (snippet_texts hs t ht)
  annotations := fun a ha => hd.annotations a (h.annotations.mem_iff.1 ha)
  relationships := conveyed_rel h hd.relationships fun p hp f hf _ _ _ t ht => by
    have ht' : t = p.spdxId ∨ t = f.spdxId := by simpa [relationshipTexts, contains, OrSpecial.text] using ht
    rcases ht' with rfl | rfl
    · exact hd.packages p hp _ (by simp [packageTexts])
    · exact hd.files f hf _ (by simp [fileTexts])
  licenses := re_all h.licenses hd.licenses fun _ _ hs hp t ht => hp t (license_texts hs t ht)

/-! ### JSON, YAML, XML -/

private theorem lic_ok {n : Nat} {x : LicExpr} (h : LicAnywhere L n x) : LicOk L x := (h x (sameLic_refl x)).1

private theorem info_ok {c c' : CreationInfo} (h : SameInfo c c') (hc : CreationInfoOk c) : CreationInfoOk c' where
  creators := fun e => hc.creators (by have := h.1; rw [e] at this; exact this.nil_eq.symm)
  actors := fun a ha => hc.actors a (h.1.mem_iff.1 ha)
  created := by rw [show c'.created = c.created from (congrArg CreationInfo.created h.2.2 :)]; exact hc.created

private theorem perm_ne {α : Type} {l m : List α} (h : m.Perm l) (hl : l ≠ []) : m ≠ [] := by
  rintro rfl; exact hl h.nil_eq.symm

private theorem conveyed_ids (h : Conveys k d e) (i : Str) : i ∈ containedIds e ↔ i ∈ containedIds d := by
  unfold containedIds
  rw [List.mem_append, List.mem_append, List.mem_append, List.mem_append,
    (re_map (f := Package.spdxId) (g := Package.spdxId) (fun _ _ h => h.id) h.packages).mem_iff,
    (re_map (f := File.spdxId) (g := File.spdxId) (fun _ _ h => h.id) h.files).mem_iff,
    (re_map (f := Snippet.spdxId) (g := Snippet.spdxId) (fun _ _ h => h.id) h.snippets).mem_iff]

private theorem conveyed_docId (h : Conveys k d e) : e.creationInfo.spdxId = d.creationInfo.spdxId := (congrArg CreationInfo.spdxId h.info.2.2 :)

private theorem mem_concluded {x : OrSpecial LicExpr} {o : Option (OrSpecial LicExpr)} (h : o = some x) : x ∈ o.toList := by rw [h]; simp

theorem json_conveyed {n : Nat} (h : Conveys k d e) (hl : AllLics (LicAnywhere L n) e) (ht : C48.DocTv L d) (hd : JsonOk L d) : JsonOk L e where
  info := info_ok h.info hd.info
  packages := fun q hq => by
    obtain ⟨p, hp, hs⟩ := re_mem h.packages hq
    have ho := hd.packages p hp
    have hl := hl.packages q hq
    unfold packageLics at hl
    simp only [List.mem_append] at hl
    exact {
      download := by rw [hs.download]; exact ho.download
      homepage := by rw [hs.homepage]; exact ho.homepage
      copyright := by rw [hs.copyright]; exact ho.copyright
      concluded := fun x hx => lic_ok (hl x (.inl (.inl (mem_concluded hx))))
      declared := fun x hx => lic_ok (hl x (.inl (.inr (mem_concluded hx))))
      info := fun x hx => lic_ok (hl x (.inr hx))
      supplier := by rw [hs.supplier]; exact ho.supplier
      originator := by rw [hs.originator]; exact ho.originator
      release := by rw [hs.release]; exact ho.release
      built := by rw [hs.built]; exact ho.built
      validUntil := by rw [hs.validUntil]; exact ho.validUntil }
  files := fun g hg => by
    obtain ⟨f, hf, hs⟩ := re_mem h.files hg
    have ho := hd.files f hf
    have hl := hl.files g hg
    unfold fileLics at hl
    simp only [List.mem_append] at hl
    exact {
      checksums := perm_ne hs.checksums ho.checksums
      concluded := fun x hx => lic_ok (hl x (.inl (mem_concluded hx)))
      info := fun x hx => lic_ok (hl x (.inr hx))
      copyright := by rw [hs.copyright]; exact ho.copyright }
  snippets := fun g hg => by
    obtain ⟨f, hf, hs⟩ := re_mem h.snippets hg
    have ho := hd.snippets f hf
    have hl := hl.snippets g hg
    unfold snippetLics at hl
    simp only [List.mem_append] at hl
    exact {
      concluded := fun x hx => lic_ok (hl x (.inl (mem_concluded hx)))
      info := fun x hx => lic_ok (hl x (.inr hx))
      copyright := by rw [hs.copyright]; exact ho.copyright }
  annotations := fun a ha => hd.annotations a (h.annotations.mem_iff.1 ha)
  relationships := conveyed_rel h hd.relationships fun p _ f hf _ _ _ s es => by
    cases es
    exact ⟨(ht.files f hf).id.2.2.2, (ht.files f hf).id.2.2.1⟩
  extracted := re_all h.licenses hd.extracted fun x y hs ho => by
    unfold ExtractedOk
    rw [show y.licenseName = x.licenseName from (congrArg ExtractedLicensingInfo.licenseName hs.2 :)]
    exact ho
  anchored := fun a ha => by
    rw [conveyed_ids h, conveyed_docId h]
    exact hd.anchored a (h.annotations.mem_iff.1 ha)

/-! ### Tag-value -/

private theorem lic_tv {n : Nat} {x : OrSpecial LicExpr} (h : ∀ y, x = .val y → LicAnywhere L n y) : LicTv L x := fun y hy =>
  ⟨((h y hy) y (sameLic_refl y)).2.1, (lic_ok (h y hy)).1⟩

private theorem lic_rdf {x : OrSpecial LicExpr} (h : ∀ y, x = .val y → LicAnywhere R.lic R.depth y) : LicOrRdf R x := fun y hy =>
  ⟨((h y hy) y (sameLic_refl y)).2.2.1, ((h y hy) y (sameLic_refl y)).2.2.2.1⟩

private theorem info_tv {c c' : CreationInfo} (h : SameInfo c c') (hc : InfoTv c) : InfoTv c' where
  version := by rw [show c'.spdxVersion = c.spdxVersion from (congrArg CreationInfo.spdxVersion h.2.2 :)]; exact hc.version
  dataLicense := by rw [show c'.dataLicense = c.dataLicense from (congrArg CreationInfo.dataLicense h.2.2 :)]; exact hc.dataLicense
  id := by rw [show c'.spdxId = c.spdxId from (congrArg CreationInfo.spdxId h.2.2 :)]; exact hc.id
  name := by rw [show c'.name = c.name from (congrArg CreationInfo.name h.2.2 :)]; exact hc.name
  ns := by rw [show c'.documentNamespace = c.documentNamespace from (congrArg CreationInfo.documentNamespace h.2.2 :)]; exact hc.ns
  comment := by rw [show c'.documentComment = c.documentComment from (congrArg CreationInfo.documentComment h.2.2 :)]; exact hc.comment
  creatorComment := by rw [show c'.creatorComment = c.creatorComment from (congrArg CreationInfo.creatorComment h.2.2 :)]; exact hc.creatorComment
  refs := fun r hr => hc.refs r (h.2.1.mem_iff.1 hr)
  creators := perm_ne h.1 hc.creators
  actors := fun a ha => hc.actors a (h.1.mem_iff.1 ha)
  created := by rw [show c'.created = c.created from (congrArg CreationInfo.created h.2.2 :)]; exact hc.created

private theorem code_tv {c c' : PackageVerificationCode} (h : SameCode c c') (hc : CodeTv c) : CodeTv c' where
  length := by rw [h.value]; exact hc.length
  hex := by rw [h.value]; exact hc.hex
  files := by
    have he : c'.excludedFiles = c.excludedFiles := by
      rcases hc.files with e | ⟨f, e, _⟩
      · have := h.excluded; rw [e] at this ⊢; exact List.perm_nil.1 this
      · have := h.excluded; rw [e] at this ⊢; exact List.perm_singleton.1 this
    rw [he]
    exact hc.files

private theorem opt_all {α β : Type} {S : α → β → Prop} {P : α → Prop} {Q : β → Prop} (hpq : ∀ a b, S a b → P a → Q b) {x : Option α} {y : Option β}
    (h : SameOpt S x y) (hx : ∀ a, x = some a → P a) : ∀ b, y = some b → Q b := by
  intro b hb
  cases h with
  | none => cases hb
  | some h => cases hb; exact hpq _ _ h (hx _ rfl)

private theorem sameId_nodup {α : Type} {S : α → α → Prop} {i : α → Str} (hi : ∀ a b, S a b → i b = i a) {l m : List α} (h : Rearranged2 S l m)
    (hn : (l.map i).Nodup) : (m.map i).Nodup := (re_map hi h).nodup_iff.2 hn

theorem tagvalue_conveyed {n : Nat} (h : Conveys k d e) (hl : AllLics (LicAnywhere L n) e) (hd : C48.DocTv L d) : C48.DocTv L e where
  ids := ⟨sameId_nodup (fun _ _ h => h.id) h.packages hd.ids.packages, sameId_nodup (fun _ _ h => h.id) h.files hd.ids.files,
    sameId_nodup (fun _ _ h => h.id) h.snippets hd.ids.snippets⟩
  info := info_tv h.info hd.info
  packages := fun q hq => by
    obtain ⟨p, hp, hs⟩ := re_mem h.packages hq
    have ho := hd.packages p hp
    have hl := hl.packages q hq
    unfold packageLics at hl
    simp only [List.mem_append] at hl
    exact {
      name := by rw [hs.name]; exact ho.name
      id := by rw [hs.id]; exact ho.id
      download := by rw [hs.download]; exact ho.download
      version := by rw [hs.version]; exact ho.version
      fileName := by rw [hs.fileName]; exact ho.fileName
      supplier := by rw [hs.supplier]; exact ho.supplier
      originator := by rw [hs.originator]; exact ho.originator
      code := opt_all (P := CodeTv) (Q := CodeTv) (fun _ _ h hc => code_tv h hc) hs.code ho.code
      checksum := fun c hc => ho.checksum c (hs.checksums.mem_iff.1 hc)
      homepage := by rw [hs.homepage]; exact ho.homepage
      sourceInfo := by rw [hs.sourceInfo]; exact ho.sourceInfo
      concluded := fun x hx => lic_tv fun y hy => hl y (.inl (.inl (mem_concluded (hy ▸ hx))))
      info := fun x hx => lic_tv fun y hy => hl y (.inr (hy ▸ hx))
      declared := fun x hx => lic_tv fun y hy => hl y (.inl (.inr (mem_concluded (hy ▸ hx))))
      licenseComment := by rw [hs.licenseComment]; exact ho.licenseComment
      copyright := by rw [hs.copyright]; exact ho.copyright
      summary := by rw [hs.summary]; exact ho.summary
      description := by rw [hs.description]; exact ho.description
      comment := by rw [hs.comment]; exact ho.comment
      refs := fun r hr => ho.refs r (hs.refs.mem_iff.1 hr)
      attribution := fun t ht => ho.attribution t (hs.attribution.mem_iff.1 ht)
      release := by rw [hs.release]; exact ho.release
      built := by rw [hs.built]; exact ho.built
      validUntil := by rw [hs.validUntil]; exact ho.validUntil }
  files := fun g hg => by
    obtain ⟨f, hf, hs⟩ := re_mem h.files hg
    have ho := hd.files f hf
    have hl := hl.files g hg
    unfold fileLics at hl
    simp only [List.mem_append] at hl
    exact {
      name := by rw [hs.name]; exact ho.name
      id := by rw [hs.id]; exact ho.id
      checksums := perm_ne hs.checksums ho.checksums
      checksum := fun c hc => ho.checksum c (hs.checksums.mem_iff.1 hc)
      concluded := fun x hx => lic_tv fun y hy => hl y (.inl (mem_concluded (hy ▸ hx)))
      info := fun x hx => lic_tv fun y hy => hl y (.inr (hy ▸ hx))
      licenseComment := by rw [hs.licenseComment]; exact ho.licenseComment
      copyright := by rw [hs.copyright]; exact ho.copyright
      comment := by rw [hs.comment]; exact ho.comment
      notice := by rw [hs.notice]; exact ho.notice
      contributors := fun t ht => ho.contributors t (hs.contributors.mem_iff.1 ht)
      attribution := fun t ht => ho.attribution t (hs.attribution.mem_iff.1 ht) }
  snippets := fun g hg => by
    obtain ⟨f, hf, hs⟩ := re_mem h.snippets hg
    have ho := hd.snippets f hf
    have hl := hl.snippets g hg
    unfold snippetLics at hl
    simp only [List.mem_append] at hl
    exact {
      id := by rw [hs.id]; exact ho.id
      fileId := by rw [hs.file]; exact ho.fileId
      byteRange := by rw [hs.bytes]; exact ho.byteRange
      lineRange := by rw [hs.lines]; exact ho.lineRange
      concluded := fun x hx => lic_tv fun y hy => hl y (.inl (mem_concluded (hy ▸ hx)))
      info := fun x hx => lic_tv fun y hy => hl y (.inr (hy ▸ hx))
      licenseComment := by rw [hs.licenseComment]; exact ho.licenseComment
      copyright := by rw [hs.copyright]; exact ho.copyright
      comment := by rw [hs.comment]; exact ho.comment
      name := by rw [hs.name]; exact ho.name
      attribution := fun t ht => ho.attribution t (hs.attribution.mem_iff.1 ht) }
  annotations := fun a ha => hd.annotations a (h.annotations.mem_iff.1 ha)
  relationships := conveyed_rel h hd.relationships fun p hp f hf r hr hk => by
    have ht := hd.relationships r hr
    refine relTv_contains (hd.packages p hp).id (hd.files f hf).id ?_ ?_
    · rcases hk with ⟨_, _, ⟨_, e, _⟩ | ⟨_, _, e⟩⟩
      · rw [← e]; exact ht.id
      · exact (ht.related _ e).1
    · rcases hk with ⟨_, _, ⟨_, _, e⟩ | ⟨_, e, _⟩⟩
      · exact (ht.related _ e).1
      · rw [← e]; exact ht.id
  extracted := re_all h.licenses hd.extracted fun x y hs ho => by
    obtain ⟨hp, he⟩ := hs
    generalize y.crossReferences = cs at hp he
    subst he
    exact { id := ho.id, text := ho.text, name := ho.name, cross := fun t ht => ho.cross t (hp.mem_iff.1 ht), comment := ho.comment }

/-! ### RDF -/

private theorem names_conveyed (h : Conveys k d e) : (rdfNames e).Perm (rdfNames d) := by
  unfold rdfNames
  rw [conveyed_docId h]
  refine List.Perm.cons _ ?_
  refine List.Perm.append (List.Perm.append (List.Perm.append (List.Perm.append (h.info.2.1.map _) ?_) ?_) ?_) ?_
  · exact re_map (fun _ _ h => h.id) h.files
  · exact re_map (fun _ _ h => h.id) h.packages
  · exact re_map (fun _ _ h => h.id) h.snippets
  · have : (e.extractedLicensingInfo.map (·.licenseId)).Perm (d.extractedLicensingInfo.map (·.licenseId)) :=
      re_map (f := ExtractedLicensingInfo.licenseId) (g := ExtractedLicensingInfo.licenseId) (fun _ _ (h : SameLicense _ _) => (congrArg ExtractedLicensingInfo.licenseId h.2 :)) h.licenses
    have h2 := this.filterMap id
    rwa [List.filterMap_map, List.filterMap_map] at h2

private theorem usable_perm {refs refs' : List ExternalDocumentRef} (h : refs'.Perm refs) {i : Str} (hu : C38.Usable refs i) : C38.Usable refs' i := by
  rcases hu with hu | ⟨r, hr, hu⟩
  · exact .inl hu
  · exact .inr ⟨r, h.mem_iff.2 hr, hu⟩

private theorem info_rdf {c c' : CreationInfo} (h : SameInfo c c') (hc : InfoRdf c) : InfoRdf c' where
  id := by rw [show c'.spdxId = c.spdxId from (congrArg CreationInfo.spdxId h.2.2 :)]; exact hc.id
  version := by rw [show c'.spdxVersion = c.spdxVersion from (congrArg CreationInfo.spdxVersion h.2.2 :)]; exact hc.version
  name := by rw [show c'.name = c.name from (congrArg CreationInfo.name h.2.2 :)]; exact hc.name
  comment := by rw [show c'.documentComment = c.documentComment from (congrArg CreationInfo.documentComment h.2.2 :)]; exact hc.comment
  created := by rw [show c'.created = c.created from (congrArg CreationInfo.created h.2.2 :)]; exact hc.created
  creators := ⟨perm_ne h.1 hc.creators.1, h.1.nodup_iff.2 hc.creators.2.1, fun a ha => hc.creators.2.2 a (h.1.mem_iff.1 ha)⟩
  creatorComment := by rw [show c'.creatorComment = c.creatorComment from (congrArg CreationInfo.creatorComment h.2.2 :)]; exact hc.creatorComment
  refs := by
    rw [show c'.documentNamespace = c.documentNamespace from (congrArg CreationInfo.documentNamespace h.2.2 :)]
    have hs := hc.refs
    exact ⟨(h.2.1.map _).nodup_iff.2 hs.ids, (h.2.1.map _).nodup_iff.2 hs.uris, fun r hr => hs.own r (h.2.1.mem_iff.1 hr),
      ⟨hs.noHash.1, fun r hr => hs.noHash.2 r (h.2.1.mem_iff.1 hr)⟩, fun r hr => hs.names r (h.2.1.mem_iff.1 hr)⟩
  ref := fun r hr => hc.ref r (h.2.1.mem_iff.1 hr)

private theorem usable_local {refs : List ExternalDocumentRef} {i : Str} (h : LocalId i) : C38.Usable refs i := .inl h

theorem rdf_conveyed (hX : LicEqUnordered X) (h : Conveys k d e) (hl : AllLics (LicAnywhere R.lic R.depth) e) (ha : dedupDocument X e = e)
    (hd : DocRdf R d) : DocRdf R e := by
  have ha := (settled_iff e).1 ha
  exact {
    ns := by
      rw [conveyed_docId h, show e.creationInfo.documentNamespace = d.creationInfo.documentNamespace from (congrArg CreationInfo.documentNamespace h.info.2.2 :)]
      exact hd.ns
    info := info_rdf h.info hd.info
    names := (names_conveyed h).nodup_iff.2 hd.names
    packages := fun q hq => by
      obtain ⟨p, hp, hs⟩ := re_mem h.packages hq
      have ho := hd.packages p hp
      have hl := hl.packages q hq
      unfold packageLics at hl
      simp only [List.mem_append] at hl
      exact {
        name := by rw [hs.name]; exact ho.name
        id := by rw [hs.id]; exact ho.id
        download := by rw [hs.download]; exact ho.download
        version := by rw [hs.version]; exact ho.version
        fileName := by rw [hs.fileName]; exact ho.fileName
        supplier := by rw [hs.supplier]; exact ho.supplier
        originator := by rw [hs.originator]; exact ho.originator
        code := opt_all (fun a b hs (ho : CodeRdf a) => (⟨by rw [hs.value]; exact ho.value, hs.excluded.nodup_iff.2 ho.excluded⟩ : CodeRdf b)) hs.code ho.code
        checksums := fun c hc => ho.checksums c (hs.checksums.mem_iff.1 hc)
        homepage := by rw [hs.homepage]; exact ho.homepage
        sourceInfo := by rw [hs.sourceInfo]; exact ho.sourceInfo
        concluded := fun x hx => lic_rdf fun y hy => hl y (.inl (.inl (mem_concluded (hy ▸ hx))))
        info := ⟨apart_nodup hX (ha.packages q hq).info, fun x hx => lic_rdf fun y hy => hl y (.inr (hy ▸ hx))⟩
        declared := fun x hx => lic_rdf fun y hy => hl y (.inl (.inr (mem_concluded (hy ▸ hx))))
        licenseComment := by rw [hs.licenseComment]; exact ho.licenseComment
        copyright := by rw [hs.copyright]; exact ho.copyright
        summary := by rw [hs.summary]; exact ho.summary
        description := by rw [hs.description]; exact ho.description
        comment := by rw [hs.comment]; exact ho.comment
        refs := fun r hr => ho.refs r (hs.refs.mem_iff.1 hr)
        attribution := (ha.packages q hq).attribution
        release := by rw [hs.release]; exact ho.release
        built := by rw [hs.built]; exact ho.built
        validUntil := by rw [hs.validUntil]; exact ho.validUntil }
    files := fun g hg => by
      obtain ⟨f, hf, hs⟩ := re_mem h.files hg
      have ho := hd.files f hf
      have hl := hl.files g hg
      unfold fileLics at hl
      simp only [List.mem_append] at hl
      exact {
        name := by rw [hs.name]; exact ho.name
        id := by rw [hs.id]; exact ho.id
        checksums := fun c hc => ho.checksums c (hs.checksums.mem_iff.1 hc)
        types := (ha.files g hg).types
        concluded := fun x hx => lic_rdf fun y hy => hl y (.inl (mem_concluded (hy ▸ hx)))
        info := ⟨apart_nodup hX (ha.files g hg).info, fun x hx => lic_rdf fun y hy => hl y (.inr (hy ▸ hx))⟩
        licenseComment := by rw [hs.licenseComment]; exact ho.licenseComment
        copyright := by rw [hs.copyright]; exact ho.copyright
        comment := by rw [hs.comment]; exact ho.comment
        notice := by rw [hs.notice]; exact ho.notice
        contributors := (ha.files g hg).contributors
        attribution := (ha.files g hg).attribution }
    snippets := fun g hg => by
      obtain ⟨f, hf, hs⟩ := re_mem h.snippets hg
      have ho := hd.snippets f hf
      have hl := hl.snippets g hg
      unfold snippetLics at hl
      simp only [List.mem_append] at hl
      exact {
        id := by rw [hs.id]; exact ho.id
        file := by rw [hs.file]; exact usable_perm h.info.2.1 ho.file
        bytes := by rw [hs.bytes]; exact ho.bytes
        lines := by rw [hs.lines]; exact ho.lines
        concluded := fun x hx => lic_rdf fun y hy => hl y (.inl (mem_concluded (hy ▸ hx)))
        info := ⟨apart_nodup hX (ha.snippets g hg).info, fun x hx => lic_rdf fun y hy => hl y (.inr (hy ▸ hx))⟩
        licenseComment := by rw [hs.licenseComment]; exact ho.licenseComment
        copyright := by rw [hs.copyright]; exact ho.copyright
        comment := by rw [hs.comment]; exact ho.comment
        name := by rw [hs.name]; exact ho.name
        attribution := (ha.snippets g hg).attribution }
    annotations := fun a hm => by
      have ho := hd.annotations a (h.annotations.mem_iff.1 hm)
      exact { id := usable_perm h.info.2.1 ho.id, annotator := ho.annotator, date := ho.date, comment := ho.comment }
    relationships := conveyed_rel (P := RelationshipRdf e.creationInfo.externalDocumentRefs) h
      (fun r hr => by
        have ho := hd.relationships r hr
        exact { id := usable_perm h.info.2.1 ho.id, related := fun t ht => usable_perm h.info.2.1 (ho.related t ht), comment := ho.comment })
      fun p hp f hf _ _ _ => {
        id := .inl (hd.packages p hp).id
        related := fun t ht => by cases ht; exact .inl (hd.files f hf).id
        comment := fun t ht => by cases ht }
    licenses := re_all h.licenses hd.licenses fun x y hs ho => by
      obtain ⟨hp, he⟩ := hs
      generalize y.crossReferences = cs at hp he
      subst he
      exact { id := ho.id, text := ho.text, name := ho.name, cross := hp.nodup_iff.2 ho.cross, comment := ho.comment } }

/-- What every format can hold stays so. -/
theorem portable_conveyed (hX : LicEqUnordered X) (h : Conveys k d e) (hd : Portable X R b d) : Portable X R b e := by
  have hl := lics_conveyed (fun _ _ hs hx => anywhere_same hx hs) h hd.lics
  have hs := (settled_iff e).2 (apart_conveyed hX h ((settled_iff d).1 hd.settled))
  exact {
    json := json_conveyed h hl hd.tagValue hd.json
    tagValue := tagvalue_conveyed h hl hd.tagValue
    rdf := rdf_conveyed hX h hl hs hd.rdf
    fresh := fun r hr => hd.fresh r (h.info.2.1.mem_iff.1 hr)
    texts := texts_conveyed h hd.texts
    lics := hl
    settled := hs }

end Spdx.Converted
