import Verif.Spec.RdfOrder
import Verif.Spec.RdfOk
import Verif.Lemmas.Converted
/-
Lemmas for C83: the order of the triples in a graph.
-/
namespace Spdx.RdfOrder
open Spec Spec.RdfSays

variable {α β γ : Type}

theorem perm_map {R : α → β → Prop} {R' : α → γ → Prop} {S : β → γ → Prop} (h : ∀ v x, R v x → ∃ y, R' v y ∧ S x y) {vs : List α} {xs : List β}
    (hx : RdfSays.All2 R vs xs) : ∃ ys, RdfSays.All2 R' vs ys ∧ Spec.All2 S xs ys := by
  induction hx with
  | nil => exact ⟨[], .nil, .nil⟩
  | cons h1 _ ih =>
    obtain ⟨y, hy, hs⟩ := h _ _ h1
    obtain ⟨ys, hys, hss⟩ := ih
    exact ⟨y :: ys, .cons hy hys, .cons hs hss⟩

theorem perm_all {R : α → β → Prop} {vs vs' : List α} (hp : vs.Perm vs') : ∀ {xs : List β}, RdfSays.All2 R vs xs →
    ∃ ys, RdfSays.All2 R vs' ys ∧ ys.Perm xs := by
  induction hp with
  | nil => intro xs h; exact ⟨xs, h, .refl _⟩
  | cons v _ ih =>
    intro xs h
    cases h with
    | cons h1 h2 =>
      obtain ⟨ys, a, b⟩ := ih h2
      exact ⟨_ :: ys, .cons h1 a, b.cons _⟩
  | swap v w l =>
    intro xs h
    cases h with
    | cons h1 h2 =>
      cases h2 with
      | cons h3 h4 => exact ⟨_ :: _ :: _, .cons h3 (.cons h1 h4), .swap _ _ _⟩
  | trans _ _ ih1 ih2 =>
    intro xs h
    obtain ⟨ys, a, b⟩ := ih1 h
    obtain ⟨zs, c, d⟩ := ih2 a
    exact ⟨zs, c, d.trans b⟩

theorem perm_related {R R' : α → β → Prop} {S : β → β → Prop} (h : ∀ v x, R v x → ∃ y, R' v y ∧ S x y) {vs vs' : List α} (hp : vs.Perm vs')
    {xs : List β} (hx : RdfSays.All2 R vs xs) : ∃ ys, RdfSays.All2 R' vs' ys ∧ Rearranged2 S xs ys := by
  obtain ⟨ys, a, b⟩ := perm_map h hx
  obtain ⟨zs, c, d⟩ := perm_all hp a
  exact ⟨zs, c, ys, b, d⟩

theorem perm_same {R R' : α → β → Prop} (h : ∀ v x, R v x → R' v x) {vs vs' : List α} (hp : vs.Perm vs')
    {xs : List β} (hx : RdfSays.All2 R vs xs) : ∃ ys, RdfSays.All2 R' vs' ys ∧ ys.Perm xs := by
  obtain ⟨ys, a, b⟩ := perm_all hp hx
  refine ⟨ys, ?_, b⟩
  clear b hx hp
  induction a with
  | nil => exact .nil
  | cons h1 _ ih => exact .cons (h _ _ h1) ih

theorem all_mono {R R' : α → β → Prop} (h : ∀ v x, R v x → R' v x) {vs : List α} {xs : List β} (hx : RdfSays.All2 R vs xs) : RdfSays.All2 R' vs xs := by
  induction hx with
  | nil => exact .nil
  | cons h1 _ ih => exact .cons (h _ _ h1) ih

theorem opt_same {vs vs' : List RdfNode} (hp : vs.Perm vs') {R R' : RdfNode → α → Prop} (h : ∀ v x, R v x → R' v x) {x : Option α}
    (hx : Optional vs R x) : Optional vs' R' x := by
  rcases hx with ⟨rfl, rfl⟩ | ⟨v, rfl, hv⟩
  · exact .inl ⟨hp.nil_eq.symm, rfl⟩
  · refine .inr ⟨v, hp.singleton_eq.symm, hv.imp_right fun ⟨hb, y, hy, e⟩ => ⟨hb, y, h _ _ hy, e⟩⟩

theorem opt_related {vs vs' : List RdfNode} (hp : vs.Perm vs') {R R' : RdfNode → α → Prop} {S : α → α → Prop} (h : ∀ v x, R v x → ∃ y, R' v y ∧ S x y)
    {x : Option α} (hx : Optional vs R x) : ∃ y, Optional vs' R' y ∧ SameOpt S x y := by
  rcases hx with ⟨rfl, rfl⟩ | ⟨v, rfl, ⟨hv, rfl⟩ | ⟨hb, z, hz, rfl⟩⟩
  · exact ⟨_, .inl ⟨hp.nil_eq.symm, rfl⟩, .none⟩
  · exact ⟨_, .inr ⟨v, hp.singleton_eq.symm, .inl ⟨hv, rfl⟩⟩, .none⟩
  · obtain ⟨y, h1, h2⟩ := h _ _ hz
    exact ⟨_, .inr ⟨v, hp.singleton_eq.symm, .inr ⟨hb, y, h1, rfl⟩⟩, .some h2⟩

theorem special_mono {R R' : RdfNode → Option α → Prop} (h : ∀ v x, R v x → R' v x) {v : RdfNode} {x : Option (OrSpecial α)}
    (hx : Special R v x) : Special R' v x := by
  cases hx with
  | blank h1 => exact .blank h1
  | noAssertion h1 => exact .noAssertion h1
  | none h1 => exact .none h1
  | value o h1 h2 h3 h4 => exact .value o h1 h2 h3 (h _ _ h4)

theorem optSpecial_same {vs vs' : List RdfNode} (hp : vs.Perm vs') {R R' : RdfNode → Option α → Prop} (h : ∀ v x, R v x → R' v x)
    {x : Option (OrSpecial α)} (hx : OptionalSpecial vs R x) : OptionalSpecial vs' R' x := by
  rcases hx with ⟨rfl, rfl⟩ | ⟨v, rfl, hv⟩
  · exact .inl ⟨hp.nil_eq.symm, rfl⟩
  · exact .inr ⟨v, hp.singleton_eq.symm, special_mono h hv⟩

/-! ### Graphs -/

variable {g g' : RdfGraph}

theorem vals (h : Shuffled g g') (n : RdfNode) (p : Pred) : (values g n p).Perm (values g' n p) := h.triples.filterMap _
theorem nods (h : Shuffled g g') (c : Str) : (nodes g c).Perm (nodes g' c) := h.triples.filterMap _
theorem rels (h : Shuffled g g') (p : Pred) : (related g p).Perm (related g' p) := h.triples.filterMap _

theorem symm (h : Shuffled g g') : Shuffled g' g := ⟨h.triples.symm, fun p hp n => (h.values p hp n).symm, h.info.symm⟩

theorem exception (h : Shuffled g g') {v : RdfNode} {s : Str} (hx : IsException g v s) : IsException g' v s := by
  unfold IsException at hx ⊢
  rwa [← h.values .licenseExceptionId (by decide)]

theorem class_same (h : Shuffled g g') {v : RdfNode} {c : Str} : HasClass g v c ↔ HasClass g' v c := by
  unfold HasClass
  rw [h.values .type (by decide)]

theorem license {env : RdfEnv} {ns : Str} (h : Shuffled g g') : ∀ (k : Nat) (v : RdfNode) (o : Option LicExpr), License env g ns k v o → License env g' ns k v o
  | 0, _, _, hx => hx
  | k + 1, v, o, hx => by
    have ih := license (env := env) (ns := ns) h k
    rw [License] at hx ⊢
    cases hx with
    | listed s h1 h2 => exact .listed s h1 h2
    | extracted u h1 h2 h3 h4 => exact .extracted u h1 h2 h3 h4
    | set cls sep ms h1 h2 h3 h4 h5 h6 =>
      refine .set cls sep ms h1 h2 h3 ((class_same h).1 h4) ?_ h6
      rw [← h.values .member (by decide)]
      exact all_mono ih h5
    | withException m x l s h1 h2 h3 h4 h5 h6 h7 h8 =>
      refine .withException m x l s h1 h2 ((class_same h).1 h3) ?_ (ih _ _ h5) ?_ (exception h h7) h8
      · rwa [← h.values .member (by decide)]
      · rwa [← h.values .licenseException (by decide)]
    | other h1 h2 h3 h4 => exact .other h1 h2 (fun c hc hh => h3 c hc ((class_same h).2 hh)) h4

theorem isLicense {env : RdfEnv} {ns : Str} (h : Shuffled g g') (v : RdfNode) (x : OrSpecial LicExpr) (hx : IsLicense env g ns v x) : IsLicense env g' ns v x :=
  special_mono (license h _) hx

theorem checksum (h : Shuffled g g') (n : RdfNode) (c : Checksum) (hx : IsChecksum g n c) : IsChecksum g' n c :=
  ⟨opt_same (vals h _ _) (fun _ _ h => h) hx.algorithm, opt_same (vals h _ _) (fun _ _ h => h) hx.value⟩

theorem externalRef (h : Shuffled g g') {b : Bindings} {ns : Str} {n : RdfNode} {r : ExternalDocumentRef} (hx : IsExternalRef g b ns n r) :
    IsExternalRef g' b ns n r :=
  ⟨hx.id, opt_same (vals h _ _) (fun _ _ h => h) hx.uri, opt_same (vals h _ _) (checksum h) hx.checksum⟩

theorem externalRefs (h : Shuffled g g') {b b' : Bindings} {ns : Str} {l : List RdfNode} {rs : List ExternalDocumentRef}
    (hx : ExternalRefs g ns b l rs b') : ExternalRefs g' ns b l rs b' := by
  induction hx with
  | nil b => exact .nil b
  | cons b b' n l r rs h1 _ ih => exact .cons b b' n l r rs (externalRef h h1) ih

theorem document (h : Shuffled g g') {env : RdfEnv} {n : RdfNode} {ns id : Str} (hx : IsDocument env g n ns id) : IsDocument env g' n ns id := by
  refine ⟨?_, hx.fragment, hx.namespaceIs, hx.idIs⟩
  have := nods h s%"SpdxDocument"
  rw [hx.only] at this
  exact this.singleton_eq.symm

theorem info (h : Shuffled g g') {env : RdfEnv} {b b' : Bindings} {c : CreationInfo} {doc i : RdfNode} (hx : IsInfo env g b c b' doc i) :
    ∃ cs : List Actor, IsInfo env g' b { c with creators := cs } b' doc i ∧ cs.Perm c.creators := by
  obtain ⟨cs, h1, h2⟩ := perm_same (fun _ _ h => h) (vals h i .creator) hx.creators.1
  refine ⟨cs, ?_, h2⟩
  exact {
    document := document h hx.document
    info := by rw [← h.info]; exact hx.info
    spdxVersion := opt_same (vals h _ _) (fun _ _ h => h) hx.spdxVersion
    dataLicense := opt_same (vals h _ _) (fun _ _ h => h) hx.dataLicense
    documentComment := opt_same (vals h _ _) (fun _ _ h => h) hx.documentComment
    name := opt_same (vals h _ _) (fun _ _ h => h) hx.name
    created := opt_same (vals h _ _) (fun _ _ h => h) hx.created
    licenseListVersion := opt_same (vals h _ _) (fun _ _ h => h) hx.licenseListVersion
    creatorComment := opt_same (vals h _ _) (fun _ _ h => h) hx.creatorComment
    creators := ⟨h1, fun e => hx.creators.2 (by have e : cs = [] := e; rw [e] at h2; exact h2.nil_eq.symm)⟩
    externalDocumentRefs := by
      rw [← h.values .externalDocumentRef (by decide)]
      exact externalRefs h hx.externalDocumentRefs }

theorem annotation (h : Shuffled g g') {b : Bindings} {ns : Str} (e : RdfNode × RdfNode) (a : Annotation) (hx : IsAnnotation g b ns e a) :
    IsAnnotation g' b ns e a where
  spdxId := hx.spdxId
  annotationType := opt_same (vals h _ _) (fun _ _ h => h) hx.annotationType
  annotator := opt_same (vals h _ _) (fun _ _ h => h) hx.annotator
  annotationDate := opt_same (vals h _ _) (fun _ _ h => h) hx.annotationDate
  annotationComment := opt_same (vals h _ _) (fun _ _ h => h) hx.annotationComment

theorem same_lic (x : OrSpecial LicExpr) : SameLicOr x x := by
  cases x with
  | val e => exact .val (_root_.Spdx.Converted.sameLic_refl e)
  | noAssertion => exact .noAssertion
  | none => exact .none

theorem same_opt (x : Option (OrSpecial LicExpr)) : SameOpt SameLicOr x x := by
  cases x with
  | none => exact .none
  | some x => exact .some (same_lic x)

theorem licenses {env : RdfEnv} {ns : Str} (h : Shuffled g g') {n : RdfNode} {p : Pred} {xs : List (OrSpecial LicExpr)}
    (hx : RdfSays.All2 (IsLicense env g ns) (values g n p) xs) :
    ∃ ys, RdfSays.All2 (IsLicense env g' ns) (values g' n p) ys ∧ Rearranged2 SameLicOr xs ys :=
  perm_related (fun v x hv => ⟨x, isLicense h v x hv, same_lic x⟩) (vals h n p) hx

theorem file (h : Shuffled g g') {env : RdfEnv} {b : Bindings} {ns : Str} (n : RdfNode) (f : File) (hx : IsFile env g b ns n f) :
    ∃ f', IsFile env g' b ns n f' ∧ Spec.SameFile f f' := by
  obtain ⟨x1, a1, b1⟩ := perm_same (checksum h) (vals h n .checksum) hx.checksums
  obtain ⟨x2, a2, b2⟩ := perm_same (fun _ _ h => h) (vals h n .fileType) hx.fileTypes
  obtain ⟨x3, a3, b3⟩ := licenses h hx.licenseInfoInFile
  obtain ⟨x4, a4, b4⟩ := perm_same (fun _ _ h => h) (vals h n .fileContributor) hx.contributors
  obtain ⟨x5, a5, b5⟩ := perm_same (fun _ _ h => h) (vals h n .attributionText) hx.attributionTexts
  refine ⟨{ f with checksums := x1, fileTypes := x2, licenseInfoInFile := x3, contributors := x4, attributionTexts := x5 }, ?_, ?_⟩
  · exact {
      name := opt_same (vals h _ _) (fun _ _ h => h) hx.name
      spdxId := hx.spdxId
      checksums := a1
      fileTypes := a2
      licenseConcluded := optSpecial_same (vals h _ _) (license h _) hx.licenseConcluded
      licenseInfoInFile := a3
      licenseComment := opt_same (vals h _ _) (fun _ _ h => h) hx.licenseComment
      copyrightText := optSpecial_same (vals h _ _) (fun _ _ h => h) hx.copyrightText
      comment := opt_same (vals h _ _) (fun _ _ h => h) hx.comment
      notice := opt_same (vals h _ _) (fun _ _ h => h) hx.notice
      contributors := a4
      attributionTexts := a5 }
  · exact ⟨rfl, rfl, b1, b2, same_opt _, b3, rfl, rfl, rfl, rfl, b4, b5⟩

theorem code (h : Shuffled g g') (n : RdfNode) (c : PackageVerificationCode) (hx : IsCode g n c) : ∃ c', IsCode g' n c' ∧ SameCode c c' := by
  obtain ⟨x, a, b⟩ := perm_same (fun _ _ h => h) (vals h n .packageVerificationCodeExcludedFile) hx.excludedFiles
  exact ⟨{ c with excludedFiles := x }, ⟨opt_same (vals h _ _) (fun _ _ h => h) hx.value, a⟩, rfl, b⟩

theorem packageRef (h : Shuffled g g') {ns : Str} (n : RdfNode) (r : ExternalPackageRef) (hx : IsPackageRef g ns n r) : IsPackageRef g' ns n r where
  category := opt_same (vals h _ _) (fun _ _ h => h) hx.category
  referenceType := opt_same (vals h _ _) (fun _ _ h => h) hx.referenceType
  locator := opt_same (vals h _ _) (fun _ _ h => h) hx.locator
  comment := opt_same (vals h _ _) (fun _ _ h => h) hx.comment

theorem package (h : Shuffled g g') {env : RdfEnv} {b : Bindings} {ns : Str} (n : RdfNode) (p : Package) (hx : IsPackage env g b ns n p) :
    ∃ q, IsPackage env g' b ns n q ∧ SamePackage p q := by
  obtain ⟨x1, a1, b1⟩ := perm_same (checksum h) (vals h n .checksum) hx.checksums
  obtain ⟨x2, a2, b2⟩ := opt_related (vals h n .packageVerificationCode) (code h) hx.verificationCode
  obtain ⟨x3, a3, b3⟩ := licenses h hx.licenseInfoFromFiles
  obtain ⟨x4, a4, b4⟩ := perm_same (packageRef h) (vals h n .externalRef) hx.externalReferences
  obtain ⟨x5, a5, b5⟩ := perm_same (fun _ _ h => h) (vals h n .attributionText) hx.attributionTexts
  refine ⟨{ p with checksums := x1, verificationCode := x2, licenseInfoFromFiles := x3, externalReferences := x4, attributionTexts := x5 }, ?_, ?_⟩
  · exact {
      spdxId := hx.spdxId
      name := opt_same (vals h _ _) (fun _ _ h => h) hx.name
      downloadLocation := optSpecial_same (vals h _ _) (fun _ _ h => h) hx.downloadLocation
      version := opt_same (vals h _ _) (fun _ _ h => h) hx.version
      fileName := opt_same (vals h _ _) (fun _ _ h => h) hx.fileName
      supplier := optSpecial_same (vals h _ _) (fun _ _ h => h) hx.supplier
      originator := optSpecial_same (vals h _ _) (fun _ _ h => h) hx.originator
      filesAnalyzed := by rw [← h.values .filesAnalyzed (by decide)]; exact hx.filesAnalyzed
      verificationCode := a2
      checksums := a1
      homepage := by
        obtain ⟨t, h1, h2⟩ := hx.homepage
        exact ⟨t, opt_same (vals h _ _) (fun _ _ h => h) h1, h2⟩
      sourceInfo := opt_same (vals h _ _) (fun _ _ h => h) hx.sourceInfo
      licenseConcluded := optSpecial_same (vals h _ _) (license h _) hx.licenseConcluded
      licenseInfoFromFiles := a3
      licenseDeclared := optSpecial_same (vals h _ _) (license h _) hx.licenseDeclared
      licenseComment := opt_same (vals h _ _) (fun _ _ h => h) hx.licenseComment
      copyrightText := optSpecial_same (vals h _ _) (fun _ _ h => h) hx.copyrightText
      summary := opt_same (vals h _ _) (fun _ _ h => h) hx.summary
      description := opt_same (vals h _ _) (fun _ _ h => h) hx.description
      comment := opt_same (vals h _ _) (fun _ _ h => h) hx.comment
      externalReferences := a4
      attributionTexts := a5
      primaryPackagePurpose := opt_same (vals h _ _) (fun _ _ h => h) hx.primaryPackagePurpose
      releaseDate := opt_same (vals h _ _) (fun _ _ h => h) hx.releaseDate
      builtDate := opt_same (vals h _ _) (fun _ _ h => h) hx.builtDate
      validUntilDate := opt_same (vals h _ _) (fun _ _ h => h) hx.validUntilDate }
  · exact ⟨rfl, rfl, rfl, rfl, rfl, rfl, rfl, rfl, b2, b1, rfl, rfl, same_opt _, b3, same_opt _, rfl, rfl, rfl, rfl, rfl, b4, b5, rfl, rfl, rfl, rfl⟩

theorem single {l m : List α} {a : α} (h : l.Perm m) (e : l = [a]) : m = [a] := by
  subst e
  exact h.singleton_eq.symm

theorem pointer (h : Shuffled g g') {n : RdfNode} {p : Pred} {c : Str} {num : Pred} {i : Int} (hx : Pointer g n p c num i) : Pointer g' n p c num i := by
  obtain ⟨q, h1, h2, h3, v, h4, h5⟩ := hx
  exact ⟨q, single (vals h _ _) h1, h2, by rwa [← h.values .type (by decide)], v, single (vals h _ _) h4, h5⟩

theorem range (h : Shuffled g g') (n : RdfNode) (r : RangeKind × (Int × Int)) (hx : Range g n r) : Range g' n r := by
  obtain ⟨k, r⟩ := r
  cases k with
  | byte => exact ⟨pointer h hx.1, pointer h hx.2⟩
  | line => exact ⟨pointer h hx.1, pointer h hx.2⟩

theorem snippet (h : Shuffled g g') {env : RdfEnv} {b : Bindings} {ns : Str} (n : RdfNode) (s : Snippet) (hx : IsSnippet env g b ns n s) :
    ∃ t, IsSnippet env g' b ns n t ∧ SameSnippet s t := by
  obtain ⟨x1, a1, b1⟩ := licenses h hx.licenseInfoInSnippet
  obtain ⟨x2, a2, b2⟩ := perm_same (fun _ _ h => h) (vals h n .attributionText) hx.attributionTexts
  refine ⟨{ s with licenseInfoInSnippet := x1, attributionTexts := x2 }, ?_, ?_⟩
  · exact {
      spdxId := hx.spdxId
      fileSpdxId := by rw [← h.values .snippetFromFile (by decide)]; exact hx.fileSpdxId
      ranges := by
        obtain ⟨rs, h1, h2, h3⟩ := hx.ranges
        obtain ⟨rs', h4, h5⟩ := perm_same (range h) (vals h n .range) h1
        refine ⟨rs', h4, single ((h5.symm).filter _) h2, ?_⟩
        have hp := (h5.symm).filter fun r => decide (r.1 = .line)
        show rs'.filter _ = s.lineRange.toList.map _
        cases hl : s.lineRange with
        | none =>
          rw [hl] at h3
          rw [h3] at hp
          exact hp.nil_eq.symm
        | some r =>
          rw [hl] at h3
          exact single hp h3
      licenseConcluded := optSpecial_same (vals h _ _) (license h _) hx.licenseConcluded
      licenseInfoInSnippet := a1
      licenseComment := opt_same (vals h _ _) (fun _ _ h => h) hx.licenseComment
      copyrightText := optSpecial_same (vals h _ _) (fun _ _ h => h) hx.copyrightText
      comment := opt_same (vals h _ _) (fun _ _ h => h) hx.comment
      name := opt_same (vals h _ _) (fun _ _ h => h) hx.name
      attributionTexts := a2 }
  · exact ⟨rfl, rfl, rfl, rfl, same_opt _, b1, rfl, rfl, rfl, rfl, b2⟩

theorem relationship (h : Shuffled g g') {b : Bindings} {ns : Str} (e : RdfNode × RdfNode) (r : Relationship) (hx : IsRelationship g b ns e r) :
    IsRelationship g' b ns e r where
  spdxElementId := hx.spdxElementId
  relationshipType := opt_same (vals h _ _) (fun _ _ h => h) hx.relationshipType
  relatedSpdxElementId := optSpecial_same (vals h _ _) (fun _ _ h => h) hx.relatedSpdxElementId
  comment := opt_same (vals h _ _) (fun _ _ h => h) hx.comment

theorem extracted (h : Shuffled g g') {ns : Str} (n : RdfNode × RdfNode) (e : ExtractedLicensingInfo) (hx : IsExtracted g ns n.2 e) :
    ∃ e', IsExtracted g' ns n.2 e' ∧ SameLicense e e' := by
  obtain ⟨x, a, b⟩ := perm_same (fun _ _ h => h) (vals h n.2 .seeAlso) hx.crossReferences
  refine ⟨{ e with crossReferences := x }, ?_, b, rfl⟩
  exact {
    licenseId := by
      obtain ⟨id, h1, o, h2, h3⟩ := hx.licenseId
      exact ⟨id, h1, o, opt_same (vals h _ _) (fun _ _ h => h) h2, h3⟩
    extractedText := opt_same (vals h _ _) (fun _ _ h => h) hx.extractedText
    comment := opt_same (vals h _ _) (fun _ _ h => h) hx.comment
    licenseName := optSpecial_same (vals h _ _) (fun _ _ h => h) hx.licenseName
    crossReferences := a }

theorem add_one {l l' : List Relationship} (h : l.Perm l') (r : Relationship) : (if r ∈ l then l else l ++ [r]).Perm (if r ∈ l' then l' else l' ++ [r]) := by
  by_cases hr : r ∈ l
  · rw [if_pos hr, if_pos (h.mem_iff.1 hr)]; exact h
  · rw [if_neg hr, if_neg fun x => hr (h.mem_iff.2 x)]; exact h.append_right _

theorem add_new_left {new l l' : List Relationship} (h : l.Perm l') : (addNew l new).Perm (addNew l' new) := by
  unfold addNew
  induction new generalizing l l' with
  | nil => exact h
  | cons r new ih => exact ih (add_one h r)

theorem add_new {new new' : List Relationship} (hn : new.Perm new') : ∀ {l l' : List Relationship}, l.Perm l' → (addNew l new).Perm (addNew l' new') := by
  induction hn with
  | nil => intro l l' h; exact h
  | cons r _ ih => intro l l' h; exact ih (add_one h r)
  | swap r q new =>
    intro l l' h
    refine (add_new_left (new := q :: r :: new) h).trans ?_
    refine add_new_left (new := new) ?_
    by_cases h1 : q ∈ l' <;> by_cases h2 : r ∈ l' <;> by_cases h3 : q = r <;>
      simp [h1, h2, h3, List.mem_append] <;> (try simp_all [eq_comm])
    exact (List.Perm.swap r q []).append_left l'
  | trans _ _ ih1 ih2 => intro l l' h; exact (ih1 h).trans (ih2 (.refl _))

/-- What a graph says, another order of its triples says up to order. -/
theorem says (h : Shuffled g g') {env : RdfEnv} {b b' : Bindings} {d : Document} {ns : Str} (hx : IsRdf env b g d b' ns) :
    ∃ d', IsRdf env b g' d' b' ns ∧ SameRdf d d' := by
  obtain ⟨doc, i, hi⟩ := hx.creationInfo
  obtain ⟨cs, hi', hcs⟩ := info h hi
  obtain ⟨x1, a1, b1⟩ := perm_related (package h) (nods h _) hx.packages
  obtain ⟨x2, a2, b2⟩ := perm_related (file h) (nods h _) hx.files
  obtain ⟨x3, a3, b3⟩ := perm_related (snippet h) (nods h _) hx.snippets
  obtain ⟨x4, a4, b4⟩ := perm_same (annotation h) (rels h _) hx.annotations
  obtain ⟨x5, a5, b5⟩ := perm_related (extracted h) (rels h _) hx.extractedLicensingInfo
  obtain ⟨own, con, des, r1, r2, r3, r4⟩ := hx.relationships
  obtain ⟨own', q1, s1⟩ := perm_same (relationship h) (rels h _) r1
  obtain ⟨con', q2, s2⟩ := perm_same (fun _ _ h => h) (rels h _) r2
  obtain ⟨des', q3, s3⟩ := perm_same (fun _ _ h => h) (rels h _) r3
  refine ⟨{ creationInfo := { d.creationInfo with creators := cs }, packages := x1, files := x2, snippets := x3, annotations := x4,
            relationships := addNew own' (con' ++ des'), extractedLicensingInfo := x5 }, ?_, ?_⟩
  · exact ⟨hx.namespaceIs, ⟨doc, i, hi'⟩, a1, a2, a3, a4, ⟨own', con', des', q1, q2, q3, rfl⟩, a5⟩
  · refine ⟨⟨hcs, .refl _, rfl⟩, b1, b2, b3, b4, ?_, b5⟩
    rw [r4]
    exact add_new (s2.append s3) s1

theorem one_each (h : OneEach g) (hp : g.Perm g') : Shuffled g g' := by
  have key : ∀ {l m : List RdfNode}, l.length ≤ 1 → l.Perm m → l = m := by
    intro l m hl hm
    match l, hl with
    | [], _ => exact hm.nil_eq
    | [a], _ => exact hm.singleton_eq
  exact ⟨hp, fun p hq n => key (h.values p hq n) (hp.filterMap _), key h.info (hp.filterMap _)⟩

end Spdx.RdfOrder
