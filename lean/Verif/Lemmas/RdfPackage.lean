import Verif.Lemmas.RdfFile
/- Packages in graphs. -/
namespace Spdx
open Spec

/-! ### Verification codes -/

theorem objects_code_out (path : List Nat) (parent : RdfNode) (c : Option PackageVerificationCode) (s : RdfNode) (q : Pred) (h : Out path s) :
    RdfGraph.objects (verificationCodeTriples path parent c) s q =
      if parent = s ∧ .packageVerificationCode = q then (c.map fun _ => RdfNode.bnode path).toList else [] := by
  have h2 : ¬ RdfNode.bnode path = s := h.ne (List.suffix_refl _)
  cases c with
  | none => simp [verificationCodeTriples, objects_nil]
  | some c =>
    unfold verificationCodeTriples
    simp only [objects_append, objects_cons, objects_nil, objects_literals, h2, false_and, if_false, List.append_nil, List.nil_append]
    rfl

theorem code_read {g : RdfGraph} (hg : g.Nodup) {path : List Nat} {parent : RdfNode} {c : Option PackageVerificationCode} (hp : Out path parent)
    (hc : ∀ v, c = some v → CodeRdf v) (hs : SeenAt g (verificationCodeTriples path parent c) path)
    (hv : g.objects parent .packageVerificationCode = (c.map fun _ => RdfNode.bnode path).toList) :
    ∃ y, rdfLiteral g parent .packageVerificationCode (parseRdfVerificationCode g) = some y ∧ SameOpt SameCode c y := by
  cases c with
  | none => exact ⟨none, rdfLiteral_none hv, .none⟩
  | some c =>
    have hne : ¬ parent = .bnode path := fun e => hp.ne (List.suffix_refl _) e.symm
    have h1 := (hs.node (List.suffix_refl _) .packageVerificationCodeValue).one hg (v := .str c.value) (by
      unfold verificationCodeTriples; simp [objects_append, objects_cons, objects_nil, objects_literals, hne])
    have h2 := (hs.node (List.suffix_refl _) .packageVerificationCodeExcludedFile).perm hg (l := c.excludedFiles.map .str) (by
      unfold verificationCodeTriples; simp [objects_append, objects_cons, objects_nil, objects_literals, hne]) (nodup_str (hc c rfl).excluded)
    obtain ⟨m, hm, hp⟩ := rdfTexts_perm h2
    refine ⟨some ⟨c.value, m⟩, rdfLiteral_some hv rfl ?_, .some ⟨rfl, hp⟩⟩
    unfold parseRdfVerificationCode
    rw [rdfLiteral_needed h1 (hc c rfl).value, hm]
    rfl

/-! ### External references -/

/-- the triples of an external reference -/
def packageRefBlock (ns : Str) (path : List Nat) (res : RdfNode) (r : ExternalPackageRef) : List Triple :=
  [(.bnode path, .type, spdxTerm s%"ExternalRef"), (.bnode path, .referenceCategory, .uri (termUri s%"referenceCategory_" r.category.name)),
    (.bnode path, .referenceType, .uri (refTypeUri ns r)), (.bnode path, .referenceLocator, .str r.locator)] ++
    truthyLiteral (.bnode path) .rdfsComment r.comment ++ [(res, .externalRef, .bnode path)]

theorem packageRefTriples_eq (ns : Str) (path : List Nat) (res : RdfNode) (r : ExternalPackageRef) :
    packageRefTriples ns path res r = some (packageRefBlock ns path res r) := by
  unfold packageRefTriples
  rw [(C40.reference_categories r.category).1]
  rfl

theorem objects_truthy_ne (s : RdfNode) (p : Pred) (v : Option Str) (s' : RdfNode) (q : Pred) (h : ¬ s = s') :
    RdfGraph.objects (truthyLiteral s p v) s' q = [] := by
  refine objects_empty ?_
  intro t ht h1 _
  unfold truthyLiteral at ht
  cases v with
  | none => simp at ht
  | some x =>
    simp only at ht
    split at ht
    · simp at ht
    · simp only [List.mem_cons, List.not_mem_nil, or_false] at ht
      subst ht
      exact h h1

theorem objects_packageRef_out (ns : Str) (path : List Nat) (parent : RdfNode) (r : ExternalPackageRef) (s : RdfNode) (q : Pred) (h : Out path s) :
    RdfGraph.objects (packageRefBlock ns path parent r) s q = if parent = s ∧ .externalRef = q then [.bnode path] else [] := by
  have h2 : ¬ RdfNode.bnode path = s := h.ne (List.suffix_refl _)
  unfold packageRefBlock
  simp only [objects_append, objects_cons, objects_nil, objects_truthy_ne _ _ _ _ _ h2, h2, false_and, if_false, List.append_nil, List.nil_append]

/-- the triples of the external references -/
def packageRefBlocks (ns : Str) (path : List Nat) (res : RdfNode) (l : List ExternalPackageRef) : List Triple :=
  l.zipIdx.flatMap fun e => packageRefBlock ns (e.2 :: path) res e.1

theorem objects_packageRefs_out (ns : Str) (path : List Nat) (parent : RdfNode) (l : List ExternalPackageRef) (s : RdfNode) (q : Pred) (h : Out path s) :
    RdfGraph.objects (packageRefBlocks ns path parent l) s q = if parent = s ∧ .externalRef = q then bnodes path l else [] := by
  unfold packageRefBlocks
  rw [objects_flatMap]
  have : ∀ e : ExternalPackageRef × Nat, RdfGraph.objects (packageRefBlock ns (e.2 :: path) parent e.1) s q =
      if parent = s ∧ .externalRef = q then [.bnode (e.2 :: path)] else [] :=
    fun e => objects_packageRef_out _ _ _ _ _ _ (h.below (List.suffix_cons _ _))
  simp only [this]
  exact flatMap_ite_singleton _ _ _

theorem known_types (c : ExternalPackageRefCategory) : ∀ t ∈ categoryToRefTypes c, replaceStr referenceNamespace [] (referenceNamespace ++ t) = t := by
  cases c <;> decide +kernel

theorem refType_read {ns : Str} (h1 : '#' ∉ ns) (h2 : ¬ referenceNamespace <+: ns ∧ ¬ ns <+: referenceNamespace) (r : ExternalPackageRef) :
    (RdfNode.uri (refTypeUri ns r)).truthy = true ∧ parseRefType ns (.uri (refTypeUri ns r)) = some r.referenceType := by
  unfold refTypeUri
  by_cases hm : r.referenceType ∈ categoryToRefTypes r.category
  · rw [if_pos hm]
    refine ⟨by unfold RdfNode.truthy; simp [referenceNamespace], ?_⟩
    unfold parseRefType
    refine (if_neg ?_).trans ((if_pos (startsWith_append _ _)).trans ?_)
    · rw [startsWith_iff]
      intro h
      rcases List.prefix_or_prefix_of_prefix h (List.prefix_append referenceNamespace r.referenceType) with h | h
      exacts [h2.2 h, h2.1 h]
    · exact congrArg some (known_types _ _ hm)
  · rw [if_neg hm]
    refine ⟨by unfold RdfNode.truthy; simp, ?_⟩
    unfold parseRefType
    refine (if_pos ?_).trans ?_
    · rw [startsWith_iff]
      exact (List.prefix_append ns s%"#").trans (List.prefix_append _ _)
    · exact congrArg some (fragmentOf_append _ _ h1)

theorem packageRef_read {g : RdfGraph} (hg : g.Nodup) {ns : Str} (h1 : '#' ∉ ns) (h2 : ¬ referenceNamespace <+: ns ∧ ¬ ns <+: referenceNamespace)
    {path : List Nat} {parent : RdfNode} {r : ExternalPackageRef} (hp : Out path parent) (hr : PackageRefRdf r)
    (hs : SeenAt g (packageRefBlock ns path parent r) path) : parseRdfPackageRef g ns (.bnode path) = some r := by
  have hne : ¬ parent = .bnode path := fun e => hp.ne (List.suffix_refl _) e.symm
  have hobj : ∀ p, RdfGraph.objects (packageRefBlock ns path parent r) (.bnode path) p = match p with
      | .type => [spdxTerm s%"ExternalRef"]
      | .referenceCategory => [.uri (termUri s%"referenceCategory_" r.category.name)]
      | .referenceType => [.uri (refTypeUri ns r)]
      | .referenceLocator => [.str r.locator]
      | .rdfsComment => (r.comment.map RdfNode.str).toList
      | _ => [] := by
    intro p
    unfold packageRefBlock
    simp only [objects_append, objects_cons, objects_nil, objects_truthyLiteral _ _ _ _ _ (fun t ht => (hr.comment t ht).1), true_and, hne, false_and]
    cases p <;> simp only [reduceCtorEq, if_false, if_true, List.append_nil, List.nil_append]
  have a1 := (hs.node (List.suffix_refl _) .referenceLocator).one hg (v := .str r.locator) (hobj _)
  have a2 := (hs.node (List.suffix_refl _) .referenceCategory).one hg (v := .uri (termUri s%"referenceCategory_" r.category.name)) (hobj _)
  have a3 := (hs.node (List.suffix_refl _) .referenceType).one hg (v := .uri (refTypeUri ns r)) (hobj _)
  have a4 := (hs.node (List.suffix_refl _) .rdfsComment).opt hg (v := r.comment.map .str) (hobj _)
  unfold parseRdfPackageRef
  rw [rdfLiteral_needed a1 hr.locator, rdfLiteral_enum C40.reference_categories a2, rdfLiteral_some a3 (refType_read h1 h2 r).1 (refType_read h1 h2 r).2,
    rdfLiteral_text a4 hr.comment]
  rfl

theorem packageRefs_read {g : RdfGraph} (hg : g.Nodup) {ns : Str} (h1 : '#' ∉ ns) (h2 : ¬ referenceNamespace <+: ns ∧ ¬ ns <+: referenceNamespace)
    {path : List Nat} {parent : RdfNode} {l : List ExternalPackageRef} (hp : Out path parent) (hl : ∀ c ∈ l, PackageRefRdf c)
    (hs : SeenAt g (packageRefBlocks ns path parent l) path) (hv : (g.objects parent .externalRef).Perm (bnodes path l)) :
    ∃ m, (g.objects parent .externalRef).mapM (parseRdfPackageRef g ns) = some m ∧ m.Perm l := by
  have : ∀ e ∈ l.zipIdx, parseRdfPackageRef g ns (.bnode (e.2 :: path)) = some e.1 := by
    intro e he
    have hi := List.mem_zipIdx_iff_getElem?.1 he
    refine packageRef_read (parent := parent) hg h1 h2 (hp.below (List.suffix_cons _ _)) (hl _ (List.mem_of_getElem? hi)) (hs.entry hi ?_)
    rintro j y s q ho hq rfl p
    rw [objects_packageRef_out _ _ _ _ _ _ ho, if_neg]
    rintro ⟨h1, -⟩
    exact hp.1 q h1 hq
  obtain ⟨m, hm, hr⟩ := mapM_perm_eq (f := parseRdfPackageRef g ns) (k := fun e : ExternalPackageRef × Nat => RdfNode.bnode (e.2 :: path)) (g := Prod.fst) this hv
  exact ⟨m, hm, by rwa [List.zipIdx_map_fst] at hr⟩

/-! ### Packages -/

/-- the triple of the purpose -/
def purposeBlock (res : RdfNode) : Option PackagePurpose → List Triple
  | none => []
  | some p => [(res, .primaryPackagePurpose, .uri (termUri s%"purpose_" p.name))]

theorem objects_purpose (res : RdfNode) (v : Option PackagePurpose) (s : RdfNode) (q : Pred) : RdfGraph.objects (purposeBlock res v) s q =
    if res = s ∧ .primaryPackagePurpose = q then (v.map fun p => RdfNode.uri (termUri s%"purpose_" p.name)).toList else [] := by
  cases v <;> simp [purposeBlock, objects_cons, objects_nil]

theorem purposeTriples_eq (res : RdfNode) (v : Option PackagePurpose) : purposeTriples res v = some (purposeBlock res v) := by
  cases v with
  | none => rfl
  | some p =>
    unfold purposeTriples
    simp only [(C40.purposes p).1]
    rfl

theorem optDate_eq (res : RdfNode) (p : Pred) (v : Option DateTime) (h : ∀ t, v = some t → DateOk t) :
    optDate res p v = some (optLiteral res p (v.map isoText)) := by
  cases v with
  | none => rfl
  | some t =>
    unfold optDate
    simp only [(date_read (h t rfl)).1]
    rfl

/-- the triples of a package -/
def packageBlock (env : RdfEnv) (ns : Str) (path : List Nat) (res : RdfNode) (p : Package) : List Triple :=
  [(res, .type, spdxTerm s%"Package"), (res, .name, .str p.name)] ++
    optLiteral res .versionInfo p.version ++
    optLiteral res .packageFileName p.fileName ++
    optLiteral res .supplier (p.supplier.map strOrNoAssertion) ++
    optLiteral res .originator (p.originator.map strOrNoAssertion) ++
    literalOrSpecial res .downloadLocation p.downloadLocation ++
    [(res, .filesAnalyzed, .bool p.filesAnalyzed)] ++
    verificationCodeTriples (1 :: path) res p.verificationCode ++
    checksumListTriples (2 :: path) res p.checksums ++
    optLiteral res .homepage (p.homepage.map strOrSpecial) ++
    optLiteral res .sourceInfo p.sourceInfo ++
    optLicTriples env ns (3 :: path) res .licenseConcluded p.licenseConcluded ++
    licListTriples env ns (4 :: path) res .licenseInfoFromFiles p.licenseInfoFromFiles ++
    optLicTriples env ns (5 :: path) res .licenseDeclared p.licenseDeclared ++
    optLiteral res .licenseComments p.licenseComment ++
    optLiteral res .copyrightText (p.copyrightText.map strOrSpecial) ++
    optLiteral res .summary p.summary ++
    optLiteral res .description p.description ++
    optLiteral res .rdfsComment p.comment ++
    packageRefBlocks ns (0 :: path) res p.externalReferences ++
    literals res .attributionText p.attributionTexts ++
    purposeBlock res p.primaryPackagePurpose ++ optLiteral res .releaseDate (p.releaseDate.map isoText) ++
    optLiteral res .builtDate (p.builtDate.map isoText) ++ optLiteral res .validUntilDate (p.validUntilDate.map isoText)

theorem packageTriples_eq (env : RdfEnv) (ns : Str) (path : List Nat) (res : RdfNode) (p : Package) (h : PackageRdf env p) :
    packageTriples env ns path res p = some (packageBlock env ns path res p) := by
  unfold packageTriples
  rw [mapM_option_some _ (fun e : ExternalPackageRef × Nat => packageRefBlock ns (e.2 :: 0 :: path) res e.1) _ (fun e _ => packageRefTriples_eq _ _ _ _),
    purposeTriples_eq, optDate_eq _ _ _ h.release, optDate_eq _ _ _ h.built, optDate_eq _ _ _ h.validUntil]
  rfl

/-- what is said about the package itself -/
theorem packageBlock_own (env : RdfEnv) (ns : Str) (path : List Nat) {u : Str} (x : Package) (hout : ∀ p, Out p (.uri u)) (p : Pred) :
    RdfGraph.objects (packageBlock env ns path (.uri u) x) (.uri u) p = match p with
      | .type => [spdxTerm s%"Package"]
      | .name => [.str x.name]
      | .versionInfo => (x.version.map RdfNode.str).toList
      | .packageFileName => (x.fileName.map RdfNode.str).toList
      | .supplier => ((x.supplier.map strOrNoAssertion).map RdfNode.str).toList
      | .originator => ((x.originator.map strOrNoAssertion).map RdfNode.str).toList
      | .downloadLocation => [specialNode x.downloadLocation]
      | .filesAnalyzed => [.bool x.filesAnalyzed]
      | .packageVerificationCode => (x.verificationCode.map fun _ => RdfNode.bnode (1 :: path)).toList
      | .checksum => bnodes (2 :: path) x.checksums
      | .homepage => ((x.homepage.map strOrSpecial).map RdfNode.str).toList
      | .sourceInfo => (x.sourceInfo.map RdfNode.str).toList
      | .licenseConcluded => (x.licenseConcluded.map (licOrNode env ns (3 :: path))).toList
      | .licenseInfoFromFiles => x.licenseInfoFromFiles.zipIdx.map fun e => licOrNode env ns (e.2 :: 4 :: path) e.1
      | .licenseDeclared => (x.licenseDeclared.map (licOrNode env ns (5 :: path))).toList
      | .licenseComments => (x.licenseComment.map RdfNode.str).toList
      | .copyrightText => ((x.copyrightText.map strOrSpecial).map RdfNode.str).toList
      | .summary => (x.summary.map RdfNode.str).toList
      | .description => (x.description.map RdfNode.str).toList
      | .rdfsComment => (x.comment.map RdfNode.str).toList
      | .externalRef => bnodes (0 :: path) x.externalReferences
      | .attributionText => x.attributionTexts.map .str
      | .primaryPackagePurpose => (x.primaryPackagePurpose.map fun p => RdfNode.uri (termUri s%"purpose_" p.name)).toList
      | .releaseDate => ((x.releaseDate.map isoText).map RdfNode.str).toList
      | .builtDate => ((x.builtDate.map isoText).map RdfNode.str).toList
      | .validUntilDate => ((x.validUntilDate.map isoText).map RdfNode.str).toList
      | _ => [] := by
  unfold packageBlock
  simp only [objects_append, objects_cons, objects_nil, objects_optLiteral, objects_literals, objects_literalOrSpecial, objects_purpose,
    objects_code_out _ _ _ _ _ (hout _), objects_packageRefs_out _ _ _ _ _ _ (hout _),
    objects_checksumList_out _ _ _ _ _ (hout _), objects_optLic_out _ _ _ _ _ _ _ (hout _), objects_licList_out _ _ _ _ _ _ _ (hout _), true_and]
  cases p <;> simp only [reduceCtorEq, if_false, if_true, List.append_nil, List.nil_append]

theorem packageBlock_refs (env : RdfEnv) (ns : Str) (path : List Nat) (u : Str) (p : Package) (q : List Nat) (r : Pred) (hq : 0 :: path <:+ q) :
    RdfGraph.objects (packageBlock env ns path (.uri u) p) (.bnode q) r = RdfGraph.objects (packageRefBlocks ns (0 :: path) (.uri u) p.externalReferences) (.bnode q) r := by
  unfold packageBlock
  simp only [objects_append, objects_cons, objects_nil, objects_optLiteral, objects_literals, objects_literalOrSpecial, objects_purpose, reduceCtorEq, false_and, if_false,
    objects_code_out _ _ _ _ _ (Out.sibling hq (show 1 ≠ 0 by decide)),
    objects_checksumList_out _ _ _ _ _ (Out.sibling hq (show 2 ≠ 0 by decide)),
    objects_optLic_out _ _ _ _ _ _ _ (Out.sibling hq (show 3 ≠ 0 by decide)),
    objects_licList_out _ _ _ _ _ _ _ (Out.sibling hq (show 4 ≠ 0 by decide)),
    objects_optLic_out _ _ _ _ _ _ _ (Out.sibling hq (show 5 ≠ 0 by decide)), List.append_nil, List.nil_append]

theorem packageBlock_code (env : RdfEnv) (ns : Str) (path : List Nat) (u : Str) (p : Package) (q : List Nat) (r : Pred) (hq : 1 :: path <:+ q) :
    RdfGraph.objects (packageBlock env ns path (.uri u) p) (.bnode q) r = RdfGraph.objects (verificationCodeTriples (1 :: path) (.uri u) p.verificationCode) (.bnode q) r := by
  unfold packageBlock
  simp only [objects_append, objects_cons, objects_nil, objects_optLiteral, objects_literals, objects_literalOrSpecial, objects_purpose, reduceCtorEq, false_and, if_false,
    objects_packageRefs_out _ _ _ _ _ _ (Out.sibling hq (show 0 ≠ 1 by decide)),
    objects_checksumList_out _ _ _ _ _ (Out.sibling hq (show 2 ≠ 1 by decide)),
    objects_optLic_out _ _ _ _ _ _ _ (Out.sibling hq (show 3 ≠ 1 by decide)),
    objects_licList_out _ _ _ _ _ _ _ (Out.sibling hq (show 4 ≠ 1 by decide)),
    objects_optLic_out _ _ _ _ _ _ _ (Out.sibling hq (show 5 ≠ 1 by decide)), List.append_nil, List.nil_append]

theorem packageBlock_checksums (env : RdfEnv) (ns : Str) (path : List Nat) (u : Str) (p : Package) (q : List Nat) (r : Pred) (hq : 2 :: path <:+ q) :
    RdfGraph.objects (packageBlock env ns path (.uri u) p) (.bnode q) r = RdfGraph.objects (checksumListTriples (2 :: path) (.uri u) p.checksums) (.bnode q) r := by
  unfold packageBlock
  simp only [objects_append, objects_cons, objects_nil, objects_optLiteral, objects_literals, objects_literalOrSpecial, objects_purpose, reduceCtorEq, false_and, if_false,
    objects_packageRefs_out _ _ _ _ _ _ (Out.sibling hq (show 0 ≠ 2 by decide)),
    objects_code_out _ _ _ _ _ (Out.sibling hq (show 1 ≠ 2 by decide)),
    objects_optLic_out _ _ _ _ _ _ _ (Out.sibling hq (show 3 ≠ 2 by decide)),
    objects_licList_out _ _ _ _ _ _ _ (Out.sibling hq (show 4 ≠ 2 by decide)),
    objects_optLic_out _ _ _ _ _ _ _ (Out.sibling hq (show 5 ≠ 2 by decide)), List.append_nil, List.nil_append]

theorem packageBlock_concluded (env : RdfEnv) (ns : Str) (path : List Nat) (u : Str) (p : Package) (q : List Nat) (r : Pred) (hq : 3 :: path <:+ q) :
    RdfGraph.objects (packageBlock env ns path (.uri u) p) (.bnode q) r = RdfGraph.objects (optLicTriples env ns (3 :: path) (.uri u) .licenseConcluded p.licenseConcluded) (.bnode q) r := by
  unfold packageBlock
  simp only [objects_append, objects_cons, objects_nil, objects_optLiteral, objects_literals, objects_literalOrSpecial, objects_purpose, reduceCtorEq, false_and, if_false,
    objects_packageRefs_out _ _ _ _ _ _ (Out.sibling hq (show 0 ≠ 3 by decide)),
    objects_code_out _ _ _ _ _ (Out.sibling hq (show 1 ≠ 3 by decide)),
    objects_checksumList_out _ _ _ _ _ (Out.sibling hq (show 2 ≠ 3 by decide)),
    objects_licList_out _ _ _ _ _ _ _ (Out.sibling hq (show 4 ≠ 3 by decide)),
    objects_optLic_out _ _ _ _ _ _ _ (Out.sibling hq (show 5 ≠ 3 by decide)), List.append_nil, List.nil_append]

theorem packageBlock_info (env : RdfEnv) (ns : Str) (path : List Nat) (u : Str) (p : Package) (q : List Nat) (r : Pred) (hq : 4 :: path <:+ q) :
    RdfGraph.objects (packageBlock env ns path (.uri u) p) (.bnode q) r = RdfGraph.objects (licListTriples env ns (4 :: path) (.uri u) .licenseInfoFromFiles p.licenseInfoFromFiles) (.bnode q) r := by
  unfold packageBlock
  simp only [objects_append, objects_cons, objects_nil, objects_optLiteral, objects_literals, objects_literalOrSpecial, objects_purpose, reduceCtorEq, false_and, if_false,
    objects_packageRefs_out _ _ _ _ _ _ (Out.sibling hq (show 0 ≠ 4 by decide)),
    objects_code_out _ _ _ _ _ (Out.sibling hq (show 1 ≠ 4 by decide)),
    objects_checksumList_out _ _ _ _ _ (Out.sibling hq (show 2 ≠ 4 by decide)),
    objects_optLic_out _ _ _ _ _ _ _ (Out.sibling hq (show 3 ≠ 4 by decide)),
    objects_optLic_out _ _ _ _ _ _ _ (Out.sibling hq (show 5 ≠ 4 by decide)), List.append_nil, List.nil_append]

theorem packageBlock_declared (env : RdfEnv) (ns : Str) (path : List Nat) (u : Str) (p : Package) (q : List Nat) (r : Pred) (hq : 5 :: path <:+ q) :
    RdfGraph.objects (packageBlock env ns path (.uri u) p) (.bnode q) r = RdfGraph.objects (optLicTriples env ns (5 :: path) (.uri u) .licenseDeclared p.licenseDeclared) (.bnode q) r := by
  unfold packageBlock
  simp only [objects_append, objects_cons, objects_nil, objects_optLiteral, objects_literals, objects_literalOrSpecial, objects_purpose, reduceCtorEq, false_and, if_false,
    objects_packageRefs_out _ _ _ _ _ _ (Out.sibling hq (show 0 ≠ 5 by decide)),
    objects_code_out _ _ _ _ _ (Out.sibling hq (show 1 ≠ 5 by decide)),
    objects_checksumList_out _ _ _ _ _ (Out.sibling hq (show 2 ≠ 5 by decide)),
    objects_optLic_out _ _ _ _ _ _ _ (Out.sibling hq (show 3 ≠ 5 by decide)),
    objects_licList_out _ _ _ _ _ _ _ (Out.sibling hq (show 4 ≠ 5 by decide)), List.append_nil, List.nil_append]


theorem homepage_read {g : RdfGraph} {s : RdfNode} {p : Pred} {v : Option (OrSpecial Str)} (h : g.objects s p = ((v.map strOrSpecial).map RdfNode.str).toList)
    (hv : ∀ x, v = some x → ∃ t, x = .val t ∧ Clean t) : ∃ w, rdfLiteral g s p stripText = some w ∧ w.map .val = v := by
  cases v with
  | none => exact ⟨none, rdfLiteral_none h, rfl⟩
  | some x =>
    obtain ⟨t, rfl, ht⟩ := hv x rfl
    exact ⟨some t, rdfLiteral_text (v := some t) h (fun a ha => Option.some.inj ha ▸ ht), rfl⟩

theorem package_read {env : RdfEnv} {b : Bindings} {g : RdfGraph} {ns : Str} (hns : NsLic ns) (href : ¬ referenceNamespace <+: ns ∧ ¬ ns <+: referenceNamespace)
    {path : List Nat} {p : Package} (hp : PackageRdf env p)
    (hs : Seen g (packageBlock env ns path (.uri (ns ++ s%"#" ++ p.spdxId)) p) (.uri (ns ++ s%"#" ++ p.spdxId)) path) :
    ∃ y, parseRdfPackage env b g ns (.uri (ns ++ s%"#" ++ p.spdxId)) = some y ∧ SamePackage p y := by
  have hid := parseRdfId_local b ns p.spdxId hns.noHash
  have hout : ∀ q, Out q (.uri (ns ++ s%"#" ++ p.spdxId)) := fun q => Out.uri (ns_not_license hns.license _)
  obtain ⟨u, hu⟩ : ∃ u, u = ns ++ s%"#" ++ p.spdxId := ⟨_, rfl⟩
  rw [← hu] at hs hid hout ⊢
  have hg := hs.nodup
  have hobj := packageBlock_own env ns path p hout
  have h1 := (hs.own .name (by decide)).one hg (v := .str p.name) (hobj _)
  have h2 := (hs.own .downloadLocation (by decide)).one hg (v := specialNode p.downloadLocation) (hobj _)
  have h3 := (hs.own .checksum (by decide)).perm hg (l := bnodes (2 :: path) p.checksums) (hobj _) (bnodes_nodup _ _)
  have h4 := (hs.own .versionInfo (by decide)).opt hg (v := p.version.map .str) (hobj _)
  have h5 := (hs.own .packageFileName (by decide)).opt hg (v := p.fileName.map .str) (hobj _)
  have h6 := (hs.own .supplier (by decide)).opt hg (v := (p.supplier.map strOrNoAssertion).map .str) (hobj _)
  have h7 := (hs.own .originator (by decide)).opt hg (v := (p.originator.map strOrNoAssertion).map .str) (hobj _)
  have h8 := (hs.own .packageVerificationCode (by decide)).opt hg (v := p.verificationCode.map fun _ => RdfNode.bnode (1 :: path)) (hobj _)
  have h9 := (hs.own .externalRef (by decide)).perm hg (l := bnodes (0 :: path) p.externalReferences) (hobj _) (bnodes_nodup _ _)
  have h10 := (hs.own .filesAnalyzed (by decide)).one hg (v := .bool p.filesAnalyzed) (hobj _)
  have h11 := (hs.own .licenseConcluded (by decide)).opt hg (v := p.licenseConcluded.map (licOrNode env ns (3 :: path))) (hobj _)
  have h12 := (hs.own .licenseDeclared (by decide)).opt hg (v := p.licenseDeclared.map (licOrNode env ns (5 :: path))) (hobj _)
  have h13 := (hs.own .licenseInfoFromFiles (by decide)).perm hg (l := p.licenseInfoFromFiles.zipIdx.map fun e => licOrNode env ns (e.2 :: 4 :: path) e.1)
    (hobj _) (licOrNodes_nodup hns _ hp.info.1)
  have h14 := (hs.own .licenseComments (by decide)).opt hg (v := p.licenseComment.map .str) (hobj _)
  have h15 := (hs.own .rdfsComment (by decide)).opt hg (v := p.comment.map .str) (hobj _)
  have h16 := (hs.own .summary (by decide)).opt hg (v := p.summary.map .str) (hobj _)
  have h17 := (hs.own .description (by decide)).opt hg (v := p.description.map .str) (hobj _)
  have h18 := (hs.own .copyrightText (by decide)).opt hg (v := (p.copyrightText.map strOrSpecial).map .str) (hobj _)
  have h19 := (hs.own .sourceInfo (by decide)).opt hg (v := p.sourceInfo.map .str) (hobj _)
  have h20 := (hs.own .primaryPackagePurpose (by decide)).opt hg (v := p.primaryPackagePurpose.map fun p => RdfNode.uri (termUri s%"purpose_" p.name)) (hobj _)
  have h21 := (hs.own .homepage (by decide)).opt hg (v := (p.homepage.map strOrSpecial).map .str) (hobj _)
  have h22 := (hs.own .attributionText (by decide)).perm hg (l := p.attributionTexts.map .str) (hobj _) (nodup_str hp.attribution)
  have h23 := (hs.own .releaseDate (by decide)).opt hg (v := (p.releaseDate.map isoText).map .str) (hobj _)
  have h24 := (hs.own .builtDate (by decide)).opt hg (v := (p.builtDate.map isoText).map .str) (hobj _)
  have h25 := (hs.own .validUntilDate (by decide)).opt hg (v := (p.validUntilDate.map isoText).map .str) (hobj _)
  rw [Option.map_map] at h23 h24 h25
  obtain ⟨checksums, r3, p3⟩ := checksumList_read hg (hout _) hp.checksums
    (hs.below.narrow (List.suffix_cons 2 path) (packageBlock_checksums env ns path u p)) h3
  obtain ⟨code, r8, p8⟩ := code_read hg (hout _) hp.code (hs.below.narrow (List.suffix_cons 1 path) (packageBlock_code env ns path u p)) h8
  obtain ⟨refs, r9, p9⟩ := packageRefs_read hg hns.noHash href (hout _) hp.refs
    (hs.below.narrow (List.suffix_cons 0 path) (packageBlock_refs env ns path u p)) h9
  obtain ⟨concluded, r11, p11⟩ := optLic_read hg hns hp.concluded (hout _)
    (hs.below.narrow (List.suffix_cons 3 path) (packageBlock_concluded env ns path u p)) h11
  obtain ⟨declared, r12, p12⟩ := optLic_read hg hns hp.declared (hout _)
    (hs.below.narrow (List.suffix_cons 5 path) (packageBlock_declared env ns path u p)) h12
  obtain ⟨info, r13, p13⟩ := licList_read hg hns hp.info.2 (hout _) (hs.below.narrow (List.suffix_cons 4 path) (packageBlock_info env ns path u p)) h13
  obtain ⟨homepage, r21, p21⟩ := homepage_read h21 hp.homepage
  obtain ⟨attribution, r22, p22⟩ := rdfTexts_perm h22
  have r2 := rdfSpecial_node h2 hp.download
  have r20 := rdfLiteral_opt (m := textMethod (enumFromRdf PackagePurpose.ofName? s%"purpose_")) h20 (fun a _ => ⟨termUri_truthy _ _, (C40.purposes a).2⟩)
  have r10 : (someValue g (.uri u) .filesAnalyzed).elim true RdfNode.truthy = p.filesAnalyzed := by unfold someValue; rw [h10]; rfl
  refine ⟨⟨p.spdxId, p.name, p.downloadLocation, p.version, p.fileName, p.supplier, p.originator, p.filesAnalyzed, code, checksums, homepage.map .val, p.sourceInfo,
    concluded, info, declared, p.licenseComment, p.copyrightText, p.summary, p.description, p.comment, refs, attribution, p.primaryPackagePurpose,
    p.releaseDate, p.builtDate, p.validUntilDate⟩, ?_, ?_⟩
  · unfold parseRdfPackage
    rw [hid, rdfLiteral_needed h1 hp.name, r2, r3, rdfLiteral_text h4 hp.version, rdfLiteral_text h5 hp.fileName, rdfSpecial_actor h6 hp.supplier,
      rdfSpecial_actor h7 hp.originator, r8, r9, r11, r12, r13, rdfLiteral_text h14 hp.licenseComment, rdfLiteral_text h15 hp.comment,
      rdfLiteral_text h16 hp.summary, rdfLiteral_text h17 hp.description, rdfSpecial_text h18 hp.copyright, rdfLiteral_text h19 hp.sourceInfo, r20, r21, r22,
      rdfLiteral_date h23 hp.release, rdfLiteral_date h24 hp.built, rdfLiteral_date h25 hp.validUntil, r10]
    rfl
  · exact ⟨rfl, rfl, rfl, rfl, rfl, rfl, rfl, rfl, p8, p3, p21, rfl, p11, p13, p12, rfl, rfl, rfl, rfl, rfl, p9, p22, rfl, rfl, rfl, rfl⟩

end Spdx
