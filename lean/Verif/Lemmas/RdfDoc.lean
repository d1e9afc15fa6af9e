import Verif.Lemmas.RdfBlocks
/- The blocks of a document. -/
namespace Spdx
open Spec

/-! ### The block of each kind of element -/

/-- `[i, k]` is the place, `ns` the namespace, `doc` the node of the document -/
def docB (c : CreationInfo) : Block := ⟨[0, 0], some c.spdxId, spdxTerm s%"SpdxDocument", docBody c, []⟩
def infoB (c : CreationInfo) : Block := ⟨[1, 0], none, spdxTerm s%"CreationInfo", infoBody c, [(docNode c, .creationInfo, .bnode [1, 0])]⟩
def extB (c : CreationInfo) (r : ExternalDocumentRef) (i : Nat) : Block :=
  ⟨[i, 1], some r.documentRefId, spdxTerm s%"ExternalDocumentRef", extRefBody [i, 1] (.uri (c.documentNamespace ++ s%"#" ++ r.documentRefId)) r,
   [(docNode c, .externalDocumentRef, .uri (c.documentNamespace ++ s%"#" ++ r.documentRefId))]⟩
def annB (ns : Str) (ext : Dict Str Str) (a : Annotation) (i : Nat) : Block :=
  ⟨[i, 2], none, spdxTerm s%"Annotation", annotationBody [i, 2] a, [(.uri (addNamespace a.spdxId ns ext), .annotation, .bnode [i, 2])]⟩
def fileB (env : RdfEnv) (ns : Str) (f : File) (i : Nat) : Block :=
  ⟨[i, 3], some f.spdxId, spdxTerm s%"File", fileBlock env ns [i, 3] (.uri (ns ++ s%"#" ++ f.spdxId)) f, []⟩
def packageB (env : RdfEnv) (ns : Str) (p : Package) (i : Nat) : Block :=
  ⟨[i, 4], some p.spdxId, spdxTerm s%"Package", packageBlock env ns [i, 4] (.uri (ns ++ s%"#" ++ p.spdxId)) p, []⟩
def relB (ns : Str) (ext : Dict Str Str) (r : Relationship) (i : Nat) : Block :=
  ⟨[i, 5], none, spdxTerm s%"Relationship", relationshipBody ns ext [i, 5] r, [(.uri (addNamespace r.spdxElementId ns ext), .relationship, .bnode [i, 5])]⟩
/-- the line range, which is there -/
def linesOf (s : Snippet) : Int × Int := s.lineRange.getD (0, 0)
def snippetB (env : RdfEnv) (ns : Str) (ext : Dict Str Str) (s : Snippet) (i : Nat) : Block :=
  ⟨[i, 6], some s.spdxId, spdxTerm s%"Snippet", snippetBlock env ns ext [i, 6] (.uri (ns ++ s%"#" ++ s.spdxId)) (linesOf s) s, []⟩
def licB (c : CreationInfo) (e : ExtractedLicensingInfo) (i : Nat) : Block :=
  ⟨[i, 7], e.licenseId, spdxTerm s%"ExtractedLicensingInfo", extractedBody (nodeOf c.documentNamespace [i, 7] e.licenseId) e,
   [(docNode c, .hasExtractedLicensingInfo, nodeOf c.documentNamespace [i, 7] e.licenseId)]⟩

theorem single_link {t : Triple} {p : Pred} {u : Str} {o : RdfNode} (h : t ∈ [((.uri u, p, o) : Triple)]) (hp : p ∈ linkPreds) :
    t.2.1 ∈ linkPreds ∧ ∃ u, t.1 = .uri u := by
  cases List.mem_singleton.1 h
  exact ⟨hp, u, rfl⟩

theorem docB_ok (c : CreationInfo) : (docB c).Ok c.documentNamespace where
  body := oks_append (oks_cons .own (oks_cons (.plain .self (by decide)) (oks_cons (.plain .self (by decide)) (oks_cons (.plain .self (by decide)) oks_nil))))
    (oks_optLiteral _ .self (by decide))
  own := List.mem_of_getElem? (i := 0) rfl
  link := by intro t h; cases h
  ty := by show spdxTerm _ ∉ innerTypes; decide

theorem infoB_ok (c : CreationInfo) : (infoB c).Ok c.documentNamespace where
  body := oks_append (oks_append (oks_append (oks_cons .own (oks_cons (.plain .self (by decide)) oks_nil)) (oks_literals _ .self (by decide)))
    (oks_optLiteral _ .self (by decide))) (oks_optLiteral _ .self (by decide))
  own := List.mem_of_getElem? (i := 0) rfl
  link := fun t h => single_link h (by decide)
  ty := by show spdxTerm _ ∉ innerTypes; decide

theorem extB_ok (c : CreationInfo) (r : ExternalDocumentRef) (i : Nat) : (extB c r i).Ok c.documentNamespace where
  body := oks_append (oks_cons .own (oks_cons (.plain .self (by decide)) oks_nil)) (oks_checksum _ .self (List.suffix_refl _))
  own := List.mem_of_getElem? (i := 0) rfl
  link := fun t h => single_link h (by decide)
  ty := by show spdxTerm _ ∉ innerTypes; decide

theorem annB_ok (ns : Str) (ext : Dict Str Str) (a : Annotation) (i : Nat) : (annB ns ext a i).Ok ns where
  body := oks_cons .own (oks_cons (.plain .self (by decide)) (oks_cons (.plain .self (by decide)) (oks_cons (.plain .self (by decide))
    (oks_cons (.plain .self (by decide)) oks_nil))))
  own := List.mem_of_getElem? (i := 0) rfl
  link := fun t h => single_link h (by decide)
  ty := by show spdxTerm _ ∉ innerTypes; decide

theorem relB_ok (ns : Str) (ext : Dict Str Str) (r : Relationship) (i : Nat) : (relB ns ext r i).Ok ns where
  body := oks_append (oks_cons .own (oks_cons (.plain .self (by decide)) (oks_cons (.plain .self (by decide)) oks_nil))) (oks_truthyLiteral _ .self (by decide))
  own := List.mem_of_getElem? (i := 0) rfl
  link := fun t h => single_link h (by decide)
  ty := by show spdxTerm _ ∉ innerTypes; decide

theorem licB_ok (c : CreationInfo) (e : ExtractedLicensingInfo) (i : Nat) : (licB c e i).Ok c.documentNamespace where
  body := oks_append (oks_append (oks_append (oks_append (oks_append (oks_cons .own oks_nil) (oks_optLiteral _ .self (by decide)))
    (oks_optLiteral _ .self (by decide))) (oks_literalOrNoAssertion _ .self (by decide))) (oks_literals _ .self (by decide))) (oks_optLiteral _ .self (by decide))
  own := List.mem_of_getElem? (i := 0) rfl
  link := fun t h => single_link h (by decide)
  ty := by show spdxTerm _ ∉ innerTypes; decide

theorem fileB_ok (env : RdfEnv) (ns : Str) (f : File) (i : Nat) : (fileB env ns f i).Ok ns where
  body := by
    show Oks _ _ _ (fileBlock _ _ _ _ _)
    unfold fileBlock
    repeat' apply oks_append
    · exact oks_cons .own (oks_cons (.plain .self (by decide)) oks_nil)
    · exact oks_map _ .uri .self (by decide)
    · exact oks_checksums _ .self (List.suffix_cons _ _)
    · exact oks_optLic _ _ _ .self (by decide) (List.suffix_cons _ _)
    · exact oks_licList _ _ _ .self (by decide) (List.suffix_cons _ _)
    all_goals first | exact oks_optLiteral _ .self (by decide) | exact oks_literals _ .self (by decide)
  own := List.mem_of_getElem? (i := 0) rfl
  link := by intro t h; cases h
  ty := by show spdxTerm _ ∉ innerTypes; decide

theorem packageBlock_type (env : RdfEnv) (ns : Str) (path : List Nat) (res : RdfNode) (p : Package) :
    (res, .type, spdxTerm s%"Package") ∈ packageBlock env ns path res p := by
  unfold packageBlock
  simp only [List.append_assoc, List.cons_append]
  exact List.mem_cons_self

theorem packageB_ok (env : RdfEnv) (ns : Str) (p : Package) (i : Nat) : (packageB env ns p i).Ok ns where
  body := by
    show Oks _ _ _ (packageBlock _ _ _ _ _)
    unfold packageBlock
    repeat' apply oks_append
    · exact oks_cons .own (oks_cons (.plain .self (by decide)) oks_nil)
    · exact oks_optLiteral _ .self (by decide)
    · exact oks_optLiteral _ .self (by decide)
    · exact oks_optLiteral _ .self (by decide)
    · exact oks_optLiteral _ .self (by decide)
    · exact oks_literalOrSpecial _ .self (by decide)
    · exact oks_cons (.plain .self (by decide)) oks_nil
    · exact oks_code _ .self (List.suffix_cons _ _)
    · exact oks_checksums _ .self (List.suffix_cons _ _)
    · exact oks_optLiteral _ .self (by decide)
    · exact oks_optLiteral _ .self (by decide)
    · exact oks_optLic _ _ _ .self (by decide) (List.suffix_cons _ _)
    · exact oks_licList _ _ _ .self (by decide) (List.suffix_cons _ _)
    · exact oks_optLic _ _ _ .self (by decide) (List.suffix_cons _ _)
    · exact oks_optLiteral _ .self (by decide)
    · exact oks_optLiteral _ .self (by decide)
    · exact oks_optLiteral _ .self (by decide)
    · exact oks_optLiteral _ .self (by decide)
    · exact oks_optLiteral _ .self (by decide)
    · exact oks_packageRefs _ _ .self (List.suffix_cons _ _)
    · exact oks_literals _ .self (by decide)
    · exact oks_purpose _ .self
    · exact oks_optLiteral _ .self (by decide)
    · exact oks_optLiteral _ .self (by decide)
    · exact oks_optLiteral _ .self (by decide)
  own := packageBlock_type _ _ _ _ _
  link := by intro t h; cases h
  ty := by show spdxTerm _ ∉ innerTypes; decide

theorem snippetB_ok (env : RdfEnv) (ns : Str) (ext : Dict Str Str) (s : Snippet) (i : Nat) : (snippetB env ns ext s i).Ok ns where
  body := by
    show Oks _ _ _ (snippetBlock _ _ _ _ _ _ _)
    unfold snippetBlock
    repeat' apply oks_append
    all_goals first
      | exact oks_optLiteral _ .self (by decide)
      | exact oks_literals _ .self (by decide)
      | exact oks_optLic _ _ _ .self (by decide) (List.suffix_cons _ _)
      | exact oks_licList _ _ _ .self (by decide) (List.suffix_cons _ _)
      | exact oks_range .byte _ .self (List.suffix_cons _ _) (by decide)
      | exact oks_range .line _ .self (List.suffix_cons _ _) (by decide)
      | exact oks_cons .own (oks_cons (.plain .self (by decide)) oks_nil)
  own := List.mem_of_getElem? (i := 0) rfl
  link := by intro t h; cases h
  ty := by show spdxTerm _ ∉ innerTypes; decide

/-! ### The blocks of a document -/

def blocksOf {α : Type} (F : α → Nat → Block) (l : List α) : List Block := l.zipIdx.map fun e => F e.1 e.2

theorem blocksOf_get {α : Type} {F : α → Nat → Block} {l : List α} {i : Nat} {b : Block} (h : (blocksOf F l)[i]? = some b) :
    ∃ x, l[i]? = some x ∧ b = F x i := by
  unfold blocksOf at h
  rw [List.getElem?_map, List.getElem?_zipIdx, Option.map_map] at h
  obtain ⟨x, hx, rfl⟩ := Option.map_eq_some_iff.1 h
  refine ⟨x, hx, ?_⟩
  simp

theorem mem_blocksOf {α : Type} {F : α → Nat → Block} {l : List α} {b : Block} : b ∈ blocksOf F l ↔ ∃ (i : Nat) (x : α), l[i]? = some x ∧ b = F x i := by
  constructor
  · intro h
    obtain ⟨i, hi⟩ := List.mem_iff_getElem?.1 h
    obtain ⟨x, h1, h2⟩ := blocksOf_get hi
    exact ⟨i, x, h1, h2⟩
  · rintro ⟨i, x, h, rfl⟩
    unfold blocksOf
    exact List.mem_map.2 ⟨(x, i), List.mem_zipIdx_iff_getElem?.2 h, rfl⟩

theorem blocksOf_names {α : Type} {F : α → Nat → Block} {l : List α} {f : α → Option Str} (h : ∀ x i, (F x i).name = f x) :
    (blocksOf F l).filterMap Block.name = l.filterMap f := by
  unfold blocksOf
  rw [List.filterMap_map]
  have : (Block.name ∘ fun e : α × Nat => F e.1 e.2) = f ∘ Prod.fst := by
    funext e
    exact h e.1 e.2
  rw [this, ← List.filterMap_map, List.zipIdx_map_fst]

def kindsOf (env : RdfEnv) (d : Document) : List (List Block) :=
  let c := d.creationInfo
  let ns := c.documentNamespace
  let ext := externalNamespaces c.externalDocumentRefs
  [[docB c, infoB c], blocksOf (extB c) c.externalDocumentRefs, blocksOf (annB ns ext) d.annotations, blocksOf (fileB env ns) d.files,
   blocksOf (packageB env ns) d.packages, blocksOf (relB ns ext) d.relationships, blocksOf (snippetB env ns ext) d.snippets,
   blocksOf (licB c) d.extractedLicensingInfo]

theorem kinds_path (env : RdfEnv) (d : Document) (k i : Nat) (l : List Block) (b : Block) (hk : (kindsOf env d)[k]? = some l) (hi : l[i]? = some b) :
    b.path = [i, k] := by
  match k, hk with
  | 0, hk =>
    cases hk
    match i, hi with
    | 0, hi => cases hi; rfl
    | 1, hi => cases hi; rfl
  | 1, hk => cases hk; obtain ⟨x, -, rfl⟩ := blocksOf_get hi; rfl
  | 2, hk => cases hk; obtain ⟨x, -, rfl⟩ := blocksOf_get hi; rfl
  | 3, hk => cases hk; obtain ⟨x, -, rfl⟩ := blocksOf_get hi; rfl
  | 4, hk => cases hk; obtain ⟨x, -, rfl⟩ := blocksOf_get hi; rfl
  | 5, hk => cases hk; obtain ⟨x, -, rfl⟩ := blocksOf_get hi; rfl
  | 6, hk => cases hk; obtain ⟨x, -, rfl⟩ := blocksOf_get hi; rfl
  | 7, hk => cases hk; obtain ⟨x, -, rfl⟩ := blocksOf_get hi; rfl

theorem filterMap_none {α β : Type} (l : List α) : l.filterMap (fun _ => (none : Option β)) = [] := by
  induction l with
  | nil => rfl
  | cons a l ih => rw [List.filterMap_cons_none rfl, ih]

theorem kinds_names (env : RdfEnv) (d : Document) : (kindsOf env d).flatten.filterMap Block.name = rdfNames d := by
  unfold kindsOf rdfNames
  simp only [List.flatten_cons, List.flatten_nil, List.append_nil, List.filterMap_append]
  rw [blocksOf_names (f := fun r => some r.documentRefId) (fun _ _ => rfl), blocksOf_names (f := fun _ => none) (fun _ _ => rfl),
    blocksOf_names (f := fun r => some r.spdxId) (fun _ _ => rfl), blocksOf_names (f := fun r => some r.spdxId) (fun _ _ => rfl),
    blocksOf_names (f := fun _ => none) (fun _ _ => rfl), blocksOf_names (f := fun r => some r.spdxId) (fun _ _ => rfl),
    blocksOf_names (f := fun r => r.licenseId) (fun _ _ => rfl), filterMap_none, filterMap_none]
  simp only [docB, infoB, List.filterMap_cons, List.filterMap_nil, List.append_assoc, List.nil_append, List.cons_append,
    List.filterMap_eq_map']

/-- the block of each element -/
theorem mem_kinds {env : RdfEnv} {d : Document} {b : Block} : b ∈ (kindsOf env d).flatten ↔
    b = docB d.creationInfo ∨ b = infoB d.creationInfo ∨ b ∈ blocksOf (extB d.creationInfo) d.creationInfo.externalDocumentRefs ∨
    b ∈ blocksOf (annB d.creationInfo.documentNamespace (externalNamespaces d.creationInfo.externalDocumentRefs)) d.annotations ∨
    b ∈ blocksOf (fileB env d.creationInfo.documentNamespace) d.files ∨ b ∈ blocksOf (packageB env d.creationInfo.documentNamespace) d.packages ∨
    b ∈ blocksOf (relB d.creationInfo.documentNamespace (externalNamespaces d.creationInfo.externalDocumentRefs)) d.relationships ∨
    b ∈ blocksOf (snippetB env d.creationInfo.documentNamespace (externalNamespaces d.creationInfo.externalDocumentRefs)) d.snippets ∨
    b ∈ blocksOf (licB d.creationInfo) d.extractedLicensingInfo := by
  unfold kindsOf
  simp only [List.flatten_cons, List.flatten_nil, List.append_nil, List.mem_append, List.mem_cons, List.not_mem_nil, or_false, or_assoc]

theorem blocksOf_ok {α : Type} {F : α → Nat → Block} {l : List α} {ns : Str} (h : ∀ x i, (F x i).Ok ns) : ∀ b ∈ blocksOf F l, b.Ok ns := by
  intro b hb
  obtain ⟨i, x, -, rfl⟩ := mem_blocksOf.1 hb
  exact h x i

theorem doc_blocks (env : RdfEnv) (d : Document) (h : (rdfNames d).Nodup) : Blocks d.creationInfo.documentNamespace (kindsOf env d).flatten := by
  have hp := path_inj (kinds := kindsOf env d) (kinds_path env d)
  refine ⟨?_, hp.1, hp.2, name_inj (by rw [kinds_names]; exact h)⟩
  intro b hb
  rcases mem_kinds.1 hb with rfl | rfl | hb | hb | hb | hb | hb | hb | hb
  · exact docB_ok _
  · exact infoB_ok _
  · exact blocksOf_ok (extB_ok _) b hb
  · exact blocksOf_ok (annB_ok _ _) b hb
  · exact blocksOf_ok (fileB_ok _ _) b hb
  · exact blocksOf_ok (packageB_ok _ _) b hb
  · exact blocksOf_ok (relB_ok _ _) b hb
  · exact blocksOf_ok (snippetB_ok _ _ _) b hb
  · exact blocksOf_ok (licB_ok _) b hb

/-! ### The graph that is written -/

theorem flatten_blocks {α : Type} {F : α → Nat → Block} (l : List α) :
    (l.zipIdx.map fun e => (F e.1 e.2).triples).flatten = (blocksOf F l).flatMap Block.triples := by
  unfold blocksOf
  rw [List.flatMap_map, ← List.flatMap_def]

theorem triples_nil (path : List Nat) (name : Option Str) (ty : RdfNode) (body : List Triple) : (Block.mk path name ty body []).triples = body :=
  List.append_nil _

theorem rdfGraph_blocks {env : RdfEnv} {d : Document} (h : DocRdf env d) : rdfGraph env d = some ((kindsOf env d).flatten.flatMap Block.triples) := by
  have hmem : ∀ {α : Type} {l : List α} {e : α × Nat}, e ∈ l.zipIdx → e.1 ∈ l := fun he =>
    List.mem_of_getElem? (List.mem_zipIdx_iff_getElem?.1 he)
  obtain ⟨ns, hns⟩ : ∃ ns, ns = d.creationInfo.documentNamespace := ⟨_, rfl⟩
  obtain ⟨ext, hext⟩ : ∃ ext, ext = externalNamespaces d.creationInfo.externalDocumentRefs := ⟨_, rfl⟩
  have e1 := creationInfoTriples_eq _ h.info.created
  have e2 := mapM_option_some (fun e : Annotation × Nat => annotationTriples ns ext [e.2, 2] e.1) (fun e => (annB ns ext e.1 e.2).triples) d.annotations.zipIdx
    (fun e he => annotationTriples_eq _ _ _ _ (h.annotations e.1 (hmem he)).date)
  have e3 := mapM_option_some (fun e : File × Nat => fileTriples env ns [e.2, 3] (.uri (addNamespace e.1.spdxId ns ext)) e.1)
    (fun e => (fileB env ns e.1 e.2).triples) d.files.zipIdx (fun e he => by
      rw [fileTriples_eq, addNamespace_local _ _ _ (h.files e.1 (hmem he)).id]
      exact congrArg some (triples_nil _ _ _ _).symm)
  have e4 := mapM_option_some (fun e : Package × Nat => packageTriples env ns [e.2, 4] (.uri (addNamespace e.1.spdxId ns ext)) e.1)
    (fun e => (packageB env ns e.1 e.2).triples) d.packages.zipIdx (fun e he => by
      rw [packageTriples_eq _ _ _ _ _ (h.packages e.1 (hmem he)), addNamespace_local _ _ _ (h.packages e.1 (hmem he)).id]
      exact congrArg some (triples_nil _ _ _ _).symm)
  have e5 := mapM_option_some (fun e : Relationship × Nat => relationshipTriples ns ext [e.2, 5] e.1) (fun e => (relB ns ext e.1 e.2).triples) d.relationships.zipIdx
    (fun e he => relationshipTriples_eq _ _ _ _)
  have e6 := mapM_option_some (fun e : Snippet × Nat => snippetTriples env ns ext [e.2, 6] (.uri (addNamespace e.1.spdxId ns ext)) e.1)
    (fun e => (snippetB env ns ext e.1 e.2).triples) d.snippets.zipIdx (fun e he => by
      obtain ⟨r, hr, -⟩ := (h.snippets e.1 (hmem he)).lines
      have hl : e.1.lineRange = some (linesOf e.1) := by unfold linesOf; rw [hr]; rfl
      rw [snippetTriples_eq _ _ _ _ _ _ _ hl, addNamespace_local _ _ _ (h.snippets e.1 (hmem he)).id]
      exact congrArg some (triples_nil _ _ _ _).symm)
  have e7 : d.extractedLicensingInfo.zipIdx.flatMap (fun e => extractedTriples ns [e.2, 7] (docNode d.creationInfo) e.1) =
      (blocksOf (licB d.creationInfo) d.extractedLicensingInfo).flatMap Block.triples := by
    rw [← flatten_blocks, List.flatMap_def]
    refine congrArg List.flatten (List.map_congr_left ?_)
    intro e he
    obtain ⟨i, hi, hc⟩ := (h.licenses e.1 (hmem he)).id
    rw [extractedTriples_eq _ _ _ _ _ hi hc.1]
    unfold licB Block.triples nodeOf
    rw [hi, hns]
  unfold rdfGraph
  dsimp only
  rw [← hns, ← hext, e1, e2, e3, e4, e5, e6]
  dsimp only
  rw [e7, flatten_blocks, flatten_blocks, flatten_blocks, flatten_blocks, flatten_blocks]
  have e8 : (d.creationInfo.externalDocumentRefs.zipIdx.flatMap fun e =>
      extRefBody [e.2, 1] (.uri (d.creationInfo.documentNamespace ++ s%"#" ++ e.1.documentRefId)) e.1 ++
        [(docNode d.creationInfo, .externalDocumentRef, .uri (d.creationInfo.documentNamespace ++ s%"#" ++ e.1.documentRefId))]) =
      (blocksOf (extB d.creationInfo) d.creationInfo.externalDocumentRefs).flatMap Block.triples := by
    rw [← flatten_blocks, ← List.flatMap_def]
    rfl
  rw [e8]
  unfold kindsOf
  dsimp only
  rw [← hns, ← hext]
  simp only [List.flatten_cons, List.flatten_nil, List.append_nil, List.flatMap_append, List.append_assoc]
  rw [List.flatMap_cons, List.flatMap_cons, List.flatMap_nil, List.append_nil]
  unfold docB
  rw [triples_nil]
  unfold infoB Block.triples
  simp only [List.append_assoc]

end Spdx
