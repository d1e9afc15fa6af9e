import Verif.Lemmas.RdfPackage
/- Snippets, annotations, relationships, extracted licenses and the creation information in graphs. -/
set_option linter.unusedSimpArgs false
namespace Spdx
open Spec

/-! ### Ranges -/

theorem objects_range_out (path : List Nat) (parent from_ : RdfNode) (cls : Str) (vp : Pred) (r : Int × Int) (s : RdfNode) (q : Pred) (h : Out path s) :
    RdfGraph.objects (rangeTriples path parent from_ cls vp r) s q = if parent = s ∧ .range = q then [.bnode path] else [] := by
  have h2 : ¬ RdfNode.bnode path = s := h.ne (List.suffix_refl _)
  have h3 : ¬ RdfNode.bnode (0 :: path) = s := h.ne (List.suffix_cons _ _)
  have h4 : ¬ RdfNode.bnode (1 :: path) = s := h.ne (List.suffix_cons _ _)
  unfold rangeTriples
  simp only [objects_cons, objects_nil, h2, h3, h4, false_and, if_false, List.append_nil, List.nil_append]

/-- the predicate of a kind of range -/
def RangeKind.pred : RangeKind → Pred
  | .byte => .offset
  | .line => .lineNumber

theorem parseRangeValue_one {g : RdfGraph} {n : RdfNode} {k : RangeKind} {i : Int} (h : g.objects n k.pred = [.int i]) (hi : i ≠ 0) :
    parseRangeValue g n k = some i := by
  unfold parseRangeValue
  have ht : (RdfNode.int i).truthy = true := decide_eq_true hi
  cases k <;> (simp only [RangeKind.pred] at h; simp only [h]; exact if_pos ht)

theorem range_read {g : RdfGraph} (hg : g.Nodup) {path : List Nat} {parent from_ : RdfNode} {cls : Str} {k : RangeKind} {r : Int × Int} (hp : Out path parent)
    (hk : rangeKind (pointerTerm cls) = some k) (h1 : r.1 ≠ 0) (h2 : r.2 ≠ 0)
    (hs : SeenAt g (rangeTriples path parent from_ cls k.pred r) path) : parseRdfRange g (.bnode path) = some (k, r) := by
  have n1 : ¬ parent = .bnode path := fun e => hp.ne (List.suffix_refl _) e.symm
  have n2 : ¬ parent = .bnode (0 :: path) := fun e => hp.ne (List.suffix_cons _ _) e.symm
  have n3 : ¬ parent = .bnode (1 :: path) := fun e => hp.ne (List.suffix_cons _ _) e.symm
  have n4 : ∀ i : Nat, ¬ path = i :: path := fun i h => by
    have := congrArg List.length h
    simp at this
  have n5 : ∀ i : Nat, ¬ i :: path = path := fun i h => n4 i h.symm
  have a1 := (hs.node (List.suffix_refl _) .startPointer).one hg (v := .bnode (0 :: path)) (by
    unfold rangeTriples RangeKind.pred; cases k <;> simp [objects_cons, objects_nil, n1, n5])
  have a2 := (hs.node (List.suffix_refl _) .endPointer).one hg (v := .bnode (1 :: path)) (by
    unfold rangeTriples RangeKind.pred; cases k <;> simp [objects_cons, objects_nil, n1, n5])
  have a3 := (hs.node (List.suffix_cons 0 path) .type).one hg (v := pointerTerm cls) (by
    unfold rangeTriples RangeKind.pred; cases k <;> simp [objects_cons, objects_nil, n2, n4])
  have a4 := (hs.node (List.suffix_cons 1 path) .type).one hg (v := pointerTerm cls) (by
    unfold rangeTriples RangeKind.pred; cases k <;> simp [objects_cons, objects_nil, n3, n4])
  have a5 := (hs.node (List.suffix_cons 0 path) k.pred).one hg (v := .int r.1) (by
    unfold rangeTriples RangeKind.pred; cases k <;> simp [objects_cons, objects_nil, n2, n4])
  have a6 := (hs.node (List.suffix_cons 1 path) k.pred).one hg (v := .int r.2) (by
    unfold rangeTriples RangeKind.pred; cases k <;> simp [objects_cons, objects_nil, n3, n4])
  have b1 : pointerOf g (.bnode path) .startPointer = some (pointerTerm cls, .bnode (0 :: path)) := by
    unfold pointerOf someValue
    rw [uniqueValue_opt (v := some (.bnode (0 :: path))) a1]
    show (do let type ← (g.objects (.bnode (0 :: path)) .type).head?; pure (type, RdfNode.bnode (0 :: path))) = _
    rw [a3]; rfl
  have b2 : pointerOf g (.bnode path) .endPointer = some (pointerTerm cls, .bnode (1 :: path)) := by
    unfold pointerOf someValue
    rw [uniqueValue_opt (v := some (.bnode (1 :: path))) a2]
    show (do let type ← (g.objects (.bnode (1 :: path)) .type).head?; pure (type, RdfNode.bnode (1 :: path))) = _
    rw [a4]; rfl
  unfold parseRdfRange
  rw [b1, b2]
  show (if pointerTerm cls ≠ pointerTerm cls then none else do
    let kind ← rangeKind (pointerTerm cls)
    let a ← parseRangeValue g (.bnode (0 :: path)) kind
    let z ← parseRangeValue g (.bnode (1 :: path)) kind
    pure (kind, (a, z))) = _
  rw [if_neg (by simp), hk]
  show (do
    let a ← parseRangeValue g (.bnode (0 :: path)) k
    let z ← parseRangeValue g (.bnode (1 :: path)) k
    pure (k, (a, z))) = _
  rw [parseRangeValue_one a5 h1, parseRangeValue_one a6 h2]
  rfl

theorem perm_pair {α : Type} {l : List α} {a b : α} (h : l.Perm [a, b]) : l = [a, b] ∨ l = [b, a] := by
  match l, h with
  | [], h => exact absurd h.length_eq (by simp)
  | [_], h => exact absurd h.length_eq (by simp)
  | _ :: _ :: _ :: _, h => exact absurd h.length_eq (by simp)
  | [x, y], h =>
    have hx : x ∈ [a, b] := h.mem_iff.1 (by simp)
    simp only [List.mem_cons, List.not_mem_nil, or_false] at hx
    rcases hx with rfl | rfl
    · have := List.perm_singleton.1 ((List.perm_cons x).1 h)
      cases this
      exact .inl rfl
    · have h' : [x, y].Perm [x, a] := h.trans (List.Perm.swap _ _ _)
      have := List.perm_singleton.1 ((List.perm_cons x).1 h')
      cases this
      exact .inr rfl

/-! ### Snippets -/

/-- the triples of a snippet -/
def snippetBlock (env : RdfEnv) (ns : Str) (ext : Dict Str Str) (path : List Nat) (res : RdfNode) (lines : Int × Int) (s : Snippet) : List Triple :=
    [(res, .type, spdxTerm s%"Snippet"), (res, .snippetFromFile, .uri (addNamespace s.fileSpdxId ns ext))] ++
    rangeTriples (0 :: path) res (.uri (addNamespace s.fileSpdxId ns ext)) s%"ByteOffsetPointer" RangeKind.byte.pred s.byteRange ++
    rangeTriples (1 :: path) res (.uri (addNamespace s.fileSpdxId ns ext)) s%"LineCharPointer" RangeKind.line.pred lines ++
    optLicTriples env ns (2 :: path) res .licenseConcluded s.licenseConcluded ++
    licListTriples env ns (3 :: path) res .licenseInfoInSnippet s.licenseInfoInSnippet ++
    optLiteral res .licenseComments s.licenseComment ++
    optLiteral res .copyrightText (s.copyrightText.map strOrSpecial) ++
    optLiteral res .rdfsComment s.comment ++
    optLiteral res .name s.name ++
    literals res .attributionText s.attributionTexts

theorem snippetTriples_eq (env : RdfEnv) (ns : Str) (ext : Dict Str Str) (path : List Nat) (res : RdfNode) (s : Snippet) (lines : Int × Int)
    (h : s.lineRange = some lines) : snippetTriples env ns ext path res s = some (snippetBlock env ns ext path res lines s) := by
  unfold snippetTriples
  rw [h]
  rfl

theorem snippetBlock_own (env : RdfEnv) (ns : Str) (ext : Dict Str Str) (path : List Nat) {u : Str} (lines : Int × Int) (x : Snippet)
    (hout : ∀ p, Out p (.uri u)) (p : Pred) :
    RdfGraph.objects (snippetBlock env ns ext path (.uri u) lines x) (.uri u) p = match p with
      | .type => [spdxTerm s%"Snippet"]
      | .snippetFromFile => [.uri (addNamespace x.fileSpdxId ns ext)]
      | .range => [.bnode (0 :: path), .bnode (1 :: path)]
      | .licenseConcluded => (x.licenseConcluded.map (licOrNode env ns (2 :: path))).toList
      | .licenseInfoInSnippet => x.licenseInfoInSnippet.zipIdx.map fun e => licOrNode env ns (e.2 :: 3 :: path) e.1
      | .licenseComments => (x.licenseComment.map RdfNode.str).toList
      | .copyrightText => ((x.copyrightText.map strOrSpecial).map RdfNode.str).toList
      | .rdfsComment => (x.comment.map RdfNode.str).toList
      | .name => (x.name.map RdfNode.str).toList
      | .attributionText => x.attributionTexts.map .str
      | _ => [] := by
  unfold snippetBlock
  simp only [objects_append, objects_cons, objects_nil, objects_optLiteral, objects_literals, objects_range_out _ _ _ _ _ _ _ _ (hout _),
    objects_optLic_out _ _ _ _ _ _ _ (hout _), objects_licList_out _ _ _ _ _ _ _ (hout _), true_and]
  cases p <;> simp only [reduceCtorEq, if_false, if_true, List.append_nil, List.nil_append, List.cons_append]

theorem snippetBlock_bytes (env : RdfEnv) (ns : Str) (ext : Dict Str Str) (path : List Nat) (u : Str) (lines : Int × Int) (s : Snippet) (q : List Nat) (r : Pred)
    (hq : 0 :: path <:+ q) : RdfGraph.objects (snippetBlock env ns ext path (.uri u) lines s) (.bnode q) r =
      RdfGraph.objects (rangeTriples (0 :: path) (.uri u) (.uri (addNamespace s.fileSpdxId ns ext)) s%"ByteOffsetPointer" RangeKind.byte.pred s.byteRange) (.bnode q) r := by
  unfold snippetBlock
  simp only [objects_append, objects_cons, objects_nil, objects_optLiteral, objects_literals, reduceCtorEq, false_and, if_false,
    objects_range_out _ _ _ _ _ _ _ _ (Out.sibling hq (show 1 ≠ 0 by decide)),
    objects_optLic_out _ _ _ _ _ _ _ (Out.sibling hq (show 2 ≠ 0 by decide)),
    objects_licList_out _ _ _ _ _ _ _ (Out.sibling hq (show 3 ≠ 0 by decide)), List.append_nil, List.nil_append]

theorem snippetBlock_lines (env : RdfEnv) (ns : Str) (ext : Dict Str Str) (path : List Nat) (u : Str) (lines : Int × Int) (s : Snippet) (q : List Nat) (r : Pred)
    (hq : 1 :: path <:+ q) : RdfGraph.objects (snippetBlock env ns ext path (.uri u) lines s) (.bnode q) r =
      RdfGraph.objects (rangeTriples (1 :: path) (.uri u) (.uri (addNamespace s.fileSpdxId ns ext)) s%"LineCharPointer" RangeKind.line.pred lines) (.bnode q) r := by
  unfold snippetBlock
  simp only [objects_append, objects_cons, objects_nil, objects_optLiteral, objects_literals, reduceCtorEq, false_and, if_false,
    objects_range_out _ _ _ _ _ _ _ _ (Out.sibling hq (show 0 ≠ 1 by decide)),
    objects_optLic_out _ _ _ _ _ _ _ (Out.sibling hq (show 2 ≠ 1 by decide)),
    objects_licList_out _ _ _ _ _ _ _ (Out.sibling hq (show 3 ≠ 1 by decide)), List.append_nil, List.nil_append]

theorem snippetBlock_concluded (env : RdfEnv) (ns : Str) (ext : Dict Str Str) (path : List Nat) (u : Str) (lines : Int × Int) (s : Snippet) (q : List Nat) (r : Pred)
    (hq : 2 :: path <:+ q) : RdfGraph.objects (snippetBlock env ns ext path (.uri u) lines s) (.bnode q) r =
      RdfGraph.objects (optLicTriples env ns (2 :: path) (.uri u) .licenseConcluded s.licenseConcluded) (.bnode q) r := by
  unfold snippetBlock
  simp only [objects_append, objects_cons, objects_nil, objects_optLiteral, objects_literals, reduceCtorEq, false_and, if_false,
    objects_range_out _ _ _ _ _ _ _ _ (Out.sibling hq (show 0 ≠ 2 by decide)),
    objects_range_out _ _ _ _ _ _ _ _ (Out.sibling hq (show 1 ≠ 2 by decide)),
    objects_licList_out _ _ _ _ _ _ _ (Out.sibling hq (show 3 ≠ 2 by decide)), List.append_nil, List.nil_append]

theorem snippetBlock_info (env : RdfEnv) (ns : Str) (ext : Dict Str Str) (path : List Nat) (u : Str) (lines : Int × Int) (s : Snippet) (q : List Nat) (r : Pred)
    (hq : 3 :: path <:+ q) : RdfGraph.objects (snippetBlock env ns ext path (.uri u) lines s) (.bnode q) r =
      RdfGraph.objects (licListTriples env ns (3 :: path) (.uri u) .licenseInfoInSnippet s.licenseInfoInSnippet) (.bnode q) r := by
  unfold snippetBlock
  simp only [objects_append, objects_cons, objects_nil, objects_optLiteral, objects_literals, reduceCtorEq, false_and, if_false,
    objects_range_out _ _ _ _ _ _ _ _ (Out.sibling hq (show 0 ≠ 3 by decide)),
    objects_range_out _ _ _ _ _ _ _ _ (Out.sibling hq (show 1 ≠ 3 by decide)),
    objects_optLic_out _ _ _ _ _ _ _ (Out.sibling hq (show 2 ≠ 3 by decide)), List.append_nil, List.nil_append]

theorem snippet_read {env : RdfEnv} {b : Bindings} {g : RdfGraph} {ns : Str} {ext : Dict Str Str} {refs : List ExternalDocumentRef} (hns : NsLic ns)
    {path : List Nat} {s : Snippet} {lines : Int × Int} (hf : SnippetRdf env refs s) (hl : s.lineRange = some lines)
    (hfile : parseRdfId b ns (.uri (addNamespace s.fileSpdxId ns ext)) = some (some s.fileSpdxId))
    (hs : Seen g (snippetBlock env ns ext path (.uri (ns ++ s%"#" ++ s.spdxId)) lines s) (.uri (ns ++ s%"#" ++ s.spdxId)) path) :
    ∃ y, parseRdfSnippet env b g ns (.uri (ns ++ s%"#" ++ s.spdxId)) = some y ∧ SameSnippet s y := by
  have hid := parseRdfId_local b ns s.spdxId hns.noHash
  have hout : ∀ p, Out p (.uri (ns ++ s%"#" ++ s.spdxId)) := fun p => Out.uri (ns_not_license hns.license _)
  obtain ⟨u, hu⟩ : ∃ u, u = ns ++ s%"#" ++ s.spdxId := ⟨_, rfl⟩
  rw [← hu] at hs hid hout ⊢
  have hg := hs.nodup
  have hlines : lines.1 ≠ 0 ∧ lines.2 ≠ 0 := by
    obtain ⟨r, h1, h2⟩ := hf.lines
    rw [hl] at h1
    cases h1
    exact h2
  have hobj := snippetBlock_own env ns ext path lines s hout
  have h1 := (hs.own .snippetFromFile (by decide)).one hg (v := .uri (addNamespace s.fileSpdxId ns ext)) (hobj _)
  have h2 := (hs.own .range (by decide)).perm hg (l := [.bnode (0 :: path), .bnode (1 :: path)]) (hobj _) (by simp)
  have h4 := (hs.own .licenseConcluded (by decide)).opt hg (v := s.licenseConcluded.map (licOrNode env ns (2 :: path))) (hobj _)
  have h5 := (hs.own .licenseInfoInSnippet (by decide)).perm hg (l := s.licenseInfoInSnippet.zipIdx.map fun e => licOrNode env ns (e.2 :: 3 :: path) e.1)
    (hobj _) (licOrNodes_nodup hns _ hf.info.1)
  have h6 := (hs.own .licenseComments (by decide)).opt hg (v := s.licenseComment.map .str) (hobj _)
  have h7 := (hs.own .copyrightText (by decide)).opt hg (v := (s.copyrightText.map strOrSpecial).map .str) (hobj _)
  have h8 := (hs.own .rdfsComment (by decide)).opt hg (v := s.comment.map .str) (hobj _)
  have h9 := (hs.own .name (by decide)).opt hg (v := s.name.map .str) (hobj _)
  have h11 := (hs.own .attributionText (by decide)).perm hg (l := s.attributionTexts.map .str) (hobj _) (nodup_str hf.attribution)
  have r0 := range_read (k := .byte) hg (hout _) (by decide) hf.bytes.1 hf.bytes.2
    (hs.below.narrow (List.suffix_cons 0 path) (snippetBlock_bytes env ns ext path u lines s))
  have r1 := range_read (k := .line) hg (hout _) (by decide) hlines.1 hlines.2
    (hs.below.narrow (List.suffix_cons 1 path) (snippetBlock_lines env ns ext path u lines s))
  have r2 : parseRdfRanges g (none, none) (g.objects (.uri u) .range) = some (some s.byteRange, some lines) := by
    rcases perm_pair h2 with h | h
    · rw [h]
      simp only [parseRdfRanges, r0, r1, setRdfRange, Option.bind_eq_bind, Option.bind_some]
    · rw [h]
      simp only [parseRdfRanges, r0, r1, setRdfRange, Option.bind_eq_bind, Option.bind_some]
  obtain ⟨concluded, r4, p4⟩ := optLic_read hg hns hf.concluded (hout _)
    (hs.below.narrow (List.suffix_cons 2 path) (snippetBlock_concluded env ns ext path u lines s)) h4
  obtain ⟨info, r5, p5⟩ := licList_read hg hns hf.info.2 (hout _)
    (hs.below.narrow (List.suffix_cons 3 path) (snippetBlock_info env ns ext path u lines s)) h5
  obtain ⟨attribution, r11, p11⟩ := rdfTexts_perm h11
  have rf : someValue g (.uri u) .snippetFromFile = some (.uri (addNamespace s.fileSpdxId ns ext)) := by unfold someValue; rw [h1]; rfl
  refine ⟨⟨s.spdxId, s.fileSpdxId, s.byteRange, some lines, concluded, info, s.licenseComment, s.copyrightText, s.comment, s.name, attribution⟩, ?_, ?_⟩
  · unfold parseRdfSnippet
    rw [hid, rf, r2, r4, r5, rdfLiteral_text h6 hf.licenseComment, rdfSpecial_text h7 hf.copyright, rdfLiteral_text h8 hf.comment,
      rdfLiteral_text h9 hf.name, r11]
    show (do
      let fileId ← needed (parseRdfId b ns (.uri (addNamespace s.fileSpdxId ns ext)))
      pure (⟨s.spdxId, fileId, s.byteRange, some lines, concluded, info, s.licenseComment, s.copyrightText, s.comment, s.name, attribution⟩ : Snippet)) = _
    rw [hfile]
    rfl
  · exact ⟨rfl, rfl, rfl, hl.symm, p4, p5, rfl, rfl, rfl, rfl, p11⟩

/-! ### Annotations and relationships -/

/-- the triples about an annotation -/
def annotationBody (path : List Nat) (a : Annotation) : List Triple :=
  [(.bnode path, .type, spdxTerm s%"Annotation"), (.bnode path, .annotationType, .uri (termUri s%"annotationType_" a.annotationType.name)),
      (.bnode path, .annotator, .str a.annotator.toSerialized), (.bnode path, .annotationDate, .str (isoText a.annotationDate)),
      (.bnode path, .rdfsComment, .str a.annotationComment)]

theorem annotationTriples_eq (ns : Str) (ext : Dict Str Str) (path : List Nat) (a : Annotation) (h : DateOk a.annotationDate) :
    annotationTriples ns ext path a = some (annotationBody path a ++ [(.uri (addNamespace a.spdxId ns ext), .annotation, .bnode path)]) := by
  unfold annotationTriples
  rw [(C40.annotation_types a.annotationType).1, (date_read h).1]
  rfl

theorem annotation_read {b : Bindings} {g : RdfGraph} {ns : Str} {refs : List ExternalDocumentRef} {path : List Nat} {a : Annotation} {s : RdfNode} (ha : AnnotationRdf refs a)
    (hid : parseRdfId b ns s = some (some a.spdxId)) (hg : g.Nodup) (hs : SeenAt g (annotationBody path a) path) :
    parseRdfAnnotation b g ns (s, .bnode path) = some a := by
  have a1 := (hs.node (List.suffix_refl _) .annotator).one hg (v := .str a.annotator.toSerialized) (by
    unfold annotationBody; simp [objects_cons, objects_nil])
  have a2 := (hs.node (List.suffix_refl _) .annotationType).one hg (v := .uri (termUri s%"annotationType_" a.annotationType.name)) (by
    unfold annotationBody; simp [objects_cons, objects_nil])
  have a3 := (hs.node (List.suffix_refl _) .annotationDate).one hg (v := .str (isoText a.annotationDate)) (by
    unfold annotationBody; simp [objects_cons, objects_nil])
  have a4 := (hs.node (List.suffix_refl _) .rdfsComment).one hg (v := .str a.annotationComment) (by
    unfold annotationBody; simp [objects_cons, objects_nil])
  unfold parseRdfAnnotation
  rw [hid, rdfLiteral_some a1 (actor_truthy _) (actorOf_read ha.annotator), rdfLiteral_enum C40.annotation_types a2,
    rdfLiteral_some a3 (date_read ha.date).2.1 (date_read ha.date).2.2, rdfLiteral_needed a4 ha.comment]
  rfl

/-- the triples about a relationship -/
def relationshipBody (ns : Str) (ext : Dict Str Str) (path : List Nat) (r : Relationship) : List Triple :=
  [(.bnode path, .type, spdxTerm s%"Relationship"), (.bnode path, .relationshipType, .uri (termUri s%"relationshipType_" r.relationshipType.name)),
      (.bnode path, .relatedSpdxElement, relatedNode ns ext r.relatedSpdxElementId)] ++
      truthyLiteral (.bnode path) .rdfsComment r.comment

theorem relationshipTriples_eq (ns : Str) (ext : Dict Str Str) (path : List Nat) (r : Relationship) :
    relationshipTriples ns ext path r = some (relationshipBody ns ext path r ++ [(.uri (addNamespace r.spdxElementId ns ext), .relationship, .bnode path)]) := by
  unfold relationshipTriples
  rw [(C40.relationship_types r.relationshipType).1]
  rfl

theorem hash_localId_plain {u loc : Str} (hu : '#' ∉ u) (hl : LocalId loc) : (RdfNode.uri (u ++ s%"#" ++ loc)).truthy = true ∧
    (RdfNode.uri (u ++ s%"#" ++ loc) ≠ spdxTerm s%"noassertion" ∧ (RdfNode.uri (u ++ s%"#" ++ loc)).toPyStr ≠ some s%"NOASSERTION") ∧
    RdfNode.uri (u ++ s%"#" ++ loc) ≠ spdxTerm s%"none" ∧ (RdfNode.uri (u ++ s%"#" ++ loc)).toPyStr ≠ some s%"NONE" := by
  have htext : ∀ t : Str, '#' ∉ t → (RdfNode.uri (u ++ s%"#" ++ loc)).toPyStr ≠ some t := by
    intro t ht e
    apply ht
    rw [← Option.some.inj e]
    simp
  have hterm : ∀ t : Str, t.head? = some 'n' → RdfNode.uri (u ++ s%"#" ++ loc) ≠ spdxTerm t := by
    intro t ht e
    have e := RdfNode.uri.inj e
    have h1 : spdxNamespace = s%"http://spdx.org/rdf/terms" ++ s%"#" := by decide
    rw [h1] at e
    have := hash_split hu (by decide +kernel) (by simpa using e : u ++ '#' :: loc = s%"http://spdx.org/rdf/terms" ++ '#' :: t)
    rw [this] at e
    have := List.append_cancel_left e
    obtain ⟨x, -, rfl, -⟩ := hl
    rw [← this] at ht
    exact absurd ht (by intro h; exact absurd (Option.some.inj h) (by decide))
  exact ⟨by unfold RdfNode.truthy; simp, ⟨hterm _ rfl, htext _ (by decide)⟩, hterm _ rfl, htext _ (by decide)⟩

theorem usable_plain {ns id : Str} {refs : List ExternalDocumentRef} (hsep : C38.Separate ns refs) (hu : C38.Usable refs id) :
    ∃ u loc, '#' ∉ u ∧ LocalId loc ∧ addNamespace id ns (externalNamespaces refs) = u ++ s%"#" ++ loc := by
  rcases hu with h | ⟨r, hr, loc, hl, rfl⟩
  · exact ⟨ns, id, hsep.noHash.1, h, addNamespace_local _ _ _ h⟩
  · exact ⟨r.documentUri, loc, hsep.noHash.2 r hr, hl, addNamespace_external _ _ _ _ _ (hsep.names r hr) hl (externalNamespaces_get refs hsep.ids r hr)⟩

theorem relationship_read {b : Bindings} {g : RdfGraph} {ns : Str} {refs : List ExternalDocumentRef} {path : List Nat} {r : Relationship} {s : RdfNode}
    (hr : RelationshipRdf refs r) (hsep : C38.Separate ns refs) (hid : parseRdfId b ns s = some (some r.spdxElementId))
    (hread : ∀ id, C38.Usable refs id → parseRdfId b ns (.uri (addNamespace id ns (externalNamespaces refs))) = some (some id)) (hg : g.Nodup)
    (hs : SeenAt g (relationshipBody ns (externalNamespaces refs) path r) path) : parseRdfRelationship b g ns (s, .bnode path) = some r := by
  have hc := fun q => objects_truthyLiteral (.bnode path) .rdfsComment r.comment (.bnode path) q (fun t ht => (hr.comment t ht).1)
  have a1 := (hs.node (List.suffix_refl _) .relationshipType).one hg (v := .uri (termUri s%"relationshipType_" r.relationshipType.name)) (by
    unfold relationshipBody; rw [objects_append, hc]; simp [objects_cons, objects_nil])
  have a2 := (hs.node (List.suffix_refl _) .relatedSpdxElement).one hg (v := relatedNode ns (externalNamespaces refs) r.relatedSpdxElementId) (by
    unfold relationshipBody; rw [objects_append, hc]; simp [objects_cons, objects_nil])
  have a3 := (hs.node (List.suffix_refl _) .rdfsComment).opt hg (v := r.comment.map .str) (by
    unfold relationshipBody; rw [objects_append, hc]; simp [objects_cons, objects_nil])
  have h2 : rdfSpecial g (.bnode path) .relatedSpdxElement (parseRdfId b ns) = some (some r.relatedSpdxElementId) := by
    rw [rdfSpecial_some a2]
    cases hx : r.relatedSpdxElementId with
    | none => exact specialOr_none
    | noAssertion => exact specialOr_noAssertion
    | val t =>
      have hu := hr.related t hx
      obtain ⟨u, loc, k1, k2, k3⟩ := usable_plain hsep hu
      have hp := hash_localId_plain k1 k2
      rw [← k3] at hp
      exact specialOr_val hp.1 hp.2.1.1 hp.2.1.2 hp.2.2.1 hp.2.2.2 (hread t hu)
  unfold parseRdfRelationship
  rw [hid, rdfLiteral_enum C40.relationship_types a1, h2, rdfLiteral_text a3 hr.comment]
  rfl

/-! ### Extracted licenses -/

/-- the triples about an extracted license -/
def extractedBody (res : RdfNode) (e : ExtractedLicensingInfo) : List Triple :=
  [(res, .type, spdxTerm s%"ExtractedLicensingInfo")] ++ optLiteral res .licenseId e.licenseId ++ optLiteral res .extractedText e.extractedText ++
  literalOrNoAssertion res .name e.licenseName ++ literals res .seeAlso e.crossReferences ++ optLiteral res .rdfsComment e.comment

theorem extractedTriples_eq (ns : Str) (path : List Nat) (doc : RdfNode) (e : ExtractedLicensingInfo) (i : Str) (h : e.licenseId = some i) (hi : i ≠ []) :
    extractedTriples ns path doc e = extractedBody (.uri (ns ++ s%"#" ++ i)) e ++ [(doc, .hasExtractedLicensingInfo, .uri (ns ++ s%"#" ++ i))] := by
  have : extractedNode ns path e = .uri (ns ++ s%"#" ++ i) := by
    unfold extractedNode
    rw [h]
    exact if_neg hi
  unfold extractedTriples
  rw [this]
  rfl

theorem extractedBody_own (res : RdfNode) (e : ExtractedLicensingInfo) (p : Pred) : RdfGraph.objects (extractedBody res e) res p = match p with
      | .type => [spdxTerm s%"ExtractedLicensingInfo"]
      | .licenseId => (e.licenseId.map RdfNode.str).toList
      | .extractedText => (e.extractedText.map RdfNode.str).toList
      | .name => (e.licenseName.map noAssertionNode).toList
      | .seeAlso => e.crossReferences.map .str
      | .rdfsComment => (e.comment.map RdfNode.str).toList
      | _ => [] := by
  unfold extractedBody
  simp only [objects_append, objects_cons, objects_nil, objects_optLiteral, objects_literals, objects_literalOrNoAssertion, true_and]
  cases p <;> simp only [reduceCtorEq, if_false, if_true, List.append_nil, List.nil_append]

theorem extracted_read {g : RdfGraph} {ns : Str} {path : List Nat} {e : ExtractedLicensingInfo} {res : RdfNode} (he : LicenseRdf e)
    (hs : Seen g (extractedBody res e) res path) : ∃ y, parseRdfExtracted g ns res = some y ∧ SameLicense e y := by
  have hg := hs.nodup
  have hobj := extractedBody_own res e
  obtain ⟨i, hi, hc⟩ := he.id
  have h1 := (hs.own .licenseId (by decide)).opt hg (v := e.licenseId.map .str) (hobj _)
  have h2 := (hs.own .extractedText (by decide)).opt hg (v := e.extractedText.map .str) (hobj _)
  have h3 := (hs.own .name (by decide)).opt hg (v := e.licenseName.map noAssertionNode) (hobj _)
  have h4 := (hs.own .seeAlso (by decide)).perm hg (l := e.crossReferences.map .str) (hobj _) (nodup_str he.cross)
  have h5 := (hs.own .rdfsComment (by decide)).opt hg (v := e.comment.map .str) (hobj _)
  obtain ⟨cross, r4, p4⟩ := rdfTexts_perm h4
  refine ⟨⟨some i, e.extractedText, e.licenseName, cross, e.comment⟩, ?_, p4, ?_⟩
  · unfold parseRdfExtracted
    rw [rdfLiteral_text h1 (by rw [hi]; intro t ht; cases ht; exact hc), rdfLiteral_text h2 he.text, rdfSpecial_noAssertion h3 he.name, r4,
      rdfLiteral_text h5 he.comment, hi]
    show (do
      let id ← (if i = [] then extractedId.nodeName ns res else some i)
      pure (⟨some id, e.extractedText, e.licenseName, cross, e.comment⟩ : ExtractedLicensingInfo)) = _
    rw [if_neg hc.1]
    rfl
  · cases e
    simp only at hi
    subst hi
    rfl

/-! ### External document references -/

/-- the triples about an external document reference -/
def extRefBody (path : List Nat) (res : RdfNode) (r : ExternalDocumentRef) : List Triple :=
  [(res, .type, spdxTerm s%"ExternalDocumentRef"), (res, .spdxDocument, .uri r.documentUri)] ++ checksumTriples path res r.checksum

theorem extRef_read {b : Bindings} {g : RdfGraph} {ns : Str} {path : List Nat} {r : ExternalDocumentRef} (hns : NsLic ns)
    (hr : Clean r.documentUri ∧ Clean r.checksum.value) (hblank : ' ' ∉ r.documentRefId)
    (hs : Seen g (extRefBody path (.uri (ns ++ s%"#" ++ r.documentRefId)) r) (.uri (ns ++ s%"#" ++ r.documentRefId)) path) :
    parseExtRef g ns b (.uri (ns ++ s%"#" ++ r.documentRefId)) = some (r, b.bind r.documentRefId (r.documentUri ++ s%"#")) := by
  have hid := parseRdfId_local b ns r.documentRefId hns.noHash
  have hout : ∀ p, Out p (.uri (ns ++ s%"#" ++ r.documentRefId)) := fun p => Out.uri (ns_not_license hns.license _)
  obtain ⟨u, hu⟩ : ∃ u, u = ns ++ s%"#" ++ r.documentRefId := ⟨_, rfl⟩
  rw [← hu] at hs hid hout ⊢
  have hg := hs.nodup
  have h1 := (hs.own .spdxDocument (by decide)).one hg (v := .uri r.documentUri) (by
    unfold extRefBody; rw [objects_append, objects_checksum_out _ _ _ _ _ (hout _)]; simp [objects_cons, objects_nil])
  have h2 := (hs.own .checksum (by decide)).one hg (v := .bnode path) (by
    unfold extRefBody; rw [objects_append, objects_checksum_out _ _ _ _ _ (hout _)]; simp [objects_cons, objects_nil])
  have c := checksum_read hg (hout _) hr.2 (hs.below.narrow (List.suffix_refl _) (by
    intro q p hq
    unfold extRefBody; rw [objects_append]; simp [objects_cons, objects_nil]))
  unfold parseExtRef
  rw [hid, rdfLiteral_some (m := stripText) h1 (clean_str hr.1).1 (clean_str hr.1).2, rdfLiteral_some (m := parseRdfChecksum g) h2 rfl c]
  exact if_neg hblank

theorem docRef_noBlank {id : Str} (h : DocRef id) : ' ' ∉ id := by
  obtain ⟨t, _, rfl, ht⟩ := h
  intro hm
  rcases List.mem_append.1 hm with hm | hm
  · revert hm; decide
  · exact absurd (ht _ hm) (by unfold IdChar; decide)

/-- All references, in the order in which they are found. -/
theorem extRefs_read {g : RdfGraph} {ns : Str} (b : Bindings) (l : List RdfNode) (refs : List ExternalDocumentRef) (h : l = refs.map fun r : ExternalDocumentRef => .uri (ns ++ s%"#" ++ r.documentRefId))
    (hr : ∀ r ∈ refs, ∀ b, parseExtRef g ns b (.uri (ns ++ s%"#" ++ r.documentRefId)) = some (r, b.bind r.documentRefId (r.documentUri ++ s%"#"))) :
    parseExtRefs g ns b l = some (refs, bindRefs b refs) := by
  subst h
  induction refs generalizing b with
  | nil => rfl
  | cons r refs ih =>
    rw [List.map_cons, parseExtRefs, hr r List.mem_cons_self b]
    show (do
      let (rs, b) ← parseExtRefs g ns (b.bind r.documentRefId (r.documentUri ++ s%"#")) (refs.map fun r : ExternalDocumentRef => .uri (ns ++ s%"#" ++ r.documentRefId))
      pure (r :: rs, b)) = _
    rw [ih _ (fun x hx => hr x (List.mem_cons_of_mem _ hx))]
    rfl

/-! ### The creation information -/

/-- the triples about the document -/
def docBody (c : CreationInfo) : List Triple :=
  [(docNode c, .type, spdxTerm s%"SpdxDocument"), (docNode c, .specVersion, .str c.spdxVersion),
     (docNode c, .dataLicense, .uri (licenseNamespace ++ c.dataLicense)), (docNode c, .name, .str c.name)] ++
    optLiteral (docNode c) .rdfsComment c.documentComment

/-- the triples about the creation -/
def infoBody (c : CreationInfo) : List Triple :=
    [(.bnode [1, 0], .type, spdxTerm s%"CreationInfo"), (.bnode [1, 0], .created, .str (isoText c.created))] ++
    literals (.bnode [1, 0]) .creator (c.creators.map Actor.toSerialized) ++
    optLiteral (.bnode [1, 0]) .licenseListVersion (c.licenseListVersion.map Version.toStr) ++
    optLiteral (.bnode [1, 0]) .rdfsComment c.creatorComment

theorem creationInfoTriples_eq (c : CreationInfo) (h : DateOk c.created) : creationInfoTriples c =
    some (docBody c ++ (infoBody c ++ [(docNode c, .creationInfo, .bnode [1, 0])]) ++
      c.externalDocumentRefs.zipIdx.flatMap fun e => extRefBody [e.2, 1] (.uri (c.documentNamespace ++ s%"#" ++ e.1.documentRefId)) e.1 ++
        [(docNode c, .externalDocumentRef, .uri (c.documentNamespace ++ s%"#" ++ e.1.documentRefId))]) := by
  unfold creationInfoTriples
  rw [(date_read h).1]
  have hext : (fun e : ExternalDocumentRef × Nat => extRefTriples [e.2, 1] (docNode c) c.documentNamespace e.1) = fun e =>
      extRefBody [e.2, 1] (.uri (c.documentNamespace ++ s%"#" ++ e.1.documentRefId)) e.1 ++
        [(docNode c, .externalDocumentRef, .uri (c.documentNamespace ++ s%"#" ++ e.1.documentRefId))] := rfl
  rw [hext]
  unfold docBody infoBody
  simp only [List.append_assoc]

theorem versionToStr_truthy (v : Version) : (RdfNode.str v.toStr).truthy = true := by
  have := C04.roundtrip v
  cases h : v.toStr with
  | nil => rw [h] at this; exact absurd this (by rw [show versionFromString [] = none by decide +kernel]; intro h; cases h)
  | cons => rfl

theorem info_read {env : RdfEnv} {b : Bindings} {g : RdfGraph} {c : CreationInfo} (hns : NamespaceOk env c.documentNamespace c.spdxId) (hc : InfoRdf c)
    (hdoc : g.subjects .type (spdxTerm s%"SpdxDocument") = [docNode c]) (hinfo : g.subjects .type (spdxTerm s%"CreationInfo") = [.bnode [1, 0]])
    (h1 : Seen g (docBody c) (docNode c) [0, 0]) (h2 : SeenAt g (infoBody c) [1, 0])
    (hrefs : (g.objects (docNode c) .externalDocumentRef).Perm (c.externalDocumentRefs.map fun r => .uri (c.documentNamespace ++ s%"#" ++ r.documentRefId)))
    (href : ∀ r ∈ c.externalDocumentRefs, ∀ b, parseExtRef g c.documentNamespace b (.uri (c.documentNamespace ++ s%"#" ++ r.documentRefId)) =
      some (r, b.bind r.documentRefId (r.documentUri ++ s%"#"))) :
    ∃ c' found, parseRdfCreationInfo env b g = some (c', bindRefs b found) ∧ found.Perm c.externalDocumentRefs ∧ SameInfo c c' := by
  have hg := h1.nodup
  have a1 := (h1.own .specVersion (by decide)).one hg (v := .str c.spdxVersion) (by
    unfold docBody; simp [objects_append, objects_optLiteral, objects_cons, objects_nil])
  have a2 := (h1.own .dataLicense (by decide)).one hg (v := .uri (licenseNamespace ++ c.dataLicense)) (by
    unfold docBody; simp [objects_append, objects_optLiteral, objects_cons, objects_nil])
  have a3 := (h1.own .name (by decide)).one hg (v := .str c.name) (by
    unfold docBody; simp [objects_append, objects_optLiteral, objects_cons, objects_nil])
  have a4 := (h1.own .rdfsComment (by decide)).opt hg (v := c.documentComment.map .str) (by
    unfold docBody; simp [objects_append, objects_optLiteral, objects_cons, objects_nil])
  have hn : (c.creators.map Actor.toSerialized).Nodup := nodup_map_of_inj hc.creators.2.1 (by
    intro x hx y hy e
    have h1 := C05.roundtrip x (hc.creators.2.2 x hx)
    rw [e, C05.roundtrip y (hc.creators.2.2 y hy)] at h1
    cases h1
    rfl)
  have b1 := (h2.node (List.suffix_refl _) .created).one hg (v := .str (isoText c.created)) (by
    unfold infoBody; simp [objects_append, objects_optLiteral, objects_literals, objects_cons, objects_nil])
  have b2 := (h2.node (List.suffix_refl _) .licenseListVersion).opt hg (v := (c.licenseListVersion.map Version.toStr).map .str) (by
    unfold infoBody; simp [objects_append, objects_optLiteral, objects_literals, objects_cons, objects_nil])
  have b3 := (h2.node (List.suffix_refl _) .rdfsComment).opt hg (v := c.creatorComment.map .str) (by
    unfold infoBody; simp [objects_append, objects_optLiteral, objects_literals, objects_cons, objects_nil])
  have b4 := (h2.node (List.suffix_refl _) .creator).perm hg (l := (c.creators.map Actor.toSerialized).map .str) (by
    unfold infoBody; simp [objects_append, objects_optLiteral, objects_literals, objects_cons, objects_nil]) (nodup_str hn)
  rw [Option.map_map] at b2
  rw [List.map_map] at b4
  have hactor : ∀ a ∈ c.creators, (fun n : RdfNode => n.toPyStr.bind actorOf) ((RdfNode.str ∘ Actor.toSerialized) a) = some (id a) := by
    intro a ha
    show actorOf a.toSerialized = _
    rw [actorOf_read (hc.creators.2.2 a ha)]
    rfl
  obtain ⟨creators, r4, p4⟩ := mapM_perm_eq (f := fun n : RdfNode => n.toPyStr.bind actorOf) (k := RdfNode.str ∘ Actor.toSerialized) (g := id) hactor b4
  rw [List.map_id] at p4
  obtain ⟨found, rfound, pfound⟩ : ∃ found : List ExternalDocumentRef, g.objects (docNode c) .externalDocumentRef = found.map (fun r : ExternalDocumentRef => .uri (c.documentNamespace ++ s%"#" ++ r.documentRefId)) ∧
      found.Perm c.externalDocumentRefs := by
    obtain ⟨m, hm, hp⟩ := perm_of_map hrefs
    exact ⟨m, hm, hp⟩
  have rrefs := extRefs_read (g := g) (ns := c.documentNamespace) b _ found rfound (fun r hr => href r (pfound.mem_iff.1 hr))
  have hne : creators ≠ [] := by
    rintro rfl
    exact hc.creators.1 p4.symm.eq_nil
  have rns : parseNamespace env g = some (c.documentNamespace, c.spdxId, docNode c) := by
    unfold parseNamespace
    rw [hdoc]
    have hfrag : fragmentOf (docNode c).text = c.spdxId := fragmentOf_append _ _ hns.noHash
    have hdefrag : env.defrag (docNode c).text = c.documentNamespace := hns.defrag
    have hcolon := hns.colon
    simp only [hfrag, hdefrag]
    rw [if_pos (by unfold docNode RdfNode.text; simp), if_neg (by rintro h; rw [h] at hcolon; simp at hcolon), if_neg hc.id]
  refine ⟨⟨c.spdxVersion, c.spdxId, c.name, c.documentNamespace, creators, c.created, c.creatorComment, c.dataLicense, found, c.licenseListVersion,
    c.documentComment⟩, found, ?_, pfound, p4, pfound, rfl⟩
  unfold parseRdfCreationInfo
  rw [rns]
  have ht : (some (RdfNode.bnode [1, 0])).filter RdfNode.truthy = some (.bnode [1, 0]) := rfl
  simp only [Option.bind_eq_bind, Option.bind_some, hinfo, List.head?_cons, ht]
  rw [rdfLiteral_needed a1 hc.version, rdfLiteral_text a4 hc.comment, rdfLiteral_needed a3 hc.name,
    rdfLiteral_some (m := textMethod datetimeFromStr) b1 (date_read hc.created).2.1 (date_read hc.created).2.2,
    rdfLiteral_opt (m := textMethod versionFromString) b2 (fun v _ => ⟨versionToStr_truthy v, C04.roundtrip v⟩), rdfLiteral_text b3 hc.creatorComment, r4,
    rdfLiteral_some (m := textMethod fun s => some (removePrefix s licenseNamespace)) (a := c.dataLicense) a2 (by unfold RdfNode.truthy; simp [licenseNamespace])
      (congrArg some (removePrefix_append _ _)), rrefs]
  simp only [Option.bind_some, needed, id, if_neg hne]
  rfl

end Spdx
