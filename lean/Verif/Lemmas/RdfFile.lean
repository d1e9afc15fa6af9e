import Verif.Lemmas.RdfLic
import Verif.Props.C40
import Verif.Props.C06
import Verif.Props.C03
import Verif.Props.C04
/- Files, packages and snippets in graphs. -/
namespace Spdx
open Spec

/-- The predicates that lead from one element to another. -/
def linkPreds : List Pred := [.creationInfo, .externalDocumentRef, .annotation, .relationship, .hasExtractedLicensingInfo]

/-- The graph says about a node, and the blank nodes below the place, what the part says. -/
structure Seen (g part : RdfGraph) (s : RdfNode) (path : List Nat) : Prop where
  nodup : g.Nodup
  own : ∀ p, p ∉ linkPreds → SeenNode g part s p
  below : SeenAt g part path

/-! ### Enumerations and dates -/

/-- the reference of a member -/
def termUri (pre name : Str) : Str := s%"http://spdx.org/rdf/terms#" ++ pre ++ C40.camel name

theorem termUri_truthy (pre name : Str) : (RdfNode.uri (termUri pre name)).truthy = true := by
  unfold termUri RdfNode.truthy
  simp

/-- the text of a date -/
def isoText (t : DateTime) : Str := (datetimeToIso t).getD []

theorem date_read {t : DateTime} (h : DateOk t) : datetimeToIso t = some (isoText t) ∧ (RdfNode.str (isoText t)).truthy = true ∧
    textMethod datetimeFromStr (.str (isoText t)) = some t := by
  obtain ⟨s, h1, h2, h3⟩ := C03.naive_roundtrip t h.1 h.2.1
  have hi : isoText t = s := by unfold isoText; rw [h1]; rfl
  rw [hi]
  refine ⟨h1, ?_, ?_⟩
  · cases s with
    | nil => exact absurd h3 (by rw [show datetimeFromStr [] = none by decide +kernel]; intro h; cases h)
    | cons => rfl
  · have : ({ t with micro := 0 } : DateTime) = t := by
      have := h.2.2
      cases t
      simp only at this
      subst this
      rfl
    rw [this] at h3
    exact h3

theorem rdfLiteral_date {g : RdfGraph} {s : RdfNode} {p : Pred} {v : Option DateTime} (h : g.objects s p = (v.map fun t => RdfNode.str (isoText t)).toList)
    (hv : ∀ t, v = some t → DateOk t) : rdfLiteral g s p (textMethod datetimeFromStr) = some v :=
  rdfLiteral_opt h fun a ha => (date_read (hv a ha)).2

theorem rdfLiteral_enum {α : Type} {g : RdfGraph} {s : RdfNode} {p : Pred} {pre : Str} {name : α → Str} {ofName? : Str → Option α}
    (hf : C40.Faithful pre name ofName?) {m : α} (h : g.objects s p = [.uri (termUri pre (name m))]) :
    needed (rdfLiteral g s p (textMethod (enumFromRdf ofName? pre))) = some m := by
  rw [rdfLiteral_some h (termUri_truthy _ _) (hf m).2]; rfl

/-! ### Actors -/

theorem actorOf_read {a : Actor} (h : C05.Expressible a) : actorOf a.toSerialized = some a := by
  unfold actorOf
  rw [C05.roundtrip a h]

theorem toSerialized_front (a : Actor) : ∃ c r, a.toSerialized = c :: r ∧ c ≠ 'N' := by
  obtain ⟨ty, n, e⟩ := a
  cases ty <;> cases e <;> exact ⟨_, _, rfl, by decide⟩

theorem actor_truthy (a : Actor) : (RdfNode.str a.toSerialized).truthy = true := by
  obtain ⟨c, r, h, _⟩ := toSerialized_front a
  rw [h]; rfl

theorem actor_plain (a : Actor) (t : Str) (ht : t.head? = some 'N') : a.toSerialized ≠ t := by
  obtain ⟨c, r, h, hc⟩ := toSerialized_front a
  rintro rfl
  rw [h] at ht
  exact hc (Option.some.inj ht)

theorem rdfSpecial_actor {g : RdfGraph} {s : RdfNode} {p : Pred} {v : Option (OrNoAssertion Actor)}
    (h : g.objects s p = ((v.map strOrNoAssertion).map RdfNode.str).toList) (hv : ∀ a, v = some (.val a) → C05.Expressible a) :
    noNone (rdfSpecial g s p actorSpecial) = some v := by
  rcases v with _ | a | _
  · rw [rdfSpecial_none h]; rfl
  · rw [rdfSpecial_some (v := .str a.toSerialized) h, specialOr_val (a := a) (actor_truthy a) (fun h => by (cases h))
      (fun h => actor_plain a _ rfl (Option.some.inj h)) (fun h => by (cases h)) (fun h => actor_plain a _ rfl (Option.some.inj h))]
    · rfl
    · show (actorOf a.toSerialized).map some = _
      rw [actorOf_read (hv a rfl)]; rfl
  · rw [rdfSpecial_some (v := .str s%"NOASSERTION") h, specialOr_noAssertion_text]; rfl

/-! ### Checksums -/

theorem objects_checksum_out (path : List Nat) (parent : RdfNode) (c : Checksum) (s : RdfNode) (q : Pred) (h : Out path s) :
    RdfGraph.objects (checksumTriples path parent c) s q = if parent = s ∧ .checksum = q then [.bnode path] else [] := by
  have h2 : ¬ RdfNode.bnode path = s := h.ne (List.suffix_refl _)
  unfold checksumTriples
  simp only [objects_cons, objects_nil, h2, false_and, if_false, List.append_nil, List.nil_append]

/-- the nodes of a list -/
def bnodes {α : Type} (path : List Nat) (l : List α) : List RdfNode := l.zipIdx.map fun e => .bnode (e.2 :: path)

theorem bnodes_nodup {α : Type} (path : List Nat) (l : List α) : (bnodes path l).Nodup := by
  refine nodup_map_of_inj (zipIdx_nodup l) ?_
  intro a ha b hb e
  have h1 := List.mem_zipIdx_iff_getElem?.1 ha
  have h2 := List.mem_zipIdx_iff_getElem?.1 hb
  have hi := (List.cons.inj (RdfNode.bnode.inj e)).1
  rw [hi, h2] at h1
  exact Prod.ext (Option.some.inj h1).symm hi

theorem objects_checksumList_out (path : List Nat) (parent : RdfNode) (l : List Checksum) (s : RdfNode) (q : Pred) (h : Out path s) :
    RdfGraph.objects (checksumListTriples path parent l) s q = if parent = s ∧ .checksum = q then bnodes path l else [] := by
  unfold checksumListTriples
  rw [objects_flatMap]
  have : ∀ e : Checksum × Nat, RdfGraph.objects (checksumTriples (e.2 :: path) parent e.1) s q =
      if parent = s ∧ .checksum = q then [.bnode (e.2 :: path)] else [] :=
    fun e => objects_checksum_out _ _ _ _ _ (h.below (List.suffix_cons _ _))
  simp only [this]
  exact flatMap_ite_singleton _ _ _

theorem algorithmToRdf_truthy (a : ChecksumAlgorithm) : (RdfNode.uri (algorithmToRdf a)).truthy = true := by
  cases a <;> decide +kernel

theorem checksum_read {g : RdfGraph} (hg : g.Nodup) {path : List Nat} {parent : RdfNode} {c : Checksum} (hp : Out path parent) (hc : Clean c.value)
    (hs : SeenAt g (checksumTriples path parent c) path) : parseRdfChecksum g (.bnode path) = some c := by
  have hne : ¬ parent = .bnode path := fun e => hp.ne (List.suffix_refl _) e.symm
  have h1 := (hs.node (List.suffix_refl _) .algorithm).one hg (v := .uri (algorithmToRdf c.algorithm)) (by
    unfold checksumTriples; simp [objects_cons, objects_nil, hne])
  have h2 := (hs.node (List.suffix_refl _) .checksumValue).one hg (v := .str c.value) (by
    unfold checksumTriples; simp [objects_cons, objects_nil, hne])
  unfold parseRdfChecksum
  rw [rdfLiteral_some h1 (algorithmToRdf_truthy _) (C06.rdf_roundtrip _), rdfLiteral_needed h2 hc]
  rfl

/-- What is seen of one entry of a list. -/
theorem SeenAt.entry {g : RdfGraph} {path : List Nat} {α : Type} {F : α × Nat → RdfGraph} {l : List α} (h : SeenAt g (l.zipIdx.flatMap F) path)
    {i : Nat} {x : α} (hi : l[i]? = some x) (ho : ∀ j y s q, Out (j :: path) s → path <:+ q → s = .bnode q → ∀ p, RdfGraph.objects (F (y, j)) s p = []) :
    SeenAt g (F (x, i)) (i :: path) := by
  refine h.narrow (List.suffix_cons _ _) ?_
  intro q r hq
  rw [objects_zipIdx _ l _ _ i x hi]
  intro j y hj hne
  exact ho j y _ q (Out.sibling hq hne) ((List.suffix_cons _ _).trans hq) rfl r

theorem checksumList_read {g : RdfGraph} (hg : g.Nodup) {path : List Nat} {parent : RdfNode} {l : List Checksum} (hp : Out path parent)
    (hl : ∀ c ∈ l, Clean c.value) (hs : SeenAt g (checksumListTriples path parent l) path) (hv : (g.objects parent .checksum).Perm (bnodes path l)) :
    ∃ m, (g.objects parent .checksum).mapM (parseRdfChecksum g) = some m ∧ m.Perm l := by
  have : ∀ e ∈ l.zipIdx, parseRdfChecksum g (.bnode (e.2 :: path)) = some e.1 := by
    intro e he
    have hi := List.mem_zipIdx_iff_getElem?.1 he
    refine checksum_read (parent := parent) hg (hp.below (List.suffix_cons _ _)) (hl _ (List.mem_of_getElem? hi)) (hs.entry hi ?_)
    rintro j y s q ho hq rfl p
    rw [objects_checksum_out _ _ _ _ _ ho, if_neg]
    rintro ⟨h1, -⟩
    exact hp.1 q h1 hq
  obtain ⟨m, hm, hr⟩ := mapM_perm_eq (f := parseRdfChecksum g) (k := fun e : Checksum × Nat => RdfNode.bnode (e.2 :: path)) (g := Prod.fst) this hv
  exact ⟨m, hm, by rwa [List.zipIdx_map_fst] at hr⟩

/-! ### Files -/

/-- the triples of a file -/
def fileBlock (env : RdfEnv) (ns : Str) (path : List Nat) (res : RdfNode) (f : File) : List Triple :=
  [(res, .type, spdxTerm s%"File"), (res, .fileName, .str f.name)] ++
    (f.fileTypes.map fun t => termUri s%"fileType_" t.name).map (fun t => (res, Pred.fileType, RdfNode.uri t)) ++
    checksumListTriples (0 :: path) res f.checksums ++
    optLicTriples env ns (1 :: path) res .licenseConcluded f.licenseConcluded ++
    licListTriples env ns (2 :: path) res .licenseInfoInFile f.licenseInfoInFile ++
    optLiteral res .licenseComments f.licenseComment ++
    optLiteral res .copyrightText (f.copyrightText.map strOrSpecial) ++
    optLiteral res .rdfsComment f.comment ++
    optLiteral res .noticeText f.notice ++
    literals res .fileContributor f.contributors ++
    literals res .attributionText f.attributionTexts

theorem mapM_option_some {α β : Type} (f : α → Option β) (g : α → β) (l : List α) (h : ∀ a ∈ l, f a = some (g a)) : l.mapM f = some (l.map g) := by
  induction l with
  | nil => rfl
  | cons a l ih => exact mapM_cons_some (h a List.mem_cons_self) (ih fun x hx => h x (List.mem_cons_of_mem _ hx))

theorem fileTriples_eq (env : RdfEnv) (ns : Str) (path : List Nat) (res : RdfNode) (f : File) :
    fileTriples env ns path res f = some (fileBlock env ns path res f) := by
  unfold fileTriples
  rw [mapM_option_some _ (fun t => termUri s%"fileType_" t.name) _ (fun t _ => (C40.file_types t).1)]
  rfl

theorem nodup_terms {α : Type} {pre : Str} {name : α → Str} {ofName? : Str → Option α} (hf : C40.Faithful pre name ofName?) {l : List α} (h : l.Nodup) :
    ((l.map fun t => termUri pre (name t)).map RdfNode.uri).Nodup := by
  rw [List.map_map]
  refine nodup_map_of_inj h ?_
  intro a _ b _ e
  refine C40.distinct hf a b ?_
  rw [(hf a).1, (hf b).1]
  exact congrArg some (RdfNode.uri.inj e)

theorem enums_read {α : Type} {pre : Str} {name : α → Str} {ofName? : Str → Option α} (hf : C40.Faithful pre name ofName?) {l : List α} {found : List RdfNode}
    (h : found.Perm ((l.map fun t => termUri pre (name t)).map RdfNode.uri)) :
    ∃ m, found.mapM (textMethod (enumFromRdf ofName? pre)) = some m ∧ m.Perm l := by
  rw [List.map_map] at h
  have hr : ∀ t ∈ l, textMethod (enumFromRdf ofName? pre) ((RdfNode.uri ∘ fun t => termUri pre (name t)) t) = some (id t) := fun t _ => (hf t).2
  obtain ⟨m, h1, h2⟩ := mapM_perm_eq (f := textMethod (enumFromRdf ofName? pre)) (k := RdfNode.uri ∘ fun t => termUri pre (name t)) (g := id) (l := l) hr h
  exact ⟨m, h1, by rwa [List.map_id] at h2⟩

/-- what is said about the file itself -/
theorem fileBlock_own (env : RdfEnv) (ns : Str) (path : List Nat) {u : Str} (f : File) (hout : ∀ p, Out p (.uri u)) (p : Pred) :
    RdfGraph.objects (fileBlock env ns path (.uri u) f) (.uri u) p = match p with
      | .type => [spdxTerm s%"File"]
      | .fileName => [.str f.name]
      | .fileType => (f.fileTypes.map fun t => termUri s%"fileType_" t.name).map .uri
      | .checksum => bnodes (0 :: path) f.checksums
      | .licenseConcluded => (f.licenseConcluded.map (licOrNode env ns (1 :: path))).toList
      | .licenseInfoInFile => f.licenseInfoInFile.zipIdx.map fun e => licOrNode env ns (e.2 :: 2 :: path) e.1
      | .licenseComments => (f.licenseComment.map RdfNode.str).toList
      | .copyrightText => ((f.copyrightText.map strOrSpecial).map RdfNode.str).toList
      | .rdfsComment => (f.comment.map RdfNode.str).toList
      | .noticeText => (f.notice.map RdfNode.str).toList
      | .fileContributor => f.contributors.map .str
      | .attributionText => f.attributionTexts.map .str
      | _ => [] := by
  unfold fileBlock
  simp only [objects_append, objects_cons, objects_nil, objects_optLiteral, objects_literals, objects_uris,
    objects_checksumList_out _ _ _ _ _ (hout _), objects_optLic_out _ _ _ _ _ _ _ (hout _), objects_licList_out _ _ _ _ _ _ _ (hout _), true_and]
  cases p <;> simp only [reduceCtorEq, if_false, if_true, List.append_nil, List.nil_append]

theorem fileBlock_checksums (env : RdfEnv) (ns : Str) (path : List Nat) (u : Str) (f : File) (q : List Nat) (p : Pred) (hq : 0 :: path <:+ q) :
    RdfGraph.objects (fileBlock env ns path (.uri u) f) (.bnode q) p = RdfGraph.objects (checksumListTriples (0 :: path) (.uri u) f.checksums) (.bnode q) p := by
  unfold fileBlock
  simp only [objects_append, objects_cons, objects_nil, objects_optLiteral, objects_literals, objects_uris, reduceCtorEq, false_and, if_false,
    objects_optLic_out _ _ _ _ _ _ _ (Out.sibling hq (show 1 ≠ 0 by decide)), objects_licList_out _ _ _ _ _ _ _ (Out.sibling hq (show 2 ≠ 0 by decide)), List.append_nil, List.nil_append]

theorem fileBlock_concluded (env : RdfEnv) (ns : Str) (path : List Nat) (u : Str) (f : File) (q : List Nat) (p : Pred) (hq : 1 :: path <:+ q) :
    RdfGraph.objects (fileBlock env ns path (.uri u) f) (.bnode q) p = RdfGraph.objects (optLicTriples env ns (1 :: path) (.uri u) .licenseConcluded f.licenseConcluded) (.bnode q) p := by
  unfold fileBlock
  simp only [objects_append, objects_cons, objects_nil, objects_optLiteral, objects_literals, objects_uris, reduceCtorEq, false_and, if_false,
    objects_checksumList_out _ _ _ _ _ (Out.sibling hq (show 0 ≠ 1 by decide)), objects_licList_out _ _ _ _ _ _ _ (Out.sibling hq (show 2 ≠ 1 by decide)), List.append_nil, List.nil_append]

theorem fileBlock_info (env : RdfEnv) (ns : Str) (path : List Nat) (u : Str) (f : File) (q : List Nat) (p : Pred) (hq : 2 :: path <:+ q) :
    RdfGraph.objects (fileBlock env ns path (.uri u) f) (.bnode q) p = RdfGraph.objects (licListTriples env ns (2 :: path) (.uri u) .licenseInfoInFile f.licenseInfoInFile) (.bnode q) p := by
  unfold fileBlock
  simp only [objects_append, objects_cons, objects_nil, objects_optLiteral, objects_literals, objects_uris, reduceCtorEq, false_and, if_false,
    objects_checksumList_out _ _ _ _ _ (Out.sibling hq (show 0 ≠ 2 by decide)), objects_optLic_out _ _ _ _ _ _ _ (Out.sibling hq (show 1 ≠ 2 by decide)), List.append_nil, List.nil_append]

theorem file_read {env : RdfEnv} {b : Bindings} {g : RdfGraph} {ns : Str} (hns : NsLic ns) {path : List Nat} {f : File} (hf : FileRdf env f)
    (hs : Seen g (fileBlock env ns path (.uri (ns ++ s%"#" ++ f.spdxId)) f) (.uri (ns ++ s%"#" ++ f.spdxId)) path) :
    ∃ y, parseRdfFile env b g ns (.uri (ns ++ s%"#" ++ f.spdxId)) = some y ∧ SameFile f y := by
  have hid := parseRdfId_local b ns f.spdxId hns.noHash
  have hout : ∀ p, Out p (.uri (ns ++ s%"#" ++ f.spdxId)) := fun p => Out.uri (ns_not_license hns.license _)
  obtain ⟨u, hu⟩ : ∃ u, u = ns ++ s%"#" ++ f.spdxId := ⟨_, rfl⟩
  rw [← hu] at hs hid hout ⊢
  have hg := hs.nodup
  have hobj := fileBlock_own env ns path f hout
  have h1 := (hs.own .fileName (by decide)).one hg (v := .str f.name) (hobj _)
  have h2 := (hs.own .checksum (by decide)).perm hg (l := bnodes (0 :: path) f.checksums) (hobj _) (bnodes_nodup _ _)
  have h3 := (hs.own .fileType (by decide)).perm hg (l := (f.fileTypes.map fun t => termUri s%"fileType_" t.name).map .uri) (hobj _)
    (nodup_terms C40.file_types hf.types)
  have h4 := (hs.own .licenseConcluded (by decide)).opt hg (v := f.licenseConcluded.map (licOrNode env ns (1 :: path))) (hobj _)
  have h5 := (hs.own .licenseInfoInFile (by decide)).perm hg (l := f.licenseInfoInFile.zipIdx.map fun e => licOrNode env ns (e.2 :: 2 :: path) e.1)
    (hobj _) (licOrNodes_nodup hns _ hf.info.1)
  have h6 := (hs.own .licenseComments (by decide)).opt hg (v := f.licenseComment.map .str) (hobj _)
  have h7 := (hs.own .copyrightText (by decide)).opt hg (v := (f.copyrightText.map strOrSpecial).map .str) (hobj _)
  have h8 := (hs.own .rdfsComment (by decide)).opt hg (v := f.comment.map .str) (hobj _)
  have h9 := (hs.own .noticeText (by decide)).opt hg (v := f.notice.map .str) (hobj _)
  have h10 := (hs.own .fileContributor (by decide)).perm hg (l := f.contributors.map .str) (hobj _) (nodup_str hf.contributors)
  have h11 := (hs.own .attributionText (by decide)).perm hg (l := f.attributionTexts.map .str) (hobj _) (nodup_str hf.attribution)
  have c0 := hs.below.narrow (List.suffix_cons 0 path) (fileBlock_checksums env ns path u f)
  have c1 := hs.below.narrow (List.suffix_cons 1 path) (fileBlock_concluded env ns path u f)
  have c2 := hs.below.narrow (List.suffix_cons 2 path) (fileBlock_info env ns path u f)
  obtain ⟨checksums, r2, p2⟩ := checksumList_read hg (hout _) hf.checksums c0 h2
  obtain ⟨types, r3, p3⟩ := enums_read C40.file_types h3
  obtain ⟨concluded, r4, p4⟩ := optLic_read hg hns hf.concluded (hout _) c1 h4
  obtain ⟨info, r5, p5⟩ := licList_read hg hns hf.info.2 (hout _) c2 h5
  obtain ⟨contributors, r10, p10⟩ := rdfTexts_perm h10
  obtain ⟨attribution, r11, p11⟩ := rdfTexts_perm h11
  refine ⟨⟨f.name, f.spdxId, checksums, types, concluded, info, f.licenseComment, f.copyrightText, f.comment, f.notice, contributors, attribution⟩, ?_, ?_⟩
  · unfold parseRdfFile
    rw [hid, rdfLiteral_needed h1 hf.name, r2, r3, r4, r5, rdfLiteral_text h6 hf.licenseComment, rdfSpecial_text h7 hf.copyright, r10,
      rdfLiteral_text h9 hf.notice, rdfLiteral_text h8 hf.comment, r11]
    rfl
  · exact ⟨rfl, rfl, p2, p3, p4, p5, rfl, rfl, rfl, rfl, p10, p11⟩

end Spdx
