import Verif.Props.C63
import Verif.Props.C48
import Verif.Props.C49
/-
C91: Two documents have the same JSON file if and only if they are the same, up to the order in which annotations of different elements stand;
documents with the same tag-value text, or the same RDF graph, say the same.
-/
namespace Spdx.C91
open Spec (SameRdf DocRdf)

/-- The same document, except that annotations of different elements may be mixed in another way. -/
structure SameButMixed (d e : Document) : Prop where
  info : d.creationInfo = e.creationInfo
  packages : d.packages = e.packages
  files : d.files = e.files
  snippets : d.snippets = e.snippets
  relationships : d.relationships = e.relationships
  extracted : d.extractedLicensingInfo = e.extractedLicensingInfo
  /-- each element has the same annotations in the same order -/
  annotations : ∀ id, d.annotations.filter (fun a => a.spdxId = id) = e.annotations.filter (fun a => a.spdxId = id)

/-! ### Helpers -/

private theorem copies_length (id : Str) (x : List Annotation) (ids : List Str) :
    (ids.flatMap fun i => if i = id then x else []).length = ids.count id * x.length := by
  induction ids with
  | nil => simp
  | cons i ids ih =>
    rw [List.flatMap_cons, List.length_append, ih, List.count_cons]
    by_cases h : i = id
    · subst h; simp [Nat.add_mul, Nat.add_comm]
    · simp [h]

/-- A list repeated at least once is known from the whole. -/
private theorem copies (id : Str) (x y : List Annotation) (ids : List Str) (hm : id ∈ ids)
    (h : (ids.flatMap fun i => if i = id then x else []) = ids.flatMap fun i => if i = id then y else []) : x = y := by
  have hl : x.length = y.length := by
    have := congrArg List.length h
    rw [copies_length, copies_length] at this
    exact Nat.eq_of_mul_eq_mul_left (List.count_pos_iff.2 hm) this
  induction ids with
  | nil => cases hm
  | cons i ids ih =>
    rw [List.flatMap_cons, List.flatMap_cons] at h
    by_cases e : i = id
    · rw [if_pos e, if_pos e] at h
      exact (List.append_inj h hl).1
    · rw [if_neg e, if_neg e] at h
      exact ih ((List.mem_cons.1 hm).resolve_left fun e' => e e'.symm) h

private theorem filter_flatMap' (p : Annotation → Bool) (f : Str → List Annotation) (ids : List Str) :
    (ids.flatMap f).filter p = ids.flatMap fun i => (f i).filter p := by
  induction ids with
  | nil => rfl
  | cons i ids ih => rw [List.flatMap_cons, List.filter_append, ih, List.flatMap_cons]

/-- The annotations of an element in the order in which they come back. -/
private theorem of_element (d : Document) (id : Str) : (regroup d).filter (fun a => a.spdxId = id) =
    if id ∈ containedIds d then
      (d.packages.map (·.spdxId) ++ d.files.map (·.spdxId) ++ d.snippets.map (·.spdxId)).flatMap fun i =>
        if i = id then d.annotations.filter (fun a => a.spdxId = id) else []
    else d.annotations.filter (fun a => a.spdxId = id) := by
  have each : ∀ i, (d.annotations.filter (fun a => a.spdxId = i)).filter (fun a => a.spdxId = id) =
      if i = id then d.annotations.filter (fun a => a.spdxId = id) else [] := by
    intro i
    rw [List.filter_filter]
    by_cases e : i = id
    · subst e; rw [if_pos rfl]; congr 1; funext a; simp
    · rw [if_neg e, List.filter_eq_nil_iff]
      intro a _ h
      simp only [Bool.and_eq_true, decide_eq_true_eq] at h
      exact e (h.2.symm.trans h.1)
  unfold regroup
  rw [List.filter_append, filter_flatMap', List.filter_filter]
  simp only [each]
  by_cases hc : id ∈ containedIds d
  · rw [if_pos hc, List.filter_eq_nil_iff.2, List.nil_append]
    intro a _ h
    simp only [Bool.and_eq_true, decide_eq_true_eq] at h
    exact h.2 (h.1 ▸ hc)
  · rw [if_neg hc]
    have : (d.packages.map (·.spdxId) ++ d.files.map (·.spdxId) ++ d.snippets.map (·.spdxId)).flatMap (fun i =>
        if i = id then d.annotations.filter (fun a => a.spdxId = id) else []) = [] := by
      rw [List.flatMap_eq_nil_iff]
      intro i hi
      rw [if_neg]
      rintro rfl
      apply hc
      unfold containedIds
      simp only [List.mem_append] at hi ⊢
      rcases hi with (h | h) | h
      · exact .inl (.inr h)
      · exact .inl (.inl h)
      · exact .inr h
    rw [this, List.append_nil]
    refine List.filter_congr fun a _ => ?_
    by_cases e : a.spdxId = id
    · simp [e, hc]
    · simp [e]

private theorem unmixed {d e : Document} (hp : d.packages = e.packages) (hf : d.files = e.files) (hs : d.snippets = e.snippets)
    (h : regroup d = regroup e) (id : Str) : d.annotations.filter (fun a => a.spdxId = id) = e.annotations.filter (fun a => a.spdxId = id) := by
  have h' := congrArg (List.filter fun a => a.spdxId = id) h
  rw [of_element, of_element] at h'
  have hc : containedIds d = containedIds e := by unfold containedIds; rw [hp, hf, hs]
  rw [hc, hp, hf, hs] at h'
  by_cases hm : id ∈ containedIds e
  · rw [if_pos hm, if_pos hm] at h'
    refine copies id _ _ _ ?_ h'
    unfold containedIds at hm
    simp only [List.mem_append] at hm ⊢
    rcases hm with (h | h) | h
    · exact .inl (.inr h)
    · exact .inl (.inl h)
    · exact .inr h
  · rw [if_neg hm, if_neg hm] at h'
    exact h'

private theorem outside {d : Document} (h : ∀ a ∈ d.annotations, a.spdxId = d.creationInfo.spdxId ∨ a.spdxId ∈ containedIds d) :
    d.annotations.filter (fun a => a.spdxId ∉ containedIds d) =
      if d.creationInfo.spdxId ∈ containedIds d then [] else d.annotations.filter (fun a => a.spdxId = d.creationInfo.spdxId) := by
  by_cases hc : d.creationInfo.spdxId ∈ containedIds d
  · rw [if_pos hc, List.filter_eq_nil_iff]
    intro a ha h'
    simp only [decide_eq_true_eq] at h'
    rcases h a ha with e | e
    · exact h' (e ▸ hc)
    · exact h' e
  · rw [if_neg hc]
    refine List.filter_congr fun a ha => ?_
    rcases h a ha with e | e
    · simp [e, hc]
    · have : a.spdxId ≠ d.creationInfo.spdxId := fun e' => hc (e' ▸ e)
      simp [e, this]

private theorem same_tree (L : LicText) {d e : Document} (hd : JsonOk L d) (he : JsonOk L e) (h : SameButMixed d e) : documentToJson L d = documentToJson L e := by
  have hc : containedIds d = containedIds e := by unfold containedIds; rw [h.packages, h.files, h.snippets]
  have ho := outside hd.anchored
  rw [hc, h.info, h.annotations, ← outside he.anchored] at ho
  have hn : annotationsOf d = annotationsOf e := by
    funext id
    unfold annotationsOf
    rw [h.annotations]
  have e1 : packageToJson L d = packageToJson L e := by funext p; unfold packageToJson; rw [hn]
  have e2 : fileToJson L d = fileToJson L e := by funext p; unfold fileToJson; rw [hn]
  have e3 : snippetToJson L d = snippetToJson L e := by funext p; unfold snippetToJson; rw [hn]
  unfold documentToJson
  rw [hc, ho, e1, e2, e3, h.info, h.packages, h.files, h.snippets, h.relationships, h.extracted]

/-! ### The theorems -/

/-- Two documents have the same JSON file if and only if they are the same, up to how annotations of different elements are mixed. -/
theorem same_json_file (L : LicText) (d e : Document) (hd : JsonOk L d) (he : JsonOk L e) (cd : C63.NoControl L d) (ce : C63.NoControl L e) :
    writeJsonText L d = writeJsonText L e ↔ SameButMixed d e := by
  constructor
  · intro h
    obtain ⟨t, ht, hr⟩ := C63.file_round_trip L d hd cd
    obtain ⟨u, hu, hs⟩ := C63.file_round_trip L e he ce
    rw [ht, hu] at h
    obtain rfl := Option.some.inj h
    rw [hr] at hs
    have hs := Except.ok.inj (JsonRead.parsed.inj hs)
    obtain ⟨h1, h2, h3, h4, h5, h6, h7⟩ := Document.mk.inj hs
    exact ⟨h1, h2, h3, h4, h6, h7, unmixed h2 h3 h4 h5⟩
  · intro h
    unfold writeJsonText
    rw [same_tree L hd he h]

/-- If two documents have the same tag-value text, a third says the same as either: up to the order of files, of snippets, of contributors and
    of cross references, and up to how it is said that a package contains a file. -/
theorem same_tag_value_text (L : LicText) (d e : Document) (hd : C48.DocTv L d) (he : C48.DocTv L e)
    (h : (writeTagValue L d).text = (writeTagValue L e).text) :
    d.creationInfo = e.creationInfo ∧ d.packages = e.packages ∧ d.annotations = e.annotations ∧ d.snippets.Perm e.snippets ∧
      (d.relationships.flatMap (C27.said d)).Perm (e.relationships.flatMap (C27.said e)) ∧ ∃ m, C48.SameTv d m ∧ C48.SameTv e m := by
  obtain ⟨_, m, hm, sm⟩ := C48.roundtrip L d hd
  obtain ⟨_, n, hn, sn⟩ := C48.roundtrip L e he
  rw [h, hn] at hm
  obtain rfl := Except.ok.inj hm
  exact ⟨sm.info.symm.trans sn.info, sm.packages.symm.trans sn.packages, sm.annotations.symm.trans sn.annotations,
    sm.snippets.symm.trans sn.snippets, sm.relationships.symm.trans sn.relationships, _, sm, sn⟩

/-- If two documents have the same RDF graph, in whatever order its triples are, a third says the same as either, up to the order in lists. -/
theorem same_rdf_graph (env : RdfEnv) (d e : Document) (hd : DocRdf env d) (he : DocRdf env e) (w w' g : RdfGraph) (hw : rdfGraph env d = some w)
    (hw' : rdfGraph env e = some w') (h : SameTriples g w) (h' : SameTriples g w') :
    d.annotations.Perm e.annotations ∧ d.relationships.Perm e.relationships ∧ ∃ m, SameRdf d m ∧ SameRdf e m := by
  obtain ⟨v, hv, rv⟩ := C49.round_trip env d hd
  obtain ⟨v', hv', rv'⟩ := C49.round_trip env e he
  obtain rfl := Option.some.inj (hw.symm.trans hv)
  obtain rfl := Option.some.inj (hw'.symm.trans hv')
  obtain ⟨m, hm, sm⟩ := rv g [] h (by intro r _ ns hn; cases hn)
  obtain ⟨n, hn, sn⟩ := rv' g [] h' (by intro r _ ns hn; cases hn)
  obtain rfl := Option.some.inj (hm.symm.trans hn)
  exact ⟨sm.annotations.symm.trans sn.annotations, sm.relationships.symm.trans sn.relationships, m, sm, sn⟩

/-! ## Concrete cases -/

private def note (id text : Str) : Annotation := { Example.annotation with spdxId := id, annotationComment := text }
private def noted (l : List Annotation) : Document := { Example.doc with annotations := l }
private def first : List Annotation := [note s%"SPDXRef-Package" s%"1", note s%"SPDXRef-DOCUMENT" s%"2", note s%"SPDXRef-Package" s%"3"]
private def second : List Annotation := [note s%"SPDXRef-Package" s%"1", note s%"SPDXRef-Package" s%"3", note s%"SPDXRef-DOCUMENT" s%"2"]
private def third : List Annotation := [note s%"SPDXRef-Package" s%"3", note s%"SPDXRef-Package" s%"1", note s%"SPDXRef-DOCUMENT" s%"2"]

private theorem noted_ok (l : List Annotation) (h : ∀ a ∈ l, ∃ id t, a = note id t ∧ (id = s%"SPDXRef-Package" ∨ id = s%"SPDXRef-DOCUMENT")) :
    JsonOk C23.exampleLic (noted l) :=
  { C23.example_ok with
    annotations := by
      intro a ha
      obtain ⟨id, t, rfl, _⟩ := h a ha
      have := C23.example_ok.annotations Example.annotation (by simp [Example.doc])
      exact ⟨this.annotator, this.date⟩
    anchored := by
      intro a ha
      obtain ⟨id, t, rfl, rfl | rfl⟩ := h a ha
      · exact .inr (by show s%"SPDXRef-Package" ∈ containedIds Example.doc; decide)
      · exact .inl (by show s%"SPDXRef-DOCUMENT" = Example.doc.creationInfo.spdxId; decide) }

private theorem clean_of {d : Document} (hs : ((documentToJson C23.exampleLic d).map fun j => decide (C22.strip j = j)) = some true) :
    C63.NoControl C23.exampleLic d := by
  intro j hj
  rw [hj] at hs
  have hs : C22.strip j = j := of_decide_eq_true (Option.some.inj hs)
  obtain ⟨o, rfl, hd⟩ := C63.document_distinct _ _ _ hj
  have := C22.result_clean_distinct o hd
  rwa [C22.reads_stripped o hd, hs] at this

private theorem first_ok : JsonOk C23.exampleLic (noted first) ∧ C63.NoControl C23.exampleLic (noted first) :=
  ⟨noted_ok _ (by intro a ha; simp only [first, List.mem_cons, List.not_mem_nil, or_false] at ha
                  rcases ha with rfl | rfl | rfl <;> exact ⟨_, _, rfl, by simp⟩), clean_of (by decide +kernel)⟩
private theorem second_ok : JsonOk C23.exampleLic (noted second) ∧ C63.NoControl C23.exampleLic (noted second) :=
  ⟨noted_ok _ (by intro a ha; simp only [second, List.mem_cons, List.not_mem_nil, or_false] at ha
                  rcases ha with rfl | rfl | rfl <;> exact ⟨_, _, rfl, by simp⟩), clean_of (by decide +kernel)⟩
private theorem third_ok : JsonOk C23.exampleLic (noted third) ∧ C63.NoControl C23.exampleLic (noted third) :=
  ⟨noted_ok _ (by intro a ha; simp only [third, List.mem_cons, List.not_mem_nil, or_false] at ha
                  rcases ha with rfl | rfl | rfl <;> exact ⟨_, _, rfl, by simp⟩), clean_of (by decide +kernel)⟩

/-- Different documents with the same file … -/
example : noted first ≠ noted second ∧ writeJsonText C23.exampleLic (noted first) = writeJsonText C23.exampleLic (noted second) := by
  refine ⟨fun h => absurd (congrArg Document.annotations h) (by decide), ?_⟩
  refine (same_json_file _ _ _ first_ok.1 second_ok.1 first_ok.2 second_ok.2).2 ⟨rfl, rfl, rfl, rfl, rfl, rfl, fun id => ?_⟩
  by_cases h1 : id = s%"SPDXRef-Package"
  · subst h1; decide
  · by_cases h2 : id = s%"SPDXRef-DOCUMENT"
    · subst h2; decide
    · have h1 := Ne.symm h1
      have h2 := Ne.symm h2
      simp [noted, first, second, note, h1, h2]

/-- … and with different files: the annotations of one package stand in another order. -/
example : writeJsonText C23.exampleLic (noted first) ≠ writeJsonText C23.exampleLic (noted third) := fun h =>
  absurd (((same_json_file _ _ _ first_ok.1 third_ok.1 first_ok.2 third_ok.2).1 h).annotations s%"SPDXRef-Package") (by decide)

/-- Documents meet the other hypotheses too. -/
example : C48.DocTv C23.exampleLic C48.sample := C48.sample_ok
example : DocRdf C49.exampleEnv Example.doc := C49.example_ok

end Spdx.C91
