import Verif.Lemmas.RdfRead
import Verif.Props.C49
/-
C55: an RDF graph is read exactly as what its triples say; nodes with contradictory, missing or malformed values are refused.
-/
namespace Spdx.C55
open Spdx Spec.RdfSays

/-! ### Specification -/

/-- Kinds of nodes of a graph and the properties they may have only once. -/
def single (g : RdfGraph) : List (List RdfNode × List Pred) :=
  [(nodes g s%"SpdxDocument", [.specVersion, .dataLicense, .rdfsComment, .name]),
   (nodes g s%"Package", [.name, .downloadLocation, .versionInfo, .packageFileName, .supplier, .originator, .packageVerificationCode, .homepage,
      .sourceInfo, .licenseConcluded, .licenseDeclared, .licenseComments, .copyrightText, .summary, .description, .rdfsComment,
      .primaryPackagePurpose, .releaseDate, .builtDate, .validUntilDate]),
   (nodes g s%"File", [.fileName, .licenseConcluded, .licenseComments, .copyrightText, .rdfsComment, .noticeText]),
   (nodes g s%"Snippet", [.licenseConcluded, .licenseComments, .copyrightText, .rdfsComment, .name]),
   ((related g .annotation).map (·.2), [.annotationType, .annotator, .annotationDate, .rdfsComment]),
   ((related g .relationship).map (·.2), [.relationshipType, .relatedSpdxElement, .rdfsComment]),
   ((related g .hasExtractedLicensingInfo).map (·.2), [.licenseId, .extractedText, .rdfsComment, .name])]

/-- The properties nodes must have. -/
def required (g : RdfGraph) : List (List RdfNode × List Pred) :=
  [(nodes g s%"SpdxDocument", [.specVersion, .dataLicense, .name]),
   (nodes g s%"Package", [.name, .downloadLocation]),
   (nodes g s%"File", [.fileName]),
   (nodes g s%"Snippet", [.range, .snippetFromFile]),
   ((related g .annotation).map (·.2), [.annotationType, .annotator, .annotationDate, .rdfsComment]),
   ((related g .relationship).map (·.2), [.relationshipType, .relatedSpdxElement])]

def isDate (v : RdfNode) : Prop := ∃ t, datetimeFromStr v.text = some t
def isActor (v : RdfNode) : Prop := ∃ a, parseActor v.text = .ok a

/-- Properties with the values they may have, other than empty ones. -/
def acceptable (g : RdfGraph) : List (List RdfNode × Pred × (RdfNode → Prop)) :=
  [(nodes g s%"Package", .supplier, fun v => NoAssertion v ∨ isActor v),
   (nodes g s%"Package", .originator, fun v => NoAssertion v ∨ isActor v),
   (nodes g s%"Package", .releaseDate, isDate),
   (nodes g s%"Package", .builtDate, isDate),
   (nodes g s%"Package", .validUntilDate, isDate),
   (nodes g s%"Package", .primaryPackagePurpose, fun v => ∃ x, Member PackagePurpose.ofName? s%"purpose_" v x),
   ((related g .annotation).map (·.2), .annotator, isActor),
   ((related g .annotation).map (·.2), .annotationDate, isDate),
   ((related g .annotation).map (·.2), .annotationType, fun v => ∃ x, Member AnnotationType.ofName? s%"annotationType_" v x),
   ((related g .relationship).map (·.2), .relationshipType, fun v => ∃ x, Member RelationshipType.ofName? s%"relationshipType_" v x)]

/-! ### Lemmas -/

private theorem All2.left {α β : Type} {R : α → β → Prop} {l : List α} {m : List β} (h : All2 R l m) : ∀ a ∈ l, ∃ b, R a b := by
  induction h with
  | nil => intro a ha; cases ha
  | cons hab _ ih =>
    intro x hx
    rcases List.mem_cons.1 hx with rfl | hx
    · exact ⟨_, hab⟩
    · exact ih x hx

private theorem All2.length {α β : Type} {R : α → β → Prop} {l : List α} {m : List β} (h : All2 R l m) : l.length = m.length := by
  induction h with
  | nil => rfl
  | cons _ _ ih => simp [ih]

private theorem All2.get {α β : Type} {R : α → β → Prop} {l : List α} {m : List β} (h : All2 R l m) :
    ∀ (i : Nat) (a : α), l[i]? = some a → ∃ b, m[i]? = some b ∧ R a b := by
  induction h with
  | nil => intro i a ha; simp at ha
  | cons hab _ ih =>
    intro i a ha
    cases i with
    | zero => simp at ha; subst ha; exact ⟨_, by simp, hab⟩
    | succ i => simpa using ih i a (by simpa using ha)

private theorem opt_le {α : Type} {vs : List RdfNode} {R : RdfNode → α → Prop} {x : Option α} (h : Optional vs R x) : vs.length ≤ 1 := by
  rcases h with ⟨rfl, _⟩ | ⟨v, rfl, _⟩ <;> simp

private theorem spec_le {α : Type} {vs : List RdfNode} {R : RdfNode → Option α → Prop} {x : Option (OrSpecial α)} (h : OptionalSpecial vs R x) :
    vs.length ≤ 1 := by
  rcases h with ⟨rfl, _⟩ | ⟨v, rfl, _⟩ <;> simp

private theorem opt_ne {α : Type} {vs : List RdfNode} {R : RdfNode → α → Prop} {x : α} (h : Optional vs R (some x)) : vs ≠ [] := by
  rcases h with ⟨_, h⟩ | ⟨v, rfl, _⟩
  · cases h
  · simp

private theorem spec_ne {α : Type} {vs : List RdfNode} {R : RdfNode → Option α → Prop} {x : OrSpecial α} (h : OptionalSpecial vs R (some x)) :
    vs ≠ [] := by
  rcases h with ⟨_, h⟩ | ⟨v, rfl, _⟩
  · cases h
  · simp

private theorem opt_ok {α : Type} {R : RdfNode → α → Prop} {x : Option α} {v : RdfNode} (h : Optional [v] R x) (hb : ¬ Blank v) : ∃ y, R v y := by
  rcases h with ⟨h, _⟩ | ⟨w, hw, ⟨h, _⟩ | ⟨_, y, hy, _⟩⟩
  · cases h
  · cases hw; exact absurd h hb
  · cases hw; exact ⟨y, hy⟩

private theorem actor_ok {x : Option (OrNoAssertion Actor)} {v : RdfNode} (h : OptionalSpecial [v] ActorS (withNone x)) (hb : ¬ Blank v) :
    NoAssertion v ∨ isActor v := by
  rcases h with ⟨h, _⟩ | ⟨w, hw, h⟩
  · cases h
  · cases hw
    generalize hx : withNone x = y at h
    cases h with
    | blank h => exact absurd h hb
    | noAssertion h => exact .inl h
    | none h => rcases x with _ | _ | _ <;> cases hx
    | value o _ _ _ h => obtain ⟨a, ha, _⟩ := h; exact .inr ⟨a, ha⟩

/-! ### Theorems -/

/-- Reading a graph gives a document exactly if the graph says so. -/
theorem reads_exactly (env : RdfEnv) (b : Bindings) (g : RdfGraph) (d : Document) :
    parseRdf env b g = some d ↔ ∃ b' ns, IsRdf env b g d b' ns := RdfSays.rdf_iff env b g d

private theorem all {env : RdfEnv} {b : Bindings} {g : RdfGraph} {d : Document} (h : parseRdf env b g = some d) :
    ∃ b' ns, (∀ n ∈ nodes g s%"SpdxDocument", ∃ i, IsInfo env g b d.creationInfo b' n i) ∧
      (∀ n ∈ nodes g s%"Package", ∃ p, IsPackage env g b' ns n p) ∧
      (∀ n ∈ nodes g s%"File", ∃ f, IsFile env g b' ns n f) ∧
      (∀ n ∈ nodes g s%"Snippet", ∃ s, IsSnippet env g b' ns n s) ∧
      (∀ n ∈ (related g .annotation).map (·.2), ∃ e a, e.2 = n ∧ IsAnnotation g b' ns e a) ∧
      (∀ n ∈ (related g .relationship).map (·.2), ∃ e a, e.2 = n ∧ IsRelationship g b' ns e a) ∧
      (∀ n ∈ (related g .hasExtractedLicensingInfo).map (·.2), ∃ x, IsExtracted g ns n x) := by
  obtain ⟨b', ns, hd⟩ := (reads_exactly env b g d).1 h
  obtain ⟨doc, i, hi⟩ := hd.creationInfo
  obtain ⟨own, _, _, ho, _⟩ := hd.relationships
  refine ⟨b', ns, ?_, All2.left hd.packages, All2.left hd.files, All2.left hd.snippets, ?_, ?_, ?_⟩
  · intro n hn
    rw [hi.document.only] at hn
    cases List.mem_singleton.1 hn
    exact ⟨i, hi⟩
  · intro n hn
    obtain ⟨e, he, rfl⟩ := List.mem_map.1 hn
    obtain ⟨a, ha⟩ := All2.left hd.annotations e he
    exact ⟨e, a, rfl, ha⟩
  · intro n hn
    obtain ⟨e, he, rfl⟩ := List.mem_map.1 hn
    obtain ⟨a, ha⟩ := All2.left ho e he
    exact ⟨e, a, rfl, ha⟩
  · intro n hn
    obtain ⟨e, he, rfl⟩ := List.mem_map.1 hn
    exact All2.left hd.extractedLicensingInfo e he

/-- A node with two values for a property that may be given only once is refused. -/
theorem twice_refused (env : RdfEnv) (b : Bindings) (g : RdfGraph) (k : List RdfNode × List Pred) (hk : k ∈ single g) (n : RdfNode) (hn : n ∈ k.1)
    (p : Pred) (hp : p ∈ k.2) (h2 : 2 ≤ (values g n p).length) : parseRdf env b g = none := by
  cases hd : parseRdf env b g with
  | none => rfl
  | some d =>
    exfalso
    obtain ⟨b', ns, h0, h1, h3, h4, h5, h6, h7⟩ := all hd
    have key : (values g n p).length ≤ 1 → False := fun h => absurd (Nat.le_trans h2 h) (by decide)
    apply key
    simp only [single, List.mem_cons, List.not_mem_nil, or_false] at hk
    rcases hk with rfl | rfl | rfl | rfl | rfl | rfl | rfl
    · obtain ⟨i, hi⟩ := h0 n hn
      simp only [List.mem_cons, List.not_mem_nil, or_false] at hp
      rcases hp with rfl | rfl | rfl | rfl
      exacts [opt_le hi.spdxVersion, opt_le hi.dataLicense, opt_le hi.documentComment, opt_le hi.name]
    · obtain ⟨q, hq⟩ := h1 n hn
      simp only [List.mem_cons, List.not_mem_nil, or_false] at hp
      obtain ⟨t, ht, _⟩ := hq.homepage
      rcases hp with rfl | rfl | rfl | rfl | rfl | rfl | rfl | rfl | rfl | rfl | rfl | rfl | rfl | rfl | rfl | rfl | rfl | rfl | rfl | rfl
      exacts [opt_le hq.name, spec_le hq.downloadLocation, opt_le hq.version, opt_le hq.fileName, spec_le hq.supplier, spec_le hq.originator,
        opt_le hq.verificationCode, opt_le ht, opt_le hq.sourceInfo, spec_le hq.licenseConcluded, spec_le hq.licenseDeclared,
        opt_le hq.licenseComment, spec_le hq.copyrightText, opt_le hq.summary, opt_le hq.description, opt_le hq.comment,
        opt_le hq.primaryPackagePurpose, opt_le hq.releaseDate, opt_le hq.builtDate, opt_le hq.validUntilDate]
    · obtain ⟨q, hq⟩ := h3 n hn
      simp only [List.mem_cons, List.not_mem_nil, or_false] at hp
      rcases hp with rfl | rfl | rfl | rfl | rfl | rfl
      exacts [opt_le hq.name, spec_le hq.licenseConcluded, opt_le hq.licenseComment, spec_le hq.copyrightText, opt_le hq.comment, opt_le hq.notice]
    · obtain ⟨q, hq⟩ := h4 n hn
      simp only [List.mem_cons, List.not_mem_nil, or_false] at hp
      rcases hp with rfl | rfl | rfl | rfl | rfl
      exacts [spec_le hq.licenseConcluded, opt_le hq.licenseComment, spec_le hq.copyrightText, opt_le hq.comment, opt_le hq.name]
    · obtain ⟨e, q, rfl, hq⟩ := h5 n hn
      simp only [List.mem_cons, List.not_mem_nil, or_false] at hp
      rcases hp with rfl | rfl | rfl | rfl
      exacts [opt_le hq.annotationType, opt_le hq.annotator, opt_le hq.annotationDate, opt_le hq.annotationComment]
    · obtain ⟨e, q, rfl, hq⟩ := h6 n hn
      simp only [List.mem_cons, List.not_mem_nil, or_false] at hp
      rcases hp with rfl | rfl | rfl
      exacts [opt_le hq.relationshipType, spec_le hq.relatedSpdxElementId, opt_le hq.comment]
    · obtain ⟨q, hq⟩ := h7 n hn
      obtain ⟨_, _, _, hi, _⟩ := hq.licenseId
      simp only [List.mem_cons, List.not_mem_nil, or_false] at hp
      rcases hp with rfl | rfl | rfl | rfl
      exacts [opt_le hi, opt_le hq.extractedText, opt_le hq.comment, spec_le hq.licenseName]

private theorem ranges_ne {vs : List RdfNode} {rs : List (RangeKind × (Int × Int))} {r : RangeKind × (Int × Int)} {g : RdfGraph}
    (h : All2 (Spec.RdfSays.Range g) vs rs) (hr : rs.filter (fun r => r.1 = .byte) = [r]) : vs ≠ [] := by
  rintro rfl; cases h; simp at hr

/-- A node without a property it must have is refused. -/
theorem missing_refused (env : RdfEnv) (b : Bindings) (g : RdfGraph) (k : List RdfNode × List Pred) (hk : k ∈ required g) (n : RdfNode) (hn : n ∈ k.1)
    (p : Pred) (hp : p ∈ k.2) (h0 : values g n p = []) : parseRdf env b g = none := by
  cases hd : parseRdf env b g with
  | none => rfl
  | some d =>
    exfalso
    obtain ⟨b', ns, hI, h1, h3, h4, h5, h6, h7⟩ := all hd
    revert h0
    show values g n p ≠ []
    simp only [required, List.mem_cons, List.not_mem_nil, or_false] at hk
    rcases hk with rfl | rfl | rfl | rfl | rfl | rfl
    · obtain ⟨i, hi⟩ := hI n hn
      simp only [List.mem_cons, List.not_mem_nil, or_false] at hp
      rcases hp with rfl | rfl | rfl
      exacts [opt_ne hi.spdxVersion, opt_ne hi.dataLicense, opt_ne hi.name]
    · obtain ⟨q, hq⟩ := h1 n hn
      simp only [List.mem_cons, List.not_mem_nil, or_false] at hp
      rcases hp with rfl | rfl
      exacts [opt_ne hq.name, spec_ne hq.downloadLocation]
    · obtain ⟨q, hq⟩ := h3 n hn
      simp only [List.mem_cons, List.not_mem_nil, or_false] at hp
      subst hp
      exact opt_ne hq.name
    · obtain ⟨q, hq⟩ := h4 n hn
      obtain ⟨rs, hr, hb, _⟩ := hq.ranges
      obtain ⟨f, hf, _⟩ := hq.fileSpdxId
      simp only [List.mem_cons, List.not_mem_nil, or_false] at hp
      rcases hp with rfl | rfl
      · exact ranges_ne hr hb
      · intro h; rw [h] at hf; cases hf
    · obtain ⟨e, q, rfl, hq⟩ := h5 n hn
      simp only [List.mem_cons, List.not_mem_nil, or_false] at hp
      rcases hp with rfl | rfl | rfl | rfl
      exacts [opt_ne hq.annotationType, opt_ne hq.annotator, opt_ne hq.annotationDate, opt_ne hq.annotationComment]
    · obtain ⟨e, q, rfl, hq⟩ := h6 n hn
      simp only [List.mem_cons, List.not_mem_nil, or_false] at hp
      rcases hp with rfl | rfl
      exacts [opt_ne hq.relationshipType, spec_ne hq.relatedSpdxElementId]

/-- A node with a value that its property cannot have is refused: an actor without a kind, NONE as a supplier, a malformed date, an unknown
    type. -/
theorem wrong_refused (env : RdfEnv) (b : Bindings) (g : RdfGraph) (k : List RdfNode × Pred × (RdfNode → Prop)) (hk : k ∈ acceptable g) (n : RdfNode)
    (hn : n ∈ k.1) (v : RdfNode) (hv : values g n k.2.1 = [v]) (hb : ¬ Blank v) (hw : ¬ k.2.2 v) : parseRdf env b g = none := by
  cases hd : parseRdf env b g with
  | none => rfl
  | some d =>
    exfalso
    obtain ⟨b', ns, hI, h1, h3, h4, h5, h6, h7⟩ := all hd
    apply hw
    clear hw
    simp only [acceptable, List.mem_cons, List.not_mem_nil, or_false] at hk
    rcases hk with rfl | rfl | rfl | rfl | rfl | rfl | rfl | rfl | rfl | rfl
    · obtain ⟨q, hq⟩ := h1 n hn; exact actor_ok (hv ▸ hq.supplier) hb
    · obtain ⟨q, hq⟩ := h1 n hn; exact actor_ok (hv ▸ hq.originator) hb
    · obtain ⟨q, hq⟩ := h1 n hn; exact opt_ok (hv ▸ hq.releaseDate) hb
    · obtain ⟨q, hq⟩ := h1 n hn; exact opt_ok (hv ▸ hq.builtDate) hb
    · obtain ⟨q, hq⟩ := h1 n hn; exact opt_ok (hv ▸ hq.validUntilDate) hb
    · obtain ⟨q, hq⟩ := h1 n hn; exact opt_ok (hv ▸ hq.primaryPackagePurpose) hb
    · obtain ⟨e, q, rfl, hq⟩ := h5 n hn; exact opt_ok (hv ▸ hq.annotator) hb
    · obtain ⟨e, q, rfl, hq⟩ := h5 n hn; exact opt_ok (hv ▸ hq.annotationDate) hb
    · obtain ⟨e, q, rfl, hq⟩ := h5 n hn; exact opt_ok (hv ▸ hq.annotationType) hb
    · obtain ⟨e, q, rfl, hq⟩ := h6 n hn; exact opt_ok (hv ▸ hq.relationshipType) hb

/-- Elements correspond to the nodes of their class, one for one. -/
theorem counts (env : RdfEnv) (b : Bindings) (g : RdfGraph) (d : Document) (h : parseRdf env b g = some d) :
    d.packages.length = (nodes g s%"Package").length ∧ d.files.length = (nodes g s%"File").length ∧
      d.snippets.length = (nodes g s%"Snippet").length ∧ d.annotations.length = (related g .annotation).length ∧
      d.extractedLicensingInfo.length = (related g .hasExtractedLicensingInfo).length := by
  obtain ⟨b', ns, hd⟩ := (reads_exactly env b g d).1 h
  exact ⟨(All2.length hd.packages).symm, (All2.length hd.files).symm, (All2.length hd.snippets).symm, (All2.length hd.annotations).symm,
    (All2.length hd.extractedLicensingInfo).symm⟩

private theorem one_index {α : Type} {P : α → Bool} : ∀ {l : List α} {x : α}, l.filter P = [x] → ∃ i : Nat, l[i]? = some x ∧ P x = true ∧
    ∀ (j : Nat) y, l[j]? = some y → P y = true → j = i
  | [], _, h => by cases h
  | a :: l, x, h => by
    by_cases ha : P a = true
    · rw [List.filter_cons_of_pos ha] at h
      obtain ⟨rfl, hl⟩ := List.cons.inj h
      refine ⟨0, by simp, ha, fun j y hj hy => ?_⟩
      cases j with
      | zero => rfl
      | succ j =>
        have : y ∈ l := List.mem_of_getElem? (i := j) (by simpa using hj)
        exact absurd hy (List.filter_eq_nil_iff.1 hl y this)
    · rw [List.filter_cons_of_neg ha] at h
      obtain ⟨i, h1, h2, h3⟩ := one_index h
      refine ⟨i + 1, by simpa using h1, h2, fun j y hj hy => ?_⟩
      cases j with
      | zero => simp at hj; subst hj; exact absurd hy ha
      | succ j => rw [h3 j y (by simpa using hj) hy]

private theorem range_kind {g : RdfGraph} {n : RdfNode} {a c : Int × Int} {k : RangeKind} (h : Spec.RdfSays.Range g n (.byte, a))
    (h' : Spec.RdfSays.Range g n (k, c)) : k = .byte := by
  cases k with
  | byte => rfl
  | line =>
    obtain ⟨⟨q, h1, _, h2, _⟩, _⟩ := h
    obtain ⟨⟨q', h1', _, h2', _⟩, _⟩ := h'
    rw [h1] at h1'
    cases h1'
    exact absurd (h2.symm.trans h2') (by decide)

/-- A snippet that is read has exactly one range of bytes: two are refused, and so is none. -/
theorem one_byte_range (env : RdfEnv) (b : Bindings) (g : RdfGraph) (d : Document) (h : parseRdf env b g = some d) (n : RdfNode)
    (hn : n ∈ nodes g s%"Snippet") : ∃ (i : Nat) (v : RdfNode) (r : Int × Int), (values g n .range)[i]? = some v ∧ Spec.RdfSays.Range g v (.byte, r) ∧
      ∀ (j : Nat) w c, (values g n .range)[j]? = some w → Spec.RdfSays.Range g w (.byte, c) → j = i := by
  obtain ⟨b', ns, _, _, _, h4, _⟩ := all h
  obtain ⟨s, hs⟩ := h4 n hn
  obtain ⟨rs, ha, hb, _⟩ := hs.ranges
  obtain ⟨i, hi, _, ho⟩ := one_index hb
  have hl := All2.length ha
  obtain ⟨v, hv⟩ : ∃ v, (values g n .range)[i]? = some v := by
    have : i < rs.length := (List.getElem?_eq_some_iff.1 hi).1
    exact ⟨_, List.getElem?_eq_getElem (hl ▸ this)⟩
  obtain ⟨r, hr, hR⟩ := All2.get ha i v hv
  rw [hi] at hr
  cases hr
  refine ⟨i, v, _, hv, hR, fun j w c hj hc => ?_⟩
  obtain ⟨⟨k, q⟩, hq, hQ⟩ := All2.get ha j w hj
  cases range_kind hc hQ
  exact ho j _ hq (by simp)

/-- Binding a prefix again to its namespace changes nothing. -/
theorem bound_again (b : Bindings) (pre ns : Str) (h : (pre, ns) ∈ b) (hu : ∀ m, (pre, m) ∈ b → m = ns) : b.bind pre ns = b := by
  have : b.nsOf pre = some ns := by
    unfold Bindings.nsOf
    induction b with
    | nil => cases h
    | cons e l ih =>
      obtain ⟨p, m⟩ := e
      by_cases hp : pre = p
      · subst hp
        rw [List.lookup_cons, beq_self_eq_true]
        exact congrArg some (hu m (.head _))
      · rw [List.lookup_cons, beq_false_of_ne hp]
        refine ih ?_ fun m hm => hu m (.tail _ hm)
        rcases List.mem_cons.1 h with h | h
        · cases h; exact absurd rfl hp
        · exact h
  unfold Bindings.bind
  rw [this]
  exact if_pos rfl

/-! ### Non-vacuity -/

/-- The graph written for the example document. -/
def written : RdfGraph := (rdfGraph C49.exampleEnv Example.doc).getD []

/-- It is read. -/
theorem written_reads : (parseRdf C49.exampleEnv [] written).isSome = true := by decide +kernel

example : ∃ d b' ns, IsRdf C49.exampleEnv [] written d b' ns := by
  obtain ⟨d, hd⟩ := Option.isSome_iff_exists.1 written_reads
  obtain ⟨b', ns, h⟩ := (reads_exactly _ _ _ _).1 hd
  exact ⟨d, b', ns, h⟩

example : (nodes written s%"Package").length = 2 ∧ (nodes written s%"Snippet").length = 1 ∧ 1 ≤ (related written .annotation).length := by decide +kernel

/-- A second name for a package of the example is refused. -/
example : ∃ n ∈ nodes written s%"Package", 2 ≤ (values ((n, .name, .str s%"other") :: written) n .name).length := by decide +kernel

/-- The example with other objects for one property. -/
def withObject (p : Pred) (v : RdfNode) : RdfGraph := written.map fun t => if t.2.1 = p then (t.1, p, v) else t

/-- NONE as a supplier is refused, and so is a name without a kind. -/
example : ∃ n ∈ nodes (withObject .supplier (.str s%"NONE")) s%"Package", values (withObject .supplier (.str s%"NONE")) n .supplier = [.str s%"NONE"] := by
  decide +kernel
example : parseRdf C49.exampleEnv [] (withObject .supplier (.str s%"NONE")) = none := by decide +kernel
example : parseRdf C49.exampleEnv [] (withObject .supplier (.str s%"Nobody")) = none := by decide +kernel

/-- Without the ranges the snippet is refused. -/
example : ∃ n ∈ nodes written s%"Snippet", values (written.filter fun t => t.2.1 ≠ .range) n .range = [] := by decide +kernel
example : parseRdf C49.exampleEnv [] (written.filter fun t => t.2.1 ≠ .range) = none := by decide +kernel

example : Bindings.bind [(s%"a", s%"http://a#"), (s%"b", s%"http://b#")] s%"a" s%"http://a#" = [(s%"a", s%"http://a#"), (s%"b", s%"http://b#")] :=
  bound_again _ _ _ (by decide) (by simp)

end Spdx.C55
