import Verif.Spec.Valid
import Verif.Spec.RdfOk
/- Whether a document is valid depends on its entries only, not on their order. -/
namespace Spdx.ValidSame
open Spdx Spec

/-! Rearranged lists -/

variable {α β : Type}

theorem all2_forall {R : α → β → Prop} {P : α → Prop} {Q : β → Prop} (h : ∀ a b, R a b → (P a ↔ Q b)) {l : List α} {m : List β}
    (hl : All2 R l m) : (∀ a ∈ l, P a) ↔ ∀ b ∈ m, Q b := by
  induction hl with
  | nil => simp
  | cons hr _ ih => simp only [List.mem_cons, forall_eq_or_imp]; exact and_congr (h _ _ hr) ih

theorem all2_exists {R : α → β → Prop} {P : α → Prop} {Q : β → Prop} (h : ∀ a b, R a b → (P a ↔ Q b)) {l : List α} {m : List β}
    (hl : All2 R l m) : (∃ a ∈ l, P a) ↔ ∃ b ∈ m, Q b := by
  induction hl with
  | nil => simp
  | cons hr _ ih => simp only [List.mem_cons, exists_eq_or_imp]; exact or_congr (h _ _ hr) ih

theorem all2_map {γ : Type} {R : α → β → Prop} {f : α → γ} {g : β → γ} (h : ∀ a b, R a b → g b = f a) {l : List α} {m : List β}
    (hl : All2 R l m) : m.map g = l.map f := by
  induction hl with
  | nil => rfl
  | cons hr _ ih => rw [List.map_cons, List.map_cons, h _ _ hr, ih]

theorem re_forall {R : α → β → Prop} {P : α → Prop} {Q : β → Prop} (h : ∀ a b, R a b → (P a ↔ Q b)) {l : List α} {m : List β}
    (hl : Rearranged2 R l m) : (∀ a ∈ l, P a) ↔ ∀ b ∈ m, Q b := by
  obtain ⟨l', h1, h2⟩ := hl
  refine (all2_forall h h1).trans (forall_congr' fun b => ?_)
  rw [h2.mem_iff]

theorem re_exists {R : α → β → Prop} {P : α → Prop} {Q : β → Prop} (h : ∀ a b, R a b → (P a ↔ Q b)) {l : List α} {m : List β}
    (hl : Rearranged2 R l m) : (∃ a ∈ l, P a) ↔ ∃ b ∈ m, Q b := by
  obtain ⟨l', h1, h2⟩ := hl
  refine (all2_exists h h1).trans (exists_congr fun b => ?_)
  rw [h2.mem_iff]

theorem re_map {γ : Type} {R : α → β → Prop} {f : α → γ} {g : β → γ} (h : ∀ a b, R a b → g b = f a) {l : List α} {m : List β}
    (hl : Rearranged2 R l m) : (m.map g).Perm (l.map f) := by
  obtain ⟨l', h1, h2⟩ := hl
  rw [← all2_map h h1]
  exact h2.map g

theorem re_length {R : α → β → Prop} {l : List α} {m : List β} (hl : Rearranged2 R l m) : m.length = l.length := by
  have := (re_map (f := fun _ => ()) (g := fun _ => ()) (fun _ _ _ => rfl) hl).length_eq
  rwa [List.length_map, List.length_map] at this

theorem re_nil {R : α → β → Prop} {l : List α} {m : List β} (hl : Rearranged2 R l m) : l = [] ↔ m = [] := by
  rw [← List.length_eq_zero_iff, ← List.length_eq_zero_iff, re_length hl]

/-! What the rules look up in the document -/

/-- The same things can be found in the two documents. -/
structure Alike (d e : Document) : Prop where
  docId : e.creationInfo.spdxId = d.creationInfo.spdxId
  packages : ∀ id, (∃ p ∈ d.packages, p.spdxId = id) ↔ ∃ p ∈ e.packages, p.spdxId = id
  files : ∀ id, InFiles d id ↔ InFiles e id
  snippets : ∀ id, (∃ s ∈ d.snippets, s.spdxId = id) ↔ ∃ s ∈ e.snippets, s.spdxId = id
  declared : ∀ ref, Declared d ref ↔ Declared e ref
  extracted : ∀ t, (∃ x ∈ d.extractedLicensingInfo, x.licenseId = some t) ↔ ∃ x ∈ e.extractedLicensingInfo, x.licenseId = some t

variable {d e : Document} {X : Ext} {is22 : Prop}

theorem Alike.inDocument (A : Alike d e) (id : Str) : InDocument d id ↔ InDocument e id := by
  unfold InDocument
  rw [A.docId]
  exact or_congr .rfl (or_congr (A.packages id) (or_congr (A.files id) (A.snippets id)))

theorem Alike.idRule (A : Alike d e) {P Q : Str → Prop} (h : ∀ id, P id ↔ Q id) (id : Str) : IdRule d P id ↔ IdRule e Q id :=
  or_congr (and_congr .rfl (h id)) (exists_congr fun ref => exists_congr fun _ =>
    and_congr .rfl (and_congr .rfl (and_congr .rfl (A.declared ref))))

theorem Alike.localRule (A : Alike d e) (id : Str) : IdRule d (fun _ => True) id ↔ IdRule e (fun _ => True) id := A.idRule (fun _ => .rfl) id

theorem Alike.symbolRule (A : Alike d e) (t : Str) : LicSymbolRule d t ↔ LicSymbolRule e t :=
  or_congr (and_congr .rfl (A.extracted t)) (exists_congr fun ref => exists_congr fun _ =>
    and_congr .rfl (and_congr .rfl (and_congr .rfl (and_congr .rfl (A.declared ref)))))

theorem Alike.licRule (A : Alike d e) (x : OrSpecial LicExpr) : LicRule X d x ↔ LicRule X e x := by
  cases x with
  | val x => exact and_congr (forall_congr' fun t => forall_congr' fun _ => A.symbolRule t) .rfl
  | noAssertion => exact .rfl
  | none => exact .rfl

theorem Alike.linksFile (A : Alike d e) {p q : Package} (hp : q.spdxId = p.spdxId) (r : Relationship) : LinksFile d p r ↔ LinksFile e q r := by
  unfold LinksFile
  rw [hp]
  refine or_congr (and_congr .rfl (and_congr .rfl (exists_congr fun id => and_congr .rfl (and_congr (A.files id) (not_congr (A.packages id)))))) ?_
  exact and_congr .rfl (and_congr .rfl (and_congr (A.files _) (not_congr (A.packages _))))

theorem Alike.relationshipRule (A : Alike d e) (r : Relationship) : RelationshipRule is22 d r ↔ RelationshipRule is22 e r :=
  and_congr (A.idRule A.inDocument _) (and_congr (forall_congr' fun _ => forall_congr' fun _ => A.idRule A.inDocument _) .rfl)

theorem Alike.annotationRule (A : Alike d e) (a : Annotation) : AnnotationRule d a ↔ AnnotationRule e a :=
  and_congr .rfl (A.idRule A.inDocument _)

/-! Elements -/

theorem Alike.sameLic (A : Alike d e) (hX : Unordered X) {x y : OrSpecial LicExpr} (h : SameLicOr x y) : LicRule X d x ↔ LicRule X e y := by
  cases h with
  | val h =>
    exact and_congr (forall_congr' fun t => (imp_congr_left (hX.symbols _ _ h t)).trans (imp_congr_right fun _ => A.symbolRule t)) (hX.strict _ _ h)
  | noAssertion => exact .rfl
  | none => exact .rfl

theorem sameOpt_forall {R : α → β → Prop} {P : α → Prop} {Q : β → Prop} (h : ∀ a b, R a b → (P a ↔ Q b)) {x : Option α} {y : Option β}
    (hx : SameOpt R x y) : (∀ a, x = some a → P a) ↔ ∀ b, y = some b → Q b := by
  cases hx with
  | none => exact ⟨fun _ _ h => (nomatch h), fun _ _ h => (nomatch h)⟩
  | some hr => exact ⟨fun g b hb => by cases hb; exact (h _ _ hr).1 (g _ rfl), fun g a ha => by cases ha; exact (h _ _ hr).2 (g _ rfl)⟩

theorem sameOpt_none {R : α → β → Prop} {x : Option α} {y : Option β} (hx : SameOpt R x y) : x = none ↔ y = none := by
  cases hx with
  | none => exact ⟨fun _ => rfl, fun _ => rfl⟩
  | some hr => exact ⟨fun h => (nomatch h), fun h => (nomatch h)⟩

private theorem mem_forall {P : α → Prop} {l m : List α} (h : m.Perm l) : (∀ a ∈ l, P a) ↔ ∀ a ∈ m, P a :=
  forall_congr' fun a => by rw [h.mem_iff]

theorem Alike.licOpt (A : Alike d e) (hX : Unordered X) {x y : Option (OrSpecial LicExpr)} (h : SameOpt SameLicOr x y) :
    LicRuleOpt X d x ↔ LicRuleOpt X e y :=
  sameOpt_forall (P := LicRule X d) (Q := LicRule X e) (fun _ _ => A.sameLic hX) h

theorem Alike.licList (A : Alike d e) (hX : Unordered X) {l m : List (OrSpecial LicExpr)} (h : Rearranged2 SameLicOr l m) :
    (∀ x ∈ l, LicRule X d x) ↔ ∀ x ∈ m, LicRule X e x :=
  re_forall (P := LicRule X d) (Q := LicRule X e) (fun _ _ => A.sameLic hX) h

theorem fileRule_iff (A : Alike d e) (hX : Unordered X) {f g : File} (h : SameFile f g) : FileRule X is22 d f ↔ FileRule X is22 e g := by
  unfold FileRule
  rw [h.id, h.name, h.copyright]
  refine and_congr (A.localRule _) (and_congr (A.licOpt hX h.concluded)
    (and_congr (A.licList hX h.info) (and_congr .rfl (and_congr ?_ (and_congr (mem_forall h.checksums) ?_)))))
  · exact exists_congr fun c => by rw [h.checksums.mem_iff]
  · exact imp_congr_right fun _ => and_congr (not_congr (sameOpt_none h.concluded)) (and_congr (not_congr (re_nil h.info)) .rfl)

theorem snippetRule_iff (A : Alike d e) (hX : Unordered X) {s t : Snippet} (h : SameSnippet s t) :
    SnippetRule X is22 d s ↔ SnippetRule X is22 e t := by
  unfold SnippetRule
  rw [h.id, h.file, h.bytes, h.lines, h.copyright]
  exact and_congr (A.localRule _) (and_congr (A.idRule A.files _) (and_congr (A.licOpt hX h.concluded)
    (and_congr (A.licList hX h.info) (and_congr .rfl (and_congr .rfl (and_congr .rfl
      (imp_congr_right fun _ => and_congr (not_congr (sameOpt_none h.concluded)) .rfl)))))))

theorem codeRule_iff {c c' : PackageVerificationCode} (h : SameCode c c') : VerificationCodeRule c ↔ VerificationCodeRule c' := by
  unfold VerificationCodeRule
  rw [h.value]
  exact and_congr (mem_forall h.excluded) .rfl

theorem packageRule_iff (A : Alike d e) (hX : Unordered X) {p q : Package} (h : SamePackage p q)
    (hr : (∀ r ∈ d.relationships, ¬ LinksFile d p r) ↔ ∀ r ∈ e.relationships, ¬ LinksFile e q r) :
    PackageRule X is22 d p ↔ PackageRule X is22 e q := by
  unfold PackageRule
  rw [h.id, h.analyzed, h.download, h.homepage, h.copyright, h.purpose, h.built, h.release, h.validUntil]
  refine and_congr (A.localRule _) (and_congr ?_ (and_congr (A.licOpt hX h.concluded)
    (and_congr (A.licOpt hX h.declared) (and_congr (A.licList hX h.info)
      (and_congr .rfl (and_congr .rfl (and_congr (sameOpt_forall (P := VerificationCodeRule) (Q := VerificationCodeRule) (fun _ _ => codeRule_iff) h.code) (and_congr (mem_forall h.checksums)
        (and_congr (mem_forall h.refs) ?_)))))))))
  · exact imp_congr_right fun _ => and_congr hr (and_congr (re_nil h.info) (sameOpt_none h.code))
  · exact imp_congr_right fun _ => and_congr .rfl (and_congr .rfl (and_congr .rfl (and_congr .rfl
      (and_congr (not_congr (sameOpt_none h.concluded)) (and_congr (not_congr (sameOpt_none h.declared)) .rfl)))))

theorem extractedRule_iff {x y : ExtractedLicensingInfo} (h : SameLicense x y) : ExtractedRule X x ↔ ExtractedRule X y := by
  obtain ⟨h1, h2⟩ := h
  unfold ExtractedRule
  refine and_congr ?_ (mem_forall h1)
  rw [h2]

theorem infoRule_iff {c c' : CreationInfo} (h : SameInfo c c') : CreationInfoRule X is22 c ↔ CreationInfoRule X is22 c' := by
  obtain ⟨h1, h2, h3⟩ := h
  unfold CreationInfoRule
  refine Iff.trans ?_ (b := c'.spdxId = _ ∧ c'.dataLicense = _ ∧ UriRule X c'.documentNamespace ∧ _) .rfl
  refine and_congr (by rw [h3]) (and_congr (by rw [h3]) (and_congr (by rw [h3]) (and_congr (mem_forall h1) (mem_forall h2))))

/-! Documents -/

/-- The documents have the same parts, in some order, apart from relationships. -/
structure SameParts (d e : Document) : Prop where
  info : SameInfo d.creationInfo e.creationInfo
  packages : Rearranged2 SamePackage d.packages e.packages
  files : Rearranged2 SameFile d.files e.files
  snippets : Rearranged2 SameSnippet d.snippets e.snippets
  annotations : ∀ a, a ∈ e.annotations ↔ a ∈ d.annotations
  licenses : Rearranged2 SameLicense d.extractedLicensingInfo e.extractedLicensingInfo

theorem SameParts.alike (h : SameParts d e) : Alike d e where
  docId := by rw [h.info.2.2]
  packages id := re_exists (fun _ _ hr => by rw [hr.id]) h.packages
  files id := re_exists (fun _ _ hr => by rw [hr.id]) h.files
  snippets id := re_exists (fun _ _ hr => by rw [hr.id]) h.snippets
  declared ref := exists_congr fun r => by rw [h.info.2.1.mem_iff]
  extracted t := re_exists (fun _ _ hr => by rw [hr.2]) h.licenses

/-- The relationships mean the same for the rules. -/
structure SameLinks (d e : Document) : Prop where
  links : ∀ p q : Package, q.spdxId = p.spdxId → ((∀ r ∈ d.relationships, ¬ LinksFile d p r) ↔ ∀ r ∈ e.relationships, ¬ LinksFile e q r)
  rules : ∀ is22, (∀ r ∈ d.relationships, RelationshipRule is22 d r) ↔ ∀ r ∈ e.relationships, RelationshipRule is22 e r
  describes : (∃ r ∈ d.relationships, (r.relationshipType = .DESCRIBES ∧ r.spdxElementId = d.creationInfo.spdxId) ∨
      (r.relationshipType = .DESCRIBED_BY ∧ r.relatedSpdxElementId = .val d.creationInfo.spdxId)) ↔
    ∃ r ∈ e.relationships, (r.relationshipType = .DESCRIBES ∧ r.spdxElementId = e.creationInfo.spdxId) ∨
      (r.relationshipType = .DESCRIBED_BY ∧ r.relatedSpdxElementId = .val e.creationInfo.spdxId)

theorem SameLinks.of_mem (A : Alike d e) (h : ∀ r, r ∈ e.relationships ↔ r ∈ d.relationships) : SameLinks d e where
  links p q hp := forall_congr' fun r => by rw [h r]; exact imp_congr_right fun _ => not_congr (A.linksFile hp r)
  rules _ := forall_congr' fun r => by rw [h r]; exact imp_congr_right fun _ => A.relationshipRule r
  describes := exists_congr fun r => by rw [h r, A.docId]

theorem unique_iff (h : SameParts d e) : (elementIds d).Nodup ↔ (elementIds e).Nodup := by
  have hp : (elementIds e).Perm (elementIds d) := by
    unfold elementIds
    rw [h.alike.docId]
    exact ((((re_map (fun _ _ hr => hr.id) h.packages).append (re_map (fun _ _ hr => hr.id) h.files)).append
      (re_map (fun _ _ hr => hr.id) h.snippets))).cons _
  exact hp.nodup_iff.symm

/-- The parts follow the same rules. -/
structure SameVerdicts (X : Ext) (d e : Document) : Prop where
  version : e.creationInfo.spdxVersion = d.creationInfo.spdxVersion
  info : ∀ is22, CreationInfoRule X is22 d.creationInfo ↔ CreationInfoRule X is22 e.creationInfo
  packages : ∀ is22, (∀ p ∈ d.packages, PackageRule X is22 d p) ↔ ∀ p ∈ e.packages, PackageRule X is22 e p
  files : ∀ is22, (∀ f ∈ d.files, FileRule X is22 d f) ↔ ∀ f ∈ e.files, FileRule X is22 e f
  snippets : ∀ is22, (∀ s ∈ d.snippets, SnippetRule X is22 d s) ↔ ∀ s ∈ e.snippets, SnippetRule X is22 e s
  annotations : (∀ a ∈ d.annotations, AnnotationRule d a) ↔ ∀ a ∈ e.annotations, AnnotationRule e a
  extracted : (∀ x ∈ d.extractedLicensingInfo, ExtractedRule X x) ↔ ∀ x ∈ e.extractedLicensingInfo, ExtractedRule X x
  single : (d.packages.length = 1 ∧ d.files = [] ∧ d.snippets = []) ↔ e.packages.length = 1 ∧ e.files = [] ∧ e.snippets = []
  unique : (elementIds d).Nodup ↔ (elementIds e).Nodup

theorem valid_verdicts (h : SameVerdicts X d e) (hr : SameLinks d e) : Valid X d ↔ Valid X e := by
  have hparts : ∀ is22, Parts X is22 d ↔ Parts X is22 e := fun is22 =>
    ⟨fun g => ⟨(h.info _).1 g.1, (h.packages _).1 g.2, (h.files _).1 g.3, (h.snippets _).1 g.4, h.annotations.1 g.5, (hr.rules _).1 g.6, h.extracted.1 g.7⟩,
      fun g => ⟨(h.info _).2 g.1, (h.packages _).2 g.2, (h.files _).2 g.3, (h.snippets _).2 g.4, h.annotations.2 g.5, (hr.rules _).2 g.6, h.extracted.2 g.7⟩⟩
  have hd : DescribesRule d ↔ DescribesRule e := or_congr h.single hr.describes
  have hv := h.version
  constructor
  · intro g
    exact ⟨by rw [hv]; exact g.version, by rw [hv]; exact (hparts _).1 g.parts, hd.1 g.describes, h.unique.1 g.unique⟩
  · intro g
    exact ⟨by rw [← hv]; exact g.version, by rw [← hv]; exact (hparts _).2 g.parts, hd.2 g.describes, h.unique.2 g.unique⟩

theorem valid_same (hX : Unordered X) (h : SameParts d e) (hr : SameLinks d e) : Valid X d ↔ Valid X e := by
  have A := h.alike
  refine valid_verdicts ?_ hr
  exact {
    version := by rw [h.info.2.2]
    info := fun _ => infoRule_iff h.info
    packages := fun is22 => re_forall (P := PackageRule X is22 d) (Q := PackageRule X is22 e)
      (fun p q hp => packageRule_iff A hX hp (hr.links p q hp.id)) h.packages
    files := fun is22 => re_forall (P := FileRule X is22 d) (Q := FileRule X is22 e) (fun p q hp => fileRule_iff A hX hp) h.files
    snippets := fun is22 => re_forall (P := SnippetRule X is22 d) (Q := SnippetRule X is22 e) (fun p q hp => snippetRule_iff A hX hp) h.snippets
    annotations := forall_congr' fun a => by rw [h.annotations a]; exact imp_congr_right fun _ => A.annotationRule a
    extracted := re_forall (P := ExtractedRule X) (Q := ExtractedRule X) (fun _ _ hp => extractedRule_iff hp) h.licenses
    single := and_congr (by rw [re_length h.packages]) (and_congr (re_nil h.files) (re_nil h.snippets))
    unique := unique_iff h }

end Spdx.ValidSame
