import Verif.Lemmas.Bump
import Verif.Spec.Example
/-
C32 – Every package, file and snippet of the source document appears in the SPDX 3 payload under namespace#id, for documents with unique
local ids not clashing with generated ones.
-/
namespace Spdx.C32
open Spdx

/-! ### Specification -/

/-- The local identifiers of the elements. -/
def elementIds (d : Document) : List Str := d.packages.map (·.spdxId) ++ d.files.map (·.spdxId) ++ d.snippets.map (·.spdxId)

/-- LocalMsgs identifiers that are distinct, and unlike the generated identifiers of relationships and annotations. -/
def Simple (d : Document) : Prop :=
  (elementIds d).Nodup ∧ ∀ id ∈ elementIds d, ':' ∉ id ∧ ¬ s%"SPDXRef-Relationship-" <+: id ∧ ¬ s%"SPDXRef-Annotation-" <+: id

/-- The identifier after migration. -/
def newId (d : Document) (id : Str) : Str := d.creationInfo.documentNamespace ++ s%"#" ++ id

/-- A text, if it is one. -/
def TextOf (o : Option (OrSpecial Str)) (t : Option Str) : Prop :=
  (∀ s, o = some (.val s) → t = some s) ∧ (t = none ∨ ∃ s, o = some (.val s))

/-- A non-empty e-mail address. -/
def emailOf (a : Actor) : Option Str := a.email.filter fun e => !e.isEmpty

/-- The identifier of a migrated actor: its name without white space, and its e-mail address if it has one. -/
def agentId (d : Document) (a : Actor) : Str :=
  newId d (s%"SPDXRef-Actor-" ++ a.name.filter (fun c => !isPySpace c) ++ ((emailOf a).map fun e => s%"-" ++ e).getD [])

/-- The migrated actor has the data of the actor. -/
def ActorKept (a : Actor) (x : Agent3) : Prop :=
  x.kind = a.actorType ∧ x.name = a.name ∧ x.externalIdentifier = ((emailOf a).map fun e => { type := .EMAIL, identifier := e }).toList

/-- The actor of a field that may also be absent or NOASSERTION. -/
def actorOf : Option (OrNoAssertion Actor) → Option Actor
  | some (.val a) => some a
  | _ => none

/-- The migrated package has the data of the package. -/
def PackageKept (d : Document) (x : Package) (q : Package3) : Prop :=
  q.name = x.name ∧ q.packageVersion = x.version ∧ q.summary = x.summary ∧ q.description = x.description ∧ q.comment = x.comment ∧
  q.sourceInfo = x.sourceInfo ∧ q.builtTime = x.builtDate ∧ q.releaseTime = x.releaseDate ∧ q.validUntilTime = x.validUntilDate ∧
  q.primaryPurpose = x.primaryPackagePurpose ∧ q.attributionText = joinWith s%", " x.attributionTexts ∧
  TextOf (some x.downloadLocation) q.downloadLocation ∧ TextOf x.copyrightText q.copyrightText ∧ TextOf x.homepage q.homepage ∧
  q.verifiedUsing.map (·.hashValue) = x.checksums.map (·.value) ∧ q.suppliedBy = ((actorOf x.supplier).map (agentId d)).toList ∧
  q.originatedBy = ((actorOf x.originator).map (agentId d)).toList

/-- The migrated file has the data of the file. -/
def FileKept (x : File) (q : File3) : Prop :=
  q.name = x.name ∧ q.comment = x.comment ∧ TextOf x.copyrightText q.copyrightText ∧ q.attributionText = joinWith s%", " x.attributionTexts ∧
  q.verifiedUsing.map (·.hashValue) = x.checksums.map (·.value)

/-- The migrated snippet has the data of the snippet. -/
def SnippetKept (x : Snippet) (q : Snippet3) : Prop :=
  q.name = x.name ∧ q.comment = x.comment ∧ q.byteRange = x.byteRange ∧ q.lineRange = x.lineRange ∧
  TextOf x.copyrightText q.copyrightText ∧ q.attributionText = joinWith s%", " x.attributionTexts

/-- All actors of the document. -/
def actors (d : Document) : List Actor :=
  d.creationInfo.creators ++ d.packages.flatMap (fun p => [p.supplier, p.originator].filterMap fun o => match o with
    | some (.val a) => some a
    | _ => none) ++ d.annotations.map (·.annotator)

/-- Where an entry of the payload comes from. -/
def FromSource (d : Document) (k : Str) : Element3 → Prop
  | .document x => x.name = d.creationInfo.name ∧ k = newId d d.creationInfo.spdxId
  | .agent x => ∃ a ∈ actors d, k = agentId d a ∧ ActorKept a x
  | .package q => ∃ x ∈ d.packages, PackageKept d x q
  | .file q => ∃ x ∈ d.files, FileKept x q
  | .snippet q => ∃ x ∈ d.snippets, SnippetKept x q
  | .relationship q => ∃ r ∈ d.relationships, q.fromElement = newId d r.spdxElementId ∨
      ∃ id, r.relatedSpdxElementId = .val id ∧ q.fromElement = newId d id
  | .annotation q => ∃ a ∈ d.annotations, q.statement = a.annotationComment ∧ q.subject = newId d a.spdxId

/-! ### Theorems -/

/-- The identifiers after migration, qualified ones resolved (see C19). -/
def fullIds (d : Document) : List (Except FullIdError Str) :=
  (elementIds d).map fun id => getFullElementId id d.creationInfo.documentNamespace d.creationInfo.externalDocumentRefs

/-- The migrated identifiers are distinct, and none is one of the generated identifiers of relationships and annotations. -/
def Apart (d : Document) : Prop :=
  (fullIds d).Nodup ∧ ∀ k, .ok k ∈ fullIds d →
    (∀ n < d.relationships.length, relationshipId d.creationInfo.documentNamespace n ≠ k) ∧
    (∀ n < d.annotations.length, annotationId d.creationInfo.documentNamespace n ≠ k)

private theorem simple_full {d : Document} (h : Simple d) (id : Str) (hid : id ∈ elementIds d) :
    getFullElementId id d.creationInfo.documentNamespace d.creationInfo.externalDocumentRefs = .ok (newId d id) := by
  simp [getFullElementId, (h.2 id hid).1, newId]

private theorem nodup_map {α β : Type} (f : α → β) (l : List α) (hf : ∀ a ∈ l, ∀ b ∈ l, f a = f b → a = b) (h : l.Nodup) :
    (l.map f).Nodup := by
  induction l with
  | nil => simp
  | cons a l ih =>
    rw [List.nodup_cons] at h
    rw [List.map_cons, List.nodup_cons]
    refine ⟨?_, ih (fun x hx y hy => hf x (.tail _ hx) y (.tail _ hy)) h.2⟩
    intro hm
    obtain ⟨b, hb, e⟩ := List.mem_map.1 hm
    exact h.1 (hf b (.tail _ hb) a (.head _) e ▸ hb)

/-- The simple condition on local identifiers is sufficient. -/
theorem simple_apart (d : Document) (h : Simple d) : Apart d := by
  constructor
  · refine nodup_map _ _ ?_ h.1
    intro a ha b hb e
    rw [simple_full h a ha, simple_full h b hb] at e
    simp only [newId, Except.ok.injEq] at e
    exact List.append_cancel_left e
  · intro k hk
    obtain ⟨id, hid, e⟩ := List.mem_map.1 hk
    rw [simple_full h id hid] at e
    cases e
    obtain ⟨_, h1, h2⟩ := h.2 id hid
    constructor
    · intro n _ e
      simp only [relationshipId, newId] at e
      exact h1 ⟨_, List.append_cancel_left e⟩
    · intro n _ e
      simp only [annotationId, newId] at e
      exact h2 ⟨_, List.append_cancel_left e⟩

private theorem textOf_onlyText (o : OrSpecial Str) : TextOf (some o) (onlyText o) := by
  cases o <;> simp [TextOf, onlyText]

private theorem textOf_bind (o : Option (OrSpecial Str)) : TextOf o (o.bind onlyText) := by
  cases o with
  | none => simp [TextOf]
  | some o => exact textOf_onlyText o

private theorem hashes_values (cs : List Checksum) : (cs.flatMap bumpChecksum).map (·.hashValue) = cs.map (·.value) := by
  have : ∀ c, (bumpChecksum c).map (·.hashValue) = [c.value] := by
    intro c; obtain ⟨a, v⟩ := c; cases a <;> rfl
  induction cs with
  | nil => rfl
  | cons c cs ih => rw [List.flatMap_cons, List.map_append, this, ih]; rfl

private theorem agentId_eq (d : Document) (a : Actor) : agentId d a = actorId d.creationInfo.documentNamespace a := by
  unfold agentId actorId newId emailOf
  rcases a with ⟨ty, name, email⟩
  have e : (s%"#SPDXRef-Actor-" : Str) = s%"#" ++ s%"SPDXRef-Actor-" := rfl
  rw [e]
  cases email with
  | none => simp
  | some m => cases m <;> simp [Option.filter]

private theorem actorKept (ns : Str) (ci : Option CreationInfo3) (a : Actor) : ActorKept a (bumpedActor ns ci a) := by
  refine ⟨rfl, rfl, ?_⟩
  unfold bumpedActor emailOf
  rcases a with ⟨ty, name, email⟩
  cases email with
  | none => simp
  | some m => cases m <;> simp [Option.filter]

private theorem actorIds_eq (d : Document) (o : Option (OrNoAssertion Actor)) :
    actorIds d.creationInfo.documentNamespace o = ((actorOf o).map (agentId d)).toList := by
  rcases o with _ | _ | _
  · rfl
  · simp [actorIds, actorOf, agentId_eq]
  · rfl

private theorem packageKept {d : Document} {id : Str} {x : Package} {q : Package3}
    (h : bumpedPackage d.creationInfo.documentNamespace id x = .ok q) : PackageKept d x q := by
  simp only [bumpedPackage] at h
  have hh := textOf_bind x.homepage
  split at h <;> cases h <;>
    exact ⟨rfl, rfl, rfl, rfl, rfl, rfl, rfl, rfl, rfl, rfl, rfl, textOf_onlyText _, textOf_bind _, hh, hashes_values _,
      actorIds_eq _ _, actorIds_eq _ _⟩

private theorem fileKept (id : Str) (x : File) : FileKept x (bumpedFile id x) :=
  ⟨rfl, rfl, textOf_bind _, rfl, hashes_values _⟩

private theorem snippetKept (id : Str) (x : Snippet) : SnippetKept x (bumpedSnippet id x) :=
  ⟨rfl, rfl, rfl, rfl, textOf_bind _, rfl⟩

private theorem fullIds_eq (d : Document) : fullIds d =
    d.packages.map (fun x => getFullElementId x.spdxId d.creationInfo.documentNamespace d.creationInfo.externalDocumentRefs) ++
    d.files.map (fun x => getFullElementId x.spdxId d.creationInfo.documentNamespace d.creationInfo.externalDocumentRefs) ++
    d.snippets.map (fun x => getFullElementId x.spdxId d.creationInfo.documentNamespace d.creationInfo.externalDocumentRefs) := by
  simp only [fullIds, elementIds, List.map_append, List.map_map]; rfl

private theorem finish_other {docId k : Str} {im : List ExternalMap3} {p : Payload} {e : Element3} (h : p.get? k = some e)
    (he : ∀ d, e ≠ .document d) : (finishDocument docId im p).get? k = some e := by
  rw [finishDocument_get, h]
  cases e with
  | document d => exact absurd rfl (he d)
  | _ => rfl

protected theorem package_at (d : Document) (p : Payload) (h : bumpDocument d = .ok p) (ha : Apart d) (x : Package) (hx : x ∈ d.packages) :
    ∃ id q, getFullElementId x.spdxId d.creationInfo.documentNamespace d.creationInfo.externalDocumentRefs = .ok id ∧
      p.get? id = some (.package q) ∧ q.spdxId = id ∧ bumpedPackage d.creationInfo.documentNamespace id x = .ok q := by
  obtain ⟨s1, s2, s3, h1, h2, h3, rfl⟩ := bumpDocument_ok h
  obtain ⟨before, after, e⟩ := List.append_of_mem hx
  rw [e, foldlM_append_ok] at h1
  obtain ⟨m, hb, h1⟩ := h1
  rw [show x :: after = [x] ++ after from rfl, foldlM_append_ok] at h1
  obtain ⟨m', hm', h1⟩ := h1
  have hstep : bumpPackage d.creationInfo.documentNamespace d.creationInfo.externalDocumentRefs m x = .ok m' := by
    cases hs : bumpPackage d.creationInfo.documentNamespace d.creationInfo.externalDocumentRefs m x <;>
      simp_all [bind, Except.bind, pure, Except.pure]
  obtain ⟨id, q, hid, hq, hqi, hp, _⟩ := bumpPackage_ok hstep
  have hnd := ha.1
  rw [fullIds_eq, e] at hnd
  simp only [List.map_append, List.map_cons, List.append_assoc, List.cons_append] at hnd
  have hnd2 := (List.nodup_append.1 hnd).2.1
  rw [List.nodup_cons, hid] at hnd2
  have hgen := ha.2 id (by rw [fullIds_eq, e]; simp [hid])
  refine ⟨id, q, hid, ?_, hqi, hq⟩
  refine finish_other ?_ (by simp)
  refine links_keep hgen.1 hgen.2 ?_
  refine snippets_keep h3 ?_ (files_keep h2 ?_ (packages_keep h1 ?_ ?_))
  · intro y hy e'; exact hnd2.1 (by rw [← e']; simp only [List.mem_append, List.mem_map]; exact .inr (.inr ⟨y, hy, rfl⟩))
  · intro y hy e'; exact hnd2.1 (by rw [← e']; simp only [List.mem_append, List.mem_map]; exact .inr (.inl ⟨y, hy, rfl⟩))
  · intro y hy e'; exact hnd2.1 (by rw [← e']; simp only [List.mem_append, List.mem_map]; exact .inl ⟨y, hy, rfl⟩)
  · rw [hp, Payload.get?_add]; simp [Element3.spdxId, hqi]

/-- Every package is in the payload under its migrated identifier, with its data. -/
theorem package_in_payload (d : Document) (p : Payload) (h : bumpDocument d = .ok p) (ha : Apart d) (x : Package) (hx : x ∈ d.packages) :
    ∃ id q, getFullElementId x.spdxId d.creationInfo.documentNamespace d.creationInfo.externalDocumentRefs = .ok id ∧
      p.get? id = some (.package q) ∧ q.spdxId = id ∧ PackageKept d x q := by
  obtain ⟨id, q, h1, h2, h3, h4⟩ := C32.package_at d p h ha x hx
  exact ⟨id, q, h1, h2, h3, packageKept h4⟩

/-- Every file is in the payload under its migrated identifier, with its data. -/
theorem file_in_payload (d : Document) (p : Payload) (h : bumpDocument d = .ok p) (ha : Apart d) (x : File) (hx : x ∈ d.files) :
    ∃ id q, getFullElementId x.spdxId d.creationInfo.documentNamespace d.creationInfo.externalDocumentRefs = .ok id ∧
      p.get? id = some (.file q) ∧ q.spdxId = id ∧ FileKept x q := by
  obtain ⟨s1, s2, s3, h1, h2, h3, rfl⟩ := bumpDocument_ok h
  obtain ⟨before, after, e⟩ := List.append_of_mem hx
  rw [e, foldlM_append_ok] at h2
  obtain ⟨m, hb, h2⟩ := h2
  rw [show x :: after = [x] ++ after from rfl, foldlM_append_ok] at h2
  obtain ⟨m', hm', h2⟩ := h2
  have hstep : bumpFile d.creationInfo.documentNamespace d.creationInfo.externalDocumentRefs m x = .ok m' := by
    cases hs : bumpFile d.creationInfo.documentNamespace d.creationInfo.externalDocumentRefs m x <;>
      simp_all [bind, Except.bind, pure, Except.pure]
  obtain ⟨id, hid, hp, _⟩ := bumpFile_ok hstep
  have hnd := ha.1
  rw [fullIds_eq, e] at hnd
  simp only [List.map_append, List.map_cons, List.append_assoc, List.cons_append] at hnd
  have hnd2 := (List.nodup_append.1 (List.nodup_append.1 hnd).2.1).2.1
  rw [List.nodup_cons, hid] at hnd2
  have hgen := ha.2 id (by rw [fullIds_eq, e]; simp [hid])
  refine ⟨id, _, hid, ?_, rfl, fileKept id x⟩
  refine finish_other ?_ (by simp)
  refine links_keep hgen.1 hgen.2 ?_
  refine snippets_keep h3 ?_ (files_keep h2 ?_ ?_)
  · intro y hy e'; exact hnd2.1 (by rw [← e']; simp only [List.mem_append, List.mem_map]; exact .inr ⟨y, hy, rfl⟩)
  · intro y hy e'; exact hnd2.1 (by rw [← e']; simp only [List.mem_append, List.mem_map]; exact .inl ⟨y, hy, rfl⟩)
  · rw [hp, Payload.get?_add]; simp [Element3.spdxId, bumpedFile]

/-- Every snippet is in the payload under its migrated identifier, with its data. -/
theorem snippet_in_payload (d : Document) (p : Payload) (h : bumpDocument d = .ok p) (ha : Apart d) (x : Snippet) (hx : x ∈ d.snippets) :
    ∃ id q, getFullElementId x.spdxId d.creationInfo.documentNamespace d.creationInfo.externalDocumentRefs = .ok id ∧
      p.get? id = some (.snippet q) ∧ q.spdxId = id ∧ SnippetKept x q := by
  obtain ⟨s1, s2, s3, h1, h2, h3, rfl⟩ := bumpDocument_ok h
  obtain ⟨before, after, e⟩ := List.append_of_mem hx
  rw [e, foldlM_append_ok] at h3
  obtain ⟨m, hb, h3⟩ := h3
  rw [show x :: after = [x] ++ after from rfl, foldlM_append_ok] at h3
  obtain ⟨m', hm', h3⟩ := h3
  have hstep : bumpSnippet d.creationInfo.documentNamespace d.creationInfo.externalDocumentRefs m x = .ok m' := by
    cases hs : bumpSnippet d.creationInfo.documentNamespace d.creationInfo.externalDocumentRefs m x <;>
      simp_all [bind, Except.bind, pure, Except.pure]
  obtain ⟨id, hid, hp, _⟩ := bumpSnippet_ok hstep
  have hnd := ha.1
  rw [fullIds_eq, e] at hnd
  simp only [List.map_append, List.map_cons] at hnd
  have hnd2 := (List.nodup_append.1 (List.nodup_append.1 hnd).2.1).2.1
  rw [List.nodup_cons, hid] at hnd2
  have hgen := ha.2 id (by rw [fullIds_eq, e]; simp [hid])
  refine ⟨id, _, hid, ?_, rfl, snippetKept id x⟩
  refine finish_other ?_ (by simp)
  refine links_keep hgen.1 hgen.2 ?_
  refine snippets_keep h3 ?_ ?_
  · intro y hy e'; exact hnd2.1 (by rw [← e']; exact List.mem_map.2 ⟨y, hy, rfl⟩)
  · rw [hp, Payload.get?_add]; simp [Element3.spdxId, bumpedSnippet]

/-- The property: with distinct local identifiers unlike the generated ones, every package, file and snippet is found under
    namespace#id. -/
theorem elements_kept (d : Document) (p : Payload) (h : bumpDocument d = .ok p) (hs : Simple d) :
    (∀ x ∈ d.packages, ∃ q, p.get? (newId d x.spdxId) = some (.package q) ∧ PackageKept d x q) ∧
    (∀ x ∈ d.files, ∃ q, p.get? (newId d x.spdxId) = some (.file q) ∧ FileKept x q) ∧
    (∀ x ∈ d.snippets, ∃ q, p.get? (newId d x.spdxId) = some (.snippet q) ∧ SnippetKept x q) := by
  have ha := simple_apart d hs
  refine ⟨fun x hx => ?_, fun x hx => ?_, fun x hx => ?_⟩
  · obtain ⟨id, q, e, hq, _, hk⟩ := package_in_payload d p h ha x hx
    rw [simple_full hs x.spdxId (by simp only [elementIds, List.mem_append]; exact .inl (.inl (List.mem_map_of_mem hx)))] at e
    cases e; exact ⟨q, hq, hk⟩
  · obtain ⟨id, q, e, hq, _, hk⟩ := file_in_payload d p h ha x hx
    rw [simple_full hs x.spdxId (by simp only [elementIds, List.mem_append]; exact .inl (.inr (List.mem_map_of_mem hx)))] at e
    cases e; exact ⟨q, hq, hk⟩
  · obtain ⟨id, q, e, hq, _, hk⟩ := snippet_in_payload d p h ha x hx
    rw [simple_full hs x.spdxId (by simp only [elementIds, List.mem_append]; exact .inr (List.mem_map_of_mem hx))] at e
    cases e; exact ⟨q, hq, hk⟩

/-- Every annotation is in the payload under its generated identifier. (No hypothesis: nothing is written after the annotations.) -/
theorem annotation_in_payload (d : Document) (p : Payload) (h : bumpDocument d = .ok p) (n : Nat) (a : Annotation)
    (ha : d.annotations[n]? = some a) : ∃ q, p.get? (newId d (s%"SPDXRef-Annotation-" ++ natStr n)) = some (.annotation q) ∧
      q.subject = newId d a.spdxId ∧ q.statement = a.annotationComment ∧ q.annotationType = a.annotationType ∧
      q.creationInfo.created = a.annotationDate := by
  obtain ⟨s1, s2, s3, h1, h2, h3, rfl⟩ := bumpDocument_ok h
  obtain ⟨pre, hpre⟩ : ∃ pre, pre = bumpRelationships d.creationInfo.documentNamespace d.relationships s3.payload := ⟨_, rfl⟩
  have hmem : (a, n) ∈ d.annotations.zipIdx := List.mem_zipIdx_iff_getElem?.2 ha
  obtain ⟨before, after, e⟩ := List.append_of_mem hmem
  have hafter : ∀ x ∈ after, x.2 ≠ n := by
    have hnd : (d.annotations.zipIdx.map Prod.snd).Nodup := by
      rw [List.zipIdx_map_snd]
      exact List.nodup_range'
    rw [e, List.map_append, List.map_cons] at hnd
    have := (List.nodup_cons.1 (List.nodup_append.1 hnd).2.1).1
    intro x hx e'
    exact this (List.mem_map.2 ⟨x, hx, e'⟩)
  refine ⟨⟨annotationId d.creationInfo.documentNamespace n, a.annotationType, d.creationInfo.documentNamespace ++ s%"#" ++ a.spdxId,
    annotationInfo d.creationInfo.documentNamespace (bumpedInfo d.creationInfo) a, a.annotationComment⟩, ?_, rfl, rfl, rfl, rfl⟩
  refine finish_other ?_ (by simp)
  unfold bumpLinks
  simp only [← hpre]
  rw [e, List.foldl_append, List.foldl_cons]
  refine annotations_keep ?_ ?_
  · intro x hx e'
    exact hafter x hx (annotationId_injective (ns := d.creationInfo.documentNamespace) e')
  · unfold bumpAnnotation
    rw [Payload.get?_add]
    simp [Element3.spdxId, annotationId, newId]

/-- The migration fails exactly when an identifier cannot be resolved or a package's homepage is NONE or NOASSERTION. -/
theorem succeeds_iff (d : Document) : (∃ p, bumpDocument d = .ok p) ↔
    (∀ x ∈ fullIds d, ∃ k, x = .ok k) ∧ ∀ x ∈ d.packages, x.homepage ≠ some .none ∧ x.homepage ≠ some .noAssertion := by
  have hp : ∀ (s : BumpState) (x : Package), (∃ s', bumpPackage d.creationInfo.documentNamespace d.creationInfo.externalDocumentRefs s x =
      .ok s') ↔ (∃ k, getFullElementId x.spdxId d.creationInfo.documentNamespace d.creationInfo.externalDocumentRefs = .ok k) ∧
        x.homepage ≠ some .none ∧ x.homepage ≠ some .noAssertion := by
    intro s x
    unfold bumpPackage bumpedPackage
    cases getFullElementId x.spdxId d.creationInfo.documentNamespace d.creationInfo.externalDocumentRefs with
    | error e => simp
    | ok id =>
      cases x.homepage with
      | none => simp
      | some o => cases o <;> simp
  have hf : ∀ (s : BumpState) (x : File), (∃ s', bumpFile d.creationInfo.documentNamespace d.creationInfo.externalDocumentRefs s x =
      .ok s') ↔ ∃ k, getFullElementId x.spdxId d.creationInfo.documentNamespace d.creationInfo.externalDocumentRefs = .ok k := by
    intro s x
    unfold bumpFile
    cases getFullElementId x.spdxId d.creationInfo.documentNamespace d.creationInfo.externalDocumentRefs <;> simp
  have hn : ∀ (s : BumpState) (x : Snippet), (∃ s', bumpSnippet d.creationInfo.documentNamespace d.creationInfo.externalDocumentRefs s x =
      .ok s') ↔ ∃ k, getFullElementId x.spdxId d.creationInfo.documentNamespace d.creationInfo.externalDocumentRefs = .ok k := by
    intro s x
    unfold bumpSnippet
    cases getFullElementId x.spdxId d.creationInfo.documentNamespace d.creationInfo.externalDocumentRefs <;> simp
  have e : (∃ p, bumpDocument d = .ok p) ↔ ∃ s1 s2 s3,
      d.packages.foldlM (bumpPackage d.creationInfo.documentNamespace d.creationInfo.externalDocumentRefs)
        { payload := (bumpCreators d.creationInfo []).add (.document (bumpedDocument d)), imports := [] } = .ok s1 ∧
      d.files.foldlM (bumpFile d.creationInfo.documentNamespace d.creationInfo.externalDocumentRefs) s1 = .ok s2 ∧
      d.snippets.foldlM (bumpSnippet d.creationInfo.documentNamespace d.creationInfo.externalDocumentRefs) s2 = .ok s3 := by
    constructor
    · rintro ⟨p, hp⟩
      obtain ⟨s1, s2, s3, h1, h2, h3, _⟩ := bumpDocument_ok hp
      exact ⟨s1, s2, s3, h1, h2, h3⟩
    · rintro ⟨s1, s2, s3, h1, h2, h3⟩
      exact ⟨_, by simp only [bumpDocument, bumpElements, h1, h2, h3, bind, Except.bind]; rfl⟩
  rw [e]
  constructor
  · rintro ⟨s1, s2, s3, h1, h2, h3⟩
    have g1 := (foldlM_ok_iff _ _ hp _ _).1 ⟨_, h1⟩
    have g2 := (foldlM_ok_iff _ _ hf _ _).1 ⟨_, h2⟩
    have g3 := (foldlM_ok_iff _ _ hn _ _).1 ⟨_, h3⟩
    refine ⟨?_, fun x hx => (g1 x hx).2⟩
    intro x hx
    rw [fullIds_eq] at hx
    simp only [List.mem_append, List.mem_map] at hx
    rcases hx with (⟨y, hy, rfl⟩ | ⟨y, hy, rfl⟩) | ⟨y, hy, rfl⟩
    · exact (g1 y hy).1
    · exact g2 y hy
    · exact g3 y hy
  · rintro ⟨h1, h2⟩
    rw [fullIds_eq] at h1
    simp only [List.mem_append, List.mem_map] at h1
    obtain ⟨s1, g1⟩ := (foldlM_ok_iff _ _ hp d.packages
      { payload := (bumpCreators d.creationInfo []).add (.document (bumpedDocument d)), imports := [] }).2
      (fun x hx => ⟨h1 _ (.inl (.inl ⟨x, hx, rfl⟩)), h2 x hx⟩)
    obtain ⟨s2, g2⟩ := (foldlM_ok_iff _ _ hf d.files s1).2 (fun x hx => h1 _ (.inl (.inr ⟨x, hx, rfl⟩)))
    obtain ⟨s3, g3⟩ := (foldlM_ok_iff _ _ hn d.snippets s2).2 (fun x hx => h1 _ (.inr ⟨x, hx, rfl⟩))
    exact ⟨s1, s2, s3, g1, g2, g3⟩

private theorem bumped_from {d : Document} {r : Relationship} {n : Nat} {x : Relationship3}
    (h : bumpRelationship d.creationInfo.documentNamespace n r = some x) : x.fromElement = newId d r.spdxElementId ∨
      ∃ id, r.relatedSpdxElementId = .val id ∧ x.fromElement = newId d id := by
  simp only [bumpRelationship] at h
  split at h
  · cases h
  · cases h
  · split at h
    · split at h
      · cases h
      · rename_i t _ ht
        split at h
        · cases h; exact .inl rfl
        · cases h
          refine .inr ⟨t, ?_, rfl⟩
          cases hr : r.relatedSpdxElementId <;> simp_all [completenessAndTo]
    · cases h; exact .inl rfl

/-- Nothing else is in the payload: every entry is the document, or comes from an actor, a package, a file, a snippet, a relationship or an
    annotation of the source document. -/
theorem nothing_else (d : Document) (p : Payload) (h : bumpDocument d = .ok p) (k : Str) (e : Element3) (hk : p.get? k = some e) :
    FromSource d k e := by
  obtain ⟨s1, s2, s3, h1, h2, h3, rfl⟩ := bumpDocument_ok h
  rw [finishDocument_get, Option.map_eq_some_iff] at hk
  obtain ⟨e', he', rfl⟩ := hk
  have agent : ∀ {k e} {a : Actor}, a ∈ actors d → (k = actorId d.creationInfo.documentNamespace a ∧ ∃ x : Agent3, e = .agent x ∧
      x.spdxId = k ∧ ∃ ci, x = bumpedActor d.creationInfo.documentNamespace ci a) → FromSource d k e := by
    rintro k e a ha ⟨rfl, x, rfl, _, ci, rfl⟩
    exact ⟨a, ha, (agentId_eq d a).symm, actorKept _ _ _⟩
  have main : FromSource d k e' := by
    have g0 : ∀ k e, ((bumpCreators d.creationInfo []).add (.document (bumpedDocument d))).get? k = some e → FromSource d k e := by
      intro k e hk
      rw [Payload.get?_add] at hk
      split at hk
      · rename_i hid; cases hk; exact ⟨rfl, hid.symm⟩
      · have : ∀ k e, (bumpCreators d.creationInfo []).get? k = some e → FromSource d k e := by
          unfold bumpCreators
          refine foldl_inv _ (fun p : Payload => ∀ k e, p.get? k = some e → FromSource d k e) _ _ ?_ ?_
          · intro a ha p hp k e hk
            rcases bumpActor_get hk with hk | hk
            · exact hp k e hk
            · exact agent (by simp [actors, ha]) hk
          · intro k e hk; simp [Dict.get?] at hk
        exact this k e hk
    have g1 : ∀ k e, s1.payload.get? k = some e → FromSource d k e := by
      refine foldlM_inv _ (fun s => ∀ k e, s.payload.get? k = some e → FromSource d k e) _ _ _ h1 ?_ g0
      intro x hx s s' hs hp k e hk
      obtain ⟨id, q, _, hq, _, ep, _⟩ := bumpPackage_ok hs
      rw [ep, Payload.get?_add] at hk
      split at hk
      · cases hk; exact ⟨x, hx, packageKept hq⟩
      · have hact : ∀ a, some (.val a) ∈ [x.supplier, x.originator] → a ∈ actors d := by
          intro a ha
          simp only [actors, List.mem_append, List.mem_flatMap, List.mem_filterMap]
          exact .inl (.inr ⟨x, hx, _, ha, rfl⟩)
        rcases bumpActorOpt_get hk with hk | ⟨a, ho, hk⟩
        · rcases bumpActorOpt_get hk with hk | ⟨a, ho, hk⟩
          · exact hp k e hk
          · exact agent (hact a (by simp [ho])) hk
        · exact agent (hact a (by simp [ho])) hk
    have g2 : ∀ k e, s2.payload.get? k = some e → FromSource d k e := by
      refine foldlM_inv _ (fun s => ∀ k e, s.payload.get? k = some e → FromSource d k e) _ _ _ h2 ?_ g1
      intro x hx s s' hs hp k e hk
      obtain ⟨id, _, ep, _⟩ := bumpFile_ok hs
      rw [ep, Payload.get?_add] at hk
      split at hk
      · cases hk; exact ⟨x, hx, fileKept id x⟩
      · exact hp k e hk
    have g3 : ∀ k e, s3.payload.get? k = some e → FromSource d k e := by
      refine foldlM_inv _ (fun s => ∀ k e, s.payload.get? k = some e → FromSource d k e) _ _ _ h3 ?_ g2
      intro x hx s s' hs hp k e hk
      obtain ⟨id, _, ep, _⟩ := bumpSnippet_ok hs
      rw [ep, Payload.get?_add] at hk
      split at hk
      · cases hk; exact ⟨x, hx, snippetKept id x⟩
      · exact hp k e hk
    have g4 : ∀ k e, (bumpRelationships d.creationInfo.documentNamespace d.relationships s3.payload).get? k = some e → FromSource d k e := by
      intro k e hk
      by_cases hm : ∃ z, (k, z) ∈ allWrites (bumpedRelationships d.creationInfo.documentNamespace d.relationships)
      · obtain ⟨z, hz⟩ := hm
        rw [bumpRelationships_get_mem _ hz] at hk
        cases hk
        obtain ⟨r', hr', hf⟩ := allWrites_from hz
        obtain ⟨i, r, hi, hr⟩ := mem_bumped.1 hr'
        exact ⟨r, List.mem_of_getElem? hi, by rw [← hf]; exact bumped_from hr⟩
      · rw [bumpRelationships_get_not_mem _ (fun z hz => hm ⟨z, hz⟩)] at hk
        exact g3 k e hk
    revert k e'
    unfold bumpLinks
    intro k e' he'
    revert k e'
    refine foldl_inv _ (fun p : Payload => ∀ k e, p.get? k = some e → FromSource d k e) _ _ ?_ g4
    intro x hx p hp k e hk
    obtain ⟨a, n⟩ := x
    have ha : a ∈ d.annotations := List.mem_of_getElem? (List.mem_zipIdx_iff_getElem?.1 hx)
    unfold bumpAnnotation at hk
    rw [Payload.get?_add] at hk
    split at hk
    · cases hk; exact ⟨a, ha, rfl, rfl⟩
    · rcases bumpActor_get hk with hk | hk
      · exact hp k e hk
      · exact agent (by simp only [actors, List.mem_append, List.mem_map]; exact .inr ⟨a, ha, rfl⟩) hk
  cases e' <;> exact main
where
  allWrites_from {l : List Relationship3} {k : Str} {x : Relationship3} (h : (k, x) ∈ allWrites l) :
      ∃ r ∈ l, r.fromElement = x.fromElement := by
    obtain ⟨f, t, hg⟩ := mem_allWrites.1 h
    have hf : ∀ r ∈ groupOf l f t, r ∈ l ∧ r.fromElement = f := by
      intro r hr
      have := List.mem_filter.1 hr
      simp only [decide_eq_true_eq] at this
      exact ⟨this.1, this.2.1⟩
    generalize groupOf l f t = g at hg hf
    match g with
    | [] => simp [groupWrites] at hg
    | [r] =>
      simp only [groupWrites, List.mem_singleton, Prod.mk.injEq] at hg
      exact ⟨r, (hf r (by simp)).1, by rw [hg.2]⟩
    | r :: r' :: rs =>
      obtain ⟨last, hlast⟩ : ∃ last, (r :: r' :: rs).getLast? = some last := ⟨_, List.getLast?_eq_some_getLast (by simp)⟩
      have hm := List.mem_of_getLast? hlast
      rw [groupWrites_many _ last hlast (by simp)] at hg
      split at hg
      · simp only [List.mem_map, List.mem_filter, Prod.mk.injEq] at hg
        obtain ⟨a, ⟨ha, _⟩, _, rfl⟩ := hg
        exact ⟨a, (hf a ha).1, rfl⟩
      · simp only [List.mem_append, List.mem_map, List.mem_filter, Prod.mk.injEq, List.mem_singleton] at hg
        rcases hg with ⟨a, ⟨ha, _⟩, _, rfl⟩ | ⟨_, rfl⟩
        · split
          · exact ⟨last, (hf last hm).1, rfl⟩
          · exact ⟨a, (hf a ha).1, rfl⟩
        · exact ⟨last, (hf last hm).1, rfl⟩

/-- Without the condition elements can be lost: a package called like a generated relationship is replaced by it. -/
theorem clash_loses_package : ∃ (d : Document) (p : Payload) (x : Package), x ∈ d.packages ∧ bumpDocument d = .ok p ∧
    ∀ k q, p.get? k ≠ some (.package q) := by
  let d : Document :=
    { creationInfo := Example.info
      packages := [{ spdxId := s%"SPDXRef-Relationship-0", name := s%"p", downloadLocation := .none }]
      relationships := [Example.describes s%"SPDXRef-Relationship-0"] }
  have hd : ∃ p, bumpDocument d = .ok p ∧ ∀ e ∈ p, ∀ q, e.2 ≠ .package q := by
    refine ⟨_, rfl, ?_⟩
    intro e he q hq
    have : ∀ e ∈ (match bumpDocument d with | .ok p => p | .error _ => []), (match e.2 with | .package _ => false | _ => true) = true := by
      decide +kernel
    have := this e he
    rw [hq] at this
    cases this
  obtain ⟨p, hp, hq⟩ := hd
  exact ⟨d, p, _, List.mem_singleton.2 rfl, hp, fun k q hk => hq _ (Dict.get?_mem _ _ _ hk) q rfl⟩

/-- A homepage of NONE or NOASSERTION makes the migration fail. -/
theorem special_homepage_fails (d : Document) (x : Package) (hx : x ∈ d.packages) (h : x.homepage = some .none ∨ x.homepage = some .noAssertion) :
    ∃ e, bumpDocument d = .error e := by
  cases hb : bumpDocument d with
  | error e => exact ⟨e, rfl⟩
  | ok p =>
    have := ((succeeds_iff d).1 ⟨p, hb⟩).2 x hx
    rcases h with h | h
    · exact absurd h this.1
    · exact absurd h this.2

/-! Non-vacuity -/
protected theorem example_simple : Simple Example.doc := by
  refine ⟨by decide +kernel, ?_⟩
  have : ∀ id ∈ elementIds Example.doc, ':' ∉ id ∧ (s%"SPDXRef-Relationship-").isPrefixOf id = false ∧
      (s%"SPDXRef-Annotation-").isPrefixOf id = false := by decide +kernel
  intro id hid
  obtain ⟨h1, h2, h3⟩ := this id hid
  refine ⟨h1, ?_, ?_⟩
  · rw [← List.isPrefixOf_iff_prefix, h2]; simp
  · rw [← List.isPrefixOf_iff_prefix, h3]; simp
example : ∃ p, bumpDocument Example.doc = .ok p ∧ p.length = 12 := ⟨_, rfl, by decide +kernel⟩

end Spdx.C32
