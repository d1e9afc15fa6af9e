import Verif.Lemmas.RdfDoc
import Verif.Spec.Example
/-
C49: a document written as an RDF graph is read as the same document, up to the order of the values of which RDF keeps no order –
whatever the order in which the reader comes across the triples.
-/
namespace Spdx.C49
open Spdx Spec

/-! ### Specification

`Spec/RdfOk.lean`: `DocRdf env d` – which documents; `SameRdf d e` – the same up to order; `C38.Fresh` – the reader's graph does not
use the names of the external documents as prefixes for something else; `SameTriples g w` – the graphs are the same set. -/

section
variable {env : RdfEnv} {d : Document} {g : RdfGraph}

private theorem typed {α : Type} {F : α → Nat → Block} {l : List α} {key : α → RdfNode} {ty : RdfNode} {ns : Str} {bs : List Block}
    (hb : Blocks ns bs) (hg : SameTriples g (bs.flatMap Block.triples)) (hty : ty ∉ innerTypes)
    (hmem : ∀ b ∈ blocksOf F l, b ∈ bs) (hother : ∀ b ∈ bs, b.ty = ty → b ∈ blocksOf F l) (hF : ∀ x i, (F x i).ty = ty)
    (hname : ∀ x i, nodeOf ns (F x i).path (F x i).name = key x) (hn : (l.map key).Nodup) :
    (g.subjects .type ty).Perm (l.map key) := by
  refine hg.subjects hn ?_
  intro s
  rw [hb.types hty]
  constructor
  · rintro ⟨b, hb, h1, h2⟩
    obtain ⟨i, x, hx, rfl⟩ := mem_blocksOf.1 (hother b hb h1)
    exact List.mem_map.2 ⟨x, List.mem_of_getElem? hx, (hname x i).symm.trans h2⟩
  · intro h
    obtain ⟨x, hx, rfl⟩ := List.mem_map.1 h
    obtain ⟨i, hi⟩ := List.mem_iff_getElem?.1 hx
    exact ⟨F x i, hmem _ (mem_blocksOf.2 ⟨i, x, hi, rfl⟩), hF x i, hname x i⟩

private theorem linked {α : Type} {F : α → Nat → Block} {l : List α} {p : Pred} {key : α → Nat → RdfNode × RdfNode} {ns : Str} {bs : List Block}
    (hb : Blocks ns bs) (hg : SameTriples g (bs.flatMap Block.triples)) (hp : p ∈ linkPreds)
    (hmem : ∀ b ∈ blocksOf F l, b ∈ bs) (hother : ∀ b ∈ bs, ∀ t ∈ b.link, t.2.1 = p → b ∈ blocksOf F l)
    (hF : ∀ x i, (F x i).link = [((key x i).1, p, (key x i).2)]) (hn : (l.zipIdx.map fun e => key e.1 e.2).Nodup) :
    (g.pairs p).Perm (l.zipIdx.map fun e => key e.1 e.2) := by
  refine hg.pairs hn ?_
  intro s o
  rw [hb.links hp]
  constructor
  · rintro ⟨b, hb, h⟩
    obtain ⟨i, x, hx, rfl⟩ := mem_blocksOf.1 (hother b hb _ h rfl)
    rw [hF] at h
    have h := List.mem_singleton.1 h
    refine List.mem_map.2 ⟨(x, i), List.mem_zipIdx_iff_getElem?.2 hx, ?_⟩
    injection h with h1 h2
    injection h2 with _ h3
    exact (Prod.ext h1 h3).symm
  · intro h
    obtain ⟨⟨x, i⟩, hx, he⟩ := List.mem_map.1 h
    refine ⟨F x i, hmem _ (mem_blocksOf.2 ⟨i, x, List.mem_zipIdx_iff_getElem?.1 hx, rfl⟩), ?_⟩
    rw [hF, he]
    exact List.mem_singleton.2 rfl

/-- a list of elements with the same type of node -/
private theorem names_nodup {α : Type} {ns : Str} {f : α → Str} {l : List α} (h : (l.map f).Nodup) : (l.map fun x => RdfNode.uri (ns ++ s%"#" ++ f x)).Nodup := by
  have := nodup_map_of_inj (f := fun n => RdfNode.uri (ns ++ s%"#" ++ n)) h (by
    intro a _ b _ e
    exact List.append_cancel_left (RdfNode.uri.inj e))
  rw [List.map_map] at this
  exact this

private theorem names_split (d : Document) (h : (rdfNames d).Nodup) :
    (d.creationInfo.externalDocumentRefs.map (·.documentRefId)).Nodup ∧ (d.files.map (·.spdxId)).Nodup ∧ (d.packages.map (·.spdxId)).Nodup ∧
    (d.snippets.map (·.spdxId)).Nodup ∧ (d.extractedLicensingInfo.filterMap (·.licenseId)).Nodup := by
  unfold rdfNames at h
  have h := (List.nodup_cons.1 h).2
  have h1 := List.nodup_append.1 h
  have h2 := List.nodup_append.1 h1.1
  have h3 := List.nodup_append.1 h2.1
  have h4 := List.nodup_append.1 h3.1
  exact ⟨h4.1, h4.2.1, h3.2.1, h2.2.1, h1.2.1⟩

private theorem filterMap_all {α β : Type} {f : α → Option β} {k : α → β} {l : List α} (h : ∀ x ∈ l, f x = some (k x)) : l.filterMap f = l.map k := by
  induction l with
  | nil => rfl
  | cons a l ih =>
    rw [List.filterMap_cons_some (h a List.mem_cons_self), ih fun x hx => h x (List.mem_cons_of_mem _ hx), List.map_cons]

private theorem zip_nodup {α : Type} (l : List α) (s : α → RdfNode) (n : Nat) : (l.zipIdx.map fun e => (s e.1, RdfNode.bnode [e.2, n])).Nodup := by
  refine nodup_map_of_inj (zipIdx_nodup l) ?_
  rintro ⟨x, i⟩ hx ⟨y, j⟩ hy e
  have : i = j := (List.cons.inj (RdfNode.bnode.inj (Prod.mk.inj e).2)).1
  subst this
  have h1 := List.mem_zipIdx_iff_getElem?.1 hx
  have h2 := List.mem_zipIdx_iff_getElem?.1 hy
  simp only at h1 h2
  rw [h1] at h2
  cases h2
  rfl

/-- which blocks have which type -/
private theorem ty_cases {b : Block} (h : b ∈ (kindsOf env d).flatten) : (b = docB d.creationInfo ∧ b.ty = spdxTerm s%"SpdxDocument") ∨
    (b = infoB d.creationInfo ∧ b.ty = spdxTerm s%"CreationInfo") ∨
    (b ∈ blocksOf (extB d.creationInfo) d.creationInfo.externalDocumentRefs ∧ b.ty = spdxTerm s%"ExternalDocumentRef") ∨
    (b ∈ blocksOf (annB d.creationInfo.documentNamespace (externalNamespaces d.creationInfo.externalDocumentRefs)) d.annotations ∧
      b.ty = spdxTerm s%"Annotation") ∨
    (b ∈ blocksOf (fileB env d.creationInfo.documentNamespace) d.files ∧ b.ty = spdxTerm s%"File") ∨
    (b ∈ blocksOf (packageB env d.creationInfo.documentNamespace) d.packages ∧ b.ty = spdxTerm s%"Package") ∨
    (b ∈ blocksOf (relB d.creationInfo.documentNamespace (externalNamespaces d.creationInfo.externalDocumentRefs)) d.relationships ∧
      b.ty = spdxTerm s%"Relationship") ∨
    (b ∈ blocksOf (snippetB env d.creationInfo.documentNamespace (externalNamespaces d.creationInfo.externalDocumentRefs)) d.snippets ∧
      b.ty = spdxTerm s%"Snippet") ∨
    (b ∈ blocksOf (licB d.creationInfo) d.extractedLicensingInfo ∧ b.ty = spdxTerm s%"ExtractedLicensingInfo") := by
  have key : ∀ {α : Type} {F : α → Nat → Block} {l : List α} {ty : RdfNode}, (∀ x i, (F x i).ty = ty) → b ∈ blocksOf F l → b ∈ blocksOf F l ∧ b.ty = ty := by
    intro α F l ty hF hb
    refine ⟨hb, ?_⟩
    obtain ⟨i, x, -, rfl⟩ := mem_blocksOf.1 hb
    exact hF x i
  rcases mem_kinds.1 h with rfl | rfl | h | h | h | h | h | h | h
  · exact .inl ⟨rfl, rfl⟩
  · exact .inr (.inl ⟨rfl, rfl⟩)
  · exact .inr (.inr (.inl (key (fun _ _ => rfl) h)))
  · exact .inr (.inr (.inr (.inl (key (fun _ _ => rfl) h))))
  · exact .inr (.inr (.inr (.inr (.inl (key (fun _ _ => rfl) h)))))
  · exact .inr (.inr (.inr (.inr (.inr (.inl (key (fun _ _ => rfl) h))))))
  · exact .inr (.inr (.inr (.inr (.inr (.inr (.inl (key (fun _ _ => rfl) h)))))))
  · exact .inr (.inr (.inr (.inr (.inr (.inr (.inr (.inl (key (fun _ _ => rfl) h))))))))
  · exact .inr (.inr (.inr (.inr (.inr (.inr (.inr (.inr (key (fun _ _ => rfl) h))))))))

/-- The blocks of one type. -/
private theorem of_ty {b : Block} (h : b ∈ (kindsOf env d).flatten) :
    (b.ty = spdxTerm s%"SpdxDocument" → b = docB d.creationInfo) ∧ (b.ty = spdxTerm s%"CreationInfo" → b = infoB d.creationInfo) ∧
    (b.ty = spdxTerm s%"File" → b ∈ blocksOf (fileB env d.creationInfo.documentNamespace) d.files) ∧
    (b.ty = spdxTerm s%"Package" → b ∈ blocksOf (packageB env d.creationInfo.documentNamespace) d.packages) ∧
    (b.ty = spdxTerm s%"Snippet" →
      b ∈ blocksOf (snippetB env d.creationInfo.documentNamespace (externalNamespaces d.creationInfo.externalDocumentRefs)) d.snippets) := by
  rcases ty_cases h with ⟨h, e⟩ | ⟨h, e⟩ | ⟨h, e⟩ | ⟨h, e⟩ | ⟨h, e⟩ | ⟨h, e⟩ | ⟨h, e⟩ | ⟨h, e⟩ | ⟨h, e⟩ <;> rw [e] <;>
    (refine ⟨?_, ?_, ?_, ?_, ?_⟩ <;> intro h' <;> first | exact h | exact absurd h' (by decide))

/-- The blocks with one kind of link. -/
private theorem of_link {b : Block} (h : b ∈ (kindsOf env d).flatten) {t : Triple} (ht : t ∈ b.link) :
    (t.2.1 = .externalDocumentRef → b ∈ blocksOf (extB d.creationInfo) d.creationInfo.externalDocumentRefs) ∧
    (t.2.1 = .annotation →
      b ∈ blocksOf (annB d.creationInfo.documentNamespace (externalNamespaces d.creationInfo.externalDocumentRefs)) d.annotations) ∧
    (t.2.1 = .relationship →
      b ∈ blocksOf (relB d.creationInfo.documentNamespace (externalNamespaces d.creationInfo.externalDocumentRefs)) d.relationships) ∧
    (t.2.1 = .hasExtractedLicensingInfo → b ∈ blocksOf (licB d.creationInfo) d.extractedLicensingInfo) := by
  have key : ∀ {α : Type} {F : α → Nat → Block} {l : List α} {p : Pred}, (∀ x i, ∀ t ∈ (F x i).link, t.2.1 = p) → b ∈ blocksOf F l → t.2.1 = p := by
    intro α F l p hF hb
    obtain ⟨i, x, -, rfl⟩ := mem_blocksOf.1 hb
    exact hF x i t ht
  have one : ∀ {s o : RdfNode} {p : Pred} {t : Triple}, t ∈ [(s, p, o)] → t.2.1 = p := by
    intro s o p t ht
    cases List.mem_singleton.1 ht
    rfl
  rcases mem_kinds.1 h with rfl | rfl | h | h | h | h | h | h | h
  · cases ht
  · have e : t.2.1 = .creationInfo := one ht
    rw [e]
    refine ⟨?_, ?_, ?_, ?_⟩ <;> intro h' <;> cases h'
  · have e : t.2.1 = .externalDocumentRef := key (fun _ _ _ h => one h) h
    rw [e]
    refine ⟨fun _ => h, ?_, ?_, ?_⟩ <;> intro h' <;> cases h'
  · have e : t.2.1 = .annotation := key (fun _ _ _ h => one h) h
    rw [e]
    refine ⟨?_, fun _ => h, ?_, ?_⟩ <;> intro h' <;> cases h'
  · obtain ⟨i, x, -, rfl⟩ := mem_blocksOf.1 h
    cases ht
  · obtain ⟨i, x, -, rfl⟩ := mem_blocksOf.1 h
    cases ht
  · have e : t.2.1 = .relationship := key (fun _ _ _ h => one h) h
    rw [e]
    refine ⟨?_, ?_, fun _ => h, ?_⟩ <;> intro h' <;> cases h'
  · obtain ⟨i, x, -, rfl⟩ := mem_blocksOf.1 h
    cases ht
  · have e : t.2.1 = .hasExtractedLicensingInfo := key (fun _ _ _ h => one h) h
    rw [e]
    refine ⟨?_, ?_, ?_, fun _ => h⟩ <;> intro h' <;> cases h'

end

/-- What the graph says about the nodes of a block. -/
private def SeenB (g : RdfGraph) (ns : Str) (b : Block) : Prop := Seen g b.body (nodeOf ns b.path b.name) b.path

private theorem seen_doc {g : RdfGraph} {c : CreationInfo} (h : SeenB g c.documentNamespace (docB c)) : Seen g (docBody c) (docNode c) [0, 0] := h
private theorem seen_info {g : RdfGraph} {c : CreationInfo} (h : SeenB g c.documentNamespace (infoB c)) : SeenAt g (infoBody c) [1, 0] := h.below
private theorem seen_ext {g : RdfGraph} {c : CreationInfo} {r : ExternalDocumentRef} {i : Nat} (h : SeenB g c.documentNamespace (extB c r i)) :
    Seen g (extRefBody [i, 1] (.uri (c.documentNamespace ++ s%"#" ++ r.documentRefId)) r) (.uri (c.documentNamespace ++ s%"#" ++ r.documentRefId)) [i, 1] := h
private theorem seen_ann {g : RdfGraph} {ns : Str} {ext : Dict Str Str} {a : Annotation} {i : Nat} (h : SeenB g ns (annB ns ext a i)) :
    SeenAt g (annotationBody [i, 2] a) [i, 2] := h.below
private theorem seen_rel {g : RdfGraph} {ns : Str} {ext : Dict Str Str} {a : Relationship} {i : Nat} (h : SeenB g ns (relB ns ext a i)) :
    SeenAt g (relationshipBody ns ext [i, 5] a) [i, 5] := h.below
private theorem seen_file {env : RdfEnv} {g : RdfGraph} {ns : Str} {f : File} {i : Nat} (h : SeenB g ns (fileB env ns f i)) :
    Seen g (fileBlock env ns [i, 3] (.uri (ns ++ s%"#" ++ f.spdxId)) f) (.uri (ns ++ s%"#" ++ f.spdxId)) [i, 3] := h
private theorem seen_package {env : RdfEnv} {g : RdfGraph} {ns : Str} {f : Package} {i : Nat} (h : SeenB g ns (packageB env ns f i)) :
    Seen g (packageBlock env ns [i, 4] (.uri (ns ++ s%"#" ++ f.spdxId)) f) (.uri (ns ++ s%"#" ++ f.spdxId)) [i, 4] := h
private theorem seen_snippet {env : RdfEnv} {g : RdfGraph} {ns : Str} {ext : Dict Str Str} {f : Snippet} {i : Nat} (h : SeenB g ns (snippetB env ns ext f i)) :
    Seen g (snippetBlock env ns ext [i, 6] (.uri (ns ++ s%"#" ++ f.spdxId)) (linesOf f) f) (.uri (ns ++ s%"#" ++ f.spdxId)) [i, 6] := h
private theorem seen_lic {g : RdfGraph} {c : CreationInfo} {e : ExtractedLicensingInfo} {i : Nat} {n : Str} (hn : e.licenseId = some n)
    (h : SeenB g c.documentNamespace (licB c e i)) :
    Seen g (extractedBody (.uri (c.documentNamespace ++ s%"#" ++ n)) e) (.uri (c.documentNamespace ++ s%"#" ++ n)) [i, 7] := by
  unfold SeenB licB nodeOf at h
  simp only [hn] at h
  exact h

/-- What is written is read as the same document up to order. -/
theorem round_trip (env : RdfEnv) (d : Document) (h : DocRdf env d) : ∃ w, rdfGraph env d = some w ∧
    ∀ g b, SameTriples g w → C38.Fresh d.creationInfo.externalDocumentRefs b → ∃ e, parseRdf env b g = some e ∧ SameRdf d e := by
  refine ⟨_, rdfGraph_blocks h, ?_⟩
  intro g b hg hfresh
  have hb := doc_blocks env d h.names
  have hns : NsLic d.creationInfo.documentNamespace := Spdx.NamespaceOk.lic h.ns
  obtain ⟨nrefs, nfiles, npackages, nsnippets, nlics⟩ := names_split d h.names
  have hseen : ∀ b ∈ (kindsOf env d).flatten, SeenB g d.creationInfo.documentNamespace b :=
    fun b hm => hb.seen hns hg hm
  have mdoc : docB d.creationInfo ∈ (kindsOf env d).flatten := mem_kinds.2 (.inl rfl)
  have minfo : infoB d.creationInfo ∈ (kindsOf env d).flatten := mem_kinds.2 (.inr (.inl rfl))
  have mext : ∀ b ∈ blocksOf (extB d.creationInfo) d.creationInfo.externalDocumentRefs, b ∈ (kindsOf env d).flatten :=
    fun b hb => mem_kinds.2 (.inr (.inr (.inl hb)))
  have mann : ∀ b ∈ blocksOf (annB d.creationInfo.documentNamespace (externalNamespaces d.creationInfo.externalDocumentRefs)) d.annotations,
      b ∈ (kindsOf env d).flatten := fun b hb => mem_kinds.2 (.inr (.inr (.inr (.inl hb))))
  have mfile : ∀ b ∈ blocksOf (fileB env d.creationInfo.documentNamespace) d.files, b ∈ (kindsOf env d).flatten :=
    fun b hb => mem_kinds.2 (.inr (.inr (.inr (.inr (.inl hb)))))
  have mpackage : ∀ b ∈ blocksOf (packageB env d.creationInfo.documentNamespace) d.packages, b ∈ (kindsOf env d).flatten :=
    fun b hb => mem_kinds.2 (.inr (.inr (.inr (.inr (.inr (.inl hb))))))
  have mrel : ∀ b ∈ blocksOf (relB d.creationInfo.documentNamespace (externalNamespaces d.creationInfo.externalDocumentRefs)) d.relationships,
      b ∈ (kindsOf env d).flatten := fun b hb => mem_kinds.2 (.inr (.inr (.inr (.inr (.inr (.inr (.inl hb)))))))
  have msnippet : ∀ b ∈ blocksOf (snippetB env d.creationInfo.documentNamespace (externalNamespaces d.creationInfo.externalDocumentRefs)) d.snippets,
      b ∈ (kindsOf env d).flatten := fun b hb => mem_kinds.2 (.inr (.inr (.inr (.inr (.inr (.inr (.inr (.inl hb))))))))
  have mlic : ∀ b ∈ blocksOf (licB d.creationInfo) d.extractedLicensingInfo, b ∈ (kindsOf env d).flatten :=
    fun b hb => mem_kinds.2 (.inr (.inr (.inr (.inr (.inr (.inr (.inr (.inr hb))))))))
  have at_ : ∀ {α : Type} {F : α → Nat → Block} {l : List α} {x : α}, x ∈ l → ∃ i, F x i ∈ blocksOf F l := by
    intro α F l x hx
    obtain ⟨i, hi⟩ := List.mem_iff_getElem?.1 hx
    exact ⟨i, mem_blocksOf.2 ⟨i, x, hi, rfl⟩⟩
  -- the creation information
  have tdoc : g.subjects .type (spdxTerm s%"SpdxDocument") = [docNode d.creationInfo] := List.perm_singleton.1 <| hg.subjects (by simp) <| by
    intro s
    rw [hb.types (by decide), List.mem_singleton]
    constructor
    · rintro ⟨b, hb, h1, h2⟩
      rw [(of_ty hb).1 h1] at h2
      exact h2.symm
    · rintro rfl
      exact ⟨_, mdoc, rfl, rfl⟩
  have tinfo : g.subjects .type (spdxTerm s%"CreationInfo") = [.bnode [1, 0]] := List.perm_singleton.1 <| hg.subjects (by simp) <| by
    intro s
    rw [hb.types (by decide), List.mem_singleton]
    constructor
    · rintro ⟨b, hb, h1, h2⟩
      rw [(of_ty hb).2.1 h1] at h2
      exact h2.symm
    · rintro rfl
      exact ⟨_, minfo, rfl, rfl⟩
  have lrefs : (g.objects (docNode d.creationInfo) .externalDocumentRef).Perm
      (d.creationInfo.externalDocumentRefs.map fun r => .uri (d.creationInfo.documentNamespace ++ s%"#" ++ r.documentRefId)) := by
    refine (List.perm_ext_iff_of_nodup (objects_nodup hg.1 _ _) (names_nodup nrefs)).2 ?_
    intro o
    rw [mem_objects, hg.2, hb.links (by decide)]
    constructor
    · rintro ⟨b, hb, h⟩
      obtain ⟨i, x, hx, rfl⟩ := mem_blocksOf.1 ((of_link hb h).1 rfl)
      have h := List.mem_singleton.1 h
      injection h with _ h
      injection h with _ h
      exact List.mem_map.2 ⟨x, List.mem_of_getElem? hx, h.symm⟩
    · intro h
      obtain ⟨x, hx, rfl⟩ := List.mem_map.1 h
      obtain ⟨i, hi⟩ := at_ (F := extB d.creationInfo) hx
      exact ⟨_, mext _ hi, List.mem_singleton.2 rfl⟩
  obtain ⟨c', found, rinfo, pfound, sinfo⟩ := info_read (b := b) h.ns h.info tdoc tinfo (seen_doc (hseen _ mdoc)) (seen_info (hseen _ minfo)) lrefs (by
    intro r hr b
    obtain ⟨i, hi⟩ := at_ (F := extB d.creationInfo) hr
    exact extRef_read hns (h.info.ref r hr) (docRef_noBlank (h.info.refs.names r hr)) (seen_ext (hseen _ (mext _ hi))))
  have ens' : c'.documentNamespace = d.creationInfo.documentNamespace := by rw [sinfo.2.2]
  have hread : ∀ id, C38.Usable d.creationInfo.externalDocumentRefs id →
      parseRdfId (bindRefs b found) d.creationInfo.documentNamespace
        (.uri (addNamespace id d.creationInfo.documentNamespace (externalNamespaces d.creationInfo.externalDocumentRefs))) = some (some id) :=
    fun id hu => C38.round_trip _ _ _ _ _ h.info.refs pfound hfresh hu
  -- the elements
  obtain ⟨files, rfiles, pfiles⟩ := mapM_rearranged (f := parseRdfFile env (bindRefs b found) g d.creationInfo.documentNamespace) (R := SameFile)
    (k := fun f : File => RdfNode.uri (d.creationInfo.documentNamespace ++ s%"#" ++ f.spdxId)) (l := d.files)
    (fun f hf => by
      obtain ⟨i, hi⟩ := at_ (F := fileB env d.creationInfo.documentNamespace) hf
      exact file_read hns (h.files f hf) (seen_file (hseen _ (mfile _ hi))))
    (typed hb hg (by decide) mfile (fun b hb => (of_ty hb).2.2.1) (fun _ _ => rfl) (fun _ _ => rfl) (names_nodup nfiles))
  obtain ⟨packages, rpackages, ppackages⟩ := mapM_rearranged (f := parseRdfPackage env (bindRefs b found) g d.creationInfo.documentNamespace) (R := SamePackage)
    (k := fun f : Package => RdfNode.uri (d.creationInfo.documentNamespace ++ s%"#" ++ f.spdxId)) (l := d.packages)
    (fun f hf => by
      obtain ⟨i, hi⟩ := at_ (F := packageB env d.creationInfo.documentNamespace) hf
      exact package_read hns h.ns.reference (h.packages f hf) (seen_package (hseen _ (mpackage _ hi))))
    (typed hb hg (by decide) mpackage (fun b hb => (of_ty hb).2.2.2.1) (fun _ _ => rfl) (fun _ _ => rfl) (names_nodup npackages))
  obtain ⟨snippets, rsnippets, psnippets⟩ := mapM_rearranged (f := parseRdfSnippet env (bindRefs b found) g d.creationInfo.documentNamespace) (R := SameSnippet)
    (k := fun f : Snippet => RdfNode.uri (d.creationInfo.documentNamespace ++ s%"#" ++ f.spdxId)) (l := d.snippets)
    (fun f hf => by
      obtain ⟨i, hi⟩ := at_ (F := snippetB env d.creationInfo.documentNamespace (externalNamespaces d.creationInfo.externalDocumentRefs)) hf
      have hl : f.lineRange = some (linesOf f) := by
        obtain ⟨r, hr, -⟩ := (h.snippets f hf).lines
        unfold linesOf
        rw [hr]
        rfl
      exact snippet_read hns (h.snippets f hf) hl (hread _ (h.snippets f hf).file) (seen_snippet (hseen _ (msnippet _ hi))))
    (typed hb hg (by decide) msnippet (fun b hb => (of_ty hb).2.2.2.2) (fun _ _ => rfl) (fun _ _ => rfl) (names_nodup nsnippets))
  -- annotations, relationships, extracted licenses
  obtain ⟨annotations, rann, pann⟩ := mapM_perm_eq (f := parseRdfAnnotation (bindRefs b found) g d.creationInfo.documentNamespace)
    (k := fun e : Annotation × Nat => (RdfNode.uri (addNamespace e.1.spdxId d.creationInfo.documentNamespace
      (externalNamespaces d.creationInfo.externalDocumentRefs)), RdfNode.bnode [e.2, 2])) (g := Prod.fst) (l := d.annotations.zipIdx)
    (fun e he => by
      have hm := List.mem_of_getElem? (List.mem_zipIdx_iff_getElem?.1 he)
      have hi := mann _ (mem_blocksOf.2 ⟨e.2, e.1, List.mem_zipIdx_iff_getElem?.1 he, rfl⟩)
      exact annotation_read (h.annotations e.1 hm) (hread _ (h.annotations e.1 hm).id) hg.1 (seen_ann (hseen _ hi)))
    (linked hb hg (by decide) mann (fun b hb t ht => (of_link hb ht).2.1)
      (key := fun a i => (RdfNode.uri (addNamespace a.spdxId d.creationInfo.documentNamespace (externalNamespaces d.creationInfo.externalDocumentRefs)),
        RdfNode.bnode [i, 2])) (fun _ _ => rfl) 
      (zip_nodup d.annotations (fun a => RdfNode.uri (addNamespace a.spdxId d.creationInfo.documentNamespace (externalNamespaces d.creationInfo.externalDocumentRefs))) 2))
  obtain ⟨rels, rrels, prels⟩ := mapM_perm_eq (f := parseRdfRelationship (bindRefs b found) g d.creationInfo.documentNamespace)
    (k := fun e : Relationship × Nat => (RdfNode.uri (addNamespace e.1.spdxElementId d.creationInfo.documentNamespace
      (externalNamespaces d.creationInfo.externalDocumentRefs)), RdfNode.bnode [e.2, 5])) (g := Prod.fst) (l := d.relationships.zipIdx)
    (fun e he => by
      have hm := List.mem_of_getElem? (List.mem_zipIdx_iff_getElem?.1 he)
      have hi := mrel _ (mem_blocksOf.2 ⟨e.2, e.1, List.mem_zipIdx_iff_getElem?.1 he, rfl⟩)
      exact relationship_read (h.relationships e.1 hm) h.info.refs (hread _ (h.relationships e.1 hm).id) hread hg.1 (seen_rel (hseen _ hi)))
    (linked hb hg (by decide) mrel (fun b hb t ht => (of_link hb ht).2.2.1)
      (key := fun a i => (RdfNode.uri (addNamespace a.spdxElementId d.creationInfo.documentNamespace (externalNamespaces d.creationInfo.externalDocumentRefs)),
        RdfNode.bnode [i, 5])) (fun _ _ => rfl) 
      (zip_nodup d.relationships (fun a => RdfNode.uri (addNamespace a.spdxElementId d.creationInfo.documentNamespace (externalNamespaces d.creationInfo.externalDocumentRefs))) 5))
  have hlics : (g.pairs .hasExtractedLicensingInfo).Perm (d.extractedLicensingInfo.map fun e =>
      (docNode d.creationInfo, RdfNode.uri (d.creationInfo.documentNamespace ++ s%"#" ++ e.licenseId.getD []))) := by
    have hname : ∀ e ∈ d.extractedLicensingInfo, e.licenseId = some (e.licenseId.getD []) := by
      intro e he
      obtain ⟨i, hi, -⟩ := (h.licenses e he).id
      rw [hi]
      rfl
    have hn : (d.extractedLicensingInfo.map fun e => e.licenseId.getD []).Nodup := by
      have : d.extractedLicensingInfo.filterMap (·.licenseId) = d.extractedLicensingInfo.map fun e => e.licenseId.getD [] :=
        filterMap_all hname
      rw [← this]
      exact nlics
    refine hg.pairs ?_ ?_
    · have := nodup_map_of_inj (f := fun n => (docNode d.creationInfo, RdfNode.uri (d.creationInfo.documentNamespace ++ s%"#" ++ n))) hn (by
        intro a _ b _ e
        injection e with _ e
        exact List.append_cancel_left (RdfNode.uri.inj e))
      rw [List.map_map] at this
      exact this
    · intro s o
      rw [hb.links (by decide)]
      constructor
      · rintro ⟨b, hb, h'⟩
        obtain ⟨i, x, hx, rfl⟩ := mem_blocksOf.1 ((of_link hb h').2.2.2 rfl)
        have h' := List.mem_singleton.1 h'
        have hx := List.mem_of_getElem? hx
        rw [hname x hx] at h'
        injection h' with h1 h'
        injection h' with _ h'
        exact List.mem_map.2 ⟨x, hx, Prod.ext h1.symm h'.symm⟩
      · intro h'
        obtain ⟨x, hx, e⟩ := List.mem_map.1 h'
        obtain ⟨i, hi⟩ := at_ (F := licB d.creationInfo) hx
        refine ⟨_, mlic _ hi, ?_⟩
        injection e with h1 h2
        rw [← h1, ← h2]
        unfold licB
        rw [hname x hx]
        exact List.mem_singleton.2 rfl
  obtain ⟨lics, rlics, plics⟩ := mapM_rearranged (f := fun e : RdfNode × RdfNode => parseRdfExtracted g d.creationInfo.documentNamespace e.2) (R := SameLicense)
    (k := fun e : ExtractedLicensingInfo => (docNode d.creationInfo, RdfNode.uri (d.creationInfo.documentNamespace ++ s%"#" ++ e.licenseId.getD [])))
    (l := d.extractedLicensingInfo)
    (fun e he => by
      obtain ⟨i, hi⟩ := at_ (F := licB d.creationInfo) he
      obtain ⟨n, hn, -⟩ := (h.licenses e he).id
      have hs := seen_lic hn (hseen _ (mlic _ hi))
      rw [hn]
      exact extracted_read (h.licenses e he) hs) hlics
  have pempty : ∀ p, p = .hasFile ∨ p = .describesPackage → g.pairs p = [] := by
    intro p hp
    apply List.eq_nil_iff_forall_not_mem.2
    intro e he
    rw [mem_graph_pairs, hg.2] at he
    exact hb.implicit hp _ _ he
  rw [List.zipIdx_map_fst] at pann prels
  refine ⟨⟨c', packages, files, snippets, annotations, rels, lics⟩, ?_, sinfo, ppackages, pfiles, psnippets, pann, prels, plics⟩
  unfold parseRdf
  rw [rinfo]
  simp only [Option.bind_eq_bind, Option.bind_some, ens']
  rw [rpackages, rfiles, rsnippets, rann, rrels, pempty _ (.inl rfl), pempty _ (.inr rfl), rlics]
  rfl

/-! ### Non-vacuity: a document with every kind of part meets the conditions. -/

/-- A stand-in for the external functions. -/
def exampleEnv : RdfEnv where
  known := fun k => k = s%"MIT"
  lic :=
    { render := fun e => match e with
        | .sym s => s
        | _ => s%"MIT AND LicenseRef-1"
      parse := fun t => some (some (if t = s%"MIT AND LicenseRef-1" then .and [.sym s%"MIT", .sym s%"LicenseRef-1"]
        else if t = s%"LicenseRef-1 AND MIT" then .and [.sym s%"LicenseRef-1", .sym s%"MIT"] else .sym t)) }
  defrag := fun u => u.takeWhile (· ≠ '#')
  depth := 5

private theorem forall_single {α : Type} {p : α → Prop} {a : α} (h : p a) : ∀ x ∈ [a], p x := by simpa using h

private theorem clean {t : Str} (h : (decide (t ≠ []) && decide (strip t = t)) = true) : Clean t := by
  simpa [Clean] using h

local instance : DecidablePred IdChar := fun c => by unfold IdChar; infer_instance

private theorem localId (t : Str) (h1 : t ≠ []) (h2 : t.all (fun c => decide (IdChar c)) = true) : LocalId (s%"SPDXRef-" ++ t) :=
  ⟨t, h1, rfl, fun c hc => by simpa using List.all_eq_true.1 h2 c hc⟩

protected theorem same_syms {a b : Str} {m : List LicExpr} (h : SameLic (.and [.sym a, .sym b]) (.and m)) :
    m = [.sym a, .sym b] ∨ m = [.sym b, .sym a] := by
  generalize h1 : LicExpr.and [.sym a, .sym b] = x at h
  generalize h2 : LicExpr.and m = y at h
  cases h with
  | sym => cases h1
  | withExc => cases h1
  | or => cases h1
  | @and l l' m' hl hs hp =>
    cases h1
    cases h2
    match l', hl with
    | [x, y], _ =>
      have e1 := hs 0 _ _ rfl rfl
      have e2 := hs 1 _ _ rfl rfl
      cases e1
      cases e2
      exact perm_pair hp

private theorem exampleLics : LicRdf exampleEnv.lic (.and [.sym s%"MIT", .sym s%"LicenseRef-1"]) := by
  refine ⟨⟨by unfold LicRdf; decide +kernel, by unfold LicRdf; decide +kernel, trivial⟩, by decide, ?_⟩
  intro m hm
  rcases C49.same_syms hm with rfl | rfl <;> decide +kernel

private theorem symOk {k : Str} (h : exampleEnv.lic.parse k = some (some (.sym k))) : LicOrRdf exampleEnv (.val (.sym k)) := by
  intro e he
  cases he
  exact ⟨h, show 1 ≤ 5 by decide⟩

private theorem specialOk {x : OrSpecial LicExpr} (h : x = .none ∨ x = .noAssertion) : LicOrRdf exampleEnv x := by
  intro e he
  rcases h with rfl | rfl <;> cases he

private theorem exampleFile : FileRdf exampleEnv Example.file where
  id := localId s%"File" (by decide) (by decide +kernel)
  name := clean (by decide +kernel)
  checksums := forall_single (clean (by decide +kernel))
  types := by decide
  concluded := by
    intro x hx e he
    cases hx
    cases he
    exact ⟨exampleLics, by decide⟩
  info := ⟨by decide, by
    intro x hx
    rcases (by simpa [Example.file] using hx : x = .val (.sym s%"MIT") ∨ x = .noAssertion) with rfl | rfl
    · exact symOk (by decide +kernel)
    · exact specialOk (.inr rfl)⟩
  licenseComment := by intro t h; cases h
  copyright := by
    intro x hx t ht
    cases hx
    cases ht
    exact ⟨clean (by decide +kernel), by decide, by decide⟩
  comment := by intro t h; cases h
  notice := by intro t h; cases h
  contributors := by decide
  attribution := by decide

private theorem examplePackage : PackageRdf exampleEnv Example.package where
  id := localId s%"Package" (by decide) (by decide +kernel)
  name := clean (by decide +kernel)
  download := by intro t h; cases h; exact ⟨clean (by decide +kernel), by decide, by decide⟩
  version := by intro t h; cases h; exact clean (by decide +kernel)
  fileName := by intro t h; cases h
  supplier := by intro t h; cases h
  originator := by intro t h; cases h
  code := by intro c h; cases h; exact ⟨clean (by decide +kernel), by decide⟩
  checksums := forall_single (clean (by decide +kernel))
  homepage := by intro t h; cases h
  sourceInfo := by intro t h; cases h
  concluded := by intro x h; cases h; exact specialOk (.inr rfl)
  info := ⟨by decide, by
    intro x hx
    rcases (by simpa [Example.package] using hx : x = .val (.sym s%"MIT") ∨ x = .none) with rfl | rfl
    · exact symOk (by decide +kernel)
    · exact specialOk (.inl rfl)⟩
  declared := by intro t h; cases h
  licenseComment := by intro t h; cases h
  copyright := by intro t h; cases h
  summary := by intro t h; cases h
  description := by intro t h; cases h
  comment := by intro t h; cases h
  refs := forall_single ⟨clean (by decide +kernel), by intro t h; cases h⟩
  attribution := by decide
  release := by intro t h; cases h
  built := by intro t h; cases h
  validUntil := by intro t h; cases h

private theorem exampleBare : PackageRdf exampleEnv Example.barePackage where
  id := localId s%"Bare" (by decide) (by decide +kernel)
  name := clean (by decide +kernel)
  download := by intro t h; cases h
  version := by intro t h; cases h
  fileName := by intro t h; cases h
  supplier := by intro t h; cases h
  originator := by intro t h; cases h
  code := by intro c h; cases h
  checksums := by intro c h; cases h
  homepage := by intro t h; cases h
  sourceInfo := by intro t h; cases h
  concluded := by intro x h; cases h
  info := ⟨by decide, by intro c h; cases h⟩
  declared := by intro t h; cases h
  licenseComment := by intro t h; cases h
  copyright := by intro t h; cases h
  summary := by intro t h; cases h
  description := by intro t h; cases h
  comment := by intro t h; cases h
  refs := by intro c h; cases h
  attribution := by decide
  release := by intro t h; cases h
  built := by intro t h; cases h
  validUntil := by intro t h; cases h

private theorem external : C38.Usable Example.info.externalDocumentRefs s%"DocumentRef-ext:SPDXRef-o" :=
  .inr ⟨_, List.mem_singleton.2 rfl, s%"SPDXRef-o", localId s%"o" (by decide) (by decide +kernel), by decide⟩

theorem example_ok : DocRdf exampleEnv Example.doc where
  ns := ⟨by decide, by decide, by decide +kernel, by decide +kernel, by decide +kernel, by decide +kernel, by decide +kernel⟩
  info :=
    { id := by decide
      version := clean (by decide +kernel)
      name := clean (by decide +kernel)
      comment := by intro t h; cases h
      created := by unfold DateOk; decide +kernel
      creators := ⟨by decide, by decide, forall_single (C05.roundtrip_only _ (by decide +kernel))⟩
      creatorComment := by intro t h; cases h
      refs := ⟨by decide, by decide, forall_single (by decide), ⟨by decide, forall_single (by decide)⟩,
        forall_single ⟨s%"ext", by decide, rfl, by decide +kernel⟩⟩
      ref := forall_single ⟨clean (by decide +kernel), clean (by decide +kernel)⟩ }
  names := by decide +kernel
  files := forall_single exampleFile
  packages := by
    intro p hp
    rcases (by simpa [Example.doc] using hp : p = Example.package ∨ p = Example.barePackage) with rfl | rfl
    · exact examplePackage
    · exact exampleBare
  snippets := forall_single
    { id := localId s%"Snippet" (by decide) (by decide +kernel)
      file := .inl (localId s%"File" (by decide) (by decide +kernel))
      bytes := by decide
      lines := ⟨(1, 3), rfl, by decide, by decide⟩
      concluded := by intro t h; cases h
      info := ⟨by decide, by intro c h; cases h⟩
      licenseComment := by intro t h; cases h
      copyright := by intro t h; cases h
      comment := by intro t h; cases h
      name := by intro t h; cases h
      attribution := by decide }
  annotations := forall_single ⟨.inl (localId s%"File" (by decide) (by decide +kernel)), C05.roundtrip_only _ (by decide +kernel),
    by unfold DateOk; decide +kernel, clean (by decide +kernel)⟩
  relationships := by
    have key : ∀ r, C38.Usable Example.info.externalDocumentRefs r.spdxElementId → (∀ t, r.relatedSpdxElementId = .val t → C38.Usable Example.info.externalDocumentRefs t) →
        r.comment = none → RelationshipRdf Example.info.externalDocumentRefs r := by
      intro r h1 h2 h3
      exact ⟨h1, h2, by rw [h3]; intro t h; cases h⟩
    have l1 : C38.Usable Example.info.externalDocumentRefs s%"SPDXRef-Package" := .inl (localId s%"Package" (by decide) (by decide +kernel))
    have l2 : C38.Usable Example.info.externalDocumentRefs s%"SPDXRef-Bare" := .inl (localId s%"Bare" (by decide) (by decide +kernel))
    have l3 : C38.Usable Example.info.externalDocumentRefs s%"SPDXRef-File" := .inl (localId s%"File" (by decide) (by decide +kernel))
    have l4 : C38.Usable Example.info.externalDocumentRefs s%"SPDXRef-DOCUMENT" := .inl (localId s%"DOCUMENT" (by decide) (by decide +kernel))
    intro r hr
    simp only [Example.doc, List.mem_cons, List.not_mem_nil, or_false] at hr
    rcases hr with rfl | rfl | rfl | rfl | rfl
    · exact key _ l4 (by intro t h; cases h; exact l1) rfl
    · exact key _ l4 (by intro t h; cases h; exact l2) rfl
    · exact key _ l1 (by intro t h; cases h; exact l3) rfl
    · exact key _ l1 (by intro t h; cases h; exact external) rfl
    · exact key _ l2 (by intro t h; cases h) rfl
  licenses := forall_single
    { id := ⟨_, rfl, clean (by decide +kernel)⟩
      text := by intro t h; cases h; exact clean (by decide +kernel)
      name := by intro t h; cases h
      cross := by decide
      comment := by intro t h; cases h }

/-! ### Each kind of condition is needed. -/

/-- Writing and reading; the triples of the graph in the order in which they are written. -/
def outcome (env : RdfEnv) (d : Document) : Option Document := (rdfGraph env d).bind fun w => parseRdf env [] w.eraseDups

/-- A document with one package. -/
def onePackage (p : Package) : Document :=
  { creationInfo := Example.info, packages := [p], files := [], snippets := [], annotations := [], relationships := [], extractedLicensingInfo := [] }

/-- A document with one snippet. -/
def oneSnippet (s : Snippet) : Document :=
  { creationInfo := Example.info, packages := [], files := [], snippets := [s], annotations := [], relationships := [], extractedLicensingInfo := [] }

theorem plain_package : outcome exampleEnv (onePackage Example.barePackage) = some (onePackage Example.barePackage) := by decide +kernel

/-- A homepage NONE comes back as a text. -/
theorem homepage_none : outcome exampleEnv (onePackage { Example.barePackage with homepage := some .none }) =
    some (onePackage { Example.barePackage with homepage := some (.val s%"NONE") }) := by decide +kernel

/-- A copyright text that happens to be a reserved word comes back as the special value. -/
theorem reserved_copyright : outcome exampleEnv (onePackage { Example.barePackage with copyrightText := some (.val s%"NONE") }) =
    some (onePackage { Example.barePackage with copyrightText := some .none }) := by decide +kernel

/-- Texts are stripped. -/
theorem comment_stripped : outcome exampleEnv (onePackage { Example.barePackage with comment := some s%" see " }) =
    some (onePackage { Example.barePackage with comment := some s%"see" }) := by decide +kernel

/-- An empty text is taken for none. -/
theorem empty_comment_lost : outcome exampleEnv (onePackage { Example.barePackage with comment := some [] }) =
    some (onePackage { Example.barePackage with comment := none }) := by decide +kernel

/-- An attribution text given twice comes back once. -/
theorem attribution_once : outcome exampleEnv (onePackage { Example.barePackage with attributionTexts := [s%"a", s%"a"] }) =
    some (onePackage { Example.barePackage with attributionTexts := [s%"a"] }) := by decide +kernel

/-- A range that begins at zero is not read. -/
theorem zero_range_rejected : (rdfGraph exampleEnv (oneSnippet { Example.snippet with byteRange := (0, 20) })).isSome = true ∧
    outcome exampleEnv (oneSnippet { Example.snippet with byteRange := (0, 20) }) = none := by decide +kernel

/-- A snippet without a line range – it is optional – is not written. -/
theorem no_line_range_crash : rdfGraph exampleEnv (oneSnippet { Example.snippet with lineRange := none }) = none := by decide +kernel

/-- An extracted license with this identifier. -/
def oneText (id : Option Str) (text : Str) : ExtractedLicensingInfo := ⟨id, some text, none, [], none⟩

/-- A document with two extracted licenses. -/
def twoLicenses (a b : Option Str) : Document :=
  { creationInfo := Example.info, packages := [], files := [], snippets := [], annotations := [], relationships := [],
    extractedLicensingInfo := [oneText a s%"one", oneText b s%"two"] }

/-- Extracted licenses without an identifier, which are valid, come back with the names of their blank nodes for identifiers, which are not. -/
theorem anonymous_license_named : ∃ x y, x ≠ y ∧ outcome exampleEnv (twoLicenses none (some [])) = some (twoLicenses (some x) (some y)) ∧
    ∀ X t, validateExtracted X (oneText none t) = [] ∧ validateExtracted X (oneText (some []) t) = [] ∧
      validateExtracted X (oneText (some x) t) ≠ [] ∧ validateExtracted X (oneText (some y) t) ≠ [] := by
  refine ⟨s%"Nbaaaaaaab", s%"Nabaaaaaaab", by decide, by decide +kernel, fun X t => ⟨rfl, rfl, ?_, ?_⟩⟩
  · have h : ¬ dollar (idBody s%"LicenseRef-" isIdChar) s%"Nbaaaaaaab" = true := by decide +kernel
    unfold validateExtracted
    simp [oneText, msgIf, h]
  · have h : ¬ dollar (idBody s%"LicenseRef-" isIdChar) s%"Nabaaaaaaab" = true := by decide +kernel
    unfold validateExtracted
    simp [oneText, msgIf, h]

/-- The license library: AND binds closer than OR. -/
def precedenceEnv : RdfEnv :=
  { exampleEnv with lic :=
    { render := fun e => match e with
        | .sym s => s
        | .or [.sym a, .sym b] => a ++ s%" OR " ++ b
        | .and [.sym a, .or [.sym b, .sym c]] => a ++ s%" AND (" ++ b ++ s%" OR " ++ c ++ s%")"
        | .or [.and [.sym a, .sym b], .sym c] => a ++ s%" AND " ++ b ++ s%" OR " ++ c
        | _ => []
      parse := fun t => some (some (if t = s%"A AND (B OR C)" then .and [.sym s%"A", .or [.sym s%"B", .sym s%"C"]]
        else if t = s%"A AND B OR C" then .or [.and [.sym s%"A", .sym s%"B"], .sym s%"C"]
        else if t = s%"B OR C" then .or [.sym s%"B", .sym s%"C"] else .sym t)) } }

/-- Parentheses are lost: A AND (B OR C) comes back as (A AND B) OR C. -/
theorem parentheses_lost :
    outcome precedenceEnv (onePackage { Example.barePackage with licenseConcluded := some (.val (.and [.sym s%"A", .or [.sym s%"B", .sym s%"C"]])) }) =
      some (onePackage { Example.barePackage with licenseConcluded := some (.val (.or [.and [.sym s%"A", .sym s%"B"], .sym s%"C"])) }) := by
  decide +kernel

end Spdx.C49
