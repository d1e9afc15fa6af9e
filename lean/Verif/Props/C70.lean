import Verif.Lemmas.RdfSayingInfo
import Verif.Props.C69
/-
C70: the messages of the `SPDXParsingError` raised for an RDF graph name exactly what is wrong with it: one message for each element that
cannot be read, with all faults of its values, or, if there are none, with the required fields it lacks. Faults of the document itself, and of
checksums and references inside an element, hide others.
-/
namespace Spdx.C70
open Spdx Spec.RdfSays

/-! ### What is stated

`Spec/RdfFaults` says what the faults of a graph are and which message each gives; it does not mention the reader. -/

/-- Reading is refused with messages that include this complaint about an object of this class. -/
def Says (env : RdfEnv) (b : Bindings) (g : RdfGraph) (cls : Str) (m : PMsg) : Prop :=
  ∃ ms inner, readRdf env b g = .error (.parsing ms) ∧ .wrapped cls inner ∈ ms ∧ m ∈ inner

/-- Reading is refused with messages that name this field of an object of this class. -/
def SaysMissing (env : RdfEnv) (b : Bindings) (g : RdfGraph) (cls field : Str) : Prop :=
  ∃ ms fields, readRdf env b g = .error (.parsing ms) ∧ .constructing cls fields ∈ ms ∧ field ∈ fields

def NoFaults (faults : List (PMsg → Prop)) : Prop := ∀ F ∈ faults, ∀ m, ¬ F m

/-! ### Proofs -/

private theorem info_read {env : RdfEnv} {b b' : Bindings} {g : RdfGraph} {c : CreationInfo} {doc i : RdfNode} (hi : IsInfo env g b c b' doc i) :
    readCreationInfo env b g = .ok (c, b') :=
  RdfReport.val_ok.1 ((RdfReport.creationInfo_val ..).trans ((RdfSays.info_iff ..).2 ⟨doc, i, hi⟩))

private theorem info_of_read {env : RdfEnv} {b b' : Bindings} {g : RdfGraph} {c : CreationInfo} (h : readCreationInfo env b g = .ok (c, b')) :
    ∃ doc i, IsInfo env g b c b' doc i := (RdfSays.info_iff ..).1 ((RdfReport.creationInfo_val ..).symm.trans (RdfReport.val_ok.2 h))

private theorem reported_mem {ν : Type} {Read : ν → Prop} {About : ν → PMsg → Prop} {l : List ν} {ms : List PMsg} (h : Reported Read About l ms) {n : ν} (hn : n ∈ l)
    (hr : ¬ Read n) : ∃ m ∈ ms, About n m := by
  induction h with
  | nil => cases hn
  | read h _ ih =>
    cases hn with
    | head => exact absurd h hr
    | tail _ hn => exact ih hn
  | unread _ ha _ ih =>
    cases hn with
    | head => exact ⟨_, .head _, ha⟩
    | tail _ hn => obtain ⟨m, hm, h⟩ := ih hn; exact ⟨m, .tail _ hm, h⟩

private theorem all2_mem {α β : Type} {R : α → β → Prop} {l : List α} {m : List β} (h : All2 R l m) {a : α} (ha : a ∈ l) : ∃ b, R a b := by
  induction h with
  | nil => cases ha
  | cons h _ ih =>
    cases ha with
    | head => exact ⟨_, h⟩
    | tail _ ha => exact ih ha

private theorem complaint_fault {cls : Str} {faults : List (PMsg → Prop)} {missing : List (Str × Prop)} {m x : PMsg} (h : Complaint cls faults missing x)
    {F : PMsg → Prop} (hF : F ∈ faults) (hm : F m) : ∃ inner, x = .wrapped cls inner ∧ m ∈ inner := by
  cases h with
  | faults _ h => exact ⟨_, rfl, (h m).2 ⟨F, hF, hm⟩⟩
  | missing h _ _ => exact absurd hm (h F hF m)

private theorem complaint_missing {cls : Str} {faults : List (PMsg → Prop)} {missing : List (Str × Prop)} {x : PMsg} (h : Complaint cls faults missing x)
    (hf : NoFaults faults) {f : Str} {Q : Prop} (hm : (f, Q) ∈ missing) (q : Q) : ∃ fs, x = .constructing cls fs ∧ f ∈ fs := by
  cases h with
  | faults hne h =>
    rename_i ms
    match ms, hne, h with
    | m :: _, _, h =>
      obtain ⟨F, hF, hm⟩ := (h m).1 (.head _)
      exact absurd hm (hf F hF m)
  | missing _ _ h => exact ⟨_, rfl, (h f).2 ⟨_, hm, rfl, q⟩⟩

/-- With a readable header reading ends in a document, or in messages about the elements. -/
private theorem refused {env : RdfEnv} {b b' : Bindings} {g : RdfGraph} {c : CreationInfo} {doc i : RdfNode} (hi : IsInfo env g b c b' doc i) (hb : ¬ Bad env b g) :
    (∃ d, IsRdf env b g d b' c.documentNamespace) ∨ ∃ ms, readRdf env b g = .error (.parsing ms) ∧ Messages env b' g c.documentNamespace ms := by
  by_cases h : ∃ d b' ns, IsRdf env b g d b' ns
  · obtain ⟨d, b1, ns, h⟩ := h
    obtain ⟨doc1, i1, h1⟩ := h.creationInfo
    have e := (info_read h1).symm.trans (info_read hi)
    have e1 : (d.creationInfo, b1) = (c, b') := Except.ok.inj e
    have e2 : d.creationInfo = c := congrArg Prod.fst e1
    have e3 : b1 = b' := congrArg Prod.snd e1
    have e4 := h.namespaceIs
    rw [e2] at e4
    subst e4 e3
    exact .inl ⟨d, h⟩
  · obtain ⟨ms, h⟩ := C69.otherwise_refused hb h
    exact .inr ⟨ms, h, RdfSaying.messages (info_read hi) h⟩

private theorem package_fine {env : RdfEnv} {b : Bindings} {g : RdfGraph} {ns : Str} {n : RdfNode} {x : Package} (h : IsPackage env g b ns n x) :
    NoFaults (packageFaults g n) ∧ ∀ x ∈ packageMissing env g b ns n, ¬ x.2 := by
  have h : readPackage env b g ns n = .ok x := RdfReport.val_ok.1 (((RdfReport.agree_package ..).val n).trans ((RdfSays.package_iff ..).2 h))
  obtain ⟨id, hid, _⟩ := RdfSaying.bind_step h
  exact (RdfSaying.says_package hid).fine h

private theorem file_fine {env : RdfEnv} {b : Bindings} {g : RdfGraph} {ns : Str} {n : RdfNode} {x : File} (h : IsFile env g b ns n x) :
    NoFaults (fileFaults g n) ∧ ∀ x ∈ fileMissing env g b ns n, ¬ x.2 := by
  have h : readFile env b g ns n = .ok x := RdfReport.val_ok.1 (((RdfReport.agree_file ..).val n).trans ((RdfSays.file_iff ..).2 h))
  obtain ⟨id, hid, _⟩ := RdfSaying.bind_step h
  exact (RdfSaying.says_file hid).fine h

private theorem snippet_fine {env : RdfEnv} {b : Bindings} {g : RdfGraph} {ns : Str} {n : RdfNode} {x : Snippet} (h : IsSnippet env g b ns n x) :
    NoFaults (snippetFaults g n) ∧ ∀ x ∈ snippetMissing env g b ns n, ¬ x.2 := by
  have h : readSnippet env b g ns n = .ok x := RdfReport.val_ok.1 (((RdfReport.agree_snippet ..).val n).trans ((RdfSays.snippet_iff ..).2 h))
  obtain ⟨id, hid, h1⟩ := RdfSaying.bind_step h
  obtain ⟨file, hf, _⟩ := RdfSaying.bind_step h1
  exact (RdfSaying.says_snippet hid hf).fine h

private theorem annotation_fine {b : Bindings} {g : RdfGraph} {ns : Str} {e : RdfNode × RdfNode} {x : Annotation} (h : IsAnnotation g b ns e x) :
    NoFaults (annotationFaults g e.2) ∧ ∀ x ∈ annotationMissing g b ns e, ¬ x.2 := by
  have h : readAnnotation b g ns e = .ok x := RdfReport.val_ok.1 (((RdfReport.agree_annotation ..).val e).trans ((RdfSays.annotation_iff ..).2 h))
  obtain ⟨id, hid, _⟩ := RdfSaying.bind_step h
  exact (RdfSaying.says_annotation hid).fine h

private theorem relationship_fine {b : Bindings} {g : RdfGraph} {ns : Str} {e : RdfNode × RdfNode} {x : Relationship} (h : IsRelationship g b ns e x) :
    NoFaults (relationshipFaults g e.2) ∧ ∀ x ∈ relationshipMissing g b ns e, ¬ x.2 := by
  have h : readRelationship b g ns e = .ok x := RdfReport.val_ok.1 (((RdfReport.agree_relationship ..).val e).trans ((RdfSays.relationship_iff ..).2 h))
  obtain ⟨id, hid, _⟩ := RdfSaying.bind_step h
  exact (RdfSaying.says_relationship hid).fine h

private theorem extracted_fine {g : RdfGraph} {ns : Str} {n : RdfNode} {x : ExtractedLicensingInfo} (h : IsExtracted g ns n x) :
    NoFaults (extractedFaults g n) ∧ ∀ x ∈ extractedMissing g ns n, ¬ x.2 :=
  (RdfSaying.says_extracted g ns n).fine (RdfReport.val_ok.1 (((RdfReport.agree_extracted ..).val n).trans ((RdfSays.extracted_iff ..).2 h)))

/-- What can be read is not complained about. -/
private theorem complaint_false {cls : Str} {faults : List (PMsg → Prop)} {missing : List (Str × Prop)} {x : PMsg} (h : Complaint cls faults missing x)
    (hf : NoFaults faults ∧ ∀ x ∈ missing, ¬ x.2) : False := by
  cases h with
  | faults hne h =>
    rename_i ms
    match ms, hne, h with
    | m :: _, _, h =>
      obtain ⟨F, hF, hm⟩ := (h m).1 (.head _)
      exact hf.1 F hF m hm
  | missing _ hne h =>
    rename_i fs _
    match fs, hne, h with
    | f :: _, _, h =>
      obtain ⟨x, hx, _, hq⟩ := (h f).1 (.head _)
      exact hf.2 x hx hq

private theorem checksum_fine {g : RdfGraph} {v : RdfNode} {m : PMsg} (h : aboutChecksum g v m) : ¬ ∃ c, IsChecksum g v c := fun ⟨_, hc⟩ =>
  complaint_false h (RdfSaying.Reads.fine (RdfSaying.says_checksum g v)
    (RdfReport.val_ok.1 (((RdfReport.agree_checksum g).val v).trans ((RdfSays.checksum_iff ..).2 hc))))

private theorem packageRef_fine {g : RdfGraph} {ns : Str} {v : RdfNode} {m : PMsg} (h : aboutPackageRef g ns v m) : ¬ ∃ c, IsPackageRef g ns v c := fun ⟨_, hc⟩ =>
  complaint_false h ((RdfSaying.says_packageRef g ns v).fine
    (RdfReport.val_ok.1 (((RdfReport.agree_packageRef g ns).val v).trans ((RdfSays.packageRef_iff ..).2 hc))))

private theorem no_first {α : Type} {Read Bad : α → Prop} {l : List α} (hb : ∀ x, Bad x → ¬ Read x) (hr : ∀ v ∈ l, Read v) : ¬ FirstBad Read Bad l := by
  intro h
  induction h with
  | here h => exact hb _ h (hr _ (.head _))
  | later _ _ ih => exact ih fun v hv => hr v (.tail _ hv)

/-! ### Theorems -/

/-- The messages for a graph whose header can be read: one for each element that cannot be read, in the order of the elements, and no other. -/
theorem messages_exactly {env : RdfEnv} {b b' : Bindings} {g : RdfGraph} {c : CreationInfo} {doc i : RdfNode} {ms : List PMsg} (hi : IsInfo env g b c b' doc i)
    (h : readRdf env b g = .error (.parsing ms)) : Messages env b' g c.documentNamespace ms := RdfSaying.messages (info_read hi) h

/-- The one message for a graph whose header cannot be read. -/
theorem header_message {env : RdfEnv} {b : Bindings} {g : RdfGraph} {ms : List PMsg} (hi : ¬ ∃ c b' doc i, IsInfo env g b c b' doc i)
    (h : readRdf env b g = .error (.parsing ms)) : ∃ doc m, nodes g s%"SpdxDocument" = [doc] ∧ ms = [m] ∧ aboutInfo env g b doc m := by
  unfold readRdf at h
  cases hc : readCreationInfo env b g with
  | ok x =>
    obtain ⟨c, b'⟩ := x
    obtain ⟨doc, i, hx⟩ := info_of_read hc
    exact absurd ⟨c, b', doc, i, hx⟩ hi
  | error e => rw [hc] at h; cases h; exact RdfSaying.about_info hc

section
variable {env : RdfEnv} {b b' : Bindings} {g : RdfGraph} {c : CreationInfo} {doc i n : RdfNode} {e : RdfNode × RdfNode} {F : PMsg → Prop} {m : PMsg} {f : Str} {Q : Prop}
  (hi : IsInfo env g b c b' doc i) (hb : ¬ Bad env b g)
include hi hb

private theorem unread_package (hn : n ∈ nodes g s%"Package") (hx : ¬ ∃ x, IsPackage env g b' c.documentNamespace n x) :
    ∃ ms, readRdf env b g = .error (.parsing ms) ∧ ∃ m ∈ ms, aboutPackage env g b' c.documentNamespace n m := by
  rcases refused hi hb with ⟨d, h⟩ | ⟨ms, h, p, f, s, a, r, cc, d, x, rfl, hp, hf, hs, ha, hr, hcc, hd, he⟩
  · exact absurd (all2_mem h.packages hn) hx
  · obtain ⟨m, hm, ha⟩ := reported_mem hp hn hx
    exact ⟨_, h, m, by simp [hm], ha⟩

private theorem unread_file (hn : n ∈ nodes g s%"File") (hx : ¬ ∃ x, IsFile env g b' c.documentNamespace n x) :
    ∃ ms, readRdf env b g = .error (.parsing ms) ∧ ∃ m ∈ ms, aboutFile env g b' c.documentNamespace n m := by
  rcases refused hi hb with ⟨d, h⟩ | ⟨ms, h, p, f, s, a, r, cc, d, x, rfl, hp, hf, hs, ha, hr, hcc, hd, he⟩
  · exact absurd (all2_mem h.files hn) hx
  · obtain ⟨m, hm, ha⟩ := reported_mem hf hn hx
    exact ⟨_, h, m, by simp [hm], ha⟩

private theorem unread_snippet (hn : n ∈ nodes g s%"Snippet") (hx : ¬ ∃ x, IsSnippet env g b' c.documentNamespace n x) :
    ∃ ms, readRdf env b g = .error (.parsing ms) ∧ ∃ m ∈ ms, aboutSnippet env g b' c.documentNamespace n m := by
  rcases refused hi hb with ⟨d, h⟩ | ⟨ms, h, p, f, s, a, r, cc, d, x, rfl, hp, hf, hs, ha, hr, hcc, hd, he⟩
  · exact absurd (all2_mem h.snippets hn) hx
  · obtain ⟨m, hm, ha⟩ := reported_mem hs hn hx
    exact ⟨_, h, m, by simp [hm], ha⟩

private theorem unread_annotation (hn : e ∈ related g .annotation) (hx : ¬ ∃ x, IsAnnotation g b' c.documentNamespace e x) :
    ∃ ms, readRdf env b g = .error (.parsing ms) ∧ ∃ m ∈ ms, aboutAnnotation g b' c.documentNamespace e m := by
  rcases refused hi hb with ⟨d, h⟩ | ⟨ms, h, p, f, s, a, r, cc, d, x, rfl, hp, hf, hs, ha, hr, hcc, hd, he⟩
  · exact absurd (all2_mem h.annotations hn) hx
  · obtain ⟨m, hm, ha⟩ := reported_mem ha hn hx
    exact ⟨_, h, m, by simp [hm], ha⟩

private theorem unread_relationship (hn : e ∈ related g .relationship) (hx : ¬ ∃ x, IsRelationship g b' c.documentNamespace e x) :
    ∃ ms, readRdf env b g = .error (.parsing ms) ∧ ∃ m ∈ ms, aboutRelationship g b' c.documentNamespace e m := by
  rcases refused hi hb with ⟨d, h⟩ | ⟨ms, h, p, f, s, a, r, cc, d, x, rfl, hp, hf, hs, ha, hr, hcc, hd, he⟩
  · obtain ⟨_, _, _, h, _⟩ := h.relationships
    exact absurd (all2_mem h hn) hx
  · obtain ⟨m, hm, ha⟩ := reported_mem hr hn hx
    exact ⟨_, h, m, by simp [hm], ha⟩

private theorem unread_extracted (hn : e ∈ related g .hasExtractedLicensingInfo) (hx : ¬ ∃ x, IsExtracted g c.documentNamespace e.2 x) :
    ∃ ms, readRdf env b g = .error (.parsing ms) ∧ ∃ m ∈ ms, aboutExtracted g c.documentNamespace e.2 m := by
  rcases refused hi hb with ⟨d, h⟩ | ⟨ms, h, p, f, s, a, r, cc, d, x, rfl, hp, hf, hs, ha, hr, hcc, hd, he⟩
  · exact absurd (all2_mem h.extractedLicensingInfo hn) hx
  · obtain ⟨m, hm, ha⟩ := reported_mem he hn hx
    exact ⟨_, h, m, by simp [hm], ha⟩

/-- Every fault of a package is named, if its checksums and references can be read. -/
theorem package_faults (hn : n ∈ nodes g s%"Package") (hg : GoodChecksums g n) (hr : ∀ v ∈ values g n .externalRef, ∃ r, IsPackageRef g c.documentNamespace v r)
    (hF : F ∈ packageFaults g n) (hm : F m) : Says env b g s%"Package" m := by
  obtain ⟨ms, h, x, hx, ha⟩ := unread_package hi hb hn fun ⟨x, hx⟩ => (package_fine hx).1 F hF m hm
  cases ha with
  | checksum h => exact absurd h (no_first (fun _ => checksum_fine) hg)
  | reference _ h => exact absurd h (no_first (fun _ => packageRef_fine) hr)
  | package _ _ h' =>
    obtain ⟨inner, rfl, hi⟩ := complaint_fault h' hF hm
    exact ⟨ms, inner, h, hx, hi⟩

/-- So are the fields it lacks, if its values have no faults. -/
theorem package_missing (hn : n ∈ nodes g s%"Package") (hg : GoodChecksums g n) (hr : ∀ v ∈ values g n .externalRef, ∃ r, IsPackageRef g c.documentNamespace v r)
    (hf : NoFaults (packageFaults g n)) (hm : (f, Q) ∈ packageMissing env g b' c.documentNamespace n) (q : Q) : SaysMissing env b g s%"Package" f := by
  obtain ⟨ms, h, x, hx, ha⟩ := unread_package hi hb hn fun ⟨x, hx⟩ => (package_fine hx).2 _ hm q
  cases ha with
  | checksum h => exact absurd h (no_first (fun _ => checksum_fine) hg)
  | reference _ h => exact absurd h (no_first (fun _ => packageRef_fine) hr)
  | package _ _ h' =>
    obtain ⟨inner, rfl, hi⟩ := complaint_missing h' hf hm q
    exact ⟨ms, inner, h, hx, hi⟩

/-- Every fault of a file is named, if its checksums can be read. -/
theorem file_faults (hn : n ∈ nodes g s%"File") (hg : GoodChecksums g n) (hF : F ∈ fileFaults g n) (hm : F m) : Says env b g s%"File" m := by
  obtain ⟨ms, h, x, hx, ha⟩ := unread_file hi hb hn fun ⟨x, hx⟩ => (file_fine hx).1 F hF m hm
  cases ha with
  | checksum h => exact absurd h (no_first (fun _ => checksum_fine) hg)
  | file _ h' =>
    obtain ⟨inner, rfl, hi⟩ := complaint_fault h' hF hm
    exact ⟨ms, inner, h, hx, hi⟩

theorem file_missing (hn : n ∈ nodes g s%"File") (hg : GoodChecksums g n) (hf : NoFaults (fileFaults g n))
    (hm : (f, Q) ∈ fileMissing env g b' c.documentNamespace n) (q : Q) : SaysMissing env b g s%"File" f := by
  obtain ⟨ms, h, x, hx, ha⟩ := unread_file hi hb hn fun ⟨x, hx⟩ => (file_fine hx).2 _ hm q
  cases ha with
  | checksum h => exact absurd h (no_first (fun _ => checksum_fine) hg)
  | file _ h' =>
    obtain ⟨inner, rfl, hi⟩ := complaint_missing h' hf hm q
    exact ⟨ms, inner, h, hx, hi⟩

/-- Every fault of a snippet, an annotation, a relationship and an extracted license is named. -/
theorem snippet_faults (hn : n ∈ nodes g s%"Snippet") (hF : F ∈ snippetFaults g n) (hm : F m) : Says env b g s%"Snippet" m := by
  obtain ⟨ms, h, x, hx, ha⟩ := unread_snippet hi hb hn fun ⟨x, hx⟩ => (snippet_fine hx).1 F hF m hm
  obtain ⟨inner, rfl, hi⟩ := complaint_fault ha hF hm
  exact ⟨ms, inner, h, hx, hi⟩

theorem snippet_missing (hn : n ∈ nodes g s%"Snippet") (hf : NoFaults (snippetFaults g n)) (hm : (f, Q) ∈ snippetMissing env g b' c.documentNamespace n) (q : Q) :
    SaysMissing env b g s%"Snippet" f := by
  obtain ⟨ms, h, x, hx, ha⟩ := unread_snippet hi hb hn fun ⟨x, hx⟩ => (snippet_fine hx).2 _ hm q
  obtain ⟨inner, rfl, hi⟩ := complaint_missing ha hf hm q
  exact ⟨ms, inner, h, hx, hi⟩

theorem annotation_faults (hn : e ∈ related g .annotation) (hF : F ∈ annotationFaults g e.2) (hm : F m) : Says env b g s%"Annotation" m := by
  obtain ⟨ms, h, x, hx, ha⟩ := unread_annotation hi hb hn fun ⟨x, hx⟩ => (annotation_fine hx).1 F hF m hm
  obtain ⟨inner, rfl, hi⟩ := complaint_fault ha hF hm
  exact ⟨ms, inner, h, hx, hi⟩

theorem annotation_missing (hn : e ∈ related g .annotation) (hf : NoFaults (annotationFaults g e.2))
    (hm : (f, Q) ∈ annotationMissing g b' c.documentNamespace e) (q : Q) : SaysMissing env b g s%"Annotation" f := by
  obtain ⟨ms, h, x, hx, ha⟩ := unread_annotation hi hb hn fun ⟨x, hx⟩ => (annotation_fine hx).2 _ hm q
  obtain ⟨inner, rfl, hi⟩ := complaint_missing ha hf hm q
  exact ⟨ms, inner, h, hx, hi⟩

theorem relationship_faults (hn : e ∈ related g .relationship) (hF : F ∈ relationshipFaults g e.2) (hm : F m) : Says env b g s%"Relationship" m := by
  obtain ⟨ms, h, x, hx, ha⟩ := unread_relationship hi hb hn fun ⟨x, hx⟩ => (relationship_fine hx).1 F hF m hm
  obtain ⟨inner, rfl, hi⟩ := complaint_fault ha hF hm
  exact ⟨ms, inner, h, hx, hi⟩

theorem relationship_missing (hn : e ∈ related g .relationship) (hf : NoFaults (relationshipFaults g e.2))
    (hm : (f, Q) ∈ relationshipMissing g b' c.documentNamespace e) (q : Q) : SaysMissing env b g s%"Relationship" f := by
  obtain ⟨ms, h, x, hx, ha⟩ := unread_relationship hi hb hn fun ⟨x, hx⟩ => (relationship_fine hx).2 _ hm q
  obtain ⟨inner, rfl, hi⟩ := complaint_missing ha hf hm q
  exact ⟨ms, inner, h, hx, hi⟩

theorem extracted_faults (hn : e ∈ related g .hasExtractedLicensingInfo) (hF : F ∈ extractedFaults g e.2) (hm : F m) :
    Says env b g s%"ExtractedLicensingInfo" m := by
  obtain ⟨ms, h, x, hx, ha⟩ := unread_extracted hi hb hn fun ⟨x, hx⟩ => (extracted_fine hx).1 F hF m hm
  obtain ⟨inner, rfl, hi⟩ := complaint_fault ha hF hm
  exact ⟨ms, inner, h, hx, hi⟩

theorem extracted_missing (hn : e ∈ related g .hasExtractedLicensingInfo) (hf : NoFaults (extractedFaults g e.2))
    (hm : (f, Q) ∈ extractedMissing g c.documentNamespace e.2) (q : Q) : SaysMissing env b g s%"ExtractedLicensingInfo" f := by
  obtain ⟨ms, h, x, hx, ha⟩ := unread_extracted hi hb hn fun ⟨x, hx⟩ => (extracted_fine hx).2 _ hm q
  obtain ⟨inner, rfl, hi⟩ := complaint_missing ha hf hm q
  exact ⟨ms, inner, h, hx, hi⟩

/-- A checksum that cannot be read hides everything else about its package: the message is about the first such checksum. -/
theorem checksum_hides (hn : n ∈ nodes g s%"Package") {v : RdfNode} (hv : v ∈ values g n .checksum) (hc : ¬ ∃ c, IsChecksum g v c) :
    ∃ ms, readRdf env b g = .error (.parsing ms) ∧ ∃ m ∈ ms,
      FirstBad (fun v => ∃ c, IsChecksum g v c) (fun v => aboutChecksum g v m) (values g n .checksum) := by
  obtain ⟨ms, h, x, hx, ha⟩ := unread_package hi hb hn fun ⟨x, hx⟩ => hc (all2_mem hx.checksums hv)
  cases ha with
  | checksum h' => exact ⟨ms, h, x, hx, h'⟩
  | reference hg _ => exact absurd (hg v hv) hc
  | package hg _ _ => exact absurd (hg v hv) hc

end

private theorem header_refused {env : RdfEnv} {b : Bindings} {g : RdfGraph} {doc i : RdfNode} (hb : ¬ Bad env b g) (hd : nodes g s%"SpdxDocument" = [doc])
    (hi : (nodes g s%"CreationInfo").head? = some i) (hn : ¬ Blank i) (hc : ∀ v ∈ values g i .creator, GoodCreator v)
    (hr : ∃ rs b', ExternalRefs g (env.defrag doc.text) b (values g doc .externalDocumentRef) rs b')
    (hx : ¬ (NoFaults (documentFaults g doc ++ infoFaults g i) ∧ ∀ x ∈ infoMissing g doc i, ¬ x.2)) :
    ∃ m, readRdf env b g = .error (.parsing [m]) ∧ Complaint s%"CreationInfo" (documentFaults g doc ++ infoFaults g i) (infoMissing g doc i) m := by
  have hno : ¬ ∃ c b' doc i, IsInfo env g b c b' doc i := fun ⟨_, _, _, _, h⟩ => hx (RdfSaying.fine_info (info_read h) hd hi hn)
  obtain ⟨ms, h⟩ := C69.otherwise_refused hb fun ⟨_, _, _, h⟩ => by obtain ⟨doc, i, h⟩ := h.creationInfo; exact hno ⟨_, _, doc, i, h⟩
  obtain ⟨doc', m, hd', rfl, ha⟩ := header_message hno h
  cases hd.symm.trans hd'
  refine ⟨m, h, ?_⟩
  cases ha with
  | noInfo h => exact absurd (h i hi) hn
  | creator h _ hf =>
    cases hi.symm.trans h
    refine absurd hf (no_first (fun v hv hg => ?_) hc)
    obtain ⟨s, e, hs, he, _⟩ := hv
    obtain ⟨t, a, ht, ha⟩ := hg
    cases ((RdfSays.toPyStr_iff v s).2 hs).symm.trans ((RdfSays.toPyStr_iff v t).2 ht)
    rw [he] at ha
    cases ha
  | reference h _ _ hf =>
    obtain ⟨rs, b', hr⟩ := hr
    exact absurd hf (RdfSaying.refs_read hr)
  | info h _ _ _ hf => cases hi.symm.trans h; exact hf

section
variable {env : RdfEnv} {b : Bindings} {g : RdfGraph} {doc i : RdfNode} {F : PMsg → Prop} {m : PMsg} {f : Str} {Q : Prop} (hb : ¬ Bad env b g)
  (hd : nodes g s%"SpdxDocument" = [doc]) (hi : (nodes g s%"CreationInfo").head? = some i) (hn : ¬ Blank i) (hc : ∀ v ∈ values g i .creator, GoodCreator v)
  (hr : ∃ rs b', ExternalRefs g (env.defrag doc.text) b (values g doc .externalDocumentRef) rs b')
include hb hd hi hn hc hr

/-- The faults of the header are all named, if its creators and references to other documents can be read. -/
theorem header_faults (hF : F ∈ documentFaults g doc ++ infoFaults g i) (hm : F m) : Says env b g s%"CreationInfo" m := by
  obtain ⟨x, h, hx⟩ := header_refused hb hd hi hn hc hr fun h => h.1 F hF m hm
  obtain ⟨inner, rfl, hi⟩ := complaint_fault hx hF hm
  exact ⟨_, inner, h, .head _, hi⟩

/-- So are the fields it lacks, if its values have no faults. -/
theorem header_missing (hf : NoFaults (documentFaults g doc ++ infoFaults g i)) (hm : (f, Q) ∈ infoMissing g doc i) (q : Q) :
    SaysMissing env b g s%"CreationInfo" f := by
  obtain ⟨x, h, hx⟩ := header_refused hb hd hi hn hc hr fun h => h.2 _ hm q
  obtain ⟨inner, rfl, hi⟩ := complaint_missing hx hf hm q
  exact ⟨_, inner, h, .head _, hi⟩

end

/-! ### The names in the messages -/

/-- The properties of the SPDX namespace, and their names in the vocabulary. -/
def spdxTerms : List (Pred × Str) := [
  (.specVersion, s%"specVersion"), (.dataLicense, s%"dataLicense"), (.name, s%"name"), (.created, s%"created"), (.creator, s%"creator"),
  (.licenseListVersion, s%"licenseListVersion"), (.creationInfo, s%"creationInfo"), (.spdxDocument, s%"spdxDocument"),
  (.externalDocumentRef, s%"externalDocumentRef"), (.algorithm, s%"algorithm"), (.checksumValue, s%"checksumValue"),
  (.checksum, s%"checksum"), (.annotationType, s%"annotationType"), (.annotator, s%"annotator"), (.annotationDate, s%"annotationDate"),
  (.annotation, s%"annotation"), (.fileName, s%"fileName"), (.fileType, s%"fileType"), (.licenseConcluded, s%"licenseConcluded"),
  (.licenseInfoInFile, s%"licenseInfoInFile"), (.licenseComments, s%"licenseComments"), (.copyrightText, s%"copyrightText"),
  (.noticeText, s%"noticeText"), (.fileContributor, s%"fileContributor"), (.attributionText, s%"attributionText"),
  (.versionInfo, s%"versionInfo"), (.packageFileName, s%"packageFileName"), (.supplier, s%"supplier"), (.originator, s%"originator"),
  (.downloadLocation, s%"downloadLocation"), (.filesAnalyzed, s%"filesAnalyzed"), (.sourceInfo, s%"sourceInfo"),
  (.licenseInfoFromFiles, s%"licenseInfoFromFiles"), (.licenseDeclared, s%"licenseDeclared"), (.summary, s%"summary"),
  (.description, s%"description"), (.primaryPackagePurpose, s%"primaryPackagePurpose"), (.releaseDate, s%"releaseDate"),
  (.builtDate, s%"builtDate"), (.validUntilDate, s%"validUntilDate"), (.packageVerificationCodeValue, s%"packageVerificationCodeValue"),
  (.packageVerificationCodeExcludedFile, s%"packageVerificationCodeExcludedFile"), (.packageVerificationCode, s%"packageVerificationCode"),
  (.referenceCategory, s%"referenceCategory"), (.referenceType, s%"referenceType"), (.referenceLocator, s%"referenceLocator"),
  (.externalRef, s%"externalRef"), (.relationshipType, s%"relationshipType"), (.relatedSpdxElement, s%"relatedSpdxElement"),
  (.relationship, s%"relationship"), (.snippetFromFile, s%"snippetFromFile"), (.licenseInfoInSnippet, s%"licenseInfoInSnippet"),
  (.range, s%"range"), (.licenseId, s%"licenseId"), (.extractedText, s%"extractedText"),
  (.hasExtractedLicensingInfo, s%"hasExtractedLicensingInfo"), (.member, s%"member"), (.licenseException, s%"licenseException"),
  (.licenseExceptionId, s%"licenseExceptionId"), (.hasFile, s%"hasFile"), (.describesPackage, s%"describesPackage")]

/-- The other properties, with their URIs. -/
def otherTerms : List (Pred × Str) := [
  (.type, s%"http://www.w3.org/1999/02/22-rdf-syntax-ns#type"), (.rdfsComment, s%"http://www.w3.org/2000/01/rdf-schema#comment"),
  (.seeAlso, s%"http://www.w3.org/2000/01/rdf-schema#seeAlso"), (.homepage, s%"http://usefulinc.com/ns/doap#homepage"),
  (.startPointer, s%"http://www.w3.org/2009/pointers#startPointer"), (.endPointer, s%"http://www.w3.org/2009/pointers#endPointer"),
  (.reference, s%"http://www.w3.org/2009/pointers#reference"), (.offset, s%"http://www.w3.org/2009/pointers#offset"),
  (.lineNumber, s%"http://www.w3.org/2009/pointers#lineNumber")]

set_option maxRecDepth 20000 in
/-- A message names a property by its URI: that of the vocabulary it belongs to. There are no others. -/
theorem property_names : (∀ t ∈ spdxTerms, t.1.uri = s%"http://spdx.org/rdf/terms#" ++ t.2) ∧ (∀ t ∈ otherTerms, t.1.uri = t.2) ∧
    ∀ p : Pred, p ∈ (spdxTerms ++ otherTerms).map (·.1) :=
  ⟨by decide +kernel, by decide +kernel, fun p => by cases p <;> decide +kernel⟩

set_option maxRecDepth 20000 in
/-- So the message says which property it was. -/
theorem property_named (p q : Pred) (h : p.uri = q.uri) : p = q := by
  have key : ∀ p ∈ (spdxTerms ++ otherTerms).map (·.1), ∀ q ∈ (spdxTerms ++ otherTerms).map (·.1), p.uri = q.uri → p = q := by decide +kernel
  exact key p (property_names.2.2 p) q (property_names.2.2 q) h

/-! ### The hypotheses are met

The graph written for the example document, with some properties changed. -/

/-- the messages raised -/
def messagesOf (g : RdfGraph) : List PMsg :=
  match readRdf C49.exampleEnv [] g with
  | .error (.parsing ms) => ms
  | _ => []

/-- a graph with other objects for a property -/
def changed (g : RdfGraph) (p : Pred) (v : RdfNode) : RdfGraph := g.map fun t => if t.2.1 = p then (t.1, p, v) else t

/-- two faults of the packages -/
def twoFaults : RdfGraph := changed (changed C55.written .supplier (.str s%"Nobody")) .primaryPackagePurpose (.str s%"fun")
/-- another fault of their checksums -/
def badChecksum : RdfGraph := twoFaults.map fun t =>
  if t.2.1 = .algorithm ∧ ∃ n ∈ nodes twoFaults s%"Package", t.1 ∈ values twoFaults n .checksum
  then (t.1, .algorithm, .uri s%"http://spdx.org/rdf/terms#checksumAlgorithm_crc") else t

private theorem not_bad {g : RdfGraph} (h : messagesOf g ≠ []) : ¬ Bad C49.exampleEnv [] g := fun hb => by
  obtain ⟨e, he, hn⟩ := (C69.crashes_exactly ..).2 hb
  unfold messagesOf at h
  rw [he] at h
  cases e with
  | parsing ms => exact hn ms rfl
  | type _ => exact h rfl
  | value _ => exact h rfl
  | other _ => exact h rfl

private theorem some_info {g : RdfGraph} (h : (parseRdfCreationInfo C49.exampleEnv [] g).isSome = true) : ∃ c b' doc i, IsInfo C49.exampleEnv g [] c b' doc i := by
  cases e : parseRdfCreationInfo C49.exampleEnv [] g with
  | none => rw [e] at h; cases h
  | some x => obtain ⟨doc, i, h⟩ := (RdfSays.info_iff _ _ x.2 _ x.1).1 e; exact ⟨x.1, x.2, doc, i, h⟩

example : ¬ Bad C49.exampleEnv [] twoFaults := not_bad (by decide +kernel)
example : ∃ c b' doc i, IsInfo C49.exampleEnv twoFaults [] c b' doc i := some_info (by decide +kernel)
example : ¬ Bad C49.exampleEnv [] badChecksum := not_bad (by decide +kernel)
example : ∃ c b' doc i, IsInfo C49.exampleEnv badChecksum [] c b' doc i := some_info (by decide +kernel)

/-- both are named -/
example : messagesOf twoFaults = [.wrapped s%"Package" [.text s%"Actor Nobody doesn't match any of person, organization or tool.",
    .text s%"Invalid value for <enum 'PackagePurpose'>: fun"]] := by decide +kernel
/-- the checksum hides them -/
example : messagesOf badChecksum = [.wrapped s%"Checksum" [.text s%"Invalid value for ChecksumAlgorithm: CRC"]] := by decide +kernel
/-- `package_faults` applied: the checksums of the packages can be read, and they have no references that cannot -/
example : ∃ n ∈ nodes twoFaults s%"Package", (∀ v ∈ values twoFaults n .checksum, (parseRdfChecksum twoFaults v).isSome = true) ∧
    values twoFaults n .checksum ≠ [] ∧ (∀ v ∈ values twoFaults n .externalRef, (parseRdfPackageRef twoFaults Example.info.documentNamespace v).isSome = true) ∧
    values twoFaults n .supplier = [.str s%"Nobody"] := by decide +kernel
/-- one message for each of several elements -/
example : messagesOf (C55.written.map fun t => if t.2.1 = .annotator ∨ t.2.1 = .range then (t.1, t.2.1, .uri s%"http://x") else t) =
    [.wrapped s%"Snippet" [.text s%"Couldn't find pointer of type startPointer.", .text s%"Couldn't find pointer of type startPointer."],
     .wrapped s%"Annotation" [.text s%"Actor http://x doesn't match any of person, organization or tool."]] := by decide +kernel
/-- the header: faults together, missing fields together, and a missing node -/
example : messagesOf (changed (C55.written.filter fun t => t.2.1 ≠ .creator) .created (.str s%"now")) =
    [.wrapped s%"CreationInfo" [.text s%"time data does not match format", .text s%"No creators provided."]] := by decide +kernel
example : messagesOf (C55.written.filter fun t => t.2.1 ≠ .created ∧ t.2.1 ≠ .dataLicense) =
    [.constructing s%"CreationInfo" [s%"created", s%"data_license"]] := by decide +kernel
example : messagesOf (C55.written.filter fun t => t.2.2 ≠ spdxTerm s%"CreationInfo") =
    [.wrapped (s%"document " ++ Example.info.name) [.text s%"CreationInfo does not exist."]] := by decide +kernel
/-- that a reference to another document has two addresses is not said, only that it has none -/
example : messagesOf (C55.written.flatMap fun t => if t.2.1 = .spdxDocument then [t, (t.1, t.2.1, .uri s%"http://x")] else [t]) =
    [.constructing s%"ExternalDocumentRef" [s%"document_uri"]] := by decide +kernel

end Spdx.C70
