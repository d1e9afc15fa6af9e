import Verif.Props.C86
/-
C92: A tag-value document that lost its last sections is read without complaint, as the document without what they said.
-/
namespace Spdx.C92
open Spec (Says SaysInfo sections preamble ids told toldFrom infoComplaintsFrom infoMissing opens ofDocument withContained closing)
open TvOrder TvMoved

/-- `d` is what is left of `e`: elements at the end of its lists may be missing. -/
structure Beginning (d e : Document) : Prop where
  info : d.creationInfo = e.creationInfo
  packages : d.packages <+: e.packages
  files : d.files <+: e.files
  snippets : d.snippets <+: e.snippets
  annotations : d.annotations <+: e.annotations
  relationships : d.relationships <+: e.relationships
  extracted : d.extractedLicensingInfo <+: e.extractedLicensingInfo

/-- The number of entries in the lists of a document. -/
def entries (d : Document) : Nat :=
  d.packages.length + d.files.length + d.snippets.length + d.annotations.length + d.relationships.length + d.extractedLicensingInfo.length

/-! ### Helpers -/

private theorem preamble_cut {a : TvAttr} (ha : (opens a).isSome) (as : List TvAttr) : ∀ xs : List TvAttr, preamble (xs ++ a :: as) = preamble xs := by
  intro xs
  unfold preamble
  induction xs with
  | nil => cases h : opens a with
    | none => rw [h] at ha; cases ha
    | some c => simp [h]
  | cons x xs ih =>
    rw [List.cons_append, List.takeWhile_cons, List.takeWhile_cons, ih]

private theorem sections_cut {a : TvAttr} (ha : (opens a).isSome) (as : List TvAttr) : ∀ xs : List TvAttr,
    sections (xs ++ a :: as) = sections xs ++ sections (a :: as) := by
  intro xs
  induction xs with
  | nil => rfl
  | cons x xs ih =>
    rw [List.cons_append, sections, sections, ih, preamble_cut ha]
    split <;> rfl

private theorem told_cut (L : LicText) {a : TvAttr} (ha : (opens a).isSome) (as : List TvAttr) : ∀ (xs pre : List TvAttr),
    toldFrom L pre (xs ++ a :: as) = [] → toldFrom L pre xs = [] := by
  intro xs
  induction xs with
  | nil =>
    intro pre h
    rw [List.nil_append, toldFrom, if_pos ha] at h
    exact (List.append_eq_nil_iff.1 (List.append_eq_nil_iff.1 h).1).1
  | cons x xs ih =>
    intro pre h
    rw [List.cons_append, toldFrom] at h
    rw [toldFrom, (List.append_eq_nil_iff.1 h).1, ih _ (List.append_eq_nil_iff.1 h).2]
    rfl

private theorem refl (d : Document) : Beginning d d :=
  ⟨rfl, List.prefix_refl _, List.prefix_refl _, List.prefix_refl _, List.prefix_refl _, List.prefix_refl _, List.prefix_refl _⟩

private theorem trans {d e f : Document} (h : Beginning d e) (h' : Beginning e f) : Beginning d f :=
  ⟨h.info.trans h'.info, h.packages.trans h'.packages, h.files.trans h'.files, h.snippets.trans h'.snippets, h.annotations.trans h'.annotations,
    h.relationships.trans h'.relationships, h.extracted.trans h'.extracted⟩

private theorem contained (d : Document) (f : File) : d.relationships <+: withContained d f := by
  unfold withContained
  split
  · exact List.prefix_refl _
  · split
    · exact List.prefix_refl _
    · exact List.prefix_append ..

/-- The last section. -/
private theorem says_last {L : LicText} {c : CreationInfo} {bs : List (List TvAttr)} {b : List TvAttr} {e : Document} (h : Says L c (bs ++ [b]) e) :
    ∃ d, Says L c bs d ∧ Beginning d e ∧ entries d < entries e := by
  generalize hg : bs ++ [b] = cs at h
  have inj : ∀ {bs' : List (List TvAttr)} {b' : List TvAttr}, bs ++ [b] = bs' ++ [b'] → bs = bs' := fun h => (List.append_inj' h rfl).1
  cases h with
  | nil => exact absurd hg (by simp)
  | package h _ _ =>
    obtain rfl := inj hg
    exact ⟨_, h, ⟨rfl, List.prefix_append .., List.prefix_refl _, List.prefix_refl _, List.prefix_refl _, List.prefix_refl _, List.prefix_refl _⟩,
      by simp only [entries, List.length_append, List.length_cons, List.length_nil]; omega⟩
  | @file _ _ d f h _ _ =>
    obtain rfl := inj hg
    refine ⟨_, h, ⟨rfl, List.prefix_refl _, List.prefix_append .., List.prefix_refl _, List.prefix_refl _, contained d f, List.prefix_refl _⟩, ?_⟩
    have := (contained d f).length_le
    simp only [entries, List.length_append, List.length_cons, List.length_nil]; omega
  | snippet h _ _ =>
    obtain rfl := inj hg
    exact ⟨_, h, ⟨rfl, List.prefix_refl _, List.prefix_refl _, List.prefix_append .., List.prefix_refl _, List.prefix_refl _, List.prefix_refl _⟩,
      by simp only [entries, List.length_append, List.length_cons, List.length_nil]; omega⟩
  | annotation h _ _ =>
    obtain rfl := inj hg
    exact ⟨_, h, ⟨rfl, List.prefix_refl _, List.prefix_refl _, List.prefix_refl _, List.prefix_append .., List.prefix_refl _, List.prefix_refl _⟩,
      by simp only [entries, List.length_append, List.length_cons, List.length_nil]; omega⟩
  | relationship h _ _ =>
    obtain rfl := inj hg
    exact ⟨_, h, ⟨rfl, List.prefix_refl _, List.prefix_refl _, List.prefix_refl _, List.prefix_refl _, List.prefix_append .., List.prefix_refl _⟩,
      by simp only [entries, List.length_append, List.length_cons, List.length_nil]; omega⟩
  | extracted h _ _ =>
    obtain rfl := inj hg
    exact ⟨_, h, ⟨rfl, List.prefix_refl _, List.prefix_refl _, List.prefix_refl _, List.prefix_refl _, List.prefix_refl _, List.prefix_append ..⟩,
      by simp only [entries, List.length_append, List.length_cons, List.length_nil]; omega⟩

private theorem says_cut {L : LicText} {c : CreationInfo} {bs : List (List TvAttr)} : ∀ (n : Nat) (cs : List (List TvAttr)) (e : Document), cs.length = n →
    Says L c (bs ++ cs) e → ∃ d, Says L c bs d ∧ Beginning d e ∧ entries d + n ≤ entries e := by
  intro n
  induction n with
  | zero =>
    intro cs e hn h
    obtain rfl := List.length_eq_zero_iff.1 hn
    rw [List.append_nil] at h
    exact ⟨e, h, refl e, Nat.le_refl _⟩
  | succ n ih =>
    intro cs e hn h
    have hne : cs ≠ [] := by intro e; rw [e] at hn; cases hn
    rw [← List.dropLast_concat_getLast hne, ← List.append_assoc] at h
    obtain ⟨d, hd, b, hl⟩ := says_last h
    obtain ⟨d', hd', b', hl'⟩ := ih cs.dropLast d (by rw [List.length_dropLast]; omega) hd
    exact ⟨d', hd', trans b' b, by omega⟩

/-! ### The theorems -/

/-- A text that is read as a document is also read without its last sections, if the creation information is in what is left. What is read is
    the beginning of the document, and there is at least one entry less for each section lost. -/
theorem cut_between_sections (L : LicText) (text left : Str) (d : Document) (a : TvAttr) (lost : List TvAttr) (h : parseTagValue L text = .ok d)
    (hid : (ids (preamble (attrs (lex text)))).length = 1) (hcut : attrs (lex text) = attrs (lex left) ++ a :: lost) (ha : (opens a).isSome)
    (hdoc : ∀ x ∈ a :: lost, ofDocument x = false) :
    ∃ d', parseTagValue L left = .ok d' ∧ Beginning d' d ∧ entries d' + (sections (a :: lost)).length ≤ entries d := by
  have h1 := C78.accepted_tells_nothing L text d h
  obtain ⟨hi, hs⟩ := C52.read_says_partial L text d h hid
  rw [hcut] at h1 hid hi hs
  rw [preamble_cut ha] at hid
  have hne : ids (attrs (lex left)) ≠ [] := by
    intro e
    have : ids (attrs (lex left)) = ids (preamble (attrs (lex left))) ++ ids (sections (attrs (lex left))).flatten := by
      conv => lhs; rw [sections_preamble (attrs (lex left))]
      exact List.filterMap_append
    rw [e] at this
    rw [(List.append_eq_nil_iff.1 this.symm).1] at hid
    cases hid
  obtain ⟨t1, t2, t3⟩ := (told_nil L _).1 h1.2
  have hm : infoMissing (attrs (lex left)) = [] := by
    rw [← t3]
    unfold infoMissing
    simp only [info_given hne hdoc]
  obtain ⟨d', h'⟩ := (C78.accepted_iff L left fun x hx => h1.1 x (List.mem_append_left _ hx)).2
    ((told_nil L _).2 ⟨told_cut L ha lost _ _ t1, by rw [infoFrom_append] at t2; exact (List.append_eq_nil_iff.1 t2).1, hm⟩)
  refine ⟨d', h', ?_⟩
  obtain ⟨hi', hs'⟩ := C52.read_says_partial L left d' h' hid
  have hi2 : SaysInfo (attrs (lex left) ++ []) d.creationInfo := info_preamble hdoc (by simp) hne hi
  rw [List.append_nil] at hi2
  have ec : d.creationInfo = d'.creationInfo := info_unique hi2 hi'
  rw [sections_cut ha] at hs
  obtain ⟨d0, hs0, b, hl⟩ := says_cut _ _ d rfl hs
  obtain rfl : d0 = d' := C52.says_unique L d'.creationInfo _ d0 d' (ec ▸ hs0) hs'
  exact ⟨b, hl⟩

/-- Without that condition: what is left is accepted if and only if it has a version, an identifier, a name, a namespace, a creator and a date. -/
theorem cut_accepted_iff (L : LicText) (text left : Str) (d : Document) (a : TvAttr) (lost : List TvAttr) (h : parseTagValue L text = .ok d)
    (hcut : attrs (lex text) = attrs (lex left) ++ a :: lost) (ha : (opens a).isSome) :
    (∃ d', parseTagValue L left = .ok d') ↔
      ∀ f ∈ [s%"spdx_version", s%"spdx_id", s%"name", s%"document_namespace", s%"creators", s%"created"],
        ∃ x ∈ attrs (lex left), f ∈ Spec.givesInfo x := by
  have h1 := C78.accepted_tells_nothing L text d h
  rw [hcut] at h1
  obtain ⟨t1, t2, _⟩ := (told_nil L _).1 h1.2
  rw [TvMoved.infoFrom_append] at t2
  rw [C78.accepted_iff L left fun x hx => h1.1 x (List.mem_append_left _ hx), told_nil]
  have e : infoMissing (attrs (lex left)) = [] ↔ ∀ f ∈ [s%"spdx_version", s%"spdx_id", s%"name", s%"document_namespace", s%"creators", s%"created"],
      ∃ x ∈ attrs (lex left), f ∈ Spec.givesInfo x := by
    unfold infoMissing
    rw [List.filter_eq_nil_iff]
    refine forall_congr' fun f => forall_congr' fun _ => ?_
    simp only [decide_eq_true_eq, Decidable.not_not, List.mem_flatMap]
  rw [e]
  exact ⟨fun h => h.2.2, fun h => ⟨told_cut L ha lost _ _ t1, (List.append_eq_nil_iff.1 t2).1, h⟩⟩

/-! ## Concrete cases -/

private def head : Str :=
  s%"SPDXVersion: SPDX-2.3\nDataLicense: CC0-1.0\nSPDXID: SPDXRef-DOCUMENT\nDocumentName: n\nDocumentNamespace: https://some.uri\nCreator: Person: p\nCreated: 2020-01-01T00:00:00Z\nPackageName: p\nSPDXID: SPDXRef-p\nPackageDownloadLocation: NONE\n"
private def tail : Str := s%"PackageName: q\nSPDXID: SPDXRef-q\nPackageDownloadLocation: NONE\nRelationship: SPDXRef-DOCUMENT DESCRIBES SPDXRef-q\n"
private def headAttrs : List TvAttr :=
  [.value s%"SPDXVersion" (.line s%"SPDX-2.3"), .value s%"DataLicense" (.line s%"CC0-1.0"), .spdxId s%"SPDXRef-DOCUMENT",
   .value s%"DocumentName" (.line s%"n"), .value s%"DocumentNamespace" (.line s%"https://some.uri"), .value s%"Creator" (.person s%"Person: p"),
   .value s%"Created" (.date s%"2020-01-01T00:00:00Z"),
   .value s%"PackageName" (.line s%"p"), .spdxId s%"SPDXRef-p", .value s%"PackageDownloadLocation" .none]
private def tailAttrs : List TvAttr :=
  [.spdxId s%"SPDXRef-q", .value s%"PackageDownloadLocation" .none, .commented s%"Relationship" s%"SPDXRef-DOCUMENT DESCRIBES SPDXRef-q" none]

private theorem head_attrs : attrs (lex head) = headAttrs := by decide +kernel
private theorem all_attrs : attrs (lex (head ++ tail)) = headAttrs ++ .value s%"PackageName" (.line s%"q") :: tailAttrs := by decide +kernel

private theorem all_read (L : LicText) : ∃ d, parseTagValue L (head ++ tail) = .ok d ∧ d.packages.map (·.name) = [s%"p", s%"q"] := by
  unfold parseTagValue
  rw [all_attrs]
  exact ⟨_, rfl, rfl⟩

/-- A file cut between two packages is read with one of them and without the relationship. -/
example (L : LicText) : ∃ d d', parseTagValue L (head ++ tail) = .ok d ∧ d.packages.map (·.name) = [s%"p", s%"q"] ∧ parseTagValue L head = .ok d' ∧
    Beginning d' d ∧ entries d' + 2 ≤ entries d := by
  obtain ⟨d, h, hp⟩ := all_read L
  obtain ⟨d', h', b, hl⟩ := cut_between_sections L _ head d _ tailAttrs h (by rw [all_attrs]; decide +kernel)
    (by rw [all_attrs, head_attrs]) (by decide +kernel) (by decide +kernel)
  exact ⟨d, d', h, hp, h', b, hl⟩

end Spdx.C92
