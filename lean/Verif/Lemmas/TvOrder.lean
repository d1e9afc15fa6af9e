import Verif.Spec.TvOrder
import Verif.Spec.TvTold
import Verif.Spec.Same
/-
Lemmas for C84: the order of attributes within sections.
-/
namespace Spdx.TvOrder
open Spec

variable {a b : TvAttr}

/-- The attributes can be brought into the other order by exchanging neighbours of which neither begins an element and which are about different
    things. -/
inductive Relined : List TvAttr → List TvAttr → Prop
  | refl (as : List TvAttr) : Relined as as
  | swap (l r : List TvAttr) (a b : TvAttr) : opens a = none → opens b = none → fieldKind a ≠ fieldKind b → Relined (l ++ a :: b :: r) (l ++ b :: a :: r)
  | trans {as bs cs : List TvAttr} : Relined as bs → Relined bs cs → Relined as cs

/-- Two attributes that may be exchanged. -/
structure Free (a b : TvAttr) : Prop where
  first : opens a = none
  second : opens b = none
  kinds : fieldKind a ≠ fieldKind b

theorem Free.symm (h : Free a b) : Free b a := ⟨h.second, h.first, fun e => h.kinds e.symm⟩

theorem swap_none {β : Type} (f : TvAttr → Option β) (h : f a = none ∨ f b = none) (l r : List TvAttr) :
    (l ++ a :: b :: r).filterMap f = (l ++ b :: a :: r).filterMap f := by
  rw [List.filterMap_append, List.filterMap_append]
  congr 1
  rcases h with h | h
  · rw [List.filterMap_cons_none h, List.filterMap_cons, List.filterMap_cons, List.filterMap_cons_none h]
  · rw [List.filterMap_cons, List.filterMap_cons_none h, List.filterMap_cons_none h, List.filterMap_cons]

theorem given_swap (h : Free a b) (l r : List TvAttr) (tag : Str) : given (l ++ a :: b :: r) tag = given (l ++ b :: a :: r) tag := by
  refine swap_none _ ?_ l r
  cases a with
  | value t v =>
    cases b with
    | value t' v' =>
      by_cases h1 : t = tag
      · refine .inr (if_neg fun h2 => h.kinds ?_)
        subst h1 h2
        rfl
      · exact .inl (if_neg h1)
    | _ => exact .inr rfl
  | _ => exact .inl rfl

theorem ids_swap (h : Free a b) (l r : List TvAttr) : ids (l ++ a :: b :: r) = ids (l ++ b :: a :: r) := by
  refine swap_none _ ?_ l r
  cases a with
  | spdxId v =>
    cases b with
    | spdxId w => exact absurd rfl h.kinds
    | _ => exact .inr rfl
  | _ => exact .inl rfl

theorem idsWith_swap (h : Free a b) {tag : Str} (ht : tag = s%"SPDXREF" ∨ tag = s%"SnippetSPDXID") (l r : List TvAttr) :
    idsWith tag (l ++ a :: b :: r) = idsWith tag (l ++ b :: a :: r) := by
  refine swap_none _ ?_ l r
  have no : ∀ v, opens (.value s%"SnippetSPDXID" v) ≠ none := by intro v; exact (by decide : begins.lookup s%"SnippetSPDXID" ≠ none)
  cases a with
  | spdxId v =>
    cases b with
    | spdxId w => exact absurd rfl h.kinds
    | value t w =>
      refine .inr (if_neg fun e => ?_)
      subst e
      rcases ht with rfl | rfl
      · exact h.kinds rfl
      · exact no w h.second
    | _ => exact .inr rfl
  | value t v =>
    by_cases e : t = tag
    · subst e
      rcases ht with rfl | rfl
      · cases b with
        | spdxId w => exact absurd rfl h.kinds
        | value t w => exact .inr (if_neg fun e => h.kinds (by rw [e]; rfl))
        | _ => exact .inr rfl
      · exact absurd h.first (no v)
    · exact .inl (if_neg e)
  | _ => exact .inl rfl

theorem refs_swap (h : Free a b) (l r : List TvAttr) : externalRefs (l ++ a :: b :: r) = externalRefs (l ++ b :: a :: r) := by
  refine swap_none _ ?_ l r
  cases a with
  | commented t v c =>
    cases b with
    | commented t' v' c' =>
      by_cases h1 : t = s%"ExternalRef"
      · exact .inr (if_neg fun h2 => h.kinds (by show t = t'; rw [h1, h2]))
      · exact .inl (if_neg h1)
    | _ => exact .inr rfl
  | _ => exact .inl rfl

theorem current_append (l r : List TvAttr) : current (l ++ r) = (current r).or (current l) := by
  induction l with
  | nil => simp [current]
  | cons x l ih => rw [List.cons_append, current, current, ih, Option.or_assoc]

theorem current_swap (h : Free a b) (l r : List TvAttr) : current (l ++ a :: b :: r) = current (l ++ b :: a :: r) := by
  rw [current_append, current_append]
  simp [current, h.first, h.second]

theorem current_free (h : opens a = none) (l : List TvAttr) : current (l ++ [a]) = current l := by
  rw [current_append]
  simp [current, h]

/-! ### What sections say -/

/-- Two sections that say the same. -/
structure Said (b b' : List TvAttr) : Prop where
  head : b.head? = b'.head?
  given : ∀ tag, given b tag = given b' tag
  ids : ids b = ids b'
  ref : idsWith s%"SPDXREF" b = idsWith s%"SPDXREF" b'
  snippet : idsWith s%"SnippetSPDXID" b = idsWith s%"SnippetSPDXID" b'
  refs : externalRefs b = externalRefs b'

theorem Said.rfl {b : List TvAttr} : Said b b := ⟨_root_.rfl, fun _ => _root_.rfl, _root_.rfl, _root_.rfl, _root_.rfl, _root_.rfl⟩

theorem said_swap (h : Free a b) (x : TvAttr) (l r : List TvAttr) : Said (x :: (l ++ a :: b :: r)) (x :: (l ++ b :: a :: r)) := by
  have e : ∀ c d : TvAttr, x :: (l ++ c :: d :: r) = (x :: l) ++ c :: d :: r := fun _ _ => rfl
  rw [e, e]
  exact ⟨_root_.rfl, fun _ => given_swap h _ _ _, ids_swap h _ _, idsWith_swap h (.inl _root_.rfl) _ _, idsWith_swap h (.inr _root_.rfl) _ _, refs_swap h _ _⟩

theorem preamble_swap (h : Free a b) (l r : List TvAttr) : preamble (l ++ a :: b :: r) = preamble (l ++ b :: a :: r) ∨
    ∃ r', preamble (l ++ a :: b :: r) = l ++ a :: b :: r' ∧ preamble (l ++ b :: a :: r) = l ++ b :: a :: r' := by
  unfold preamble
  induction l with
  | nil =>
    right
    refine ⟨preamble r, ?_, ?_⟩ <;> simp [List.takeWhile_cons, h.first, h.second, preamble]
  | cons x l ih =>
    rw [List.cons_append, List.cons_append, List.takeWhile_cons, List.takeWhile_cons]
    split
    · rcases ih with e | ⟨r', e1, e2⟩
      · left; rw [e]
      · right; exact ⟨r', by rw [e1]; rfl, by rw [e2]; rfl⟩
    · exact .inl rfl

theorem sections_swap (h : Free a b) (l r : List TvAttr) : Spec.All2 Said (sections (l ++ a :: b :: r)) (sections (l ++ b :: a :: r)) := by
  have same : ∀ bs : List (List TvAttr), Spec.All2 Said bs bs := by
    intro bs
    induction bs with
    | nil => exact .nil
    | cons x bs ih => exact .cons .rfl ih
  induction l with
  | nil => simp [sections, h.first, h.second, same]
  | cons x l ih =>
    rw [List.cons_append, List.cons_append, sections, sections]
    split
    · refine .cons ?_ ih
      rcases preamble_swap h l r with e | ⟨r', e1, e2⟩
      · rw [e]; exact .rfl
      · rw [e1, e2]; exact said_swap h x l r'
    · exact ih

variable {b' : List TvAttr}

theorem one_same {b b' : List TvAttr} (h : Said b b') {tag : Str} {f : Tok → Option α} {x : Option α} (hx : One b tag f x) : One b' tag f x := by
  unfold Spec.One at hx ⊢
  rwa [← h.given]

theorem many_same {b b' : List TvAttr} (h : Said b b') {tag : Str} {f : Tok → Option α} {x : List α} (hx : Many b tag f x) : Many b' tag f x := by
  unfold Many at hx ⊢
  rwa [← h.given]

theorem package_same {L : LicText} {b b' : List TvAttr} (h : Said b b') {p : Package} (hx : SaysPackage L b p) : SaysPackage L b' p where
  spdxId := by rw [← h.ids]; exact hx.spdxId
  name := one_same h hx.name
  downloadLocation := one_same h hx.downloadLocation
  version := one_same h hx.version
  fileName := one_same h hx.fileName
  supplier := one_same h hx.supplier
  originator := one_same h hx.originator
  filesAnalyzed := hx.filesAnalyzed.imp (one_same h) (by rw [h.given]; exact id)
  verificationCode := one_same h hx.verificationCode
  checksums := many_same h hx.checksums
  homepage := one_same h hx.homepage
  sourceInfo := one_same h hx.sourceInfo
  licenseConcluded := one_same h hx.licenseConcluded
  licenseInfoFromFiles := many_same h hx.licenseInfoFromFiles
  licenseDeclared := one_same h hx.licenseDeclared
  licenseComment := one_same h hx.licenseComment
  copyrightText := one_same h hx.copyrightText
  summary := one_same h hx.summary
  description := one_same h hx.description
  comment := one_same h hx.comment
  externalReferences := by rw [← h.refs]; exact hx.externalReferences
  attributionTexts := many_same h hx.attributionTexts
  primaryPackagePurpose := one_same h hx.primaryPackagePurpose
  releaseDate := one_same h hx.releaseDate
  builtDate := one_same h hx.builtDate
  validUntilDate := one_same h hx.validUntilDate

theorem file_same {L : LicText} {b b' : List TvAttr} (h : Said b b') {p : File} (hx : SaysFile L b p) : SaysFile L b' p where
  name := one_same h hx.name
  spdxId := by rw [← h.ids]; exact hx.spdxId
  checksums := many_same h hx.checksums
  fileTypes := many_same h hx.fileTypes
  licenseConcluded := one_same h hx.licenseConcluded
  licenseInfoInFile := many_same h hx.licenseInfoInFile
  licenseComment := one_same h hx.licenseComment
  copyrightText := one_same h hx.copyrightText
  comment := one_same h hx.comment
  notice := one_same h hx.notice
  contributors := many_same h hx.contributors
  attributionTexts := many_same h hx.attributionTexts

theorem snippet_same {L : LicText} {b b' : List TvAttr} (h : Said b b') {p : Snippet} (hx : SaysSnippet L b p) : SaysSnippet L b' p where
  spdxId := by rw [← h.snippet]; exact hx.spdxId
  fileSpdxId := one_same h hx.fileSpdxId
  byteRange := one_same h hx.byteRange
  lineRange := one_same h hx.lineRange
  licenseConcluded := one_same h hx.licenseConcluded
  licenseInfoInSnippet := many_same h hx.licenseInfoInSnippet
  licenseComment := one_same h hx.licenseComment
  copyrightText := one_same h hx.copyrightText
  comment := one_same h hx.comment
  name := one_same h hx.name
  attributionTexts := many_same h hx.attributionTexts

theorem annotation_same {b b' : List TvAttr} (h : Said b b') {p : Annotation} (hx : SaysAnnotation b p) : SaysAnnotation b' p where
  spdxId := by rw [← h.ref]; exact hx.spdxId
  annotationType := one_same h hx.annotationType
  annotator := one_same h hx.annotator
  annotationDate := one_same h hx.annotationDate
  annotationComment := one_same h hx.annotationComment

theorem relationship_same {b b' : List TvAttr} (h : Said b b') {p : Relationship} (hx : SaysRelationship b p) : SaysRelationship b' p where
  line := by rw [← h.head]; exact hx.line

theorem extracted_same {b b' : List TvAttr} (h : Said b b') {p : ExtractedLicensingInfo} (hx : SaysExtracted b p) : SaysExtracted b' p where
  licenseId := one_same h hx.licenseId
  extractedText := one_same h hx.extractedText
  licenseName := one_same h hx.licenseName
  crossReferences := many_same h hx.crossReferences
  comment := one_same h hx.comment

theorem about_same {b b' : List TvAttr} (h : Said b b') {c : Option TvClass} (hx : about b = c) : about b' = c := by
  have e : ∀ l : List TvAttr, about l = l.head?.bind opens := by intro l; cases l <;> rfl
  rw [e] at hx ⊢
  rwa [← h.head]

theorem all_snoc {α β : Type} {R : α → β → Prop} {l : List α} {x : α} : ∀ {m : List β}, Spec.All2 R (l ++ [x]) m →
    ∃ m' y, m = m' ++ [y] ∧ Spec.All2 R l m' ∧ R x y := by
  induction l with
  | nil =>
    intro m h
    cases h with
    | cons h1 h2 => cases h2; exact ⟨[], _, rfl, .nil, h1⟩
  | cons z l ih =>
    intro m h
    cases h with
    | cons h1 h2 =>
      obtain ⟨m', y, rfl, h3, h4⟩ := ih h2
      exact ⟨_ :: m', y, rfl, .cons h1 h3, h4⟩

theorem says_same {L : LicText} {c : CreationInfo} {bs : List (List TvAttr)} {d : Document} (h : Says L c bs d) :
    ∀ {bs' : List (List TvAttr)}, Spec.All2 Said bs bs' → Says L c bs' d := by
  induction h with
  | nil => intro bs' h; cases h; exact .nil
  | package _ h2 h3 ih =>
    intro bs' h
    obtain ⟨m, y, rfl, h4, h5⟩ := all_snoc h
    exact .package (ih h4) (about_same h5 h2) (package_same h5 h3)
  | file _ h2 h3 ih =>
    intro bs' h
    obtain ⟨m, y, rfl, h4, h5⟩ := all_snoc h
    exact .file (ih h4) (about_same h5 h2) (file_same h5 h3)
  | snippet _ h2 h3 ih =>
    intro bs' h
    obtain ⟨m, y, rfl, h4, h5⟩ := all_snoc h
    exact .snippet (ih h4) (about_same h5 h2) (snippet_same h5 h3)
  | annotation _ h2 h3 ih =>
    intro bs' h
    obtain ⟨m, y, rfl, h4, h5⟩ := all_snoc h
    exact .annotation (ih h4) (about_same h5 h2) (annotation_same h5 h3)
  | relationship _ h2 h3 ih =>
    intro bs' h
    obtain ⟨m, y, rfl, h4, h5⟩ := all_snoc h
    exact .relationship (ih h4) (about_same h5 h2) (relationship_same h5 h3)
  | extracted _ h2 h3 ih =>
    intro bs' h
    obtain ⟨m, y, rfl, h4, h5⟩ := all_snoc h
    exact .extracted (ih h4) (about_same h5 h2) (extracted_same h5 h3)

theorem info_swap (h : Free a b) {l r : List TvAttr} {c : CreationInfo} (hx : SaysInfo (l ++ a :: b :: r) c) : SaysInfo (l ++ b :: a :: r) c := by
  have one : ∀ {α : Type} {tag : Str} {f : Tok → Option α} {x : Option α}, One (l ++ a :: b :: r) tag f x → One (l ++ b :: a :: r) tag f x := by
    intro α tag f x hx
    unfold Spec.One at hx ⊢
    rwa [← given_swap h]
  have many : ∀ {α : Type} {tag : Str} {f : Tok → Option α} {x : List α}, Many (l ++ a :: b :: r) tag f x → Many (l ++ b :: a :: r) tag f x := by
    intro α tag f x hx
    unfold Many at hx ⊢
    rwa [← given_swap h]
  exact ⟨one hx.spdxVersion, by rw [← ids_swap h]; exact hx.spdxId, one hx.name, one hx.documentNamespace, many hx.creators, one hx.created,
    one hx.creatorComment, hx.dataLicense.imp one (by rw [given_swap h]; exact id), many hx.externalDocumentRefs, one hx.licenseListVersion,
    one hx.documentComment⟩

theorem one_unique {b : List TvAttr} {tag : Str} {f : Tok → Option α} {x y : Option α} (h : One b tag f x) (h' : One b tag f y) : x = y := by
  rcases h with ⟨g, rfl⟩ | ⟨v, g, rfl⟩ <;> rcases h' with ⟨g', rfl⟩ | ⟨w, g', rfl⟩
  · rfl
  · rw [g] at g'; cases g'
  · rw [g] at g'; cases g'
  · rw [g] at g'; cases g'; rfl

theorem many_unique {b : List TvAttr} {tag : Str} {f : Tok → Option α} {x y : List α} (h : Many b tag f x) (h' : Many b tag f y) :
    x = y := List.map_inj_right (fun _ _ => Option.some.inj) |>.1 (h.trans (Eq.symm h'))

theorem info_unique {as : List TvAttr} {c c' : CreationInfo} (h : SaysInfo as c) (h' : SaysInfo as c') : c = c' := by
  have e1 := one_unique h.spdxVersion h'.spdxVersion
  have e2 := h.spdxId.symm.trans h'.spdxId
  have e3 := one_unique h.name h'.name
  have e4 := one_unique h.documentNamespace h'.documentNamespace
  have e5 := many_unique h.creators h'.creators
  have e6 := one_unique h.created h'.created
  have e7 := one_unique h.creatorComment h'.creatorComment
  have e8 : c.dataLicense = c'.dataLicense := by
    rcases h.dataLicense with h | ⟨h, e⟩ <;> rcases h'.dataLicense with h' | ⟨h', e'⟩
    · exact Option.some.inj (one_unique h h')
    · exact absurd (one_unique h (.inl ⟨h', rfl⟩)) (by simp)
    · exact absurd (one_unique h' (.inl ⟨h, rfl⟩)) (by simp)
    · rw [e, e']
  have e9 := many_unique h.externalDocumentRefs h'.externalDocumentRefs
  have e10 := one_unique h.licenseListVersion h'.licenseListVersion
  have e11 := one_unique h.documentComment h'.documentComment
  cases c; cases c'
  simp_all

/-! ### Any order -/

theorem Relined.framed {as bs : List TvAttr} (h : Relined as bs) (l r : List TvAttr) : Relined (l ++ as ++ r) (l ++ bs ++ r) := by
  induction h with
  | refl as => exact .refl _
  | swap l' r' a b h1 h2 h3 =>
    have := Relined.swap (l ++ l') (r' ++ r) a b h1 h2 h3
    simpa using this
  | trans _ _ ih1 ih2 => exact .trans ih1 ih2

/-- An attribute can be moved past attributes about other things. -/
theorem to_front {a : TvAttr} (ha : opens a = none) (v : List TvAttr) : ∀ u : List TvAttr, (∀ x ∈ u, opens x = none ∧ fieldKind x ≠ fieldKind a) →
    Relined (a :: (u ++ v)) (u ++ a :: v) := by
  intro u
  induction u with
  | nil => intro _; exact .refl _
  | cons x u ih =>
    intro h
    have hx := h x (List.mem_cons_self ..)
    have h1 : Relined (a :: x :: (u ++ v)) (x :: a :: (u ++ v)) := .swap [] _ a x ha hx.1 fun e => hx.2 e.symm
    have h2 := (ih fun y hy => h y (List.mem_cons_of_mem _ hy)).framed [x] []
    simp only [List.append_nil, List.singleton_append] at h2
    exact h1.trans h2

theorem split_kind {k : Str} {a : TvAttr} {r : List TvAttr} : ∀ {m : List TvAttr}, m.filter (fieldKind · = k) = a :: r →
    ∃ u v, m = u ++ a :: v ∧ (∀ x ∈ u, fieldKind x ≠ k) := by
  intro m
  induction m with
  | nil => intro h; cases h
  | cons x m ih =>
    intro h
    by_cases e : fieldKind x = k
    · rw [List.filter_cons_of_pos (by simpa using e)] at h
      cases h
      exact ⟨[], m, rfl, by simp⟩
    · rw [List.filter_cons_of_neg (by simpa using e)] at h
      obtain ⟨u, v, rfl, h2⟩ := ih h
      refine ⟨x :: u, v, rfl, ?_⟩
      intro y hy
      rcases List.mem_cons.1 hy with rfl | hy
      · exact e
      · exact h2 y hy

theorem relined_of_kinds : ∀ {l m : List TvAttr}, (∀ a ∈ l, opens a = none) → (∀ a ∈ m, opens a = none) → SameByKind l m → Relined l m := by
  intro l
  induction l with
  | nil =>
    intro m _ _ h
    cases m with
    | nil => exact .refl _
    | cons a m =>
      have := h (fieldKind a)
      rw [List.filter_cons_of_pos (by simp)] at this
      cases this
  | cons a l ih =>
    intro m hl hm h
    have h0 := h (fieldKind a)
    rw [List.filter_cons_of_pos (by simp)] at h0
    obtain ⟨u, v, rfl, hu⟩ := split_kind h0.symm
    have ha := hl a (List.mem_cons_self ..)
    have hk : SameByKind l (u ++ v) := by
      intro k
      have h1 := h k
      by_cases e : fieldKind a = k
      · subst e
        have e0 : u.filter (fun x => decide (fieldKind x = fieldKind a)) = [] := List.filter_eq_nil_iff.2 fun x hx => by simpa using hu x hx
        rw [List.filter_cons_of_pos (by simp), List.filter_append, e0, List.filter_cons_of_pos (by simp)] at h1
        rw [List.filter_append, e0]
        exact (List.cons.inj h1).2
      · rw [List.filter_cons_of_neg (by simpa using e), List.filter_append, List.filter_cons_of_neg (by simpa using e)] at h1
        rw [List.filter_append]
        exact h1
    have h2 := (ih (fun x hx => hl x (List.mem_cons_of_mem _ hx)) (fun x hx => hm x (by
      rcases List.mem_append.1 hx with hx | hx
      · exact List.mem_append_left _ hx
      · exact List.mem_append_right _ (List.mem_cons_of_mem _ hx))) hk).framed [a] []
    simp only [List.append_nil, List.singleton_append] at h2
    exact h2.trans (to_front ha v u fun x hx => ⟨hm x (List.mem_append_left _ hx), hu x hx⟩)

theorem preamble_none (as : List TvAttr) : ∀ a ∈ preamble as, opens a = none := by
  intro a h
  have := List.all_takeWhile (p := fun a : TvAttr => (opens a).isNone) (l := as)
  have := List.all_eq_true.1 this a h
  simpa using this

theorem sections_preamble (as : List TvAttr) : as = preamble as ++ (sections as).flatten := by
  induction as with
  | nil => rfl
  | cons x as ih =>
    unfold preamble sections
    rw [List.takeWhile_cons]
    by_cases e : (opens x).isSome
    · rw [if_pos e, if_neg (by cases h : opens x <;> simp_all)]
      simp only [List.nil_append, List.flatten_cons, List.cons_append]
      rw [← ih]
    · rw [if_neg e, if_pos (by cases h : opens x <;> simp_all)]
      show x :: as = x :: (preamble as ++ (sections as).flatten)
      rw [← ih]

theorem sections_tails (as : List TvAttr) : ∀ b ∈ sections as, b ≠ [] ∧ ∀ a ∈ b.tail, opens a = none := by
  induction as with
  | nil => intro b h; cases h
  | cons x as ih =>
    intro b h
    unfold sections at h
    split at h
    · rcases List.mem_cons.1 h with rfl | h
      · exact ⟨by simp, preamble_none as⟩
      · exact ih b h
    · exact ih b h

theorem flatten_relined {bs bs' : List (List TvAttr)} (h : Spec.All2 SameSection bs bs') : (∀ b ∈ bs, b ≠ [] ∧ ∀ a ∈ b.tail, opens a = none) →
    (∀ b ∈ bs', b ≠ [] ∧ ∀ a ∈ b.tail, opens a = none) → Relined bs.flatten bs'.flatten := by
  induction h with
  | nil => intro _ _; exact .refl _
  | @cons b b' bs bs' h _ ih =>
    intro h1 h2
    have hb := h1 b (List.mem_cons_self ..)
    have hb' := h2 b' (List.mem_cons_self ..)
    have hr := ih (fun x hx => h1 x (List.mem_cons_of_mem _ hx)) (fun x hx => h2 x (List.mem_cons_of_mem _ hx))
    rw [List.flatten_cons, List.flatten_cons]
    cases b with
    | nil => exact absurd rfl hb.1
    | cons x b =>
      cases b' with
      | nil => exact absurd rfl hb'.1
      | cons y b' =>
        have e : x = y := by have := h.1; simpa using this
        subst e
        have r1 := (relined_of_kinds hb.2 hb'.2 h.2).framed [x] bs.flatten
        have r2 := hr.framed (x :: b') []
        simp only [List.append_nil, List.singleton_append, List.tail_cons] at r1 r2
        exact r1.trans r2

theorem relined_of_sections {as as' : List TvAttr} (h : SameSections as as') : Relined as as' := by
  have r1 := (relined_of_kinds (preamble_none as) (preamble_none as') h.preamble).framed [] (sections as).flatten
  have r2 := (flatten_relined h.sections (sections_tails as) (sections_tails as')).framed (preamble as') []
  simp only [List.append_nil, List.nil_append] at r1 r2
  rw [← sections_preamble] at r1 r2
  exact r1.trans r2

end Spdx.TvOrder
