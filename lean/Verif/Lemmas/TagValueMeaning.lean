import Verif.Lemmas.TagValueHolds
/- What is built from the values collected is what the section says. -/
namespace Spdx
open Spec

theorem ap_inv {α β : Type} {f : Check (α → β)} {a : Check α} {b : β} (h : (f ⊛ a) = .ok b) : ∃ g x, f = .ok g ∧ a = .ok x ∧ b = g x := by
  match f, a, h with
  | .ok g, .ok x, h => cases h; exact ⟨g, x, rfl, rfl, rfl⟩

theorem tvOnly_ok {α : Type} {d : Dict Str TvVal} {names needed : List Str} {c : Check α} {x : α} (h : tvOnly d names needed c = .ok x) :
    c = .ok x := by
  unfold tvOnly at h
  split at h
  · cases h
  · unfold tvMissing at h
    split at h
    · exact h
    · cases h

/-- The item stands for the value. -/
def Stands (L : LicText) (tag : Str) (as? : TvItem → Option α) (f : Tok → Option α) : Prop :=
  ∀ v i, itemOf L tag v = some i → as? i = f v

variable {α : Type} {L : LicText} {b : List TvAttr} {d : Dict Str TvVal} {tag k : Str} {as? : TvItem → Option α} {f : Tok → Option α}

theorem one_req (h : Held L b (d.get? k) tag false) (hs : Stands L tag as? f) {x : α} (hx : tvReq as? d k = .ok x) : One b tag f (some x) := by
  rcases h with ⟨_, h⟩ | ⟨v, i, h1, h2, h⟩
  · unfold tvReq at hx; rw [h] at hx; cases hx
  · unfold tvReq at hx; rw [h] at hx
    refine .inr ⟨v, h1, ?_⟩
    rw [← hs v i h2]
    cases e : as? i with
    | none => simp only [chkSome, e] at hx; cases hx
    | some y => simp only [chkSome, e] at hx; cases hx; rfl

theorem one_opt (h : Held L b (d.get? k) tag false) (hs : Stands L tag as? f) (h0 : as? .null = none) {x : Option α}
    (hx : tvOpt as? d k = .ok x) : One b tag f x := by
  rcases h with ⟨h1, h⟩ | ⟨v, i, h1, h2, h⟩
  · unfold tvOpt at hx; rw [h] at hx; cases hx
    exact .inl ⟨h1, rfl⟩
  · unfold tvOpt at hx; rw [h] at hx
    refine .inr ⟨v, h1, ?_⟩
    rw [← hs v i h2]
    by_cases hn : i = .null
    · subst hn; cases hx; exact h0.symm
    · have hx : (match as? i with | some a => .ok (some a) | none => .error [k] : Check (Option α)) = .ok x := by
        cases i <;> first | exact absurd rfl hn | exact hx
      cases e : as? i with
      | none => rw [e] at hx; cases hx
      | some y => rw [e] at hx; cases hx; rfl

theorem one_dflt (h : Held L b (d.get? k) tag false) (hs : Stands L tag as? f) {x y : α} (hx : tvDflt as? y d k = .ok x) :
    One b tag f (some x) ∨ (given b tag = [] ∧ x = y) := by
  rcases h with ⟨h1, h⟩ | ⟨v, i, h1, h2, h⟩
  · unfold tvDflt at hx; rw [h] at hx; cases hx
    exact .inr ⟨h1, rfl⟩
  · unfold tvDflt at hx; rw [h] at hx
    refine .inl (.inr ⟨v, h1, ?_⟩)
    rw [← hs v i h2]
    cases e : as? i with
    | none => simp only [chkSome, e] at hx; cases hx
    | some y => simp only [chkSome, e] at hx; cases hx; rfl

theorem mapM_ok {as? : TvItem → Option α} {xs : List TvItem} {l : List α} (h : xs.mapM as? = some l) : xs.map as? = l.map some := by
  induction xs generalizing l with
  | nil => simp only [List.mapM_nil, Option.pure_def, Option.some.injEq] at h; subst h; rfl
  | cons x xs ih =>
    simp only [List.mapM_cons, Option.bind_eq_bind, Option.bind_eq_some_iff, Option.pure_def, Option.some.injEq] at h
    obtain ⟨y, h1, ys, h2, rfl⟩ := h
    simp only [List.map_cons, h1, ih h2]

private theorem many_items (h : Held L b (d.get? k) tag true) (hs : Stands L tag as? f) {xs : List TvItem} {l : List α}
    (hk : d.get? k = some (.many xs)) (hx : chkSome k (xs.mapM as?) = .ok l) : Many b tag f l := by
  obtain ⟨ys, h1, h⟩ := h
  rw [hk] at h
  unfold listVal at h
  split at h
  · cases h
  · cases h
    cases e : xs.mapM as? with
    | none => simp only [chkSome, e] at hx; cases hx
    | some m =>
      simp only [chkSome, e] at hx; cases hx
      unfold Many
      rw [← mapM_ok e]
      have key : ∀ (vs : List Tok) (ys : List TvItem), vs.map (itemOf L tag) = ys.map some → ys.map as? = vs.map f := by
        intro vs
        induction vs with
        | nil => intro ys h; cases ys with
          | nil => rfl
          | cons y ys => cases h
        | cons v vs ih => intro ys h; cases ys with
          | nil => cases h
          | cons y ys =>
            simp only [List.map_cons, List.cons.injEq] at h
            simp only [List.map_cons, hs v y h.1, ih ys h.2]
      exact key _ _ h1

theorem many_list (h : Held L b (d.get? k) tag true) (hs : Stands L tag as? f) {l : List α} (hx : tvList as? d k = .ok l) : Many b tag f l := by
  cases e : d.get? k with
  | none =>
    unfold tvList at hx; rw [e] at hx; cases hx
    obtain ⟨ys, h1, h⟩ := h
    rw [e] at h
    unfold listVal at h
    split at h
    · rename_i e; subst e
      unfold Many
      rw [List.map_eq_nil_iff.1 h1]; rfl
    · cases h
  | some x => cases x with
    | one x => unfold tvList at hx; rw [e] at hx; cases hx
    | many xs =>
      refine many_items h hs e ?_
      unfold tvList at hx; rw [e] at hx; exact hx

theorem many_reqList (h : Held L b (d.get? k) tag true) (hs : Stands L tag as? f) {l : List α} (hx : tvReqList as? d k = .ok l) :
    Many b tag f l := by
  cases e : d.get? k with
  | none => unfold tvReqList at hx; rw [e] at hx; cases hx
  | some x => cases x with
    | one x => unfold tvReqList at hx; rw [e] at hx; cases hx
    | many xs =>
      refine many_items h hs e ?_
      unfold tvReqList at hx; rw [e] at hx; exact hx

/-! ## The items stand for their values -/

section
variable (L)

private theorem map_stands {β : Type} {as? : TvItem → Option β} {g : β → TvItem} (hg : ∀ y, as? (g y) = some y) {o : Option β} {i : TvItem}
    (h : o.map g = some i) : as? i = o := by
  cases o with
  | none => cases h
  | some y => cases h; exact hg y

theorem text_stands {tag : Str} (h : ∀ v, itemOf L tag v = some (.str (textOrLineValue v))) : Stands L tag TvItem.str? asText := by
  intro v i hi
  rw [h] at hi; cases hi; rfl

theorem special_stands {tag : Str} (h : ∀ v, itemOf L tag v = some (lineOrSpecialValue v)) : Stands L tag TvItem.special? asSpecial := by
  intro v i hi
  rw [h] at hi; cases hi
  cases v <;> rfl

theorem name_stands {tag : Str} (h : ∀ v, itemOf L tag v = some (lineOrSpecialValue v)) :
    Stands L tag TvItem.strNoAssertion? asTextOrNoAssertion := by
  intro v i hi
  rw [h] at hi; cases hi
  cases v <;> rfl

theorem license_stands {tag : Str} (h : ∀ v, itemOf L tag v = some (licenseValue L v).1) : Stands L tag TvItem.lic? (asLicense L) := by
  intro v i hi
  rw [h] at hi; cases hi
  cases v
  case noAssertion => rfl
  case none => rfl
  all_goals
    unfold licenseValue asLicense
    simp only []
    cases L.parse _ with
    | none => rfl
    | some o => cases o <;> rfl

theorem actor_stands {tag : Str} (h : ∀ v, itemOf L tag v = (asActor v).map TvItem.actor) : Stands L tag TvItem.actor? asActor := by
  intro v i hi
  rw [h] at hi; exact map_stands (g := TvItem.actor) (fun _ => rfl) hi

theorem supplier_stands {tag : Str} (h : ∀ v, itemOf L tag v = match v with | .noAssertion => some .noAssertion | v => (asActor v).map TvItem.actor) :
    Stands L tag TvItem.actorNoAssertion? asActorOrNoAssertion := by
  intro v i hi
  rw [h] at hi
  cases v
  case noAssertion => cases hi; rfl
  all_goals
    unfold asActor at hi
    unfold asActorOrNoAssertion
    simp only [] at hi ⊢
    cases e : (parseActor _).toOption with
    | none => rw [e] at hi; cases hi
    | some a => rw [e] at hi; cases hi; rfl

theorem map_stands' {β : Type} {tag : Str} {as? : TvItem → Option β} {g : β → TvItem} {f : Tok → Option β} (hg : ∀ y, as? (g y) = some y)
    (h : ∀ v, itemOf L tag v = (f v).map g) : Stands L tag as? f := by
  intro v i hi
  rw [h] at hi; exact map_stands hg hi

end

private theorem slot_of {L : LicText} {c : TvClass} {b : List TvAttr} {d : Dict Str TvVal} (h : Holds L c b d) (tag k : Str) (m : Bool)
    (hd : decide ((tag, c, k, m) ∈ slots ∧ k ≠ s%"spdx_id") = true) : Held L b (d.get? k) tag m :=
  h.slot tag k m (of_decide_eq_true hd).1 (of_decide_eq_true hd).2

private theorem id_of {d : Dict Str TvVal} {o : Option Str} (h : d.get? s%"spdx_id" = o.map fun x => .one (.str x)) {x : Str}
    (hx : tvReq TvItem.str? d s%"spdx_id" = .ok x) : o = some x := by
  unfold tvReq at hx
  rw [h] at hx
  cases o with
  | none => cases hx
  | some y => cases hx; rfl

private theorem refs_of {b : List TvAttr} {d : Dict Str TvVal}
    (h : ∃ xs : List ExternalPackageRef, externalRefs b = xs.map some ∧ d.get? s%"external_references" = listVal (xs.map .extRef))
    {l : List ExternalPackageRef} (hx : tvList TvItem.extRef? d s%"external_references" = .ok l) : l.map some = externalRefs b := by
  obtain ⟨xs, h1, h2⟩ := h
  rw [h1]
  unfold tvList at hx
  rw [h2] at hx
  unfold listVal at hx
  by_cases e : xs = []
  · subst e; cases hx; rfl
  · rw [if_neg (by simpa using e)] at hx
    simp only [] at hx
    cases e : (xs.map TvItem.extRef).mapM TvItem.extRef? with
    | none => simp only [chkSome, e] at hx; cases hx
    | some m =>
      simp only [chkSome, e] at hx; cases hx
      rw [← mapM_ok e, List.map_map]; rfl

private theorem info_slot {L : LicText} {b : List TvAttr} {d : Dict Str TvVal} (h : InfoHolds L b d) (tag k : Str) (m : Bool)
    (hd : decide ((tag, k, m) ∈ infoSlots ∧ k ≠ s%"spdx_id") = true) : Held L b (d.get? k) tag m :=
  h.slot tag k m (of_decide_eq_true hd).1

theorem says_file {L : LicText} {b : List TvAttr} {d : Dict Str TvVal} (h : Holds L .file b d) {x : File} (hx : mkFile d = .ok x) :
    SaysFile L b x := by
  unfold mkFile at hx
  have h12 := tvOnly_ok hx
  clear hx
  obtain ⟨g12, attributionTexts, h11, e12, q12⟩ := ap_inv h12
  obtain ⟨g11, contributors, h10, e11, q11⟩ := ap_inv h11
  obtain ⟨g10, notice, h9, e10, q10⟩ := ap_inv h10
  obtain ⟨g9, comment, h8, e9, q9⟩ := ap_inv h9
  obtain ⟨g8, copyrightText, h7, e8, q8⟩ := ap_inv h8
  obtain ⟨g7, licenseComment, h6, e7, q7⟩ := ap_inv h7
  obtain ⟨g6, licenseInfoInFile, h5, e6, q6⟩ := ap_inv h6
  obtain ⟨g5, licenseConcluded, h4, e5, q5⟩ := ap_inv h5
  obtain ⟨g4, fileTypes, h3, e4, q4⟩ := ap_inv h4
  obtain ⟨g3, checksums, h2, e3, q3⟩ := ap_inv h3
  obtain ⟨g2, spdxId, h1, e2, q2⟩ := ap_inv h2
  obtain ⟨g1, name, h0, e1, q1⟩ := ap_inv h1
  cases h0
  subst q1 q2 q3 q4 q5 q6 q7 q8 q9 q10 q11 q12
  exact {
    name := one_req (slot_of h _ _ _ (by decide +kernel)) (text_stands L fun _ => rfl) e1
    spdxId := id_of h.id e2
    checksums := many_reqList (slot_of h _ _ _ (by decide +kernel)) (map_stands' L (g := .checksum) (fun _ => rfl) fun _ => rfl) e3
    fileTypes := many_list (slot_of h _ _ _ (by decide +kernel)) (map_stands' L (g := .fileType) (fun _ => rfl) fun _ => rfl) e4
    licenseConcluded := one_opt (slot_of h _ _ _ (by decide +kernel)) (license_stands L fun _ => rfl) rfl e5
    licenseInfoInFile := many_list (slot_of h _ _ _ (by decide +kernel)) (license_stands L fun _ => rfl) e6
    licenseComment := one_opt (slot_of h _ _ _ (by decide +kernel)) (text_stands L fun _ => rfl) rfl e7
    copyrightText := one_opt (slot_of h _ _ _ (by decide +kernel)) (special_stands L fun _ => rfl) rfl e8
    comment := one_opt (slot_of h _ _ _ (by decide +kernel)) (text_stands L fun _ => rfl) rfl e9
    notice := one_opt (slot_of h _ _ _ (by decide +kernel)) (text_stands L fun _ => rfl) rfl e10
    contributors := many_list (slot_of h _ _ _ (by decide +kernel)) (text_stands L fun _ => rfl) e11
    attributionTexts := many_list (slot_of h _ _ _ (by decide +kernel)) (text_stands L fun _ => rfl) e12 }

theorem says_package {L : LicText} {b : List TvAttr} {d : Dict Str TvVal} (h : Holds L .package b d) {x : Package} (hx : mkPackage d = .ok x) :
    SaysPackage L b x := by
  unfold mkPackage at hx
  have h26 := tvOnly_ok hx
  clear hx
  obtain ⟨g26, validUntilDate, h25, e26, q26⟩ := ap_inv h26
  obtain ⟨g25, builtDate, h24, e25, q25⟩ := ap_inv h25
  obtain ⟨g24, releaseDate, h23, e24, q24⟩ := ap_inv h24
  obtain ⟨g23, primaryPackagePurpose, h22, e23, q23⟩ := ap_inv h23
  obtain ⟨g22, attributionTexts, h21, e22, q22⟩ := ap_inv h22
  obtain ⟨g21, externalReferences, h20, e21, q21⟩ := ap_inv h21
  obtain ⟨g20, comment, h19, e20, q20⟩ := ap_inv h20
  obtain ⟨g19, description, h18, e19, q19⟩ := ap_inv h19
  obtain ⟨g18, summary, h17, e18, q18⟩ := ap_inv h18
  obtain ⟨g17, copyrightText, h16, e17, q17⟩ := ap_inv h17
  obtain ⟨g16, licenseComment, h15, e16, q16⟩ := ap_inv h16
  obtain ⟨g15, licenseDeclared, h14, e15, q15⟩ := ap_inv h15
  obtain ⟨g14, licenseInfoFromFiles, h13, e14, q14⟩ := ap_inv h14
  obtain ⟨g13, licenseConcluded, h12, e13, q13⟩ := ap_inv h13
  obtain ⟨g12, sourceInfo, h11, e12, q12⟩ := ap_inv h12
  obtain ⟨g11, homepage, h10, e11, q11⟩ := ap_inv h11
  obtain ⟨g10, checksums, h9, e10, q10⟩ := ap_inv h10
  obtain ⟨g9, verificationCode, h8, e9, q9⟩ := ap_inv h9
  obtain ⟨g8, filesAnalyzed, h7, e8, q8⟩ := ap_inv h8
  obtain ⟨g7, originator, h6, e7, q7⟩ := ap_inv h7
  obtain ⟨g6, supplier, h5, e6, q6⟩ := ap_inv h6
  obtain ⟨g5, fileName, h4, e5, q5⟩ := ap_inv h5
  obtain ⟨g4, version, h3, e4, q4⟩ := ap_inv h4
  obtain ⟨g3, downloadLocation, h2, e3, q3⟩ := ap_inv h3
  obtain ⟨g2, name, h1, e2, q2⟩ := ap_inv h2
  obtain ⟨g1, spdxId, h0, e1, q1⟩ := ap_inv h1
  cases h0
  subst q1 q2 q3 q4 q5 q6 q7 q8 q9 q10 q11 q12 q13 q14 q15 q16 q17 q18 q19 q20 q21 q22 q23 q24 q25 q26
  exact {
    spdxId := id_of h.id e1
    name := one_req (slot_of h _ _ _ (by decide +kernel)) (text_stands L fun _ => rfl) e2
    downloadLocation := one_req (slot_of h _ _ _ (by decide +kernel)) (special_stands L fun _ => rfl) e3
    version := one_opt (slot_of h _ _ _ (by decide +kernel)) (text_stands L fun _ => rfl) rfl e4
    fileName := one_opt (slot_of h _ _ _ (by decide +kernel)) (text_stands L fun _ => rfl) rfl e5
    supplier := one_opt (slot_of h _ _ _ (by decide +kernel)) (supplier_stands L fun _ => rfl) rfl e6
    originator := one_opt (slot_of h _ _ _ (by decide +kernel)) (supplier_stands L fun _ => rfl) rfl e7
    filesAnalyzed := one_dflt (slot_of h _ _ _ (by decide +kernel)) (map_stands' L (g := .bool) (fun _ => rfl) fun _ => rfl) e8
    verificationCode := one_opt (slot_of h _ _ _ (by decide +kernel)) (map_stands' L (g := .code) (fun _ => rfl) fun _ => rfl) rfl e9
    checksums := many_list (slot_of h _ _ _ (by decide +kernel)) (map_stands' L (g := .checksum) (fun _ => rfl) fun _ => rfl) e10
    homepage := one_opt (slot_of h _ _ _ (by decide +kernel)) (special_stands L fun _ => rfl) rfl e11
    sourceInfo := one_opt (slot_of h _ _ _ (by decide +kernel)) (text_stands L fun _ => rfl) rfl e12
    licenseConcluded := one_opt (slot_of h _ _ _ (by decide +kernel)) (license_stands L fun _ => rfl) rfl e13
    licenseInfoFromFiles := many_list (slot_of h _ _ _ (by decide +kernel)) (license_stands L fun _ => rfl) e14
    licenseDeclared := one_opt (slot_of h _ _ _ (by decide +kernel)) (license_stands L fun _ => rfl) rfl e15
    licenseComment := one_opt (slot_of h _ _ _ (by decide +kernel)) (text_stands L fun _ => rfl) rfl e16
    copyrightText := one_opt (slot_of h _ _ _ (by decide +kernel)) (special_stands L fun _ => rfl) rfl e17
    summary := one_opt (slot_of h _ _ _ (by decide +kernel)) (text_stands L fun _ => rfl) rfl e18
    description := one_opt (slot_of h _ _ _ (by decide +kernel)) (text_stands L fun _ => rfl) rfl e19
    comment := one_opt (slot_of h _ _ _ (by decide +kernel)) (text_stands L fun _ => rfl) rfl e20
    externalReferences := refs_of (h.refs rfl) e21
    attributionTexts := many_list (slot_of h _ _ _ (by decide +kernel)) (text_stands L fun _ => rfl) e22
    primaryPackagePurpose := one_opt (slot_of h _ _ _ (by decide +kernel)) (map_stands' L (g := .purpose) (fun _ => rfl) fun _ => rfl) rfl e23
    releaseDate := one_opt (slot_of h _ _ _ (by decide +kernel)) (map_stands' L (g := .date) (fun _ => rfl) fun _ => rfl) rfl e24
    builtDate := one_opt (slot_of h _ _ _ (by decide +kernel)) (map_stands' L (g := .date) (fun _ => rfl) fun _ => rfl) rfl e25
    validUntilDate := one_opt (slot_of h _ _ _ (by decide +kernel)) (map_stands' L (g := .date) (fun _ => rfl) fun _ => rfl) rfl e26 }

theorem says_snippet {L : LicText} {b : List TvAttr} {d : Dict Str TvVal} (h : Holds L .snippet b d) {x : Snippet} (hx : mkSnippet d = .ok x) :
    SaysSnippet L b x := by
  unfold mkSnippet at hx
  have h11 := tvOnly_ok hx
  clear hx
  obtain ⟨g11, attributionTexts, h10, e11, q11⟩ := ap_inv h11
  obtain ⟨g10, name, h9, e10, q10⟩ := ap_inv h10
  obtain ⟨g9, comment, h8, e9, q9⟩ := ap_inv h9
  obtain ⟨g8, copyrightText, h7, e8, q8⟩ := ap_inv h8
  obtain ⟨g7, licenseComment, h6, e7, q7⟩ := ap_inv h7
  obtain ⟨g6, licenseInfoInSnippet, h5, e6, q6⟩ := ap_inv h6
  obtain ⟨g5, licenseConcluded, h4, e5, q5⟩ := ap_inv h5
  obtain ⟨g4, lineRange, h3, e4, q4⟩ := ap_inv h4
  obtain ⟨g3, byteRange, h2, e3, q3⟩ := ap_inv h3
  obtain ⟨g2, fileSpdxId, h1, e2, q2⟩ := ap_inv h2
  obtain ⟨g1, spdxId, h0, e1, q1⟩ := ap_inv h1
  cases h0
  subst q1 q2 q3 q4 q5 q6 q7 q8 q9 q10 q11
  exact {
    spdxId := id_of h.id e1
    fileSpdxId := one_req (slot_of h _ _ _ (by decide +kernel)) (text_stands L fun _ => rfl) e2
    byteRange := one_req (slot_of h _ _ _ (by decide +kernel)) (map_stands' L (g := .range) (fun _ => rfl) fun _ => rfl) e3
    lineRange := one_opt (slot_of h _ _ _ (by decide +kernel)) (map_stands' L (g := .range) (fun _ => rfl) fun _ => rfl) rfl e4
    licenseConcluded := one_opt (slot_of h _ _ _ (by decide +kernel)) (license_stands L fun _ => rfl) rfl e5
    licenseInfoInSnippet := many_list (slot_of h _ _ _ (by decide +kernel)) (license_stands L fun _ => rfl) e6
    licenseComment := one_opt (slot_of h _ _ _ (by decide +kernel)) (text_stands L fun _ => rfl) rfl e7
    copyrightText := one_opt (slot_of h _ _ _ (by decide +kernel)) (special_stands L fun _ => rfl) rfl e8
    comment := one_opt (slot_of h _ _ _ (by decide +kernel)) (text_stands L fun _ => rfl) rfl e9
    name := one_opt (slot_of h _ _ _ (by decide +kernel)) (text_stands L fun _ => rfl) rfl e10
    attributionTexts := many_list (slot_of h _ _ _ (by decide +kernel)) (text_stands L fun _ => rfl) e11 }

theorem says_annotation {L : LicText} {b : List TvAttr} {d : Dict Str TvVal} (h : Holds L .annotation b d) {x : Annotation} (hx : mkAnnotation d = .ok x) :
    SaysAnnotation b x := by
  unfold mkAnnotation at hx
  have h5 := tvOnly_ok hx
  clear hx
  obtain ⟨g5, annotationComment, h4, e5, q5⟩ := ap_inv h5
  obtain ⟨g4, annotationDate, h3, e4, q4⟩ := ap_inv h4
  obtain ⟨g3, annotator, h2, e3, q3⟩ := ap_inv h3
  obtain ⟨g2, annotationType, h1, e2, q2⟩ := ap_inv h2
  obtain ⟨g1, spdxId, h0, e1, q1⟩ := ap_inv h1
  cases h0
  subst q1 q2 q3 q4 q5
  exact {
    spdxId := id_of h.id e1
    annotationType := one_req (slot_of h _ _ _ (by decide +kernel)) (map_stands' L (g := .annotationType) (fun _ => rfl) fun _ => rfl) e2
    annotator := one_req (slot_of h _ _ _ (by decide +kernel)) (actor_stands L fun _ => rfl) e3
    annotationDate := one_req (slot_of h _ _ _ (by decide +kernel)) (map_stands' L (g := .date) (fun _ => rfl) fun _ => rfl) e4
    annotationComment := one_req (slot_of h _ _ _ (by decide +kernel)) (text_stands L fun _ => rfl) e5 }

theorem says_extracted {L : LicText} {b : List TvAttr} {d : Dict Str TvVal} (h : Holds L .extracted b d) {x : ExtractedLicensingInfo} (hx : mkExtracted d = .ok x) :
    SaysExtracted b x := by
  unfold mkExtracted at hx
  have h5 := tvOnly_ok hx
  clear hx
  obtain ⟨g5, comment, h4, e5, q5⟩ := ap_inv h5
  obtain ⟨g4, crossReferences, h3, e4, q4⟩ := ap_inv h4
  obtain ⟨g3, licenseName, h2, e3, q3⟩ := ap_inv h3
  obtain ⟨g2, extractedText, h1, e2, q2⟩ := ap_inv h2
  obtain ⟨g1, licenseId, h0, e1, q1⟩ := ap_inv h1
  cases h0
  subst q1 q2 q3 q4 q5
  exact {
    licenseId := one_opt (slot_of h _ _ _ (by decide +kernel)) (text_stands L fun _ => rfl) rfl e1
    extractedText := one_opt (slot_of h _ _ _ (by decide +kernel)) (text_stands L fun _ => rfl) rfl e2
    licenseName := one_opt (slot_of h _ _ _ (by decide +kernel)) (name_stands L fun _ => rfl) rfl e3
    crossReferences := many_list (slot_of h _ _ _ (by decide +kernel)) (text_stands L fun _ => rfl) e4
    comment := one_opt (slot_of h _ _ _ (by decide +kernel)) (text_stands L fun _ => rfl) rfl e5 }

theorem says_info {L : LicText} {b : List TvAttr} {d : Dict Str TvVal} (h : InfoHolds L b d) {x : CreationInfo} (hx : mkInfo d = .ok x) :
    SaysInfo b x := by
  unfold mkInfo at hx
  have h11 := tvOnly_ok hx
  clear hx
  obtain ⟨g11, documentComment, h10, e11, q11⟩ := ap_inv h11
  obtain ⟨g10, licenseListVersion, h9, e10, q10⟩ := ap_inv h10
  obtain ⟨g9, externalDocumentRefs, h8, e9, q9⟩ := ap_inv h9
  obtain ⟨g8, dataLicense, h7, e8, q8⟩ := ap_inv h8
  obtain ⟨g7, creatorComment, h6, e7, q7⟩ := ap_inv h7
  obtain ⟨g6, created, h5, e6, q6⟩ := ap_inv h6
  obtain ⟨g5, creators, h4, e5, q5⟩ := ap_inv h5
  obtain ⟨g4, documentNamespace, h3, e4, q4⟩ := ap_inv h4
  obtain ⟨g3, name, h2, e3, q3⟩ := ap_inv h3
  obtain ⟨g2, spdxId, h1, e2, q2⟩ := ap_inv h2
  obtain ⟨g1, spdxVersion, h0, e1, q1⟩ := ap_inv h1
  cases h0
  subst q1 q2 q3 q4 q5 q6 q7 q8 q9 q10 q11
  exact {
    spdxVersion := one_req (info_slot h _ _ _ (by decide +kernel)) (text_stands L fun _ => rfl) e1
    spdxId := id_of h.id e2
    name := one_req (info_slot h _ _ _ (by decide +kernel)) (text_stands L fun _ => rfl) e3
    documentNamespace := one_req (info_slot h _ _ _ (by decide +kernel)) (text_stands L fun _ => rfl) e4
    creators := many_reqList (info_slot h _ _ _ (by decide +kernel)) (actor_stands L fun _ => rfl) e5
    created := one_req (info_slot h _ _ _ (by decide +kernel)) (map_stands' L (g := .date) (fun _ => rfl) fun _ => rfl) e6
    creatorComment := one_opt (info_slot h _ _ _ (by decide +kernel)) (text_stands L fun _ => rfl) rfl e7
    dataLicense := one_dflt (info_slot h _ _ _ (by decide +kernel)) (text_stands L fun _ => rfl) e8
    externalDocumentRefs := many_list (info_slot h _ _ _ (by decide +kernel)) (map_stands' L (g := .docRef) (fun _ => rfl) fun _ => rfl) e9
    licenseListVersion := one_opt (info_slot h _ _ _ (by decide +kernel)) (map_stands' L (g := .version) (fun _ => rfl) fun _ => rfl) rfl e10
    documentComment := one_opt (info_slot h _ _ _ (by decide +kernel)) (text_stands L fun _ => rfl) rfl e11 }

end Spdx
