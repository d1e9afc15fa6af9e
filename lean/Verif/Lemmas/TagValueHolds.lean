import Verif.Lemmas.TagValueRead
/- The values collected for an element are those given in its section. -/
namespace Spdx
open Spec

/-! ## Lists of attributes -/

theorem given_concat (b : List TvAttr) (a : TvAttr) (tag : Str) :
    given (b ++ [a]) tag = given b tag ++ (match a with | .value t v => if t = tag then [v] else [] | _ => []) := by
  unfold given
  rw [List.filterMap_append]
  congr 1
  cases a with
  | value t v =>
    by_cases h : t = tag
    · simp only [List.filterMap_cons, List.filterMap_nil, if_pos h]
    · simp only [List.filterMap_cons, List.filterMap_nil, if_neg h]
  | _ => rfl

theorem given_value (b : List TvAttr) (tag : Str) (v : Tok) : given (b ++ [.value tag v]) tag = given b tag ++ [v] := by
  rw [given_concat]; exact congrArg _ (if_pos rfl)

theorem given_other (b : List TvAttr) (t tag : Str) (v : Tok) (h : t ≠ tag) : given (b ++ [.value t v]) tag = given b tag := by
  rw [given_concat]; exact (congrArg _ (if_neg h)).trans (List.append_nil _)

theorem given_rest (b : List TvAttr) (a : TvAttr) (tag : Str) (h : ∀ t v, a ≠ .value t v) : given (b ++ [a]) tag = given b tag := by
  rw [given_concat]
  cases a with
  | value t v => exact absurd rfl (h t v)
  | _ => exact List.append_nil _

theorem ids_concat (b : List TvAttr) (a : TvAttr) : ids (b ++ [a]) = ids b ++ (match a with | .spdxId v => [v] | _ => []) := by
  unfold ids
  rw [List.filterMap_append]
  cases a <;> rfl

/-- The identifiers of an element of this class. -/
def idList (c : TvClass) (b : List TvAttr) : List Str :=
  match c with
  | .snippet => idsWith s%"SnippetSPDXID" b
  | .annotation => idsWith s%"SPDXREF" b
  | _ => ids b

theorem idsWith_concat (tag : Str) (b : List TvAttr) (a : TvAttr) : idsWith tag (b ++ [a]) = idsWith tag b ++ (match a with
    | .spdxId v => [v]
    | .value t v => if t = tag then [textOrLineValue v] else []
    | _ => []) := by
  unfold idsWith
  rw [List.filterMap_append]
  congr 1
  cases a with
  | value t v =>
    by_cases h : t = tag
    · simp only [List.filterMap_cons, List.filterMap_nil, if_pos h]
    · simp only [List.filterMap_cons, List.filterMap_nil, if_neg h]
  | _ => rfl

theorem idList_spdxId (c : TvClass) (b : List TvAttr) (v : Str) : idList c (b ++ [.spdxId v]) = idList c b ++ [v] := by
  cases c
  case snippet => exact idsWith_concat _ _ _
  case annotation => exact idsWith_concat _ _ _
  all_goals exact ids_concat _ _

/-- An attribute that gives no identifier. -/
theorem idList_other (c : TvClass) (b : List TvAttr) (a : TvAttr) (h1 : ∀ v, a ≠ .spdxId v)
    (h2 : ∀ t v, a = .value t v → (c = .snippet → t ≠ s%"SnippetSPDXID") ∧ (c = .annotation → t ≠ s%"SPDXREF")) :
    idList c (b ++ [a]) = idList c b := by
  have key : ∀ tag, (∀ t v, a = .value t v → t ≠ tag) → idsWith tag (b ++ [a]) = idsWith tag b := by
    intro tag ht
    rw [idsWith_concat]
    cases a with
    | spdxId v => exact absurd rfl (h1 v)
    | value t v => exact (congrArg _ (if_neg (ht t v rfl))).trans (List.append_nil _)
    | _ => exact List.append_nil _
  have key' : ids (b ++ [a]) = ids b := by
    rw [ids_concat]
    cases a with
    | spdxId v => exact absurd rfl (h1 v)
    | _ => exact List.append_nil _
  cases c
  case snippet => exact key _ fun t v e => (h2 t v e).1 rfl
  case annotation => exact key _ fun t v e => (h2 t v e).2 rfl
  all_goals exact key'

theorem externalRefs_concat (b : List TvAttr) (a : TvAttr) : externalRefs (b ++ [a]) = externalRefs b ++ (match a with
    | .commented t line c => if t = s%"ExternalRef" then [(parseTvExtRef line (c.map textOrLineValue)).toOption] else []
    | _ => []) := by
  unfold externalRefs
  rw [List.filterMap_append]
  congr 1
  cases a with
  | commented t l c =>
    by_cases h : t = s%"ExternalRef"
    · simp only [List.filterMap_cons, List.filterMap_nil, if_pos h]
    · simp only [List.filterMap_cons, List.filterMap_nil, if_neg h]
  | _ => rfl

/-! ## A field -/

/-- A field that holds a list: the key is there when there is an item. -/
def listVal (xs : List TvItem) : Option TvVal := if xs = [] then none else some (.many xs)

/-- The field has what is given under the tag. -/
def Held (L : LicText) (b : List TvAttr) (x : Option TvVal) (tag : Str) : Bool → Prop
  | true => ∃ xs, (given b tag).map (itemOf L tag) = xs.map some ∧ x = listVal xs
  | false => (given b tag = [] ∧ x = none) ∨ ∃ v i, given b tag = [v] ∧ itemOf L tag v = some i ∧ x = some (.one i)

theorem Held.congr {L : LicText} {b b' : List TvAttr} {x x' : Option TvVal} {tag : Str} {m : Bool} (h : Held L b x tag m)
    (hb : given b' tag = given b tag) (hx : x' = x) : Held L b' x' tag m := by
  subst hx
  cases m with
  | true => obtain ⟨xs, h1, h2⟩ := h; exact ⟨xs, by rw [hb]; exact h1, h2⟩
  | false =>
    rcases h with ⟨h1, h2⟩ | ⟨v, i, h1, h2⟩
    · exact .inl ⟨by rw [hb]; exact h1, h2⟩
    · exact .inr ⟨v, i, by rw [hb]; exact h1, h2⟩

theorem Held.nil (L : LicText) (tag : Str) (m : Bool) : Held L [] none tag m := by
  cases m with
  | true => exact ⟨[], rfl, rfl⟩
  | false => exact .inl ⟨rfl, rfl⟩

theorem Held.one {L : LicText} {b : List TvAttr} {tag : Str} {v : Tok} {i : TvItem} (h : Held L b none tag false)
    (hi : itemOf L tag v = some i) : Held L (b ++ [.value tag v]) (some (.one i)) tag false := by
  rcases h with ⟨h1, _⟩ | ⟨_, _, _, _, h⟩
  · exact .inr ⟨v, i, by rw [given_value, h1]; rfl, hi, rfl⟩
  · cases h

theorem listVal_append (d : Dict Str TvVal) (k : Str) (xs : List TvItem) (x : TvItem) (h : d.get? k = listVal xs) :
    (tvAppend d k x).get? k = listVal (xs ++ [x]) := by
  have hne : xs ++ [x] ≠ [] := by simp
  unfold tvAppend
  rw [h]
  unfold listVal
  rw [if_neg hne]
  by_cases hx : xs = []
  · subst hx
    show (d.set k (.many [x])).get? k = _
    rw [Dict.get?_set, if_pos rfl]; rfl
  · rw [if_neg hx]
    show (d.set k (.many (xs ++ [x]))).get? k = _
    rw [Dict.get?_set, if_pos rfl]

theorem append_other (d : Dict Str TvVal) (k k' : Str) (x : TvItem) (h : k ≠ k') : (tvAppend d k x).get? k' = d.get? k' := by
  unfold tvAppend
  split
  · rw [Dict.get?_set, if_neg h]
  · rfl
  · rw [Dict.get?_set, if_neg h]

theorem set_other (d : Dict Str TvVal) (k k' : Str) (x : TvVal) (h : k ≠ k') : (d.set k x).get? k' = d.get? k' := by
  rw [Dict.get?_set, if_neg h]

theorem Held.many {L : LicText} {b : List TvAttr} {d : Dict Str TvVal} {k : Str} {tag : Str} {v : Tok} {i : TvItem}
    (h : Held L b (d.get? k) tag true) (hi : itemOf L tag v = some i) :
    Held L (b ++ [.value tag v]) ((tvAppend d k i).get? k) tag true := by
  obtain ⟨xs, h1, h2⟩ := h
  refine ⟨xs ++ [i], ?_, listVal_append d k xs i h2⟩
  rw [given_value, List.map_append, List.map_append, h1]
  show _ ++ [itemOf L tag v] = _
  rw [hi]; rfl

/-! ## The tables -/

private theorem slots_inj : ∀ p ∈ slots, ∀ q ∈ slots, p.2.1 = q.2.1 → p.2.2.1 = q.2.2.1 → p = q := by decide +kernel
private theorem slots_tag : ∀ p ∈ slots, ∀ q ∈ slots, p.1 = q.1 → p = q := by decide +kernel
private theorem slots_free : ∀ p ∈ slots, p.2.1 ≠ .relationship ∧ p.2.2.1 ≠ s%"external_references" ∧
    (p.2.2.1 = s%"spdx_id" ↔ p = (s%"SnippetSPDXID", .snippet, s%"spdx_id", false) ∨ p = (s%"SPDXREF", .annotation, s%"spdx_id", false)) ∧
    (p.2.1 = .snippet → p.1 = s%"SnippetSPDXID" → p.2.2.1 = s%"spdx_id") ∧ (p.2.1 = .annotation → p.1 = s%"SPDXREF" → p.2.2.1 = s%"spdx_id") := by
  decide +kernel
private theorem info_slots : ∀ p ∈ infoSlots, ∀ q ∈ slots, p.1 ≠ q.1 := by decide +kernel
private theorem info_free : ∀ p ∈ infoSlots, p.1 ≠ s%"SnippetSPDXID" ∧ p.1 ≠ s%"SPDXREF" ∧ p.2.1 ≠ s%"spdx_id" := by decide +kernel
private theorem infoSlots_inj : ∀ p ∈ infoSlots, ∀ q ∈ infoSlots, p.2.1 = q.2.1 → p = q := by decide +kernel
private theorem infoSlots_tag : ∀ p ∈ infoSlots, ∀ q ∈ infoSlots, p.1 = q.1 → p = q := by decide +kernel

/-! ## An element -/

/-- The values collected for an element are those given in its section. -/
structure Holds (L : LicText) (c : TvClass) (b : List TvAttr) (d : Dict Str TvVal) : Prop where
  slot : ∀ tag k m, (tag, c, k, m) ∈ slots → k ≠ s%"spdx_id" → Held L b (d.get? k) tag m
  id : d.get? s%"spdx_id" = (idList c b).getLast?.map fun x => .one (.str x)
  refs : c = .package → ∃ xs : List ExternalPackageRef, externalRefs b = xs.map some ∧ d.get? s%"external_references" = listVal (xs.map .extRef)
  rel : c = .relationship → ∃ l cm a t r ty, b.head? = some (.commented s%"Relationship" l cm) ∧ splitOn ' ' l = [a, t, r] ∧
    RelationshipType.ofName? t = some ty ∧ d.get? s%"spdx_element_id" = some (.one (.str a)) ∧
    d.get? s%"relationship_type" = some (.one (.relationshipType ty)) ∧ d.get? s%"related_spdx_element_id" = some (.one (relatedItem r)) ∧
    d.get? s%"comment" = cm.map fun c => .one (.str (textOrLineValue c))

theorem Holds.nil (L : LicText) {c : TvClass} (h : c ≠ .relationship) : Holds L c [] [] where
  slot tag k m _ _ := .nil L tag m
  id := by cases c <;> rfl
  refs _ := ⟨[], rfl, rfl⟩
  rel e := absurd e h

private theorem head_concat {b : List TvAttr} {a x : TvAttr} (h : b.head? = some x) : (b ++ [a]).head? = some x := by
  cases b with
  | nil => cases h
  | cons y b => exact h

/-- An attribute that changes none of the values. -/
theorem Holds.skip {L : LicText} {c : TvClass} {b : List TvAttr} {d : Dict Str TvVal} (h : Holds L c b d) (a : TvAttr)
    (h1 : ∀ p ∈ slots, given (b ++ [a]) p.1 = given b p.1) (h2 : idList c (b ++ [a]) = idList c b)
    (h3 : externalRefs (b ++ [a]) = externalRefs b) : Holds L c (b ++ [a]) d where
  slot tag k m hm hk := (h.slot tag k m hm hk).congr (h1 _ hm) rfl
  id := by rw [h2]; exact h.id
  refs e := by rw [h3]; exact h.refs e
  rel e := by
    obtain ⟨l, cm, x, t, r, ty, h0, rest⟩ := h.rel e
    exact ⟨l, cm, x, t, r, ty, head_concat h0, rest⟩

private theorem refs_value (b : List TvAttr) (tag : Str) (v : Tok) : externalRefs (b ++ [.value tag v]) = externalRefs b := by
  rw [externalRefs_concat]; exact List.append_nil _

theorem Holds.info {L : LicText} {c : TvClass} {b : List TvAttr} {d : Dict Str TvVal} (h : Holds L c b d) {tag : Str} {v : Tok} {k : Str}
    {m : Bool} (hm : (tag, k, m) ∈ infoSlots) : Holds L c (b ++ [.value tag v]) d := by
  refine h.skip _ (fun p hp => given_other _ _ _ _ (info_slots _ hm p hp)) (idList_other _ _ _ (fun _ e => by cases e) ?_) (refs_value _ _ _)
  intro t w e
  cases e
  exact ⟨fun _ => (info_free _ hm).1, fun _ => (info_free _ hm).2.1⟩

private theorem text_ids {L : LicText} {v : Tok} : itemOf L s%"SnippetSPDXID" v = some (.str (textOrLineValue v)) ∧
    itemOf L s%"SPDXREF" v = some (.str (textOrLineValue v)) := ⟨rfl, rfl⟩

theorem Holds.one {L : LicText} {c : TvClass} {b : List TvAttr} {d : Dict Str TvVal} (h : Holds L c b d) {tag : Str} {v : Tok} {k : Str}
    {x : TvItem} (hm : (tag, c, k, false) ∈ slots) (hx : itemOf L tag v = some x) (hn : d.get? k = none) :
    Holds L c (b ++ [.value tag v]) (d.set k (.one x)) where
  slot tag' k' m' hm' hk' := by
    by_cases e : tag = tag'
    · subst e
      cases slots_tag _ hm _ hm' rfl
      rw [Dict.get?_set, if_pos rfl]
      have := h.slot tag k false hm hk'
      rw [hn] at this
      exact this.one hx
    · have hkk : k ≠ k' := by
        intro ek; subst ek
        cases slots_inj _ hm _ hm' rfl rfl
        exact e rfl
      exact (h.slot tag' k' m' hm' hk').congr (given_other _ _ _ _ e) (set_other _ _ _ _ hkk)
  id := by
    have hf := slots_free _ hm
    by_cases hk : k = s%"spdx_id"
    · rcases hf.2.2.1.1 hk with e | e
      · cases e
        have : idList .snippet (b ++ [.value s%"SnippetSPDXID" v]) = idList .snippet b ++ [textOrLineValue v] :=
          (idsWith_concat _ _ _).trans (congrArg _ (if_pos rfl))
        rw [this, List.getLast?_concat, Dict.get?_set, if_pos rfl]
        rw [text_ids.1] at hx; cases hx; rfl
      · cases e
        have : idList .annotation (b ++ [.value s%"SPDXREF" v]) = idList .annotation b ++ [textOrLineValue v] :=
          (idsWith_concat _ _ _).trans (congrArg _ (if_pos rfl))
        rw [this, List.getLast?_concat, Dict.get?_set, if_pos rfl]
        rw [text_ids.2] at hx; cases hx; rfl
    · rw [set_other _ _ _ _ hk, idList_other]
      · exact h.id
      · exact fun _ e => by cases e
      · intro t w e
        cases e
        exact ⟨fun hc ht => hk (hf.2.2.2.1 hc ht), fun hc ht => hk (hf.2.2.2.2 hc ht)⟩
  refs e := by
    rw [refs_value, set_other _ _ _ _ (slots_free _ hm).2.1]; exact h.refs e
  rel e := absurd e (slots_free _ hm).1

theorem Holds.many {L : LicText} {c : TvClass} {b : List TvAttr} {d : Dict Str TvVal} (h : Holds L c b d) {tag : Str} {v : Tok} {k : Str}
    {x : TvItem} (hm : (tag, c, k, true) ∈ slots) (hx : itemOf L tag v = some x) :
    Holds L c (b ++ [.value tag v]) (tvAppend d k x) := by
  have hf := slots_free _ hm
  have hk : k ≠ s%"spdx_id" := by
    intro hk
    rcases hf.2.2.1.1 hk with e | e <;> cases e
  refine ⟨?_, ?_, ?_, fun e => absurd e hf.1⟩
  · intro tag' k' m' hm' hk'
    by_cases e : tag = tag'
    · subst e
      cases slots_tag _ hm _ hm' rfl
      exact (h.slot tag k true hm hk').many hx
    · have hkk : k ≠ k' := by
        intro ek; subst ek
        cases slots_inj _ hm _ hm' rfl rfl
        exact e rfl
      exact (h.slot tag' k' m' hm' hk').congr (given_other _ _ _ _ e) (append_other _ _ _ _ hkk)
  · rw [append_other _ _ _ _ hk, idList_other]
    · exact h.id
    · exact fun _ e => by cases e
    · intro t w e
      cases e
      exact ⟨fun hc ht => hk (hf.2.2.2.1 hc ht), fun hc ht => hk (hf.2.2.2.2 hc ht)⟩
  · intro e
    rw [refs_value, append_other _ _ _ _ hf.2.1]; exact h.refs e

theorem Holds.spdxId {L : LicText} {c : TvClass} {b : List TvAttr} {d : Dict Str TvVal} (h : Holds L c b d) (v : Str) :
    Holds L c (b ++ [.spdxId v]) (d.set s%"spdx_id" (.one (.str v))) where
  slot tag k m hm hk := (h.slot tag k m hm hk).congr (given_rest _ _ _ fun _ _ e => by cases e) (set_other _ _ _ _ (Ne.symm hk))
  id := by rw [idList_spdxId, List.getLast?_concat, Dict.get?_set, if_pos rfl]; rfl
  refs e := by
    rw [externalRefs_concat, set_other _ _ _ _ (show s%"spdx_id" ≠ s%"external_references" by decide)]
    exact (List.append_nil (externalRefs b)).symm ▸ h.refs e
  rel e := by
    obtain ⟨l, cm, x, t, r, ty, h0, h1, h2, h3, h4, h5, h6⟩ := h.rel e
    refine ⟨l, cm, x, t, r, ty, head_concat h0, h1, h2, ?_, ?_, ?_, ?_⟩
    · exact (set_other _ _ _ _ (by decide)).trans h3
    · exact (set_other _ _ _ _ (by decide)).trans h4
    · exact (set_other _ _ _ _ (by decide)).trans h5
    · exact (set_other _ _ _ _ (by decide)).trans h6

theorem Holds.ref {L : LicText} {b : List TvAttr} {d : Dict Str TvVal} (h : Holds L .package b d) {line : Str} {cm : Option Tok}
    {r : ExternalPackageRef} (hr : parseTvExtRef line (cm.map textOrLineValue) = .ok r) :
    Holds L .package (b ++ [.commented s%"ExternalRef" line cm]) (tvAppend d s%"external_references" (.extRef r)) where
  slot tag k m hm hk := (h.slot tag k m hm hk).congr (given_rest _ _ _ fun _ _ e => by cases e)
    (append_other _ _ _ _ (Ne.symm (slots_free _ hm).2.1))
  id := by
    rw [append_other _ _ _ _ (show s%"external_references" ≠ s%"spdx_id" by decide),
      idList_other _ _ _ (fun _ e => by cases e) (fun _ _ e => by cases e)]
    exact h.id
  refs e := by
    obtain ⟨xs, h1, h2⟩ := h.refs e
    refine ⟨xs ++ [r], ?_, ?_⟩
    · rw [externalRefs_concat, h1, List.map_append]
      refine congrArg _ ((if_pos rfl).trans ?_)
      rw [hr]; rfl
    · rw [List.map_append]
      exact listVal_append d _ _ _ h2
  rel e := by cases e

/-! ## The creation information -/

/-- The values collected for the creation information. -/
structure InfoHolds (L : LicText) (b : List TvAttr) (d : Dict Str TvVal) : Prop where
  slot : ∀ tag k m, (tag, k, m) ∈ infoSlots → Held L b (d.get? k) tag m
  id : d.get? s%"spdx_id" = (ids b).head?.map fun x => .one (.str x)

theorem InfoHolds.nil (L : LicText) : InfoHolds L [] [] where
  slot tag _ m _ := .nil L tag m
  id := rfl

theorem InfoHolds.skip {L : LicText} {b : List TvAttr} {d : Dict Str TvVal} (h : InfoHolds L b d) (a : TvAttr)
    (h1 : ∀ p ∈ infoSlots, given (b ++ [a]) p.1 = given b p.1) (h2 : (ids (b ++ [a])).head? = (ids b).head?) : InfoHolds L (b ++ [a]) d where
  slot tag k m hm := (h.slot tag k m hm).congr (h1 _ hm) rfl
  id := by rw [h2]; exact h.id

private theorem ids_value (b : List TvAttr) (tag : Str) (v : Tok) : ids (b ++ [.value tag v]) = ids b := by
  rw [ids_concat]; exact List.append_nil _

theorem InfoHolds.other {L : LicText} {b : List TvAttr} {d : Dict Str TvVal} (h : InfoHolds L b d) {tag : Str} {v : Tok} {c : TvClass} {k : Str}
    {m : Bool} (hm : (tag, c, k, m) ∈ slots) : InfoHolds L (b ++ [.value tag v]) d :=
  h.skip _ (fun p hp => given_other _ _ _ _ (Ne.symm (info_slots p hp _ hm))) (by rw [ids_value])

theorem InfoHolds.one {L : LicText} {b : List TvAttr} {d : Dict Str TvVal} (h : InfoHolds L b d) {tag : Str} {v : Tok} {k : Str}
    {x : TvItem} (hm : (tag, k, false) ∈ infoSlots) (hx : itemOf L tag v = some x) (hn : d.get? k = none) :
    InfoHolds L (b ++ [.value tag v]) (d.set k (.one x)) where
  slot tag' k' m' hm' := by
    by_cases e : tag = tag'
    · subst e
      cases infoSlots_tag _ hm _ hm' rfl
      rw [Dict.get?_set, if_pos rfl]
      have := h.slot tag k false hm
      rw [hn] at this
      exact this.one hx
    · have hkk : k ≠ k' := by
        intro ek; subst ek
        cases infoSlots_inj _ hm _ hm' rfl
        exact e rfl
      exact (h.slot tag' k' m' hm').congr (given_other _ _ _ _ e) (set_other _ _ _ _ hkk)
  id := by rw [set_other _ _ _ _ (info_free _ hm).2.2, ids_value]; exact h.id

theorem InfoHolds.many {L : LicText} {b : List TvAttr} {d : Dict Str TvVal} (h : InfoHolds L b d) {tag : Str} {v : Tok} {k : Str}
    {x : TvItem} (hm : (tag, k, true) ∈ infoSlots) (hx : itemOf L tag v = some x) :
    InfoHolds L (b ++ [.value tag v]) (tvAppend d k x) where
  slot tag' k' m' hm' := by
    by_cases e : tag = tag'
    · subst e
      cases infoSlots_tag _ hm _ hm' rfl
      exact (h.slot tag k true hm).many hx
    · have hkk : k ≠ k' := by
        intro ek; subst ek
        cases infoSlots_inj _ hm _ hm' rfl
        exact e rfl
      exact (h.slot tag' k' m' hm').congr (given_other _ _ _ _ e) (append_other _ _ _ _ hkk)
  id := by rw [append_other _ _ _ _ (info_free _ hm).2.2, ids_value]; exact h.id

theorem InfoHolds.spdxId {L : LicText} {b : List TvAttr} {d : Dict Str TvVal} (h : InfoHolds L b d) (v : Str) (hb : ids b = []) :
    InfoHolds L (b ++ [.spdxId v]) (d.set s%"spdx_id" (.one (.str v))) where
  slot tag k m hm := (h.slot tag k m hm).congr (given_rest _ _ _ fun _ _ e => by cases e) (set_other _ _ _ _ (Ne.symm (info_free _ hm).2.2))
  id := by rw [ids_concat, hb, Dict.get?_set, if_pos rfl]; rfl

end Spdx
