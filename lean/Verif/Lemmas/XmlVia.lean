import Verif.Model.Xml
import Verif.Spec.XmlOk
import Verif.Lemmas.JsonReadDoc
import Verif.Lemmas.Digits
/- What becomes of a tree that is written as XML and read again. -/
namespace Spdx.XmlVia
open Spdx Spec Spec.JsonSays
open Spdx.Spec.RdfSays (All2)

mutual
/-- The tree as it comes back. -/
def via : Json → Json
  | .bool true => .str s%"true"
  | .bool false => .str s%"false"
  | .num i => .str (intStr i)
  | .obj o => .obj (viaFields o)
  | j => j
def viaItems : List Json → List Json
  | [] => []
  | j :: l => via j :: viaItems l
def viaFields : List (Str × Json) → List (Str × Json)
  | [] => []
  | (_, .arr []) :: o => viaFields o
  | (k, .arr l) :: o => (k, .arr (viaItems l)) :: viaFields o
  | (k, .null) :: o => (k, if k ∈ listLikeFields then .arr [] else .null) :: viaFields o
  | (k, v) :: o => (k, via v) :: viaFields o
end

theorem strip_kept {s : Str} (h : XmlText s) : strip s = s := by
  obtain ⟨hn, hs, hf, _⟩ := h
  have h1 : lstrip s = s := by
    cases s with
    | nil => rfl
    | cons c s =>
      unfold lstrip
      rw [List.dropWhile_cons_of_neg]
      rw [hs c rfl]; decide
  unfold strip
  rw [h1]
  unfold rstrip
  cases hr : s.reverse with
  | nil => exact absurd (List.reverse_eq_nil_iff.1 hr) hn
  | cons c r =>
    have : isPySpace c = false := hf c (by rw [← List.head?_reverse, hr]; rfl)
    rw [List.dropWhile_cons_of_neg (by rw [this]; decide), ← hr, List.reverse_reverse]

theorem lines_kept {s : Str} (h : ∀ c ∈ s, c ≠ '\r') : xmlLines s = s := by
  induction s with
  | nil => rfl
  | cons c s ih =>
    have hc : c ≠ '\r' := h c (.head _)
    have ih := ih fun c hc => h c (.tail _ hc)
    rw [xmlLines.eq_def]
    split
    · rename_i e; cases e; exact absurd rfl hc
    · rename_i e; cases e; exact absurd rfl hc
    · rename_i e; cases e; rw [ih]
    · rename_i e; cases e

theorem xmlText_kept {s : Str} (h : XmlText s) : xmlText s = some (.str s) := by
  unfold xmlText
  rw [if_pos, lines_kept fun c hc => (h.chars c hc).1, strip_kept h, if_neg h.nonempty]
  rw [List.all_eq_true]
  intro c hc
  have := (h.chars c hc).2
  have hv : c.toNat < 0xd800 ∨ (0xdfff < c.toNat ∧ c.toNat < 0x110000) := c.valid
  unfold xmlChar
  rcases this with rfl | rfl | ⟨h1, h2, h3⟩
  · rfl
  · rfl
  · simp only [Bool.or_eq_true, Bool.and_eq_true, decide_eq_true_eq]
    omega

private theorem viaFields_ne {o : Obj} (h : ∃ m ∈ o, m.2 ≠ .arr []) : viaFields o ≠ [] := by
  induction o with
  | nil => obtain ⟨m, hm, _⟩ := h; cases hm
  | cons m o ih =>
    obtain ⟨k, v⟩ := m
    rw [viaFields.eq_def]
    split
    · rename_i e; cases e
    · rename_i e
      cases e
      obtain ⟨m, hm, hv⟩ := h
      cases hm with
      | head => exact absurd rfl hv
      | tail _ hm => exact ih ⟨m, hm, hv⟩
    all_goals exact List.cons_ne_nil _ _

theorem not_listLike {T : Str → Prop} {k : Str} {v : Json} (h : KeptAt T k v) (ha : ∀ l, v ≠ .arr l) (hn : v ≠ .null) : k ∉ listLikeFields := by
  cases v with
  | null => exact absurd rfl hn
  | bool b => rw [KeptAt] at h; rw [h]; decide
  | num i => rw [KeptAt] at h; rcases h.2 with h | h <;> (rw [h]; decide)
  | str s => exact h.2
  | arr l => exact absurd rfl (ha l)
  | obj o => exact h.1

private theorem single_via {k : Str} {v t : Json} {o m : Obj} (hk : KeptAt XmlText k v) (ha : ∀ l, v ≠ .arr l) (hn : v ≠ .null)
    (ht : xmlContent v = some t ∧ fixLists t = via v ∧ t.isArr = false ∧ (v ≠ .null → t.truthy = true))
    (hm : xmlMembers o = some m ∧ fixFields m = viaFields o) :
    ∃ m, xmlMembers ((k, v) :: o) = some m ∧ fixFields m = viaFields ((k, v) :: o) := by
  have hk := not_listLike hk ha hn
  refine ⟨(k, t) :: m, ?_, ?_⟩
  · rw [xmlMembers, ht.1, hm.1]
    exact ha
  · rw [fixFields, hm.2, viaFields, ht.2.1]
    · simp [hk]
    · exact ha []
    · exact ha
    · exact hn

mutual
theorem content_via {v : Json} {k : Str} (h : KeptAt XmlText k v) (ha : ∀ l, v ≠ .arr l) :
    ∃ t, xmlContent v = some t ∧ fixLists t = via v ∧ t.isArr = false ∧ (v ≠ .null → t.truthy = true) :=
  match v, h, ha with
  | .null, _, _ => ⟨.null, rfl, rfl, rfl, fun h => absurd rfl h⟩
  | .bool true, _, _ => ⟨_, rfl, rfl, rfl, fun _ => rfl⟩
  | .bool false, _, _ => ⟨_, rfl, rfl, rfl, fun _ => rfl⟩
  | .num i, h, _ => ⟨.str (intStr i), rfl, rfl, rfl, fun _ => by
      obtain ⟨h, _⟩ := h
      cases i with
      | ofNat n => simp [Json.truthy, intStr, natStr_ne_nil]
      | negSucc n => rfl⟩
  | .str s, h, _ => ⟨.str s, xmlText_kept h.1, rfl, rfl, fun _ => by simp [Json.truthy, h.1.nonempty]⟩
  | .arr l, _, ha => absurd rfl (ha l)
  | .obj o, h, _ => by
    obtain ⟨m, hm, hf⟩ := members_via h.2.2
    have hne : m ≠ [] := by
      rintro rfl
      exact viaFields_ne h.2.1.2 hf.symm
    refine ⟨xmlInner m, ?_, ?_, ?_, ?_⟩
    · rw [xmlContent, hm]; rfl
    · cases m with
      | nil => exact absurd rfl hne
      | cons a m => rw [xmlInner.eq_def]; dsimp only; rw [fixLists, hf, via]
    · cases m with
      | nil => exact absurd rfl hne
      | cons a m => rfl
    · intro _
      cases m with
      | nil => exact absurd rfl hne
      | cons a m => rfl
theorem items_via {l : List Json} (h : KeptItems XmlText l) :
    ∃ ts, xmlItems l = some ts ∧ fixElems ts = viaItems l ∧ ts.length = l.length ∧ ∀ t ∈ ts, t.isArr = false ∧ t.truthy = true :=
  match l, h with
  | [], _ => ⟨[], rfl, rfl, rfl, fun t ht => by cases ht⟩
  | .str s :: l, h => by
    obtain ⟨ts, h1, h2, h3, h4⟩ := items_via h.2
    refine ⟨.str s :: ts, ?_, ?_, by simp [h3], ?_⟩
    · rw [xmlItems, h1, xmlContent, xmlText_kept h.1]
    · rw [fixElems, h2, viaItems]; rfl
    · intro t ht
      cases ht with
      | head => exact ⟨rfl, by simp [Json.truthy, h.1.nonempty]⟩
      | tail _ ht => exact h4 t ht
  | .obj o :: l, h => by
    obtain ⟨m, hm, hf⟩ := members_via h.1.2
    obtain ⟨ts, h1, h2, h3, h4⟩ := items_via h.2
    have hne : m ≠ [] := by
      rintro rfl
      exact viaFields_ne h.1.1.2 hf.symm
    obtain ⟨a, m, rfl⟩ := List.exists_cons_of_ne_nil hne
    refine ⟨.obj (a :: m) :: ts, ?_, ?_, by simp [h3], ?_⟩
    · rw [xmlItems, h1, xmlContent, hm]; rfl
    · rw [fixElems, h2, viaItems, fixLists, hf, via]
    · intro t ht
      cases ht with
      | head => exact ⟨rfl, rfl⟩
      | tail _ ht => exact h4 t ht
  | .null :: _, h => h.elim
  | .bool _ :: _, h => h.elim
  | .num _ :: _, h => h.elim
  | .arr _ :: _, h => h.elim
theorem members_via {o : Obj} (h : KeptMembers XmlText o) : ∃ m, xmlMembers o = some m ∧ fixFields m = viaFields o :=
  match o, h with
  | [], _ => ⟨[], rfl, rfl⟩
  | (k, .arr l) :: o, h => by
    obtain ⟨m, hm, hf⟩ := members_via h.2
    obtain ⟨ts, h1, h2, h3, h4⟩ := items_via h.1.2
    refine ⟨xmlMember k ts ++ m, ?_, ?_⟩
    · rw [xmlMembers, h1, hm]
    · match l, ts, h3, h2, h4, h.1.1 with
      | [], [], _, _, _, _ => rw [viaFields]; exact hf
      | [x], [t], _, h2, h4, hk =>
        have hk : k ∈ listLikeFields := hk.elim id fun h => absurd h (by simp)
        show fixFields ((k, t) :: m) = _
        obtain ⟨ht1, ht2⟩ := h4 t (.head _)
        rw [fixFields, viaFields, ← h2, hf]
        · simp [hk, ht1, ht2, fixElems]
        · simp
      | x :: y :: l, t :: u :: ts, _, h2, _, _ =>
        show fixFields ((k, .arr (t :: u :: ts)) :: m) = _
        rw [fixFields, viaFields, ← h2, hf, fixLists]
        · simp [Json.isArr]
        · simp
  | (k, .null) :: o, h => by
    obtain ⟨m, hm, hf⟩ := members_via h.2
    refine ⟨(k, .null) :: m, ?_, ?_⟩
    · rw [xmlMembers, hm]; · rfl
      · intro l e; cases e
    · rw [fixFields, viaFields, hf]
      by_cases hk : k ∈ listLikeFields <;> simp [hk, Json.isArr, Json.truthy, fixLists]
  | (k, .bool b) :: o, h => by
    obtain ⟨_, hm⟩ := members_via h.2
    obtain ⟨_, ht⟩ := content_via h.1 (fun _ => Json.noConfusion)
    exact single_via h.1 (fun _ => Json.noConfusion) Json.noConfusion ht hm
  | (k, .num i) :: o, h => by
    obtain ⟨_, hm⟩ := members_via h.2
    obtain ⟨_, ht⟩ := content_via h.1 (fun _ => Json.noConfusion)
    exact single_via h.1 (fun _ => Json.noConfusion) Json.noConfusion ht hm
  | (k, .str s) :: o, h => by
    obtain ⟨_, hm⟩ := members_via h.2
    obtain ⟨_, ht⟩ := content_via h.1 (fun _ => Json.noConfusion)
    exact single_via h.1 (fun _ => Json.noConfusion) Json.noConfusion ht hm
  | (k, .obj i) :: o, h => by
    obtain ⟨_, hm⟩ := members_via h.2
    obtain ⟨_, ht⟩ := content_via h.1 (fun _ => Json.noConfusion)
    exact single_via h.1 (fun _ => Json.noConfusion) Json.noConfusion ht hm
end

theorem document_via {o : Obj} (h : KeptObj XmlText o) :
    ∃ t, xmlContent (.obj [(s%"Document", .obj o)]) = some t ∧ xmlDocument t = some (.obj (viaFields o)) := by
  obtain ⟨t, h1, h2, h3, h4⟩ := content_via (v := .obj o) (k := s%"Document") ⟨by decide, h⟩ (fun _ => Json.noConfusion)
  refine ⟨.obj [(s%"Document", t)], ?_, ?_⟩
  · rw [xmlContent, xmlMembers, h1, xmlMembers]
    · rfl
    · intro l e; cases e
  · have hf : fixLists (.obj [(s%"Document", t)]) = .obj [(s%"Document", .obj (viaFields o))] := by
      rw [fixLists, fixFields, fixFields, if_neg (by rw [show listLikeFields.contains s%"Document" = false from by decide +kernel, Bool.false_and]; exact Bool.false_ne_true), h2, via]
    have hne : viaFields o ≠ [] := viaFields_ne h.1.2
    obtain ⟨a, m, hm⟩ := List.exists_cons_of_ne_nil hne
    rw [xmlDocument, hf, hm]
    rfl

/-! Members -/

/-- What is found at a key. -/
def viaAt (k : Str) : Json → Option Json
  | .arr [] => none
  | .arr l => some (.arr (viaItems l))
  | .null => some (if k ∈ listLikeFields then .arr [] else .null)
  | v => some (via v)

private theorem lookup_none {o : Obj} {k : Str} (h : k ∉ o.map (·.1)) : (viaFields o).lookup k = none := by
  induction o with
  | nil => rfl
  | cons m o ih =>
    obtain ⟨k', v⟩ := m
    simp only [List.map_cons, List.mem_cons, not_or] at h
    have ih := ih h.2
    have hk : (k == k') = false := beq_eq_false_iff_ne.2 h.1
    rw [viaFields.eq_def]
    split
    · rename_i e; cases e
    · rename_i e; cases e; exact ih
    all_goals (rename_i e; cases e; rw [List.lookup_cons, hk]; exact ih)

theorem lookup_via {o : Obj} (h : (o.map (·.1)).Nodup) (k : Str) : (viaFields o).lookup k = (o.lookup k).bind (viaAt k) := by
  induction o with
  | nil => rfl
  | cons m o ih =>
    obtain ⟨k', v⟩ := m
    rw [List.map_cons, List.nodup_cons] at h
    have ih := ih h.2
    by_cases hk : k = k'
    · subst hk
      have hn := lookup_none h.1
      rw [List.lookup_cons, beq_self_eq_true, viaFields.eq_def]
      split
      · rename_i e; cases e
      · rename_i e; cases e; exact hn
      all_goals
        rename_i e
        cases e
        rw [List.lookup_cons, beq_self_eq_true, Option.bind_some, viaAt]
      all_goals assumption
    · have hk : (k == k') = false := beq_eq_false_iff_ne.2 hk
      rw [List.lookup_cons, hk, viaFields.eq_def]
      split
      · rename_i e; cases e
      · rename_i e; cases e; exact ih
      all_goals (rename_i e; cases e; rw [List.lookup_cons, hk]; exact ih)

theorem kept_at {T : Str → Prop} {o : Obj} (h : KeptMembers T o) {k : Str} {v : Json} (hv : o.lookup k = some v) : KeptAt T k v := by
  induction o with
  | nil => cases hv
  | cons m o ih =>
    obtain ⟨k', v'⟩ := m
    rw [List.lookup_cons] at hv
    by_cases hk : k = k'
    · subst hk
      rw [beq_self_eq_true] at hv
      cases hv
      exact h.1
    · rw [beq_eq_false_iff_ne.2 hk] at hv
      exact ih h.2 hv

/-- What a value at a key becomes. -/
inductive Turned (k : Str) : Json → Json → Prop
  | null : k ∉ listLikeFields → Turned k .null .null
  | nullList : k ∈ listLikeFields → v = .null ∨ v = .arr [] → Turned k .null v
  | bool (b : Bool) : k = s%"filesAnalyzed" → Turned k (.bool b) (via (.bool b))
  | num (i : Int) : 0 ≤ i → k = s%"offset" ∨ k = s%"lineNumber" → Turned k (.num i) (.str (intStr i))
  | str (s : Str) : XmlText s → k ∉ listLikeFields → Turned k (.str s) (.str s)
  | arrNil : k ∈ listLikeFields → Turned k (.arr []) .null
  | arr (l : List Json) : l ≠ [] → KeptItems XmlText l → Turned k (.arr l) (.arr (viaItems l))
  | obj (o : Obj) : k ∉ listLikeFields → KeptObj XmlText o → Turned k (.obj o) (.obj (viaFields o))

theorem turned {o : Obj} (h : KeptObj XmlText o) (k : Str) : Turned k (valueAt o k) (valueAt (viaFields o) k) := by
  unfold valueAt
  rw [lookup_via h.1.1]
  cases hl : o.lookup k with
  | none =>
    show Turned k .null .null
    by_cases hk : k ∈ listLikeFields
    · exact .nullList hk (.inl rfl)
    · exact .null hk
  | some v =>
    have hv := kept_at h.2 hl
    show Turned k v ((viaAt k v).getD .null)
    cases v with
    | null =>
      by_cases hk : k ∈ listLikeFields
      · exact .nullList hk (.inr (by rw [viaAt, if_pos hk]; rfl))
      · rw [viaAt, if_neg hk]; exact .null hk
    | bool b => exact .bool b hv
    | num i => exact .num i hv.1 hv.2
    | str s => exact .str s hv.1 hv.2
    | arr l =>
      cases l with
      | nil => exact .arrNil (hv.1.elim id fun h => absurd h (by decide))
      | cons x l => exact .arr _ (List.cons_ne_nil _ _) hv.2
    | obj o => exact .obj o hv.1 hv.2

/-! Values -/

variable {α : Type} {k : Str} {v w : Json}

theorem Turned.text {s : Str} (t : Turned k v w) (h : v = .str s) : w = .str s := by subst h; cases t; rfl

theorem Turned.ofNull (t : Turned k v w) (hk : k ∉ listLikeFields) (h : v = .null) : w = .null := by
  subst h
  cases t with
  | null => rfl
  | nullList h => exact absurd h hk

theorem Turned.object {o : Obj} (t : Turned k v w) (h : v = .obj o) : w = .obj (viaFields o) ∧ KeptObj XmlText o := by
  subst h; cases t; exact ⟨rfl, by assumption⟩

theorem Turned.optText {x : Option Str} (t : Turned k v w) (hk : k ∉ listLikeFields) (h : OptText v x) : OptText w x :=
  h.imp (fun h => ⟨t.ofNull hk h.1, h.2⟩) fun ⟨s, h, e⟩ => ⟨s, t.text h, e⟩

theorem viaItems_str (l : List Str) : viaItems (l.map .str) = l.map .str := by
  induction l with
  | nil => rfl
  | cons s l ih => rw [List.map_cons, viaItems, ih]; rfl

theorem Turned.texts {l : List Str} (t : Turned k v w) (hk : k ∈ listLikeFields) (h : Texts v l) : Texts w l := by
  rcases h with ⟨rfl, rfl⟩ | rfl
  · cases t with
    | null h => exact absurd hk h
    | nullList _ h => exact h.imp (fun h => ⟨h, rfl⟩) fun h => h
  · cases l with
    | nil => cases t with
      | arrNil => exact .inl ⟨rfl, rfl⟩
      | arr _ h => exact absurd rfl h
    | cons x l =>
      generalize hg : (x :: l).map Json.str = ys at t
      cases t with
      | arrNil => cases hg
      | arr _ h => subst hg; exact .inr (by rw [viaItems_str])

theorem Turned.special {x : OrSpecial Str} (t : Turned k v w) (h : Special v x) : Special w x := by
  cases h with
  | noAssertion => rw [t.text rfl]; exact .noAssertion
  | none => rw [t.text rfl]; exact .none
  | text s h1 h2 => rw [t.text rfl]; exact .text s h1 h2

theorem Turned.optSpecial {x : Option (OrSpecial Str)} (t : Turned k v w) (hk : k ∉ listLikeFields) (h : OptSpecial v x) : OptSpecial w x :=
  h.imp (fun h => ⟨t.ofNull hk h.1, h.2⟩) fun ⟨y, h, e⟩ => ⟨y, t.special h, e⟩

theorem Turned.optNoAssertion {x : Option (OrNoAssertion Str)} (t : Turned k v w) (hk : k ∉ listLikeFields) (h : OptNoAssertion v x) :
    OptNoAssertion w x := by
  cases h with
  | missing => rw [t.ofNull hk rfl]; exact .missing
  | noAssertion => rw [t.text rfl]; exact .noAssertion
  | text s h => rw [t.text rfl]; exact .text s h

/-- The key is not one of those with truth values and numbers. -/
def Plain (k : Str) : Prop := k ≠ s%"filesAnalyzed" ∧ k ≠ s%"offset" ∧ k ≠ s%"lineNumber"
instance (k : Str) : Decidable (Plain k) := inferInstanceAs (Decidable (_ ∧ _))

theorem Turned.blank (t : Turned k v w) (hk : Plain k) (h : Blank v) : Blank w := by
  rw [Spdx.JsonSays.blank_iff] at *
  cases t with
  | null => exact h
  | nullList _ h => rcases h with rfl | rfl <;> decide
  | bool _ e => exact absurd e hk.1
  | num _ _ e => exact absurd e (not_or.2 hk.2)
  | str s => exact h
  | arrNil => decide
  | arr l hl => cases l with
    | nil => exact absurd rfl hl
    | cons x l => exact absurd rfl h
  | obj o _ ho => cases o with
    | nil => obtain ⟨_, hm, _⟩ := ho.1.2; cases hm
    | cons x l => exact absurd rfl h

theorem Turned.notBlank (t : Turned k v w) (h : ¬ Blank v) : ¬ Blank w := by
  rw [Spdx.JsonSays.blank_iff, Classical.not_not] at *
  cases t with
  | null => cases h
  | nullList => cases h
  | bool b => cases b <;> rfl
  | num i hi => cases i with
    | ofNat n => simp [Json.truthy, intStr, natStr_ne_nil]
    | negSucc n => rfl
  | str s => exact h
  | arrNil => cases h
  | arr l hl => cases l with
    | nil => exact absurd rfl hl
    | cons x l => rfl
  | obj o _ ho =>
    obtain ⟨a, m, hm⟩ := List.exists_cons_of_ne_nil (viaFields_ne ho.1.2)
    rw [hm]; rfl

/-- The relation speaks about texts. -/
def Textual (R : Json → α → Prop) : Prop := ∀ v a, R v a → ∃ s, v = .str s

/-- The relation survives. -/
def Keeps (R : Json → α → Prop) : Prop := ∀ o a, KeptObj XmlText o → R (.obj o) a → R (.obj (viaFields o)) a

theorem Textual.keeps {R : Json → α → Prop} (h : Textual R) : Keeps R := fun _ _ _ hr => by obtain ⟨_, e⟩ := h _ _ hr; cases e

theorem Turned.of {R : Json → α → Prop} (t : Turned k v w) (hR : Textual R) {a : α} (h : R v a) : R w a := by
  obtain ⟨s, rfl⟩ := hR _ _ h
  rw [t.text rfl]; exact h

theorem Turned.field {R : Json → α → Prop} (t : Turned k v w) (hk : Plain k) (hR : Textual R) {x : Option α} (h : Field R v x) : Field R w x :=
  h.imp (fun h => ⟨t.blank hk h.1, h.2⟩) fun ⟨hb, a, h, e⟩ => ⟨t.notBlank hb, a, t.of hR h, e⟩

theorem Turned.required {R : Json → α → Prop} (t : Turned k v w) (hR : Textual R) {a : α} (h : Required R v a) : Required R w a :=
  ⟨t.notBlank h.1, t.of hR h.2⟩

theorem keeps_object {R : Obj → α → Prop} (h : ∀ o a, KeptObj XmlText o → R o a → R (viaFields o) a) : Keeps (Object R) := by
  rintro o a ho ⟨_, e, hr⟩
  cases e
  exact ⟨_, rfl, h _ _ ho hr⟩

theorem keeps_required {R : Json → α → Prop} (h : Keeps R) : Keeps (Required R) := fun o a ho hr =>
  ⟨Turned.notBlank (Turned.obj (k := []) o (by decide) ho) hr.1, h o a ho hr.2⟩

theorem Turned.ofObject {R : Obj → α → Prop} (t : Turned k v w) (hR : Keeps (Object R)) {a : α} (h : Object R v a) : Object R w a := by
  obtain ⟨o, rfl, hr⟩ := h
  obtain ⟨rfl, ho⟩ := t.object rfl
  exact hR o a ho ⟨o, rfl, hr⟩

theorem all2_via {R : Json → α → Prop} (hR : Keeps R) {l : List Json} {as : List α} (h : KeptItems XmlText l) (ha : All2 R l as) :
    All2 R (viaItems l) as := by
  induction ha with
  | nil => exact .nil
  | @cons x a l as hr _ ih =>
    cases x with
    | str s => exact .cons hr (ih h.2)
    | obj o => exact .cons (hR o a h.1 hr) (ih h.2)
    | null => exact h.elim
    | bool _ => exact h.elim
    | num _ => exact h.elim
    | arr _ => exact h.elim

theorem Turned.listOf {R : Json → α → Prop} (t : Turned k v w) (hk : k ∈ listLikeFields) (hR : Keeps R) {l : List α}
    (h : Required (ListOf R) v l) : Required (ListOf R) w l := by
  refine ⟨t.notBlank h.1, ?_⟩
  obtain ⟨hb, items, hi, ha⟩ := h
  cases t with
  | arr l hl hkept =>
    rcases hi with hi | ⟨_, hi, _⟩ | ⟨_, hi, _⟩ <;> cases hi
    exact ⟨_, .inl rfl, all2_via hR hkept ha⟩
  | null h => exact absurd hk h
  | nullList => exact absurd (.inl rfl) hb
  | bool _ e => exact absurd hk (by rw [e]; decide)
  | num _ _ e => exact absurd hk (by rcases e with e | e <;> (rw [e]; decide))
  | str _ _ h => exact absurd hk h
  | arrNil => exact absurd (by simp [Blank]) hb
  | obj _ h => exact absurd hk h

theorem Turned.optList {R : Json → α → Prop} (t : Turned k v w) (hk : k ∈ listLikeFields) (hR : Keeps R) {l : List α}
    (h : OptList R v l) : OptList R w l :=
  h.imp (fun h => ⟨t.blank ⟨by rintro rfl; revert hk; decide, by rintro rfl; revert hk; decide, by rintro rfl; revert hk; decide⟩ h.1, h.2⟩)
    fun h => t.listOf hk hR h

theorem Turned.filesAnalyzed {b : Bool} (t : Turned k v w) (hk : k ∉ listLikeFields) (h : FilesAnalyzed v b) : FilesAnalyzed w b := by
  rcases h with ⟨rfl, h⟩ | rfl | ⟨s, rfl, h⟩
  · exact .inl ⟨t.ofNull hk rfl, h⟩
  · cases t
    cases b
    · exact .inr (.inr ⟨s%"false", rfl, by decide⟩)
    · exact .inr (.inr ⟨s%"true", rfl, by decide⟩)
  · exact .inr (.inr ⟨s, t.text rfl, h⟩)

theorem Turned.optLicense {L : LicText} (t : Turned k v w) (hk : Plain k) {x : Option (OrSpecial LicExpr)} (h : OptLicense L v x) :
    OptLicense L w x :=
  h.imp (fun h => ⟨t.blank hk h.1, h.2⟩) fun ⟨hb, h⟩ => ⟨t.notBlank hb, t.of (by intro v a h; cases h <;> exact ⟨_, rfl⟩) h⟩

theorem Turned.number {i : Int} (t : Turned k v w) (h : Number v i) (hf : k ≠ s%"filesAnalyzed") : Number w i := by
  cases h with
  | num i =>
    cases t with
    | num _ hi =>
      obtain ⟨n, rfl⟩ := Int.eq_ofNat_of_zero_le hi
      exact .digits (natStr n) n (natStr_ne_nil n) (fun c hc => (natStr_digits n c hc).2) (digitsVal_natStr n)
  | bool b => cases t with
    | bool _ e => exact absurd e hf
  | digits s n h1 h2 h3 => rw [t.text rfl]; exact .digits s n h1 h2 h3

theorem entries_via {o : Obj} (h : KeptObj XmlText o) (k : Str) {l : List Json} (he : Entries o k l)
    (hl : k ∈ listLikeFields ∨ ∀ x ∈ l, ∀ s, x ≠ .str s) : Entries (viaFields o) k (viaItems l) ∧ KeptItems XmlText l := by
  unfold Entries
  rw [lookup_via h.1.1]
  rcases he with ⟨he, rfl⟩ | ⟨v, he, hi⟩
  · rw [he]; exact ⟨.inl ⟨rfl, rfl⟩, by rw [KeptItems]; trivial⟩
  · have hv := kept_at h.2 he
    rw [he]
    rcases hi with rfl | ⟨s, rfl, rfl⟩ | ⟨m, rfl, rfl⟩
    · refine ⟨?_, hv.2⟩
      cases l with
      | nil => exact .inl ⟨rfl, rfl⟩
      | cons x l => exact .inr ⟨_, rfl, .inl rfl⟩
    · refine absurd hl (not_or.2 ⟨hv.2, fun h => ?_⟩)
      obtain ⟨c, r, rfl⟩ := List.exists_cons_of_ne_nil hv.1.nonempty
      exact h _ (.head _) _ rfl
    · refine absurd hl (not_or.2 ⟨hv.1, fun h => ?_⟩)
      obtain ⟨a, ha, _⟩ := hv.2.1.2
      exact h _ (List.mem_map_of_mem ha) _ rfl

end Spdx.XmlVia
