import Verif.Lemmas.TvOrder
/-
Lemmas for C84: the order of attributes within sections does not decide whether a document is accepted.
-/
namespace Spdx.TvOrder
open Spec

variable {a b : TvAttr}

/-! ### Places that are alike -/

/-- The same attribute, at places that make no difference. -/
structure Like (p q : Place) : Prop where
  attr : p.attr = q.attr
  element : p.element = q.element
  ids : (∃ v, p.attr = .spdxId v) → idGiven p.before = idGiven q.before

theorem Like.gives {p q : Place} (h : Like p q) : p.gives = q.gives := by
  unfold Place.gives
  rw [← h.attr, ← h.element]
  split
  · rfl
  · rename_i v e; rw [h.ids ⟨v, e⟩]
  · rfl
  · rfl
  · rfl

theorem Like.misplaced {p q : Place} (h : Like p q) : p.misplaced = q.misplaced := by
  unfold Place.misplaced
  rw [← h.attr, ← h.element]

theorem Like.blankIn {p q : Place} (h : Like p q) (L : LicText) (f : Str) : p.blankIn L f = q.blankIn L f := by
  unfold Place.blankIn
  rw [← h.attr, ← h.element]

theorem complaints_congr {p q : Place} (h : Like p q) (L : LicText) {e e' : List Place}
    (he : ∀ tag v c f, p.attr = .value tag v → slots.lookup tag = some (c, f, false) → p.element = some c → (f ∈ filled e ↔ f ∈ filled e')) :
    p.complaints L e = q.complaints L e' := by
  unfold Place.complaints
  rw [← h.attr, ← h.element]
  split
  · rename_i tag v ea
    congr 1
    split
    · rename_i c f many es
      split
      · rename_i hc
        cases many with
        | true => simp
        | false =>
          simp only [true_and]
          by_cases hf : f ∈ filled e
          · rw [if_pos hf, if_pos ((he tag v c f ea es hc).1 hf)]
          · rw [if_neg hf, if_neg fun x => hf ((he tag v c f ea es hc).2 x)]
      · rfl
    · rfl
  all_goals rfl

/-- The same fields with the same class have the same tag. -/
theorem slot_tag : ∀ x ∈ slots, ∀ y ∈ slots, x.2.1 = y.2.1 → x.2.2.1 = y.2.2.1 → x.1 = y.1 := by decide +kernel

theorem slot_plain : ∀ x ∈ slots, x.2.2.2 = false → x.2.2.1 ≠ s%"attribution_texts" ∧ x.2.2.1 ≠ s%"external_references" := by decide +kernel

theorem slot_id : ∀ x ∈ slots, x.2.2.1 = s%"spdx_id" → x.1 = s%"SPDXREF" ∨ x.1 = s%"SnippetSPDXID" := by decide +kernel

theorem lookup_mem {α : Type} {k : Str} {v : α} : ∀ {l : List (Str × α)}, l.lookup k = some v → (k, v) ∈ l := by
  intro l
  induction l with
  | nil => intro h; cases h
  | cons x l ih =>
    obtain ⟨k', v'⟩ := x
    intro h
    rw [List.lookup_cons] at h
    split at h
    · rename_i e; cases h; rw [eq_of_beq e]; exact List.mem_cons_self ..
    · exact List.mem_cons_of_mem _ (ih h)

/-- An attribute does not fill the field of an attribute of another kind. -/
theorem gives_other {p q : Place} (h : Free p.attr q.attr) (he : p.element = q.element) {tag f : Str} {v : Tok} {c : TvClass}
    (hq : q.attr = .value tag v) (hs : slots.lookup tag = some (c, f, false)) (hc : q.element = some c) : f ∉ p.gives := by
  have hm := lookup_mem hs
  intro hf
  unfold Place.gives at hf
  split at hf
  · rename_i t w ea
    split at hf
    · rename_i c2 f2 m2 es
      have hm2 := lookup_mem es
      split at hf
      · rename_i hx
        cases List.mem_singleton.1 hf
        rcases hx.1 with hx | hx
        · rw [he, hc] at hx
          cases hx
          have e : t = tag := slot_tag _ hm2 _ hm rfl rfl
          refine h.kinds ?_
          rw [ea, hq, e]
          rfl
        · subst hx
          have : f = s%"attribution_texts" := by
            have e : slots.lookup s%"PackageAttributionText" = some (.package, s%"attribution_texts", true) := by decide +kernel
            rw [e] at es
            cases es
            rfl
          exact (slot_plain _ hm rfl).1 this
      · cases hf
    · cases hf
  · rename_i w ea
    split at hf
    · cases List.mem_singleton.1 hf
      rcases slot_id _ hm rfl with e | e
      · refine h.kinds ?_
        rw [ea, hq]
        subst e
        rfl
      · have := h.second
        rw [hq] at this
        subst e
        exact absurd this (by exact (by decide : begins.lookup s%"SnippetSPDXID" ≠ none))
    · cases hf
  · rename_i t line comment ea
    split at hf
    · rename_i ht
      subst ht
      have := h.first
      rw [ea] at this
      exact absurd this (by intro e; cases e)
    · split at hf
      · exact (slot_plain _ hm rfl).2 (List.mem_singleton.1 hf)
      · cases hf
  · cases hf
  · cases hf

/-! ### Lists of places -/

/-- The same attributes, but that neighbours may have been exchanged. -/
inductive Likes : List Place → List Place → Prop
  | nil : Likes [] []
  | cons {p q ps qs} : Like p q → Likes ps qs → Likes (p :: ps) (q :: qs)
  | swap {p p' q q' ps qs} : Like p p' → Like q q' → Free p.attr q.attr → p.element = q.element → Likes ps qs → Likes (p :: q :: ps) (q' :: p' :: qs)

theorem Like.refl (p : Place) : Like p p := ⟨rfl, rfl, fun _ => rfl⟩
theorem Like.symm {p q : Place} (h : Like p q) : Like q p :=
  ⟨h.attr.symm, h.element.symm, fun ⟨v, e⟩ => (h.ids ⟨v, h.attr.trans e⟩).symm⟩

theorem Likes.refl : ∀ ps : List Place, Likes ps ps
  | [] => .nil
  | p :: ps => .cons (.refl p) (.refl ps)

theorem Likes.symm {ps qs : List Place} (h : Likes ps qs) : Likes qs ps := by
  induction h with
  | nil => exact .nil
  | cons h _ ih => exact .cons h.symm ih
  | swap h1 h2 h3 h4 _ ih =>
    refine .swap h2.symm h1.symm ?_ ?_ ih
    · rw [← h1.attr, ← h2.attr]; exact h3.symm
    · rw [← h1.element, ← h2.element]; exact h4.symm

theorem Likes.append {ps qs ps' qs' : List Place} (h : Likes ps qs) (h' : Likes ps' qs') : Likes (ps ++ ps') (qs ++ qs') := by
  induction h with
  | nil => exact h'
  | cons h _ ih => exact .cons h ih
  | swap h1 h2 h3 h4 _ ih => exact .swap h1 h2 h3 h4 ih

theorem filled_cons (p : Place) (ps : List Place) : filled (p :: ps) = p.gives ++ filled ps := by simp [filled]
theorem filled_append (ps qs : List Place) : filled (ps ++ qs) = filled ps ++ filled qs := by simp [filled]

theorem Likes.filled {ps qs : List Place} (h : Likes ps qs) : (Spec.filled ps).Perm (Spec.filled qs) := by
  induction h with
  | nil => exact .refl _
  | cons h _ ih => rw [filled_cons, filled_cons, h.gives]; exact ih.append_left _
  | swap h1 h2 _ _ _ ih =>
    simp only [filled_cons, h1.gives, h2.gives]
    rw [← List.append_assoc, ← List.append_assoc]
    exact List.perm_append_comm.append ih

theorem Likes.blankIn {ps qs : List Place} (h : Likes ps qs) (L : LicText) (f : Str) :
    ps.any (·.blankIn L f) = qs.any (·.blankIn L f) := by
  induction h with
  | nil => rfl
  | cons h _ ih => rw [List.any_cons, List.any_cons, h.blankIn, ih]
  | swap h1 h2 _ _ _ ih =>
    simp only [List.any_cons, h1.blankIn, h2.blankIn, ih]
    rw [Bool.or_left_comm]

theorem Likes.complaints {ps qs : List Place} (h : Likes ps qs) (L : LicText) :
    ∀ {e e' : List Place}, (Spec.filled e).Perm (Spec.filled e') → (complaintsFrom L e ps).Perm (complaintsFrom L e' qs) := by
  induction h with
  | nil => intro _ _ _; exact .refl _
  | cons h _ ih =>
    intro e e' he
    rw [complaintsFrom, complaintsFrom, complaints_congr h L (e' := e') fun _ _ _ _ _ _ _ => he.mem_iff]
    refine (ih ?_).append_left _
    rw [filled_append, filled_append, filled_cons, filled_cons, h.gives]
    exact he.append_right _
  | @swap p p' q q' ps qs h1 h2 h3 h4 _ ih =>
    intro e e' he
    have hfree : Free q'.attr p'.attr := by rw [← h1.attr, ← h2.attr]; exact h3.symm
    have hel : q'.element = p'.element := by rw [← h1.element, ← h2.element]; exact h4.symm
    have e1 : Place.complaints L e p = Place.complaints L (e' ++ [q']) p' := by
      refine complaints_congr h1 L fun tag v c f ea es ec => ?_
      rw [filled_append, List.mem_append, he.mem_iff]
      refine ⟨.inl, fun hx => hx.resolve_right fun hx => ?_⟩
      rw [filled_cons] at hx
      have hx : f ∈ q'.gives := by simpa [Spec.filled] using hx
      exact gives_other hfree hel (h1.attr ▸ ea) es (h1.element ▸ ec) hx
    have e2 : Place.complaints L (e ++ [p]) q = Place.complaints L e' q' := by
      refine complaints_congr h2 L fun tag v c f ea es ec => ?_
      rw [filled_append, List.mem_append, he.mem_iff]
      refine ⟨fun hx => hx.resolve_right fun hx => ?_, .inl⟩
      have hx : f ∈ p.gives := by simpa [Spec.filled] using hx
      exact gives_other h3 h4 ea es ec hx
    simp only [complaintsFrom, e1, e2]
    rw [← List.append_assoc, ← List.append_assoc]
    refine List.perm_append_comm.append (ih ?_)
    simp only [filled_append, filled_cons, h1.gives, h2.gives, List.append_assoc]
    refine he.append ?_
    have : Spec.filled [] = [] := rfl
    simp only [this, List.nil_append, List.append_nil]
    exact List.perm_append_comm

theorem perm_nil_iff {α : Type} {l m : List α} (h : l.Perm m) : l = [] ↔ m = [] :=
  ⟨fun e => (e ▸ h).symm.eq_nil, fun e => (e ▸ h).eq_nil⟩

theorem Likes.fine {ps qs : List Place} (h : Likes ps qs) (L : LicText) : elementComplaints L ps = [] ↔ elementComplaints L qs = [] :=
  perm_nil_iff (h.complaints L (.refl _))

theorem Likes.unexpected {ps qs : List Place} (h : Likes ps qs) (c : TvClass) : Spec.unexpected c ps = [] ↔ Spec.unexpected c qs = [] :=
  perm_nil_iff (h.filled.filter _)

theorem Likes.missing {ps qs : List Place} (h : Likes ps qs) (c : TvClass) : Spec.missing c ps = Spec.missing c qs := by
  unfold Spec.missing
  congr 1
  funext f
  simp only [h.filled.mem_iff]

theorem Likes.blank {ps qs : List Place} (h : Likes ps qs) (L : LicText) (c : TvClass) : Spec.blank L c ps = Spec.blank L c qs := by
  unfold Spec.blank
  congr 1
  funext f
  exact h.blankIn L f

theorem Likes.sane {ps qs : List Place} (h : Likes ps qs) (L : LicText) (c : TvClass) : Sane L c ps ↔ Sane L c qs := by
  unfold Sane
  rw [h.fine L, h.unexpected c, h.missing c, h.blank L c]

/-! ### Sections -/

/-- The same elements, with the same attributes. -/
structure LikeSections (P Q : Sections) : Prop where
  complete : Spec.All2 (fun x y : TvClass × List Place => x.1 = y.1 ∧ Likes x.2 y.2) P.complete Q.complete
  last : Likes P.last Q.last

theorem all2_exists {α β : Type} {R : α → β → Prop} {l : List α} {m : List β} (h : Spec.All2 R l m) {p : α → Prop} {q : β → Prop}
    (hr : ∀ x y, R x y → (p x ↔ q y)) : (∃ x ∈ l, p x) ↔ ∃ y ∈ m, q y := by
  induction h with
  | nil => simp
  | cons h _ ih => simp only [List.mem_cons, exists_eq_or_imp, hr _ _ h, ih]

theorem LikeSections.closing {P Q : Sections} (h : LikeSections P Q) (L : LicText) (c : TvClass) : P.closing L c = [] ↔ Q.closing L c = [] := by
  have hl := h.last
  have e1 : (∃ p ∈ P.complete, p.1 = .package ∧ elementComplaints L p.2 = []) ↔ ∃ p ∈ Q.complete, p.1 = .package ∧ elementComplaints L p.2 = [] :=
    all2_exists h.complete fun x y hx => by rw [hx.1, hx.2.fine L]
  have e2 : (∃ p ∈ P.complete, p.1 = .package ∧ Sane L .package p.2) ↔ ∃ p ∈ Q.complete, p.1 = .package ∧ Sane L .package p.2 :=
    all2_exists h.complete fun x y hx => by rw [hx.1, hx.2.sane L]
  unfold Sections.closing
  simp only [e1, e2, ← hl.missing c, ← hl.blank L c, ne_eq, hl.fine L, hl.unexpected c]
  split
  · simp
  split
  · simp
  split
  · simp
  split
  · simp
  split <;> simp

/-- What stands before makes no difference to what follows. -/
structure Before (pre pre' : List TvAttr) : Prop where
  ids : ids pre = ids pre'
  current : current pre = current pre'
  parts : LikeSections (parts pre) (parts pre')

theorem partsFrom_append (l r : List TvAttr) : ∀ (pre : List TvAttr) (P : Sections), partsFrom pre P (l ++ r) = partsFrom (pre ++ l) (partsFrom pre P l) r := by
  induction l with
  | nil => intro pre P; simp [partsFrom]
  | cons x l ih => intro pre P; rw [List.cons_append, partsFrom, partsFrom, ih]; simp

theorem parts_snoc (l : List TvAttr) (x : TvAttr) : parts (l ++ [x]) = (parts l).add l x := by
  rw [parts, partsFrom_append]
  rfl

theorem ids_append (l r : List TvAttr) : ids (l ++ r) = ids l ++ ids r := List.filterMap_append

theorem Before.like {pre pre' : List TvAttr} (h : Before pre pre') (x : TvAttr) : Like ⟨pre, x⟩ ⟨pre', x⟩ := by
  refine ⟨rfl, ?_, fun _ => ?_⟩
  · show Spec.current (pre ++ [x]) = Spec.current (pre' ++ [x])
    rw [current_append, current_append, h.current]
  · show idGiven pre = idGiven pre'
    unfold idGiven
    rw [h.ids]

theorem all2_append {α β : Type} {R : α → β → Prop} {l l' : List α} {m m' : List β} (h : Spec.All2 R l m) (h' : Spec.All2 R l' m') :
    Spec.All2 R (l ++ l') (m ++ m') := by
  induction h with
  | nil => exact h'
  | cons h _ ih => exact .cons h ih

theorem Before.snoc {pre pre' : List TvAttr} (h : Before pre pre') (x : TvAttr) : Before (pre ++ [x]) (pre' ++ [x]) := by
  refine ⟨by rw [ids_append, ids_append, h.ids], by rw [current_append, current_append, h.current], ?_⟩
  rw [parts_snoc, parts_snoc]
  have ho : LikeSections ((Spec.parts pre).opened pre x) ((Spec.parts pre').opened pre' x) := by
    unfold Sections.opened
    rw [← h.current]
    split
    · exact ⟨all2_append h.parts.complete (.cons ⟨rfl, h.parts.last⟩ .nil), .nil⟩
    · exact h.parts
  exact ⟨ho.complete, ho.last.append (.cons (h.like x) .nil)⟩

theorem Before.swap (h : Free a b) (l : List TvAttr) : Before (l ++ [a] ++ [b]) (l ++ [b] ++ [a]) := by
  have hs := ids_swap h l []
  have ea : ∀ (P : Sections) pre x, opens x = none → P.opened pre x = P := by
    intro P pre x e
    unfold Sections.opened
    rw [e]
  refine ⟨by simpa using hs, by simpa using current_swap h l [], ?_⟩
  rw [parts_snoc, parts_snoc, parts_snoc, parts_snoc]
  simp only [Sections.add, ea _ _ a h.first, ea _ _ b h.second]
  refine ⟨?_, ?_⟩
  · generalize (Spec.parts l).complete = m
    induction m with
    | nil => exact .nil
    | cons x m ih => exact .cons ⟨rfl, .refl _⟩ ih
  · simp only [List.append_assoc]
    refine (Likes.refl _).append (.swap ⟨rfl, ?_, ?_⟩ ⟨rfl, ?_, ?_⟩ h ?_ .nil)
    · show Spec.current (l ++ [a]) = Spec.current (l ++ [b] ++ [a])
      rw [current_free h.first, current_free h.first, current_free h.second]
    · rintro ⟨v, e⟩
      show idGiven l = idGiven (l ++ [b])
      cases b with
      | spdxId w => cases (show a = _ from e); exact absurd rfl h.kinds
      | _ => unfold idGiven; rw [ids_append]; simp [Spec.ids]
    · show Spec.current (l ++ [a] ++ [b]) = Spec.current (l ++ [b])
      rw [current_free h.second, current_free h.second, current_free h.first]
    · rintro ⟨v, e⟩
      show idGiven (l ++ [a]) = idGiven l
      cases a with
      | spdxId w => cases (show b = _ from e); exact absurd rfl h.kinds
      | _ => unfold idGiven; rw [ids_append]; simp [Spec.ids]
    · show Spec.current (l ++ [a]) = Spec.current (l ++ [a] ++ [b])
      rw [current_free h.second]

theorem Before.closing {pre pre' : List TvAttr} (h : Before pre pre') (L : LicText) : Spec.closing L pre = [] ↔ Spec.closing L pre' = [] := by
  unfold Spec.closing
  rw [← h.current]
  split
  · exact Iff.rfl
  · exact h.parts.closing L _

theorem Before.told (L : LicText) (r : List TvAttr) : ∀ {pre pre' : List TvAttr}, Before pre pre' → (toldFrom L pre r = [] ↔ toldFrom L pre' r = []) := by
  induction r with
  | nil => intro pre pre' h; exact h.closing L
  | cons x r ih =>
    intro pre pre' h
    rw [toldFrom, toldFrom]
    simp only [List.append_eq_nil_iff, ih (h.snoc x), (h.like x).misplaced]
    split
    · rw [h.closing L]
    · exact Iff.rfl

theorem toldFrom_swap (h : Free a b) (L : LicText) (l r : List TvAttr) : ∀ pre : List TvAttr,
    toldFrom L pre (l ++ a :: b :: r) = [] ↔ toldFrom L pre (l ++ b :: a :: r) = [] := by
  induction l with
  | nil =>
    intro pre
    have m : ∀ (x y : TvAttr), opens y = none → opens x = none → Free x y → Place.misplaced ⟨pre ++ [y], x⟩ = Place.misplaced ⟨pre, x⟩ := by
      intro x y hy hx hf
      unfold Place.misplaced
      have : Place.element ⟨pre ++ [y], x⟩ = Place.element ⟨pre, x⟩ := by
        show Spec.current (pre ++ [y] ++ [x]) = Spec.current (pre ++ [x])
        rw [current_free hx, current_free hx, current_free hy]
      rw [this]
    simp only [List.nil_append, toldFrom, h.first, h.second, List.append_eq_nil_iff, m a b h.second h.first h, m b a h.first h.second h.symm,
      Before.told L r (Before.swap h pre)]
    simp [and_left_comm]
  | cons x l ih =>
    intro pre
    rw [List.cons_append, List.cons_append, toldFrom, toldFrom]
    simp only [List.append_eq_nil_iff, ih]

/-! ### The creation information -/

theorem infoSlot_tag : ∀ x ∈ infoSlots, ∀ y ∈ infoSlots, x.2.1 = y.2.1 → x.1 = y.1 := by decide +kernel
theorem infoSlot_id : ∀ x ∈ infoSlots, x.2.1 ≠ s%"spdx_id" := by decide +kernel

theorem info_congr {x : TvAttr} {pre pre' : List TvAttr}
    (h : ∀ tag v f, x = .value tag v → infoSlots.lookup tag = some (f, false) → (f ∈ pre.flatMap givesInfo ↔ f ∈ pre'.flatMap givesInfo)) :
    infoComplaints pre x = infoComplaints pre' x := by
  unfold infoComplaints
  split
  · rename_i tag v
    split
    · rename_i f many e
      cases many with
      | true => simp
      | false =>
        simp only [true_and]
        by_cases hf : f ∈ pre.flatMap givesInfo
        · rw [if_pos hf, if_pos ((h tag v f rfl e).1 hf)]
        · rw [if_neg hf, if_neg fun x => hf ((h tag v f rfl e).2 x)]
    · rfl
  all_goals rfl

theorem givesInfo_other (h : Free a b) {tag f : Str} {v : Tok} (hb : b = .value tag v) (hs : infoSlots.lookup tag = some (f, false)) : f ∉ givesInfo a := by
  have hm := lookup_mem hs
  intro hf
  unfold givesInfo at hf
  split at hf
  · rename_i t w
    split at hf
    · rename_i f2 m2 es
      split at hf
      · cases List.mem_singleton.1 hf
        have e : t = tag := infoSlot_tag _ (lookup_mem es) _ hm rfl
        refine h.kinds ?_
        rw [hb, e]
        rfl
      · cases hf
    · cases hf
  · exact infoSlot_id _ hm (List.mem_singleton.1 hf)
  · cases hf

theorem infoFrom_perm (r : List TvAttr) : ∀ {pre pre' : List TvAttr}, (pre.flatMap givesInfo).Perm (pre'.flatMap givesInfo) →
    infoComplaintsFrom pre r = infoComplaintsFrom pre' r := by
  induction r with
  | nil => intro _ _ _; rfl
  | cons x r ih =>
    intro pre pre' h
    rw [infoComplaintsFrom, infoComplaintsFrom, info_congr fun _ _ _ _ _ => h.mem_iff]
    congr 1
    refine ih ?_
    rw [List.flatMap_append, List.flatMap_append]
    exact h.append_right _

theorem infoFrom_swap (h : Free a b) (l r : List TvAttr) : ∀ pre : List TvAttr,
    infoComplaintsFrom pre (l ++ a :: b :: r) = [] ↔ infoComplaintsFrom pre (l ++ b :: a :: r) = [] := by
  induction l with
  | nil =>
    intro pre
    have m : ∀ {x y : TvAttr}, Free x y → infoComplaints (pre ++ [x]) y = infoComplaints pre y := by
      intro x y hf
      refine info_congr fun tag v f e es => ?_
      rw [List.flatMap_append, List.mem_append]
      refine ⟨fun hx => hx.resolve_right fun hx => ?_, .inl⟩
      exact givesInfo_other hf e es (by simpa using hx)
    have hp : infoComplaintsFrom (pre ++ [a] ++ [b]) r = infoComplaintsFrom (pre ++ [b] ++ [a]) r := by
      refine infoFrom_perm r ?_
      simp only [List.flatMap_append, List.append_assoc, List.flatMap_cons, List.flatMap_nil, List.append_nil]
      exact List.perm_append_comm.append_left _
    simp only [List.nil_append, infoComplaintsFrom, List.append_eq_nil_iff, m h, m h.symm, hp]
    exact and_left_comm
  | cons x l ih =>
    intro pre
    rw [List.cons_append, List.cons_append, infoComplaintsFrom, infoComplaintsFrom]
    simp only [List.append_eq_nil_iff, ih]

theorem infoMissing_swap (l r : List TvAttr) : infoMissing (l ++ a :: b :: r) = infoMissing (l ++ b :: a :: r) := by
  have hp : ((l ++ a :: b :: r).flatMap givesInfo).Perm ((l ++ b :: a :: r).flatMap givesInfo) :=
    List.Perm.flatMap_right _ ((List.Perm.swap b a r).append_left l)
  unfold infoMissing
  congr 1
  funext f
  simp only [hp.mem_iff]

theorem told_nil (L : LicText) (as : List TvAttr) : told L as = [] ↔ toldFrom L [] as = [] ∧ infoComplaintsFrom [] as = [] ∧ infoMissing as = [] := by
  unfold told
  by_cases h1 : toldFrom L [] as = [] <;> by_cases h2 : infoComplaintsFrom [] as = [] <;> by_cases h3 : infoMissing as = [] <;> simp [h1, h2, h3]

theorem told_swap (h : Free a b) (L : LicText) (l r : List TvAttr) : told L (l ++ a :: b :: r) = [] ↔ told L (l ++ b :: a :: r) = [] := by
  rw [told_nil, told_nil, toldFrom_swap h, infoFrom_swap h, infoMissing_swap]

end Spdx.TvOrder
