import Verif.Lemmas.TvMoved
/-
Lemmas for C86: the order of the sections does not decide whether a document is accepted.
-/
namespace Spdx.TvMoved
open Spec TvOrder

/-! ### The creation information -/

theorem given_append (l r : List TvAttr) (tag : Str) : given (l ++ r) tag = given l tag ++ given r tag := List.filterMap_append

theorem given_none {r : List TvAttr} (h : ∀ a ∈ r, ofDocument a = false) {tag : Str} (ht : (infoSlots.lookup tag).isSome = true) :
    given r tag = [] := by
  unfold given
  refine List.filterMap_eq_nil_iff.2 fun a ha => ?_
  have := h a ha
  split
  · rename_i t v
    split
    · rename_i e
      subst e
      rw [ofDocument, ht] at this
      exact absurd this (by simp)
    · rfl
  · rfl

theorem info_preamble {p r r' : List TvAttr} (h : ∀ a ∈ r, ofDocument a = false) (h' : ∀ a ∈ r', ofDocument a = false) (hid : ids p ≠ [])
    {c : CreationInfo} (hc : SaysInfo (p ++ r) c) : SaysInfo (p ++ r') c := by
  have g : ∀ tag, (infoSlots.lookup tag).isSome = true → given (p ++ r) tag = given (p ++ r') tag := by
    intro tag ht
    rw [given_append, given_append, given_none h ht, given_none h' ht]
  have one : ∀ {α : Type} (tag : Str) (f : Tok → Option α) (x : Option α), (infoSlots.lookup tag).isSome = true → Spec.One (p ++ r) tag f x →
      Spec.One (p ++ r') tag f x := by
    intro α tag f x ht hx
    unfold Spec.One
    rw [← g tag ht]
    exact hx
  have many : ∀ {α : Type} (tag : Str) (f : Tok → Option α) (x : List α), (infoSlots.lookup tag).isSome = true → Many (p ++ r) tag f x →
      Many (p ++ r') tag f x := by
    intro α tag f x ht hx
    unfold Many
    rw [← g tag ht]
    exact hx
  refine ⟨one _ _ _ (by decide) hc.spdxVersion, ?_, one _ _ _ (by decide) hc.name, one _ _ _ (by decide) hc.documentNamespace,
    many _ _ _ (by decide) hc.creators, one _ _ _ (by decide) hc.created, one _ _ _ (by decide) hc.creatorComment, ?_,
    many _ _ _ (by decide) hc.externalDocumentRefs, one _ _ _ (by decide) hc.licenseListVersion, one _ _ _ (by decide) hc.documentComment⟩
  · have := hc.spdxId
    rw [ids_append] at this ⊢
    cases hi : ids p with
    | nil => exact absurd hi hid
    | cons x l => rw [hi] at this; simpa using this
  · rcases hc.dataLicense with hx | ⟨e, hx⟩
    · exact .inl (one _ _ _ (by decide) hx)
    · exact .inr ⟨by rw [← g _ (by decide)]; exact e, hx⟩

theorem info_none {r : List TvAttr} (h : ∀ a ∈ r, ofDocument a = false) : ∀ pre : List TvAttr, infoComplaintsFrom pre r = [] := by
  induction r with
  | nil => intro _; rfl
  | cons a r ih =>
    intro pre
    rw [infoComplaintsFrom, ih fun x hx => h x (by simp [hx]), List.append_nil]
    have ha := h a (by simp)
    unfold infoComplaints
    split
    · rename_i tag v
      rw [ofDocument] at ha
      cases hl : infoSlots.lookup tag with
      | none => rfl
      | some x => rw [hl] at ha; simp at ha
    · rename_i tag
      rw [ofDocument] at ha
      rw [if_neg (by simpa using ha)]
    · rfl

theorem infoFrom_append (l r : List TvAttr) : ∀ pre, infoComplaintsFrom pre (l ++ r) = infoComplaintsFrom pre l ++ infoComplaintsFrom (pre ++ l) r := by
  induction l with
  | nil => intro pre; simp [infoComplaintsFrom]
  | cons a l ih => intro pre; rw [List.cons_append, infoComplaintsFrom, infoComplaintsFrom, ih]; simp

/-! ### The elements -/

/-- The attributes of a section at their places. -/
def placesFrom (pre : List TvAttr) : List TvAttr → List Place
  | [] => []
  | a :: as => ⟨pre, a⟩ :: placesFrom (pre ++ [a]) as

theorem partsFrom_none {t : List TvAttr} (h : ∀ a ∈ t, opens a = none) : ∀ (pre : List TvAttr) (P : Sections),
    partsFrom pre P t = ⟨P.complete, P.last ++ placesFrom pre t⟩ := by
  induction t with
  | nil => intro pre P; simp [partsFrom, placesFrom]
  | cons a t ih =>
    intro pre P
    rw [partsFrom, ih fun x hx => h x (by simp [hx])]
    have : P.opened pre a = P := by
      unfold Sections.opened
      rw [h a (by simp)]
    simp [Sections.add, this, placesFrom]

theorem toldFrom_none (L : LicText) {t : List TvAttr} (h : ∀ a ∈ t, opens a = none) (r : List TvAttr) : ∀ pre : List TvAttr,
    (toldFrom L pre (t ++ r) = [] ↔ (∀ q ∈ placesFrom pre t, q.misplaced = []) ∧ toldFrom L (pre ++ t) r = []) := by
  induction t with
  | nil => intro pre; simp [placesFrom]
  | cons a t ih =>
    intro pre
    rw [List.cons_append, toldFrom, h a (by simp)]
    simp only [Option.isSome_none, Bool.false_eq_true, if_false, List.nil_append, List.append_eq_nil_iff, ih fun x hx => h x (by simp [hx]),
      placesFrom, List.forall_mem_cons]
    rw [and_assoc]
    simp

/-- A section at another place. -/
theorem places_like {x : TvAttr} {c : TvClass} (hx : opens x = some c) {t : List TvAttr} {pre pre' : List TvAttr}
    (h : idGiven pre = true) (h' : idGiven pre' = true) : Likes (placesFrom pre (x :: t)) (placesFrom pre' (x :: t)) := by
  have rest : ∀ (t done : List TvAttr), current done ≠ none → Likes (placesFrom (pre ++ done) t) (placesFrom (pre' ++ done) t) := by
    intro t
    induction t with
    | nil => intro _ _; exact .nil
    | cons a t ih =>
      intro done hd
      rw [placesFrom, placesFrom]
      refine .cons ⟨rfl, ?_, fun _ => ?_⟩ ?_
      · show current (pre ++ done ++ [a]) = current (pre' ++ done ++ [a])
        rw [List.append_assoc, List.append_assoc, current_append, current_append pre']
        cases hc : current (done ++ [a]) with
        | some c => rfl
        | none =>
          rw [current_append] at hc
          cases hc' : current [a] <;> rw [hc'] at hc
          · exact absurd hc hd
          · exact absurd hc (by simp)
      · show idGiven (pre ++ done) = idGiven (pre' ++ done)
        unfold idGiven at h h' ⊢
        rw [ids_append, ids_append]
        cases e : ids pre <;> cases e' : ids pre' <;> simp_all
      · have := ih (done ++ [a]) (by
          rw [current_append]
          cases current [a] with
          | none => exact hd
          | some c => simp)
        simpa using this
  rw [placesFrom, placesFrom]
  refine .cons ⟨rfl, ?_, fun _ => ?_⟩ (rest t [x] (by simp [current, hx]))
  · show current (pre ++ [x]) = current (pre' ++ [x])
    rw [current_append, current_append]
    simp [current, hx]
  · show idGiven pre = idGiven pre'
    rw [h, h']

/-- The section can be read, wherever it stands. -/
def Fine (L : LicText) (b : List TvAttr) : Prop :=
  ∃ c, about b = some c ∧ Sane L c (placesFrom [.spdxId []] b) ∧ ∀ q ∈ placesFrom [.spdxId []] b, q.misplaced = []

theorem likes_misplaced {ps qs : List Place} (h : Likes ps qs) : (∀ q ∈ ps, q.misplaced = []) ↔ ∀ q ∈ qs, q.misplaced = [] := by
  induction h with
  | nil => simp
  | cons h _ ih => simp only [List.forall_mem_cons, h.misplaced, ih]
  | swap h1 h2 _ _ _ ih => simp only [List.forall_mem_cons, h1.misplaced, h2.misplaced, ih]; exact and_left_comm

theorem closing_sane (L : LicText) (P : Sections) (c : TvClass) (h : ∀ x ∈ P.complete, Sane L x.1 x.2) : P.closing L c = [] ↔ Sane L c P.last := by
  unfold Sections.closing Sane
  by_cases h1 : elementComplaints L P.last = [] <;> by_cases h2 : unexpected c P.last = [] <;> by_cases h3 : missing c P.last = [] <;>
    by_cases h4 : blank L c P.last = [] <;> simp only [h1, h2, h3, h4, ne_eq, not_true_eq_false, not_false_eq_true, if_true, if_false, and_self, and_true,
      and_false, false_and, iff_true, iff_false, List.cons_ne_nil, reduceCtorEq]
  refine if_neg ?_
  rintro ⟨_, ⟨p, hp, e, _⟩, hn⟩
  refine hn ⟨p, hp, e, ?_⟩
  rw [← e]
  exact h p hp

theorem told_sections (L : LicText) : ∀ (bs : List (List TvAttr)) (pre : List TvAttr) (c : TvClass),
    (∀ b ∈ bs, b ≠ [] ∧ about b ≠ none ∧ ∀ a ∈ b.tail, opens a = none) → current pre = some c → idGiven pre = true →
    (∀ x ∈ (parts pre).complete, Sane L x.1 x.2) →
    (toldFrom L pre bs.flatten = [] ↔ Sane L c (parts pre).last ∧ ∀ b ∈ bs, Fine L b) := by
  intro bs
  induction bs with
  | nil =>
    intro pre c _ hc _ hall
    rw [List.flatten_nil, toldFrom, closing, hc]
    simp [closing_sane L _ c hall]
  | cons b bs ih =>
    intro pre c hbs hc hi hall
    obtain ⟨hne, hab, htail⟩ := hbs b (by simp)
    cases b with
    | nil => exact absurd rfl hne
    | cons x t =>
      cases ho : opens x with
      | none => exact absurd ho hab
      | some k =>
        have htail : ∀ a ∈ t, opens a = none := htail
        rw [List.flatten_cons, List.cons_append, toldFrom, ho]
        have ecl : closing L pre = (parts pre).closing L c := by rw [closing, hc]
        have eparts : parts (pre ++ (x :: t)) = ⟨(parts pre).complete ++ [(c, (parts pre).last)], placesFrom pre (x :: t)⟩ := by
          have : pre ++ x :: t = (pre ++ [x]) ++ t := by simp
          rw [this, parts, partsFrom_append, ← parts, List.nil_append, partsFrom_none htail, parts_snoc]
          simp [Sections.add, Sections.opened, ho, hc, placesFrom]
        have ecur : current (pre ++ x :: t) = some k := by
          have : ∀ l : List TvAttr, (∀ a ∈ l, opens a = none) → current l = none := by
            intro l
            induction l with
            | nil => intro _; rfl
            | cons y l ihl => intro h; rw [current, ihl fun z hz => h z (by simp [hz]), h y (by simp)]; rfl
          rw [current_append, current, this t htail, ho]
          rfl
        have eid : idGiven (pre ++ x :: t) = true := by
          unfold idGiven at hi ⊢
          rw [ids_append]
          cases e : ids pre <;> simp_all
        have hlike := places_like (t := t) ho hi (pre' := [.spdxId []]) (by decide)
        simp only [Option.isSome_some, if_true, List.append_eq_nil_iff, toldFrom_none L htail]
        rw [ecl, closing_sane L _ c hall, show pre ++ [x] ++ t = pre ++ x :: t by simp, List.forall_mem_cons]
        have fineIff : Fine L (x :: t) ↔ Sane L k (placesFrom pre (x :: t)) ∧ ∀ q ∈ placesFrom pre (x :: t), q.misplaced = [] := by
          rw [hlike.sane, likes_misplaced hlike]
          constructor
          · rintro ⟨c', e, h⟩
            obtain rfl : k = c' := Option.some.inj (ho.symm.trans e)
            exact h
          · exact fun h => ⟨k, ho, h⟩
        rw [fineIff]
        have split : (∀ q ∈ placesFrom pre (x :: t), q.misplaced = []) ↔ Place.misplaced ⟨pre, x⟩ = [] ∧ ∀ q ∈ placesFrom (pre ++ [x]) t, q.misplaced = [] := by
          rw [placesFrom, List.forall_mem_cons]
        rw [split]
        constructor
        · rintro ⟨⟨hs, hm⟩, hm', htold⟩
          have := (ih (pre ++ x :: t) k (fun b hb => hbs b (by simp [hb])) ecur eid (by
            rw [eparts]
            intro y hy
            rcases List.mem_append.1 hy with hy | hy
            · exact hall y hy
            · obtain rfl := List.mem_singleton.1 hy; exact hs)).1 htold
          rw [eparts] at this
          exact ⟨hs, ⟨this.1, hm, hm'⟩, this.2⟩
        · rintro ⟨hs, ⟨hk, hm, hm'⟩, hrest⟩
          refine ⟨⟨hs, hm⟩, hm', (ih (pre ++ x :: t) k (fun b hb => hbs b (by simp [hb])) ecur eid (by
            rw [eparts]
            intro y hy
            rcases List.mem_append.1 hy with hy | hy
            · exact hall y hy
            · obtain rfl := List.mem_singleton.1 hy; exact hs)).2 ⟨by rw [eparts]; exact hk, hrest⟩⟩

/-! ### What stands before the first element -/

theorem current_none {l : List TvAttr} (h : ∀ a ∈ l, opens a = none) : current l = none := by
  induction l with
  | nil => rfl
  | cons y l ih => rw [current, ih fun z hz => h z (by simp [hz]), h y (by simp)]; rfl

theorem place_quiet {q : Place} (ho : opens q.attr = none) (he : q.element = none) (hm : q.misplaced = [])
    (hi : (∃ v, q.attr = .spdxId v) → idGiven q.before = false) (L : LicText) :
    q.gives = [] ∧ (∀ f, q.blankIn L f = false) ∧ ∀ e, q.complaints L e = q.complaints L [] := by
  unfold Place.misplaced at hm
  unfold Place.gives Place.blankIn Place.complaints
  rw [he] at *
  cases ha : q.attr with
  | value tag v =>
    cases hs : slots.lookup tag with
    | some x =>
      obtain ⟨c, f, many⟩ := x
      simp [ha, hs] at hm
    | none => simp [hs]
  | spdxId v => simp [hi ⟨v, ha⟩]
  | commented tag line comment =>
    rw [ha] at ho hm
    by_cases ht : tag = s%"Relationship"
    · subst ht
      simp [opens] at ho
    · simp [ht] at hm
  | bad tag => simp
  | unknown => simp

theorem preamble_quiet (L : LicText) : ∀ (t pre : List TvAttr), (∀ a ∈ pre ++ t, opens a = none) → (ids (pre ++ t)).length ≤ 1 →
    (∀ q ∈ placesFrom pre t, q.misplaced = []) →
    ∀ q ∈ placesFrom pre t, q.gives = [] ∧ (∀ f, q.blankIn L f = false) ∧ ∀ e, q.complaints L e = q.complaints L [] := by
  intro t
  induction t with
  | nil => intro _ _ _ _ q hq; exact absurd hq (by simp [placesFrom])
  | cons a t ih =>
    intro pre ho hi hm q hq
    rw [placesFrom, List.mem_cons] at hq
    rcases hq with rfl | hq
    · refine place_quiet (ho a (by simp)) ?_ (hm _ (by simp [placesFrom])) ?_ L
      · exact current_none fun x hx => ho x (by
          rcases List.mem_append.1 hx with hx | hx
          · simp [hx]
          · simp [List.mem_singleton.1 hx])
      · rintro ⟨v, e⟩
        have e : a = .spdxId v := e
        show idGiven pre = false
        subst e
        rw [ids_append] at hi
        unfold idGiven
        cases h : ids pre with
        | nil => rfl
        | cons y l => rw [h] at hi; simp [ids] at hi
    · refine ih (pre ++ [a]) (by simpa using ho) (by simpa using hi) (fun q hq => hm q (by rw [placesFrom]; exact List.mem_cons_of_mem _ hq)) q hq

theorem sane_quiet (L : LicText) (c : TvClass) {pp ps : List Place}
    (h : ∀ q ∈ pp, q.gives = [] ∧ (∀ f, q.blankIn L f = false) ∧ ∀ e, q.complaints L e = q.complaints L []) :
    Sane L c (pp ++ ps) ↔ (∀ q ∈ pp, q.complaints L [] = []) ∧ Sane L c ps := by
  have hf : filled pp = [] := by
    unfold filled
    exact List.flatMap_eq_nil_iff.2 fun q hq => (h q hq).1
  have hb : ∀ f, pp.any (·.blankIn L f) = false := by
    intro f
    rw [List.any_eq_false]
    intro q hq
    simp [(h q hq).2.1 f]
  have hcon : ∀ (ps e e' : List Place), filled e = filled e' → complaintsFrom L e ps = complaintsFrom L e' ps := by
    intro ps
    induction ps with
    | nil => intro _ _ _; rfl
    | cons p ps ih =>
      intro e e' hee
      rw [complaintsFrom, complaintsFrom, complaints_congr (.refl p) L (e := e) (e' := e') fun _ _ _ _ _ _ _ => by rw [hee],
        ih _ (e' ++ [p]) (by rw [filled_append, filled_append, hee])]
  have hc : ∀ (pp : List Place), (∀ q ∈ pp, q.gives = [] ∧ (∀ f, q.blankIn L f = false) ∧ ∀ e, q.complaints L e = q.complaints L []) →
      ∀ e, filled e = [] → (complaintsFrom L e (pp ++ ps) = [] ↔ (∀ q ∈ pp, q.complaints L [] = []) ∧ complaintsFrom L [] ps = []) := by
    intro pp
    induction pp with
    | nil => intro _ e he; simp [hcon ps e [] (by rw [he]; rfl)]
    | cons q pp ih =>
      intro h e he
      have hq := h q (by simp)
      rw [List.cons_append, complaintsFrom, List.append_eq_nil_iff, hq.2.2 e,
        ih (fun x hx => h x (by simp [hx])) (e ++ [q]) (by rw [filled_append, he, filled_cons, hq.1]; rfl), List.forall_mem_cons, and_assoc]
  unfold Sane elementComplaints
  rw [hc pp h [] rfl]
  have e1 : unexpected c (pp ++ ps) = unexpected c ps := by unfold unexpected; rw [filled_append, hf, List.nil_append]
  have e2 : missing c (pp ++ ps) = missing c ps := by unfold missing; rw [filled_append, hf, List.nil_append]
  have e3 : blank L c (pp ++ ps) = blank L c ps := by
    unfold blank
    congr 1
    funext f
    rw [List.any_append, hb f, Bool.false_or]
  rw [e1, e2, e3, and_assoc]

/-- A document with one `SPDXID` before its first element is without fault if and only if each of its sections is, taken by itself. -/
theorem told_iff (L : LicText) {p : List TvAttr} {b : List TvAttr} {bs : List (List TvAttr)} (hp : ∀ a ∈ p, opens a = none)
    (hi : (ids p).length = 1) (hbs : ∀ x ∈ b :: bs, x ≠ [] ∧ about x ≠ none ∧ ∀ a ∈ x.tail, opens a = none) :
    toldFrom L [] (p ++ (b :: bs).flatten) = [] ↔
      ((∀ q ∈ placesFrom [] p, q.misplaced = []) ∧ ∀ q ∈ placesFrom [] p, q.complaints L [] = []) ∧ ∀ x ∈ b :: bs, Fine L x := by
  rw [toldFrom_none L hp, List.nil_append, and_assoc]
  refine and_congr_right fun hm => ?_
  have hquiet := preamble_quiet L p [] (by simpa using hp) (by simpa using Nat.le_of_eq hi) hm
  obtain ⟨hne, hab, htail⟩ := hbs b (by simp)
  cases b with
  | nil => exact absurd rfl hne
  | cons x t =>
    cases ho : opens x with
    | none => exact absurd ho hab
    | some k =>
      have htail : ∀ a ∈ t, opens a = none := htail
      have hidp : idGiven p = true := by
        unfold idGiven
        cases e : ids p with
        | nil => rw [e] at hi; simp at hi
        | cons _ _ => rfl
      have ecl : closing L p = [] := by rw [closing, current_none hp]
      have eparts : parts (p ++ (x :: t)) = ⟨[], placesFrom [] p ++ placesFrom p (x :: t)⟩ := by
        have : p ++ x :: t = (p ++ [x]) ++ t := by simp
        rw [this, parts, partsFrom_append, ← parts, List.nil_append, partsFrom_none htail, parts_snoc, parts, partsFrom_none hp]
        simp [Sections.add, Sections.opened, ho, current_none hp, placesFrom]
      have ecur : current (p ++ x :: t) = some k := by
        rw [current_append, current, current_none htail, ho]
        rfl
      have eid : idGiven (p ++ x :: t) = true := by
        unfold idGiven at hidp ⊢
        rw [ids_append]
        cases e : ids p <;> simp_all
      have hlike := places_like (t := t) ho hidp (pre' := [.spdxId []]) (by decide)
      rw [List.flatten_cons, List.cons_append, toldFrom, ho]
      simp only [Option.isSome_some, if_true, List.append_eq_nil_iff, toldFrom_none L htail]
      rw [show p ++ [x] ++ t = p ++ x :: t by simp, List.forall_mem_cons,
        told_sections L bs (p ++ x :: t) k (fun y hy => hbs y (by simp [hy])) ecur eid (by rw [eparts]; simp), eparts, sane_quiet L k hquiet]
      have fineIff : Fine L (x :: t) ↔ Sane L k (placesFrom p (x :: t)) ∧ ∀ q ∈ placesFrom p (x :: t), q.misplaced = [] := by
        rw [hlike.sane, likes_misplaced hlike]
        constructor
        · rintro ⟨c', e, h⟩
          obtain rfl : k = c' := Option.some.inj (ho.symm.trans e)
          exact h
        · exact fun h => ⟨k, ho, h⟩
      rw [fineIff, show placesFrom p (x :: t) = ⟨p, x⟩ :: placesFrom (p ++ [x]) t from rfl, List.forall_mem_cons]
      constructor
      · rintro ⟨⟨_, h1⟩, h2, ⟨h3, h4⟩, h5⟩
        exact ⟨h3, ⟨h4, h1, h2⟩, h5⟩
      · rintro ⟨h3, ⟨h4, h1, h2⟩, h5⟩
        exact ⟨⟨ecl, h1⟩, h2, ⟨h3, h4⟩, h5⟩

/-- Whether anything is told does not depend on the order of the sections. -/
theorem told_moved (L : LicText) {as as' : List TvAttr} (h : Moved as as') (hi : (ids (preamble as)).length = 1) : told L as = [] → told L as' = [] := by
  have hperm := (swapped h).perm
  rw [told_nil, told_nil]
  have hdoc : ∀ a ∈ (sections as).flatten, ofDocument a = false := by
    intro a ha
    obtain ⟨b, hb, ha⟩ := List.mem_flatten.1 ha
    exact h.document b hb a ha
  have hdoc' : ∀ a ∈ (sections as').flatten, ofDocument a = false := by
    intro a ha
    obtain ⟨b, hb, ha⟩ := List.mem_flatten.1 ha
    exact h.document b (hperm.mem_iff.2 hb) a ha
  have hwf : ∀ xs : List TvAttr, ∀ x ∈ sections xs, x ≠ [] ∧ about x ≠ none ∧ ∀ a ∈ x.tail, opens a = none := fun xs x hx =>
    ⟨(sections_tails xs x hx).1, sections_about xs x hx, (sections_tails xs x hx).2⟩
  have e := sections_preamble as
  have e' := sections_preamble as'
  rintro ⟨h1, h2, h3⟩
  refine ⟨?_, ?_, ?_⟩
  · cases hb : sections as with
    | nil =>
      have : sections as' = [] := by rw [hb] at hperm; exact hperm.symm.eq_nil
      rw [e', this, ← h.preamble]
      rw [e, hb] at h1
      exact h1
    | cons b bs =>
      cases hb' : sections as' with
      | nil => rw [hb, hb'] at hperm; exact absurd hperm.eq_nil (by simp)
      | cons b' bs' =>
        rw [e, hb, told_iff L (preamble_none as) hi (hb ▸ hwf as)] at h1
        rw [e', hb', told_iff L (preamble_none as') (h.preamble ▸ hi) (hb' ▸ hwf as'), ← h.preamble]
        refine ⟨h1.1, fun x hx => h1.2 x ?_⟩
        rw [← hb]
        rw [← hb'] at hx
        exact hperm.mem_iff.2 hx
  · rw [e, infoFrom_append, List.append_eq_nil_iff] at h2
    rw [e', infoFrom_append, info_none hdoc', List.append_nil, ← h.preamble]
    exact h2.1
  · have hp : as.Perm as' := by
      rw [e, e', ← h.preamble]
      exact hperm.flatten.append_left _
    have hmem : ∀ f, f ∈ as.flatMap givesInfo ↔ f ∈ as'.flatMap givesInfo := fun f => by
      simp only [List.mem_flatMap, hp.mem_iff]
    unfold infoMissing at h3 ⊢
    simpa only [hmem] using h3

theorem info_given {p r : List TvAttr} (hi : ids p ≠ []) (h : ∀ a ∈ r, ofDocument a = false) (f : Str) :
    f ∈ (p ++ r).flatMap givesInfo ↔ f ∈ p.flatMap givesInfo := by
  rw [List.flatMap_append, List.mem_append]
  refine ⟨fun hf => hf.elim id fun hf => ?_, .inl⟩
  obtain ⟨a, ha, hf⟩ := List.mem_flatMap.1 hf
  have hd := h a ha
  unfold givesInfo at hf
  split at hf
  · rename_i tag v
    cases hs : infoSlots.lookup tag with
    | some x => rw [ofDocument, hs] at hd; simp at hd
    | none => rw [hs] at hf; simp at hf
  · obtain rfl := List.mem_singleton.1 hf
    cases hx : ids p with
    | nil => exact absurd hx hi
    | cons v l =>
      have : v ∈ ids p := by rw [hx]; simp
      unfold ids at this
      obtain ⟨a, ha, e⟩ := List.mem_filterMap.1 this
      refine List.mem_flatMap.2 ⟨a, ha, ?_⟩
      split at e
      · simp [givesInfo]
      · exact absurd e (by simp)
  · simp at hf

/-- Nothing is told about a document if and only if nothing is told about each of its sections after the same beginning. -/
theorem told_alone (L : LicText) {as : List TvAttr} (hi : (ids (preamble as)).length = 1) (hs : sections as ≠ [])
    (hdoc : ∀ b ∈ sections as, ∀ a ∈ b, ofDocument a = false) : told L as = [] ↔ ∀ b ∈ sections as, told L (preamble as ++ b) = [] := by
  have hne : ids (preamble as) ≠ [] := fun e => by rw [e] at hi; simp at hi
  have hwf : ∀ x ∈ sections as, x ≠ [] ∧ about x ≠ none ∧ ∀ a ∈ x.tail, opens a = none := fun x hx =>
    ⟨(sections_tails as x hx).1, sections_about as x hx, (sections_tails as x hx).2⟩
  have key : ∀ bs, (∀ x ∈ bs, x ∈ sections as) → bs ≠ [] → (told L (preamble as ++ bs.flatten) = [] ↔
      (((∀ q ∈ placesFrom [] (preamble as), q.misplaced = []) ∧ ∀ q ∈ placesFrom [] (preamble as), q.complaints L [] = []) ∧ ∀ x ∈ bs, Fine L x) ∧
        infoComplaintsFrom [] (preamble as) = [] ∧ infoMissing (preamble as) = []) := by
    intro bs hsub hbs
    have hd : ∀ a ∈ bs.flatten, ofDocument a = false := by
      intro a ha
      obtain ⟨b, hb, ha⟩ := List.mem_flatten.1 ha
      exact hdoc b (hsub b hb) a ha
    have em : infoMissing (preamble as ++ bs.flatten) = infoMissing (preamble as) := by
      unfold infoMissing
      simp only [info_given hne hd]
    cases bs with
    | nil => exact absurd rfl hbs
    | cons b bs =>
      rw [told_nil, told_iff L (preamble_none as) hi fun x hx => hwf x (hsub x hx), infoFrom_append, info_none hd, List.append_nil, em]
  have h1 := key (sections as) (fun _ h => h) hs
  rw [← sections_preamble as] at h1
  rw [h1]
  have h2 : ∀ b ∈ sections as, _ := fun b hb => key [b] (by simpa using hb) (by simp)
  simp only [List.flatten_cons, List.flatten_nil, List.append_nil, List.mem_singleton, forall_eq] at h2
  constructor
  · rintro ⟨⟨ha, hf⟩, hb⟩ b hm
    exact (h2 b hm).2 ⟨⟨ha, hf b hm⟩, hb⟩
  · intro h
    obtain ⟨b, hm⟩ := List.exists_mem_of_ne_nil _ hs
    have := (h2 b hm).1 (h b hm)
    exact ⟨⟨this.1.1, fun x hx => ((h2 x hx).1 (h x hx)).1.2⟩, this.2⟩

end Spdx.TvMoved
