import Verif.Spec.TvMoved
import Verif.Lemmas.TvOrderTold
/-
Lemmas for C86: the order of sections about different kinds of elements.
-/
namespace Spdx.TvMoved
open Spec TvOrder

/-! ### Lists that differ in the order of independent members -/

/-- Changing places of neighbours that are independent. -/
inductive Swapped {α : Type} (dep : α → α → Prop) : List α → List α → Prop where
  | refl (l) : Swapped dep l l
  | swap (l r a b) : ¬ dep a b → Swapped dep (l ++ a :: b :: r) (l ++ b :: a :: r)
  | trans {l m n} : Swapped dep l m → Swapped dep m n → Swapped dep l n

variable {α κ : Type} [DecidableEq κ]

theorem Swapped.cons {dep : α → α → Prop} {l m : List α} (x : α) (h : Swapped dep l m) : Swapped dep (x :: l) (x :: m) := by
  induction h with
  | refl l => exact .refl _
  | swap l r a b h => exact .swap (x :: l) r a b h
  | trans _ _ ih1 ih2 => exact .trans ih1 ih2

theorem Swapped.perm {dep : α → α → Prop} {l m : List α} (h : Swapped dep l m) : l.Perm m := by
  induction h with
  | refl l => exact .refl _
  | swap l r a b h => exact (List.Perm.swap b a r).append_left l
  | trans _ _ ih1 ih2 => exact ih1.trans ih2

theorem front {dep : α → α → Prop} (a : α) (v : List α) : ∀ u : List α, (∀ x ∈ u, ¬ dep a x) → Swapped dep (a :: (u ++ v)) (u ++ a :: v) := by
  intro u
  induction u with
  | nil => intro _; exact .refl _
  | cons x u ih =>
    intro h
    exact .trans (.swap [] (u ++ v) a x (h x (by simp))) (.cons x (ih fun y hy => h y (by simp [hy])))

theorem split_first (p : α → Bool) {a : α} {r : List α} : ∀ {m : List α}, m.filter p = a :: r →
    ∃ u v, m = u ++ a :: v ∧ (∀ x ∈ u, p x = false) ∧ v.filter p = r ∧ p a = true := by
  intro m
  induction m with
  | nil => simp
  | cons x m ih =>
    intro h
    by_cases hx : p x = true
    · rw [List.filter_cons_of_pos hx] at h
      obtain ⟨rfl, rfl⟩ := List.cons.inj h
      exact ⟨[], m, rfl, by simp, rfl, hx⟩
    · rw [List.filter_cons_of_neg hx] at h
      obtain ⟨u, v, rfl, hu, hv, ha⟩ := ih h
      refine ⟨x :: u, v, rfl, ?_, hv, ha⟩
      intro y hy
      rcases List.mem_cons.1 hy with rfl | hy
      · simpa using hx
      · exact hu y hy

/-- Members of dependent kinds are in the same order: the lists differ by swapping independent neighbours. -/
theorem swapped_of_kinds (kind : α → κ) (dep : κ → κ → Prop) (hrefl : ∀ k, dep k k)
    (hsymm : ∀ k k', dep k k' → dep k' k) : ∀ {l m : List α},
    (∀ k k', dep k k' → l.filter (fun x => kind x = k ∨ kind x = k') = m.filter (fun x => kind x = k ∨ kind x = k')) →
    Swapped (fun a b => dep (kind a) (kind b)) l m := by
  intro l
  induction l with
  | nil =>
    intro m h
    cases m with
    | nil => exact .refl _
    | cons x m =>
      have := h (kind x) (kind x) (hrefl _)
      simp at this
  | cons a l ih =>
    intro m h
    have h0 := h (kind a) (kind a) (hrefl _)
    rw [List.filter_cons_of_pos (by simp)] at h0
    obtain ⟨u, v, rfl, hu, _, _⟩ := split_first _ h0.symm
    have hind : ∀ x ∈ u, ¬ dep (kind a) (kind x) := by
      intro x hx hd
      have h1 := h (kind a) (kind x) hd
      rw [List.filter_cons_of_pos (by simp)] at h1
      obtain ⟨u', v', e, hu', _, _⟩ := split_first _ h1.symm
      have hne : ∀ y ∈ u, kind y ≠ kind a := fun y hy => by simpa using hu y hy
      rcases List.append_eq_append_iff.1 e with ⟨w, e1, _⟩ | ⟨w, e1, e2⟩
      · have hxu : x ∈ u' := by rw [e1]; simp [hx]
        have := hu' x hxu
        simp at this
      · cases w with
        | nil =>
          rw [List.append_nil] at e1
          have := hu' x (e1 ▸ hx)
          simp at this
        | cons y w =>
          simp only [List.cons_append, List.cons.injEq] at e2
          have : y ∈ u := by rw [e1]; simp
          exact hne y this (by rw [← e2.1])
    refine .trans (.cons a (ih (m := u ++ v) fun k k' hd => ?_)) (front a v u hind)
    have h1 := h k k' hd
    by_cases hk : kind a = k ∨ kind a = k'
    · rw [List.filter_cons_of_pos (by simpa using hk), List.filter_append, List.filter_cons_of_pos (by simpa using hk)] at h1
      have hempty : ∀ x ∈ u, ¬ (kind x = k ∨ kind x = k') := by
        intro x hx hkx
        refine hind x hx ?_
        rcases hk with e | e <;> rcases hkx with e' | e' <;> rw [e, e']
        · exact hrefl _
        · exact hd
        · exact hsymm _ _ hd
        · exact hrefl _
      have : u.filter (fun x => decide (kind x = k ∨ kind x = k')) = [] := List.filter_eq_nil_iff.2 fun x hx => by simpa using hempty x hx
      rw [this] at h1
      rw [List.filter_append, this]
      simpa using h1
    · rw [List.filter_cons_of_neg (by simpa using hk), List.filter_append, List.filter_cons_of_neg (by simpa using hk)] at h1
      rw [List.filter_append]
      exact h1

/-! ### What the sections say -/

/-- One section more. -/
inductive Step (L : LicText) (b : List TvAttr) (d : Document) : Document → Prop where
  | package {p} : about b = some .package → SaysPackage L b p → Step L b d { d with packages := d.packages ++ [p] }
  | file {f} : about b = some .file → SaysFile L b f → Step L b d { d with files := d.files ++ [f], relationships := withContained d f }
  | snippet {x} : about b = some .snippet → SaysSnippet L b x → Step L b d { d with snippets := d.snippets ++ [x] }
  | annotation {x} : about b = some .annotation → SaysAnnotation b x → Step L b d { d with annotations := d.annotations ++ [x] }
  | relationship {x} : about b = some .relationship → SaysRelationship b x → Step L b d { d with relationships := d.relationships ++ [x] }
  | extracted {x} : about b = some .extracted → SaysExtracted b x →
      Step L b d { d with extractedLicensingInfo := d.extractedLicensingInfo ++ [x] }

theorem says_snoc {L : LicText} {c : CreationInfo} {bs : List (List TvAttr)} {b : List TvAttr} {d : Document} :
    Says L c (bs ++ [b]) d ↔ ∃ d0, Says L c bs d0 ∧ Step L b d0 d := by
  constructor
  · intro h
    generalize hl : bs ++ [b] = l at h
    cases h with
    | nil => simp at hl
    | _ h hb hx =>
      obtain ⟨rfl, e⟩ := List.append_inj' hl rfl
      obtain rfl := (List.cons.inj e).1
      first
        | exact ⟨_, h, .package hb hx⟩
        | exact ⟨_, h, .file hb hx⟩
        | exact ⟨_, h, .snippet hb hx⟩
        | exact ⟨_, h, .annotation hb hx⟩
        | exact ⟨_, h, .relationship hb hx⟩
        | exact ⟨_, h, .extracted hb hx⟩
  · rintro ⟨d0, h, hs⟩
    cases hs with
    | package hb hx => exact .package h hb hx
    | file hb hx => exact .file h hb hx
    | snippet hb hx => exact .snippet h hb hx
    | annotation hb hx => exact .annotation h hb hx
    | relationship hb hx => exact .relationship h hb hx
    | extracted hb hx => exact .extracted h hb hx

/-- The order of sections about these kinds of elements matters. -/
def Dep (k k' : Option TvClass) : Prop :=
  k = k' ∨ (k = some .file ∧ (k' = some .package ∨ k' = some .relationship)) ∨ (k' = some .file ∧ (k = some .package ∨ k = some .relationship))

theorem step_comm {L : LicText} {b b' : List TvAttr} {d d1 d2 : Document} (hk : ¬ Dep (about b) (about b'))
    (h1 : Step L b d d1) (h2 : Step L b' d1 d2) : ∃ e, Step L b' d e ∧ Step L b e d2 := by
  have no : ∀ {k k' : TvClass}, about b = some k → about b' = some k' → Dep (some k) (some k') → False := fun e e' h => hk (by rw [e, e']; exact h)
  have again : ∀ {k : TvClass}, about b = some k → about b' = some k → False := fun e e' => no e e' (.inl rfl)
  cases h1 with
  | package hb hx => cases h2 with
    | package hb' _ => exact (again hb hb').elim
    | file hb' _ => exact (no hb hb' (.inr (.inr ⟨rfl, .inl rfl⟩))).elim
    | snippet hb' hx' => exact ⟨_, .snippet hb' hx', .package hb hx⟩
    | annotation hb' hx' => exact ⟨_, .annotation hb' hx', .package hb hx⟩
    | relationship hb' hx' => exact ⟨_, .relationship hb' hx', .package hb hx⟩
    | extracted hb' hx' => exact ⟨_, .extracted hb' hx', .package hb hx⟩
  | file hb hx => cases h2 with
    | package hb' _ => exact (no hb hb' (.inr (.inl ⟨rfl, .inl rfl⟩))).elim
    | file hb' _ => exact (again hb hb').elim
    | snippet hb' hx' => exact ⟨_, .snippet hb' hx', .file hb hx⟩
    | annotation hb' hx' => exact ⟨_, .annotation hb' hx', .file hb hx⟩
    | relationship hb' _ => exact (no hb hb' (.inr (.inl ⟨rfl, .inr rfl⟩))).elim
    | extracted hb' hx' => exact ⟨_, .extracted hb' hx', .file hb hx⟩
  | snippet hb hx => cases h2 with
    | package hb' hx' => exact ⟨_, .package hb' hx', .snippet hb hx⟩
    | file hb' hx' => exact ⟨_, .file hb' hx', .snippet hb hx⟩
    | snippet hb' _ => exact (again hb hb').elim
    | annotation hb' hx' => exact ⟨_, .annotation hb' hx', .snippet hb hx⟩
    | relationship hb' hx' => exact ⟨_, .relationship hb' hx', .snippet hb hx⟩
    | extracted hb' hx' => exact ⟨_, .extracted hb' hx', .snippet hb hx⟩
  | annotation hb hx => cases h2 with
    | package hb' hx' => exact ⟨_, .package hb' hx', .annotation hb hx⟩
    | file hb' hx' => exact ⟨_, .file hb' hx', .annotation hb hx⟩
    | snippet hb' hx' => exact ⟨_, .snippet hb' hx', .annotation hb hx⟩
    | annotation hb' _ => exact (again hb hb').elim
    | relationship hb' hx' => exact ⟨_, .relationship hb' hx', .annotation hb hx⟩
    | extracted hb' hx' => exact ⟨_, .extracted hb' hx', .annotation hb hx⟩
  | relationship hb hx => cases h2 with
    | package hb' hx' => exact ⟨_, .package hb' hx', .relationship hb hx⟩
    | file hb' _ => exact (no hb hb' (.inr (.inr ⟨rfl, .inr rfl⟩))).elim
    | snippet hb' hx' => exact ⟨_, .snippet hb' hx', .relationship hb hx⟩
    | annotation hb' hx' => exact ⟨_, .annotation hb' hx', .relationship hb hx⟩
    | relationship hb' _ => exact (again hb hb').elim
    | extracted hb' hx' => exact ⟨_, .extracted hb' hx', .relationship hb hx⟩
  | extracted hb hx => cases h2 with
    | package hb' hx' => exact ⟨_, .package hb' hx', .extracted hb hx⟩
    | file hb' hx' => exact ⟨_, .file hb' hx', .extracted hb hx⟩
    | snippet hb' hx' => exact ⟨_, .snippet hb' hx', .extracted hb hx⟩
    | annotation hb' hx' => exact ⟨_, .annotation hb' hx', .extracted hb hx⟩
    | relationship hb' hx' => exact ⟨_, .relationship hb' hx', .extracted hb hx⟩
    | extracted hb' _ => exact (again hb hb').elim

theorem says_swap {L : LicText} {c : CreationInfo} {l : List (List TvAttr)} {b b' : List TvAttr} (hk : ¬ Dep (about b) (about b')) :
    ∀ (r : List (List TvAttr)) {d : Document}, Says L c (l ++ b :: b' :: r.reverse) d → Says L c (l ++ b' :: b :: r.reverse) d := by
  intro r
  induction r with
  | nil =>
    intro d h
    have h : Says L c ((l ++ [b]) ++ [b']) d := by simpa using h
    obtain ⟨d1, h, h2⟩ := says_snoc.1 h
    obtain ⟨d0, h, h1⟩ := says_snoc.1 h
    obtain ⟨e, h3, h4⟩ := step_comm hk h1 h2
    have := says_snoc.2 ⟨e, says_snoc.2 ⟨d0, h, h3⟩, h4⟩
    simpa using this
  | cons x r ih =>
    intro d h
    have h : Says L c ((l ++ b :: b' :: r.reverse) ++ [x]) d := by simpa using h
    obtain ⟨d1, h, h2⟩ := says_snoc.1 h
    have := says_snoc.2 ⟨d1, ih h, h2⟩
    simpa using this

theorem says_moved {L : LicText} {c : CreationInfo} {l m : List (List TvAttr)} (h : Swapped (fun a b => Dep (about a) (about b)) l m) :
    ∀ {d : Document}, Says L c l d → Says L c m d := by
  induction h with
  | refl => exact id
  | swap l r a b h => intro d hd; simpa using says_swap h r.reverse (by simpa using hd)
  | trans _ _ ih1 ih2 => exact fun hd => ih2 (ih1 hd)

theorem sections_about (as : List TvAttr) : ∀ b ∈ sections as, about b ≠ none := by
  induction as with
  | nil => simp [sections]
  | cons a as ih =>
    intro b hb
    rw [sections] at hb
    split at hb
    · rename_i ho
      rcases List.mem_cons.1 hb with rfl | hb
      · intro e
        rw [about] at e
        rw [e] at ho
        simp at ho
      · exact ih b hb
    · exact ih b hb

theorem swapped {as as' : List TvAttr} (h : Moved as as') : Swapped (fun a b => Dep (about a) (about b)) (sections as) (sections as') := by
  refine swapped_of_kinds about Dep (fun _ => .inl rfl) (fun k k' hd => ?_) (fun k k' hd => ?_)
  · rcases hd with e | e | e
    · exact .inl e.symm
    · exact .inr (.inr e)
    · exact .inr (.inl e)
  · rcases hd with rfl | ⟨rfl, e⟩ | ⟨rfl, e⟩
    · cases k with
      | none =>
        have none : ∀ xs : List TvAttr, (sections xs).filter (fun x => decide (about x = none ∨ about x = none)) = [] :=
          fun xs => List.filter_eq_nil_iff.2 fun x hx => by simpa using sections_about xs x hx
        rw [none, none]
      | some k => simpa using h.sameKind k
    · rcases e with rfl | rfl
      · exact h.files .package (.inl rfl)
      · exact h.files .relationship (.inr rfl)
    · rcases e with rfl | rfl
      · simpa only [or_comm] using h.files .package (.inl rfl)
      · simpa only [or_comm] using h.files .relationship (.inr rfl)

end Spdx.TvMoved
