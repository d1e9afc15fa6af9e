import Verif.Lemmas.TagValueTold
/- The values collected for the current element, and the complaints about them. -/
namespace Spdx.Told
open Spdx Spec

structure ElemInv (L : LicText) (cl : Option TvClass) (b : List Place) (log : List PMsg) (d : Dict Str TvVal) : Prop where
  log : log = elementComplaints L b
  keys : d.keys = firsts (filled b)
  fits : elementComplaints L b = [] → ∀ f x, d.get? f = some x → Fits L b f x
  shape : ∀ f y, d.get? f = some (.one y) → (kinds.lookup f).any (fun k => !k.2) = true
  id : cl = none ∨ cl = some .file → d.get? s%"spdx_id" = (lastId b).map fun v => .one (.str v)

theorem ElemInv.has {L : LicText} {cl : Option TvClass} {b : List Place} {log : List PMsg} {d : Dict Str TvVal} (h : ElemInv L cl b log d) (f : Str) :
    (d.get? f).isSome = true ↔ f ∈ filled b := by
  rw [Dict.get?_isSome, h.keys, mem_firsts]

theorem blank_lists {L : LicText} {f : Str} {p : Place} (h : p.blankIn L f = true) : f ∈ licenseLists ∧ kinds.lookup f = none := by
  unfold Place.blankIn at h
  split at h
  · rename_i tag v _
    simp only [Bool.and_eq_true, Option.any_eq_true, beq_iff_eq, decide_eq_true_eq] at h
    obtain ⟨⟨⟨⟨⟨c, _, hl⟩, ht⟩, _⟩, _⟩, _⟩ := h
    have tab : ∀ p ∈ slots, p.1 ∈ licenseTags → p.2.2.2 = true → p.2.2.1 ∈ licenseLists ∧ kinds.lookup p.2.2.1 = none := by decide +kernel
    exact tab _ (C68.lookup_mem hl) ht rfl
  · cases h

theorem blank_gives {L : LicText} {f : Str} {p : Place} (h : p.blankIn L f = true) : f ∈ p.gives := by
  unfold Place.blankIn at h
  unfold Place.gives
  split at h
  · rename_i tag v e
    rw [e]
    dsimp only
    simp only [Bool.and_eq_true, Option.any_eq_true, beq_iff_eq, decide_eq_true_eq] at h
    obtain ⟨⟨⟨⟨⟨c, hc, hl⟩, ht⟩, _⟩, _⟩, _⟩ := h
    have tab : ∀ t ∈ licenseTags, t ∉ faultTags := by decide +kernel
    rw [hl]
    dsimp only
    rw [if_pos ⟨.inl hc, faultOf_none (tab _ ht) v⟩]
    exact List.mem_singleton.2 rfl
  · cases h

theorem Fits.mono {L : LicText} {b : List Place} {p : Place} {f : Str} {x : TvVal} (h : Fits L b f x) (hb : p.blankIn L f = false) :
    Fits L (b ++ [p]) f x := by
  unfold Fits at h ⊢
  split
  · rename_i e; rw [e] at h; exact h
  · rename_i e; rw [e] at h; exact h
  · rename_i e; rw [e] at h
    obtain ⟨h1, l, h2, h3⟩ := h
    refine ⟨h1, l, h2, ?_⟩
    rw [h3, List.any_append]
    simp [hb]

theorem nil_of_append {α : Type} {a b : List α} (h : a ++ b = []) : a = [] ∧ b = [] := List.append_eq_nil_iff.1 h

section
variable {L : LicText} {cl : Option TvClass} {b : List Place} {log : List PMsg} {d : Dict Str TvVal} {p : Place}

/-- The values stay. -/
theorem ElemInv.same (h : ElemInv L cl b log d) (hg : ∀ f ∈ p.gives, f ∈ filled b) (hf : p.complaints L b = [] → ∀ f, p.blankIn L f = false)
    (hi : p.newId = none) : ElemInv L cl (b ++ [p]) (log ++ p.complaints L b) d where
  log := by rw [complaints_snoc, h.log]
  keys := by
    rw [filled_snoc, firsts_append, h.keys]
    have : ∀ (m l : List Str), (∀ f ∈ m, f ∈ l) → m.foldl addKey l = l := by
      intro m
      induction m with
      | nil => intro l _; rfl
      | cons k m ih =>
        intro l hl
        rw [List.foldl_cons]
        have : addKey l k = l := if_pos (hl k List.mem_cons_self)
        rw [this]
        exact ih l fun f hf => hl f (List.mem_cons_of_mem _ hf)
    exact (this _ _ fun f hf => (mem_firsts _ _).2 (hg f hf)).symm
  fits := by
    intro hc f x hx
    rw [complaints_snoc] at hc
    obtain ⟨h1, h2⟩ := nil_of_append hc
    exact (h.fits h1 f x hx).mono (hf h2 f)
  shape := h.shape
  id := by
    intro hc
    rw [lastId_snoc, hi]
    exact h.id hc

def setAll (d : Dict Str TvVal) (kvs : List (Str × TvItem)) : Dict Str TvVal := kvs.foldl (fun d kv => d.set kv.1 (.one kv.2)) d

theorem setAll_keys (d : Dict Str TvVal) (kvs : List (Str × TvItem)) : (setAll d kvs).keys = (kvs.map (·.1)).foldl addKey d.keys := by
  induction kvs generalizing d with
  | nil => rfl
  | cons kv kvs ih => unfold setAll at ih ⊢; rw [List.foldl_cons, ih, keys_set]; rfl

theorem setAll_get (d : Dict Str TvVal) (kvs : List (Str × TvItem)) {f : Str} {x : TvVal} (h : (setAll d kvs).get? f = some x) :
    d.get? f = some x ∨ ∃ kv ∈ kvs, f = kv.1 ∧ x = .one kv.2 := by
  induction kvs generalizing d with
  | nil => exact .inl h
  | cons kv kvs ih =>
    unfold setAll at ih h
    rw [List.foldl_cons] at h
    rcases ih _ h with h | ⟨kv', h1, h2⟩
    · rw [Dict.get?_set] at h
      split at h
      · rename_i e; cases h; exact .inr ⟨kv, List.mem_cons_self, e.symm, rfl⟩
      · exact .inl h
    · exact .inr ⟨kv', List.mem_cons_of_mem _ h1, h2⟩

theorem setAll_other (d : Dict Str TvVal) (kvs : List (Str × TvItem)) {f : Str} (h : ∀ kv ∈ kvs, kv.1 ≠ f) : (setAll d kvs).get? f = d.get? f := by
  induction kvs generalizing d with
  | nil => rfl
  | cons kv kvs ih =>
    unfold setAll at ih ⊢
    rw [List.foldl_cons, ih _ (fun kv hkv => h kv (List.mem_cons_of_mem _ hkv)), Dict.get?_set, if_neg (h kv List.mem_cons_self)]

/-- Single values are set. -/
theorem ElemInv.set (h : ElemInv L cl b log d) (kvs : List (Str × TvItem)) (hg : p.gives = kvs.map (·.1)) (hb : ∀ f, p.blankIn L f = false)
    (hk : ∀ kv ∈ kvs, ∃ k, kinds.lookup kv.1 = some (k, false) ∧ k.ok kv.2 = true)
    (hi : (p.newId = none ∧ (cl = none ∨ cl = some .file → ∀ kv ∈ kvs, kv.1 ≠ s%"spdx_id")) ∨ ∃ v, p.newId = some v ∧ kvs = [(s%"spdx_id", .str v)]) :
    ElemInv L cl (b ++ [p]) (log ++ p.complaints L b) (setAll d kvs) where
  log := by rw [complaints_snoc, h.log]
  keys := by rw [filled_snoc, firsts_append, setAll_keys, h.keys, hg]
  fits := by
    intro hc f x hx
    rw [complaints_snoc] at hc
    obtain ⟨h1, h2⟩ := nil_of_append hc
    rcases setAll_get _ _ hx with hx | ⟨kv, hm, rfl, rfl⟩
    · exact (h.fits h1 f x hx).mono (hb f)
    · obtain ⟨k, e, ok⟩ := hk kv hm
      unfold Fits
      rw [e]
      exact ⟨_, rfl, ok⟩
  shape := by
    intro f y hx
    rcases setAll_get _ _ hx with hx | ⟨kv, hm, rfl, _⟩
    · exact h.shape f y hx
    · obtain ⟨k, e, _⟩ := hk kv hm
      rw [e]; rfl
  id := by
    intro hc
    rw [lastId_snoc]
    rcases hi with ⟨e, hi⟩ | ⟨v, e, rfl⟩
    · rw [e, setAll_other _ _ (hi hc)]
      exact h.id hc
    · rw [e]
      change (d.set _ _).get? _ = _
      rw [Dict.get?_set, if_pos rfl]; rfl

/-- A value is added to a list. -/
theorem ElemInv.append (h : ElemInv L cl b log d) {f : Str} {x : TvItem} (hg : p.gives = [f]) (ho : (kinds.lookup f).any (fun k => !k.2) = false)
    (hi : p.newId = none)
    (hf : p.complaints L b = [] → (∃ k, kinds.lookup f = some (k, true) ∧ k.ok x = true ∧ ∀ f, p.blankIn L f = false) ∨
      (kinds.lookup f = none ∧ f ∈ licenseLists ∧ x.lic?.isSome = !p.blankIn L f ∧ ∀ f', f' ≠ f → p.blankIn L f' = false)) :
    ElemInv L cl (b ++ [p]) (log ++ p.complaints L b) (tvAppend d f x) := by
  have hno : ∀ y, d.get? f ≠ some (.one y) := fun y e => by rw [h.shape f y e] at ho; cases ho
  have hget : ∀ f', f' ≠ f → (tvAppend d f x).get? f' = d.get? f' := by
    intro f' hne
    unfold tvAppend
    split
    · rw [Dict.get?_set, if_neg fun e => hne e.symm]
    · rfl
    · rw [Dict.get?_set, if_neg fun e => hne e.symm]
  have hself : (tvAppend d f x).get? f = some (.many ((match d.get? f with | some (.many l) => l | _ => []) ++ [x])) := by
    unfold tvAppend
    split
    · rename_i l e; rw [Dict.get?_set, if_pos rfl, e]
    · rename_i y e; exact absurd e (hno y)
    · rename_i e; rw [Dict.get?_set, if_pos rfl, e]; rfl
  refine ⟨by rw [complaints_snoc, h.log], ?_, ?_, ?_, ?_⟩
  · rw [keys_append _ _ _ hno, filled_snoc, firsts_append, hg, h.keys]; rfl
  · intro hc f' y hy
    rw [complaints_snoc] at hc
    obtain ⟨h1, h2⟩ := nil_of_append hc
    have hf := hf h2
    by_cases e : f' = f
    · subst e
      rw [hself] at hy
      cases hy
      rcases hf with ⟨k, e1, ok, _⟩ | ⟨e1, hl, ok, _⟩
      · unfold Fits
        rw [e1]
        refine ⟨_, rfl, ?_⟩
        rw [List.all_append]
        have : (match d.get? f' with | some (.many l) => l | _ => []).all k.ok = true := by
          cases hd : d.get? f' with
          | none => rfl
          | some z =>
            have := h.fits h1 f' z hd
            unfold Fits at this
            rw [e1] at this
            obtain ⟨l, rfl, hl⟩ := this
            exact hl
        rw [this]
        simpa using ok
      · unfold Fits
        rw [e1]
        refine ⟨hl, _, rfl, ?_⟩
        rw [List.all_append, List.any_append]
        have : (match d.get? f' with | some (.many l) => l | _ => []).all (fun y => y.lic?.isSome) = !b.any (·.blankIn L f') ∨ d.get? f' = none := by
          cases hd : d.get? f' with
          | none => exact .inr rfl
          | some z =>
            have := h.fits h1 f' z hd
            unfold Fits at this
            rw [e1] at this
            obtain ⟨_, l, rfl, hl⟩ := this
            exact .inl hl
        rcases this with this | this
        · rw [this]
          simp [ok, Bool.not_or]
        · have hnb : b.any (·.blankIn L f') = false := by
            rw [List.any_eq_false]
            intro q hq hbq
            have := (h.has f').2 (List.mem_flatMap.2 ⟨q, hq, blank_gives hbq⟩)
            rw [‹d.get? f' = none›] at this; cases this
          rw [this, hnb]
          simp [ok]
    · rw [hget _ e] at hy
      refine (h.fits h1 f' y hy).mono ?_
      rcases hf with ⟨k, _, _, hb⟩ | ⟨_, _, _, hb⟩
      · exact hb f'
      · exact hb f' e
  · intro f' y hy
    by_cases e : f' = f
    · subst e; rw [hself] at hy; cases hy
    · rw [hget _ e] at hy; exact h.shape f' y hy
  · intro hc
    have hne : s%"spdx_id" ≠ f := fun e => by subst e; revert ho; decide +kernel
    rw [lastId_snoc, hi, hget _ hne]
    exact h.id hc

end

end Spdx.Told
