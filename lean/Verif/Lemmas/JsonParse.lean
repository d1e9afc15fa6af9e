import Verif.Model.JsonParser
import Verif.Spec.JsonOk
/- How the parsing combinators act on what the converters wrote. -/
namespace Spdx

theorem lookup_mkObj (keys : List Str) (vals : List (Option Json)) (nd : keys.Nodup) (i : Nat) {k : Str} {v : Option Json}
    (hk : keys[i]? = some k) (hv : vals[i]? = some v) :
    dictGet ((keys.zip vals).filterMap fun kv => kv.2.map (kv.1, ·)) k = v := by
  unfold dictGet
  induction keys generalizing vals i with
  | nil => simp at hk
  | cons k0 ks ih =>
    cases vals with
    | nil => simp at hv
    | cons v0 vs =>
      have nd' := List.nodup_cons.mp nd
      cases i with
      | zero =>
        simp only [List.getElem?_cons_zero, Option.some.injEq] at hk hv
        subst hk; subst hv
        cases v0 with
        | some x => simp [List.zip_cons_cons, List.filterMap_cons, List.lookup_cons]
        | none =>
          simp only [List.zip_cons_cons, List.filterMap_cons, Option.map_none]
          rw [List.lookup_eq_none_iff]
          intro p hp
          simp only [List.mem_filterMap, Prod.exists, Option.map_eq_some_iff] at hp
          obtain ⟨a, b, hab, x, hx, rfl⟩ := hp
          have : a ∈ ks := (List.of_mem_zip hab).1
          simp only [bne_iff_ne, ne_eq]
          rintro rfl
          exact nd'.1 this
      | succ i =>
        simp only [List.getElem?_cons_succ] at hk hv
        have hne : k ≠ k0 := by
          rintro rfl
          exact nd'.1 (List.mem_of_getElem? hk)
        have e := ih vs nd'.2 i hk hv
        cases v0 with
        | some x =>
          simp only [List.zip_cons_cons, List.filterMap_cons, Option.map_some, List.lookup_cons]
          rw [show (k == k0) = false by simpa using hne]
          exact e
        | none => simpa only [List.zip_cons_cons, List.filterMap_cons, Option.map_none] using e

theorem mkObj_get (keys : List Str) (vals : List (Option Json)) (nd : keys.Nodup) (i : Nat) {k : Str} {v : Option Json}
    (hk : keys[i]? = some k) (hv : vals[i]? = some v) (dflt : Json) : pyGetD (mkObj keys vals) k dflt = .ok (v.getD dflt) := by
  simp only [pyGetD, mkObj, lookup_mkObj keys vals nd i hk hv]

theorem mkObj_get_missing (keys : List Str) (vals : List (Option Json)) {k : Str} (hk : k ∉ keys) (dflt : Json) :
    pyGetD (mkObj keys vals) k dflt = .ok dflt := by
  have : dictGet ((keys.zip vals).filterMap fun kv => kv.2.map (kv.1, ·)) k = none := by
    unfold dictGet
    rw [List.lookup_eq_none_iff]
    intro p hp
    simp only [List.mem_filterMap, Prod.exists, Option.map_eq_some_iff] at hp
    obtain ⟨a, b, hab, x, hx, rfl⟩ := hp
    simp only [bne_iff_ne, ne_eq]
    rintro rfl
    exact hk (List.of_mem_zip hab).1
  simp only [pyGetD, mkObj, this, Option.getD_none]

theorem mkObj_truthy (keys : List Str) (vals : List (Option Json)) (i : Nat) {k : Str} {v : Json}
    (hk : keys[i]? = some k) (hv : vals[i]? = some (some v)) : (mkObj keys vals).truthy = true := by
  have hm : (k, v) ∈ (keys.zip vals).filterMap fun kv => kv.2.map (kv.1, ·) := by
    rw [List.mem_filterMap]
    refine ⟨(k, some v), ?_, rfl⟩
    have : (keys.zip vals)[i]? = some (k, some v) := by rw [List.getElem?_zip_eq_some]; exact ⟨hk, hv⟩
    exact List.mem_of_getElem? this
  simp only [mkObj, Json.truthy, Bool.not_eq_true', List.isEmpty_eq_false_iff]
  exact List.ne_nil_of_mem hm

/-! The logger monad -/

theorem pbind_pure (a : α) (f : α → P β) : ((pure a : P α) >>= f) = f a := by
  show P.bind (P.pure a) f = f a
  simp only [P.bind, P.pure, List.nil_append]
  cases f a <;> rfl

theorem lift_ok (a : α) : Py.lift (.ok a) = (pure a : P α) := rfl
theorem orRaise_pure (a : α) : P.orRaise (pure a) = .ok a := rfl
theorem orRaiseIn_pure (w : Str) (a : α) : P.orRaiseIn w (pure a) = .ok a := rfl
theorem py_bind_ok (a : α) (f : α → Py β) : ((.ok a : Py α) >>= f) = f a := rfl
theorem part_ok (a : α) : part (.ok a) = pure (some a) := rfl

theorem parseField_null (m : Json → Py α) : parseField .null m = pure none := rfl

theorem parseField_some {j : Json} {m : Json → Py α} {a : α} (ht : j.truthy = true) (h : m j = .ok a) :
    parseField j m = pure (some a) := by
  simp only [parseField, ht, if_true, h]
  rfl

/-- An optional field that is written when present. -/
theorem parseField_opt (o : Option α) (f : α → Json) (m : Json → Py α) (h : ∀ a, o = some a → (f a).truthy = true ∧ m (f a) = .ok a) :
    parseField ((o.map f).getD .null) m = pure o := by
  cases o with
  | none => rfl
  | some a => exact parseField_some (h a rfl).1 (h a rfl).2

theorem collect_map (m : Json → Py β) (f : α → Json) (g : α → β) (l : List α) (h : ∀ a ∈ l, m (f a) = .ok (g a)) :
    collect m (l.map f) = pure (l.map g) := by
  induction l with
  | nil => rfl
  | cons a as ih =>
    have e := ih fun b hb => h b (by simp [hb])
    simp only [List.map_cons, collect, h a (by simp), e]
    rfl

theorem parseList_map (m : Json → Py β) (f : α → Json) (g : α → β) (l : List α) (h : ∀ a ∈ l, m (f a) = .ok (g a)) :
    parseList m (.arr (l.map f)) = .ok (l.map g) := by
  simp only [parseList, pyIter, py_bind_ok, collect_map m f g l h, orRaise_pure]

/-- What a list field is read as: an empty list is not written at all. -/
def listField (l : List α) : Option (List α) := if l = [] then none else some l

theorem listField_getD (l : List α) : (listField l).getD [] = l := by
  unfold listField; split <;> simp_all

theorem parseField_list (m : Json → Py (List β)) (f : α → Json) (g : α → β) (l : List α)
    (h : m (.arr (l.map f)) = .ok (l.map g)) :
    parseField ((orNone (l.map f)).getD .null) m = pure (listField (l.map g)) := by
  cases l with
  | nil => rfl
  | cons a as =>
    simp only [orNone, listField, List.map_cons, reduceCtorEq, if_false, Option.getD_some]
    exact parseField_some rfl h

theorem optPart_list (m : Json → Py (List β)) (f : α → Json) (g : α → β) (l : List α)
    (h : m (.arr (l.map f)) = .ok (l.map g)) :
    optPart ((orNone (l.map f)).getD .null) m = pure (listField (l.map g)) := by
  cases l with
  | nil => rfl
  | cons a as =>
    simp only [orNone, listField, List.map_cons, reduceCtorEq, if_false, Option.getD_some, optPart, Json.truthy,
      List.isEmpty_cons, Bool.not_false, if_true]
    rw [List.map_cons, List.map_cons] at h
    rw [h]
    rfl

theorem orNone_getD_arr (l : List Json) : (orNone l).getD (.arr []) = .arr l := by
  unfold orNone; split <;> simp_all

/-! Type checks -/

theorem ap_ok (f : α → β) (a : α) : (Check.ap (.ok f) (.ok a) : Check β) = .ok (f a) := rfl
theorem construct_ok (cls : Str) (a : α) : construct cls (.ok a) = .ok a := rfl
theorem chkStr_str (f s : Str) : chkStr f (.str s) = .ok s := rfl
theorem chkBool_bool (f : Str) (b : Bool) : chkBool f (.bool b) = .ok b := rfl
theorem chkOptStr_opt (f : Str) (o : Option Str) : chkOptStr f ((o.map Json.str).getD .null) = .ok o := by cases o <;> rfl
theorem chkSome_some (f : Str) (a : α) : chkSome f (some a) = .ok a := rfl

theorem allStrs_map (l : List Str) : allStrs (jstrs l) = some l := by
  unfold jstrs
  induction l with
  | nil => rfl
  | cons s l ih => simp [allStrs, ih]

theorem chkStrList_jstrs (f : Str) (l : List Str) : chkStrList f (.arr (jstrs l)) = .ok l := by
  show (match allStrs (jstrs l) with
    | some ss => .ok ss
    | none => .error [f] : Check (List Str)) = .ok l
  rw [allStrs_map]

theorem mapM_id_some (l : List α) : (l.map some).mapM id = some l := by
  induction l with
  | nil => rfl
  | cons a l ih => simp [List.mapM_cons, ih]

theorem chkAll_listField (f : Str) (l : List α) : chkAll f (listField (l.map some)) = .ok l := by
  cases l with
  | nil => simp only [List.map_nil, listField, if_true, chkAll]; rfl
  | cons a l =>
    simp only [listField, List.map_cons, reduceCtorEq, if_false, chkAll]
    rw [show (some a :: l.map some) = (a :: l).map some from rfl, mapM_id_some]

theorem parseSpecial_text (o : OrSpecial Str) (h : ∀ s, o = .val s → Unreserved s) :
    parseSpecial (.str o.text) = (match o with | .val s => .val (.str s) | .noAssertion => .noAssertion | .none => .none) := by
  cases o with
  | val s =>
    have := h s rfl
    simp only [parseSpecial, OrSpecial.text, Json.str.injEq, this.1, this.2, if_false]
  | noAssertion => simp only [parseSpecial, OrSpecial.text, if_true]
  | none => simp only [parseSpecial, OrSpecial.text, if_true]; rw [if_neg (by decide +kernel)]

theorem chkSpecial_text (f : Str) (o : OrSpecial Str) (h : ∀ s, o = .val s → Unreserved s) :
    chkSpecial f (parseSpecial (.str o.text)) = .ok o := by
  rw [parseSpecial_text o h]; cases o <;> rfl

theorem chkOptSpecial_opt (f : Str) (o : Option (OrSpecial Str)) (h : ∀ s, o = some (.val s) → Unreserved s) :
    chkOptSpecial f (parseSpecial ((o.map fun x => Json.str x.text).getD .null)) = .ok o := by
  cases o with
  | none => simp [parseSpecial, chkOptSpecial]; rfl
  | some x =>
    simp only [Option.map_some, Option.getD_some]
    rw [parseSpecial_text x fun s hs => h s (by rw [hs])]
    cases x <;> rfl

theorem chkOptNoAssertion_opt (f : Str) (o : Option (OrNoAssertion Str)) (h : ∀ s, o = some (.val s) → s ≠ s%"NOASSERTION") :
    chkOptNoAssertion f (parseNoAssertion ((o.map fun x => Json.str x.text).getD .null)) = .ok o := by
  cases o with
  | none => simp [parseNoAssertion, chkOptNoAssertion]; rfl
  | some x =>
    cases x with
    | noAssertion => simp only [Option.map_some, Option.getD_some, OrNoAssertion.text, parseNoAssertion, if_true]; rfl
    | val s =>
      have := h s rfl
      simp only [Option.map_some, Option.getD_some, OrNoAssertion.text, parseNoAssertion, Json.str.injEq, this, if_false]
      rfl

end Spdx
