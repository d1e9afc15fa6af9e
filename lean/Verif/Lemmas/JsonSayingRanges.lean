import Verif.Lemmas.JsonSayingElems
/- What is said about the ranges of snippets. -/
namespace Spdx.JsonSaying
open Spdx Spdx.Spec Spdx.Spec.JsonFaults
open JsonSays (Obj valueAt Blank Items Object Field Entries ListOf IsRange lastRange Pointer Number)
open Spdx.JsonSays
open Spdx.JsonCrash (lift_bind items_unique)
open RdfSays (All2)

theorem isInfix_iff (k s : Str) : isInfix k s = true ↔ ∃ a b, s = a ++ k ++ b := by
  induction s with
  | nil =>
    simp only [isInfix, List.isEmpty_iff]
    constructor
    · rintro rfl; exact ⟨[], [], rfl⟩
    · rintro ⟨a, b, h⟩
      have h := h.symm
      rw [List.append_eq_nil_iff, List.append_eq_nil_iff] at h
      exact h.1.2
  | cons c cs ih =>
    simp only [isInfix, Bool.or_eq_true, ih, List.isPrefixOf_iff_prefix]
    constructor
    · rintro (⟨b, h⟩ | ⟨a, b, h⟩)
      · exact ⟨[], b, h.symm⟩
      · exact ⟨c :: a, b, by rw [h]; rfl⟩
    · rintro ⟨a, b, h⟩
      cases a with
      | nil => exact .inl ⟨b, h.symm⟩
      | cons x a => exact .inr ⟨a, b, (List.cons.inj h).2⟩

theorem pyIn_cases (k : Str) (v : Json) : (¬ Searchable v ∧ ¬ Mentions k v ∧ pyIn k v = .error (.type s%"not iterable")) ∨
    (Searchable v ∧ Mentions k v ∧ pyIn k v = .ok true) ∨ (Searchable v ∧ ¬ Mentions k v ∧ pyIn k v = .ok false) := by
  unfold Searchable Mentions
  cases v with
  | obj o =>
    refine .inr ?_
    cases h : o.lookup k with
    | some x => exact .inl ⟨.inl ⟨o, rfl⟩, .inl ⟨o, x, rfl, h⟩, by simp [pyIn, dictGet, h]⟩
    | none =>
      refine .inr ⟨.inl ⟨o, rfl⟩, ?_, by simp [pyIn, dictGet, h]⟩
      rintro (⟨o', x, e, hx⟩ | ⟨l, e, _⟩ | ⟨s, e, _⟩)
      · cases e; rw [h] at hx; cases hx
      · cases e
      · cases e
  | arr l =>
    refine .inr ?_
    by_cases h : Json.str k ∈ l
    · exact .inl ⟨.inr (.inl ⟨l, rfl⟩), .inr (.inl ⟨l, rfl, h⟩), by simp [pyIn, h]⟩
    · refine .inr ⟨.inr (.inl ⟨l, rfl⟩), ?_, by simp [pyIn, h]⟩
      rintro (⟨o', x, e, hx⟩ | ⟨l', e, h'⟩ | ⟨s, e, _⟩)
      · cases e
      · cases e; exact h h'
      · cases e
  | str s =>
    refine .inr ?_
    by_cases h : ∃ a b, s = a ++ k ++ b
    · exact .inl ⟨.inr (.inr ⟨s, rfl⟩), .inr (.inr ⟨s, rfl, h⟩), congrArg Except.ok ((isInfix_iff k s).2 h)⟩
    · refine .inr ⟨.inr (.inr ⟨s, rfl⟩), ?_, congrArg Except.ok (Bool.eq_false_iff.2 fun h' => h ((isInfix_iff k s).1 h'))⟩
      rintro (⟨o', x, e, hx⟩ | ⟨l', e, h'⟩ | ⟨s', e, h'⟩)
      · cases e
      · cases e
      · cases e; exact h h'
  | _ =>
    refine .inl ⟨?_, ?_, rfl⟩
    · rintro (⟨o, h⟩ | ⟨l, h⟩ | ⟨s, h⟩) <;> cases h
    · rintro (⟨o', x, e, hx⟩ | ⟨l', e, h'⟩ | ⟨s', e, h'⟩) <;> cases e

theorem mentions_searchable {k : Str} {v : Json} (h : Mentions k v) : Searchable v := by
  rcases pyIn_cases k v with ⟨_, h', _⟩ | ⟨h', _⟩ | ⟨h', _⟩
  · exact absurd h h'
  · exact h'
  · exact h'

theorem in_true {k : Str} {v : Json} (h : Mentions k v) : pyIn k v = .ok true := by
  rcases pyIn_cases k v with ⟨_, h', _⟩ | ⟨_, _, h'⟩ | ⟨_, h', _⟩
  · exact absurd h h'
  · exact h'
  · exact absurd h h'
theorem in_false {k : Str} {v : Json} (hs : Searchable v) (h : ¬ Mentions k v) : pyIn k v = .ok false := by
  rcases pyIn_cases k v with ⟨h', _⟩ | ⟨_, h', _⟩ | ⟨_, _, h'⟩
  · exact absurd hs h'
  · exact absurd h' h
  · exact h'
theorem in_error {k : Str} {v : Json} (hs : ¬ Searchable v) : pyIn k v = .error (.type s%"not iterable") := by
  rcases pyIn_cases k v with ⟨_, _, h'⟩ | ⟨h', _⟩ | ⟨h', _⟩
  · exact h'
  · exact absurd h' hs
  · exact absurd h' hs

/-- The exception for a fault. -/
def errOf : RangeFault → PyErr
  | .said m => .value m
  | .only m => .type m

theorem errOf_inj {f g : RangeFault} (h : errOf f = errOf g) : f = g := by
  cases f <;> cases g <;> cases h <;> rfl

theorem badPointer_error {v : Json} {f : RangeFault} (h : badPointer v f) : pointerType v = .error (errOf f) := by
  unfold pointerType
  cases h with
  | search hs => rw [in_error hs]; rfl
  | both h1 h2 => rw [in_true h1, in_true h2]; rfl
  | neither hs h1 h2 => rw [in_false hs h1, in_false hs h2]; rfl

theorem pointerKind_ok {v : Json} {t : RangeType} (h : PointerKind v t) : pointerType v = .ok t := by
  obtain ⟨hs, h1, h2⟩ := h
  unfold pointerType
  cases t with
  | BYTE =>
    have := in_false hs (h2 .LINE (by decide))
    rw [in_true (k := s%"offset") h1, show pyIn s%"lineNumber" v = .ok false from this]; rfl
  | LINE =>
    have := in_false hs (h2 .BYTE (by decide))
    rw [show pyIn s%"offset" v = .ok false from this, in_true (k := s%"lineNumber") h1]; rfl

theorem pointer_total (v : Json) : (∃ t, PointerKind v t) ∨ ∃ f, badPointer v f := by
  by_cases hs : Searchable v
  · by_cases h1 : Mentions s%"offset" v
    · by_cases h2 : Mentions s%"lineNumber" v
      · exact .inr ⟨_, .both h1 h2⟩
      · refine .inl ⟨.BYTE, hs, h1, ?_⟩
        intro t ht
        cases t with
        | BYTE => exact absurd rfl ht
        | LINE => exact h2
    · by_cases h2 : Mentions s%"lineNumber" v
      · refine .inl ⟨.LINE, hs, h2, ?_⟩
        intro t ht
        cases t with
        | LINE => exact absurd rfl ht
        | BYTE => exact h1
      · exact .inr ⟨_, .neither hs h1 h2⟩
  · exact .inr ⟨_, .search hs⟩

private def oneKind (a b : RangeType) : Py RangeType :=
  if a ≠ b then .error (.value s%"Type of startpointer is not the same as type of endpointer.") else .ok a

private theorem range_obj (o : Obj) {s e : Json} (h1 : o.lookup s%"startPointer" = some s) (h2 : o.lookup s%"endPointer" = some e) :
    parseRange (.obj o) = (do
      let a ← pointerType s
      let b ← pointerType e
      let t ← oneKind a b
      let x ← pyIndex (keyOf t) s
      let y ← pyIndex (keyOf t) e
      return (t, (x, y))) := by
  unfold parseRange
  rw [rangeType_obj o h1 h2]
  simp only [startEnd_obj o h1 h2]
  cases pointerType s with
  | error e => rfl
  | ok a =>
    cases pointerType e with
    | error e => rfl
    | ok b =>
      simp only [py_bind_ok]
      by_cases hab : a ≠ b
      · simp only [oneKind, if_pos hab]; rfl
      · simp only [oneKind, if_neg hab]
        simp only [py_bind_ok]
        cases pyIndex (keyOf a) s with
        | error e => rfl
        | ok x => cases pyIndex (keyOf a) e <;> rfl

private theorem index_other {k : Str} {v : Json} (h : NoObject v) : pyIndex k v = .error (.type s%"not subscriptable") := by
  cases v <;> first | rfl | exact absurd rfl (h _)
private theorem index_mentioned {k : Str} {o : Obj} (h : Mentions k (.obj o)) : ∃ x, pyIndex k (.obj o) = .ok x := by
  rcases h with ⟨o', x, e, hx⟩ | ⟨_, e, _⟩ | ⟨_, e, _⟩
  · cases e; exact ⟨x, by simp [pyIndex, dictGet, hx]⟩
  · cases e
  · cases e

theorem badRange_error {v : Json} {f : RangeFault} (h : badRange v f) : parseRange v = .error (errOf f) := by
  cases h with
  | search hs => unfold parseRange rangeType; rw [in_error hs]; rfl
  | noStart hs h1 => unfold parseRange rangeType; rw [in_false hs h1]; rfl
  | noEnd h1 h2 => unfold parseRange rangeType; rw [in_true h1, in_false (mentions_searchable h1) h2]; rfl
  | noObject h1 h2 hn =>
    unfold parseRange rangeType
    rw [in_true h1, in_true h2, index_other hn]; rfl
  | start e h1 h2 hb => subst e; rw [range_obj _ h1 h2, badPointer_error hb]; rfl
  | stop e h1 h2 hk hb => subst e; rw [range_obj _ h1 h2, pointerKind_ok hk, badPointer_error hb]; rfl
  | kinds e h1 h2 hk hk' hne =>
    subst e
    rw [range_obj _ h1 h2, pointerKind_ok hk, pointerKind_ok hk']
    simp only [py_bind_ok]
    rw [oneKind, if_pos hne]; rfl
  | pointers e h1 h2 hk hk' hn =>
    subst e
    rename_i o s e t
    rw [range_obj _ h1 h2, pointerKind_ok hk, pointerKind_ok hk']
    simp only [py_bind_ok]
    rw [oneKind, if_neg (by simp)]
    simp only [py_bind_ok]
    have hkey : keyOf t = pointerKey t := by cases t <;> rfl
    by_cases hs : NoObject s
    · rw [index_other hs]; rfl
    · have he : NoObject e := hn.resolve_left hs
      obtain ⟨so, rfl⟩ : ∃ so, s = .obj so := by
        refine Classical.byContradiction fun hne => hs fun o ho => hne ⟨o, ho⟩
      obtain ⟨x, hx⟩ := index_mentioned hk.2.1
      rw [hkey, hx, index_other he]; rfl

theorem range_total (v : Json) : (∃ r, parseRange v = .ok r) ∨ ∃ f, badRange v f := by
  by_cases hs : Searchable v
  · by_cases h1 : Mentions s%"startPointer" v
    · by_cases h2 : Mentions s%"endPointer" v
      · by_cases hn : NoObject v
        · exact .inr ⟨_, .noObject h1 h2 hn⟩
        · obtain ⟨o, rfl⟩ : ∃ o, v = .obj o := Classical.byContradiction fun hne => hn fun o ho => hne ⟨o, ho⟩
          obtain ⟨s, hs'⟩ : ∃ s, o.lookup s%"startPointer" = some s := by
            rcases h1 with ⟨o', x, e, hx⟩ | ⟨_, e, _⟩ | ⟨_, e, _⟩
            · cases e; exact ⟨x, hx⟩
            · cases e
            · cases e
          obtain ⟨e, he'⟩ : ∃ s, o.lookup s%"endPointer" = some s := by
            rcases h2 with ⟨o', x, e, hx⟩ | ⟨_, e, _⟩ | ⟨_, e, _⟩
            · cases e; exact ⟨x, hx⟩
            · cases e
            · cases e
          rcases pointer_total s with ⟨t, ht⟩ | ⟨f, hf⟩
          · rcases pointer_total e with ⟨t', ht'⟩ | ⟨f, hf⟩
            · by_cases hne : t ≠ t'
              · exact .inr ⟨_, .kinds rfl hs' he' ht ht' hne⟩
              · have := Decidable.not_not.1 hne
                subst this
                by_cases hp : NoObject s ∨ NoObject e
                · exact .inr ⟨_, .pointers rfl hs' he' ht ht' hp⟩
                · obtain ⟨so, rfl⟩ : ∃ so, s = .obj so := Classical.byContradiction fun hne => hp (.inl fun o ho => hne ⟨o, ho⟩)
                  obtain ⟨eo, rfl⟩ : ∃ so, e = .obj so := Classical.byContradiction fun hne => hp (.inr fun o ho => hne ⟨o, ho⟩)
                  obtain ⟨x, hx⟩ := index_mentioned ht.2.1
                  obtain ⟨y, hy⟩ := index_mentioned ht'.2.1
                  have hkey : keyOf t = pointerKey t := by cases t <;> rfl
                  refine .inl ⟨(t, (x, y)), ?_⟩
                  rw [range_obj _ hs' he', pointerKind_ok ht, pointerKind_ok ht']
                  simp only [py_bind_ok]
                  rw [oneKind, if_neg (by simp)]
                  simp only [py_bind_ok]
                  rw [hkey, hx, hy]; rfl
            · exact .inr ⟨_, .stop rfl hs' he' ht hf⟩
          · exact .inr ⟨_, .start rfl hs' he' hf⟩
      · exact .inr ⟨_, .noEnd h1 h2⟩
    · exact .inr ⟨_, .noStart hs h1⟩
  · exact .inr ⟨_, .search hs⟩

/-- Nothing else is wrong with ranges. -/
theorem range_error {v : Json} {f : RangeFault} : parseRange v = .error (errOf f) ↔ badRange v f := by
  refine ⟨fun h => ?_, badRange_error⟩
  rcases range_total v with ⟨r, hr⟩ | ⟨g, hg⟩
  · rw [hr] at h; cases h
  · have := badRange_error hg
    rw [h] at this
    rwa [errOf_inj (Except.error.inj this)]

theorem aboutRange_ok {v : Json} {r} (h : parseRange v = .ok r) {ms : List PMsg} : aboutRange v ms ↔ ms = [] := by
  constructor
  · rintro (⟨_, h⟩ | ⟨m, hb, _⟩)
    · exact h
    · rw [badRange_error hb] at h; cases h
  · rintro rfl; exact .inl ⟨⟨r, range_iff.1 h⟩, rfl⟩

theorem aboutRange_said {v : Json} {m : Str} (h : badRange v (.said m)) {ms : List PMsg} : aboutRange v ms ↔ ms = [.text m] := by
  constructor
  · rintro (⟨⟨r, hr⟩, _⟩ | ⟨m', hb, rfl⟩)
    · have := badRange_error h
      rw [range_iff.2 hr] at this; cases this
    · have := (badRange_error h).symm.trans (badRange_error hb)
      cases Except.error.inj this; rfl
  · rintro rfl; exact .inr ⟨m, h, rfl⟩

theorem aboutRange_only {v : Json} {m : Str} (h : badRange v (.only m)) {ms : List PMsg} : ¬ aboutRange v ms := by
  rintro (⟨⟨r, hr⟩, _⟩ | ⟨m', hb, rfl⟩)
  · have := badRange_error h
    rw [range_iff.2 hr] at this; cases this
  · have := (badRange_error h).symm.trans (badRange_error hb)
    cases Except.error.inj this

private theorem collect_said' {r : Json} {rs : List Json} {acc : Dict RangeType (Json × Json)} {m : Str} (h : parseRange r = .error (.value m)) :
    collectRanges (r :: rs) acc = (match collectRanges rs acc with
      | .ok (ms, acc) => .ok (.text m :: ms, acc)
      | .error e => .error e : P _) := by
  rw [collectRanges.eq_2, h]; rfl
private theorem collect_ok' {r : Json} {rs : List Json} {acc : Dict RangeType (Json × Json)} {t se} (h : parseRange r = .ok (t, se)) :
    collectRanges (r :: rs) acc = collectRanges rs (acc.set t se) := by
  rw [collectRanges.eq_2, h]
private theorem collect_only {r : Json} {rs : List Json} {acc : Dict RangeType (Json × Json)} {m : Str} (h : parseRange r = .error (.type m)) :
    collectRanges (r :: rs) acc = .error (.type m) := by
  rw [collectRanges.eq_2, h]

/-- The ranges in turn. -/
theorem ranges_collected (l : List Json) (acc : Dict RangeType (Json × Json)) :
    (∃ mss d, All2 aboutRange l mss ∧ collectRanges l acc = .ok (mss.flatten, d)) ∨
    (∃ l1 r l2 mss m, l = l1 ++ r :: l2 ∧ All2 aboutRange l1 mss ∧ badRange r (.only m) ∧ collectRanges l acc = .error (.type m)) := by
  induction l generalizing acc with
  | nil => exact .inl ⟨[], acc, .nil, rfl⟩
  | cons r rs ih =>
    rcases range_total r with ⟨⟨t, se⟩, hr⟩ | ⟨f, hf⟩
    · rw [collect_ok' hr]
      rcases ih (acc.set t se) with ⟨mss, d, h1, h2⟩ | ⟨l1, r', l2, mss, m, rfl, h1, h2, h3⟩
      · exact .inl ⟨[] :: mss, d, .cons ((aboutRange_ok hr).2 rfl) h1, h2⟩
      · exact .inr ⟨r :: l1, r', l2, [] :: mss, m, rfl, .cons ((aboutRange_ok hr).2 rfl) h1, h2, h3⟩
    · cases f with
      | said m =>
        rw [collect_said' (badRange_error hf)]
        rcases ih acc with ⟨mss, d, h1, h2⟩ | ⟨l1, r', l2, mss, m', rfl, h1, h2, h3⟩
        · exact .inl ⟨[.text m] :: mss, d, .cons ((aboutRange_said hf).2 rfl) h1, by rw [h2]; rfl⟩
        · exact .inr ⟨r :: l1, r', l2, [.text m] :: mss, m', rfl, .cons ((aboutRange_said hf).2 rfl) h1, h2, by rw [h3]⟩
      | only m =>
        exact .inr ⟨[], r, rs, [], m, rfl, .nil, hf, collect_only (badRange_error hf)⟩

theorem aboutRange_unique {v : Json} {a b : List PMsg} (h : aboutRange v a) (h' : aboutRange v b) : a = b := by
  rcases range_total v with ⟨r, hr⟩ | ⟨f, hf⟩
  · rw [(aboutRange_ok hr).1 h, (aboutRange_ok hr).1 h']
  · cases f with
    | said m => rw [(aboutRange_said hf).1 h, (aboutRange_said hf).1 h']
    | only m => exact absurd h (aboutRange_only hf)

theorem all2_unique {α β : Type} {R : α → β → Prop} (hu : ∀ x a b, R x a → R x b → a = b) {l : List α} {m m' : List β}
    (h : All2 R l m) (h' : All2 R l m') : m = m' := by
  induction h generalizing m' with
  | nil => cases h'; rfl
  | cons h1 _ ih =>
    cases h' with
    | cons h1' h2' => rw [hu _ _ _ h1 h1', ih h2']

/-- The first entry that nothing is said about stops. -/
theorem all2_stop {α β : Type} {R : α → β → Prop} {l1 l1' l2 l2' : List α} {r r' : α} {m m' : List β} (h : All2 R l1 m) (h' : All2 R l1' m')
    (hr : ∀ b, ¬ R r b) (hr' : ∀ b, ¬ R r' b) (e : l1 ++ r :: l2 = l1' ++ r' :: l2') : r = r' := by
  induction h generalizing l1' m' with
  | nil =>
    cases h' with
    | nil => exact (List.cons.inj e).1
    | cons h1 _ => cases (List.cons.inj e).1; exact absurd h1 (hr _)
  | cons h1 _ ih =>
    cases h' with
    | nil => cases (List.cons.inj e).1; exact absurd h1 (hr' _)
    | cons _ h2 => exact ih h2 (List.cons.inj e).2

theorem all2_split {α β : Type} {R : α → β → Prop} {l1 l2 : List α} {r : α} {m : List β} (h : All2 R (l1 ++ r :: l2) m) : ∃ b, R r b := by
  induction l1 generalizing m with
  | nil => cases h with | cons h1 _ => exact ⟨_, h1⟩
  | cons x l1 ih => cases h with | cons _ h2 => exact ih h2

private theorem only_unique {v : Json} {m m' : Str} (h : badRange v (.only m)) (h' : badRange v (.only m')) : m = m' := by
  have := (badRange_error h).symm.trans (badRange_error h')
  cases Except.error.inj this; rfl

theorem said_ranges (v : Json) (ms : List PMsg) : said (parseRanges v) = some ms ↔ aboutRanges v ms := by
  unfold parseRanges
  have hG : ∀ l ms, said ((collectRanges l []).orRaiseIn s%"snippet ranges") = some ms ↔
      (∃ l1 r l2 mss m, l = l1 ++ r :: l2 ∧ All2 aboutRange l1 mss ∧ badRange r (.only m) ∧ ms = [.text m]) ∨
      (∃ mss, All2 aboutRange l mss ∧ wrap s%"snippet ranges" mss.flatten ms) := by
    intro l ms
    rcases ranges_collected l [] with ⟨mss, d, h1, h2⟩ | ⟨l1, r, l2, mss, m, rfl, h1, h2, h3⟩
    · rw [h2]
      have hl : Logs1 (.ok (mss.flatten, d) : P (Dict RangeType (Json × Json))) (· = mss.flatten) (fun _ => True) :=
        ⟨fun fs => ⟨fun ⟨t, h⟩ => (by cases h; rfl), fun h => ⟨d, by rw [h]⟩⟩, fun _ _ => trivial⟩
      rw [orRaiseIn_said hl (hard_ok _)]
      constructor
      · rintro ⟨_, rfl, hw⟩; exact .inr ⟨mss, h1, hw⟩
      · rintro (⟨l1, r, l2, mss', m, rfl, h3, h4, _⟩ | ⟨mss', h3, hw⟩)
        · obtain ⟨b, hb⟩ := all2_split h1
          exact absurd hb (aboutRange_only h4)
        · rw [all2_unique (R := aboutRange) (fun _ _ _ => aboutRange_unique) h3 h1] at hw
          exact ⟨_, rfl, hw⟩
    · rw [h3]
      have : said (P.orRaiseIn s%"snippet ranges" (.error (.type m) : P (Dict RangeType (Json × Json)))) = some [.text m] := rfl
      rw [this]
      constructor
      · intro h; cases h; exact .inl ⟨l1, r, l2, mss, m, rfl, h1, h2, rfl⟩
      · rintro (⟨l1', r', l2', mss', m', he, h4, h5, rfl⟩ | ⟨mss', h4, hw⟩)
        · have := all2_stop h1 h4 (fun _ => aboutRange_only h2) (fun _ => aboutRange_only h5) he
          subst this
          rw [only_unique h2 h5]
        · obtain ⟨b, hb⟩ := all2_split h4
          exact absurd hb (aboutRange_only h2)
  rw [iter_said hG]
  constructor
  · rintro (⟨l, hl, ⟨l1, r, l2, mss, m, rfl, h1, h2, rfl⟩ | ⟨mss, h1, hw⟩⟩ | ⟨hn, rfl⟩)
    · exact .only hl h1 h2
    · exact .all hl h1 hw
    · exact .noItems hn
  · intro h
    cases h with
    | noItems hn => exact .inr ⟨hn, rfl⟩
    | only hl h1 h2 => exact .inl ⟨_, hl, .inl ⟨_, _, _, _, _, rfl, h1, h2, rfl⟩⟩
    | all hl h1 hw => exact .inl ⟨_, hl, .inr ⟨_, h1, hw⟩⟩

theorem tells_ranges : Tells parseRanges (fun v d => ∃ rs, ListOf IsRange v rs ∧ d = rs.foldl setRange []) aboutRanges := ⟨reads_ranges, said_ranges⟩

/-! ### Snippets -/

theorem orBlank_getD {A : About} {o : Obj} {k : Str} {ms : List PMsg} : orBlank A ((o.lookup k).getD (.arr [])) ms ↔ orBlank A (valueAt o k) ms := by
  unfold valueAt
  cases o.lookup k with
  | some v => exact Iff.rfl
  | none =>
    unfold orBlank
    simp only [JsonSays.blank_iff]
    exact ⟨fun h => h.elim (fun h => .inl ⟨by decide, h.2⟩) fun h => absurd (show ¬ (Json.arr []).truthy = true by decide) h.1,
      fun h => h.elim (fun h => .inl ⟨by decide, h.2⟩) fun h => absurd (show ¬ Json.null.truthy = true by decide) h.1⟩

theorem logs_fieldD {α : Type} {m : Json → Py α} {R : Json → α → Prop} {A : About} (t : Tells m R A) {o : Obj} {k : Str} :
    Logs1 (parseField ((o.lookup k).getD (.arr [])) m) (member o k A) (Field R (valueAt o k)) :=
  logs1_mono (logs1_congr (logs_field t) fun _ => orBlank_getD) fun _ => field_getD.1

private theorem last_iff {v : Json} {x : Option (Dict RangeType (Json × Json))} (h : Field (fun v d => ∃ rs, ListOf IsRange v rs ∧ d = rs.foldl setRange []) v x)
    (t : RangeType) (a b : Json) : (x.getD []).get? t = some (a, b) ↔ Last v t a b := by
  unfold Last
  rcases h with ⟨hb, rfl⟩ | ⟨hb, d, ⟨rs, hr, rfl⟩, rfl⟩
  · exact ⟨fun h => (by cases h), fun ⟨_, ⟨h, _⟩, _⟩ => absurd hb h⟩
  · have e : (Option.getD (some (rs.foldl setRange [])) []).get? t = lastRange rs t := by
      rw [Option.getD_some, foldl_get]
      cases lastRange rs t <;> rfl
    rw [e]
    constructor
    · intro h; exact ⟨rs, ⟨hb, hr⟩, h⟩
    · rintro ⟨rs', ⟨_, hr'⟩, h⟩
      obtain ⟨l, hl, h1⟩ := hr
      obtain ⟨l', hl', h1'⟩ := hr'
      rw [items_unique hl' hl] at h1'
      have : rs' = rs := all2_unique (R := IsRange) (fun v a b h h' => Except.ok.inj ((range_iff.2 h).symm.trans (range_iff.2 h'))) h1' h1
      rwa [← this]

theorem checks_byteRange {f : Str} {v : Json} {x : Option (Dict RangeType (Json × Json))}
    (h : Field (fun v d => ∃ rs, ListOf IsRange v rs ∧ d = rs.foldl setRange []) v x) :
    Checks (chkRange f (rangeFromStr ((x.getD []).get? .BYTE))) [(f, ¬ ∃ a b, Last v .BYTE a b ∧ Numbers a b)] := by
  refine checks_one ?_ ?_
  · generalize rangeFromStr _ = y
    rcases y with _ | ⟨a, b⟩
    · exact .inr rfl
    · rw [chkRange.eq_def]
      dsimp only
      cases pyInt? a with
      | none => exact .inr rfl
      | some i =>
        cases pyInt? b with
        | none => exact .inr rfl
        | some j => exact .inl ⟨_, rfl⟩
  · simp only [range_chk]
    refine not_congr ?_
    constructor
    · rintro ⟨a, b, hl, ⟨x', hx⟩, y', hy⟩
      exact ⟨(x', y'), a, b, (last_iff h _ _ _).2 hl, hx, hy⟩
    · rintro ⟨⟨x', y'⟩, a, b, hl, hx, hy⟩
      exact ⟨a, b, (last_iff h _ _ _).1 hl, ⟨x', hx⟩, y', hy⟩

theorem checks_lineRange {f : Str} {v : Json} {x : Option (Dict RangeType (Json × Json))}
    (h : Field (fun v d => ∃ rs, ListOf IsRange v rs ∧ d = rs.foldl setRange []) v x) :
    Checks (chkOptRange f (rangeFromStr ((x.getD []).get? .LINE))) [(f, ∃ a b, Last v .LINE a b ∧ ¬ Numbers a b)] := by
  refine checks_one ?_ ?_
  · generalize rangeFromStr _ = y
    rcases y with _ | ⟨a, b⟩
    · exact .inl ⟨_, rfl⟩
    · rw [chkOptRange.eq_def]
      dsimp only
      cases pyInt? a with
      | none => exact .inr rfl
      | some i =>
        cases pyInt? b with
        | none => exact .inr rfl
        | some j => exact .inl ⟨_, rfl⟩
  · simp only [optRange_chk]
    cases hl : (x.getD []).get? .LINE with
    | none =>
      constructor
      · rintro ⟨a, b, h', _⟩
        rw [(last_iff h _ _ _).2 h'] at hl; cases hl
      · intro hn; exact absurd ⟨none, .inl ⟨rfl, rfl⟩⟩ hn
    | some p =>
      obtain ⟨a, b⟩ := p
      constructor
      · rintro ⟨a', b', h', hn⟩ ⟨r, ⟨h1, _⟩ | ⟨c, d, i, j, h1, rfl, h2, h3⟩⟩
        · cases h1
        · cases h1
          have := (last_iff h _ _ _).2 h'
          rw [hl] at this
          cases this
          exact hn ⟨⟨i, h2⟩, j, h3⟩
      · intro hn
        refine ⟨a, b, (last_iff h _ _ _).1 hl, ?_⟩
        rintro ⟨⟨i, hi⟩, j, hj⟩
        exact hn ⟨some (i, j), .inr ⟨a, b, i, j, rfl, rfl, hi, hj⟩⟩

attribute [local irreducible] Check.ap

theorem said_snippet (L : LicText) (o : Obj) (ms : List PMsg) : said (parseSnippet L (.obj o)) = some ms ↔ aboutSnippet L o ms := by
  unfold parseSnippet aboutSnippet
  simp only [get_obj, getD_obj, py_bind_ok, lift_bind]
  refine element_said (by hard) ?_ ms
  refine logs_cons (logs_fieldD tells_ranges) fun _ => logs_cons (logs_field (tells_license L)) fun _ =>
    logs_cons (logs_field (tells_list (tells_license L))) fun _ => logs_pure ?_
  intros
  refine ⟨_, rfl, ?_⟩
  dsimp only
  apply checks_of
  · repeat (first | check_one | exact checks_byteRange (by assumption) | exact checks_lineRange (by assumption) | check_other | apply checks_ap)
  · simp only [List.append_nil, List.nil_append, List.cons_append]

theorem tells_snippet (L : LicText) : Tells (parseSnippet L) (Object (JsonSays.SnippetSays L)) (object (aboutSnippet L)) :=
  tells_object (reads_snippet L) (said_snippet L) (by no_object)

end Spdx.JsonSaying
