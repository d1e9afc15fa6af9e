import Verif.Spec.Called
import Verif.Props.C44
/-
Calls of classes whose parameters are their fields, and assignments to the fields, for C80 and C85.
-/
namespace Spdx.Called
open Spdx Spec

deriving instance DecidableEq for Hint

/-! ## Binding of arguments -/

theorem positional (params : List SParam) (n : Str) : ∀ pos : List PyVal,
    (bindPositional params pos).get? n = (params.findIdx? (·.name = n)).bind (pos[·]?) := by
  unfold bindPositional
  induction params with
  | nil => intro pos; rfl
  | cons p params ih =>
    intro pos
    cases pos with
    | nil =>
      show none = _
      cases List.findIdx? (fun x => decide (x.name = n)) (p :: params) <;> rfl
    | cons v pos =>
      rw [List.map_cons, List.zip_cons_cons, Dict.get?, List.findIdx?_cons]
      by_cases h : p.name = n
      · simp [h]
      · rw [if_neg h, ih]
        simp only [h, decide_false, Bool.false_eq_true, if_false, Option.bind_map]
        congr 1

theorem keywords_get (params : List SParam) (kw : List (Str × PyVal)) : ∀ (d d' : Dict Str PyVal), bindKeywords params d kw = .ok d' →
    ∀ n, d'.get? n = (d.get? n).or ((kw.find? (·.1 = n)).map (·.2)) := by
  induction kw with
  | nil => intro d d' h n; cases h; simp
  | cons p kw ih =>
    obtain ⟨k, v⟩ := p
    intro d d' h n
    rw [bindKeywords] at h
    split at h
    · cases h
    · split at h
      · cases h
      · rename_i hk
        rw [ih _ _ h, Dict.get?_set, List.find?_cons]
        by_cases e : k = n
        · subst e
          have : d.get? k = none := by simpa using hk
          simp [this]
        · simp [e]

theorem keywords_ok (params : List SParam) (kw : List (Str × PyVal)) : ∀ d : Dict Str PyVal,
    (∃ d', bindKeywords params d kw = .ok d') ↔ (∀ k ∈ kw.map (·.1), k ∈ params.map (·.name) ∧ d.get? k = none) ∧ (kw.map (·.1)).Nodup := by
  induction kw with
  | nil => intro d; simp [bindKeywords]
  | cons p kw ih =>
    obtain ⟨k, v⟩ := p
    intro d
    rw [bindKeywords]
    by_cases h1 : k ∈ params.map (·.name)
    · rw [if_neg (not_not_intro h1)]
      by_cases h2 : d.get? k = none
      · rw [if_neg (by simp [h2]), ih, List.map_cons, List.nodup_cons, List.forall_mem_cons]
        constructor
        · rintro ⟨h3, h4⟩
          have hk : k ∉ kw.map (·.1) := by
            intro hk
            have := (h3 k hk).2
            rw [Dict.get?_set, if_pos rfl] at this
            cases this
          refine ⟨⟨⟨h1, h2⟩, fun x hx => ⟨(h3 x hx).1, ?_⟩⟩, hk, h4⟩
          have := (h3 x hx).2
          rw [Dict.get?_set, if_neg (fun e : k = x => hk (e ▸ hx))] at this
          exact this
        · rintro ⟨⟨_, h3⟩, hk, h4⟩
          refine ⟨fun x hx => ⟨(h3 x hx).1, ?_⟩, h4⟩
          rw [Dict.get?_set, if_neg (fun e : k = x => hk (e ▸ hx))]
          exact (h3 x hx).2
      · rw [if_pos (by simpa [Option.isSome_iff_ne_none] using h2)]
        constructor
        · rintro ⟨d', h⟩; cases h
        · intro h
          exact absurd (h.1 k List.mem_cons_self).2 h2
    · rw [if_pos h1]
      constructor
      · rintro ⟨d', h⟩; cases h
      · intro h
        exact absurd (h.1 k List.mem_cons_self).1 h1

theorem first_of_nodup {params : List SParam} (hn : (params.map (·.name)).Nodup) {i : Nat} {k : Str}
    (h : (params[i]?).map (·.name) = some k) : params.findIdx? (·.name = k) = some i := by
  induction params generalizing i with
  | nil => cases h
  | cons p params ih =>
    rw [List.map_cons, List.nodup_cons] at hn
    rw [List.findIdx?_cons]
    cases i with
    | zero =>
      have e : p.name = k := by simpa using h
      simp [e]
    | succ i =>
      have h' : (params[i]?).map (·.name) = some k := by simpa using h
      have hm : k ∈ params.map (·.name) := by
        cases hp : params[i]? with
        | none => rw [hp] at h'; cases h'
        | some q =>
          rw [hp] at h'
          have : q.name = k := by simpa using h'
          exact this ▸ List.mem_map_of_mem (List.mem_of_getElem? hp)
      have hne : p.name ≠ k := fun e => hn.1 (e ▸ hm)
      simp [hne, ih hn.2 h']

theorem known_iff {params : List SParam} (hn : (params.map (·.name)).Nodup) (pos : List PyVal) (k : Str) :
    (k ∈ params.map (·.name) ∧ (bindPositional params pos).get? k = none) ↔ ∃ i, pos.length ≤ i ∧ (params[i]?).map (·.name) = some k := by
  rw [positional]
  constructor
  · rintro ⟨hk, h⟩
    obtain ⟨p, hp, rfl⟩ := List.mem_map.1 hk
    obtain ⟨i, hi⟩ := List.getElem?_of_mem hp
    have hi' : (params[i]?).map (·.name) = some p.name := by rw [hi]; rfl
    rw [first_of_nodup hn hi'] at h
    refine ⟨i, ?_, hi'⟩
    simpa using h
  · rintro ⟨i, h1, h2⟩
    rw [first_of_nodup hn h2]
    refine ⟨?_, by simpa using h1⟩
    cases hp : params[i]? with
    | none => rw [hp] at h2; cases h2
    | some q =>
      rw [hp] at h2
      have : q.name = k := by simpa using h2
      exact this ▸ List.mem_map_of_mem (List.mem_of_getElem? hp)

theorem bound_get {params : List SParam} {pos : List PyVal} {kw : List (Str × PyVal)} {d : Dict Str PyVal}
    (h : bindKeywords params (bindPositional params pos) kw = .ok d) (n : Str) : d.get? n = argument params pos kw n := by
  rw [keywords_get _ _ _ _ h, positional]
  unfold argument
  cases (params.findIdx? (·.name = n)).bind (pos[·]?) <;> rfl

theorem bind_iff {params : List SParam} (hn : (params.map (·.name)).Nodup) (pos : List PyVal) (kw : List (Str × PyVal))
    (l : Dict Str PyVal) : bindArguments params pos kw = .ok l ↔
      ProperCall params pos kw ∧ l = params.map fun p => (p.name, (argument params pos kw p.name).getD (p.default.getD .none)) := by
  unfold bindArguments
  have hk := keywords_ok params kw (bindPositional params pos)
  have hk' : (∀ k ∈ kw.map (·.1), k ∈ params.map (·.name) ∧ (bindPositional params pos).get? k = none) ↔
      ∀ k ∈ kw.map (·.1), ∃ i, pos.length ≤ i ∧ (params[i]?).map (·.name) = some k :=
    forall_congr' fun k => imp_congr_right fun _ => known_iff hn pos k
  rw [hk'] at hk
  cases hb : bindKeywords params (bindPositional params pos) kw with
  | error e =>
    constructor
    · intro h; cases h
    · rintro ⟨hp, _⟩
      obtain ⟨d, hd⟩ := hk.2 ⟨hp.known, hp.once⟩
      rw [hb] at hd; cases hd
  | ok d =>
    obtain ⟨h1, h2⟩ := hk.1 ⟨d, hb⟩
    have hg := bound_get hb
    dsimp only
    simp only [hg]
    by_cases hl : pos.length > params.length
    · rw [if_pos hl]
      constructor
      · intro h; cases h
      · rintro ⟨hp, _⟩
        exact absurd hp.positions (Nat.not_le.2 hl)
    · rw [if_neg hl]
      by_cases ha : params.filter (fun p => (argument params pos kw p.name).isNone && p.default.isNone) = []
      · rw [if_neg (not_not_intro ha)]
        constructor
        · intro h
          cases h
          refine ⟨⟨Nat.not_lt.1 hl, h1, h2, fun p hp hd => ?_⟩, rfl⟩
          have := List.filter_eq_nil_iff.1 ha p hp
          cases hx : argument params pos kw p.name with
          | none => rw [hx, hd] at this; exact absurd rfl this
          | some v => rfl
        · rintro ⟨_, rfl⟩; rfl
      · rw [if_pos ha]
        constructor
        · intro h; cases h
        · rintro ⟨hp, _⟩
          refine absurd (List.filter_eq_nil_iff.2 fun p hpp => ?_) ha
          intro h
          simp only [Bool.and_eq_true, Option.isNone_iff_eq_none] at h
          have := hp.complete p hpp h.2
          rw [h.1] at this
          cases this

/-! ## The body of the constructor -/

theorem lookup_find (l : List (Str × PyVal)) (k : Str) : l.lookup k = (l.find? (·.1 = k)).map (·.2) := by
  induction l with
  | nil => rfl
  | cons p l ih =>
    obtain ⟨a, b⟩ := p
    rw [List.lookup_cons, List.find?_cons]
    by_cases h : a = k
    · subst h; simp
    · have : (k == a) = false := by simpa using fun e => h e.symm
      simp [this, h, ih]

theorem get_map (params : List SParam) (g : SParam → PyVal) (n : Str) :
    Dict.get? (params.map fun p => (p.name, g p)) n = (params.find? (·.name = n)).map g := by
  induction params with
  | nil => rfl
  | cons p params ih =>
    rw [List.map_cons, Dict.get?, List.find?_cons]
    by_cases h : p.name = n
    · simp [h]
    · simp [h, ih]

/-- What a statement `x = [] if x is None else x` makes of a value. -/
def filledWith (e : Option PyVal) (v : PyVal) : PyVal :=
  match v, e with
  | .none, some d => d
  | v, _ => v

theorem fill_map (c : SClass) (g : SParam → PyVal) :
    fillNone c.filled (c.params.map fun p => (p.name, g p)) = c.params.map fun p => (p.name, filledWith (c.filled.lookup p.name) (g p)) := by
  unfold fillNone
  rw [List.map_map]
  refine List.map_congr_left fun p _ => ?_
  show (match g p, c.filled.lookup p.name with | .none, some d => (p.name, d) | v, _ => (p.name, v)) = _
  cases g p <;> cases c.filled.lookup p.name <;> rfl

theorem value_eq (c : SClass) (pos : List PyVal) (kw : List (Str × PyVal)) (n : Str) (hn : n ∈ c.params.map (·.name)) :
    ((fillNone c.filled (c.params.map fun p => (p.name, (argument c.params pos kw p.name).getD (p.default.getD .none)))).get? n).getD .none =
      fieldValue c pos kw n := by
  rw [fill_map, get_map]
  unfold fieldValue
  cases hf : c.params.find? (·.name = n) with
  | none =>
    obtain ⟨p, hp, rfl⟩ := List.mem_map.1 hn
    have := List.find?_eq_none.1 hf p hp
    simp at this
  | some p =>
    have hpn : p.name = n := by simpa using List.find?_some hf
    rw [Option.map_some, Option.getD_some, hpn, lookup_find]
    show filledWith _ ((argument c.params pos kw n).getD (p.default.getD .none)) = _
    cases hx : (argument c.params pos kw n).getD (p.default.getD .none) <;> cases c.filled.find? (·.1 = n) <;>
      simp [filledWith, hx]

theorem set_eq (pick : List PyVal → Nat) (g : Str → PyVal) (fs : List (Str × Hint)) (locals : Dict Str PyVal)
    (hg : ∀ f ∈ fs, (locals.get? f.1).getD .none = g f.1) : ∀ (obj : Dict Str PyVal) (es : List Str),
    fs.foldl (fun s f =>
      let v := (locals.get? f.1).getD .none
      if f.2.accepts pick v then (s.1.set f.1 v, s.2) else (s.1, s.2 ++ [f.1])) (obj, es) =
      (obj.update ((fs.filter fun f => f.2.accepts pick (g f.1)).map fun f => (f.1, g f.1)),
       es ++ (fs.filter fun f => !f.2.accepts pick (g f.1)).map (·.1)) := by
  induction fs with
  | nil => intro obj es; simp [Dict.update]
  | cons f fs ih =>
    intro obj es
    rw [List.foldl_cons]
    have h0 := hg f List.mem_cons_self
    have hi := ih fun x hx => hg x (List.mem_cons_of_mem _ hx)
    by_cases h : f.2.accepts pick (g f.1) = true
    · simp only [h0, if_pos h]
      rw [hi]
      simp [h, Dict.update]
    · simp only [h0, if_neg h]
      rw [hi]
      simp [h]

/-- Every parameter sets the field of its name, and every field is set by a parameter. -/
def Wf (c : SClass) : Prop := (c.params.map (·.name)).Nodup ∧ (c.fields.map (·.1)).Nodup ∧
    (∀ n ∈ c.fields.map (·.1), n ∈ c.params.map (·.name)) ∧ (∀ n ∈ c.params.map (·.name), n ∈ c.fields.map (·.1))

theorem call_eq {c : SClass} (hc : Wf c) (pick : List PyVal → Nat) {pos : List PyVal} {kw : List (Str × PyVal)}
    (h : ProperCall c.params pos kw) : c.call pick pos kw =
      match (c.fields.filter fun f => !f.2.accepts pick (fieldValue c pos kw f.1)).map (·.1) with
      | [] => .ok (c.fields.map fun f => (f.1, fieldValue c pos kw f.1))
      | es => .error (.types es) := by
  obtain ⟨h1, h2, h3, _⟩ := hc
  unfold SClass.call
  rw [(bind_iff h1 pos kw _).2 ⟨h, rfl⟩]
  dsimp only
  unfold setFields
  rw [set_eq pick (fieldValue c pos kw) c.fields _ fun f hf => value_eq c pos kw f.1 (h3 _ (List.mem_map_of_mem hf))]
  rw [List.nil_append]
  by_cases he : c.fields.filter (fun f => !f.2.accepts pick (fieldValue c pos kw f.1)) = []
  · rw [he]
    have ha : c.fields.filter (fun f => f.2.accepts pick (fieldValue c pos kw f.1)) = c.fields := by
      rw [List.filter_eq_self]
      intro f hf
      simpa using List.filter_eq_nil_iff.1 he f hf
    rw [ha, Dict.update_fresh]
    · rfl
    · rw [List.map_map]; exact h2
    · intro k _ hk; cases hk
  · cases hm : (c.fields.filter (fun f => !f.2.accepts pick (fieldValue c pos kw f.1))).map (·.1) with
    | nil => exact absurd (List.map_eq_nil_iff.1 hm) he
    | cons e es => rfl

theorem call_improper {c : SClass} (hc : Wf c) (pick : List PyVal → Nat) {pos : List PyVal} {kw : List (Str × PyVal)}
    (h : ¬ ProperCall c.params pos kw) : ∃ e, c.call pick pos kw = .error e ∧ ∀ es, e ≠ .types es := by
  obtain ⟨h1, _⟩ := hc
  unfold SClass.call
  cases hb : bindArguments c.params pos kw with
  | ok l => exact absurd ((bind_iff h1 pos kw l).1 hb).1 h
  | error e =>
    refine ⟨e, rfl, ?_⟩
    rintro es rfl
    unfold bindArguments at hb
    have hkw : ∀ (kw : List (Str × PyVal)) (d : Dict Str PyVal), bindKeywords c.params d kw ≠ .error (.types es) := by
      intro kw
      induction kw with
      | nil => intro d h; cases h
      | cons p kw ih =>
        obtain ⟨k, v⟩ := p
        intro d h
        rw [bindKeywords] at h
        split at h
        · cases h
        · split at h
          · cases h
          · exact ih _ h
    split at hb
    · rename_i e' he
      cases hb
      exact hkw _ _ he
    · dsimp only at hb
      split at hb
      · cases hb
      · split at hb
        · cases hb
        · cases hb

/-- An object is made if and only if the call fits the parameters and every value has a type its field accepts; each field then holds the value
    for it. -/
theorem made_iff (pick : List PyVal → Nat) (c : SClass) (hc : Wf c) (pos : List PyVal) (kw : List (Str × PyVal)) (obj : Dict Str PyVal) :
    c.call pick pos kw = .ok obj ↔ ProperCall c.params pos kw ∧ (∀ f ∈ c.fields, f.2.accepts pick (fieldValue c pos kw f.1) = true) ∧
      obj = c.fields.map fun f => (f.1, fieldValue c pos kw f.1) := by
  by_cases h : ProperCall c.params pos kw
  · rw [call_eq hc pick h]
    cases hm : (c.fields.filter (fun f => !f.2.accepts pick (fieldValue c pos kw f.1))).map (·.1) with
    | nil =>
      have ha : ∀ f ∈ c.fields, f.2.accepts pick (fieldValue c pos kw f.1) = true := fun f hf => by
        simpa using List.filter_eq_nil_iff.1 (List.map_eq_nil_iff.1 hm) f hf
      exact ⟨fun e => ⟨h, ha, (by cases e; rfl)⟩, fun e => by rw [e.2.2]⟩
    | cons e es =>
      refine ⟨fun x => (by cases x), fun x => ?_⟩
      have : c.fields.filter (fun f => !f.2.accepts pick (fieldValue c pos kw f.1)) = [] :=
        List.filter_eq_nil_iff.2 fun f hf => by simp [x.2.1 f hf]
      rw [this] at hm
      cases hm
  · obtain ⟨e, he, _⟩ := call_improper hc pick h
    rw [he]
    exact ⟨fun x => (by cases x), fun x => absurd x.1 h⟩

/-- Otherwise all fields are named whose values are rejected, in their order. -/
theorem reported_iff (pick : List PyVal → Nat) (c : SClass) (hc : Wf c) (pos : List PyVal) (kw : List (Str × PyVal)) (es : List Str) :
    c.call pick pos kw = .error (.types es) ↔ ProperCall c.params pos kw ∧ es ≠ [] ∧
      es = (c.fields.filter fun f => !f.2.accepts pick (fieldValue c pos kw f.1)).map (·.1) := by
  by_cases h : ProperCall c.params pos kw
  · rw [call_eq hc pick h]
    cases hm : (c.fields.filter (fun f => !f.2.accepts pick (fieldValue c pos kw f.1))).map (·.1) with
    | nil => exact ⟨fun e => (by cases e), fun e => absurd e.2.2 e.2.1⟩
    | cons x xs =>
      constructor
      · intro e; cases e; exact ⟨h, by simp, rfl⟩
      · rintro ⟨_, _, rfl⟩; rfl
  · obtain ⟨e, he, hne⟩ := call_improper hc pick h
    rw [he]
    exact ⟨fun x => (by cases x; exact absurd rfl (hne es)), fun x => absurd x.1 h⟩

/-- If only required arguments are missing, exactly these are named. -/
theorem missing_iff (pick : List PyVal → Nat) (c : SClass) (hc : Wf c) (pos : List PyVal) (kw : List (Str × PyVal)) (ns : List Str)
    (h1 : pos.length ≤ c.params.length) (h2 : ∀ k ∈ kw.map (·.1), ∃ i, pos.length ≤ i ∧ (c.params[i]?).map (·.name) = some k)
    (h3 : (kw.map (·.1)).Nodup) : c.call pick pos kw = .error (.missing ns) ↔
      ns ≠ [] ∧ ns = (c.params.filter fun p => (argument c.params pos kw p.name).isNone && p.default.isNone).map (·.name) := by
  have hn := hc.1
  obtain ⟨d, hd⟩ := (keywords_ok c.params kw (bindPositional c.params pos)).2 ⟨fun k hk => (known_iff hn pos k).2 (h2 k hk), h3⟩
  have hg := bound_get hd
  unfold SClass.call bindArguments
  rw [hd]
  dsimp only
  simp only [hg]
  rw [if_neg (Nat.not_lt.2 h1)]
  by_cases ha : c.params.filter (fun p => (argument c.params pos kw p.name).isNone && p.default.isNone) = []
  · rw [if_neg (not_not_intro ha), ha]
    dsimp only
    constructor
    · intro h
      split at h <;> cases h
    · rintro ⟨h, rfl⟩; exact absurd rfl h
  · rw [if_pos ha]
    constructor
    · intro h
      cases h
      exact ⟨fun e => ha (List.map_eq_nil_iff.1 e), rfl⟩
    · rintro ⟨_, rfl⟩; rfl

/-- A field takes at least the values that the signature promises: it has the type of the parameter, or that type made optional, or the type
    is optional in the signature only, since `None` is replaced by an empty list or dictionary. -/
def promised (filled : Option PyVal) (p h : Hint) : Bool :=
  match filled, p, h with
  | none, p, h => p = h || h = .optional p
  | some (.list []), .optional (.list x), .list y => x = y
  | some (.list []), .list x, .list y => x = y
  | some (.obj n _), .optional (.cls a), .cls b => a = b && n = b
  | some (.obj n _), .cls a, .cls b => a = b && n = b
  | _, _, _ => false

theorem promised_sound {e : Option PyVal} {p h : Hint} (hp : promised e p h = true) {v : PyVal} (hv : C44.HasType p v) :
    C44.HasType h (filledWith e v) := by
  unfold promised at hp
  split at hp
  · have e1 : filledWith none v = v := by cases v <;> rfl
    rw [e1]
    simp only [Bool.or_eq_true, decide_eq_true_eq] at hp
    rcases hp with rfl | rfl
    · exact hv
    · exact .inr hv
  · have hp := of_decide_eq_true hp
    subst hp
    rcases hv with rfl | ⟨l, rfl, hl⟩
    · exact ⟨[], rfl, fun x hx => by cases hx⟩
    · exact ⟨l, rfl, hl⟩
  · have hp := of_decide_eq_true hp
    subst hp
    obtain ⟨l, rfl, hl⟩ := hv
    exact ⟨l, rfl, hl⟩
  · simp only [Bool.and_eq_true, decide_eq_true_eq] at hp
    obtain ⟨rfl, rfl⟩ := hp
    rcases hv with rfl | ⟨i, rfl⟩
    · exact ⟨_, rfl⟩
    · exact ⟨_, rfl⟩
  · simp only [Bool.and_eq_true, decide_eq_true_eq] at hp
    obtain ⟨rfl, rfl⟩ := hp
    obtain ⟨i, rfl⟩ := hv
    exact ⟨_, rfl⟩
  · cases hp

/-- A default that has the type of its parameter. -/
def defaultFits (p : SParam) : Bool :=
  match p.default, p.hint with
  | none, _ => true
  | some .none, .optional _ => true
  | some (.str _), .str => true
  | some (.str _), .optional .str => true
  | some (.bool _), .bool => true
  | _, _ => false

theorem default_sound {p : SParam} (h : defaultFits p = true) {d : PyVal} (hd : p.default = some d) : C44.HasType p.hint d := by
  unfold defaultFits at h
  rw [hd] at h
  split at h
  · rename_i e; cases e
  · rename_i e1 e2; cases e1; rw [e2]; exact .inl rfl
  · rename_i e1 e2; cases e1; rw [e2]; exact ⟨_, rfl⟩
  · rename_i e1 e2; cases e1; rw [e2]; exact .inr ⟨_, rfl⟩
  · rename_i e1 e2; cases e1; rw [e2]; exact ⟨_, rfl⟩
  · cases h

def keepsPromise (c : SClass) (f : Str × Hint) : Bool :=
  match c.params.find? (·.name = f.1) with
  | some p => promised (c.filled.lookup f.1) p.hint f.2 && defaultFits p
  | none => false

/-- Whoever keeps to the signature of a constructor gets an object: the fields reject no value that the signature allows, and no default. -/
theorem respects_signature (pick : List PyVal → Nat) (c : SClass) (hc : Wf c) (hp : ∀ f ∈ c.fields, keepsPromise c f = true) (pos : List PyVal) (kw : List (Str × PyVal))
    (h : ProperCall c.params pos kw) (ht : ∀ p ∈ c.params, ∀ v, argument c.params pos kw p.name = some v → C44.HasType p.hint v) :
    c.call pick pos kw = .ok (c.fields.map fun f => (f.1, fieldValue c pos kw f.1)) := by
  refine (made_iff pick c hc pos kw _).2 ⟨h, fun f hf => C44.accepts_of_type pick _ _ ?_, rfl⟩
  have hs := hp f hf
  unfold keepsPromise at hs
  cases hq : c.params.find? (·.name = f.1) with
  | none => rw [hq] at hs; cases hs
  | some p =>
    rw [hq] at hs
    simp only [Bool.and_eq_true] at hs
    have hpn : p.name = f.1 := by simpa using List.find?_some hq
    have hpm := List.mem_of_find?_eq_some hq
    have hx : C44.HasType p.hint ((argument c.params pos kw f.1).getD (p.default.getD .none)) := by
      cases ha : argument c.params pos kw f.1 with
      | some v => exact ht p hpm v (hpn ▸ ha)
      | none =>
        cases hd : p.default with
        | some d => exact default_sound hs.2 hd
        | none =>
          have := h.complete p hpm hd
          rw [hpn, ha] at this
          cases this
    have := promised_sound hs.1 hx
    unfold fieldValue
    rw [hq]
    rw [lookup_find] at this
    revert this
    show C44.HasType f.2 (filledWith _ ((argument c.params pos kw f.1).getD (p.default.getD .none))) →
      C44.HasType f.2 (match (argument c.params pos kw f.1).getD (p.default.getD .none), c.filled.find? (·.1 = f.1) with
        | .none, some (_, empty) => empty
        | v, _ => v)
    cases (argument c.params pos kw f.1).getD (p.default.getD .none) <;> cases c.filled.find? (·.1 = f.1) <;> exact id

/-! ## Assignments -/

theorem lookup_of_mem {fs : List (Str × Hint)} (hn : (fs.map (·.1)).Nodup) {n : Str} {h : Hint} (hm : (n, h) ∈ fs) :
    fs.lookup n = some h := by
  induction fs with
  | nil => cases hm
  | cons f fs ih =>
    obtain ⟨a, b⟩ := f
    rw [List.map_cons, List.nodup_cons] at hn
    rw [List.lookup_cons]
    rcases List.mem_cons.1 hm with e | e
    · cases e; simp
    · have : (n == a) = false := by
        simp only [beq_eq_false_iff_ne, ne_eq]
        rintro rfl
        exact hn.1 (List.mem_map_of_mem (f := (·.1)) e)
      rw [this]
      exact ih hn.2 e

theorem assign_get (pick : List PyVal → Nat) (c : SClass) (hn : (c.fields.map (·.1)).Nodup) (obj : Dict Str PyVal) (s : Str × PyVal)
    (n : Str) (h : Hint) (hm : (n, h) ∈ c.fields) :
    (c.assign pick obj s.1 s.2).1.get? n = if s.1 = n ∧ h.accepts pick s.2 = true then some s.2 else obj.get? n := by
  obtain ⟨m, v⟩ := s
  unfold SClass.assign
  by_cases e : m = n
  · subst e
    dsimp only
    rw [lookup_of_mem hn hm]
    dsimp only
    by_cases ha : h.accepts pick v = true
    · rw [if_pos ha, if_pos ⟨rfl, ha⟩, Dict.get?_set, if_pos rfl]
    · rw [if_neg ha, if_neg (fun x => ha x.2)]
  · rw [if_neg (fun x => e x.1)]
    dsimp only
    split
    · rfl
    · split
      · rw [Dict.get?_set, if_neg e]
      · rfl

/-- An assignment succeeds if and only if the field accepts the value; a rejected one changes nothing at all. -/
theorem assigned_iff (pick : List PyVal → Nat) (c : SClass) (hc : Wf c) (obj : Dict Str PyVal) (n : Str) (h : Hint)
    (hm : (n, h) ∈ c.fields) (v : PyVal) : ((c.assign pick obj n v).2 = true ↔ h.accepts pick v = true) ∧
      ((c.assign pick obj n v).2 = false → (c.assign pick obj n v).1 = obj) := by
  unfold SClass.assign
  rw [lookup_of_mem hc.2.1 hm]
  dsimp only
  by_cases ha : h.accepts pick v = true
  · simp [ha]
  · simp [ha]

/-- After any assignments, each field holds the last value assigned to it that it accepts, or what it held before. -/
theorem last_accepted (pick : List PyVal → Nat) (c : SClass) (hc : Wf c) (obj : Dict Str PyVal) (steps : List (Str × PyVal)) (n : Str)
    (h : Hint) (hm : (n, h) ∈ c.fields) : (afterwards pick c obj steps).get? n =
      ((steps.reverse.find? fun s => s.1 = n ∧ h.accepts pick s.2 = true).map (·.2)).or (obj.get? n) := by
  unfold afterwards
  induction steps generalizing obj with
  | nil => rfl
  | cons s steps ih =>
    rw [List.foldl_cons, ih, assign_get pick c hc.2.1 obj s n h hm, List.reverse_cons, List.find?_append]
    cases steps.reverse.find? fun s => decide (s.1 = n ∧ h.accepts pick s.2 = true) with
    | some x => rfl
    | none =>
      by_cases e : s.1 = n ∧ h.accepts pick s.2 = true
      · rw [if_pos e]; simp [e]
      · rw [if_neg e, List.find?_cons_of_neg (by simpa using e)]; rfl

/-- No field of an object ever holds a value it rejects, whatever is assigned to it. -/
theorem always_typed (pick : List PyVal → Nat) (c : SClass) (hc : Wf c) (pos : List PyVal) (kw : List (Str × PyVal))
    (obj : Dict Str PyVal) (hm : c.call pick pos kw = .ok obj) (steps : List (Str × PyVal)) (n : Str) (h : Hint) (hf : (n, h) ∈ c.fields) :
    ∃ v, (afterwards pick c obj steps).get? n = some v ∧ h.accepts pick v = true := by
  rw [last_accepted pick c hc obj steps n h hf]
  cases hs : steps.reverse.find? fun s => decide (s.1 = n ∧ h.accepts pick s.2 = true) with
  | some s =>
    have := List.find?_some hs
    simp only [decide_eq_true_eq] at this
    exact ⟨s.2, rfl, this.2⟩
  | none =>
    obtain ⟨_, h2, h3⟩ := (made_iff pick c hc pos kw obj).1 hm
    refine ⟨fieldValue c pos kw n, ?_, h2 (n, h) hf⟩
    show obj.get? n = _
    rw [h3]
    refine Dict.get?_of_mem _ ?_ _ _ (List.mem_map.2 ⟨(n, h), hf, rfl⟩)
    show ((c.fields.map fun f => (f.1, fieldValue c pos kw f.1)).map (·.1)).Nodup
    rw [List.map_map]
    exact hc.2.1

/-! ## Copies, and the order of keywords -/

theorem argument_all {params : List SParam} (g : Str → PyVal) (kw : List (Str × PyVal)) {n : Str} (hn : n ∈ params.map (·.name)) :
    argument params (params.map fun p => g p.name) kw n = some (g n) := by
  unfold argument
  rw [← positional]
  unfold bindPositional
  rw [List.zip_map', get_map]
  obtain ⟨p, hp, e⟩ := List.mem_map.1 hn
  cases hf : params.find? (·.name = n) with
  | none => exact absurd (List.find?_eq_none.1 hf p hp) (by simp [e])
  | some q =>
    have : q.name = n := by simpa using List.find?_some hf
    simp [this]

/-- The values of an object, given in order, make the same object. -/
theorem copied (pick : List PyVal → Nat) (c : SClass) (hc : Wf c) (hl : ∀ f ∈ c.fields, f.1 ∈ c.filled.map (·.1) → f.2.accepts pick .none = false)
    (obj : Dict Str PyVal) (ho : ∀ f ∈ c.fields, ∃ v, obj.get? f.1 = some v ∧ f.2.accepts pick v = true) :
    c.call pick (c.params.map fun p => (obj.get? p.name).getD .none) [] = .ok (c.fields.map fun f => (f.1, (obj.get? f.1).getD .none)) := by
  have ha : ∀ n ∈ c.params.map (·.name), argument c.params (c.params.map fun p => (obj.get? p.name).getD .none) [] n = some ((obj.get? n).getD .none) :=
    fun n hn => argument_all (fun n => (obj.get? n).getD .none) [] hn
  have hv : ∀ f ∈ c.fields, fieldValue c (c.params.map fun p => (obj.get? p.name).getD .none) [] f.1 = (obj.get? f.1).getD .none := by
    intro f hf
    unfold fieldValue
    rw [ha f.1 (hc.2.2.1 _ (List.mem_map_of_mem hf))]
    obtain ⟨v, e, hv⟩ := ho f hf
    rw [e]
    simp only [Option.getD_some]
    split
    · rename_i k empty hfd
      have := hl f hf (List.mem_map.2 ⟨_, List.mem_of_find?_eq_some hfd, by simpa using List.find?_some hfd⟩)
      rw [this] at hv
      cases hv
    · rfl
  refine (made_iff pick c hc _ _ _).2 ⟨⟨by simp, fun k hk => (by cases hk), List.nodup_nil, ?_⟩, ?_, ?_⟩
  · intro p hp _
    rw [ha p.name (List.mem_map_of_mem hp)]
    rfl
  · intro f hf
    rw [hv f hf]
    obtain ⟨v, e, h⟩ := ho f hf
    rw [e]
    exact h
  · exact List.map_congr_left fun f hf => by rw [hv f hf]

theorem find_perm {kw kw' : List (Str × PyVal)} (hn : (kw.map (·.1)).Nodup) (hp : kw.Perm kw') (k : Str) :
    kw.find? (·.1 = k) = kw'.find? (·.1 = k) := by
  induction hp with
  | nil => rfl
  | cons x _ ih =>
    rw [List.map_cons, List.nodup_cons] at hn
    rw [List.find?_cons, List.find?_cons, ih hn.2]
  | swap x y l =>
    simp only [List.map_cons, List.nodup_cons, List.mem_cons, not_or] at hn
    simp only [List.find?_cons]
    by_cases h1 : x.1 = k <;> by_cases h2 : y.1 = k <;> simp [h1, h2]
    exact absurd (h2.trans h1.symm) hn.1.1
  | trans h1 _ ih1 ih2 => exact (ih1 hn).trans (ih2 ((h1.map _).nodup_iff.1 hn))

theorem argument_perm {kw kw' : List (Str × PyVal)} (hn : (kw.map (·.1)).Nodup) (hp : kw.Perm kw') (params : List SParam) (pos : List PyVal) (n : Str) :
    argument params pos kw n = argument params pos kw' n := by
  unfold argument
  rw [find_perm hn hp]

theorem proper_perm {kw kw' : List (Str × PyVal)} (hn : (kw.map (·.1)).Nodup) (hp : kw.Perm kw') {params : List SParam} {pos : List PyVal}
    (h : ProperCall params pos kw) : ProperCall params pos kw' where
  positions := h.positions
  known := fun k hk => h.known k ((hp.map _).mem_iff.2 hk)
  once := (hp.map _).nodup_iff.1 hn
  complete := fun p hp' hd => by rw [← argument_perm hn hp]; exact h.complete p hp' hd

theorem value_perm {kw kw' : List (Str × PyVal)} (hn : (kw.map (·.1)).Nodup) (hp : kw.Perm kw') (c : SClass) (pos : List PyVal) (n : Str) :
    fieldValue c pos kw n = fieldValue c pos kw' n := by
  unfold fieldValue
  rw [argument_perm hn hp]

/-- The order of the keywords makes no difference. -/
theorem keyword_order (pick : List PyVal → Nat) (c : SClass) (hc : Wf c) (pos : List PyVal) {kw kw' : List (Str × PyVal)}
    (hn : (kw.map (·.1)).Nodup) (hp : kw.Perm kw') :
    (∀ obj, c.call pick pos kw = .ok obj ↔ c.call pick pos kw' = .ok obj) ∧
    (∀ es, c.call pick pos kw = .error (.types es) ↔ c.call pick pos kw' = .error (.types es)) := by
  have hpr : ProperCall c.params pos kw ↔ ProperCall c.params pos kw' :=
    ⟨proper_perm hn hp, proper_perm ((hp.map _).nodup_iff.1 hn) hp.symm⟩
  constructor
  · intro obj
    rw [made_iff pick c hc, made_iff pick c hc, hpr]
    simp only [value_perm hn hp]
  · intro es
    rw [reported_iff pick c hc, reported_iff pick c hc, hpr]
    simp only [value_perm hn hp]

end Spdx.Called
