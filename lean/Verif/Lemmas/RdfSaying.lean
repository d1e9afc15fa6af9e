import Verif.Lemmas.RdfCrash
import Verif.Spec.RdfFaults
/- What the RDF reader logs. -/
namespace Spdx.RdfSaying
open Spdx Spdx.RdfReport
open Spdx.Spec.RdfSays hiding Bad

/-! ### Loggers -/

/-- One of the faults gives this message. -/
def In (l : List (PMsg → Prop)) (m : PMsg) : Prop := ∃ F ∈ l, F m

/-- A value read: it logs what `S` says, has `V` if nothing is logged, and raises no parsing error. -/
structure Field {α : Type} (x : P α) (S : PMsg → Prop) (V : α → Prop) : Prop where
  says : ∀ ms a, x = Except.ok (ms, a) → ∀ m, m ∈ ms ↔ S m
  gives : ∀ a, clean x = some a → V a
  raises : ∀ ms, x ≠ Except.error (.parsing ms)

/-- Several values read: what is logged, what holds of the result if nothing is, the parsing errors raised, and what holds if none is. -/
structure Says {α : Type} (x : P α) (S : PMsg → Prop) (W : α → Prop) (E : List PMsg → Prop) (R : Prop) : Prop where
  says : ∀ ms a, x = Except.ok (ms, a) → R ∧ ∀ m, m ∈ ms ↔ S m
  gives : ∀ a, clean x = some a → W a
  raises : ∀ ms, x = Except.error (.parsing ms) → E ms

theorem says_bind {α β : Type} {x : P α} {k : α → P β} {S S' : PMsg → Prop} {V : α → Prop} {W : β → Prop} {E : List PMsg → Prop} {R : Prop}
    (h : Field x S V) (hk : ∀ a, Says (k a) S' (fun b => V a → W b) E R) : Says (x >>= k) (fun m => S m ∨ S' m) W E R := by
  refine ⟨?_, ?_, ?_⟩
  · intro ms b e
    change P.bind x k = _ at e
    have hs := h.says
    unfold P.bind at e
    match x, e, hs with
    | .error _, e, _ => cases e
    | .ok (ms1, a), e, hs =>
      have hk := (hk a).says
      dsimp only at e
      revert e hk
      match k a with
      | .error _ => intro e; cases e
      | .ok (ms2, c) =>
        intro e hk
        cases e
        refine ⟨(hk _ _ rfl).1, fun m => ?_⟩
        rw [List.mem_append, hs _ _ rfl m, (hk _ _ rfl).2 m]
  · intro b e
    rw [clean_bind, Option.bind_eq_some_iff] at e
    obtain ⟨a, ha, hb⟩ := e
    exact (hk a).gives b hb (h.gives a ha)
  · intro ms e
    change P.bind x k = _ at e
    have hr := h.raises
    unfold P.bind at e
    match x, e, hr with
    | .error _, e, hr => cases e; exact absurd rfl (hr ms)
    | .ok (ms1, a), e, hr =>
      have hk := (hk a).raises
      dsimp only at e
      revert e hk
      match k a with
      | .error _ => intro e hk; cases e; exact hk _ rfl
      | .ok (ms2, c) => intro e; cases e

theorem Says.congr {α : Type} {x : P α} {S S' : PMsg → Prop} {W : α → Prop} {E : List PMsg → Prop} {R : Prop} (h : Says x S W E R) (hs : ∀ m, S m ↔ S' m) :
    Says x S' W E R := ⟨fun ms a e => ⟨(h.says ms a e).1, fun m => ((h.says ms a e).2 m).trans (hs m)⟩, h.gives, h.raises⟩

theorem says_field {α β : Type} {x : P α} {k : α → P β} {F : PMsg → Prop} {l : List (PMsg → Prop)} {V : α → Prop} {W : β → Prop} {E : List PMsg → Prop}
    {R : Prop} (h : Field x F V) (hk : ∀ a, Says (k a) (In l) (fun b => V a → W b) E R) : Says (x >>= k) (In (F :: l)) W E R :=
  (says_bind h hk).congr fun m => by simp [In]

theorem says_quiet {α β : Type} {x : P α} {k : α → P β} {S : PMsg → Prop} {V : α → Prop} {W : β → Prop} {E : List PMsg → Prop}
    {R : Prop} (h : Field x (fun _ => False) V) (hk : ∀ a, Says (k a) S (fun b => V a → W b) E R) : Says (x >>= k) S W E R :=
  (says_bind h hk).congr fun m => by rw [false_or]

theorem says_end {α : Type} {a : α} {W : α → Prop} {E : List PMsg → Prop} {R : Prop} (hw : W a) (hr : R) : Says (pure a : P α) (In []) W E R :=
  ⟨fun _ _ e => by cases e; exact ⟨hr, fun m => by simp [In]⟩, fun _ e => by cases e; exact hw, fun _ e => (nomatch e)⟩

theorem says_lift {α β : Type} {x : Py α} {k : α → P β} {S : PMsg → Prop} {W : β → Prop} {E : List PMsg → Prop} {R : Prop}
    (hx : ∀ ms, x = .error (.parsing ms) → E ms) (hk : ∀ a, x = .ok a → Says (k a) S W E R) : Says (Py.lift x >>= k) S W E R := by
  match x, hx, hk with
  | .ok a, _, hk => rw [RdfCrash.lift_bind]; exact hk a rfl
  | .error e, hx, _ => exact ⟨fun _ _ e => (nomatch e), fun _ e => (nomatch e), fun ms h => by cases h; exact hx ms rfl⟩

/-! ### Checks -/

/-- The check of a field fails exactly if `P`. -/
def One {α : Type} (c : Check α) (f : Str) (P : Prop) : Prop := (c = Except.error [f] ∧ P) ∨ (∃ a, c = Except.ok a) ∧ ¬ P

/-- The checks fail for exactly the fields missing. -/
def Fails {α : Type} (c : Check α) (l : List (Str × Prop)) : Prop :=
  ((∃ a, c = Except.ok a) ∧ ∀ x ∈ l, ¬ x.2) ∨ ∃ fs, fs ≠ [] ∧ c = Except.error fs ∧ ∀ f, f ∈ fs ↔ ∃ x ∈ l, x.1 = f ∧ x.2

theorem fails_ok {α : Type} (a : α) : Fails (Except.ok a : Check α) [] := .inl ⟨⟨a, rfl⟩, fun _ h => nomatch h⟩

theorem fails_pass {α β : Type} {c : Check (α → β)} {l : List (Str × Prop)} {d : Check α} (h : Fails c l) (hd : ∃ a, d = Except.ok a) : Fails (c ⊛ d) l := by
  obtain ⟨a, rfl⟩ := hd
  rcases h with ⟨⟨f, rfl⟩, h⟩ | ⟨fs, hne, rfl, h⟩
  · exact .inl ⟨⟨_, rfl⟩, h⟩
  · exact .inr ⟨fs, hne, rfl, h⟩

theorem fails_value {α β : Type} {c : Check (α → β)} {l : List (Str × Prop)} (a : α) (h : Fails c l) : Fails (c ⊛ Except.ok a) l := fails_pass h ⟨a, rfl⟩

theorem fails_one {α β : Type} {c : Check (α → β)} {l : List (Str × Prop)} {d : Check α} {f : Str} {P : Prop} (h : Fails c l) (hd : One d f P) :
    Fails (c ⊛ d) ((f, P) :: l) := by
  rcases hd with ⟨rfl, hp⟩ | ⟨⟨a, rfl⟩, hp⟩
  · rcases h with ⟨⟨g, rfl⟩, h⟩ | ⟨fs, hne, rfl, h⟩
    · refine .inr ⟨[f], by simp, rfl, fun f' => ?_⟩
      constructor
      · intro h'; rw [List.mem_singleton] at h'; exact ⟨_, .head _, h'.symm, hp⟩
      · rintro ⟨x, hx, rfl, hx2⟩
        cases hx with
        | head => exact .head _
        | tail _ hx => exact absurd hx2 (h x hx)
    · refine .inr ⟨fs ++ [f], by simp, rfl, fun f' => ?_⟩
      rw [List.mem_append, List.mem_singleton, h f']
      constructor
      · rintro (⟨x, hx, h1, h2⟩ | rfl)
        · exact ⟨x, .tail _ hx, h1, h2⟩
        · exact ⟨_, .head _, rfl, hp⟩
      · rintro ⟨x, hx, h1, h2⟩
        cases hx with
        | head => exact .inr h1.symm
        | tail _ hx => exact .inl ⟨x, hx, h1, h2⟩
  · rcases h with ⟨⟨g, rfl⟩, h⟩ | ⟨fs, hne, rfl, h⟩
    · refine .inl ⟨⟨_, rfl⟩, fun x hx => ?_⟩
      cases hx with
      | head => exact hp
      | tail _ hx => exact h x hx
    · refine .inr ⟨fs, hne, rfl, fun f' => ?_⟩
      rw [h f']
      constructor
      · rintro ⟨x, hx, h1, h2⟩; exact ⟨x, .tail _ hx, h1, h2⟩
      · rintro ⟨x, hx, h1, h2⟩
        cases hx with
        | head => exact absurd h2 hp
        | tail _ hx => exact ⟨x, hx, h1, h2⟩

theorem one_some {α : Type} {f : Str} {o : Option α} {P : Prop} (h : o = none ↔ P) : One (chkSome f o) f P := by
  cases o with
  | none => exact .inl ⟨rfl, h.1 rfl⟩
  | some a => exact .inr ⟨⟨a, rfl⟩, fun p => by cases h.2 p⟩

theorem one_noNone {α : Type} {f : Str} {o : Option (OrSpecial α)} {P : Prop} (h : o = some .none ↔ P) : One (chkNoNone f o) f P := by
  match o, h with
  | none, h => exact .inr ⟨⟨_, rfl⟩, fun p => by cases h.2 p⟩
  | some (.val a), h => exact .inr ⟨⟨_, rfl⟩, fun p => by cases h.2 p⟩
  | some .noAssertion, h => exact .inr ⟨⟨_, rfl⟩, fun p => by cases h.2 p⟩
  | some .none, h => exact .inl ⟨rfl, h.1 rfl⟩

theorem mapM_id_none {α : Type} : ∀ l : List (Option α), l.mapM id = none ↔ none ∈ l
  | [] => by simp
  | none :: l => by simp [List.mapM_cons]
  | some a :: l => by
    have ih := mapM_id_none l
    rw [List.mapM_cons]
    cases h : l.mapM id with
    | none => simp [ih.1 h]
    | some as => simp only [id]; simp; intro hm; rw [ih.2 hm] at h; cases h

theorem one_all {α : Type} {f : Str} {l : List (Option α)} {P : Prop} (h : none ∈ l ↔ P) : One (chkAll f (some l)) f P := by
  have hm := mapM_id_none l
  unfold chkAll
  dsimp only
  cases e : l.mapM id with
  | none => exact .inl ⟨rfl, h.1 (hm.1 e)⟩
  | some as => exact .inr ⟨⟨as, rfl⟩, fun p => by rw [hm.2 (h.2 p)] at e; cases e⟩

theorem all_pass {α : Type} {f : Str} {l : List (Option α)} (h : none ∉ l) : ∃ as, chkAll f (some l) = Except.ok as := by
  have hm := mapM_id_none l
  unfold chkAll
  dsimp only
  cases e : l.mapM id with
  | none => exact absurd (hm.1 e) h
  | some as => exact ⟨as, rfl⟩

theorem mapM_none {ν α : Type} (f : ν → Option α) : ∀ l : List ν, l.mapM f = none ↔ ∃ v ∈ l, f v = none
  | [] => by simp
  | v :: l => by
    have ih := mapM_none f l
    rw [List.mapM_cons]
    cases hv : f v with
    | none => simp [hv]
    | some a =>
      cases h : l.mapM f with
      | none => obtain ⟨w, hw, e⟩ := ih.1 h; simp; exact .inr ⟨w, hw, e⟩
      | some as =>
        simp [hv]
        intro w hw e
        rw [ih.2 ⟨w, hw, e⟩] at h
        cases h

theorem noText_iff (v : RdfNode) : v.toPyStr = none ↔ NoText v := by
  constructor
  · intro h s hs; rw [(RdfSays.toPyStr_iff v s).2 hs] at h; cases h
  · intro h
    cases e : v.toPyStr with
    | none => rfl
    | some s => exact absurd ((RdfSays.toPyStr_iff v s).1 e) (h s)

theorem one_texts (f : Str) (g : RdfGraph) (n : RdfNode) (p : Pred) : One (chkTexts f (g.objects n p)) f (someNoText g n p) := by
  have hm := mapM_none RdfNode.toPyStr (g.objects n p)
  have he : (∃ v ∈ g.objects n p, v.toPyStr = none) ↔ someNoText g n p := by
    unfold someNoText
    rw [RdfSays.values_eq]
    exact ⟨fun ⟨v, h, e⟩ => ⟨v, h, (noText_iff v).1 e⟩, fun ⟨v, h, e⟩ => ⟨v, h, (noText_iff v).2 e⟩⟩
  unfold chkTexts
  cases e : (g.objects n p).mapM RdfNode.toPyStr with
  | none => exact .inl ⟨rfl, he.1 (hm.1 e)⟩
  | some as => exact .inr ⟨⟨as, rfl⟩, fun p => by rw [hm.2 (he.2 p)] at e; cases e⟩

/-- What becomes of the constructor. -/
def Made {α : Type} (cls : Str) (missing : List (Str × Prop)) (y : Py α) : Prop :=
  ((∃ a, y = .ok a) ∧ ∀ x ∈ missing, ¬ x.2) ∨
    ∃ fs, fs ≠ [] ∧ y = .error (.parsing [.constructing cls fs]) ∧ ∀ f, f ∈ fs ↔ ∃ x ∈ missing, x.1 = f ∧ x.2

theorem made {α : Type} {cls : Str} {missing : List (Str × Prop)} {c : Check α} (h : Fails c missing) : Made cls missing (construct cls c) := by
  rcases h with ⟨⟨a, rfl⟩, h⟩ | ⟨fs, hne, rfl, h⟩
  · exact .inl ⟨⟨a, rfl⟩, h⟩
  · exact .inr ⟨fs, hne, rfl, h⟩

theorem complaint {τ α : Type} {body : P τ} {k : τ → Py α} {cls : Str} {faults : List (PMsg → Prop)} {missing : List (Str × Prop)} {E : List PMsg → Prop}
    {R : Prop} (h : Says body (In faults) (fun t => Made cls missing (k t)) E R) {ms : List PMsg} (hr : (body.orRaiseIn cls >>= k) = .error (.parsing ms)) :
    E ms ∨ R ∧ ∃ m, ms = [m] ∧ Complaint cls faults missing m := by
  match body, h, hr with
  | .error e, h, hr => cases hr; exact .inl (h.raises _ rfl)
  | .ok (m :: ms', a), h, hr =>
    cases hr
    obtain ⟨r, hs⟩ := h.says _ _ rfl
    exact .inr ⟨r, _, rfl, .faults (by simp) hs⟩
  | .ok ([], a), h, hr =>
    obtain ⟨r, hs⟩ := h.says _ _ rfl
    have hm := h.gives a rfl
    change k a = _ at hr
    rcases hm with ⟨⟨_, e⟩, _⟩ | ⟨fs, hne, e, hf⟩
    · rw [e] at hr; cases hr
    · rw [e] at hr
      cases hr
      exact .inr ⟨r, _, rfl, .missing (fun F hF m hm => by cases (hs m).2 ⟨F, hF, hm⟩) hne hf⟩

/-- What is read has no faults. -/
theorem faultless {τ α : Type} {body : P τ} {k : τ → Py α} {cls : Str} {faults : List (PMsg → Prop)} {missing : List (Str × Prop)} {E : List PMsg → Prop}
    {R : Prop} (h : Says body (In faults) (fun t => Made cls missing (k t)) E R) {a : α} (hr : (body.orRaiseIn cls >>= k) = .ok a) :
    (∀ F ∈ faults, ∀ m, ¬ F m) ∧ ∀ x ∈ missing, ¬ x.2 := by
  match body, h, hr with
  | .error e, h, hr => cases hr
  | .ok (m :: ms', a), h, hr => cases hr
  | .ok ([], a), h, hr =>
    obtain ⟨r, hs⟩ := h.says _ _ rfl
    have hm := h.gives a rfl
    change k a = _ at hr
    refine ⟨fun F hF m hm => (by cases (hs m).2 ⟨F, hF, hm⟩), ?_⟩
    rcases hm with ⟨_, h⟩ | ⟨fs, hne, e, hf⟩
    · exact h
    · rw [e] at hr; cases hr

/-! ### Values -/

/-- What is logged about a value. -/
def Complains {α : Type} (x : Py α) (c : PMsg → Prop) : Prop :=
  (∀ a, x = .ok a → ∀ m, ¬ c m) ∧ ∀ e ms, x = .error e → e.logged = some ms → ∀ m, m ∈ ms ↔ c m

/-- The value is `a`, and only `a`. -/
def Only {β : Type} (P : β → Prop) (a : β) : Prop := ∀ x, x = a ↔ P x

theorem apply_says {α : Type} {m : RdfNode → Py α} {v : RdfNode} {c : PMsg → Prop} (h : Complains (m v) c) {ms : List PMsg} {a : Option α}
    (e : applyOrLog m v = Except.ok (ms, a)) (x : PMsg) : x ∈ ms ↔ c x := by
  unfold applyOrLog at e
  obtain ⟨h1, h2⟩ := h
  generalize m v = y at h1 h2 e
  match y, h1, h2, e with
  | .ok a, h1, _, e => cases e; exact ⟨fun h => (nomatch h), fun h => absurd h (h1 a rfl x)⟩
  | .error (.other s), _, _, e => cases e
  | .error (.parsing l), _, h2, e => cases e; exact h2 _ _ rfl rfl x
  | .error (.type s), _, h2, e => cases e; exact h2 _ _ rfl rfl x
  | .error (.value s), _, h2, e => cases e; exact h2 _ _ rfl rfl x

theorem apply_raises {α : Type} (m : RdfNode → Py α) (v : RdfNode) (ms : List PMsg) : applyOrLog m v ≠ Except.error (.parsing ms) := by
  unfold applyOrLog
  match m v with
  | .ok a => exact nofun
  | .error (.other s) => exact nofun
  | .error (.parsing l) => exact nofun
  | .error (.type s) => exact nofun
  | .error (.value s) => exact nofun

theorem literal_cases {α : Type} (g : RdfGraph) (n : RdfNode) (p : Pred) (m : RdfNode → Py α) :
    (2 ≤ (values g n p).length ∧ readLiteral g n p m = Except.ok ([multipleValues p], none)) ∨
    (∃ v, values g n p = [v] ∧ ¬ Blank v ∧ readLiteral g n p m = applyOrLog m v) ∨
    ((values g n p).length ≤ 1 ∧ (∀ v ∈ values g n p, Blank v) ∧ readLiteral g n p m = Except.ok ([], none)) := by
  rw [RdfSays.values_eq]
  unfold readLiteral readUnique
  match g.objects n p with
  | [] => exact .inr (.inr ⟨by simp, fun _ h => (nomatch h), rfl⟩)
  | [v] =>
    by_cases ht : v.truthy = true
    · exact .inr (.inl ⟨v, rfl, fun hb => (by rw [(RdfSays.truthy_iff v).2 hb] at ht; cases ht), (RdfCrash.lift_bind (some v) _).trans (if_pos ht)⟩)
    · refine .inr (.inr ⟨by simp, fun w hw => ?_, (RdfCrash.lift_bind (some v) _).trans (if_neg ht)⟩)
      cases hw with
      | head => exact (RdfSays.truthy_iff v).1 (Bool.eq_false_iff.2 ht)
      | tail _ h => cases h
  | a :: b :: l => exact .inl ⟨by simp, rfl⟩

theorem typed_says {α : Type} {m : RdfNode → Py (Option α)} {v : RdfNode} {c : PMsg → Prop} (h : Complains (m v) c) {ms : List PMsg}
    {a : Option (OrSpecial α)} (e : readTyped m v = Except.ok (ms, a)) (x : PMsg) : x ∈ ms ↔ ¬ Blank v ∧ ¬ NoAssertion v ∧ ¬ IsNone v ∧ c x := by
  unfold readTyped at e
  rw [← RdfSays.truthy_iff, ← RdfSays.noAssertion_iff, ← RdfSays.none_iff, Bool.not_eq_false]
  by_cases h1 : ¬ v.truthy = true
  · rw [if_pos h1] at e; cases e; simp [h1]
  rw [if_neg h1] at e
  by_cases h2 : v = spdxTerm s%"noassertion" ∨ v.toPyStr = some s%"NOASSERTION"
  · rw [if_pos h2] at e; cases e; simp [h2]
  rw [if_neg h2] at e
  by_cases h3 : v = spdxTerm s%"none" ∨ v.toPyStr = some s%"NONE"
  · rw [if_pos h3] at e; cases e; simp [h3]
  rw [if_neg h3] at e
  have hs := fun ms a e => apply_says h (ms := ms) (a := a) e x
  have : x ∈ ms ↔ c x := by
    change P.bind (applyOrLog m v) _ = _ at e
    unfold P.bind at e
    revert e hs
    match applyOrLog m v with
    | .error _ => intro _ e; cases e
    | .ok (ms', a') => intro hs e; cases e; rw [List.append_nil]; exact hs _ _ rfl
  rw [this]
  exact ⟨fun h => ⟨Decidable.not_not.1 h1, h2, h3, h⟩, fun h => h.2.2.2⟩

theorem typed_raises {α : Type} (m : RdfNode → Py (Option α)) (v : RdfNode) (ms : List PMsg) : readTyped m v ≠ Except.error (.parsing ms) := by
  unfold readTyped
  by_cases h1 : ¬ v.truthy = true
  · rw [if_pos h1]; exact nofun
  rw [if_neg h1]
  by_cases h2 : v = spdxTerm s%"noassertion" ∨ v.toPyStr = some s%"NOASSERTION"
  · rw [if_pos h2]; exact nofun
  rw [if_neg h2]
  by_cases h3 : v = spdxTerm s%"none" ∨ v.toPyStr = some s%"NONE"
  · rw [if_pos h3]; exact nofun
  rw [if_neg h3]
  have hr := apply_raises m v
  intro e
  change P.bind (applyOrLog m v) _ = _ at e
  unfold P.bind at e
  revert e hr
  match applyOrLog m v with
  | .error _ => intro hr e; cases e; exact hr _ rfl
  | .ok (ms', a') => intro hs e; cases e

theorem special_cases {α : Type} (g : RdfGraph) (n : RdfNode) (p : Pred) (m : RdfNode → Py (Option α)) :
    (2 ≤ (values g n p).length ∧ readSpecial g n p m = Except.ok ([multipleValues p], none)) ∨
    (∃ v, values g n p = [v] ∧ readSpecial g n p m = readTyped m v) ∨ (values g n p = [] ∧ readSpecial g n p m = Except.ok ([], none)) := by
  rw [RdfSays.values_eq]
  unfold readSpecial readUnique
  match g.objects n p with
  | [] => exact .inr (.inr ⟨rfl, rfl⟩)
  | [v] =>
    exact .inr (.inl ⟨v, rfl, RdfCrash.lift_bind (some v) _⟩)
  | a :: b :: l => exact .inl ⟨by simp, rfl⟩

theorem field_literal {α : Type} {m : RdfNode → Py α} {m' : RdfNode → Option α} {R : RdfNode → α → Prop} {C : RdfNode → PMsg → Prop} (hA : Agree m m')
    (hR : ∀ v y, m' v = some y ↔ R v y) (hC : ∀ v, Complains (m v) (C v)) (g : RdfGraph) (n : RdfNode) (p : Pred) :
    Field (readLiteral g n p m) (once g n p C) (Only (Optional (values g n p) R)) := by
  refine ⟨fun ms a e x => ?_, fun a e => ?_, fun ms e => ?_⟩
  · unfold once Twice
    rcases literal_cases g n p m with ⟨h, h'⟩ | ⟨v, h, hb, h'⟩ | ⟨h, hb, h'⟩
    · rw [h'] at e
      cases e
      rw [List.mem_singleton]
      refine ⟨fun e => .inl ⟨h, e⟩, fun e => e.elim (·.2) fun ⟨v, hv, _⟩ => ?_⟩
      rw [hv] at h
      simp at h
    · rw [h'] at e
      rw [apply_says (hC v) e x, h]
      refine ⟨fun hc => .inr ⟨v, rfl, hb, hc⟩, ?_⟩
      rintro (⟨h, _⟩ | ⟨w, hw, _, hc⟩)
      · simp at h
      · cases hw; exact hc
    · rw [h'] at e
      cases e
      refine ⟨fun h => (nomatch h), ?_⟩
      rintro (⟨h', _⟩ | ⟨w, hw, hn, hc⟩)
      · omega
      · exact absurd (hb w (by rw [hw]; exact .head _)) hn
  · rw [clean_literal hA] at e
    intro x
    rw [← RdfSays.one_iff hR, e]
    exact ⟨fun h => by rw [h], fun h => by cases h; rfl⟩
  · rcases literal_cases g n p m with ⟨h, h'⟩ | ⟨v, h, hb, h'⟩ | ⟨h, hb, h'⟩
    · rw [h'] at e; cases e
    · rw [h'] at e; exact apply_raises m v ms e
    · rw [h'] at e; cases e

theorem field_special {α : Type} {m : RdfNode → Py (Option α)} {m' : RdfNode → Option (Option α)} {R : RdfNode → Option α → Prop}
    {C : RdfNode → PMsg → Prop} (hA : Agree m m') (hR : ∀ v y, m' v = some y ↔ R v y) (hC : ∀ v, Complains (m v) (C v)) (g : RdfGraph) (n : RdfNode)
    (p : Pred) : Field (readSpecial g n p m) (once g n p (special C)) (Only (OptionalSpecial (values g n p) R)) := by
  refine ⟨fun ms a e x => ?_, fun a e => ?_, fun ms e => ?_⟩
  · unfold once Twice special
    rcases special_cases g n p m with ⟨h, h'⟩ | ⟨v, h, h'⟩ | ⟨h, h'⟩
    · rw [h'] at e
      cases e
      rw [List.mem_singleton]
      refine ⟨fun e => .inl ⟨h, e⟩, fun e => e.elim (·.2) fun ⟨v, hv, _⟩ => ?_⟩
      rw [hv] at h
      simp at h
    · rw [h'] at e
      rw [typed_says (hC v) e x, h]
      refine ⟨fun hc => .inr ⟨v, rfl, hc⟩, ?_⟩
      rintro (⟨h, _⟩ | ⟨w, hw, hc⟩)
      · simp at h
      · cases hw; exact hc
    · rw [h'] at e
      cases e
      rw [h]
      refine ⟨fun h => (nomatch h), ?_⟩
      rintro (⟨h', _⟩ | ⟨w, hw, _⟩)
      · simp at h'
      · cases hw
  · rw [clean_special hA] at e
    intro x
    rw [← RdfSays.oneSpecial_iff hR, e]
    exact ⟨fun h => by rw [h], fun h => by cases h; rfl⟩
  · rcases special_cases g n p m with ⟨h, h'⟩ | ⟨v, h, h'⟩ | ⟨h, h'⟩
    · rw [h'] at e; cases e
    · rw [h'] at e; exact typed_raises m v ms e
    · rw [h'] at e; cases e

/-! What is logged by the methods. -/

theorem complains_ok {α : Type} (a : α) : Complains (.ok a : Py α) (fun _ => False) := ⟨fun _ _ _ h => h, fun _ _ e => nomatch e⟩

theorem complains_strip (v : RdfNode) : Complains (readStrip v) (plain v) := complains_ok _
theorem complains_stripS (v : RdfNode) : Complains (readStripSpecial v) (plain v) := complains_ok _
theorem complains_dataLicense (v : RdfNode) : Complains (.ok (removePrefix v.text licenseNamespace) : Py Str) (plain v) := complains_ok _

theorem complains_other {α : Type} {x : Py α} (h : ∀ e, x = .error e → ∃ s, e = .other s) : Complains x (fun _ => False) :=
  ⟨fun _ _ _ h => h, fun e ms h' hl => by obtain ⟨s, rfl⟩ := h e h'; cases hl⟩

theorem complains_license (env : RdfEnv) (g : RdfGraph) (ns : Str) (v : RdfNode) : Complains (readLicense env g ns env.depth v) (plain v) :=
  complains_other (RdfCrash.other_license env g ns env.depth v)

theorem other_id (b : Bindings) (ns : Str) (v : RdfNode) (e : PyErr) (h : readId b ns v = .error e) : ∃ s, e = .other s := by
  unfold readId at h
  split at h
  · cases h
  · cases h; exact ⟨_, rfl⟩

theorem complains_id (b : Bindings) (ns : Str) (v : RdfNode) : Complains (readId b ns v) (plain v) := complains_other (other_id b ns v)

theorem complains_refType (ns : Str) (v : RdfNode) : Complains (readRefType ns v) (plain v) := by
  refine complains_other fun e h => ?_
  unfold readRefType at h
  split at h
  · split at h
    · cases h
    · cases h; exact ⟨_, rfl⟩
  · split at h <;> cases h

/-- a method that looks up a text -/
theorem complains_lookup {α : Type} (o : Option α) {x : Py α} {e : PyErr} {m : PMsg} {c : PMsg → Prop} (hs : ∀ a, o = some a → x = .ok a)
    (hn : o = none → x = .error e) (he : e.logged = some [m]) (hc : ∀ y, c y ↔ (∀ a, o ≠ some a) ∧ y = m) : Complains x c := by
  cases o with
  | some a =>
    rw [hs a rfl]
    exact ⟨fun _ _ y h => ((hc y).1 h).1 a rfl, fun _ _ e => nomatch e⟩
  | none =>
    rw [hn rfl]
    refine ⟨fun _ e => (nomatch e), fun e' ms h hl y => ?_⟩
    cases h
    rw [he] at hl
    cases hl
    rw [List.mem_singleton, hc y]
    exact ⟨fun h => ⟨fun _ h => (nomatch h), h⟩, fun h => h.2⟩

theorem complains_date (v : RdfNode) : Complains (readDate v) (badDate v) :=
  complains_lookup (datetimeFromStr v.text) (fun a h => by unfold readDate; rw [h]) (fun h => by unfold readDate; rw [h]) rfl fun _ => .rfl
theorem complains_version (v : RdfNode) : Complains (readVersion v) (badVersion v) :=
  complains_lookup (versionFromString v.text) (fun a h => by unfold readVersion; rw [h]) (fun h => by unfold readVersion; rw [h]) rfl fun _ => .rfl
theorem complains_enum {α : Type} (cls pre : Str) (f : Str → Option α) (v : RdfNode) : Complains (readEnum cls f pre v) (badMember cls f pre v) :=
  complains_lookup (enumFromRdf f pre v.text) (fun a h => by unfold readEnum; rw [h]) (fun h => by unfold readEnum; rw [h]) rfl fun _ => .rfl
theorem complains_algorithm (v : RdfNode) : Complains (readAlgorithm v) (badAlgorithm v) :=
  complains_lookup (algorithmFromRdf v.text) (fun a h => by unfold readAlgorithm; rw [h]) (fun h => by unfold readAlgorithm; rw [h]) rfl fun _ => .rfl

theorem complains_actorText (s : Str) : Complains (readActor s) (fun m => ∃ e, parseActor s = .error e ∧ m = actorComplaint s e) := by
  unfold readActor
  match parseActor s with
  | .ok a => exact ⟨fun _ _ _ ⟨_, h, _⟩ => (nomatch h), fun _ _ h => nomatch h⟩
  | .error .noToolName => exact ⟨fun _ h => (nomatch h), fun _ _ h hl m => by cases h; cases hl; simp [actorComplaint]⟩
  | .error .noName => exact ⟨fun _ h => (nomatch h), fun _ _ h hl m => by cases h; cases hl; simp [actorComplaint]⟩
  | .error .noMatch => exact ⟨fun _ h => (nomatch h), fun _ _ h hl m => by cases h; cases hl; simp [actorComplaint]⟩

theorem complains_actor (v : RdfNode) : Complains (readActor v.text) (badActor v) := complains_actorText v.text

theorem complains_map {α β : Type} {x : Py α} {f : α → β} {c : PMsg → Prop} (h : Complains x c) : Complains (x.map f) c := by
  match x, h with
  | .ok a, h => exact ⟨fun _ _ => h.1 a rfl, fun _ _ h => nomatch h⟩
  | .error e, h => exact ⟨fun _ h => (nomatch h), fun _ ms e hl => by cases e; exact h.2 _ ms rfl hl⟩

theorem complains_actorS (v : RdfNode) : Complains ((readActor v.text).map some) (badActor v) := complains_map (complains_actor v)

/-! ### Lists -/

theorem field_nil {α : Type} (a : α) (V : α → Prop) (h : V a) : Field (pure a : P α) (fun _ => False) V :=
  ⟨fun _ _ e => by cases e; simp, fun _ e => by cases e; exact h, fun _ => nofun⟩

theorem field_of_says {α : Type} {x : P α} {S : PMsg → Prop} {V : α → Prop} (h : Says x S V (fun _ => False) True) : Field x S V :=
  ⟨fun ms a e => (h.says ms a e).2, h.gives, fun ms e => h.raises ms e⟩

theorem says_of_field {α : Type} {x : P α} {S : PMsg → Prop} {V : α → Prop} (h : Field x S V) : Says x S V (fun _ => False) True :=
  ⟨fun ms a e => ⟨trivial, h.says ms a e⟩, h.gives, fun ms e => h.raises ms e⟩

theorem Field.weak {α : Type} {x : P α} {S S' : PMsg → Prop} {V V' : α → Prop} (h : Field x S V) (hs : ∀ m, S m ↔ S' m) (hv : ∀ a, V a → V' a) : Field x S' V' :=
  ⟨fun ms a e m => (h.says ms a e m).trans (hs m), fun a e => hv a (h.gives a e), h.raises⟩

theorem field_licenses (env : RdfEnv) (g : RdfGraph) (ns : Str) : ∀ l, Field (readLicenses env g ns l) (fun _ => False)
    (fun as => none ∈ as ↔ ∃ v ∈ l, Special (License env g ns env.depth) v none)
  | [] => field_nil _ _ (by simp)
  | v :: l => by
    have hv : Field (readTyped (readLicense env g ns env.depth) v) (fun _ => False) (fun a => a = none ↔ Special (License env g ns env.depth) v none) := by
      refine ⟨fun ms a e x => ?_, fun a e => ?_, fun ms => typed_raises _ v ms⟩
      · exact (typed_says (complains_license env g ns v) e x).trans ⟨fun h => h.2.2.2, False.elim⟩
      · rw [clean_typed (agree_lic env g ns)] at e
        rw [← RdfSays.special_iff (RdfSays.licM_iff env g ns), e]
        exact ⟨fun h => by rw [h], fun h => by cases h; rfl⟩
    rw [readLicenses]
    refine field_of_says (says_quiet hv fun a => says_quiet (field_licenses env g ns l) fun as => ?_)
    refine says_of_field (field_nil _ _ fun hl ha => ?_)
    simp only [List.mem_cons, exists_eq_or_imp, ← ha, ← hl, eq_comm (a := none) (b := a)]

theorem field_licensesIn (env : RdfEnv) (g : RdfGraph) (ns : Str) (n : RdfNode) (p : Pred) : Field (readLicenses env g ns (g.objects n p)) (fun _ => False)
    (fun as => none ∈ as ↔ someNoLicense env g ns n p) := by
  unfold someNoLicense
  rw [RdfSays.values_eq]
  exact field_licenses env g ns _

theorem field_each {α : Type} {m : RdfNode → Py α} {m' : RdfNode → Option α} {C : RdfNode → PMsg → Prop} (hA : Agree m m')
    (hC : ∀ v, Complains (m v) (C v)) (g : RdfGraph) (n : RdfNode) (p : Pred) : Field (readEach m (g.objects n p)) (each g n p C) (fun as => none ∉ as) := by
  have key : ∀ l, Field (readEach m l) (fun x => ∃ v ∈ l, C v x) (fun as => none ∉ as) := by
    intro l
    induction l with
    | nil => exact (field_nil _ _ (by simp)).weak (fun _ => by simp) fun _ => id
    | cons v l ih =>
      rw [readEach]
      have hv : Field (applyOrLog m v) (C v) (fun a => a ≠ none) := by
        refine ⟨fun ms a e x => apply_says (hC v) e x, fun a e => ?_, fun ms => apply_raises _ v ms⟩
        rw [clean_apply hA] at e
        unfold applyMethod at e
        rintro rfl
        cases h : m' v <;> rw [h] at e <;> cases e
      refine (field_of_says (says_bind hv fun a => says_bind ih fun as => says_of_field (field_nil (a :: as) (fun l => none ∉ as → a ≠ none → none ∉ l) fun hl ha => ?_))).weak
        (fun x => ?_) fun _ => id
      · simp only [List.mem_cons, not_or]; exact ⟨fun h => ha h.symm, hl⟩
      · simp
  unfold each
  rw [RdfSays.values_eq]
  exact key _

/-- the first element of a list that is not read -/
theorem mapM_error {ν α : Type} {m : ν → Py α} {A : ν → List PMsg → Prop} (h : ∀ v ms, m v = .error (.parsing ms) → A v ms) {ms : List PMsg} :
    ∀ l : List ν, l.mapM m = .error (.parsing ms) → FirstBad (fun v => ∃ a, m v = .ok a) (fun v => A v ms) l
  | [], e => by cases e
  | v :: l, e => by
    rw [List.mapM_cons] at e
    cases hv : m v with
    | error x => rw [hv] at e; cases e; exact .here (h v ms hv)
    | ok a =>
      rw [hv] at e
      refine .later ⟨a, hv⟩ (mapM_error h l ?_)
      change (l.mapM m >>= fun as => pure (a :: as)) = _ at e
      cases hl : l.mapM m with
      | error x => rw [hl] at e; cases e; rfl
      | ok as => rw [hl] at e; cases e

theorem mapM_all {ν α : Type} {m : ν → Py α} : ∀ (l : List ν) as, l.mapM m = .ok as → ∀ v ∈ l, ∃ a, m v = .ok a
  | [], _, _ => nofun
  | v :: l, as, e => by
    rw [List.mapM_cons] at e
    cases hv : m v with
    | error x => rw [hv] at e; cases e
    | ok a =>
      rw [hv] at e
      change (l.mapM m >>= fun as => pure (a :: as)) = _ at e
      cases hl : l.mapM m with
      | error x => rw [hl] at e; cases e
      | ok as' =>
        intro w hw
        cases hw with
        | head => exact ⟨a, hv⟩
        | tail _ hw => exact mapM_all l as' hl w hw

theorem FirstBad.mono {α : Type} {R R' B B' : α → Prop} (hr : ∀ x, R x → R' x) (hb : ∀ x, B x → B' x) {l : List α} (h : FirstBad R B l) : FirstBad R' B' l := by
  induction h with
  | here h => exact .here (hb _ h)
  | later h _ ih => exact .later (hr _ h) ih

/-! ### Nodes -/

theorem only_none {β : Type} {P : Option β → Prop} {a : Option β} (h : Only P a) : a = none ↔ P none := eq_comm.trans (h none)

macro "fields" : tactic => `(tactic| repeat first
  | refine says_field (field_literal agree_strip RdfSays.text_iff complains_strip _ _ _) fun _ => ?_
  | refine says_field (field_literal agree_date RdfSays.date_iff complains_date _ _ _) fun _ => ?_
  | refine says_field (field_literal (agree_enum _ _ _) (RdfSays.member_iff _ _) (complains_enum _ _ _) _ _ _) fun _ => ?_
  | refine says_field (field_literal agree_actor RdfSays.isActor_iff complains_actor _ _ _) fun _ => ?_
  | refine says_field (field_literal agree_algorithm RdfSays.algorithm_iff complains_algorithm _ _ _) fun _ => ?_
  | refine says_field (field_special agree_stripS RdfSays.textS_iff complains_stripS _ _ _) fun _ => ?_
  | refine says_field (field_special agree_actorS RdfSays.actorS_iff complains_actorS _ _ _) fun _ => ?_
  | refine says_field (field_special (agree_lic _ _ _) (RdfSays.licM_iff _ _ _) (complains_license _ _ _) _ _ _) fun _ => ?_)

theorem says_checksum (g : RdfGraph) (n : RdfNode) : ∃ (τ : Type) (body : P τ) (k : τ → Py Checksum), readChecksum g n = (body.orRaiseIn s%"Checksum" >>= k) ∧
    Says body (In [once g n .algorithm badAlgorithm, once g n .checksumValue plain]) (fun t => Made s%"Checksum"
      [(s%"value", Absent g n .checksumValue Text), (s%"algorithm", Absent g n .algorithm Algorithm)] (k t)) (fun _ => False) True := by
  refine ⟨_, _, _, rfl, ?_⟩
  fields
  exact says_end (fun h1 h2 => made (fails_one (fails_one (fails_ok _) (one_some (only_none h2))) (one_some (only_none h1)))) trivial

theorem complains_code (g : RdfGraph) (n : RdfNode) : Complains (readVerificationCode g n) (aboutCode g n) := by
  unfold readVerificationCode
  have hf := field_literal agree_strip RdfSays.text_iff complains_strip g n .packageVerificationCodeValue
  have ht := one_texts s%"excluded_files" g n .packageVerificationCodeExcludedFile
  rcases literal_cases g n .packageVerificationCodeValue readStrip with ⟨h, h'⟩ | ⟨v, h, hb, h'⟩ | ⟨h, hb, h'⟩
  · rw [h']
    refine ⟨fun a e => (nomatch e), fun e ms e' hl m => ?_⟩
    cases e'
    cases hl
    rw [List.mem_singleton]
    have no : ∀ x : Option Str, ¬ Optional (values g n .packageVerificationCodeValue) Text x := by
      rintro x (⟨e, _⟩ | ⟨w, e, _⟩) <;> rw [e] at h <;> simp at h
    constructor
    · rintro rfl; exact .twice ⟨h, rfl⟩
    · intro hm
      cases hm with
      | twice ht => rw [ht.2]; rfl
      | value h _ => exact absurd h (no _)
      | files h _ => exact absurd h (no _)
      | both h _ => exact absurd h (no _)
  all_goals
    have ho : Only (Optional (values g n .packageVerificationCodeValue) Text) _ := hf.gives _ (by rw [h']; rfl)
    have nt : ∀ t, ¬ Twice g n .packageVerificationCodeValue t := by
      rintro t ⟨h2, _⟩
      first | (rw [h] at h2; simp at h2; done) | omega
    rw [h']
  · change Complains (construct s%"PackageVerificationCode" (.ok PackageVerificationCode.mk ⊛ .ok _ ⊛ chkTexts s%"excluded_files" (g.objects n .packageVerificationCodeExcludedFile))) _
    rcases ht with ⟨ht, hp⟩ | ⟨⟨fs, ht⟩, hp⟩
    · rw [ht]
      refine ⟨fun a e => (nomatch e), fun e ms e' hl m => ?_⟩
      cases e'
      cases hl
      rw [List.mem_singleton]
      constructor
      · rintro rfl; exact .files ((ho _).1 rfl) hp
      · intro hm
        cases hm with
        | twice ht => exact absurd ht (nt _)
        | value h _ => cases (ho _).2 h
        | files h _ => rfl
        | both h _ => cases (ho _).2 h
    · rw [ht]
      refine ⟨fun a e m hm => ?_, fun e ms e' => (nomatch e')⟩
      cases hm with
      | twice ht => exact absurd ht (nt _)
      | value h _ => cases (ho _).2 h
      | files _ h => exact hp h
      | both _ h => exact hp h
  · change Complains (construct s%"PackageVerificationCode" (.ok PackageVerificationCode.mk ⊛ .error [s%"value"] ⊛ chkTexts s%"excluded_files" (g.objects n .packageVerificationCodeExcludedFile))) _
    rcases ht with ⟨ht, hp⟩ | ⟨⟨fs, ht⟩, hp⟩
    · rw [ht]
      refine ⟨fun a e => (nomatch e), fun e ms e' hl m => ?_⟩
      cases e'
      cases hl
      rw [List.mem_singleton]
      constructor
      · rintro rfl; exact .both ((ho _).1 rfl) hp
      · intro hm
        cases hm with
        | twice ht => exact absurd ht (nt _)
        | value _ h => exact absurd hp h
        | files h _ => cases (ho _).2 h
        | both h _ => rfl
    · rw [ht]
      refine ⟨fun a e => (nomatch e), fun e ms e' hl m => ?_⟩
      cases e'
      cases hl
      rw [List.mem_singleton]
      constructor
      · rintro rfl; exact .value ((ho _).1 rfl) hp
      · intro hm
        cases hm with
        | twice ht => exact absurd ht (nt _)
        | value _ h => rfl
        | files h _ => cases (ho _).2 h
        | both _ h => exact absurd h hp

/-- A reader that first reads values with a logger and then constructs an object. -/
def Reads {α : Type} (x : Py α) (cls : Str) (faults : List (PMsg → Prop)) (missing : List (Str × Prop)) (E : List PMsg → Prop) (R : Prop) : Prop :=
  ∃ (τ : Type) (body : P τ) (k : τ → Py α), x = (body.orRaiseIn cls >>= k) ∧ Says body (In faults) (fun t => Made cls missing (k t)) E R

theorem Reads.about {α : Type} {x : Py α} {cls : Str} {faults : List (PMsg → Prop)} {missing : List (Str × Prop)} {E : List PMsg → Prop} {R : Prop}
    (h : Reads x cls faults missing E R) {ms : List PMsg} (e : x = .error (.parsing ms)) : E ms ∨ R ∧ ∃ m, ms = [m] ∧ Complaint cls faults missing m := by
  obtain ⟨_, _, _, rfl, h⟩ := h
  exact complaint h e

theorem Reads.fine {α : Type} {x : Py α} {cls : Str} {faults : List (PMsg → Prop)} {missing : List (Str × Prop)} {E : List PMsg → Prop} {R : Prop}
    (h : Reads x cls faults missing E R) {a : α} (e : x = .ok a) : (∀ F ∈ faults, ∀ m, ¬ F m) ∧ ∀ x ∈ missing, ¬ x.2 := by
  obtain ⟨_, _, _, rfl, h⟩ := h
  exact faultless h e

theorem about_checksum {g : RdfGraph} {n : RdfNode} {ms : List PMsg} (e : readChecksum g n = .error (.parsing ms)) : ∃ m, ms = [m] ∧ aboutChecksum g n m :=
  (Reads.about (says_checksum g n) e).elim False.elim (·.2)

theorem refType_none {g : RdfGraph} {ns : Str} {n : RdfNode} {o : Option (Option Str)}
    (h : Only (Optional (values g n .referenceType) (fun v y => val (readRefType ns v) = some y)) o) : o.join = none ↔ NoRefType g ns n := by
  have key : ∀ t, o.join = some t ↔ Optional (values g n .referenceType) (RefType ns) (some t) := by
    intro t
    rw [join_eq, eq_comm, h (some (some t))]
    unfold Optional
    simp only [← RdfSays.refType_iff, ← refType_val, join_eq]
    simp
  unfold NoRefType
  cases e : o.join with
  | none => exact ⟨fun _ t ht => (by rw [(key t).2 ht] at e; cases e), fun _ => rfl⟩
  | some t => exact ⟨fun h => (nomatch h), fun h => absurd ((key t).1 e) (h t)⟩

theorem says_packageRef (g : RdfGraph) (ns : Str) (n : RdfNode) : Reads (readPackageRef g ns n) s%"ExternalPackageRef"
    [once g n .referenceLocator plain,
     once g n .referenceCategory (badMember s%"ExternalPackageRefCategory" ExternalPackageRefCategory.ofName? s%"referenceCategory_"),
     once g n .referenceType plain, once g n .rdfsComment plain]
    [(s%"locator", Absent g n .referenceLocator Text), (s%"reference_type", NoRefType g ns n),
     (s%"category", Absent g n .referenceCategory (Member ExternalPackageRefCategory.ofName? s%"referenceCategory_"))] (fun _ => False) True := by
  refine ⟨_, _, _, rfl, ?_⟩
  fields
  refine says_field (field_literal (agree_refType ns) (fun _ _ => .rfl) (complains_refType ns) _ _ _) fun _ => ?_
  fields
  exact says_end (fun _ h1 h2 h3 => made (fails_value _ (fails_one (fails_one (fails_one (fails_ok _) (one_some (only_none h2))) (one_some (refType_none h1)))
    (one_some (only_none h3))))) trivial

theorem about_packageRef {g : RdfGraph} {ns : Str} {n : RdfNode} {ms : List PMsg} (e : readPackageRef g ns n = .error (.parsing ms)) :
    ∃ m, ms = [m] ∧ aboutPackageRef g ns n m := (Reads.about (says_packageRef g ns n) e).elim False.elim (·.2)

theorem only_given {β : Type} {P : Option (OrSpecial β) → Prop} {a : Option (OrSpecial β)} (h : Only P a) : a = some .none ↔ P (some .none) := eq_comm.trans (h _)

theorem noId {b : Bindings} {ns : Str} {v : RdfNode} {o : Option Str} (h : readId b ns v = .ok o) : o = none ↔ NoId b ns v := by
  have hp : parseRdfId b ns v = some o := by
    unfold readId at h
    split at h
    · next e => cases h; exact e
    · cases h
  unfold NoId
  cases o with
  | none => exact ⟨fun _ id hid => (by rw [← RdfSays.id_iff, hp] at hid; cases hid), fun _ => rfl⟩
  | some id => exact ⟨fun h => (nomatch h), fun h => absurd (RdfSays.id_iff.1 (by rw [hp]; rfl)) (h id)⟩

theorem id_step {α : Type} {b : Bindings} {ns : Str} {v : RdfNode} {k : Option Str → Py α} {ms : List PMsg} (h : (readId b ns v >>= k) = .error (.parsing ms)) :
    ∃ o, readId b ns v = .ok o ∧ k o = .error (.parsing ms) := by
  cases e : readId b ns v with
  | error x => rw [e] at h; cases h; obtain ⟨_, h⟩ := other_id b ns v _ e; cases h
  | ok o => rw [e] at h; exact ⟨o, rfl, h⟩

theorem bind_step {α β : Type} {x : Py α} {k : α → Py β} {c : β} (h : (x >>= k) = .ok c) : ∃ a, x = .ok a ∧ k a = .ok c := by
  cases x with
  | error x => cases h
  | ok o => exact ⟨o, rfl, h⟩

macro "checks" : tactic => `(tactic| (
  intros
  refine made ?_
  repeat first
    | exact fails_ok _
    | refine fails_value _ ?_
    | refine fails_one ?_ (one_texts _ _ _ _)
    | refine fails_one ?_ (one_some (noId (by assumption)))
    | refine fails_one ?_ (one_some (only_none (by assumption)))
    | refine fails_one ?_ (one_noNone (only_given (by assumption)))
    | refine fails_one ?_ (one_all (by assumption))
    | refine fails_pass ?_ (all_pass (by assumption))))

theorem good_checksums {g : RdfGraph} {n : RdfNode} {l : List Checksum} (h : (g.objects n .checksum).mapM (readChecksum g) = .ok l) : GoodChecksums g n := by
  unfold GoodChecksums
  rw [RdfSays.values_eq]
  intro v hv
  obtain ⟨c, hc⟩ := mapM_all _ _ h v hv
  exact ⟨c, (RdfSays.checksum_iff g v c).1 (((agree_checksum g).val v).symm.trans (val_ok.2 hc))⟩

theorem firstBad_single {ν : Type} {R : ν → Prop} {A : ν → PMsg → Prop} {ms : List PMsg} {l : List ν}
    (h : FirstBad R (fun v => ∃ m, ms = [m] ∧ A v m) l) : ∃ m, ms = [m] ∧ FirstBad R (fun v => A v m) l := by
  induction h with
  | here h => obtain ⟨m, h, h'⟩ := h; exact ⟨m, h, .here h'⟩
  | later hr _ ih => obtain ⟨m, h, h'⟩ := ih; exact ⟨m, h, .later hr h'⟩

theorem bad_checksums {g : RdfGraph} {n : RdfNode} {ms : List PMsg} (h : (g.objects n .checksum).mapM (readChecksum g) = .error (.parsing ms)) :
    ∃ m, ms = [m] ∧ FirstBad (fun v => ∃ c, IsChecksum g v c) (fun v => aboutChecksum g v m) (values g n .checksum) := by
  have h1 := mapM_error (A := fun v ms => ∃ m, ms = [m] ∧ aboutChecksum g v m) (fun v ms => about_checksum) _ h
  obtain ⟨m, rfl, h2⟩ := firstBad_single h1
  refine ⟨m, rfl, ?_⟩
  rw [RdfSays.values_eq]
  refine FirstBad.mono (fun v hv => ?_) (fun _ => id) h2
  obtain ⟨c, hc⟩ := hv
  exact ⟨c, (RdfSays.checksum_iff g v c).1 (((agree_checksum g).val v).symm.trans (val_ok.2 hc))⟩

theorem good_refs {g : RdfGraph} {ns : Str} {n : RdfNode} {l : List ExternalPackageRef} (h : (g.objects n .externalRef).mapM (readPackageRef g ns) = .ok l) :
    ∀ v ∈ values g n .externalRef, ∃ r, IsPackageRef g ns v r := by
  rw [RdfSays.values_eq]
  intro v hv
  obtain ⟨c, hc⟩ := mapM_all _ _ h v hv
  exact ⟨c, (RdfSays.packageRef_iff g ns v c).1 (((agree_packageRef g ns).val v).symm.trans (val_ok.2 hc))⟩

theorem bad_refs {g : RdfGraph} {ns : Str} {n : RdfNode} {ms : List PMsg} (h : (g.objects n .externalRef).mapM (readPackageRef g ns) = .error (.parsing ms)) :
    ∃ m, ms = [m] ∧ FirstBad (fun v => ∃ r, IsPackageRef g ns v r) (fun v => aboutPackageRef g ns v m) (values g n .externalRef) := by
  have h1 := mapM_error (A := fun v ms => ∃ m, ms = [m] ∧ aboutPackageRef g ns v m) (fun v ms => about_packageRef) _ h
  obtain ⟨m, rfl, h2⟩ := firstBad_single h1
  refine ⟨m, rfl, ?_⟩
  rw [RdfSays.values_eq]
  refine FirstBad.mono (fun v hv => ?_) (fun _ => id) h2
  obtain ⟨c, hc⟩ := hv
  exact ⟨c, (RdfSays.packageRef_iff g ns v c).1 (((agree_packageRef g ns).val v).symm.trans (val_ok.2 hc))⟩

theorem says_annotation {b : Bindings} {g : RdfGraph} {ns : Str} {e : RdfNode × RdfNode} {id : Option Str} (hid : readId b ns e.1 = .ok id) :
    Reads (readAnnotation b g ns e) s%"Annotation" (annotationFaults g e.2) (annotationMissing g b ns e) (fun _ => False) True := by
  unfold readAnnotation annotationFaults annotationMissing
  rw [hid]
  refine ⟨_, _, _, rfl, ?_⟩
  fields
  exact says_end (by checks) trivial

theorem says_relationship {b : Bindings} {g : RdfGraph} {ns : Str} {e : RdfNode × RdfNode} {id : Option Str} (hid : readId b ns e.1 = .ok id) :
    Reads (readRelationship b g ns e) s%"Relationship" (relationshipFaults g e.2) (relationshipMissing g b ns e) (fun _ => False) True := by
  unfold readRelationship relationshipFaults relationshipMissing
  rw [hid]
  refine ⟨_, _, _, rfl, ?_⟩
  fields
  refine says_field (field_special (agree_id b ns) (RdfSays.parseId_iff b ns) (complains_id b ns) _ _ _) fun _ => ?_
  fields
  exact says_end (by checks) trivial

theorem says_file {env : RdfEnv} {b : Bindings} {g : RdfGraph} {ns : Str} {n : RdfNode} {id : Option Str} (hid : readId b ns n = .ok id) :
    Reads (readFile env b g ns n) s%"File" (fileFaults g n) (fileMissing env g b ns n)
      (fun ms => ∃ m, ms = [m] ∧ FirstBad (fun v => ∃ c, IsChecksum g v c) (fun v => aboutChecksum g v m) (values g n .checksum)) (GoodChecksums g n) := by
  unfold readFile fileFaults fileMissing
  rw [hid]
  refine ⟨_, _, _, rfl, ?_⟩
  fields
  refine says_lift (fun ms h => bad_checksums h) fun cs hcs => ?_
  refine says_field (field_each (agree_enum _ _ _) (complains_enum _ _ _) _ _ _) fun _ => ?_
  fields
  refine says_quiet (field_licensesIn _ _ _ _ _) fun _ => ?_
  fields
  exact says_end (by checks) (good_checksums hcs)

theorem says_package {env : RdfEnv} {b : Bindings} {g : RdfGraph} {ns : Str} {n : RdfNode} {id : Option Str} (hid : readId b ns n = .ok id) :
    Reads (readPackage env b g ns n) s%"Package" (packageFaults g n) (packageMissing env g b ns n)
      (fun ms => (∃ m, ms = [m] ∧ FirstBad (fun v => ∃ c, IsChecksum g v c) (fun v => aboutChecksum g v m) (values g n .checksum)) ∨
        (GoodChecksums g n ∧ ∃ m, ms = [m] ∧ FirstBad (fun v => ∃ r, IsPackageRef g ns v r) (fun v => aboutPackageRef g ns v m) (values g n .externalRef)))
      (GoodChecksums g n ∧ ∀ v ∈ values g n .externalRef, ∃ r, IsPackageRef g ns v r) := by
  unfold readPackage packageFaults packageMissing
  rw [hid]
  refine ⟨_, _, _, rfl, ?_⟩
  fields
  refine says_lift (fun ms h => .inl (bad_checksums h)) fun cs hcs => ?_
  fields
  refine says_field (field_literal (agree_code g) (RdfSays.code_iff g) (complains_code g) _ _ _) fun _ => ?_
  refine says_lift (fun ms h => .inr ⟨good_checksums hcs, bad_refs h⟩) fun rs hrs => ?_
  fields
  refine says_quiet (field_licensesIn _ _ _ _ _) fun _ => ?_
  fields
  exact says_end (by checks) ⟨good_checksums hcs, good_refs hrs⟩

theorem about_implicit {b : Bindings} {ns : Str} {t : RelationshipType} {e : RdfNode × RdfNode} {ms : List PMsg}
    (h : readImplicit b ns t e = .error (.parsing ms)) : ∃ m, ms = [m] ∧ aboutImplicit b ns e m := by
  unfold readImplicit at h
  obtain ⟨o1, h1, h⟩ := id_step h
  obtain ⟨o2, h2, h⟩ := id_step h
  have hm : Made s%"Relationship" [(s%"related_spdx_element_id", NoId b ns e.2), (s%"spdx_element_id", NoId b ns e.1)] (construct s%"Relationship"
      (.ok Relationship.mk ⊛ chkSome s%"spdx_element_id" o1 ⊛ .ok t ⊛ chkSome s%"related_spdx_element_id" (o2.map .val) ⊛ .ok none)) := by
    have h2' := noId h2
    have : o2.map OrSpecial.val = none ↔ NoId b ns e.2 := by rw [← h2']; simp
    exact made (fails_value _ (fails_one (fails_value _ (fails_one (fails_ok _) (one_some (noId h1)))) (one_some this)))
  rcases hm with ⟨⟨_, e⟩, _⟩ | ⟨fs, hne, e, hf⟩
  · rw [e] at h; cases h
  · rw [e] at h; cases h; exact ⟨_, rfl, .missing (fun _ h => nomatch h) hne hf⟩

theorem other_licenseId (ns : Str) (n : RdfNode) (o : Option Str) (e : PyErr) (h : readLicenseId ns n o = .error e) : ∃ s, e = .other s := by
  unfold readLicenseId at h
  split at h
  · cases h
  · split at h
    · split at h
      · cases h
      · cases h; exact ⟨_, rfl⟩
    · cases h

theorem one_text {f : Str} {o : Option Str} {P : Prop} (h : o = none ↔ P) : One (chkText f o) f P := by
  cases o with
  | none => exact .inl ⟨rfl, h.1 rfl⟩
  | some a => exact .inr ⟨⟨_, rfl⟩, fun p => by cases h.2 p⟩

theorem licenseId_none {g : RdfGraph} {ns : Str} {n : RdfNode} {o r : Option Str} (ho : Only (Optional (values g n .licenseId) Text) o)
    (hr : readLicenseId ns n o = .ok r) : r = none ↔ ∀ id, ¬ LicenseId g ns n id := by
  have key : ∀ id, r = some id ↔ LicenseId g ns n id := by
    intro id
    have h1 : extractedId ns n o = r := by rw [licenseId_eq, hr]; rfl
    rw [← h1, RdfSays.extractedId_iff]
    exact ⟨fun h => ⟨o, (ho o).1 rfl, h⟩, fun ⟨o', h', h⟩ => by rw [← (ho o').2 h']; exact h⟩
  cases r with
  | none => exact ⟨fun _ id h => (by cases (key id).2 h), fun _ => rfl⟩
  | some id => exact ⟨fun h => (nomatch h), fun h => absurd ((key id).1 rfl) (h id)⟩

theorem says_extracted (g : RdfGraph) (ns : Str) (n : RdfNode) :
    Reads (readExtracted g ns n) s%"ExtractedLicensingInfo" (extractedFaults g n) (extractedMissing g ns n) (fun _ => False) True := by
  unfold readExtracted extractedFaults extractedMissing
  refine ⟨_, _, _, rfl, ?_⟩
  refine says_field (field_literal agree_strip RdfSays.text_iff complains_strip _ _ _) fun o => ?_
  refine says_lift (fun ms h => by obtain ⟨_, h⟩ := other_licenseId ns n _ _ h; cases h) fun r hr => ?_
  fields
  refine says_end (fun h1 h2 h3 h4 => ?_) trivial
  exact made (fails_value _ (fails_one (fails_one (fails_value _ (fails_one (fails_ok _) (one_text (licenseId_none h4 hr)))) (one_noNone (only_given h1)))
    (one_texts _ _ _ _)))

/-! ### Ranges -/

theorem not_blank {v : RdfNode} (h : v.truthy = true) : ¬ Blank v := fun hb => by rw [(RdfSays.truthy_iff v).2 hb] at h; cases h
theorem blank {v : RdfNode} (h : ¬ v.truthy = true) : Blank v := (RdfSays.truthy_iff v).1 (Bool.eq_false_iff.2 h)

/-- how a number of a pointer is read -/
theorem rangeValue_cases (g : RdfGraph) (n : RdfNode) (p : Pred) :
    (∃ o, readRangeValue g n p = .ok o ∧ Only (Optional (values g n p) Number) o ∧ ∀ m, ¬ numberFault g n p p.fragment m) ∨
    (∃ e m, readRangeValue g n p = .error e ∧ e.logged = some [m] ∧ (∀ o, ¬ Optional (values g n p) Number o) ∧ ∀ x, x = m ↔ numberFault g n p p.fragment x) := by
  unfold readRangeValue Only Optional numberFault
  rw [RdfSays.values_eq]
  match g.objects n p with
  | [] => exact .inl ⟨none, rfl, fun x => (by simp), fun m => (by simp)⟩
  | [v] =>
    dsimp only
    by_cases ht : v.truthy = true
    · rw [if_pos ht]
      have nb := not_blank ht
      have hi := fun i => RdfSays.toInt_iff (v := v) (i := i)
      simp only [if_pos ht] at hi
      cases e : v.toInt with
      | some i =>
        refine .inl ⟨some i, rfl, fun x => ?_, fun m => ?_⟩
        · simp [nb, ← hi, e]
        · simp [nb, ← hi, e]
      | none =>
        refine .inr ⟨_, _, rfl, rfl, fun x => ?_, fun m => ?_⟩
        · simp [nb, ← hi, e]
        · simp [nb, ← hi, e]
    · rw [if_neg ht]
      have nb := blank ht
      exact .inl ⟨none, rfl, fun x => (by simp [nb]), fun m => (by simp [nb])⟩
  | a :: b :: l => exact .inr ⟨_, _, rfl, rfl, fun x => (by simp), fun m => (by simp)⟩

theorem pointer_cases (g : RdfGraph) (n : RdfNode) (p : Pred) :
    (∃ v, readPointer g n p = .ok ((values g v .type).head?, v) ∧ (∀ w, w = v ↔ ThePointer g n p w) ∧ ∀ m, ¬ pointerFault g n p p.fragment m) ∨
    (∃ m, readPointer g n p = .error (.parsing [m]) ∧ (∀ w, ¬ ThePointer g n p w) ∧ ∀ x, x = m ↔ pointerFault g n p p.fragment x) := by
  unfold readPointer ThePointer pointerFault
  simp only [RdfSays.values_eq]
  match g.objects n p with
  | [] => exact .inr ⟨_, rfl, fun x => (by simp), fun m => (by simp)⟩
  | [v] =>
    dsimp only
    by_cases ht : v.truthy = true
    · rw [if_pos ht]
      have nb := not_blank ht
      refine .inl ⟨v, rfl, fun x => ⟨fun e => ⟨(by rw [e]), e ▸ nb⟩, fun ⟨e, _⟩ => by cases e; rfl⟩, fun m => (by simp [nb])⟩
    · rw [if_neg ht]
      have nb := blank ht
      exact .inr ⟨_, rfl, fun x => (by rintro ⟨e, h⟩; cases e; exact h nb), fun m => (by simp [nb])⟩
  | a :: b :: l => exact .inr ⟨_, rfl, fun x => (by simp), fun m => (by simp)⟩

/-- the class of pointers of a kind -/
def pointerClass : RangeKind → Str × Pred × Str
  | .byte => (s%"ByteOffsetPointer", .offset, s%"offset")
  | .line => (s%"LineCharPointer", .lineNumber, s%"lineNumber")

theorem kind_iff (g : RdfGraph) (q : RdfNode) (k : RangeKind) : (values g q .type).head?.bind rangeKind = some k ↔ HasPointerClass g q (pointerClass k).1 := by
  unfold HasPointerClass
  cases (values g q .type).head? with
  | none => simp
  | some v =>
    rw [Option.bind_some]
    unfold rangeKind pointerTerm
    by_cases h1 : v = .uri (s%"http://www.w3.org/2009/pointers#" ++ s%"ByteOffsetPointer")
    · subst h1
      cases k <;> decide
    · by_cases h2 : v = .uri (s%"http://www.w3.org/2009/pointers#" ++ s%"LineCharPointer")
      · subst h2
        cases k <;> decide
      · have e1 : ¬ v = .uri (pointerNamespace ++ s%"ByteOffsetPointer") := h1
        have e2 : ¬ v = .uri (pointerNamespace ++ s%"LineCharPointer") := h2
        rw [if_neg e1, if_neg e2]
        refine ⟨fun h => (nomatch h), fun h => ?_⟩
        cases h
        cases k
        · exact absurd rfl h1
        · exact absurd rfl h2

theorem class_mem {c : Str × Pred × Str} : c ∈ pointerClasses ↔ ∃ k, c = pointerClass k := by
  constructor
  · intro h
    cases h with
    | head => exact ⟨.byte, rfl⟩
    | tail _ h => cases h with
      | head => exact ⟨.line, rfl⟩
      | tail _ h => cases h
  · rintro ⟨k, rfl⟩
    cases k
    · exact .head _
    · exact .tail _ (.head _)

theorem number_eq (k : RangeKind) : k.number = (pointerClass k).2.1 ∧ k.number.fragment = (pointerClass k).2.2 := by cases k <;> exact ⟨rfl, by decide +kernel⟩

theorem class_unique {g : RdfGraph} {q : RdfNode} {k : RangeKind} {c : Str × Pred × Str} (h : HasPointerClass g q (pointerClass k).1) (hc : c ∈ pointerClasses)
    (h' : HasPointerClass g q c.1) : c = pointerClass k := by
  obtain ⟨k', rfl⟩ := class_mem.1 hc
  have e := ((kind_iff g q k').2 h').symm.trans ((kind_iff g q k).2 h)
  cases e
  rfl

/-- how a range is read -/
theorem range_cases (g : RdfGraph) (n : RdfNode) :
    (∃ k a z, readRange g n = .ok (k, (a, z)) ∧ SomePointer g n .startPointer (pointerClass k) a ∧ SomePointer g n .endPointer (pointerClass k) z ∧
      (∀ c ∈ pointerClasses, SomeRange g c n → c = pointerClass k) ∧ ∀ m, ¬ badRange g n m) ∨
    (∃ e, readRange g n = .error e ∧ (∀ c ∈ pointerClasses, ¬ SomeRange g c n) ∧ ∀ ms, e.logged = some ms → ∀ m, m ∈ ms ↔ badRange g n m) := by
  unfold readRange
  rcases pointer_cases g n .startPointer with ⟨p, ep, hp, fp⟩ | ⟨mp, ep, hp, fp⟩
  · rcases pointer_cases g n .endPointer with ⟨q, eq, hq, fq⟩ | ⟨mq, eq, hq, fq⟩
    · rw [ep, eq]
      have tp := (hp p).1 rfl
      have tq := (hq q).1 rfl
      by_cases ht : (values g p .type).head? = (values g q .type).head?
      · cases hk : (values g p .type).head?.bind rangeKind with
        | none =>
          have nk : ∀ c ∈ pointerClasses, ¬ HasPointerClass g p c.1 := by
            intro c hc h
            obtain ⟨k, rfl⟩ := class_mem.1 hc
            rw [(kind_iff g p k).2 h] at hk
            cases hk
          refine .inr ⟨keyError, ?_, fun c hc => ?_, fun ms h => (nomatch h)⟩
          · change (if ¬ (values g p .type).head? = (values g q .type).head? then _ else match (values g p .type).head?.bind rangeKind with | none => _ | some kind => _) = _
            rw [if_neg (not_not_intro ht), hk]
          · rintro ⟨⟨_, p', tp', h', _⟩, _⟩
            rw [(hp p').2 tp'] at h'
            exact nk c hc h'
        | some k =>
          have kp := (kind_iff g p k).1 hk
          have kq := (kind_iff g q k).1 (ht ▸ hk)
          obtain ⟨n1, n2⟩ := number_eq k
          have un : ∀ c ∈ pointerClasses, HasPointerClass g p c.1 → c = pointerClass k := fun c hc h => class_unique kp hc h
          have step : ∀ x y : Py (Option Int), readRangeValue g p k.number = x → readRangeValue g q k.number = y →
              (if ¬ (values g p .type).head? = (values g q .type).head? then .error (.parsing [.text s%"Types of startPointer and endPointer don't match"])
                else match (values g p .type).head?.bind rangeKind with
                | none => .error keyError
                | some kind => do
                  let a ← readRangeValue g p kind.number
                  let z ← readRangeValue g q kind.number
                  return (kind, (a, z)) : Py (RangeKind × (Option Int × Option Int))) = (x >>= fun a => y >>= fun z => pure (k, (a, z))) := by
            intro x y hx hy
            rw [if_neg (not_not_intro ht), hk, ← hx, ← hy]
          rcases rangeValue_cases g p k.number with ⟨a, ea, ha, fa⟩ | ⟨xa, ma, ea, la, na, fa⟩
          · rcases rangeValue_cases g q k.number with ⟨z, ez, hz, fz⟩ | ⟨xz, mz, ez, lz, nz, fz⟩
            · refine .inl ⟨k, a, z, step _ _ ea ez, ⟨p, tp, kp, n1 ▸ (ha a).1 rfl⟩, ⟨q, tq, kq, n1 ▸ (hz z).1 rfl⟩, ?_, ?_⟩
              · rintro c hc ⟨⟨_, p', tp', h', _⟩, _⟩
                rw [(hp p').2 tp'] at h'
                exact un c hc h'
              · intro m hm
                cases hm with
                | start h => exact fp m h
                | stop _ h => exact fq m h
                | classes t1 t2 h _ => rw [(hp _).2 t1, (hq _).2 t2] at h; exact h ht
                | startNumber t1 t2 hc h _ hn =>
                  rw [(hp _).2 t1] at h hn
                  cases un _ hc h
                  exact fa m (by rw [n2, n1]; exact hn)
                | stopNumber t1 t2 hc h _ _ hn =>
                  rw [(hp _).2 t1] at h
                  rw [(hq _).2 t2] at hn
                  cases un _ hc h
                  exact fz m (by rw [n2, n1]; exact hn)
            · refine .inr ⟨xz, step _ _ ea ez, ?_, fun ms h m => ?_⟩
              · rintro c hc ⟨⟨_, p', tp', h', _⟩, _, q', tq', _, h2⟩
                rw [(hp p').2 tp'] at h'
                cases un c hc h'
                rw [(hq q').2 tq'] at h2
                exact nz _ (n1 ▸ h2)
              · rw [lz] at h
                cases h
                rw [List.mem_singleton, fz m]
                rw [n2, n1]
                constructor
                · intro h
                  exact .stopNumber tp tq (class_mem.2 ⟨k, rfl⟩) kp kq (n1 ▸ (ha a).1 rfl) h
                · intro hm
                  cases hm with
                  | start h => exact absurd h (fp m)
                  | stop _ h => exact absurd h (fq m)
                  | classes t1 t2 h _ => rw [(hp _).2 t1, (hq _).2 t2] at h; exact absurd ht h
                  | startNumber t1 t2 hc h _ hn =>
                    rw [(hp _).2 t1] at h hn
                    cases un _ hc h
                    exact absurd (by rw [n2, n1]; exact hn) (fa m)
                  | stopNumber t1 t2 hc h _ _ hn =>
                    rw [(hp _).2 t1] at h
                    rw [(hq _).2 t2] at hn
                    cases un _ hc h
                    exact hn
          · refine .inr ⟨xa, (step _ _ ea rfl), ?_, fun ms h m => ?_⟩
            · rintro c hc ⟨⟨_, p', tp', h', h2⟩, _⟩
              rw [(hp p').2 tp'] at h' h2
              cases un c hc h'
              exact na _ (n1 ▸ h2)
            · rw [la] at h
              cases h
              rw [List.mem_singleton, fa m]
              rw [n2, n1]
              constructor
              · intro h
                exact .startNumber tp tq (class_mem.2 ⟨k, rfl⟩) kp kq h
              · intro hm
                cases hm with
                | start h => exact absurd h (fp m)
                | stop _ h => exact absurd h (fq m)
                | classes t1 t2 h _ => rw [(hp _).2 t1, (hq _).2 t2] at h; exact absurd ht h
                | startNumber t1 t2 hc h _ hn =>
                  rw [(hp _).2 t1] at h hn
                  cases un _ hc h
                  exact hn
                | stopNumber t1 t2 hc h _ ho hn =>
                  rw [(hp _).2 t1] at h ho
                  cases un _ hc h
                  exact absurd (n1 ▸ ho) (na _)
      · refine .inr ⟨.parsing [.text s%"Types of startPointer and endPointer don't match"], ?_, ?_, fun ms h m => ?_⟩
        · change (if ¬ (values g p .type).head? = (values g q .type).head? then _ else _) = _
          rw [if_pos ht]
        · rintro c hc ⟨⟨_, p', tp', h', _⟩, _, q', tq', h2, _⟩
          rw [(hp p').2 tp'] at h'
          rw [(hq q').2 tq'] at h2
          exact ht (h'.trans h2.symm)
        · cases h
          rw [List.mem_singleton]
          constructor
          · intro h; exact .classes tp tq ht h
          · intro hm
            cases hm with
            | start h => exact absurd h (fp m)
            | stop _ h => exact absurd h (fq m)
            | classes t1 t2 h e => exact e
            | startNumber t1 t2 hc h h2 hn =>
              rw [(hp _).2 t1] at h
              rw [(hq _).2 t2] at h2
              exact absurd (h.trans h2.symm) ht
            | stopNumber t1 t2 hc h h2 ho hn =>
              rw [(hp _).2 t1] at h
              rw [(hq _).2 t2] at h2
              exact absurd (h.trans h2.symm) ht
    · rw [ep, eq]
      refine .inr ⟨.parsing [mq], rfl, ?_, fun ms h m => ?_⟩
      · rintro c hc ⟨_, _, q', tq', _⟩; exact hq _ tq'
      · cases h
        rw [List.mem_singleton, fq m]
        constructor
        · intro h; exact .stop ((hp p).1 rfl) h
        · intro hm
          cases hm with
          | start h => exact absurd h (fp m)
          | stop _ h => exact h
          | classes _ t => exact absurd t (hq _)
          | startNumber _ t => exact absurd t (hq _)
          | stopNumber _ t => exact absurd t (hq _)
  · rw [ep]
    refine .inr ⟨.parsing [mp], rfl, ?_, fun ms h m => ?_⟩
    · rintro c hc ⟨⟨_, p', tp', _⟩, _⟩; exact hp _ tp'
    · cases h
      rw [List.mem_singleton, fp m]
      constructor
      · intro h; exact .start h
      · intro hm
        cases hm with
        | start h => exact h
        | stop t => exact absurd t (hp _)
        | classes t => exact absurd t (hp _)
        | startNumber t => exact absurd t (hp _)
        | stopNumber t => exact absurd t (hp _)

theorem someRange_iff (g : RdfGraph) (k : RangeKind) (n : RdfNode) : SomeRange g (pointerClass k) n ↔ ∃ x, readRange g n = .ok (k, x) := by
  have hm : ∀ k, pointerClass k ∈ pointerClasses := fun k => class_mem.2 ⟨k, rfl⟩
  rcases range_cases g n with ⟨k', a, z, e, h1, h2, hu, _⟩ | ⟨e, he, hn, _⟩
  · constructor
    · intro h
      have := hu _ (hm k) h
      have : k = k' := by revert this; cases k <;> cases k' <;> decide
      rw [this]
      exact ⟨_, e⟩
    · rintro ⟨x, e'⟩
      rw [e] at e'
      cases e'
      exact ⟨⟨a, h1⟩, ⟨z, h2⟩⟩
  · exact ⟨fun h => absurd h (hn _ (hm k)), fun ⟨x, e'⟩ => by rw [he] at e'; cases e'⟩

theorem field_known {α β : Type} {ms : List PMsg} {a : α} {k : α → P β} {S : PMsg → Prop} {V : β → Prop} (h : Field (k a) S V) :
    Field (P.bind (Except.ok (ms, a)) k) (fun m => m ∈ ms ∨ S m) (fun b => ms = [] ∧ V b) := by
  unfold P.bind
  dsimp only
  match k a, h with
  | .error e, h => exact ⟨fun _ _ e => (nomatch e), fun _ e => (nomatch e), fun ms e => by cases e; exact h.raises ms rfl⟩
  | .ok (ms', b), h =>
    refine ⟨fun _ _ e => by cases e; exact fun m => by rw [List.mem_append, h.says _ _ rfl m], fun c e => ?_, fun ms e => nomatch e⟩
    match ms, ms', h, e with
    | [], [], h, e => cases e; exact ⟨rfl, h.gives _ rfl⟩

/-- there are two ranges of a kind, with those found before -/
def Dup (g : RdfGraph) (k : RangeKind) (o : Option (Option Int × Option Int)) (l : List RdfNode) (m : PMsg) : Prop :=
  ((o ≠ none ∧ ∃ r ∈ l, SomeRange g (pointerClass k) r) ∨ ∃ r s, [r, s].Sublist l ∧ SomeRange g (pointerClass k) r ∧ SomeRange g (pointerClass k) s) ∧
    m = .text (s%"Multiple " ++ (pointerClass k).1 ++ s%" found.")

/-- the range found of a kind -/
def Got (g : RdfGraph) (k : RangeKind) (o o' : Option (Option Int × Option Int)) (l : List RdfNode) : Prop :=
  (o' = o ∧ ∀ r ∈ l, ¬ SomeRange g (pointerClass k) r) ∨
    (o = none ∧ ∃ r ∈ l, ∃ x, o' = some x ∧ readRange g r = .ok (k, x) ∧ ∀ s ∈ l, ∀ y, readRange g s = .ok (k, y) → y = x)

theorem dup_skip {g : RdfGraph} {k : RangeKind} {o : Option (Option Int × Option Int)} {n : RdfNode} {l : List RdfNode} {m : PMsg}
    (h : ¬ SomeRange g (pointerClass k) n) : Dup g k o (n :: l) m ↔ Dup g k o l m := by
  unfold Dup
  refine and_congr_left fun _ => or_congr (and_congr_right fun _ => ?_) ?_
  · simp [h]
  · constructor
    · rintro ⟨r, s, hs, h1, h2⟩
      cases hs with
      | cons _ hs => exact ⟨r, s, hs, h1, h2⟩
      | cons_cons _ hs => exact absurd h1 h
    · rintro ⟨r, s, hs, h1, h2⟩
      exact ⟨r, s, hs.cons _, h1, h2⟩

theorem dup_first {g : RdfGraph} {k : RangeKind} {n : RdfNode} {l : List RdfNode} {m : PMsg} {x : Option Int × Option Int}
    (h : SomeRange g (pointerClass k) n) : Dup g k none (n :: l) m ↔ Dup g k (some x) l m := by
  unfold Dup
  refine and_congr_left fun _ => ?_
  constructor
  · rintro (⟨h, _⟩ | ⟨r, s, hs, h1, h2⟩)
    · exact absurd rfl h
    · cases hs with
      | cons _ hs => exact .inr ⟨r, s, hs, h1, h2⟩
      | cons_cons _ hs => exact .inl ⟨nofun, s, List.singleton_sublist.1 hs, h2⟩
  · rintro (⟨_, s, hs, h2⟩ | ⟨r, s, hs, h1, h2⟩)
    · exact .inr ⟨n, s, (List.singleton_sublist.2 hs).cons_cons _, h, h2⟩
    · exact .inr ⟨r, s, hs.cons _, h1, h2⟩

theorem dup_again {g : RdfGraph} {k : RangeKind} {n : RdfNode} {l : List RdfNode} {m : PMsg} {x : Option Int × Option Int}
    (h : SomeRange g (pointerClass k) n) :
    Dup g k (some x) (n :: l) m ↔ m = .text (s%"Multiple " ++ (pointerClass k).1 ++ s%" found.") ∨ Dup g k (some x) l m := by
  constructor
  · intro hd; exact .inl hd.2
  · rintro (h' | h')
    · exact ⟨.inl ⟨nofun, n, .head _, h⟩, h'⟩
    · exact ⟨.inl ⟨nofun, n, .head _, h⟩, h'.2⟩

theorem got_skip {g : RdfGraph} {k : RangeKind} {o o' : Option (Option Int × Option Int)} {n : RdfNode} {l : List RdfNode}
    (h : ¬ SomeRange g (pointerClass k) n) (hg : Got g k o o' l) : Got g k o o' (n :: l) := by
  rcases hg with ⟨h1, h2⟩ | ⟨h1, r, hr, x, h2, h3, h4⟩
  · refine .inl ⟨h1, fun r hr => ?_⟩
    cases hr with
    | head => exact h
    | tail _ hr => exact h2 r hr
  · refine .inr ⟨h1, r, .tail _ hr, x, h2, h3, fun s hs y hy => ?_⟩
    cases hs with
    | head => exact absurd ((someRange_iff g k n).2 ⟨y, hy⟩) h
    | tail _ hs => exact h4 s hs y hy

theorem got_first {g : RdfGraph} {k : RangeKind} {o' : Option (Option Int × Option Int)} {n : RdfNode} {l : List RdfNode} {x : Option Int × Option Int}
    (h : readRange g n = .ok (k, x)) (hg : Got g k (some x) o' l) : Got g k none o' (n :: l) := by
  rcases hg with ⟨h1, h2⟩ | ⟨h1, _⟩
  · refine .inr ⟨rfl, n, .head _, x, h1, h, fun s hs y hy => ?_⟩
    cases hs with
    | head => rw [h] at hy; cases hy; rfl
    | tail _ hs => exact absurd ((someRange_iff g k s).2 ⟨y, hy⟩) (h2 s hs)
  · cases h1

theorem field_ranges (g : RdfGraph) : ∀ l rs, Field (readRanges g rs l) (fun m => (∃ r ∈ l, badRange g r m) ∨ Dup g .byte rs.1 l m ∨ Dup g .line rs.2 l m)
    (fun rs' => Got g .byte rs.1 rs'.1 l ∧ Got g .line rs.2 rs'.2 l)
  | [], rs => by
    refine (field_nil rs (fun rs' => Got g .byte rs.1 rs'.1 [] ∧ Got g .line rs.2 rs'.2 []) ⟨.inl ⟨rfl, nofun⟩, .inl ⟨rfl, nofun⟩⟩).weak (fun m => ?_) fun _ => id
    simp [Dup]
  | n :: l, rs => by
    have ih := field_ranges g l
    have mem : ∀ m, (∃ r ∈ n :: l, badRange g r m) ↔ badRange g n m ∨ ∃ r ∈ l, badRange g r m := fun m => by simp
    rw [readRanges]
    change Field (P.bind (applyOrLog (readRange g) n) _) _ _
    rcases range_cases g n with ⟨k, a, z, e, h1, h2, hu, nb⟩ | ⟨e, he, hn, hl⟩
    · have ea : applyOrLog (readRange g) n = Except.ok ([], some (k, (a, z))) := by unfold applyOrLog; rw [e]
      have hk : SomeRange g (pointerClass k) n := ⟨⟨a, h1⟩, ⟨z, h2⟩⟩
      have nk : ∀ k', k' ≠ k → ¬ SomeRange g (pointerClass k') n := by
        intro k' hne h
        obtain ⟨x, hx⟩ := (someRange_iff g k' n).1 h
        rw [e] at hx
        cases hx
        exact hne rfl
      rw [ea]
      obtain ⟨rb, rl⟩ := rs
      match k, rb, rl with
      | .byte, none, rl =>
        refine (field_known (field_known (ms := []) (a := (some (a, z), rl)) (ih _))).weak (fun m => ?_) fun rs' h => ?_
        · rw [mem, dup_first hk (x := (a, z)), dup_skip (nk .line nofun)]
          simp [nb]
        · exact ⟨got_first e h.2.2.1, got_skip (nk .line nofun) h.2.2.2⟩
      | .byte, some x, rl =>
        refine (field_known (field_known (ms := [.text s%"Multiple ByteOffsetPointer found."]) (a := (some x, rl)) (ih _))).weak (fun m => ?_) fun rs' h => ?_
        · rw [mem, dup_again hk (x := x), dup_skip (nk .line nofun)]
          simp only [List.not_mem_nil, false_or, List.mem_singleton, nb]
          exact ⟨fun h => h.elim (fun h => .inr (.inl (.inl h))) fun h => h.elim .inl fun h => h.elim (fun h => .inr (.inl (.inr h))) fun h => .inr (.inr h),
            fun h => h.elim (fun h => .inr (.inl h)) fun h => h.elim (fun h => h.elim .inl fun h => .inr (.inr (.inl h))) fun h => .inr (.inr (.inr h))⟩
        · cases h.2.1
      | .line, rb, none =>
        refine (field_known (field_known (ms := []) (a := (rb, some (a, z))) (ih _))).weak (fun m => ?_) fun rs' h => ?_
        · rw [mem, dup_first hk (x := (a, z)), dup_skip (nk .byte nofun)]
          simp [nb]
        · exact ⟨got_skip (nk .byte nofun) h.2.2.1, got_first e h.2.2.2⟩
      | .line, rb, some x =>
        refine (field_known (field_known (ms := [.text s%"Multiple LineCharPointer found."]) (a := (rb, some x)) (ih _))).weak (fun m => ?_) fun rs' h => ?_
        · rw [mem, dup_again hk (x := x), dup_skip (nk .byte nofun)]
          simp only [List.not_mem_nil, false_or, List.mem_singleton, nb]
          exact ⟨fun h => h.elim (fun h => .inr (.inr (.inl h))) fun h => h.elim .inl fun h => h.elim (fun h => .inr (.inl h)) fun h => .inr (.inr (.inr h)),
            fun h => h.elim (fun h => .inr (.inl h)) fun h => h.elim (fun h => .inr (.inr (.inl h))) fun h => h.elim .inl fun h => .inr (.inr (.inr h))⟩
        · cases h.2.1
    · have hn' : ∀ k, ¬ SomeRange g (pointerClass k) n := fun k => hn _ (class_mem.2 ⟨k, rfl⟩)
      cases hlg : e.logged with
      | none =>
        have ea : applyOrLog (readRange g) n = Except.error e := by unfold applyOrLog; rw [he]; dsimp only; rw [hlg]
        rw [ea]
        refine ⟨fun _ _ e => (nomatch e), fun _ e => (nomatch e), fun ms h => ?_⟩
        cases h
        cases hlg
      | some ms =>
        have ea : applyOrLog (readRange g) n = Except.ok (ms, none) := by unfold applyOrLog; rw [he]; dsimp only; rw [hlg]
        rw [ea]
        refine (field_known (field_known (ms := []) (a := rs) (ih _))).weak (fun m => ?_) fun rs' h => ?_
        · rw [mem, dup_skip (hn' .byte), dup_skip (hn' .line), hl ms hlg m, or_assoc]
          simp
        · exact ⟨got_skip (hn' .byte) h.2.2.1, got_skip (hn' .line) h.2.2.2⟩

theorem range_read (g : RdfGraph) (n : RdfNode) (k : RangeKind) (x : Int × Int) : Spec.RdfSays.Range g n (k, x) ↔ readRange g n = .ok (k, (some x.1, some x.2)) := by
  rw [← RdfSays.range_iff, range_eq, ← val_ok]
  cases val (readRange g n) with
  | none => simp
  | some r =>
    obtain ⟨k', a, z⟩ := r
    cases a <;> cases z <;> simp [ints, Prod.ext_iff]

theorem one_ints {g : RdfGraph} {k : RangeKind} {o : Option (Option Int × Option Int)} {f : Str} {l : List RdfNode} (h : Got g k none o l) :
    One (chkInts f o) f (∀ r ∈ l, ∀ x, ¬ Spec.RdfSays.Range g r (k, x)) := by
  rcases h with ⟨rfl, h⟩ | ⟨_, r, hr, x, rfl, hx, hu⟩
  · refine .inl ⟨rfl, fun r hr x hx => h r hr ((someRange_iff g k r).2 ⟨_, (range_read g r k x).1 hx⟩)⟩
  · have key : ∀ r ∈ l, ∀ y, Spec.RdfSays.Range g r (k, y) → x = (some y.1, some y.2) := fun r hr y hy => (hu r hr _ ((range_read g r k y).1 hy)).symm
    match x, hx, key with
    | (some a, some z), hx, _ => exact .inr ⟨⟨(a, z), rfl⟩, fun h => h r hr (a, z) ((range_read g r k (a, z)).2 hx)⟩
    | (none, _), _, key => exact .inl ⟨rfl, fun r hr y hy => by cases key r hr y hy⟩
    | (some _, none), _, key => exact .inl ⟨rfl, fun r hr y hy => by cases key r hr y hy⟩

theorem one_optInts {g : RdfGraph} {k : RangeKind} {o : Option (Option Int × Option Int)} {f : Str} {l : List RdfNode} (h : Got g k none o l) :
    One (chkOptInts f o) f (∃ r ∈ l, SomeRange g (pointerClass k) r ∧ ∀ x, ¬ Spec.RdfSays.Range g r (k, x)) := by
  rcases h with ⟨rfl, h⟩ | ⟨_, r, hr, x, rfl, hx, hu⟩
  · exact .inr ⟨⟨none, rfl⟩, fun ⟨r, hr, h', _⟩ => h r hr h'⟩
  · have hs : SomeRange g (pointerClass k) r := (someRange_iff g k r).2 ⟨x, hx⟩
    have key : ∀ r ∈ l, ∀ y, Spec.RdfSays.Range g r (k, y) → x = (some y.1, some y.2) := fun r hr y hy => (hu r hr _ ((range_read g r k y).1 hy)).symm
    match x, hx, key, hu with
    | (some a, some z), hx, _, hu =>
      refine .inr ⟨⟨some (a, z), rfl⟩, ?_⟩
      rintro ⟨s, hs, h', hn⟩
      obtain ⟨y, hy⟩ := (someRange_iff g k s).1 h'
      cases hu s hs y hy
      exact hn (a, z) ((range_read g s k (a, z)).2 hy)
    | (none, _), _, key, _ => exact .inl ⟨rfl, r, hr, hs, fun y hy => by cases key r hr y hy⟩
    | (some _, none), _, key, _ => exact .inl ⟨rfl, r, hr, hs, fun y hy => by cases key r hr y hy⟩

theorem idOf_none {b : Bindings} {ns : Str} {w : Option RdfNode} {o : Option Str} (h : readIdOf b ns w = .ok o) : o = none ↔ ∀ f, w = some f → NoId b ns f := by
  cases w with
  | none => cases h; exact ⟨fun _ _ h => (nomatch h), fun _ => rfl⟩
  | some f => exact (noId h).trans ⟨fun h _ e => by cases e; exact h, fun h => h f rfl⟩

theorem says_snippet {env : RdfEnv} {b : Bindings} {g : RdfGraph} {ns : Str} {n : RdfNode} {id file : Option Str} (hid : readId b ns n = .ok id)
    (hf : readIdOf b ns (someValue g n .snippetFromFile) = .ok file) :
    Reads (readSnippet env b g ns n) s%"Snippet" (snippetFaults g n) (snippetMissing env g b ns n) (fun _ => False) True := by
  unfold readSnippet snippetFaults snippetMissing
  rw [hid]
  change Reads (readIdOf b ns (someValue g n .snippetFromFile) >>= _) _ _ _ _ _
  rw [hf]
  have hr := field_ranges g (g.objects n .range) (none, none)
  refine ⟨_, _, _, rfl, ?_⟩
  refine Says.congr (S := fun m => _ ∨ In [once g n .licenseConcluded (special plain), once g n .licenseComments plain,
   once g n .copyrightText (special plain), once g n .rdfsComment plain, once g n .name plain] m) (says_bind hr fun _ => ?_) fun m => ?_
  · fields
    refine says_quiet (field_licensesIn _ _ _ _ _) fun _ => ?_
    fields
    refine says_end ?_ trivial
    intro _ _ _ _ hl _ hr
    refine made (fails_one (fails_value _ (fails_value _ (fails_value _ (fails_value _ (fails_one (fails_value _ ?_) (one_all hl)))))) (one_texts _ _ _ _))
    rw [RdfSays.values_eq, RdfSays.values_eq]
    exact fails_one (fails_one (fails_one (fails_one (fails_ok _) (one_some (noId hid))) (one_some (idOf_none hf))) (one_ints hr.1)) (one_optInts hr.2)
  · have e : ∀ k, Dup g k none (g.objects n .range) m ↔ twoRanges g n (pointerClass k) m := by
      intro k
      unfold Dup twoRanges
      rw [RdfSays.values_eq]
      simp
    dsimp only
    rw [e .byte, e .line]
    simp only [In, List.mem_cons, exists_eq_or_imp, each, RdfSays.values_eq, pointerClass, or_assoc]

/-! ### Elements -/

theorem about_package {env : RdfEnv} {b : Bindings} {g : RdfGraph} {ns : Str} {n : RdfNode} {ms : List PMsg}
    (h : readPackage env b g ns n = .error (.parsing ms)) : ∃ m, ms = [m] ∧ aboutPackage env g b ns n m := by
  obtain ⟨id, hid, _⟩ := id_step h
  rcases (says_package hid).about h with (⟨m, e, h⟩ | ⟨hg, m, e, h⟩) | ⟨hg, m, e, h⟩
  · exact ⟨m, e, .checksum h⟩
  · exact ⟨m, e, .reference hg h⟩
  · exact ⟨m, e, .package hg.1 hg.2 h⟩

theorem about_file {env : RdfEnv} {b : Bindings} {g : RdfGraph} {ns : Str} {n : RdfNode} {ms : List PMsg}
    (h : readFile env b g ns n = .error (.parsing ms)) : ∃ m, ms = [m] ∧ aboutFile env g b ns n m := by
  obtain ⟨id, hid, _⟩ := id_step h
  rcases (says_file hid).about h with ⟨m, e, h⟩ | ⟨hg, m, e, h⟩
  · exact ⟨m, e, .checksum h⟩
  · exact ⟨m, e, .file hg h⟩

theorem other_idOf (b : Bindings) (ns : Str) (w : Option RdfNode) (e : PyErr) (h : readIdOf b ns w = .error e) : ∃ s, e = .other s := by
  cases w with
  | none => cases h
  | some n => exact other_id b ns n e h

theorem snippet_ids {env : RdfEnv} {b : Bindings} {g : RdfGraph} {ns : Str} {n : RdfNode} {ms : List PMsg}
    (h : readSnippet env b g ns n = .error (.parsing ms)) : ∃ id file, readId b ns n = .ok id ∧ readIdOf b ns (someValue g n .snippetFromFile) = .ok file := by
  obtain ⟨id, hid, h⟩ := id_step h
  cases e : readIdOf b ns (someValue g n .snippetFromFile) with
  | error x =>
    change (readIdOf b ns (someValue g n .snippetFromFile) >>= _) = _ at h
    rw [e] at h
    cases h
    obtain ⟨_, h⟩ := other_idOf _ _ _ _ e
    cases h
  | ok file => exact ⟨id, file, hid, rfl⟩

theorem about_snippet {env : RdfEnv} {b : Bindings} {g : RdfGraph} {ns : Str} {n : RdfNode} {ms : List PMsg}
    (h : readSnippet env b g ns n = .error (.parsing ms)) : ∃ m, ms = [m] ∧ aboutSnippet env g b ns n m := by
  obtain ⟨id, file, hid, hf⟩ := snippet_ids h
  exact ((says_snippet hid hf).about h).elim False.elim (·.2)

theorem about_annotation {b : Bindings} {g : RdfGraph} {ns : Str} {e : RdfNode × RdfNode} {ms : List PMsg}
    (h : readAnnotation b g ns e = .error (.parsing ms)) : ∃ m, ms = [m] ∧ aboutAnnotation g b ns e m := by
  obtain ⟨id, hid, _⟩ := id_step h
  exact ((says_annotation hid).about h).elim False.elim (·.2)

theorem about_relationship {b : Bindings} {g : RdfGraph} {ns : Str} {e : RdfNode × RdfNode} {ms : List PMsg}
    (h : readRelationship b g ns e = .error (.parsing ms)) : ∃ m, ms = [m] ∧ aboutRelationship g b ns e m := by
  obtain ⟨id, hid, _⟩ := id_step h
  exact ((says_relationship hid).about h).elim False.elim (·.2)

theorem about_extracted {g : RdfGraph} {ns : Str} {n : RdfNode} {ms : List PMsg} (h : readExtracted g ns n = .error (.parsing ms)) :
    ∃ m, ms = [m] ∧ aboutExtracted g ns n m := ((says_extracted g ns n).about h).elim False.elim (·.2)

theorem bind_ok {α β : Type} {x : P α} {k : α → P β} {ms : List PMsg} {c : β} (h : (x >>= k) = Except.ok (ms, c)) :
    ∃ ms1 a ms2, x = Except.ok (ms1, a) ∧ k a = Except.ok (ms2, c) ∧ ms = ms1 ++ ms2 := by
  change P.bind x k = _ at h
  unfold P.bind at h
  match x, h with
  | .error e, h => cases h
  | .ok (ms1, a), h =>
    dsimp only at h
    match e : k a with
    | .error e' => rw [e] at h; cases h
    | .ok (ms2, c') => rw [e] at h; cases h; exact ⟨ms1, a, ms2, rfl, e, rfl⟩

theorem bind_error {α β : Type} {x : P α} {k : α → P β} {e : PyErr} (h : (x >>= k) = Except.error e) :
    x = Except.error e ∨ ∃ ms1 a, x = Except.ok (ms1, a) ∧ k a = Except.error e := by
  change P.bind x k = _ at h
  unfold P.bind at h
  match x, h with
  | .error e, h => cases h; exact .inl rfl
  | .ok (ms1, a), h =>
    dsimp only at h
    match e : k a with
    | .error e' => rw [e] at h; cases h; exact .inr ⟨ms1, a, rfl, e⟩
    | .ok (ms2, c') => rw [e] at h; cases h

/-- No parsing error is raised. -/
def Caught {α : Type} (x : P α) : Prop := ∀ ms, x ≠ Except.error (.parsing ms)

theorem caught_bind {α β : Type} {x : P α} {k : α → P β} (h : Caught x) (hk : ∀ a, Caught (k a)) : Caught (x >>= k) := by
  intro ms e
  rcases bind_error e with e | ⟨_, a, _, e⟩
  · exact h ms e
  · exact hk a ms e

theorem caught_part {α : Type} (x : Py α) : Caught (part x) := by
  intro ms e
  unfold part at e
  match x, e with
  | .ok a, e => cases e
  | .error (.parsing l), e => cases e
  | .error (.type l), e => cases e
  | .error (.value l), e => cases e
  | .error (.other l), e => cases e

theorem caught_all {ν α : Type} (m : ν → Py α) : ∀ l, Caught (readAll m l)
  | [] => fun _ e => nomatch e
  | _ :: l => caught_bind (caught_part _) fun _ => caught_bind (caught_all m l) fun _ => fun _ e => nomatch e

theorem caught_implicits (b : Bindings) (ns : Str) (t : RelationshipType) : ∀ l rels, Caught (readImplicits b ns t rels l)
  | [], _ => fun _ e => nomatch e
  | _ :: l, _ => caught_bind (caught_part _) fun _ => caught_implicits b ns t l _

theorem part_ok {ν α : Type} {m : ν → Py α} {About : ν → PMsg → Prop} {n : ν} (h : ∀ ms, m n = .error (.parsing ms) → ∃ x, ms = [x] ∧ About n x) {ms : List PMsg}
    {o : Option α} (e : part (m n) = Except.ok (ms, o)) : ((∃ a, m n = .ok a) ∧ ms = []) ∨ (¬ ∃ a, m n = .ok a) ∧ ∃ x, ms = [x] ∧ About n x := by
  unfold part at e
  match hx : m n with
  | .ok a => rw [hx] at e; cases e; exact .inl ⟨⟨a, rfl⟩, rfl⟩
  | .error (.parsing l) => rw [hx] at e; cases e; exact .inr ⟨fun ⟨_, h⟩ => (nomatch h), h _ hx⟩
  | .error (.type l) => rw [hx] at e; cases e
  | .error (.value l) => rw [hx] at e; cases e
  | .error (.other l) => rw [hx] at e; cases e

theorem reported_part {ν α : Type} {m : ν → Py α} {Read : ν → Prop} {About : ν → PMsg → Prop} {n : ν} {l : List ν} {ms ms' : List PMsg} {o : Option α}
    (h : ∀ ms, m n = .error (.parsing ms) → ∃ x, ms = [x] ∧ About n x) (hr : (∃ a, m n = .ok a) ↔ Read n) (e : part (m n) = Except.ok (ms, o))
    (hl : Reported Read About l ms') : Reported Read About (n :: l) (ms ++ ms') := by
  rcases part_ok h e with ⟨h1, rfl⟩ | ⟨h1, x, rfl, h2⟩
  · exact .read (hr.1 h1) hl
  · exact .unread (fun h => h1 (hr.2 h)) h2 hl

theorem reported_all {ν α : Type} {m : ν → Py α} {Read : ν → Prop} {About : ν → PMsg → Prop} (h : ∀ n ms, m n = .error (.parsing ms) → ∃ x, ms = [x] ∧ About n x)
    (hr : ∀ n, (∃ a, m n = .ok a) ↔ Read n) : ∀ l ms as, readAll m l = Except.ok (ms, as) → Reported Read About l ms
  | [], _, _, e => by cases e; exact .nil
  | n :: l, ms, as, e => by
    obtain ⟨ms1, o, ms2, h1, h2, rfl⟩ := bind_ok e
    obtain ⟨ms3, as', ms4, h3, h4, rfl⟩ := bind_ok h2
    cases h4
    rw [List.append_nil]
    exact reported_part (h n) (hr n) h1 (reported_all h hr l ms3 as' h3)

theorem reported_implicits {b : Bindings} {ns : Str} {t : RelationshipType} {Read : RdfNode × RdfNode → Prop} {About : RdfNode × RdfNode → PMsg → Prop}
    (h : ∀ n ms, readImplicit b ns t n = .error (.parsing ms) → ∃ x, ms = [x] ∧ About n x) (hr : ∀ n, (∃ a, readImplicit b ns t n = .ok a) ↔ Read n) :
    ∀ l rels ms as, readImplicits b ns t rels l = Except.ok (ms, as) → Reported Read About l ms
  | [], _, _, _, e => by cases e; exact .nil
  | n :: l, rels, ms, as, e => by
    obtain ⟨ms1, o, ms2, h1, h2, rfl⟩ := bind_ok e
    exact reported_part (h n) (hr n) h1 (reported_implicits h hr l _ ms2 as h2)

theorem read_iff {ν α : Type} {m : ν → Py α} {m' : ν → Option α} {Is : ν → α → Prop} (hA : Agree m m') (hi : ∀ n a, m' n = some a ↔ Is n a) (n : ν) :
    (∃ a, m n = .ok a) ↔ ∃ x, Is n x := exists_congr fun a => by rw [← val_ok, hA.val, hi]

theorem messages {env : RdfEnv} {b b' : Bindings} {g : RdfGraph} {info : CreationInfo} (hc : readCreationInfo env b g = .ok (info, b')) {ms : List PMsg}
    (h : readRdf env b g = .error (.parsing ms)) : Messages env b' g info.documentNamespace ms := by
  unfold readRdf at h
  rw [hc] at h
  change (P.orRaise _ >>= _) = _ at h
  simp only [← RdfSays.nodes_eq, ← RdfSays.related_eq] at h
  generalize hb : (readAll (readPackage env b' g info.documentNamespace) _ >>= _ : P _) = body at h
  match body, h with
  | .error e, h =>
    cases h
    refine absurd hb (caught_bind (caught_all _ _) (fun _ => caught_bind (caught_all _ _) fun _ => caught_bind (caught_all _ _) fun _ => caught_bind (caught_all _ _) fun _ =>
      caught_bind (caught_all _ _) fun _ => caught_bind (caught_implicits _ _ _ _ _) fun _ => caught_bind (caught_implicits _ _ _ _ _) fun _ =>
      caught_bind (caught_all _ _) fun _ => fun _ e => by cases e) ms)
  | .ok ([], _), h => cases h
  | .ok (m :: ms', _), h =>
    cases h
    obtain ⟨p, _, m1, hp, h1, e1⟩ := bind_ok hb
    obtain ⟨f, _, m2, hf, h2, e2⟩ := bind_ok h1
    obtain ⟨s, _, m3, hs, h3, e3⟩ := bind_ok h2
    obtain ⟨a, _, m4, ha, h4, e4⟩ := bind_ok h3
    obtain ⟨r, _, m5, hr, h5, e5⟩ := bind_ok h4
    obtain ⟨c, _, m6, hc, h6, e6⟩ := bind_ok h5
    obtain ⟨d, _, m7, hd, h7, e7⟩ := bind_ok h6
    obtain ⟨x, _, m8, hx, h8, e8⟩ := bind_ok h7
    cases h8
    refine ⟨p, f, s, a, r, c, d, x, ?_, ?_, ?_, ?_, ?_, ?_, ?_, ?_, ?_⟩
    · simp only [e1, e2, e3, e4, e5, e6, e7, e8, List.append_assoc, List.append_nil]
    · exact reported_all (fun _ _ => about_package) (read_iff (agree_package _ _ _ _) (RdfSays.package_iff _ _ _ _)) _ _ _ hp
    · exact reported_all (fun _ _ => about_file) (read_iff (agree_file _ _ _ _) (RdfSays.file_iff _ _ _ _)) _ _ _ hf
    · exact reported_all (fun _ _ => about_snippet) (read_iff (agree_snippet _ _ _ _) (RdfSays.snippet_iff _ _ _ _)) _ _ _ hs
    · exact reported_all (fun _ _ => about_annotation) (read_iff (agree_annotation _ _ _) (RdfSays.annotation_iff _ _ _)) _ _ _ ha
    · exact reported_all (fun _ _ => about_relationship) (read_iff (agree_relationship _ _ _) (RdfSays.relationship_iff _ _ _)) _ _ _ hr
    · exact reported_implicits (fun _ _ => about_implicit) (read_iff (agree_implicit _ _ _) (RdfSays.implicit_iff _ _ _)) _ _ _ _ hc
    · exact reported_implicits (fun _ _ => about_implicit) (read_iff (agree_implicit _ _ _) (RdfSays.implicit_iff _ _ _)) _ _ _ _ hd
    · exact reported_all (m := fun e : RdfNode × RdfNode => readExtracted g info.documentNamespace e.2) (fun _ _ h => about_extracted h)
        (fun e : RdfNode × RdfNode => read_iff (m := readExtracted g info.documentNamespace) (Is := IsExtracted g info.documentNamespace) (agree_extracted _ _) (RdfSays.extracted_iff _ _) e.2) _ _ _ hx

end Spdx.RdfSaying
