import Verif.Spec.RdfRead
/-
The RDF reader gives a result exactly if the graph says so (`Spec.RdfSays`).
-/
namespace Spdx.RdfSays
open Spdx Spec.RdfSays

/-! ### Lists -/

private theorem filterMap_ite {α β : Type} (P : α → Prop) [DecidablePred P] (f : α → β) (l : List α) :
    l.filterMap (fun t => if P t then some (f t) else none) = (l.filter fun t => P t).map f := by
  induction l with
  | nil => rfl
  | cons t l ih =>
    by_cases h : P t
    · rw [List.filterMap_cons, if_pos h, ih, List.filter_cons_of_pos (by simpa using h)]; rfl
    · rw [List.filterMap_cons, if_neg h, ih, List.filter_cons_of_neg (by simpa using h)]

theorem values_eq (g : RdfGraph) (n : RdfNode) (p : Pred) : values g n p = g.objects n p := filterMap_ite _ _ _
theorem nodes_eq (g : RdfGraph) (cls : Str) : nodes g cls = g.subjects .type (spdxTerm cls) := filterMap_ite _ _ _
theorem related_eq (g : RdfGraph) (p : Pred) : related g p = g.pairs p := filterMap_ite _ _ _

theorem all2_mapM {α β : Type} {R : α → β → Prop} {f : α → Option β} (h : ∀ a b, f a = some b ↔ R a b) :
    ∀ (l : List α) (m : List β), l.mapM f = some m ↔ All2 R l m
  | [], m => by
    rw [List.mapM_nil]
    exact ⟨fun e => by cases e; exact .nil, fun e => by cases e; rfl⟩
  | a :: l, m => by
    rw [List.mapM_cons]
    simp only [Option.bind_eq_bind, Option.bind_eq_some_iff, Option.pure_def, Option.some.injEq]
    constructor
    · rintro ⟨b, hb, m', hm, rfl⟩; exact .cons ((h a b).1 hb) ((all2_mapM h l m').1 hm)
    · intro e
      cases e with
      | cons hb hm => exact ⟨_, (h _ _).2 hb, _, (all2_mapM h l _).2 hm, rfl⟩

/-! ### Single values -/

theorem truthy_iff (v : RdfNode) : v.truthy = false ↔ Blank v := by
  cases v with
  | uri s => cases s <;> simp [RdfNode.truthy, Blank]
  | str s => cases s <;> simp [RdfNode.truthy, Blank]
  | bnode p => simp [RdfNode.truthy, Blank]
  | bool b => simp [RdfNode.truthy, Blank]
  | int i => simp [RdfNode.truthy, Blank]

theorem one_iff {α : Type} {R : RdfNode → α → Prop} {f : RdfNode → Option α} (h : ∀ v y, f v = some y ↔ R v y) (g : RdfGraph) (n : RdfNode)
    (p : Pred) (x : Option α) : rdfLiteral g n p f = some x ↔ Optional (values g n p) R x := by
  rw [values_eq]
  unfold rdfLiteral uniqueValue Optional applyMethod
  match g.objects n p with
  | [] => simp [eq_comm]
  | [v] =>
    simp only [← truthy_iff]
    cases hv : v.truthy with
    | false =>
      rw [if_neg (by decide)]
      constructor
      · intro e; cases e; exact .inr ⟨v, rfl, .inl ⟨hv, rfl⟩⟩
      · rintro (⟨c, _⟩ | ⟨w, hw, ⟨_, rfl⟩ | ⟨c, _⟩⟩)
        · cases c
        · rfl
        · cases hw; exact absurd hv c
    | true =>
      cases hf : f v with
      | none =>
        have : ∀ y, ¬ R v y := fun y hy => by rw [(h v y).2 hy] at hf; cases hf
        simp [hv, this]
      | some y =>
        simp only [if_true]
        constructor
        · intro e; cases e; exact .inr ⟨v, rfl, .inr ⟨by simp [hv], y, (h v y).1 hf, rfl⟩⟩
        · rintro (⟨c, _⟩ | ⟨w, hw, ⟨c, _⟩ | ⟨_, z, hz, rfl⟩⟩)
          · cases c
          · cases hw; rw [hv] at c; cases c
          · cases hw; rw [(h v z).2 hz] at hf; cases hf; rfl
  | a :: b :: l => simp

theorem needed_iff {α : Type} (o : Option (Option α)) (y : α) : needed o = some y ↔ o = some (some y) := by
  unfold needed; cases o <;> simp

theorem toPyStr_iff (v : RdfNode) (s : Str) : v.toPyStr = some s ↔ Raw v s := by
  cases v <;> simp [RdfNode.toPyStr, Raw, RdfNode.text, eq_comm]

private theorem blank_ne (q : List Nat) (s : Str) (h : ∀ c ∈ s.head?, c ≠ 'a' ∧ c ≠ 'b') (hs : s ≠ []) : blankName q ≠ 'N' :: s := by
  intro e
  obtain ⟨_, e⟩ := List.cons.inj e
  cases q with
  | nil => exact hs e.symm
  | cons n q =>
    rw [← e] at h
    cases n with
    | zero => exact (h 'b' (by simp)).2 rfl
    | succ n => exact (h 'a' (by simp [List.replicate_succ])).1 rfl

private theorem term_iff (v : RdfNode) (t u : Str) (h : ∀ q, blankName q ≠ u) :
    (v = .uri t ∨ v.toPyStr = some u) ↔ (v = .uri t ∨ v = .uri u ∨ v = .str u) := by
  cases v <;> simp [RdfNode.toPyStr, RdfNode.text, h]

theorem noAssertion_iff (v : RdfNode) : (v = spdxTerm s%"noassertion" ∨ v.toPyStr = some s%"NOASSERTION") ↔ NoAssertion v :=
  term_iff v s%"http://spdx.org/rdf/terms#noassertion" s%"NOASSERTION" fun q => blank_ne q s%"OASSERTION" (by decide) (by decide)

theorem none_iff (v : RdfNode) : (v = spdxTerm s%"none" ∨ v.toPyStr = some s%"NONE") ↔ IsNone v :=
  term_iff v s%"http://spdx.org/rdf/terms#none" s%"NONE" fun q => blank_ne q s%"ONE" (by decide) (by decide)

private theorem noAssertion_truthy {v : RdfNode} (h : NoAssertion v) : ¬ Blank v := by
  rintro (rfl | rfl | rfl | rfl) <;> rcases h with h | h | h <;> cases h
private theorem none_truthy {v : RdfNode} (h : IsNone v) : ¬ Blank v := by
  rintro (rfl | rfl | rfl | rfl) <;> rcases h with h | h | h <;> cases h
private theorem none_not {v : RdfNode} (h : IsNone v) : ¬ NoAssertion v := by
  rcases h with rfl | rfl | rfl <;> (intro h; rcases h with h | h | h <;> revert h <;> decide)

theorem special_iff {α : Type} {R : RdfNode → Option α → Prop} {f : RdfNode → Option (Option α)} (h : ∀ v y, f v = some y ↔ R v y)
    (v : RdfNode) (x : Option (OrSpecial α)) : specialOr f v = some x ↔ Special R v x := by
  unfold specialOr
  by_cases hb : Blank v
  · rw [if_pos (by rw [(truthy_iff v).2 hb]; decide)]
    constructor
    · intro e; cases e; exact .blank hb
    · intro e
      cases e with
      | blank => rfl
      | noAssertion h => exact absurd hb (noAssertion_truthy h)
      | none h => exact absurd hb (none_truthy h)
      | value _ h => exact absurd hb h
  rw [if_neg (by rw [Bool.not_eq_true, truthy_iff]; exact hb)]
  by_cases hn : NoAssertion v
  · rw [if_pos ((noAssertion_iff v).2 hn)]
    constructor
    · intro e; cases e; exact .noAssertion hn
    · intro e
      cases e with
      | blank h => exact absurd h hb
      | noAssertion h => rfl
      | none h => exact absurd hn (none_not h)
      | value _ _ h => exact absurd hn h
  rw [if_neg (fun e => hn ((noAssertion_iff v).1 e))]
  by_cases hm : IsNone v
  · rw [if_pos ((none_iff v).2 hm)]
    constructor
    · intro e; cases e; exact .none hm
    · intro e
      cases e with
      | blank h => exact absurd h hb
      | noAssertion h => exact absurd h hn
      | none h => rfl
      | value _ _ _ h => exact absurd hm h
  rw [if_neg (fun e => hm ((none_iff v).1 e))]
  have key : ∀ o, R v o → f v = some o := fun o ho => (h v o).2 ho
  constructor
  · intro e
    split at e
    · cases e
    · next hf => cases e; exact .value none hb hn hm ((h _ _).1 hf)
    · next a hf => cases e; exact .value (some a) hb hn hm ((h _ _).1 hf)
  · intro e
    cases e with
    | blank h => exact absurd h hb
    | noAssertion h => exact absurd h hn
    | none h => exact absurd h hm
    | value o _ _ _ ho => rw [key o ho]; cases o <;> rfl

theorem oneSpecial_iff {α : Type} {R : RdfNode → Option α → Prop} {f : RdfNode → Option (Option α)} (h : ∀ v y, f v = some y ↔ R v y)
    (g : RdfGraph) (n : RdfNode) (p : Pred) (x : Option (OrSpecial α)) : rdfSpecial g n p f = some x ↔ OptionalSpecial (values g n p) R x := by
  rw [values_eq]
  unfold rdfSpecial uniqueValue OptionalSpecial
  match g.objects n p with
  | [] => simp [eq_comm]
  | [v] => simp [special_iff h]
  | a :: b :: l => simp

theorem noNone_iff {α : Type} (o : Option (Option (OrSpecial α))) (x : Option (OrNoAssertion α)) :
    noNone o = some x ↔ o = some (withNone x) := by
  rcases o with _ | _ | ⟨_⟩ | _ | _ <;> rcases x with _ | _ | _ <;> simp [noNone, withNone]

theorem actor_iff (s : Str) (a : Actor) : actorOf s = some a ↔ parseActor s = .ok a := by
  unfold actorOf; cases parseActor s <;> simp

theorem text_iff (v : RdfNode) (y : Str) : stripText v = some y ↔ Text v y := by simp [stripText, Text, eq_comm]
theorem textS_iff (v : RdfNode) (y : Option Str) : textSpecial v = some y ↔ TextS v y := by simp [textSpecial, TextS, eq_comm]
theorem actorS_iff (v : RdfNode) (y : Option Actor) : actorSpecial v = some y ↔ ActorS v y := by
  unfold actorSpecial ActorS
  rw [Option.map_eq_some_iff]
  exact ⟨fun ⟨a, h, e⟩ => ⟨a, (actor_iff _ _).1 h, e.symm⟩, fun ⟨a, h, e⟩ => ⟨a, (actor_iff _ _).2 h, e.symm⟩⟩
theorem isActor_iff (v : RdfNode) (y : Actor) : textMethod actorOf v = some y ↔ IsActor v y := actor_iff _ _
theorem date_iff (v : RdfNode) (y : DateTime) : textMethod datetimeFromStr v = some y ↔ Date v y := .rfl
theorem version_iff (v : RdfNode) (y : Spdx.Version) : textMethod versionFromString v = some y ↔ IsVersion v y := .rfl
theorem member_iff {α : Type} (f : Str → Option α) (pre : Str) (v : RdfNode) (y : α) : textMethod (enumFromRdf f pre) v = some y ↔ Member f pre v y := .rfl
theorem algorithm_iff (v : RdfNode) (y : ChecksumAlgorithm) : textMethod algorithmFromRdf v = some y ↔ Algorithm v y := .rfl
theorem dataLicense_iff (v : RdfNode) (y : Str) : textMethod (fun s => some (removePrefix s licenseNamespace)) v = some y ↔ DataLicense v y :=
  ⟨fun h => (Option.some.inj h).symm, fun h => congrArg some h.symm⟩

private theorem start_truthy {v : RdfNode} {ns : Str} (h : Blank v) : startsWith v.text (ns ++ s%"#") = false ∨ v = .bool false ∨ v = .int 0 := by
  rcases h with rfl | rfl | h | h
  · exact .inl (by cases ns <;> rfl)
  · exact .inl (by cases ns <;> rfl)
  · exact .inr (.inl h)
  · exact .inr (.inr h)

private theorem id_cases (b : Bindings) (ns : Str) (v : RdfNode) (hv : ∀ q, v ≠ .bnode q) : parseRdfId b ns v =
    if ¬ v.truthy then some none
    else if startsWith v.text (ns ++ s%"#") then
      match v with
      | .uri s => some (some (fragmentOf s))
      | _ => none
    else if '#' ∈ v.text then some (some (normalizeUri b v.text))
    else some (some v.text) := by
  cases v with
  | bnode q => exact absurd rfl (hv q)
  | _ => rfl

/-- The identifier of a node, or its absence. -/
theorem parseId_iff (b : Bindings) (ns : Str) (v : RdfNode) (o : Option Str) : parseRdfId b ns v = some o ↔ IdS b ns v o := by
  by_cases hq : ∃ q, v = .bnode q
  · obtain ⟨q, rfl⟩ := hq
    constructor
    · intro e; cases e; exact .inr ⟨.inl ⟨q, rfl⟩, rfl⟩
    · rintro (⟨id, h, _⟩ | ⟨_, rfl⟩)
      · cases h with
        | external _ h => exact absurd rfl (h q)
        | plain _ h => exact absurd rfl (h q)
      · rfl
  have hv : ∀ q, v ≠ .bnode q := fun q e => hq ⟨q, e⟩
  rw [id_cases b ns v hv]
  by_cases hb : Blank v
  · rw [if_pos (by rw [(truthy_iff v).2 hb]; decide)]
    constructor
    · intro e; cases e; exact .inr ⟨.inr hb, rfl⟩
    · rintro (⟨id, h, _⟩ | ⟨_, rfl⟩)
      · cases h with
        | internal u h =>
          rcases start_truthy (ns := ns) hb with h' | h' | h'
          · exact absurd (h.symm.trans h') (by decide)
          · cases h'
          · cases h'
        | external _ _ h => exact absurd hb h
        | plain _ _ h => exact absurd hb h
      · rfl
  rw [if_neg (by rw [Bool.not_eq_true, truthy_iff]; exact hb)]
  have no : ¬ (((∃ q, v = .bnode q) ∨ Blank v) ∧ o = none) := fun h => h.1.elim hq hb
  by_cases hs : startsWith v.text (ns ++ s%"#") = true
  · rw [if_pos hs]
    constructor
    · intro e
      cases v with
      | uri u => cases e; exact .inl ⟨_, .internal u hs, rfl⟩
      | _ => cases e
    · rintro (⟨id, h, rfl⟩ | h)
      · cases h with
        | internal u h => rfl
        | external _ _ _ h => exact absurd (hs.symm.trans h) (by decide)
        | plain _ _ _ h => exact absurd (hs.symm.trans h) (by decide)
      · exact absurd h no
  rw [if_neg hs]
  have hs' := Bool.eq_false_iff.2 hs
  by_cases hm : '#' ∈ v.text
  · rw [if_pos hm]
    constructor
    · intro e; cases e; exact .inl ⟨_, .external v hv hb hs' hm, rfl⟩
    · rintro (⟨id, h, rfl⟩ | h)
      · cases h with
        | internal u h => exact absurd h hs
        | external => rfl
        | plain _ _ _ _ h => exact absurd hm h
      · exact absurd h no
  · rw [if_neg hm]
    constructor
    · intro e; cases e; exact .inl ⟨_, .plain v hv hb hs' hm, rfl⟩
    · rintro (⟨id, h, rfl⟩ | h)
      · cases h with
        | internal u h => exact absurd h hs
        | external _ _ _ _ h => exact absurd h hm
        | plain => rfl
      · exact absurd h no

theorem id_iff {b : Bindings} {ns : Str} {v : RdfNode} {id : Str} : needed (parseRdfId b ns v) = some id ↔ Id b ns v id := by
  rw [needed_iff, parseId_iff]
  constructor
  · rintro (⟨_, h, e⟩ | ⟨_, h⟩)
    · cases e; exact h
    · cases h
  · intro h; exact .inl ⟨id, h, rfl⟩

theorem oneN_iff {α : Type} {R : RdfNode → α → Prop} {f : RdfNode → Option α} (h : ∀ v y, f v = some y ↔ R v y) {g : RdfGraph} {n : RdfNode}
    {p : Pred} {y : α} : needed (rdfLiteral g n p f) = some y ↔ Optional (values g n p) R (some y) := by
  rw [needed_iff, one_iff h]

theorem one {α : Type} {R : RdfNode → α → Prop} {f : RdfNode → Option α} (h : ∀ v y, f v = some y ↔ R v y) {g : RdfGraph} {n : RdfNode}
    {p : Pred} {y : Option α} : rdfLiteral g n p f = some y ↔ Optional (values g n p) R y := one_iff h ..

theorem spec {α : Type} {R : RdfNode → Option α → Prop} {f : RdfNode → Option (Option α)} (h : ∀ v y, f v = some y ↔ R v y) {g : RdfGraph}
    {n : RdfNode} {p : Pred} {y : Option (OrSpecial α)} : rdfSpecial g n p f = some y ↔ OptionalSpecial (values g n p) R y :=
  oneSpecial_iff h ..

theorem specN {α : Type} {R : RdfNode → Option α → Prop} {f : RdfNode → Option (Option α)} (h : ∀ v y, f v = some y ↔ R v y) {g : RdfGraph}
    {n : RdfNode} {p : Pred} {y : OrSpecial α} : needed (rdfSpecial g n p f) = some y ↔ OptionalSpecial (values g n p) R (some y) := by
  rw [needed_iff, oneSpecial_iff h]

theorem specA {α : Type} {R : RdfNode → Option α → Prop} {f : RdfNode → Option (Option α)} (h : ∀ v y, f v = some y ↔ R v y) {g : RdfGraph}
    {n : RdfNode} {p : Pred} {y : Option (OrNoAssertion α)} :
    noNone (rdfSpecial g n p f) = some y ↔ OptionalSpecial (values g n p) R (withNone y) := by
  rw [noNone_iff, oneSpecial_iff h]

theorem many {α : Type} {R : RdfNode → α → Prop} {f : RdfNode → Option α} (h : ∀ v y, f v = some y ↔ R v y) {g : RdfGraph} {n : RdfNode}
    {p : Pred} {l : List α} : (g.objects n p).mapM f = some l ↔ All2 R (values g n p) l := by
  rw [values_eq]; exact all2_mapM h ..

theorem texts {g : RdfGraph} {n : RdfNode} {p : Pred} {l : List Str} : rdfTexts g n p = some l ↔ All2 Raw (values g n p) l := many toPyStr_iff

/-! ### Licenses -/

private theorem removePrefix_iff {t pre s : Str} : (startsWith t pre = true ∧ removePrefix t pre = s) ↔ t = pre ++ s := by
  unfold removePrefix startsWith
  constructor
  · rintro ⟨h, rfl⟩
    rw [if_pos h]
    obtain ⟨r, rfl⟩ := List.isPrefixOf_iff_prefix.1 h
    rw [List.drop_left]
  · rintro rfl
    have h : pre.isPrefixOf (pre ++ s) = true := List.isPrefixOf_iff_prefix.2 ⟨s, rfl⟩
    exact ⟨h, by rw [if_pos h, List.drop_left]⟩

private theorem mem_pair {α : Type} {a b c : α} : a ∈ [b, c] ↔ a = b ∨ a = c := by simp

private theorem pyStr_iff (v : RdfNode) (s : Str) : v.pyStr = s ↔ Shown v s := by
  unfold Shown
  cases v with
  | bool b => cases b <;> simp [RdfNode.pyStr, eq_comm]
  | _ => simp [RdfNode.pyStr, eq_comm]

theorem exception_iff (g : RdfGraph) (v : RdfNode) (s : Str) : parseException g v = some s ↔ IsException g v s := by
  unfold parseException IsException someValue
  by_cases h : startsWith v.text licenseNamespace = true
  · rw [if_pos h]
    constructor
    · intro e; exact .inl (removePrefix_iff.1 ⟨h, Option.some.inj e⟩)
    · rintro (e | ⟨e, _⟩)
      · exact congrArg some (removePrefix_iff.2 e).2
      · exact absurd (h.symm.trans e) (by decide)
  · rw [if_neg h, Option.map_eq_some_iff, ← values_eq]
    constructor
    · rintro ⟨w, hw, e⟩; exact .inr ⟨Bool.eq_false_iff.2 h, w, hw, (pyStr_iff _ _).1 e⟩
    · rintro (e | ⟨_, w, hw, e⟩)
      · exact absurd (removePrefix_iff.2 e).1 h
      · exact ⟨w, hw, (pyStr_iff _ _).2 e⟩

theorem licStr_eq (env : RdfEnv) : licStr env = licText env := by funext o; cases o <;> rfl

theorem license_iff (env : RdfEnv) (g : RdfGraph) (ns : Str) : ∀ (k : Nat) (v : RdfNode) (o : Option LicExpr),
    parseRdfLic env g ns k v = some o ↔ License env g ns k v o
  | 0, v, o => by rw [parseRdfLic.eq_def]; exact ⟨fun h => (by cases h), fun h => False.elim h⟩
  | k + 1, v, o => by
    have ih := license_iff env g ns k
    rw [parseRdfLic.eq_def]
    show _ ↔ LicenseNode env g ns (License env g ns k) v o
    dsimp only
    by_cases hl : startsWith v.text licenseNamespace = true
    · rw [if_pos hl]
      constructor
      · intro e; exact .listed _ (removePrefix_iff.1 ⟨hl, rfl⟩) e
      · intro e
        have no : ¬ startsWith v.text licenseNamespace = false := fun h => absurd (hl.symm.trans h) (by decide)
        cases e with
        | listed s h e => exact (congrArg env.lic.parse (removePrefix_iff (pre := licenseNamespace).2 h).2).trans e
        | extracted u hu h => subst hu; exact absurd h no
        | set _ _ _ h => exact absurd h no
        | withException _ _ _ _ h => exact absurd h no
        | other h => exact absurd h no
    rw [if_neg hl]
    have hl' := Bool.eq_false_iff.2 hl
    by_cases hn : startsWith v.text ns = true
    · rw [if_pos hn]
      have no : ¬ startsWith v.text ns = false := fun h => absurd (hn.symm.trans h) (by decide)
      constructor
      · intro e
        cases v with
        | uri u => exact .extracted u rfl hl' hn e
        | _ => cases e
      · intro e
        cases e with
        | listed s h e => exact absurd (removePrefix_iff.2 h).1 hl
        | extracted u hu _ _ e => subst hu; exact e
        | set _ _ _ _ h => exact absurd h no
        | withException _ _ _ _ _ h => exact absurd h no
        | other _ h => exact absurd h no
    rw [if_neg hn]
    have hn' := Bool.eq_false_iff.2 hn
    have noL : ∀ s, v.text ≠ s%"http://spdx.org/licenses/" ++ s := fun s h => hl (removePrefix_iff.2 h).1
    unfold someValue
    simp only [← values_eq]
    have hM : ∀ m, (values g v .member).mapM (parseRdfLic env g ns k) = some m ↔ All2 (License env g ns k) (values g v .member) m :=
      all2_mapM ih _
    have hC : ∀ cls, HasClass g v cls ↔ (values g v .type).head? = some (spdxTerm cls) := fun _ => .rfl
    generalize (values g v .type).head? = ty at hC ⊢
    have noE : ∀ u, v = .uri u → ¬ startsWith u ns = true := fun u hu => by subst hu; exact hn
    match ty, hC with
    | none, hC =>
      have no : ∀ {cls}, ¬ HasClass g v cls := fun {cls} h => nomatch (hC cls).1 h
      constructor
      · intro e; exact .other hl' hn' (fun cls _ => no) e
      · intro e
        cases e with
        | listed s h _ => exact absurd h (noL s)
        | extracted u hu _ h => exact absurd h (noE u hu)
        | set _ _ _ _ _ _ h => exact absurd h no
        | withException _ _ _ _ _ _ h => exact absurd h no
        | other _ _ _ e => exact e
    | some t, hC =>
      have only : ∀ {c d}, spdxTerm c = t → spdxTerm c ≠ spdxTerm d → ¬ HasClass g v d :=
        fun {c d} hc hd h => hd (hc.trans (Option.some.inj ((hC d).1 h)))
      have is : ∀ {c}, t = spdxTerm c → HasClass g v c := fun {c} h => (hC c).2 (congrArg some h)
      dsimp only
      by_cases h1 : t = spdxTerm s%"ConjunctiveLicenseSet"
      · rw [if_pos h1]
        simp only [Option.bind_eq_bind, Option.bind_eq_some_iff, hM, licStr_eq]
        constructor
        · rintro ⟨ms, hm, e⟩; exact .set _ _ ms hl' hn' (.head _) (is h1) hm e
        · intro e
          cases e with
          | listed s h _ => exact absurd h (noL s)
          | extracted u hu _ h => exact absurd h (noE u hu)
          | set cls sep ms _ _ hm hc ha e =>
            rcases mem_pair.1 hm with h | h
            · cases h; exact ⟨ms, ha, e⟩
            · cases h; exact absurd hc (only h1.symm (by decide))
          | withException _ _ _ _ _ _ h => exact absurd h (only h1.symm (by decide))
          | other _ _ h e => exact absurd (is h1) (h _ (.head _))
      rw [if_neg h1]
      by_cases h2 : t = spdxTerm s%"DisjunctiveLicenseSet"
      · rw [if_pos h2]
        simp only [Option.bind_eq_bind, Option.bind_eq_some_iff, hM, licStr_eq]
        constructor
        · rintro ⟨ms, hm, e⟩; exact .set _ _ ms hl' hn' (.tail _ (.head _)) (is h2) hm e
        · intro e
          cases e with
          | listed s h _ => exact absurd h (noL s)
          | extracted u hu _ h => exact absurd h (noE u hu)
          | set cls sep ms _ _ hm hc ha e =>
            rcases mem_pair.1 hm with h | h
            · cases h; exact absurd hc (only h2.symm (by decide))
            · cases h; exact ⟨ms, ha, e⟩
          | withException _ _ _ _ _ _ h => exact absurd h (only h2.symm (by decide))
          | other _ _ h e => exact absurd (is h2) (h _ (.tail _ (.head _)))
      rw [if_neg h2]
      by_cases h3 : t = spdxTerm s%"WithExceptionOperator"
      · rw [if_pos h3]
        simp only [Option.bind_eq_bind, Option.bind_eq_some_iff, ih, exception_iff, licStr_eq]
        constructor
        · rintro ⟨m, hm, l, hl2, x, hx, s, hs, e⟩; exact .withException m x l s hl' hn' (is h3) hm hl2 hx hs e
        · intro e
          cases e with
          | listed s h _ => exact absurd h (noL s)
          | extracted u hu _ h => exact absurd h (noE u hu)
          | set cls sep ms _ _ hm hc ha e =>
            rcases mem_pair.1 hm with h | h
            · cases h; exact absurd hc (only h3.symm (by decide))
            · cases h; exact absurd hc (only h3.symm (by decide))
          | withException m x l s _ _ _ hm hl2 hx hs e => exact ⟨m, hm, l, hl2, x, hx, s, hs, e⟩
          | other _ _ h e => exact absurd (is h3) (h _ (.tail _ (.tail _ (.head _))))
      rw [if_neg h3]
      have no : ∀ cls ∈ [s%"ConjunctiveLicenseSet", s%"DisjunctiveLicenseSet", s%"WithExceptionOperator"], ¬ HasClass g v cls := by
        intro cls hm h
        have h := Option.some.inj ((hC cls).1 h)
        rcases List.mem_cons.1 hm with rfl | hm
        · exact h1 h
        rcases mem_pair.1 hm with rfl | rfl
        · exact h2 h
        · exact h3 h
      constructor
      · intro e; exact .other hl' hn' no e
      · intro e
        cases e with
        | listed s h _ => exact absurd h (noL s)
        | extracted u hu _ h => exact absurd h (noE u hu)
        | set cls sep ms _ _ hm hc ha e =>
          rcases mem_pair.1 hm with h | h
          · cases h; exact absurd hc (no _ (.head _))
          · cases h; exact absurd hc (no _ (.tail _ (.head _)))
        | withException _ _ _ _ _ _ h => exact absurd h (no _ (.tail _ (.tail _ (.head _))))
        | other _ _ _ e => exact e

theorem licM_iff (env : RdfEnv) (g : RdfGraph) (ns : Str) (v : RdfNode) (o : Option LicExpr) :
    licMethod env g ns v = some o ↔ License env g ns env.depth v o := license_iff ..

theorem licenses {env : RdfEnv} {g : RdfGraph} {ns : Str} {n : RdfNode} {p : Pred} {l : List (OrSpecial LicExpr)} :
    rdfLicenses env g ns n p = some l ↔ All2 (IsLicense env g ns) (values g n p) l :=
  many (R := IsLicense env g ns) fun v y => by rw [needed_iff, special_iff (licM_iff env g ns)]; rfl

/-! ### Elements -/

macro "steps" : tactic => `(tactic| simp only [Option.bind_eq_bind, Option.bind_eq_some_iff, Option.pure_def, Option.some.injEq])

theorem checksum_iff (g : RdfGraph) (n : RdfNode) (c : Checksum) :
    parseRdfChecksum g n = some c ↔ IsChecksum g n c := by
  unfold parseRdfChecksum
  steps
  constructor
  · rintro ⟨_, ha, _, hv, rfl⟩
    exact ⟨(oneN_iff algorithm_iff).1 ha, (oneN_iff text_iff).1 hv⟩
  · rintro ⟨ha, hv⟩
    exact ⟨_, (oneN_iff algorithm_iff).2 ha, _, (oneN_iff text_iff).2 hv, rfl⟩

theorem annotation_iff (b : Bindings) (g : RdfGraph) (ns : Str) (e : RdfNode × RdfNode) (a : Annotation) :
    parseRdfAnnotation b g ns e = some a ↔ IsAnnotation g b ns e a := by
  unfold parseRdfAnnotation
  steps
  constructor
  · rintro ⟨_, hi, _, ha, _, ht, _, hd, _, hc, rfl⟩
    exact ⟨id_iff.1 hi, (oneN_iff (member_iff _ _)).1 ht, (oneN_iff isActor_iff).1 ha, (oneN_iff date_iff).1 hd, (oneN_iff text_iff).1 hc⟩
  · rintro ⟨hi, ht, ha, hd, hc⟩
    exact ⟨_, id_iff.2 hi, _, (oneN_iff isActor_iff).2 ha, _, (oneN_iff (member_iff _ _)).2 ht, _, (oneN_iff date_iff).2 hd, _, (oneN_iff text_iff).2 hc, rfl⟩

theorem file_iff (env : RdfEnv) (b : Bindings) (g : RdfGraph) (ns : Str) (n : RdfNode) (f : File) :
    parseRdfFile env b g ns n = some f ↔ IsFile env g b ns n f := by
  unfold parseRdfFile
  steps
  constructor
  · rintro ⟨_, h1, _, h2, _, h3, _, h4, _, h5, _, h6, _, h7, _, h8, _, h9, _, h10, _, h11, _, h12, rfl⟩
    exact ⟨(oneN_iff text_iff).1 h2, id_iff.1 h1, (many (checksum_iff g)).1 h3, (many (member_iff _ _)).1 h4, (spec (licM_iff env g ns)).1 h5, licenses.1 h6, (one text_iff).1 h7, (spec textS_iff).1 h8, (one text_iff).1 h11, (one text_iff).1 h10, texts.1 h9, texts.1 h12⟩
  · rintro ⟨h2, h1, h3, h4, h5, h6, h7, h8, h11, h10, h9, h12⟩
    exact ⟨_, id_iff.2 h1, _, (oneN_iff text_iff).2 h2, _, (many (checksum_iff g)).2 h3, _, (many (member_iff _ _)).2 h4, _, (spec (licM_iff env g ns)).2 h5, _, licenses.2 h6, _, (one text_iff).2 h7, _, (spec textS_iff).2 h8, _, texts.2 h9, _, (one text_iff).2 h10, _, (one text_iff).2 h11, _, texts.2 h12, rfl⟩

theorem code_iff (g : RdfGraph) (n : RdfNode) (c : PackageVerificationCode) :
    parseRdfVerificationCode g n = some c ↔ IsCode g n c := by
  unfold parseRdfVerificationCode
  steps
  constructor
  · rintro ⟨_, h1, _, h2, rfl⟩
    exact ⟨(oneN_iff text_iff).1 h1, texts.1 h2⟩
  · rintro ⟨h1, h2⟩
    exact ⟨_, (oneN_iff text_iff).2 h1, _, texts.2 h2, rfl⟩

theorem refType_iff (ns : Str) (v : RdfNode) (t : Str) : parseRefType ns v = some t ↔ RefType ns v t := by
  unfold parseRefType
  by_cases hn : startsWith v.text ns = true
  · rw [if_pos hn]
    constructor
    · intro e
      cases v with
      | uri u => cases e; exact .own u hn
      | _ => cases e
    · intro e
      cases e with
      | own u => rfl
      | listed _ h => exact absurd (hn.symm.trans h) (by decide)
      | other _ _ h => exact absurd (hn.symm.trans h) (by decide)
  rw [if_neg hn]
  have hn' := Bool.eq_false_iff.2 hn
  by_cases hr : startsWith v.text referenceNamespace = true
  · rw [if_pos hr]
    constructor
    · intro e; cases e; exact .listed v hn' hr
    · intro e
      cases e with
      | own u h => exact absurd h hn
      | listed => rfl
      | other _ _ _ h => exact absurd (hr.symm.trans h) (by decide)
  · rw [if_neg hr]
    constructor
    · intro e; exact .other v t hn' (Bool.eq_false_iff.2 hr) ((toPyStr_iff _ _).1 e)
    · intro e
      cases e with
      | own u h => exact absurd h hn
      | listed _ _ h => exact absurd h hr
      | other _ _ _ _ h => exact (toPyStr_iff _ _).2 h

theorem packageRef_iff (g : RdfGraph) (ns : Str) (n : RdfNode) (r : ExternalPackageRef) :
    parseRdfPackageRef g ns n = some r ↔ IsPackageRef g ns n r := by
  unfold parseRdfPackageRef
  steps
  constructor
  · rintro ⟨_, h1, _, h2, _, h3, _, h4, rfl⟩
    exact ⟨(oneN_iff (member_iff _ _)).1 h2, (oneN_iff (refType_iff ns)).1 h3, (oneN_iff text_iff).1 h1, (one text_iff).1 h4⟩
  · rintro ⟨h2, h3, h1, h4⟩
    exact ⟨_, (oneN_iff text_iff).2 h1, _, (oneN_iff (member_iff _ _)).2 h2, _, (oneN_iff (refType_iff ns)).2 h3, _, (one text_iff).2 h4, rfl⟩

theorem analyzed_iff (g : RdfGraph) (n : RdfNode) :
    (someValue g n .filesAnalyzed).elim true RdfNode.truthy = false ↔ ∃ v, (values g n .filesAnalyzed).head? = some v ∧ Blank v := by
  unfold someValue
  rw [← values_eq]
  cases (values g n .filesAnalyzed).head? with
  | none => exact ⟨fun h => (by cases h), fun ⟨_, h, _⟩ => (by cases h)⟩
  | some v => exact ⟨fun h => ⟨v, rfl, (truthy_iff v).1 h⟩, fun ⟨w, h, hb⟩ => by cases h; exact (truthy_iff v).2 hb⟩

private theorem eq_of_false_iff {a c : Bool} (h : a = false ↔ c = false) : a = c := by
  cases a <;> cases c <;> simp at h <;> rfl

theorem package_iff (env : RdfEnv) (b : Bindings) (g : RdfGraph) (ns : Str) (n : RdfNode) (p : Package) :
    parseRdfPackage env b g ns n = some p ↔ IsPackage env g b ns n p := by
  unfold parseRdfPackage
  steps
  constructor
  · rintro ⟨_, h1, _, h2, _, h3, _, h4, _, h5, _, h6, _, h7, _, h8, _, h9, _, h10, _, h11, _, h12, _, h13, _, h14, _, h15, _, h16, _, h17, _, h18, _, h19, _, h20, _, h21, _, h22, _, h23, _, h24, _, h25, rfl⟩
    exact ⟨id_iff.1 h1, (oneN_iff text_iff).1 h2, (specN textS_iff).1 h3, (one text_iff).1 h5, (one text_iff).1 h6, (specA actorS_iff).1 h7, (specA actorS_iff).1 h8, analyzed_iff g n, (one (code_iff g)).1 h9, (many (checksum_iff g)).1 h4, ⟨_, (one text_iff).1 h21, rfl⟩, (one text_iff).1 h19, (spec (licM_iff env g ns)).1 h11, licenses.1 h13, (spec (licM_iff env g ns)).1 h12, (one text_iff).1 h14, (spec textS_iff).1 h18, (one text_iff).1 h16, (one text_iff).1 h17, (one text_iff).1 h15, (many (packageRef_iff g ns)).1 h10, texts.1 h22, (one (member_iff _ _)).1 h20, (one date_iff).1 h23, (one date_iff).1 h24, (one date_iff).1 h25⟩
  · rintro ⟨h1, h2, h3, h5, h6, h7, h8, hA, h9, h4, ⟨_, h21, hH⟩, h19, h11, h13, h12, h14, h18, h16, h17, h15, h10, h22, h20, h23, h24, h25⟩
    have hA' := eq_of_false_iff (hA.trans (analyzed_iff g n).symm)
    exact ⟨_, id_iff.2 h1, _, (oneN_iff text_iff).2 h2, _, (specN textS_iff).2 h3, _, (many (checksum_iff g)).2 h4, _, (one text_iff).2 h5, _, (one text_iff).2 h6, _, (specA actorS_iff).2 h7, _, (specA actorS_iff).2 h8, _, (one (code_iff g)).2 h9, _, (many (packageRef_iff g ns)).2 h10, _, (spec (licM_iff env g ns)).2 h11, _, (spec (licM_iff env g ns)).2 h12, _, licenses.2 h13, _, (one text_iff).2 h14, _, (one text_iff).2 h15, _, (one text_iff).2 h16, _, (one text_iff).2 h17, _, (spec textS_iff).2 h18, _, (one text_iff).2 h19, _, (one (member_iff _ _)).2 h20, _, (one text_iff).2 h21, _, texts.2 h22, _, (one date_iff).2 h23, _, (one date_iff).2 h24, _, (one date_iff).2 h25, by rw [← hA', ← hH]⟩

theorem relationship_iff (b : Bindings) (g : RdfGraph) (ns : Str) (e : RdfNode × RdfNode) (r : Relationship) :
    parseRdfRelationship b g ns e = some r ↔ IsRelationship g b ns e r := by
  unfold parseRdfRelationship
  steps
  constructor
  · rintro ⟨_, h1, _, h2, _, h3, _, h4, rfl⟩
    exact ⟨id_iff.1 h1, (oneN_iff (member_iff _ _)).1 h2, (specN (parseId_iff b ns)).1 h3, (one text_iff).1 h4⟩
  · rintro ⟨h1, h2, h3, h4⟩
    exact ⟨_, id_iff.2 h1, _, (oneN_iff (member_iff _ _)).2 h2, _, (specN (parseId_iff b ns)).2 h3, _, (one text_iff).2 h4, rfl⟩

theorem implicit_iff (b : Bindings) (ns : Str) (type : RelationshipType) (e : RdfNode × RdfNode) (r : Relationship) :
    parseImplicit b ns type e = some r ↔ IsImplicit b ns type e r := by
  unfold parseImplicit
  steps
  constructor
  · rintro ⟨x, hx, y, hy, rfl⟩; exact ⟨x, y, id_iff.1 hx, id_iff.1 hy, rfl⟩
  · rintro ⟨x, y, hx, hy, rfl⟩; exact ⟨x, id_iff.2 hx, y, id_iff.2 hy, rfl⟩

theorem addImplicits_iff (b : Bindings) (ns : Str) (type : RelationshipType) : ∀ (l : List (RdfNode × RdfNode)) (rels out : List Relationship),
    l.foldlM (addImplicit b ns type) rels = some out ↔ ∃ new, All2 (IsImplicit b ns type) l new ∧ out = addNew rels new
  | [], rels, out => by
    rw [List.foldlM_nil]
    exact ⟨fun h => (by cases h; exact ⟨[], .nil, rfl⟩), fun ⟨new, h, e⟩ => (by cases h; rw [e]; rfl)⟩
  | e :: l, rels, out => by
    rw [List.foldlM_cons]
    unfold addImplicit
    steps
    constructor
    · rintro ⟨rels', ⟨r, hr, rfl⟩, h⟩
      obtain ⟨new, hn, rfl⟩ := (addImplicits_iff b ns type l _ out).1 h
      exact ⟨r :: new, .cons ((implicit_iff ..).1 hr) hn, rfl⟩
    · rintro ⟨new, hn, rfl⟩
      cases hn with
      | cons hr hn => exact ⟨_, ⟨_, (implicit_iff ..).2 hr, rfl⟩, (addImplicits_iff b ns type l _ _).2 ⟨_, hn, rfl⟩⟩

theorem addNew_append (l a c : List Relationship) : addNew (addNew l a) c = addNew l (a ++ c) := by
  unfold addNew; rw [List.foldl_append]

/-! ### Ranges and snippets -/

private theorem unique_iff {g : RdfGraph} {n q : RdfNode} {p : Pred} : needed (uniqueValue g n p) = some q ↔ values g n p = [q] := by
  rw [values_eq]
  unfold needed uniqueValue
  match g.objects n p with
  | [] => simp
  | [v] => simp
  | a :: b :: l => simp

theorem filter_truthy {o : Option RdfNode} {v : RdfNode} : o.filter RdfNode.truthy = some v ↔ o = some v ∧ ¬ Blank v := by
  rw [Option.filter_eq_some_iff, ← truthy_iff, Bool.not_eq_false]

theorem toInt_iff {v : RdfNode} {i : Int} : (if v.truthy then v.toInt else none) = some i ↔ Number v i := by
  constructor
  · intro h
    by_cases ht : v.truthy = true
    · rw [if_pos ht] at h
      cases v with
      | int j => cases h; exact .int _ (of_decide_eq_true ht)
      | bool b => cases b with
        | true => cases h; exact .true
        | false => cases ht
      | str s => exact .text _ _ (fun e => by subst e; cases ht) h
      | uri s => exact .uri _ _ (fun e => by subst e; cases ht) h
      | bnode _ => cases h
    · rw [if_neg ht] at h; cases h
  · intro h
    cases h with
    | int _ h0 => exact if_pos (decide_eq_true h0)
    | true => rfl
    | text s _ hs h => cases s with
      | nil => exact absurd rfl hs
      | cons c s => exact h
    | uri s _ hs h => cases s with
      | nil => exact absurd rfl hs
      | cons c s => exact h

private theorem rangeValue_iff {g : RdfGraph} {q : RdfNode} {i : Int} (kind : RangeKind) : parseRangeValue g q kind = some i ↔
    ∃ v, values g q (match kind with | .byte => .offset | .line => .lineNumber) = [v] ∧ Number v i := by
  rw [values_eq]
  unfold parseRangeValue
  constructor
  · intro h
    split at h
    · next v hv => exact ⟨v, hv, toInt_iff.1 h⟩
    · cases h
  · rintro ⟨v, hv, hn⟩
    cases kind <;> (dsimp only at hv ⊢; rw [hv]; exact toInt_iff.2 hn)

private theorem pointerOf_iff {g : RdfGraph} {n ty q : RdfNode} {p : Pred} : pointerOf g n p = some (ty, q) ↔
    values g n p = [q] ∧ ¬ Blank q ∧ (values g q .type).head? = some ty := by
  unfold pointerOf someValue
  steps
  simp only [filter_truthy, unique_iff, ← values_eq]
  constructor
  · rintro ⟨a, ⟨ha, hb⟩, t, ht, e⟩; cases e; exact ⟨ha, hb, ht⟩
  · rintro ⟨ha, hb, ht⟩; exact ⟨q, ⟨ha, hb⟩, ty, ht, rfl⟩

theorem range_iff (g : RdfGraph) (n : RdfNode) (r : RangeKind × (Int × Int)) : parseRdfRange g n = some r ↔ Spec.RdfSays.Range g n r := by
  unfold parseRdfRange
  steps
  constructor
  · rintro ⟨⟨ty, q⟩, hs, ⟨ty', q'⟩, he, h⟩
    rw [pointerOf_iff] at hs he
    by_cases hne : ty ≠ ty'
    · exact nomatch (if_pos hne).symm.trans h
    rw [if_neg hne] at h
    have hne := Classical.not_not.1 hne
    subst hne
    simp only [Option.bind_eq_some_iff, Option.some.injEq] at h
    obtain ⟨k, hk, a, ha, z, hz, rfl⟩ := h
    rw [rangeValue_iff] at ha hz
    unfold rangeKind at hk
    split at hk
    · next ht =>
      cases hk; subst ht
      exact ⟨⟨q, hs.1, hs.2.1, hs.2.2, ha⟩, ⟨q', he.1, he.2.1, he.2.2, hz⟩⟩
    · split at hk
      · next ht =>
        cases hk; subst ht
        exact ⟨⟨q, hs.1, hs.2.1, hs.2.2, ha⟩, ⟨q', he.1, he.2.1, he.2.2, hz⟩⟩
      · cases hk
  · obtain ⟨k, a, z⟩ := r
    cases k with
    | byte =>
      rintro ⟨⟨q, h1, b1, h2, ha⟩, ⟨q', h3, b2, h4, hz⟩⟩
      refine ⟨_, pointerOf_iff.2 ⟨h1, b1, h2⟩, _, pointerOf_iff.2 ⟨h3, b2, h4⟩, ?_⟩
      rw [if_neg (fun h => h rfl)]
      steps
      exact ⟨.byte, rfl, a, (rangeValue_iff .byte).2 ha, z, (rangeValue_iff .byte).2 hz, rfl⟩
    | line =>
      rintro ⟨⟨q, h1, b1, h2, ha⟩, ⟨q', h3, b2, h4, hz⟩⟩
      refine ⟨_, pointerOf_iff.2 ⟨h1, b1, h2⟩, _, pointerOf_iff.2 ⟨h3, b2, h4⟩, ?_⟩
      rw [if_neg (fun h => h rfl)]
      steps
      exact ⟨.line, by decide, a, (rangeValue_iff .line).2 ha, z, (rangeValue_iff .line).2 hz, rfl⟩

/-- the ranges of one kind -/
private def ofKind (k : RangeKind) (rs : List (RangeKind × (Int × Int))) := rs.filter fun r => r.1 = k

private theorem ranges_iff (g : RdfGraph) : ∀ (l : List RdfNode) (st out : Option (Int × Int) × Option (Int × Int)),
    parseRdfRanges g st l = some out ↔ ∃ rs, All2 (Spec.RdfSays.Range g) l rs ∧
      out.1.toList.map (fun r => (RangeKind.byte, r)) = st.1.toList.map (fun r => (RangeKind.byte, r)) ++ ofKind .byte rs ∧
      out.2.toList.map (fun r => (RangeKind.line, r)) = st.2.toList.map (fun r => (RangeKind.line, r)) ++ ofKind .line rs
  | [], st, out => by
    unfold parseRdfRanges
    constructor
    · intro h; cases h; exact ⟨[], .nil, by simp [ofKind], by simp [ofKind]⟩
    · rintro ⟨rs, h, h1, h2⟩
      cases h
      obtain ⟨a, b⟩ := st; obtain ⟨c, d⟩ := out
      cases a <;> cases b <;> cases c <;> cases d <;> simp [ofKind] at h1 h2 ⊢ <;> simp [h1, h2]
  | n :: l, st, out => by
    unfold parseRdfRanges
    steps
    simp only [range_iff]
    constructor
    · rintro ⟨r, hr, st', hst, h⟩
      obtain ⟨rs, ha, h1, h2⟩ := (ranges_iff g l st' out).1 h
      refine ⟨r :: rs, .cons hr ha, ?_⟩
      rw [h1, h2]
      obtain ⟨k, r⟩ := r
      obtain ⟨a, b⟩ := st
      cases k <;> cases a <;> cases b <;> simp only [setRdfRange] at hst <;> cases hst <;> simp [ofKind]
    · rintro ⟨rs, ha, h1, h2⟩
      cases ha with
      | cons hr ha =>
        rename_i r rs
        refine ⟨r, hr, ?_⟩
        obtain ⟨k, r⟩ := r
        obtain ⟨a, b⟩ := st
        have l1 : ∀ (o : Option (Int × Int)), (o.toList.map (fun r => (RangeKind.byte, r))).length ≤ 1 := fun o => by cases o <;> simp
        have l2 : ∀ (o : Option (Int × Int)), (o.toList.map (fun r => (RangeKind.line, r))).length ≤ 1 := fun o => by cases o <;> simp
        have m1 := l1 out.1
        have m2 := l2 out.2
        cases k with
        | byte =>
          cases a with
          | some x => rw [h1] at m1; simp [ofKind] at m1
          | none =>
            refine ⟨_, rfl, (ranges_iff g l _ out).2 ⟨rs, ha, ?_, ?_⟩⟩
            · rw [h1]; simp [ofKind]
            · rw [h2]; simp [ofKind]
        | line =>
          cases b with
          | some x => rw [h2] at m2; simp [ofKind] at m2
          | none =>
            refine ⟨_, rfl, (ranges_iff g l _ out).2 ⟨rs, ha, ?_, ?_⟩⟩
            · rw [h1]; simp [ofKind]
            · rw [h2]; simp [ofKind]

theorem snippet_iff (env : RdfEnv) (b : Bindings) (g : RdfGraph) (ns : Str) (n : RdfNode) (s : Snippet) :
    parseRdfSnippet env b g ns n = some s ↔ IsSnippet env g b ns n s := by
  unfold parseRdfSnippet
  steps
  constructor
  · rintro ⟨_, h1, f, hf, _, h2, ⟨bs, ls⟩, hr, x, hx, _, h5, _, h6, _, h7, _, h8, _, h9, _, h10, _, h11, rfl⟩
    obtain ⟨rs, ha, e1, e2⟩ := (ranges_iff g _ _ _).1 hr
    subst hx
    unfold someValue at hf
    rw [← values_eq] at hf ha
    exact ⟨id_iff.1 h1, ⟨f, hf, id_iff.1 h2⟩, ⟨rs, ha, e1.symm, e2.symm⟩, (spec (licM_iff env g ns)).1 h5, licenses.1 h6, (one text_iff).1 h7, (spec textS_iff).1 h8, (one text_iff).1 h9, (one text_iff).1 h10, texts.1 h11⟩
  · rintro ⟨h1, ⟨f, hf, h2⟩, ⟨rs, ha, e1, e2⟩, h5, h6, h7, h8, h9, h10, h11⟩
    rw [values_eq] at hf ha
    exact ⟨_, id_iff.2 h1, f, hf, _, id_iff.2 h2, (some s.byteRange, s.lineRange), (ranges_iff g _ _ _).2 ⟨rs, ha, e1.symm, e2.symm⟩, _, rfl,
      _, (spec (licM_iff env g ns)).2 h5, _, licenses.2 h6, _, (one text_iff).2 h7, _, (spec textS_iff).2 h8, _, (one text_iff).2 h9, _, (one text_iff).2 h10, _, texts.2 h11, rfl⟩

/-! ### Extracted licenses -/

private theorem nodeName_iff (ns : Str) (n : RdfNode) (id : Str) : extractedId.nodeName ns n = some id ↔
    ((∃ u, n = .uri u ∧ startsWith u (ns ++ s%"#") = true ∧ id = fragmentOf u) ∨ (startsWith n.text (ns ++ s%"#") = false ∧ Raw n id)) := by
  unfold extractedId.nodeName
  by_cases h : startsWith n.text (ns ++ s%"#") = true
  · rw [if_pos h]
    constructor
    · intro e
      cases n with
      | uri u => cases e; exact .inl ⟨u, rfl, h, rfl⟩
      | _ => cases e
    · rintro (⟨u, rfl, _, rfl⟩ | ⟨h', _⟩)
      · rfl
      · exact absurd (h.symm.trans h') (by decide)
  · rw [if_neg h]
    constructor
    · intro e; exact .inr ⟨Bool.eq_false_iff.2 h, (toPyStr_iff _ _).1 e⟩
    · rintro (⟨u, rfl, h', _⟩ | ⟨_, e⟩)
      · exact absurd h' h
      · exact (toPyStr_iff _ _).2 e

theorem extractedId_iff (ns : Str) (n : RdfNode) (o : Option Str) (id : Str) : extractedId ns n o = some id ↔
    ((o = some id ∧ id ≠ []) ∨ ((o = none ∨ o = some []) ∧ ((∃ u, n = .uri u ∧ startsWith u (ns ++ s%"#") = true ∧ id = fragmentOf u) ∨
      (startsWith n.text (ns ++ s%"#") = false ∧ Raw n id)))) := by
  rw [← nodeName_iff]
  cases o with
  | none => simp [extractedId]
  | some t =>
    show (if t = [] then extractedId.nodeName ns n else some t) = some id ↔ _
    by_cases ht : t = []
    · subst ht; simp
    · rw [if_neg ht]
      constructor
      · intro e; cases e; exact .inl ⟨rfl, ht⟩
      · rintro (⟨e, _⟩ | ⟨e | e, _⟩)
        · exact e
        · cases e
        · cases e; exact absurd rfl ht

theorem extracted_iff (g : RdfGraph) (ns : Str) (n : RdfNode) (e : ExtractedLicensingInfo) :
    parseRdfExtracted g ns n = some e ↔ IsExtracted g ns n e := by
  unfold parseRdfExtracted
  steps
  constructor
  · rintro ⟨o, ho, id, hi, _, h1, _, h2, _, h3, _, h4, rfl⟩
    exact ⟨⟨id, rfl, o, (one text_iff).1 ho, (extractedId_iff ns n o id).1 hi⟩, (one text_iff).1 h1, (one text_iff).1 h2, (specA textS_iff).1 h3,
      texts.1 h4⟩
  · rintro ⟨⟨id, hid, o, ho, hi⟩, h1, h2, h3, h4⟩
    exact ⟨o, (one text_iff).2 ho, id, (extractedId_iff ns n o id).2 hi, _, (one text_iff).2 h1, _, (one text_iff).2 h2, _, (specA textS_iff).2 h3,
      _, texts.2 h4, by rw [← hid]⟩

/-! ### Creation information -/

theorem extRef_iff (g : RdfGraph) (ns : Str) (b b' : Bindings) (n : RdfNode) (r : ExternalDocumentRef) :
    parseExtRef g ns b n = some (r, b') ↔ IsExternalRef g b ns n r ∧ b' = b.bind r.documentRefId (r.documentUri ++ s%"#") := by
  unfold parseExtRef
  steps
  constructor
  · rintro ⟨id, h1, _, h2, _, h3, e⟩
    by_cases hb : ' ' ∈ id
    · rw [if_pos hb] at e; cases e
    rw [if_neg hb] at e
    cases e
    exact ⟨⟨⟨id_iff.1 h1, hb⟩, (oneN_iff text_iff).1 h2, (oneN_iff (checksum_iff g)).1 h3⟩, rfl⟩
  · rintro ⟨⟨⟨h1, hb⟩, h2, h3⟩, rfl⟩
    exact ⟨_, id_iff.2 h1, _, (oneN_iff text_iff).2 h2, _, (oneN_iff (checksum_iff g)).2 h3, if_neg hb⟩

theorem extRefs_iff (g : RdfGraph) (ns : Str) : ∀ (l : List RdfNode) (b b' : Bindings) (rs : List ExternalDocumentRef),
    parseExtRefs g ns b l = some (rs, b') ↔ ExternalRefs g ns b l rs b'
  | [], b, b', rs => by
    unfold parseExtRefs
    exact ⟨fun h => (by cases h; exact .nil b), fun h => (by cases h; rfl)⟩
  | n :: l, b, b', rs => by
    unfold parseExtRefs
    steps
    constructor
    · rintro ⟨⟨r, b1⟩, h1, ⟨rs', b2⟩, h2, e⟩
      cases e
      obtain ⟨h1', rfl⟩ := (extRef_iff ..).1 h1
      exact .cons _ _ _ _ _ _ h1' ((extRefs_iff g ns l _ _ _).1 h2)
    · intro h
      cases h with
      | cons _ _ _ _ r rs h1 h2 => exact ⟨(r, _), (extRef_iff ..).2 ⟨h1, rfl⟩, (rs, b'), (extRefs_iff g ns l _ _ _).2 h2, rfl⟩

theorem document_iff (env : RdfEnv) (g : RdfGraph) (ns id : Str) (n : RdfNode) :
    parseNamespace env g = some (ns, id, n) ↔ IsDocument env g n ns id := by
  unfold parseNamespace
  constructor
  · intro h
    split at h
    · next m hm =>
      split at h
      · next h1 =>
        split at h
        · cases h
        · next h2 =>
          split at h
          · cases h
          · next h3 => cases h; exact ⟨(nodes_eq ..).trans hm, h1, ⟨rfl, h2⟩, rfl, h3⟩
      · cases h
    · cases h
  · rintro ⟨h1, h2, ⟨rfl, h3⟩, rfl, h4⟩
    rw [nodes_eq] at h1
    rw [h1]
    dsimp only
    rw [if_pos h2, if_neg h3, if_neg h4]

private theorem creator_iff (v : RdfNode) (a : Actor) : v.toPyStr.bind actorOf = some a ↔ ∃ s, Raw v s ∧ parseActor s = .ok a := by
  simp only [Option.bind_eq_some_iff, toPyStr_iff, actor_iff]

theorem info_iff (env : RdfEnv) (b b' : Bindings) (g : RdfGraph) (c : CreationInfo) :
    parseRdfCreationInfo env b g = some (c, b') ↔ ∃ doc i, IsInfo env g b c b' doc i := by
  unfold parseRdfCreationInfo
  steps
  constructor
  · rintro ⟨⟨ns, id, doc⟩, h0, _, h1, _, h2, _, h3, _, h4, i, h5, _, h6, _, h7, _, h8, cs, h9, h10⟩
    have hne : cs ≠ [] := fun h => nomatch (if_pos h).symm.trans h10
    rw [if_neg hne, Option.bind_eq_some_iff] at h10
    obtain ⟨⟨rs, b2⟩, h10, e⟩ := h10
    cases e
    rw [← nodes_eq, filter_truthy] at h5
    exact ⟨doc, i, (document_iff ..).1 h0, h5, (oneN_iff text_iff).1 h1, (oneN_iff dataLicense_iff).1 h2, (one text_iff).1 h3, (oneN_iff text_iff).1 h4,
      (oneN_iff date_iff).1 h6, (one version_iff).1 h7, (one text_iff).1 h8, ⟨(many creator_iff).1 h9, hne⟩,
      by rw [values_eq]; exact (extRefs_iff g _ _ _ _ _).1 h10⟩
  · rintro ⟨doc, i, h0, h5, h1, h2, h3, h4, h6, h7, h8, ⟨h9, hne⟩, h10⟩
    rw [nodes_eq, ← filter_truthy] at h5
    rw [values_eq] at h10
    exact ⟨(_, _, doc), (document_iff ..).2 h0, _, (oneN_iff text_iff).2 h1, _, (oneN_iff dataLicense_iff).2 h2, _, (one text_iff).2 h3, _,
      (oneN_iff text_iff).2 h4, i, h5, _, (oneN_iff date_iff).2 h6, _, (one version_iff).2 h7, _, (one text_iff).2 h8, _, (many creator_iff).2 h9,
      (if_neg hne).trans (Option.bind_eq_some_iff.2 ⟨(_, b'), (extRefs_iff g _ _ _ _ _).2 h10, rfl⟩)⟩

/-- Reading gives a document exactly if the graph says so. -/
theorem rdf_iff (env : RdfEnv) (b : Bindings) (g : RdfGraph) (d : Document) : parseRdf env b g = some d ↔ ∃ b' ns, IsRdf env b g d b' ns := by
  unfold parseRdf
  steps
  constructor
  · rintro ⟨⟨c, b'⟩, h0, _, h1, _, h2, _, h3, _, h4, r0, h5, r1, h6, r2, h7, _, h8, rfl⟩
    obtain ⟨ca, hca, rfl⟩ := (addImplicits_iff ..).1 h6
    obtain ⟨da, hda, rfl⟩ := (addImplicits_iff ..).1 h7
    rw [← nodes_eq] at h1 h2 h3
    rw [← related_eq] at h4 h5 h8 hca hda
    exact ⟨b', _, rfl, (info_iff ..).1 h0, (all2_mapM (package_iff env b' g _) _ _).1 h1, (all2_mapM (file_iff env b' g _) _ _).1 h2,
      (all2_mapM (snippet_iff env b' g _) _ _).1 h3, (all2_mapM (annotation_iff b' g _) _ _).1 h4,
      ⟨r0, ca, da, (all2_mapM (relationship_iff b' g _) _ _).1 h5, hca, hda, addNew_append ..⟩,
      (all2_mapM (fun e x => extracted_iff g _ e.2 x) _ _).1 h8⟩
  · rintro ⟨b', _, rfl, h0, h1, h2, h3, h4, ⟨r0, ca, da, h5, hca, hda, hr⟩, h8⟩
    rw [nodes_eq] at h1 h2 h3
    rw [related_eq] at h4 h5 h8 hca hda
    exact ⟨(_, b'), (info_iff ..).2 h0, _, (all2_mapM (package_iff env b' g _) _ _).2 h1, _, (all2_mapM (file_iff env b' g _) _ _).2 h2, _,
      (all2_mapM (snippet_iff env b' g _) _ _).2 h3, _, (all2_mapM (annotation_iff b' g _) _ _).2 h4, r0,
      (all2_mapM (relationship_iff b' g _) _ _).2 h5, _, (addImplicits_iff ..).2 ⟨ca, hca, rfl⟩, _, (addImplicits_iff ..).2 ⟨da, hda, rfl⟩, _,
      (all2_mapM (fun e x => extracted_iff g _ e.2 x) _ _).2 h8, by rw [addNew_append, ← hr]⟩

end Spdx.RdfSays
