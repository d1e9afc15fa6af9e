import Verif.Props.C64
import Mathlib.Data.List.TakeWhile
/-
C73 — The JSON-LD context made from any vocabulary.

C64 looks at the context that comes with the package.  It was made by a program, which is run again for every new version of the vocabulary:
here is what that program makes of any vocabulary.
-/
namespace Spdx.C73
open Spdx

/-! ### Specification -/

/-- The node describes a property. -/
def IsProperty (n : OwlNode) : Prop := n.types = .one s%"owl:DatatypeProperty" ∨ n.types = .one s%"owl:ObjectProperty"

instance (n : OwlNode) : Decidable (IsProperty n) := inferInstanceAs (Decidable (_ ∨ _))

/-- The node describes a class: it is of this type, or of several types none of which makes it a member of an enumeration. -/
def IsClass (n : OwlNode) : Prop :=
  match n.types with
  | .one t => t = s%"owl:Class"
  | .many l => l ≠ [] ∧ s%"owl:NamedIndividual" ∉ l
  | .missing => False

instance (n : OwlNode) : Decidable (IsClass n) := by unfold IsClass; split <;> infer_instance

/-- The properties, or classes, with a name. -/
def properties (g : List OwlNode) (k : Str) : List OwlNode := g.filter fun n => IsProperty n ∧ localName n.id = k
def classes (g : List OwlNode) (k : Str) : List OwlNode := g.filter fun n => IsClass n ∧ localName n.id = k

/-- What a property with this range is mapped to: the values of some are names of an enumeration's members, the values of others are
    identifiers, and the remaining ones are literals or objects of their class. -/
def property (n : OwlNode) (range : Str) : LdTerm :=
  if localName n.id = s%"profile" then .prop n.id s%"@vocab" profileContext
  else if localName n.id ∈ propertiesWithEnumRange then .prop n.id s%"@vocab" [(s%"@vocab", range ++ s%"/")]
  else if n.types = .one s%"owl:ObjectProperty" ∧ (range = s%"core:Element" ∨ range = s%"core:Agent") then .prop n.id s%"@id" []
  else .prop n.id range []

/-- The name of the node begins with the namespace that has precedence. -/
def InCore (n : OwlNode) : Bool := s%"core".isPrefixOf n.id

/-- The node that a name stands for: the last class with the name; if there is none, the first such property of the namespace `core`; if
    there is none either, the last such property. -/
def chosen (g : List OwlNode) (k : Str) : Option OwlNode :=
  (classes g k).getLast?.or (((properties g k).find? InCore).or (properties g k).getLast?)

/-- What a name is mapped to. -/
def entry (prefixes : Dict Str LdTerm) (g : List OwlNode) (k : Str) : Option LdTerm :=
  match chosen g k with
  | some n => if IsClass n then some (.simple n.id) else n.range.map (property n)
  | none => prefixes.get? k

/-- Every property has a range, and no class before it, nor a prefix, has its name. -/
def Orderly (prefixes : Dict Str LdTerm) (g : List OwlNode) : Prop :=
  ∀ pre n post, g = pre ++ n :: post → IsProperty n →
    n.range ≠ none ∧ classes pre (localName n.id) = [] ∧ prefixes.get? (localName n.id) = none

/-! ### Lemmas -/

private theorem not_both {n : OwlNode} (hp : IsProperty n) : ¬ IsClass n := by
  unfold IsClass
  rcases hp with h | h <;> rw [h] <;> decide

private theorem step_property (d : Dict Str LdTerm) {n : OwlNode} (h : IsProperty n) :
    contextStep d n = match n.range with
      | none => .error .range
      | some r => match d.get? (localName n.id) with
        | none => .ok (d.set (localName n.id) (property n r))
        | some (.simple _) => .error .index
        | some (.prop id _ _) => if s%"core".isPrefixOf id then .ok d else .ok (d.set (localName n.id) (property n r)) := by
  have key : ∀ t, n.types = .one t → (t = s%"owl:DatatypeProperty" ∨ t = s%"owl:ObjectProperty") → contextStep d n = contextProperty d n t := by
    intro t ht hh
    unfold contextStep
    rw [ht]
    rcases hh with rfl | rfl
    · rfl
    · rfl
  have add : ∀ t r, n.types = .one t →
      (if propertiesWithEnumRange.contains (localName n.id) then
        if localName n.id = s%"profile" then Except.ok (d.set (localName n.id) (.prop n.id s%"@vocab" profileContext))
        else .ok (d.set (localName n.id) (.prop n.id s%"@vocab" [(s%"@vocab", r ++ s%"/")]))
      else if t = s%"owl:ObjectProperty" ∧ referencePropertyTypes.contains r = true then .ok (d.set (localName n.id) (.prop n.id s%"@id" []))
      else (.ok (d.set (localName n.id) (.prop n.id r [])) : Except ContextError (Dict Str LdTerm))) = .ok (d.set (localName n.id) (property n r)) := by
    intro t r ht
    unfold property
    simp only [List.contains_iff_mem, ht, OwlType.one.injEq, referencePropertyTypes, List.mem_cons, List.not_mem_nil, or_false]
    by_cases h1 : localName n.id = s%"profile"
    · have : localName n.id ∈ propertiesWithEnumRange := by rw [h1]; decide
      rw [if_pos this, if_pos h1, if_pos h1]
    · rw [if_neg h1, if_neg h1]
      by_cases h2 : localName n.id ∈ propertiesWithEnumRange
      · rw [if_pos h2, if_pos h2]
      · rw [if_neg h2, if_neg h2]
        split <;> rfl
  have whole : ∀ t, n.types = .one t → contextProperty d n t = match n.range with
      | none => .error .range
      | some r => match d.get? (localName n.id) with
        | none => .ok (d.set (localName n.id) (property n r))
        | some (.simple _) => .error .index
        | some (.prop id _ _) => if s%"core".isPrefixOf id then .ok d else .ok (d.set (localName n.id) (property n r)) := by
    intro t ht
    unfold contextProperty
    cases n.range with
    | none => rfl
    | some r =>
      dsimp only
      rw [add t r ht]
      rcases d.get? (localName n.id) with _ | (_ | _) <;> rfl
  rcases h with h | h
  · rw [key _ h (.inl rfl), whole _ h]
  · rw [key _ h (.inr rfl), whole _ h]

private theorem step_class (d : Dict Str LdTerm) {n : OwlNode} (h : IsClass n) : contextStep d n = .ok (d.set (localName n.id) (.simple n.id)) := by
  unfold IsClass at h
  unfold contextStep
  cases ht : n.types with
  | missing => rw [ht] at h; exact h.elim
  | one t =>
    rw [ht] at h
    dsimp only at h
    subst h
    rfl
  | many l =>
    rw [ht] at h
    dsimp only at h ⊢
    rw [if_neg h.1, if_neg (by simpa [List.contains_iff_mem] using h.2)]

private theorem step_other (d : Dict Str LdTerm) {n : OwlNode} (hp : ¬ IsProperty n) (hc : ¬ IsClass n) : contextStep d n = .ok d := by
  unfold IsClass at hc
  unfold IsProperty at hp
  unfold contextStep
  cases ht : n.types with
  | missing => rfl
  | one t =>
    rw [ht] at hp hc
    dsimp only at hc ⊢
    simp only [OwlType.one.injEq] at hp
    rw [if_neg hp, if_neg hc]
    split <;> (try split) <;> rfl
  | many l =>
    rw [ht] at hc
    dsimp only at hc ⊢
    by_cases h1 : l = []
    · rw [if_pos h1]
    · rw [if_neg h1, if_pos]
      simp only [List.contains_iff_mem]
      exact Classical.byContradiction fun h => hc ⟨h1, h⟩

private theorem run_append (d : Dict Str LdTerm) (g : List OwlNode) (n : OwlNode) :
    owlToContext d (g ++ [n]) = (match owlToContext d g with | .ok d' => contextStep d' n | .error e => .error e) := by
  induction g generalizing d with
  | nil =>
    simp only [List.nil_append, owlToContext]
    cases contextStep d n <;> rfl
  | cons m g ih =>
    simp only [List.cons_append, owlToContext]
    cases contextStep d m with
    | ok d' => exact ih d'
    | error e => rfl

private theorem classes_append (g : List OwlNode) (n : OwlNode) (k : Str) :
    classes (g ++ [n]) k = classes g k ++ (if IsClass n ∧ localName n.id = k then [n] else []) := by
  unfold classes
  rw [List.filter_append]
  congr 1
  by_cases h : IsClass n ∧ localName n.id = k
  · rw [if_pos h]; simp [List.filter, h]
  · rw [if_neg h]; simp [List.filter, h]

private theorem properties_append (g : List OwlNode) (n : OwlNode) (k : Str) :
    properties (g ++ [n]) k = properties g k ++ (if IsProperty n ∧ localName n.id = k then [n] else []) := by
  unfold properties
  rw [List.filter_append]
  congr 1
  by_cases h : IsProperty n ∧ localName n.id = k
  · rw [if_pos h]; simp [List.filter, h]
  · rw [if_neg h]; simp [List.filter, h]

private theorem orderly_append (prefixes : Dict Str LdTerm) (g : List OwlNode) (n : OwlNode) : Orderly prefixes (g ++ [n]) ↔
    Orderly prefixes g ∧ (IsProperty n → n.range ≠ none ∧ classes g (localName n.id) = [] ∧ prefixes.get? (localName n.id) = none) := by
  constructor
  · intro h
    exact ⟨fun pre m post e hm => h pre m (post ++ [n]) (by rw [e]; simp) hm, fun hn => h g n [] rfl hn⟩
  · rintro ⟨h1, h2⟩ pre m post e hm
    rcases List.eq_nil_or_concat post with rfl | ⟨post', x, rfl⟩
    · have := List.append_inj' e rfl
      obtain ⟨rfl, e2⟩ := this
      cases e2
      exact h2 hm
    · have e' : g ++ [n] = (pre ++ m :: post') ++ [x] := by rw [e]; simp
      have := List.append_inj' e' rfl
      obtain ⟨rfl, _⟩ := this
      exact h1 pre m post' rfl hm

private theorem mem_properties {g : List OwlNode} {k : Str} {n : OwlNode} : n ∈ properties g k ↔ n ∈ g ∧ IsProperty n ∧ localName n.id = k := by
  simp [properties]

private theorem mem_classes {g : List OwlNode} {k : Str} {n : OwlNode} : n ∈ classes g k ↔ n ∈ g ∧ IsClass n ∧ localName n.id = k := by
  simp [classes]

private theorem property_id (n : OwlNode) (r : Str) : ∃ t own, property n r = .prop n.id t own := by
  unfold property
  repeat' split
  all_goals exact ⟨_, _, rfl⟩

private theorem snoc {P : List OwlNode → Prop} (h0 : P []) (h1 : ∀ l n, P l → P (l ++ [n])) (l : List OwlNode) : P l := by
  have : ∀ r : List OwlNode, P r.reverse := by
    intro r
    induction r with
    | nil => exact h0
    | cons n r ih => rw [List.reverse_cons]; exact h1 _ n ih
  rw [← List.reverse_reverse l]
  exact this _

private theorem range_of {prefixes : Dict Str LdTerm} {g : List OwlNode} (ho : Orderly prefixes g) {n : OwlNode} (hn : n ∈ g) (hp : IsProperty n) :
    ∃ r, n.range = some r := by
  obtain ⟨pre, post, e⟩ := List.append_of_mem hn
  exact Option.ne_none_iff_exists'.1 (ho pre n post e hp).1

private theorem chosen_same {g : List OwlNode} {n : OwlNode} {k : Str} (hc : ¬ (IsClass n ∧ localName n.id = k))
    (hp : ¬ (IsProperty n ∧ localName n.id = k)) : chosen (g ++ [n]) k = chosen g k := by
  unfold chosen
  rw [classes_append, properties_append, if_neg hc, if_neg hp, List.append_nil, List.append_nil]

private theorem chosen_class {g : List OwlNode} {n : OwlNode} (hc : IsClass n) : chosen (g ++ [n]) (localName n.id) = some n := by
  unfold chosen
  rw [classes_append, if_pos ⟨hc, rfl⟩, List.getLast?_concat]
  rfl

private theorem chosen_property {g : List OwlNode} {n : OwlNode} (hp : IsProperty n) (hn : classes g (localName n.id) = []) :
    chosen (g ++ [n]) (localName n.id) = ((properties g (localName n.id)).find? InCore).or (some n) := by
  unfold chosen
  rw [classes_append, if_neg fun h => not_both hp h.1, properties_append, if_pos ⟨hp, rfl⟩, hn, List.getLast?_concat, List.find?_append]
  cases (properties g (localName n.id)).find? InCore with
  | some m => rfl
  | none =>
    simp only [List.append_nil, List.getLast?_nil, Option.none_or]
    cases h : InCore n <;> simp [List.find?, h]

private theorem chosen_before {g : List OwlNode} {k : Str} (hn : classes g k = []) :
    chosen g k = ((properties g k).find? InCore).or (properties g k).getLast? := by
  unfold chosen
  rw [hn]
  rfl

private theorem step (prefixes : Dict Str LdTerm) (hs : ∀ k t, prefixes.get? k = some t → ∃ i, t = .simple i) (g : List OwlNode)
    (d : Dict Str LdTerm) (n : OwlNode) (ho : Orderly prefixes g) (hd : ∀ k, d.get? k = entry prefixes g k) :
    ((∃ d', contextStep d n = .ok d') ↔
        (IsProperty n → n.range ≠ none ∧ classes g (localName n.id) = [] ∧ prefixes.get? (localName n.id) = none)) ∧
      ∀ d', contextStep d n = .ok d' → ∀ k, d'.get? k = entry prefixes (g ++ [n]) k := by
  by_cases hp : IsProperty n
  · -- what the name stood for
    have before : classes g (localName n.id) = [] → ∀ m, chosen g (localName n.id) = some m →
        ∃ t own, d.get? (localName n.id) = some (.prop m.id t own) := by
      intro hn m hm
      have hmem : m ∈ properties g (localName n.id) := by
        rw [chosen_before hn] at hm
        cases hf : (properties g (localName n.id)).find? InCore with
        | some x => rw [hf] at hm; cases hm; exact List.mem_of_find?_eq_some hf
        | none => rw [hf] at hm; exact List.mem_of_getLast? hm
      obtain ⟨h1, h2, _⟩ := mem_properties.1 hmem
      obtain ⟨r, hr⟩ := range_of ho h1 h2
      obtain ⟨t, own, e⟩ := property_id m r
      refine ⟨t, own, ?_⟩
      rw [hd, entry, hm]
      simp only [if_neg (not_both h2), hr, Option.map_some, e]
    rw [step_property d hp]
    cases hr : n.range with
    | none => simp [hp]
    | some r =>
      simp only [hp, forall_const, ne_eq, reduceCtorEq, not_false_eq_true, true_and]
      by_cases hn : classes g (localName n.id) = []
      · -- the entries after the step, if the name is set to this property
        have other : ∀ k, localName n.id ≠ k → entry prefixes (g ++ [n]) k = entry prefixes g k := by
          intro k hk
          unfold entry
          rw [chosen_same (fun h => hk h.2) fun h => hk h.2]
        have set : chosen (g ++ [n]) (localName n.id) = some n →
            ∀ k, (d.set (localName n.id) (property n r)).get? k = entry prefixes (g ++ [n]) k := by
          intro hch k
          rw [Dict.get?_set]
          by_cases hk : localName n.id = k
          · subst hk
            rw [if_pos rfl, entry, hch]
            simp only [if_neg (not_both hp), hr, Option.map_some]
          · rw [if_neg hk, other k hk, hd]
        cases hc : chosen g (localName n.id) with
        | none =>
          have he : d.get? (localName n.id) = prefixes.get? (localName n.id) := by rw [hd, entry, hc]
          rw [he]
          have hnew : chosen (g ++ [n]) (localName n.id) = some n := by
            rw [chosen_property hp hn]
            rw [chosen_before hn] at hc
            cases hf : (properties g (localName n.id)).find? InCore with
            | some x => rw [hf] at hc; cases hc
            | none => rfl
          cases hpf : prefixes.get? (localName n.id) with
          | none =>
            refine ⟨by simp [hn], fun d' h => ?_⟩
            cases h
            exact set hnew
          | some t =>
            obtain ⟨i, rfl⟩ := hs _ _ hpf
            simp
        | some m =>
          obtain ⟨t, own, e⟩ := before hn m hc
          have hmem : m ∈ properties g (localName n.id) := by
            rw [chosen_before hn] at hc
            cases hf : (properties g (localName n.id)).find? InCore with
            | some x => rw [hf] at hc; cases hc; exact List.mem_of_find?_eq_some hf
            | none => rw [hf] at hc; exact List.mem_of_getLast? hc
          have hpf : prefixes.get? (localName n.id) = none := by
            obtain ⟨h1, h2, h3⟩ := mem_properties.1 hmem
            obtain ⟨pre, post, e⟩ := List.append_of_mem h1
            rw [← h3]
            exact (ho pre m post e h2).2.2
          rw [e]
          dsimp only
          by_cases hcore : InCore m = true
          · rw [if_pos (show s%"core".isPrefixOf m.id = true from hcore)]
            refine ⟨by simp [hn, hpf], fun d' h k => ?_⟩
            cases h
            by_cases hk : localName n.id = k
            · subst hk
              have hnew : chosen (g ++ [n]) (localName n.id) = chosen g (localName n.id) := by
                rw [chosen_property hp hn]
                rw [chosen_before hn] at hc ⊢
                cases hf : (properties g (localName n.id)).find? InCore with
                | some x => rfl
                | none => exact absurd hcore (List.find?_eq_none.1 hf m hmem)
              rw [hd]
              unfold entry
              rw [hnew]
            · rw [other k hk, hd]
          · rw [if_neg (show ¬ s%"core".isPrefixOf m.id = true from hcore)]
            refine ⟨by simp [hn, hpf], fun d' h => ?_⟩
            cases h
            refine set ?_
            rw [chosen_property hp hn]
            rw [chosen_before hn] at hc
            cases hf : (properties g (localName n.id)).find? InCore with
            | some x =>
              rw [hf] at hc
              cases hc
              exact absurd (List.find?_some hf) hcore
            | none => rfl
      · -- a class has the name
        obtain ⟨m, hm⟩ : ∃ m, (classes g (localName n.id)).getLast? = some m := by
          cases hl : (classes g (localName n.id)).getLast? with
          | none => exact absurd (List.getLast?_eq_none_iff.1 hl) hn
          | some m => exact ⟨m, rfl⟩
        have e : d.get? (localName n.id) = some (.simple m.id) := by
          have : chosen g (localName n.id) = some m := by
            unfold chosen
            rw [hm]
            rfl
          rw [hd, entry, this]
          exact if_pos (mem_classes.1 (List.mem_of_getLast? hm)).2.1
        rw [e]
        simp [hn]
  · by_cases hc : IsClass n
    · rw [step_class d hc]
      refine ⟨⟨fun _ h => absurd h hp, fun _ => ⟨_, rfl⟩⟩, fun d' h k => ?_⟩
      cases h
      rw [Dict.get?_set]
      by_cases hk : localName n.id = k
      · subst hk
        rw [if_pos rfl, entry, chosen_class hc]
        exact (if_pos hc).symm
      · rw [if_neg hk, hd]
        unfold entry
        rw [chosen_same (fun h => hk h.2) fun h => hk h.2]
    · rw [step_other d hp hc]
      refine ⟨⟨fun _ h => absurd h hp, fun _ => ⟨_, rfl⟩⟩, fun d' h k => ?_⟩
      cases h
      rw [hd]
      unfold entry
      rw [chosen_same (fun h => hc h.1) fun h => hp h.1]

private theorem run (prefixes : Dict Str LdTerm) (hs : ∀ k t, prefixes.get? k = some t → ∃ i, t = .simple i) (g : List OwlNode) :
    ((∃ c, owlToContext prefixes g = .ok c) ↔ Orderly prefixes g) ∧
      ∀ c, owlToContext prefixes g = .ok c → ∀ k, c.get? k = entry prefixes g k := by
  induction g using snoc with
  | h0 =>
    refine ⟨⟨fun _ pre n post e => by simp at e, fun _ => ⟨_, rfl⟩⟩, fun c h k => ?_⟩
    cases h
    rfl
  | h1 g n ih =>
    rw [run_append]
    cases hg : owlToContext prefixes g with
    | error e =>
      refine ⟨⟨fun ⟨_, h⟩ => by (cases h), fun h => ?_⟩, fun c h => by (cases h)⟩
      obtain ⟨c, h'⟩ := ih.1.2 ((orderly_append ..).1 h).1
      rw [hg] at h'
      cases h'
    | ok d =>
      have ho := ih.1.1 ⟨d, hg⟩
      obtain ⟨h1, h2⟩ := step prefixes hs g d n ho (ih.2 d hg)
      refine ⟨?_, h2⟩
      rw [orderly_append]
      exact h1.trans ⟨fun h => ⟨ho, h⟩, fun h => h.2⟩

/-! ### Theorems -/

/-- A context is made exactly if every property has a range and no prefix, and no class before it, has its name. -/
theorem succeeds_iff (prefixes : Dict Str LdTerm) (hs : ∀ k t, prefixes.get? k = some t → ∃ i, t = .simple i) (g : List OwlNode) :
    (∃ c, owlToContext prefixes g = .ok c) ↔ Orderly prefixes g := (run prefixes hs g).1

/-- In it, every name is mapped to the node it stands for. -/
theorem entries (prefixes : Dict Str LdTerm) (hs : ∀ k t, prefixes.get? k = some t → ∃ i, t = .simple i) (g : List OwlNode)
    (c : Dict Str LdTerm) (h : owlToContext prefixes g = .ok c) (k : Str) : c.get? k = entry prefixes g k := (run prefixes hs g).2 c h k

/-- Every name stands for at most one node. -/
def Unique (g : List OwlNode) : Prop := ∀ k, (properties g k).length + (classes g k).length ≤ 1

private theorem perm_short {l l' : List OwlNode} (hp : l.Perm l') (h : l.length ≤ 1) : l' = l := by
  rcases l with _ | ⟨x, _ | ⟨y, t⟩⟩
  · exact List.nil_perm.1 hp
  · exact (List.singleton_perm.1 hp).symm
  · simp at h

/-- If every name stands for one node only, the order of the vocabulary does not matter. -/
theorem order_free (prefixes : Dict Str LdTerm) (hs : ∀ k t, prefixes.get? k = some t → ∃ i, t = .simple i) (g g' : List OwlNode)
    (hu : Unique g) (hp : g.Perm g') (c : Dict Str LdTerm) (h : owlToContext prefixes g = .ok c) :
    ∃ c', owlToContext prefixes g' = .ok c' ∧ ∀ k, c'.get? k = c.get? k := by
  have hP : ∀ k, properties g' k = properties g k := fun k => perm_short (hp.filter _) (by have := hu k; unfold properties at *; omega)
  have hC : ∀ k, classes g' k = classes g k := fun k => perm_short (hp.filter _) (by have := hu k; unfold classes at *; omega)
  have ho : Orderly prefixes g' := by
    intro pre n post e hn
    have hmem : n ∈ g := hp.mem_iff.2 (by rw [e]; simp)
    obtain ⟨a, b, e'⟩ := List.append_of_mem hmem
    obtain ⟨h1, _, h3⟩ := (succeeds_iff prefixes hs g).1 ⟨c, h⟩ a n b e' hn
    refine ⟨h1, ?_, h3⟩
    have hm : n ∈ properties g (localName n.id) := mem_properties.2 ⟨hmem, hn, rfl⟩
    have hz : classes g (localName n.id) = [] := by
      have := hu (localName n.id)
      have := List.length_pos_of_mem hm
      exact List.length_eq_zero_iff.1 (by omega)
    rw [← hC, e] at hz
    refine List.eq_nil_iff_forall_not_mem.2 fun m hm => ?_
    obtain ⟨m1, m2⟩ := mem_classes.1 hm
    have : m ∈ classes (pre ++ n :: post) (localName n.id) := mem_classes.2 ⟨by simp [m1], m2⟩
    rw [hz] at this
    cases this
  obtain ⟨c', h'⟩ := (succeeds_iff prefixes hs g').2 ho
  refine ⟨c', h', fun k => ?_⟩
  rw [entries prefixes hs g c h, entries prefixes hs g' c' h']
  unfold entry chosen
  rw [hP, hC]

/-- A property that is not in `core` is dropped if there is one with the same name in `core`, wherever it is. -/
theorem core_first (prefixes : Dict Str LdTerm) (hs : ∀ k t, prefixes.get? k = some t → ∃ i, t = .simple i) (g : List OwlNode)
    (c : Dict Str LdTerm) (h : owlToContext prefixes g = .ok c) (n : OwlNode) (hn : n ∈ g) (hp : IsProperty n) (hc : InCore n = true)
    (hk : classes g (localName n.id) = []) :
    ∃ m t own, m ∈ g ∧ IsProperty m ∧ localName m.id = localName n.id ∧ InCore m = true ∧ c.get? (localName n.id) = some (.prop m.id t own) := by
  have hm := mem_properties.2 ⟨hn, hp, rfl⟩
  cases hf : (properties g (localName n.id)).find? InCore with
  | none => exact absurd hc (List.find?_eq_none.1 hf n hm)
  | some m =>
    obtain ⟨h1, h2, h3⟩ := mem_properties.1 (List.mem_of_find?_eq_some hf)
    obtain ⟨r, hr⟩ := range_of ((succeeds_iff prefixes hs g).1 ⟨c, h⟩) h1 h2
    obtain ⟨t, own, e⟩ := property_id m r
    refine ⟨m, t, own, h1, h2, h3, List.find?_some hf, ?_⟩
    rw [entries prefixes hs g c h, entry, chosen_before hk, hf]
    simp only [Option.some_or, if_neg (not_both h2), hr, Option.map_some, e]

/-! ### The vocabulary of the package -/

private def lost : List Str := [s%"ai:sensitivePersonalInformation", s%"security:locator", s%"security:suppliedBy", s%"software:contentType"]

private def standsFor (n : OwlNode) : Bool :=
  match Dict.get? contextFile (localName n.id) with
  | some (.prop id _ _) => id = n.id
  | _ => false

private theorem table : ∀ n ∈ owlGraph, IsProperty n → standsFor n = !(lost.contains n.id) := by decide +kernel

/-- Four properties of the vocabulary cannot be written: their names mean properties of another namespace. -/
theorem properties_lost (n : OwlNode) (hn : n ∈ owlGraph) (hp : IsProperty n) :
    (∃ t own, Dict.get? contextFile (localName n.id) = some (.prop n.id t own)) ↔
      n.id ∉ [s%"ai:sensitivePersonalInformation", s%"security:locator", s%"security:suppliedBy", s%"software:contentType"] := by
  have h := table n hn hp
  have h' : standsFor n = true ↔ ∃ t own, Dict.get? contextFile (localName n.id) = some (.prop n.id t own) := by
    unfold standsFor
    rcases Dict.get? contextFile (localName n.id) with _ | (_ | ⟨id, t, own⟩) <;> simp [eq_comm]
  rw [← h', h]
  simp [lost]

/-- What their names mean instead. -/
theorem taken_for : Dict.get? contextFile s%"sensitivePersonalInformation" =
      some (.prop s%"dataset:sensitivePersonalInformation" s%"@vocab" [(s%"@vocab", s%"dataset:PresenceType/")]) ∧
    Dict.get? contextFile s%"locator" = some (.prop s%"core:locator" s%"xsd:anyURI" []) ∧
    Dict.get? contextFile s%"suppliedBy" = some (.prop s%"core:suppliedBy" s%"@id" []) ∧
    Dict.get? contextFile s%"contentType" = some (.prop s%"core:contentType" s%"core:MediaType" []) := by decide +kernel

/-- All classes can be written. -/
theorem classes_kept : ∀ n ∈ owlGraph, IsClass n → Dict.get? contextFile (localName n.id) = some (.simple n.id) := by decide +kernel

/-! ### Cases -/

private def prefixes : Dict Str LdTerm := [(s%"core", .simple s%"https://spdx.org/rdf/Core/")]

private theorem simple : ∀ k t, prefixes.get? k = some t → ∃ i, t = .simple i := by
  intro k t h
  simp only [prefixes, Dict.get?] at h
  split at h
  · cases h; exact ⟨_, rfl⟩
  · cases h

private def vocabulary : List OwlNode :=
  [⟨s%"ai:note", .one s%"owl:DatatypeProperty", some s%"xsd:string", none, []⟩, ⟨s%"core:note", .one s%"owl:DatatypeProperty", some s%"xsd:anyURI", none, []⟩,
   ⟨s%"build:note", .one s%"owl:ObjectProperty", some s%"core:Agent", none, []⟩, ⟨s%"core:Thing", .many [s%"owl:Class", s%"sh:NodeShape"], none, none, []⟩,
   ⟨s%"build:by", .one s%"owl:ObjectProperty", some s%"core:Agent", none, []⟩, ⟨s%"core:Kind/scope", .many [s%"owl:NamedIndividual", s%"core:Kind"], none, none, []⟩,
   ⟨s%"core:scope", .one s%"owl:ObjectProperty", some s%"core:Scope", none, []⟩]

example : owlToContext prefixes vocabulary = .ok [(s%"core", .simple s%"https://spdx.org/rdf/Core/"), (s%"note", .prop s%"core:note" s%"xsd:anyURI" []),
    (s%"Thing", .simple s%"core:Thing"), (s%"by", .prop s%"build:by" s%"@id" []),
    (s%"scope", .prop s%"core:scope" s%"@vocab" [(s%"@vocab", s%"core:Scope/")])] := by decide +kernel
example : Orderly prefixes vocabulary := (succeeds_iff prefixes simple vocabulary).1 ⟨_, rfl⟩
/-- a class and a property with one name: the class may come later, but not earlier -/
example : owlToContext prefixes (vocabulary ++ [⟨s%"ai:Thing", .one s%"owl:DatatypeProperty", some s%"xsd:string", none, []⟩]) = .error .index ∧
    (owlToContext prefixes (⟨s%"ai:Thing", .one s%"owl:DatatypeProperty", some s%"xsd:string", none, []⟩ :: vocabulary)).isOk = true := by decide +kernel
example : owlToContext prefixes [⟨s%"ai:core", .one s%"owl:DatatypeProperty", some s%"xsd:string", none, []⟩] = .error .index := by decide +kernel
example : owlToContext prefixes [⟨s%"ai:x", .one s%"owl:DatatypeProperty", none, none, []⟩] = .error .range := by decide +kernel
/-- the names of the three properties `note` depend on the order only if none is in `core` -/
example : ((owlToContext prefixes vocabulary.reverse).toOption.bind fun c => c.get? s%"note") = some (.prop s%"core:note" s%"xsd:anyURI" []) := by decide +kernel

private theorem prefixes_simple : ∀ k t, Dict.get? (owlPrefixes.map fun p => (p.1, LdTerm.simple p.2)) k = some t → ∃ i, t = .simple i := by
  intro k t h
  generalize owlPrefixes = l at h
  induction l with
  | nil => cases h
  | cons p l ih =>
    simp only [List.map_cons, Dict.get?] at h
    split at h
    · cases h; exact ⟨_, rfl⟩
    · exact ih h
/-- the vocabulary of the package -/
example : Orderly (owlPrefixes.map fun p => (p.1, LdTerm.simple p.2)) owlGraph :=
  (succeeds_iff _ prefixes_simple owlGraph).1 ⟨_, C64.context_generated⟩

/-- `k` is what stands after the last colon of `id`, or all of it when there is no colon. -/
def AfterLastColon (id k : Str) : Prop := ':' ∉ k ∧ (id = k ∨ ∃ pre, id = pre ++ ':' :: k)

/-- The name used for an entry of the vocabulary is what stands after the last colon of its identifier. -/
theorem local_name (id k : Str) : localName id = k ↔ AfterLastColon id k := by
  have key : ∀ l : Str, ':' ∉ l.takeWhile (· ≠ ':') := fun l h => by simpa using List.mem_takeWhile_imp h
  have uniq : ∀ k, AfterLastColon id k → localName id = k := by
    rintro k ⟨hn, rfl | ⟨pre, rfl⟩⟩
    · unfold localName
      rw [List.takeWhile_eq_self_iff.2, List.reverse_reverse]
      intro c hc
      simp only [List.mem_reverse] at hc
      simp only [ne_eq, decide_not, Bool.not_eq_eq_eq_not, Bool.not_true, decide_eq_false_iff_not]
      rintro rfl; exact hn hc
    · unfold localName
      rw [List.reverse_append, List.reverse_cons, List.append_assoc, List.takeWhile_append_of_pos]
      · simp
      · intro c hc
        simp only [List.mem_reverse] at hc
        simp only [ne_eq, decide_not, Bool.not_eq_eq_eq_not, Bool.not_true, decide_eq_false_iff_not]
        rintro rfl; exact hn hc
  refine ⟨?_, uniq k⟩
  rintro rfl
  refine ⟨?_, ?_⟩
  · unfold localName; rw [List.mem_reverse]; exact key _
  · have := List.takeWhile_append_dropWhile (p := fun c => decide (c ≠ ':')) (l := id.reverse)
    cases hd : id.reverse.dropWhile (fun c => decide (c ≠ ':')) with
    | nil =>
      left; rw [hd, List.append_nil] at this
      unfold localName; rw [this, List.reverse_reverse]
    | cons c r =>
      right
      have hc : c = ':' := by
        have := List.head_dropWhile_not (fun c => decide (c ≠ ':')) (l := id.reverse) (by rw [hd]; simp)
        simp only [hd, List.head_cons] at this
        simpa using this
      refine ⟨r.reverse, ?_⟩
      rw [hd, hc] at this
      have h2 := congrArg List.reverse this
      rw [List.reverse_reverse, List.reverse_append, List.reverse_cons, List.append_assoc] at h2
      exact h2.symm

example : AfterLastColon s%"core:Element" s%"Element" := ⟨by decide, .inr ⟨s%"core", rfl⟩⟩
example : localName s%"a:b:c" = s%"c" := (local_name _ _).2 ⟨by decide, .inr ⟨s%"a:b", rfl⟩⟩

end Spdx.C73
