import Verif.Lemmas.LdMigrated
import Verif.Model.JsonLd
import Verif.Spec.LdNames
import Verif.Spec.MemberNames
import Verif.Py.Exacts
/-
C46 – Converting a payload to JSON-LD keeps every non-empty field under its camelCase name and drops only empty ones.
-/
namespace Spdx.C46
open Spdx

/-! ### Specification -/

/-- Values that mean "nothing here": `None`, the empty text and empty lists, tuples and dicts.  The converter also counts the number 0 and
    `False` among them. -/
inductive Empty : Py3 → Prop
  | none : Empty .none
  | false : Empty (.bool false)
  | zero : Empty (.int 0)
  | text : Empty (.str [])
  | tuple : Empty (.tuple [])
  | list : Empty (.list [])
  | dict : Empty (.dict [])
  | other : Empty (.other false)

mutual
/-- The tree a value is shown as. -/
inductive Shown : Py3 → Json → Prop
  | bool (b : Bool) : Shown (.bool b) (.bool b)
  | int (i : Int) : Shown (.int i) (.num i)
  | str (s : Str) : Shown (.str s) (.str s)
  | tuple (l : List Int) : Shown (.tuple l) (.arr (l.map .num))
  | version (s : Str) : Shown (.version s) (.str s)
  | datetime (d : DateTime) (s : Str) : datetimeToIso d = some s → Shown (.datetime d) (.str s)
  | enum (n k : Str) : (n, k) ∈ ldMembers → Shown (.enum n) (.str k)
  | list (l : List Py3) (js : List Json) : ShownItems l js → Shown (.list l) (.arr js)
  | obj (cls : Str) (attrs : List (Str × Py3)) (fs : List (Str × Json)) :
      ShownFields attrs fs → Shown (.obj cls attrs) (.obj ((s%"@type", .str cls) :: fs))
/-- The items of a list: the non-empty ones, in order. -/
inductive ShownItems : List Py3 → List Json → Prop
  | nil : ShownItems [] []
  | drop (v : Py3) (l : List Py3) (js : List Json) : Empty v → ShownItems l js → ShownItems (v :: l) js
  | keep (v : Py3) (l : List Py3) (j : Json) (js : List Json) : ¬ Empty v → Shown v j → ShownItems l js → ShownItems (v :: l) (j :: js)
/-- The attributes of an object: the non-empty ones, in order, each under its name in the table. -/
inductive ShownFields : List (Str × Py3) → List (Str × Json) → Prop
  | nil : ShownFields [] []
  | drop (a : Str) (v : Py3) (l : List (Str × Py3)) (fs : List (Str × Json)) : Empty v → ShownFields l fs → ShownFields ((a, v) :: l) fs
  | keep (a : Str) (v : Py3) (k : Str) (j : Json) (l : List (Str × Py3)) (fs : List (Str × Json)) : ¬ Empty v → (a, k) ∈ ldNames →
      Shown v j → ShownFields l fs → ShownFields (('_' :: a, v) :: l) ((k, j) :: fs)
end

mutual
/-- Values made of instances of the model's classes and enumerations, dates UTC can represent, and no non-empty dicts. -/
def Regular : Py3 → Prop
  | .datetime d => ∃ s, datetimeToIso d = some s
  | .enum n => n ∈ ldEnumMembers
  | .list l => RegularItems l
  | .dict l => l = []
  | .other b => b = false
  | .obj cls attrs => (∃ names, (cls, names) ∈ ldClasses ∧ attrs.map (·.1) = names.map ('_' :: ·)) ∧ RegularFields attrs
  | _ => True
def RegularItems : List Py3 → Prop
  | [] => True
  | v :: vs => Regular v ∧ RegularItems vs
def RegularFields : List (Str × Py3) → Prop
  | [] => True
  | (_, v) :: rest => Regular v ∧ RegularFields rest
end

/-! ### Theorems -/

private theorem empty_iff (v : Py3) : Empty v ↔ v.truthy = false := by
  constructor
  · intro h; cases h <;> rfl
  · intro h
    cases v with
    | none => exact .none
    | bool b => cases b <;> simp [Py3.truthy] at h; exact .false
    | int i => simp [Py3.truthy] at h; subst h; exact .zero
    | str s => simp [Py3.truthy] at h; subst h; exact .text
    | tuple s => simp [Py3.truthy] at h; subst h; exact .tuple
    | list s => simp [Py3.truthy] at h; subst h; exact .list
    | dict s => simp [Py3.truthy] at h; subst h; exact .dict
    | other s => simp [Py3.truthy] at h; subst h; exact .other
    | _ => simp [Py3.truthy] at h

private def key (a : Str) : Str := match ldKey ('_' :: a) with | .ok k => k | .error _ => []

private theorem member (n : Str) (h : n ∈ ldEnumMembers) : ∃ k, snakeToCamel n = some k ∧ (n, k) ∈ ldMembers := by
  have : ∀ n ∈ ldEnumMembers, (snakeToCamel n).isSome ∧ (n, (snakeToCamel n).getD []) ∈ ldMembers := by decide +kernel
  obtain ⟨h1, h2⟩ := this n h
  obtain ⟨k, hk⟩ := Option.isSome_iff_exists.1 h1
  exact ⟨k, hk, by simpa [hk] using h2⟩

private theorem attr_key : ∀ c ∈ ldClasses, ∀ a ∈ c.2, ldKey ('_' :: a) = .ok (key a) ∧ (a, key a) ∈ ldNames := by
  have h : ∀ a ∈ ldNames.map (·.1), ldKey ('_' :: a) = .ok (key a) ∧ (a, key a) ∈ ldNames := by decide +kernel
  have h2 : ∀ c ∈ ldClasses, ∀ a ∈ c.2, a ∈ ldNames.map (·.1) := by decide +kernel
  exact fun c hc a ha => h a (h2 c hc a ha)

/-- In every class all attributes have different names in JSON-LD, none of them `@type`. -/
theorem names_distinct : ∀ c ∈ ldClasses, ∀ ks : List Str, ks.length = c.2.length →
    (∀ p ∈ c.2.zip ks, p ∈ ldNames) → (s%"@type" :: ks).Nodup := by
  have h : ∀ c ∈ ldClasses, (s%"@type" :: c.2.map (fun a => (ldNames.lookup a).getD [])).Nodup := by decide +kernel
  have hn : (ldNames.map (·.1)).Nodup := by decide +kernel
  intro c hc ks hl hz
  have : ∀ (l ks : List Str), ks.length = l.length → (∀ p ∈ l.zip ks, p ∈ ldNames) → ks = l.map (fun a => (ldNames.lookup a).getD []) := by
    have look : ∀ p ∈ ldNames, (ldNames.lookup p.1).getD [] = p.2 := by decide +kernel
    intro l
    induction l with
    | nil => intro ks h _; cases ks <;> simp_all
    | cons a l ih =>
      intro ks h hz
      cases ks with
      | nil => simp at h
      | cons k ks =>
        simp only [List.map_cons]
        rw [← ih ks (by simpa using h) (fun p hp => hz p (by simp [List.zip_cons_cons, hp])), look (a, k) (hz _ (by simp))]
  rw [this _ _ hl hz]
  exact h c hc

private theorem key_nodup : ∀ c ∈ ldClasses, (s%"@type" :: c.2.map key).Nodup := by
  intro c hc
  refine names_distinct c hc _ (by simp) ?_
  intro p hp
  rw [List.zip_map_right, List.mem_map] at hp
  obtain ⟨q, hq, rfl⟩ := hp
  have : q.1 ∈ c.2 ∧ q.2 = q.1 := by
    have : ∀ (l : List Str), q ∈ l.zip l → q.1 ∈ l ∧ q.2 = q.1 := by
      intro l
      induction l with
      | nil => simp
      | cons a l ih =>
        simp only [List.zip_cons_cons, List.mem_cons]
        rintro (rfl | h)
        · simp
        · exact ⟨.inr (ih h).1, (ih h).2⟩
    exact this _ hq
  simpa [Prod.map, this.2] using (attr_key c hc q.1 this.1).2

mutual
/-- Every regular value that is not empty is converted, and shown as the specification says. -/
theorem converts (v : Py3) (hr : Regular v) (he : ¬ Empty v) : ∃ j, toJsonLd v = .ok j ∧ Shown v j := by
  have ht : v.truthy ≠ false := fun h => he ((empty_iff v).2 h)
  rw [toJsonLd.eq_def, if_neg ht]
  match v with
  | .none => exact absurd .none he
  | .bool b => exact ⟨_, rfl, .bool b⟩
  | .int i => exact ⟨_, rfl, .int i⟩
  | .str s => exact ⟨_, rfl, .str s⟩
  | .tuple l => exact ⟨_, rfl, .tuple l⟩
  | .version s => exact ⟨_, rfl, .version s⟩
  | .datetime d =>
    obtain ⟨s, hs⟩ := hr
    exact ⟨.str s, by simp only [hs], .datetime d s hs⟩
  | .enum n =>
    obtain ⟨k, hk, hm⟩ := member n hr
    exact ⟨.str k, by simp only [hk], .enum n k hm⟩
  | .list l =>
    obtain ⟨js, h1, h2⟩ := converts_items l hr
    exact ⟨.arr js, by simp only [h1], .list l js h2⟩
  | .dict l =>
    have hb : l = [] := hr
    subst hb; exact absurd .dict he
  | .other b =>
    have hb : b = false := hr
    subst hb; exact absurd .other he
  | .obj cls attrs =>
    obtain ⟨⟨names, hc, hn⟩, hf⟩ := hr
    have hk := key_nodup _ hc
    obtain ⟨fs, h1, h2, _⟩ := converts_fields attrs hf names hn (fun a ha => attr_key _ hc a ha) (List.nodup_cons.1 hk).2
      [(s%"@type", .str cls)] (by
        intro a ha hm
        simp only [Dict.keys, List.map_cons, List.map_nil, List.mem_singleton] at hm
        exact (List.nodup_cons.1 hk).1 (hm ▸ List.mem_map.2 ⟨a, ha, rfl⟩))
    exact ⟨_, by simp only [h1]; rfl, .obj cls attrs fs h2⟩
private theorem converts_items (l : List Py3) (hr : RegularItems l) : ∃ js, toJsonLdItems l = .ok js ∧ ShownItems l js := by
  match l with
  | [] => exact ⟨[], by simp [toJsonLdItems], .nil⟩
  | v :: vs =>
    obtain ⟨js, h1, h2⟩ := converts_items vs hr.2
    rw [toJsonLdItems]
    by_cases ht : v.truthy = true
    · have he : ¬ Empty v := fun h => by rw [(empty_iff v).1 h] at ht; cases ht
      obtain ⟨j, h3, h4⟩ := converts v hr.1 he
      exact ⟨j :: js, by simp only [ht, if_true, h3, h1], .keep v vs j js he h4 h2⟩
    · have ht : v.truthy = false := by simpa using ht
      exact ⟨js, by simp only [ht, h1]; rfl, .drop v vs js ((empty_iff v).2 ht) h2⟩
private theorem converts_fields (attrs : List (Str × Py3)) (hr : RegularFields attrs) (names : List Str)
    (hn : attrs.map (·.1) = names.map ('_' :: ·)) (hk : ∀ a ∈ names, ldKey ('_' :: a) = .ok (key a) ∧ (a, key a) ∈ ldNames)
    (hd : (names.map key).Nodup) (d : Dict Str Json) (hf : ∀ a ∈ names, key a ∉ d.keys) :
    ∃ fs, toJsonLdAttrs d attrs = .ok (d ++ fs) ∧ ShownFields attrs fs ∧ True := by
  match attrs, names with
  | [], _ => exact ⟨[], by simp [toJsonLdAttrs], .nil, trivial⟩
  | (_, _) :: _, [] => simp at hn
  | (b, v) :: rest, a :: names =>
    simp only [List.map_cons, List.cons.injEq] at hn
    obtain ⟨hb, hn⟩ := hn
    subst hb
    simp only [List.map_cons, List.nodup_cons] at hd
    rw [toJsonLdAttrs]
    by_cases ht : v.truthy = true
    · have he : ¬ Empty v := fun h => by rw [(empty_iff v).1 h] at ht; cases ht
      obtain ⟨j, h3, h4⟩ := converts v hr.1 he
      have hka := hk a (List.mem_cons_self ..)
      obtain ⟨fs, h1, h2, _⟩ := converts_fields rest hr.2 names hn (fun a ha => hk a (List.mem_cons_of_mem _ ha)) hd.2
        (d.set (key a) j) (by
          intro c hc hm
          rw [Dict.mem_keys_set] at hm
          rcases hm with hm | hm
          · exact hd.1 (hm ▸ List.mem_map.2 ⟨c, hc, rfl⟩)
          · exact hf c (List.mem_cons_of_mem _ hc) hm)
      refine ⟨(key a, j) :: fs, ?_, .keep a v (key a) j rest fs he hka.2 h4 h2, trivial⟩
      simp only [ht, if_true, hka.1, h3, h1]
      rw [Dict.set_fresh _ _ _ (hf a (List.mem_cons_self ..))]
      simp
    · have ht : v.truthy = false := by simpa using ht
      obtain ⟨fs, h1, h2, _⟩ := converts_fields rest hr.2 names hn (fun a ha => hk a (List.mem_cons_of_mem _ ha)) hd.2 d
        (fun c hc => hf c (List.mem_cons_of_mem _ hc))
      exact ⟨fs, by simp only [ht, h1]; rfl, .drop _ v rest fs ((empty_iff v).2 ht) h2, trivial⟩
end

/-- `ShownFields` read field by field: nothing non-empty is lost … -/
theorem field_kept (attrs : List (Str × Py3)) (fs : List (Str × Json)) (h : ShownFields attrs fs) (a : Str) (v : Py3)
    (hm : ('_' :: a, v) ∈ attrs) (hv : ¬ Empty v) : ∃ k j, (a, k) ∈ ldNames ∧ (k, j) ∈ fs ∧ Shown v j := by
  match attrs, fs, h with
  | _, _, .nil => cases hm
  | _, _, .drop b w l fs he h =>
    rcases List.mem_cons.1 hm with e | hm
    · cases e; exact absurd he hv
    · exact field_kept l fs h a v hm hv
  | _, _, .keep b w k j l fs he hk hs h =>
    rcases List.mem_cons.1 hm with e | hm
    · cases e; exact ⟨k, j, hk, List.mem_cons_self .., hs⟩
    · obtain ⟨k', j', h1, h2, h3⟩ := field_kept l fs h a v hm hv
      exact ⟨k', j', h1, List.mem_cons_of_mem _ h2, h3⟩

/-- … and nothing is made up. -/
theorem field_given (attrs : List (Str × Py3)) (fs : List (Str × Json)) (h : ShownFields attrs fs) (k : Str) (j : Json)
    (hm : (k, j) ∈ fs) : ∃ a v, ('_' :: a, v) ∈ attrs ∧ ¬ Empty v ∧ (a, k) ∈ ldNames ∧ Shown v j := by
  match attrs, fs, h with
  | _, _, .nil => cases hm
  | _, _, .drop b w l fs he h =>
    obtain ⟨a, v, h1, h2⟩ := field_given l fs h k j hm
    exact ⟨a, v, List.mem_cons_of_mem _ h1, h2⟩
  | _, _, .keep b w k' j' l fs he hk hs h =>
    rcases List.mem_cons.1 hm with e | hm
    · cases e; exact ⟨b, w, List.mem_cons_self .., he, hk, hs⟩
    · obtain ⟨a, v, h1, h2⟩ := field_given l fs h k j hm
      exact ⟨a, v, List.mem_cons_of_mem _ h1, h2⟩

/-- A payload of instances of the model's classes becomes the list of their conversions: one object per element, in order, carrying the
    class as `@type` and exactly the non-empty attributes under their names. -/
theorem payload_partial (p : List (Str × List (Str × Py3))) (hr : ∀ e ∈ p, Regular (.obj e.1 e.2)) :
    ∃ js, payloadToJsonLd (p.map fun e => .obj e.1 e.2) = .ok js ∧ js.length = p.length ∧
      ∀ (i : Nat) (cls : Str) (attrs : List (Str × Py3)), p[i]? = some (cls, attrs) →
        ∃ fs, js[i]? = some (.obj ((s%"@type", .str cls) :: fs)) ∧ ShownFields attrs fs ∧ (s%"@type" :: fs.map (·.1)).Nodup := by
  induction p with
  | nil => exact ⟨[], rfl, rfl, by simp⟩
  | cons e p ih =>
    obtain ⟨js, h1, h2, h3⟩ := ih (fun e he => hr e (List.mem_cons_of_mem _ he))
    have hre := hr e (List.mem_cons_self ..)
    obtain ⟨j, h4, h5⟩ := converts (.obj e.1 e.2) hre (by rintro ⟨⟩)
    refine ⟨j :: js, by simp only [List.map_cons, payloadToJsonLd, h4, h1], by simp [h2], ?_⟩
    intro i cls attrs hi
    cases i with
    | succ i => exact h3 i cls attrs (by simpa using hi)
    | zero =>
      simp only [List.getElem?_cons_zero, Option.some.injEq] at hi
      subst hi
      cases h5 with
      | obj _ _ fs hf =>
        refine ⟨fs, rfl, hf, ?_⟩
        obtain ⟨⟨names, hc, hn⟩, _⟩ := hre
        have hk := key_nodup _ hc
        refine List.Sublist.nodup (List.Sublist.cons_cons _ (keys_sublist attrs fs hf names hn (fun a ha => ?_))) hk
        intro k hk'
        have hnn : (ldNames.map (·.1)).Nodup := by decide +kernel
        have := (attr_key _ hc a ha).2
        have := inj_names _ _ hk' this rfl
        exact congrArg Prod.snd this
where
  inj_names (p q : Str × Str) (hp : p ∈ ldNames) (hq : q ∈ ldNames) (e : p.1 = q.1) : p = q := by
    have look : ∀ p ∈ ldNames, ldNames.lookup p.1 = some p.2 := by decide +kernel
    have h1 := look p hp
    have h2 := look q hq
    rw [e, h2] at h1
    cases p; cases q; simp_all
  keys_sublist (attrs : List (Str × Py3)) (fs : List (Str × Json)) (h : ShownFields attrs fs) (names : List Str)
      (hn : attrs.map (·.1) = names.map ('_' :: ·)) (hk : ∀ a ∈ names, ∀ k, (a, k) ∈ ldNames → k = key a) :
      (fs.map (·.1)).Sublist (names.map key) := by
    match attrs, fs, names, h with
    | _, _, _, .nil => exact List.nil_sublist _
    | _, _, [], .drop .. => simp at hn
    | _, _, [], .keep .. => simp at hn
    | _, _, n :: names, .drop b w l fs he h =>
      simp only [List.map_cons, List.cons.injEq] at hn
      exact List.Sublist.cons _ (keys_sublist l fs h names hn.2 (fun a ha => hk a (List.mem_cons_of_mem _ ha)))
    | _, _, n :: names, .keep b w k j l fs he hm hs h =>
      simp only [List.map_cons, List.cons.injEq, true_and] at hn
      obtain ⟨rfl, hn⟩ := hn
      rw [List.map_cons, List.map_cons, hk b (List.mem_cons_self ..) k hm]
      exact List.Sublist.cons_cons _ (keys_sublist l fs h names hn (fun a ha => hk a (List.mem_cons_of_mem _ ha)))

/-- the dates an element of a migrated payload contains -/
def dates : Element3 → List DateTime
  | .document d => [d.creationInfo.created]
  | .agent a => a.creationInfo.toList.map (·.created)
  | .package p => p.builtTime.toList ++ p.releaseTime.toList ++ p.validUntilTime.toList
  | .annotation a => [a.creationInfo.created]
  | _ => []

private def Rep (d : DateTime) : Prop := ∃ s, datetimeToIso d = some s

private theorem items_of (l : List Py3) (h : ∀ v ∈ l, Regular v) : RegularItems l := by
  induction l with
  | nil => trivial
  | cons v l ih => exact ⟨h v (by simp), ih (fun w hw => h w (by simp [hw]))⟩

private theorem fields_of (l : List (Str × Py3)) (h : ∀ v ∈ l, Regular v.2) : RegularFields l := by
  induction l with
  | nil => trivial
  | cons v l ih => exact ⟨h v (by simp), ih (fun w hw => h w (by simp [hw]))⟩

private theorem lookup_mem {β : Type} (l : List (Str × β)) (a : Str) (v : β) (h : l.lookup a = some v) : (a, v) ∈ l := by
  induction l with
  | nil => simp at h
  | cons p l ih =>
    obtain ⟨k, w⟩ := p
    rw [List.lookup_cons] at h
    split at h
    · rename_i e
      cases h; rw [eq_of_beq e]; simp
    · exact List.mem_cons_of_mem _ (ih h)

private theorem mem_lookup {β : Type} (l : List (Str × β)) (a : Str) (v : β) (hn : (l.map (·.1)).Nodup) (h : (a, v) ∈ l) :
    l.lookup a = some v := by
  induction l with
  | nil => cases h
  | cons p l ih =>
    obtain ⟨k, w⟩ := p
    simp only [List.map_cons, List.nodup_cons] at hn
    rw [List.lookup_cons]
    rcases List.mem_cons.1 h with e | hm
    · cases e; simp
    · have : (a == k) = false := by
        rw [beq_eq_false_iff_ne]
        rintro rfl
        exact hn.1 (List.mem_map.2 ⟨(a, v), hm, rfl⟩)
      rw [this]
      exact ih hn.2 hm

private theorem default_cases (cls a : Str) : ldDefault cls a = .list [] ∨ ldDefault cls a = .dict [] ∨ ldDefault cls a = .none := by
  unfold ldDefault
  split
  · exact .inl rfl
  · split
    · exact .inr (.inl rfl)
    · exact .inr (.inr rfl)

private theorem object_regular (cls : Str) (given : List (Str × Py3)) (hc : (ldClasses.lookup cls).isSome = true)
    (hg : ∀ p ∈ given, Regular p.2) : Regular (ldObject cls given) := by
  obtain ⟨names, hn⟩ := Option.isSome_iff_exists.1 hc
  simp only [ldObject, hn, Option.getD_some]
  refine ⟨⟨names, lookup_mem _ _ _ hn, by simp⟩, fields_of _ ?_⟩
  intro p hp
  obtain ⟨a, _, rfl⟩ := List.mem_map.1 hp
  cases hl : given.lookup a with
  | none =>
    show Regular (ldDefault cls a)
    rcases default_cases cls a with h | h | h <;> rw [h] <;> first | trivial | rfl
  | some v => exact hg (a, v) (lookup_mem _ _ _ hl)

private theorem optPy_regular (o : Option Str) : Regular (optPy o) := by cases o <;> trivial
private theorem strs_regular (l : List Str) : Regular (strsPy l) := items_of _ (by
  intro v hv; obtain ⟨s, _, rfl⟩ := List.mem_map.1 hv; trivial)
private theorem list_regular {α : Type} (f : α → Py3) (h : ∀ a, Regular (f a)) (l : List α) : Regular (.list (l.map f)) := items_of _ (by
  intro v hv; obtain ⟨s, _, rfl⟩ := List.mem_map.1 hv; exact h s)
private theorem optEnum_regular {α : Type} (f : α → Str) (h : ∀ a, f a ∈ ldEnumMembers) (o : Option α) : Regular (optEnumPy f o) := by
  cases o with
  | none => trivial
  | some a => exact h a
private theorem optDate_regular (o : Option DateTime) (h : ∀ d ∈ o.toList, Rep d) : Regular (optDatePy o) := by
  cases o with
  | none => trivial
  | some d => exact h d (by simp)

private theorem hash_regular (h : Hash3) : Regular h.toPy := by
  have : ∀ a : HashAlgorithm, a.name ∈ ldEnumMembers := by intro a; cases a <;> decide +kernel
  refine object_regular _ _ (by decide +kernel) ?_
  simp only [List.forall_mem_cons, List.not_mem_nil, false_implies, implies_true, and_true]
  exact ⟨this _, trivial⟩

private theorem identifier_regular (i : ExternalIdentifier3) : Regular i.toPy := by
  have : ∀ a : ExternalIdentifierType, a.name ∈ ldEnumMembers := by intro a; cases a <;> decide +kernel
  refine object_regular _ _ (by decide +kernel) ?_
  simp only [List.forall_mem_cons, List.not_mem_nil, false_implies, implies_true, and_true]
  exact ⟨this _, trivial, optPy_regular _⟩

private theorem reference_regular (i : ExternalReference3) : Regular i.toPy := by
  have : ∀ a : ExternalReferenceType, a.name ∈ ldEnumMembers := by intro a; cases a <;> decide +kernel
  refine object_regular _ _ (by decide +kernel) ?_
  simp only [List.forall_mem_cons, List.not_mem_nil, false_implies, implies_true, and_true]
  exact ⟨this _, strs_regular _, optPy_regular _⟩

private theorem info_regular (c : CreationInfo3) (h : Rep c.created) : Regular c.toPy := by
  refine object_regular _ _ (by decide +kernel) ?_
  simp only [List.forall_mem_cons, List.not_mem_nil, false_implies, implies_true, and_true]
  refine ⟨trivial, h, strs_regular _, ⟨?_, ?_, ?_, trivial⟩, trivial, strs_regular _⟩ <;>
    (show _ ∈ ldEnumMembers; decide +kernel)

private theorem map_regular (m : ExternalMap3) : Regular m.toPy := by
  refine object_regular _ _ (by decide +kernel) ?_
  simp only [List.forall_mem_cons, List.not_mem_nil, false_implies, implies_true, and_true]
  exact ⟨trivial, list_regular _ hash_regular _, optPy_regular _⟩

private theorem namespace_regular (m : NamespaceMap3) : Regular m.toPy := by
  refine object_regular _ _ (by decide +kernel) ?_
  simp only [List.forall_mem_cons, List.not_mem_nil, false_implies, implies_true, and_true]
  exact ⟨trivial, trivial⟩

private theorem range_regular (r : Int × Int) : Regular (rangePy r) := by
  refine object_regular _ _ (by decide +kernel) ?_
  simp only [List.forall_mem_cons, List.not_mem_nil, false_implies, implies_true, and_true]
  exact ⟨trivial, trivial⟩

private theorem relType_regular (t : RelationshipType3) : t.name ∈ ldEnumMembers := by cases t <;> decide +kernel

private theorem rel_regular (r : Relationship3) : ∀ p ∈ r.given, Regular p.2 := by
  have hc : ∀ c : Completeness, c.name ∈ ldEnumMembers := by intro a; cases a <;> decide +kernel
  simp only [Relationship3.given, List.forall_mem_cons, List.not_mem_nil, false_implies, implies_true, and_true]
  exact ⟨trivial, trivial, relType_regular _, strs_regular _, optPy_regular _, optEnum_regular _ hc _⟩

private theorem given_regular (e : Element3) (h : ∀ d ∈ dates e, Rep d) : ∀ p ∈ e.given.2, Regular p.2 := by
  cases e with
  | document d =>
    simp only [Element3.given, List.forall_mem_cons, List.not_mem_nil, false_implies, implies_true, and_true]
    exact ⟨trivial, trivial, strs_regular _, strs_regular _, info_regular _ (h _ (by simp [dates])), optPy_regular _,
      list_regular _ namespace_regular _, list_regular _ map_regular _⟩
  | agent a =>
    simp only [Element3.given, List.forall_mem_cons, List.not_mem_nil, false_implies, implies_true, and_true]
    refine ⟨trivial, ?_, trivial, list_regular _ identifier_regular _⟩
    cases hc : a.creationInfo with
    | none => trivial
    | some c => exact info_regular _ (h _ (by simp [dates, hc]))
  | package p =>
    have hp : ∀ c : PackagePurpose, c.name ∈ ldEnumMembers := by intro a; cases a <;> decide +kernel
    simp only [Element3.given, List.forall_mem_cons, List.not_mem_nil, false_implies, implies_true, and_true]
    exact ⟨trivial, trivial, optPy_regular _, optPy_regular _, optPy_regular _, list_regular _ hash_regular _,
      list_regular _ reference_regular _, list_regular _ identifier_regular _, strs_regular _, strs_regular _,
      optDate_regular _ (fun d hd => h d (by simp only [dates, List.mem_append]; exact .inl (.inl hd))),
      optDate_regular _ (fun d hd => h d (by simp only [dates, List.mem_append]; exact .inl (.inr hd))),
      optDate_regular _ (fun d hd => h d (by simp only [dates, List.mem_append]; exact .inr hd)),
      optEnum_regular _ hp _, optPy_regular _, optPy_regular _, optPy_regular _, optPy_regular _, optPy_regular _, optPy_regular _,
      trivial⟩
  | file f =>
    simp only [Element3.given, List.forall_mem_cons, List.not_mem_nil, false_implies, implies_true, and_true]
    exact ⟨trivial, trivial, optPy_regular _, list_regular _ hash_regular _, optPy_regular _, trivial⟩
  | snippet s =>
    simp only [Element3.given, List.forall_mem_cons, List.not_mem_nil, false_implies, implies_true, and_true]
    refine ⟨trivial, optPy_regular _, optPy_regular _, range_regular _, ?_, optPy_regular _, trivial⟩
    cases s.lineRange with
    | none => trivial
    | some r => exact range_regular r
  | relationship r =>
    have h1 : ∀ c : Scope, c.name ∈ ldEnumMembers := by intro a; cases a <;> decide +kernel
    have h2 : ∀ c : Linkage, c.name ∈ ldEnumMembers := by intro a; cases a <;> decide +kernel
    have h3 : ∀ c : Conditionality, c.name ∈ ldEnumMembers := by intro a; cases a <;> decide +kernel
    simp only [Element3.given]
    split
    · exact rel_regular r
    · intro p hp
      rcases List.mem_append.1 hp with hp | hp
      · exact rel_regular r p hp
      · revert p
        simp only [List.not_mem_nil, List.mem_cons, or_false]
        rintro p hm (rfl | rfl | rfl)
        exacts [optEnum_regular _ h1 _, optEnum_regular _ h2 _, optEnum_regular _ h3 _]
  | annotation a =>
    have h1 : ∀ c : AnnotationType, c.name ∈ ldEnumMembers := by intro a; cases a <;> decide +kernel
    simp only [Element3.given, List.forall_mem_cons, List.not_mem_nil, false_implies, implies_true, and_true]
    exact ⟨trivial, h1 _, trivial, info_regular _ (h _ (by simp [dates])), trivial⟩

/-- the attributes the migration sets are attributes of the class -/
private theorem given_names (e : Element3) : (e.given.2.map (·.1)).Nodup ∧
    ∃ names, ldClasses.lookup e.given.1 = some names ∧ ∀ a ∈ e.given.2.map (·.1), a ∈ names := by
  have look (cls : Str) (ns : List Str) (h : (ldClasses.lookup cls).isSome = true ∧ ns.Nodup ∧
      ∀ a ∈ ns, a ∈ (ldClasses.lookup cls).getD []) :
      ns.Nodup ∧ ∃ names, ldClasses.lookup cls = some names ∧ ∀ a ∈ ns, a ∈ names := by
    obtain ⟨names, hn⟩ := Option.isSome_iff_exists.1 h.1
    exact ⟨h.2.1, names, hn, by simpa only [hn, Option.getD_some] using h.2.2⟩
  cases e with
  | agent a =>
    cases hk : a.kind <;> simp only [Element3.given, hk, agentClass, List.map_cons, List.map_nil] <;>
      exact look _ _ (by decide +kernel)
  | relationship r =>
    simp only [Element3.given]
    split <;> simp only [Relationship3.given, List.map_cons, List.map_nil, List.map_append] <;> exact look _ _ (by decide +kernel)
  | _ => simp only [Element3.given, List.map_cons, List.map_nil]; exact look _ _ (by decide +kernel)

/-- A payload made by the migration (whose dates can be written) is converted: one object per element, in order, with the class as
    `@type`, every non-empty field under its name, and nothing else. -/
theorem migrated (p : Payload) (hd : ∀ e ∈ p.vals, ∀ d ∈ dates e, ∃ s, datetimeToIso d = some s) :
    ∃ js, payloadToJsonLd (p.vals.map Element3.toPy) = .ok js ∧ js.length = p.length ∧
      ∀ (i : Nat) (id : Str) (e : Element3), p[i]? = some (id, e) →
        ∃ fs, js[i]? = some (.obj ((s%"@type", .str e.given.1) :: fs)) ∧ (s%"@type" :: fs.map (·.1)).Nodup ∧
          (∀ a v, (a, v) ∈ e.given.2 → ¬ Empty v → ∃ k j, (a, k) ∈ ldNames ∧ (k, j) ∈ fs ∧ Shown v j) ∧
          (∀ k j, (k, j) ∈ fs → ∃ a v, (a, v) ∈ e.given.2 ∧ ¬ Empty v ∧ (a, k) ∈ ldNames ∧ Shown v j) := by
  have hobj : ∀ e : Element3, ∃ attrs, e.toPy = .obj e.given.1 attrs ∧
      ∀ a v, ¬ Empty v → (('_' :: a, v) ∈ attrs ↔ (a, v) ∈ e.given.2) := by
    intro e
    refine ⟨_, rfl, ?_⟩
    intro a v hv
    obtain ⟨h1, names, h2, h3⟩ := given_names e
    simp only [h2, Option.getD_some, List.mem_map, Prod.mk.injEq, List.cons.injEq, true_and]
    constructor
    · rintro ⟨b, hb, rfl, rfl⟩
      cases hl : e.given.2.lookup b with
      | none =>
        rw [hl] at hv
        refine absurd (show Empty (ldDefault _ _) from ?_) hv
        rcases default_cases e.given.1 b with h | h | h <;> rw [h]
        · exact .list
        · exact .dict
        · exact .none
      | some w => exact lookup_mem _ _ _ hl
    · intro hm
      exact ⟨a, h3 a (List.mem_map.2 ⟨(a, v), hm, rfl⟩), rfl, by rw [mem_lookup _ _ _ h1 hm]; rfl⟩
  have hreg : ∀ e ∈ p.vals, Regular e.toPy := fun e he =>
    object_regular _ _ (by obtain ⟨_, names, h2, _⟩ := given_names e; rw [h2]; rfl) (given_regular e (hd e he))
  obtain ⟨attrs, hattrs⟩ : ∃ attrs : Element3 → List (Str × Py3), ∀ e, e.toPy = .obj e.given.1 (attrs e) ∧
      ∀ a v, ¬ Empty v → (('_' :: a, v) ∈ attrs e ↔ (a, v) ∈ e.given.2) := ⟨fun e => (hobj e).choose, fun e => (hobj e).choose_spec⟩
  obtain ⟨js, h1, h2, h3⟩ := payload_partial (p.vals.map fun e => (e.given.1, attrs e)) (by
    intro q hq
    obtain ⟨e, he, rfl⟩ := List.mem_map.1 hq
    have := hreg e he
    rwa [(hattrs e).1] at this)
  refine ⟨js, ?_, by simpa [Dict.vals] using h2, ?_⟩
  · rw [← h1, List.map_map]
    congr 1
    exact List.map_congr_left (fun e _ => (hattrs e).1)
  · intro i id e hi
    obtain ⟨fs, h4, h5, h6⟩ := h3 i e.given.1 (attrs e) (by simp [Dict.vals, hi])
    refine ⟨fs, h4, h6, ?_, ?_⟩
    · intro a v ha hv
      exact field_kept _ _ h5 a v (((hattrs e).2 a v hv).2 ha) hv
    · intro k j hk
      obtain ⟨a, v, g1, g2, g3⟩ := field_given _ _ h5 k j hk
      exact ⟨a, v, ((hattrs e).2 a v g2).1 g1, g2, g3⟩

/-- The same written out: every element of a migrated payload becomes the object `Spec/LdMigrated` gives for it, field by field, in order. -/
theorem migrated_objects (p : Payload) (hd : ∀ e ∈ p.vals, ∀ d ∈ Spec.Ld.dates e, ∃ s, datetimeToIso d = some s) :
    payloadToJsonLd (p.vals.map Element3.toPy) = .ok (p.vals.map Spec.Ld.element) := LdMigrated.payload_eq _ hd

/-- For example a file: its fields and their names. -/
theorem file_fields (f : File3) : ∃ fs, toJsonLd (Element3.file f).toPy = .ok (.obj ((s%"@type", .str s%"File") :: fs)) ∧
    ∀ k v, (k, v) ∈ [(s%"@id", f.spdxId), (s%"name", f.name), (s%"attributionText", f.attributionText)] →
      ((k, Json.str v) ∈ fs ↔ v ≠ []) := by
  obtain ⟨js, h1, h2, h3⟩ := migrated [(f.spdxId, .file f)] (by simp [Dict.vals, dates])
  obtain ⟨fs, h4, h5, h6, h7⟩ := h3 0 f.spdxId (.file f) rfl
  have hj : toJsonLd (Element3.file f).toPy = .ok (.obj ((s%"@type", .str s%"File") :: fs)) := by
    simp only [Dict.vals, List.map_cons, List.map_nil, payloadToJsonLd] at h1
    cases hc : toJsonLd (Element3.file f).toPy with
    | error e => rw [hc] at h1; cases h1
    | ok j =>
      rw [hc] at h1
      cases h1
      simpa [Element3.given] using h4
  have hname : ∀ p ∈ ldNames, ldNames.lookup p.1 = some p.2 := by decide +kernel
  have hinj : ∀ p ∈ ldNames, ∀ q ∈ ldNames, p.2 = q.2 → p.1 = q.1 := by decide +kernel
  have conv : ∀ (a k v : Str), ldNames.lookup a = some k → (a, Py3.str v) ∈ (Element3.file f).given.2 →
      ((k, Json.str v) ∈ fs ↔ v ≠ []) := by
    intro a k v hl hm
    constructor
    · rintro hk rfl
      obtain ⟨b, w, g1, g2, g3, g4⟩ := h7 k _ hk
      have hb : b = a := hinj (b, k) g3 (a, k) (lookup_mem _ _ _ hl) rfl
      subst hb
      have hn := (given_names (.file f)).1
      have e1 := mem_lookup _ _ _ hn g1
      rw [mem_lookup _ _ _ hn hm] at e1
      cases e1
      exact g2 .text
    · intro hv
      obtain ⟨k', j, g1, g2, g3⟩ := h6 a (.str v) hm (by intro h; cases h; exact hv rfl)
      have := hname _ g1
      rw [hl] at this
      cases this
      cases g3
      exact g2
  refine ⟨fs, hj, ?_⟩
  intro k v hm
  simp only [List.mem_cons, Prod.mk.injEq, List.not_mem_nil, or_false] at hm
  rcases hm with ⟨rfl, rfl⟩ | ⟨rfl, rfl⟩ | ⟨rfl, rfl⟩
  · exact conv s%"spdx_id" _ _ (by decide +kernel) (by simp [Element3.given])
  · exact conv s%"name" _ _ (by decide +kernel) (by simp [Element3.given])
  · exact conv s%"attribution_text" _ _ (by decide +kernel) (by simp [Element3.given])

/-- What is missing from the full property: an element with a non-empty dict (e.g. the parameters of a build) makes the conversion fail … -/
theorem dict_field_fails :
    toJsonLd (ldObject s%"Build" [(s%"spdx_id", .str s%"b"), (s%"build_type", .str s%"t"), (s%"parameters", .dict [(s%"k", some s%"v")])]) =
      .error .vars := by decide +kernel

/-- … and the number 0 and `False` count as empty, so the statement that a vulnerability is not exploited disappears. -/
theorem false_dropped :
    toJsonLd (ldObject s%"ExploitCatalogVulnAssessmentRelationship" [(s%"spdx_id", .str s%"v"), (s%"exploited", .bool false)]) =
      .ok (.obj [(s%"@type", .str s%"ExploitCatalogVulnAssessmentRelationship"), (s%"@id", .str s%"v")]) := by decide +kernel

/-- The names of members, from which the terms are made, are those the members are declared with. -/
theorem member_names : Spec.Named s%"HashAlgorithm" HashAlgorithm.name ∧ Spec.Named s%"RelationshipType3" RelationshipType3.name ∧
    Spec.Named s%"Completeness" Completeness.name ∧ Spec.Named s%"Scope" Scope.name ∧ Spec.Named s%"Linkage" Linkage.name ∧
    Spec.Named s%"Conditionality" Conditionality.name ∧ Spec.Named s%"ExternalIdentifierType" ExternalIdentifierType.name ∧
    Spec.Named s%"ExternalReferenceType" ExternalReferenceType.name := by
  refine ⟨?_, ?_, ?_, ?_, ?_, ?_, ?_, ?_⟩ <;> (intro r; cases r <;> rfl)

/-! Non-vacuity -/
private def sampleFile : File3 := ⟨s%"ns#SPDXRef-F", s%"f.c", some s%"", [⟨.SHA3_256, s%"ab"⟩], none, s%""⟩
example : toJsonLd (Element3.file sampleFile).toPy = .ok (.obj [(s%"@type", .str s%"File"), (s%"@id", .str s%"ns#SPDXRef-F"),
    (s%"name", .str s%"f.c"), (s%"verifiedUsing", .arr [.obj [(s%"@type", .str s%"Hash"), (s%"algorithm", .str s%"sha3256"),
      (s%"hashValue", .str s%"ab")]])]) := by decide +kernel
private def sampleRel : Relationship3 :=
  ⟨s%"ns#R", s%"ns#A", .DEPENDS_ON, [s%"ns#B", s%""], none, some .COMPLETE, some (some .BUILD, none, some .REQUIRED)⟩
example : toJsonLd (Element3.relationship sampleRel).toPy = .ok (.obj [(s%"@type", .str s%"SoftwareDependencyRelationship"),
    (s%"@id", .str s%"ns#R"), (s%"from", .str s%"ns#A"), (s%"to", .arr [.str s%"ns#B"]), (s%"relationshipType", .str s%"dependsOn"),
    (s%"completeness", .str s%"complete"), (s%"scope", .str s%"build"), (s%"conditionality", .str s%"required")]) := by decide +kernel
example : ∀ e ∈ Dict.vals [(s%"ns#F", Element3.file sampleFile), (s%"ns#R", .relationship sampleRel)],
    ∀ d ∈ dates e, ∃ s, datetimeToIso d = some s := by simp [Dict.vals, dates]
example : ¬ Empty (.list [.none]) := by rintro ⟨⟩

end Spdx.C46
