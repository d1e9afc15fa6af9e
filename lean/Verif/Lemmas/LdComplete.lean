import Verif.Lemmas.LdMeaning
import Verif.Spec.LdComplete
/- Which migrated elements have all properties the vocabulary wants. -/
namespace Spdx.LdComplete
open Spdx Spec.Vocab LdMeaning

/-! ### The classes above a class -/

/-- a set of classes that contains with a class those above it -/
def closedB (A : List Str) : Bool := owlGraph.all fun n => match n.parent with
  | some p => !A.contains (owlIri n.id) || A.contains (owlIri p)
  | none => true

theorem closedB_sound {A : List Str} (h : closedB A = true) {c d : Str} (hc : c ∈ A) (hs : SubClass c d) : d ∈ A := by
  induction hs with
  | refl => exact hc
  | step n p d hn hp _ ih =>
    have := List.all_eq_true.1 h n hn
    rw [hp] at this
    simp only [Bool.or_eq_true, Bool.not_eq_true', List.contains_eq_mem, decide_eq_true_eq, decide_eq_false_iff_not] at this
    exact ih (this.resolve_left (fun h => h hc))

/-- What is known about a class: those above it (and itself), the keys it wants, the keys that may have several values, all keys. -/
structure ClassInfo where
  name : Str
  above : List Str
  wanted : List Str
  keys : List (Str × Bool)

def infoB (i : ClassInfo) : Bool :=
  (match termIri contextFile i.name with
   | some c => i.above.contains c &&
      (i.wanted.all fun k => owlGraph.any fun n => (n.shapes.any fun s => decide (1 ≤ s.minCount) && decide (termIri contextFile k = some (owlIri s.path))) &&
        subClassB 6 c (owlIri n.id))
   | none => false) && closedB i.above &&
  (owlGraph.all fun n => !i.above.contains (owlIri n.id) || n.shapes.all fun s =>
    (decide (s.minCount = 0) || decide (s.minCount = 1) && i.wanted.any fun k => decide (termIri contextFile k = some (owlIri s.path))) &&
    (decide (s.maxCount = none) || decide (s.maxCount = some 1) &&
      i.keys.all fun k => !k.2 || decide (termIri contextFile k.1 ≠ some (owlIri s.path)))) &&
  decide (i.keys.filterMap fun k => termIri contextFile k.1).Nodup && decide ((i.keys.map (·.1)).Nodup) &&
  decide (termIri contextFile s%"@type" = none) && i.wanted.all fun k => i.keys.any fun x => decide (x.1 = k)

/-! ### Parts of objects -/

/-- a part of an object: nothing or one field; with one value at most, if it is not one with several -/
def Seg (k : Str) (many : Bool) (s : List (Str × Json)) : Prop :=
  s = [] ∨ ∃ v, s = [(k, v)] ∧ (many = false → (values v).length ≤ 1)

def Segs : List (Str × Bool) → List (List (Str × Json)) → Prop
  | [], [] => True
  | k :: ks, s :: ss => Seg k.1 k.2 s ∧ Segs ks ss
  | _, _ => False

/-- a field with a value -/
def Present (k : Str) (s : List (Str × Json)) : Prop := ∃ v, (k, v) ∈ s ∧ values v ≠ []

theorem segs_mem {ks : List (Str × Bool)} {ss : List (List (Str × Json))} (h : Segs ks ss) {f : Str × Json} (hf : f ∈ ss.flatten) :
    ∃ b, (f.1, b) ∈ ks ∧ (b = false → (values f.2).length ≤ 1) := by
  induction ks generalizing ss with
  | nil =>
    cases ss with
    | nil => cases hf
    | cons => cases h
  | cons k ks ih =>
    cases ss with
    | nil => cases h
    | cons s ss =>
      rw [List.flatten_cons, List.mem_append] at hf
      rcases hf with hf | hf
      · rcases h.1 with rfl | ⟨v, rfl, hv⟩
        · cases hf
        · rw [List.mem_singleton] at hf
          subst hf
          exact ⟨k.2, List.mem_cons_self .., hv⟩
      · obtain ⟨b, h1, h2⟩ := ih h.2 hf
        exact ⟨b, List.mem_cons_of_mem _ h1, h2⟩

/-- at most one field for a property -/
theorem segs_filter {ks : List (Str × Bool)} {ss : List (List (Str × Json))} (h : Segs ks ss)
    (hn : (ks.filterMap fun k => termIri contextFile k.1).Nodup) (p : Str) :
    (ss.flatten.filter fun f => termIri contextFile f.1 = some p).length ≤ 1 := by
  induction ks generalizing ss with
  | nil =>
    cases ss with
    | nil => simp
    | cons => cases h
  | cons k ks ih =>
    cases ss with
    | nil => cases h
    | cons s ss =>
      rw [List.flatten_cons, List.filter_append, List.length_append]
      have ih := ih h.2 (by
        rw [List.filterMap_cons] at hn
        split at hn
        · exact hn
        · exact (List.nodup_cons.1 hn).2)
      rcases h.1 with rfl | ⟨v, rfl, hv⟩
      · simpa using ih
      · by_cases hk : termIri contextFile k.1 = some p
        · have : ss.flatten.filter (fun f => decide (termIri contextFile f.1 = some p)) = [] := by
            rw [List.filter_eq_nil_iff]
            intro f hf
            rw [decide_eq_true_eq]
            intro e
            obtain ⟨b, h1, _⟩ := segs_mem h.2 hf
            rw [List.filterMap_cons, hk] at hn
            exact (List.nodup_cons.1 hn).1 (List.mem_filterMap.2 ⟨_, h1, e⟩)
          rw [this]
          simp [hk]
        · simpa [hk] using ih

theorem length_one {α : Type} {l : List α} (h : l.length ≤ 1) : l = [] ∨ ∃ a, l = [a] := by
  match l, h with
  | [], _ => exact .inl rfl
  | [a], _ => exact .inr ⟨a, rfl⟩
  | _ :: _ :: _, h => simp at h

theorem filterMap_inj {α β : Type} {g : α → Option β} {l : List α} (h : (l.filterMap g).Nodup) {a b : α} {x : β} (ha : a ∈ l) (hb : b ∈ l)
    (ga : g a = some x) (gb : g b = some x) : a = b := by
  induction l with
  | nil => cases ha
  | cons y l ih =>
    rw [List.filterMap_cons] at h
    rcases List.mem_cons.1 ha with h1 | h1 <;> rcases List.mem_cons.1 hb with h2 | h2
    · rw [h1, h2]
    · rw [← h1, ga] at h
      exact absurd (List.mem_filterMap.2 ⟨b, h2, gb⟩) (List.nodup_cons.1 h).1
    · rw [← h2, gb] at h
      exact absurd (List.mem_filterMap.2 ⟨a, h1, ga⟩) (List.nodup_cons.1 h).1
    · split at h
      · exact ih h h1 h2
      · exact ih (List.nodup_cons.1 h).2 h1 h2

theorem counts_iff {i : ClassInfo} (hi : infoB i = true) {ss : List (List (Str × Json))} (hs : Segs i.keys ss) :
    CountsOk ((s%"@type", .str i.name) :: ss.flatten) (clsIri i.name) ↔ ∀ k ∈ i.wanted, Present k ss.flatten := by
  unfold infoB at hi
  simp only [Bool.and_eq_true, decide_eq_true_eq] at hi
  obtain ⟨⟨⟨⟨⟨⟨h1, h2⟩, h3⟩, h4⟩, h5⟩, h6⟩, h0⟩ := hi
  unfold clsIri
  split at h1
  case h_2 => cases h1
  next c hc =>
  rw [hc, Option.getD_some]
  rw [Bool.and_eq_true] at h1
  have hpv : ∀ p, propertyValues ((s%"@type", .str i.name) :: ss.flatten) p =
      (ss.flatten.filter fun f => termIri contextFile f.1 = some p).flatMap fun f => values f.2 := by
    intro p
    unfold propertyValues
    rw [List.filter_cons, if_neg (by rw [h6]; simp)]
  constructor
  · intro h k hk
    obtain ⟨n, hn, h7⟩ := List.any_eq_true.1 (List.all_eq_true.1 h1.2 k hk)
    rw [Bool.and_eq_true] at h7
    obtain ⟨s, hs', h8⟩ := List.any_eq_true.1 h7.1
    simp only [Bool.and_eq_true, decide_eq_true_eq] at h8
    have := (h n hn (subClassB_sound _ _ _ h7.2) s hs').1
    rw [hpv] at this
    have hne : ((ss.flatten.filter fun f => termIri contextFile f.1 = some (owlIri s.path)).flatMap fun f => values f.2) ≠ [] := by
      intro e
      rw [e] at this
      have := h8.1
      simp at *
      omega
    obtain ⟨v, hv⟩ := List.exists_mem_of_ne_nil _ hne
    obtain ⟨f, hf, hv⟩ := List.mem_flatMap.1 hv
    obtain ⟨hf, he⟩ := List.mem_filter.1 hf
    rw [decide_eq_true_eq] at he
    obtain ⟨x, hx, hxk⟩ := List.any_eq_true.1 (List.all_eq_true.1 h0 k hk)
    rw [decide_eq_true_eq] at hxk
    obtain ⟨b, hb, _⟩ := segs_mem hs hf
    have e := filterMap_inj h4 hb hx he (by rw [hxk]; exact h8.2)
    have e : f.1 = k := by rw [← hxk, ← e]
    exact ⟨f.2, e ▸ hf, fun e => by rw [e] at hv; cases hv⟩
  · intro h n hn hsub s hs'
    have hin := closedB_sound h2 (by simpa using h1.1) hsub
    have h7 := List.all_eq_true.1 h3 n hn
    rw [Bool.or_eq_true, Bool.not_eq_true', List.contains_eq_mem, decide_eq_false_iff_not] at h7
    have h7 := List.all_eq_true.1 (h7.resolve_left (fun hh => hh hin)) s hs'
    simp only [Bool.and_eq_true, Bool.or_eq_true, decide_eq_true_eq] at h7
    rw [hpv]
    refine ⟨?_, ?_⟩
    · rcases h7.1 with h8 | ⟨h8, h9⟩
      · rw [h8]; exact Nat.zero_le _
      · obtain ⟨k, hk, h9⟩ := List.any_eq_true.1 h9
        rw [decide_eq_true_eq] at h9
        obtain ⟨v, hv, hne⟩ := h k hk
        obtain ⟨w, hw⟩ := List.exists_mem_of_ne_nil _ hne
        rw [h8]
        refine List.length_pos_of_mem (a := w) (List.mem_flatMap.2 ⟨(k, v), List.mem_filter.2 ⟨hv, by simpa using h9⟩, hw⟩)
    · intro m hm
      rcases h7.2 with h8 | ⟨h8, h9⟩
      · rw [h8] at hm; cases hm
      · rw [h8] at hm
        cases hm
        rcases length_one (segs_filter hs h4 (owlIri s.path)) with e | ⟨f, e⟩
        · rw [e]; simp
        · have hf : f ∈ ss.flatten.filter fun f => termIri contextFile f.1 = some (owlIri s.path) := by rw [e]; exact List.mem_singleton.2 rfl
          obtain ⟨hf, he⟩ := List.mem_filter.1 hf
          rw [decide_eq_true_eq] at he
          obtain ⟨b, hb, hl⟩ := segs_mem hs hf
          rw [e]
          simp only [List.flatMap_cons, List.flatMap_nil, List.append_nil]
          refine hl ?_
          have := List.all_eq_true.1 h9 _ hb
          simp only [Bool.or_eq_true, Bool.not_eq_true', decide_eq_true_eq] at this
          exact this.resolve_right (fun h => h he)

/-! ### Objects -/

theorem complete_arr (l : List Json) : Complete (.arr l) ↔ ∀ j ∈ l, Complete j := by
  unfold Complete
  rw [objects]
  simp only [mem_objectsList]
  exact ⟨fun h j hj fs hf => h fs ⟨j, hj, hf⟩, fun h fs ⟨j, hj, hf⟩ => h j hj fs hf⟩

theorem complete_str (s : Str) : Complete (.str s) := by intro fs h; simp [objects] at h
theorem complete_num (i : Int) : Complete (.num i) := by intro fs h; simp [objects] at h

/-- the objects below a part of an object have all they need -/
def Inner (s : List (Str × Json)) : Prop := ∀ f ∈ s, Complete f.2

/-- the part of an object with a key -/
def segAt (k : Str) : List (Str × Bool) → List (List (Str × Json)) → List (Str × Json)
  | x :: ks, s :: ss => if x.1 = k then s else segAt k ks ss
  | _, _ => []

theorem present_append (k : Str) (s t : List (Str × Json)) : Present k (s ++ t) ↔ Present k s ∨ Present k t := by
  unfold Present
  constructor
  · rintro ⟨v, h, hv⟩
    exact (List.mem_append.1 h).elim (fun h => .inl ⟨v, h, hv⟩) (fun h => .inr ⟨v, h, hv⟩)
  · rintro (⟨v, h, hv⟩ | ⟨v, h, hv⟩)
    · exact ⟨v, List.mem_append_left _ h, hv⟩
    · exact ⟨v, List.mem_append_right _ h, hv⟩

theorem present_iff {ks : List (Str × Bool)} {ss : List (List (Str × Json))} (hs : Segs ks ss) (hn : (ks.map (·.1)).Nodup) (k : Str) :
    Present k ss.flatten ↔ Present k (segAt k ks ss) := by
  induction ks generalizing ss with
  | nil =>
    cases ss with
    | nil => exact Iff.rfl
    | cons => cases hs
  | cons x ks ih =>
    cases ss with
    | nil => cases hs
    | cons s ss =>
      rw [List.map_cons, List.nodup_cons] at hn
      rw [segAt, List.flatten_cons, present_append]
      by_cases hx : x.1 = k
      · rw [if_pos hx]
        refine or_iff_left ?_
        rintro ⟨v, h, _⟩
        obtain ⟨b, hb, _⟩ := segs_mem hs.2 h
        exact hn.1 (hx ▸ List.mem_map.2 ⟨_, hb, rfl⟩)
      · rw [if_neg hx, ← ih hs.2 hn.2]
        refine or_iff_right ?_
        rintro ⟨v, h, _⟩
        rcases hs.1 with rfl | ⟨w, rfl, _⟩
        · cases h
        · rw [List.mem_singleton] at h
          cases h
          exact hx rfl

theorem object_iff (i : ClassInfo) (hi : infoB i = true) {ss : List (List (Str × Json))} (hs : Segs i.keys ss) :
    Complete (Spec.Ld.object i.name ss) ↔ (∀ k ∈ i.wanted, Present k (segAt k i.keys ss)) ∧ ∀ s ∈ ss, Inner s := by
  have hc := counts_iff hi hs
  have hn : (i.keys.map (·.1)).Nodup := by
    unfold infoB at hi
    simp only [Bool.and_eq_true, decide_eq_true_eq] at hi
    exact hi.1.1.2
  have ht : termIri contextFile i.name = some (clsIri i.name) := by
    unfold infoB at hi
    simp only [Bool.and_eq_true] at hi
    have h1 := hi.1.1.1.1.1.1
    unfold clsIri
    split at h1
    · next c hc => rw [hc]; rfl
    · cases h1
  have hl : ∀ l : List (Str × Json), ((s%"@type", Json.str i.name) :: l).lookup s%"@type" = some (.str i.name) := fun l => by
    rw [List.lookup_cons]; rfl
  simp only [present_iff hs hn] at hc
  rw [← hc]
  unfold Spec.Ld.object Complete
  rw [objects]
  simp only [List.mem_cons, mem_objectsFields]
  constructor
  · intro h
    refine ⟨?_, ?_⟩
    · obtain ⟨t, c, h1, h2, h3⟩ := h _ (.inl rfl)
      rw [hl] at h1
      cases h1
      rw [ht] at h2
      cases h2
      exact h3
    · intro s hs f hf fs hfs
      exact h fs (.inr ⟨f, .inr (List.mem_flatten.2 ⟨s, hs, hf⟩), hfs⟩)
  · rintro ⟨h1, h2⟩ fs (rfl | ⟨f, rfl | hf, hfs⟩)
    · exact ⟨_, _, hl _, ht, h1⟩
    · simp [objects] at hfs
    · obtain ⟨s, hs, hf⟩ := List.mem_flatten.1 hf
      exact h2 s hs f hf fs hfs

/-! ### Kinds of parts -/

section
variable {k : Str} {b : Bool}

theorem seg_one (s : Str) : Seg k b [(k, .str s)] := .inr ⟨_, rfl, fun _ => by simp [values]⟩
theorem seg_text (s : Str) : Seg k b (Spec.Ld.text k s) := by
  unfold Spec.Ld.text
  split
  · exact .inl rfl
  · exact seg_one s
theorem seg_opt (o : Option Str) : Seg k b (Spec.Ld.opt k o) := by
  cases o with
  | none => exact .inl rfl
  | some s => exact seg_text s
theorem seg_num (i : Int) : Seg k b (Spec.Ld.num k i) := by
  unfold Spec.Ld.num
  split
  · exact .inl rfl
  · exact .inr ⟨_, rfl, fun _ => by simp [values]⟩
theorem seg_date (o : Option DateTime) : Seg k b (Spec.Ld.date k o) := by
  cases o with
  | none => exact .inl rfl
  | some s => exact seg_one _
theorem seg_texts (l : List Str) : Seg k true (Spec.Ld.texts k l) := by
  unfold Spec.Ld.texts
  split
  · exact .inl rfl
  · exact .inr ⟨_, rfl, fun h => (by cases h)⟩
theorem seg_objects {α : Type} (f : α → Json) (l : List α) : Seg k true (Spec.Ld.objects k f l) := by
  unfold Spec.Ld.objects
  split
  · exact .inl rfl
  · exact .inr ⟨_, rfl, fun h => (by cases h)⟩
theorem seg_obj (c : Str) (ss : List (List (Str × Json))) : Seg k b [(k, Spec.Ld.object c ss)] :=
  .inr ⟨_, rfl, fun _ => by simp [values, Spec.Ld.object]⟩
theorem seg_optObject {α : Type} {f : α → Json} (hf : ∀ a, ∃ c ss, f a = Spec.Ld.object c ss) (o : Option α) : Seg k b (Spec.Ld.optObject k f o) := by
  cases o with
  | none => exact .inl rfl
  | some a =>
    obtain ⟨c, ss, h⟩ := hf a
    show Seg k b [(k, f a)]
    rw [h]
    exact seg_obj c ss
theorem seg_member (n : Str) : Seg k b [(k, Spec.Ld.member n)] := seg_one _
theorem seg_optMember {α : Type} (n : α → Str) (o : Option α) : Seg k b (Spec.Ld.optMember k n o) := by
  cases o with
  | none => exact .inl rfl
  | some s => exact seg_one _

theorem inner_nil : Inner [] := fun f h => by cases h
theorem inner_str (s : Str) : Inner [(k, .str s)] := fun f h => by rw [List.mem_singleton] at h; subst h; exact complete_str s
theorem inner_text (s : Str) : Inner (Spec.Ld.text k s) := by
  unfold Spec.Ld.text
  split
  · exact inner_nil
  · exact inner_str s
theorem inner_opt (o : Option Str) : Inner (Spec.Ld.opt k o) := by
  cases o with
  | none => exact inner_nil
  | some s => exact inner_text s
theorem inner_num (i : Int) : Inner (Spec.Ld.num k i) := by
  unfold Spec.Ld.num
  split
  · exact inner_nil
  · intro f h; rw [List.mem_singleton] at h; subst h; exact complete_num i
theorem inner_date (o : Option DateTime) : Inner (Spec.Ld.date k o) := by
  cases o with
  | none => exact inner_nil
  | some s => exact inner_str _
theorem inner_texts (l : List Str) : Inner (Spec.Ld.texts k l) := by
  unfold Spec.Ld.texts
  split
  · exact inner_nil
  · intro f h
    rw [List.mem_singleton] at h
    subst h
    rw [complete_arr]
    intro j hj
    obtain ⟨s, _, rfl⟩ := List.mem_map.1 hj
    exact complete_str s
theorem inner_member (n : Str) : Inner [(k, Spec.Ld.member n)] := inner_str _
theorem inner_optMember {α : Type} (n : α → Str) (o : Option α) : Inner (Spec.Ld.optMember k n o) := by
  cases o with
  | none => exact inner_nil
  | some s => exact inner_str _
theorem inner_obj (j : Json) : Inner [(k, j)] ↔ Complete j := by simp [Inner]
theorem inner_optObject {α : Type} (f : α → Json) (o : Option α) : Inner (Spec.Ld.optObject k f o) ↔ ∀ a ∈ o, Complete (f a) := by
  cases o with
  | none => exact ⟨fun _ a h => (by cases h), fun _ => inner_nil⟩
  | some a => show Inner [(k, f a)] ↔ _; rw [inner_obj]; simp
theorem inner_objects {α : Type} (f : α → Json) (l : List α) : Inner (Spec.Ld.objects k f l) ↔ ∀ a ∈ l, Complete (f a) := by
  unfold Spec.Ld.objects
  split
  · next h => subst h; exact ⟨fun _ a h => (by cases h), fun _ => inner_nil⟩
  · rw [inner_obj, complete_arr]; simp

theorem present_str (s : Str) : Present k [(k, .str s)] := ⟨_, List.mem_singleton.2 rfl, by simp [values]⟩
theorem present_text (s : Str) : Present k (Spec.Ld.text k s) ↔ s ≠ [] := by
  unfold Spec.Ld.text
  split
  · next h => exact ⟨fun ⟨_, h, _⟩ => (by cases h), fun hn => absurd h hn⟩
  · next h => exact ⟨fun _ => h, fun _ => present_str s⟩
theorem present_num (i : Int) : Present k (Spec.Ld.num k i) ↔ i ≠ 0 := by
  unfold Spec.Ld.num
  split
  · next h => exact ⟨fun ⟨_, h, _⟩ => (by cases h), fun hn => absurd h hn⟩
  · next h => exact ⟨fun _ => h, fun _ => ⟨_, List.mem_singleton.2 rfl, by simp [values]⟩⟩
theorem present_texts (l : List Str) : Present k (Spec.Ld.texts k l) ↔ Some1 l := by
  unfold Spec.Ld.texts
  split
  · next h => subst h; exact ⟨fun ⟨_, h, _⟩ => (by cases h), fun ⟨_, h, _⟩ => (by cases h)⟩
  · constructor
    · rintro ⟨v, h, hv⟩
      rw [List.mem_singleton] at h
      cases h
      obtain ⟨j, hj⟩ := List.exists_mem_of_ne_nil _ hv
      obtain ⟨s, hs, _⟩ := List.mem_map.1 hj
      obtain ⟨hs, hn⟩ := List.mem_filter.1 hs
      exact ⟨s, hs, by simpa using hn⟩
    · rintro ⟨s, hs, hn⟩
      refine ⟨_, List.mem_singleton.2 rfl, ?_⟩
      exact List.ne_nil_of_mem (List.mem_map.2 ⟨s, List.mem_filter.2 ⟨hs, by simpa using hn⟩, rfl⟩)
theorem present_member (n : Str) : Present k [(k, Spec.Ld.member n)] := present_str _
end

/-! ### Classes -/

def element' : List Str := [s%"core:Element", s%"core:Payload"].map owlIri
def artifact : List Str := [s%"software:SoftwareArtifact", s%"core:Artifact"].map owlIri ++ element'

def hashInfo : ClassInfo := ⟨s%"Hash", [s%"core:Hash", s%"core:IntegrityMethod"].map owlIri, [s%"algorithm", s%"hashValue"],
  [(s%"algorithm", false), (s%"hashValue", false)]⟩

theorem hash_iff (h : Hash3) : Complete (Spec.Ld.hash h) ↔ h.hashValue ≠ [] := by
  refine (object_iff hashInfo (by decide +kernel) ?_).trans ?_
  · exact ⟨seg_member _, seg_text _, trivial⟩
  simp [hashInfo, segAt, present_text, present_member, inner_member, inner_text]

def identifierInfo : ClassInfo := ⟨s%"ExternalIdentifier", [s%"core:ExternalIdentifier"].map owlIri,
  [s%"externalIdentifierType", s%"identifier"], [(s%"externalIdentifierType", false), (s%"identifier", false), (s%"comment", false)]⟩

theorem identifier_iff (i : ExternalIdentifier3) : Complete (Spec.Ld.identifier i) ↔ i.identifier ≠ [] := by
  refine (object_iff identifierInfo (by decide +kernel) ?_).trans ?_
  · exact ⟨seg_member _, seg_text _, seg_opt _, trivial⟩
  simp [identifierInfo, segAt, present_text, present_member, inner_member, inner_text, inner_opt]

def referenceInfo : ClassInfo := ⟨s%"ExternalReference", [s%"core:ExternalReference"].map owlIri, [],
  [(s%"externalReferenceType", false), (s%"locator", true), (s%"comment", false)]⟩

theorem reference_ok (r : ExternalReference3) : Complete (Spec.Ld.reference r) := by
  refine (object_iff referenceInfo (by decide +kernel) ?_).2 ?_
  · exact ⟨seg_member _, seg_texts _, seg_opt _, trivial⟩
  simp [referenceInfo, inner_member, inner_texts, inner_opt]

def infoInfo : ClassInfo := ⟨s%"CreationInfo", [s%"core:CreationInfo"].map owlIri, [s%"createdBy", s%"profile"],
  [(s%"specVersion", false), (s%"created", false), (s%"createdBy", true), (s%"profile", true), (s%"dataLicense", false),
   (s%"createdUsing", true)]⟩

theorem info_iff (c : CreationInfo3) : Complete (Spec.Ld.info c) ↔ Some1 c.createdBy := by
  refine (object_iff infoInfo (by decide +kernel) ?_).trans ?_
  · exact ⟨seg_text _, seg_date _, seg_texts _, .inr ⟨_, rfl, fun h => by cases h⟩, seg_text _, seg_texts _, trivial⟩
  have h1 : Present s%"profile" [(s%"profile", .arr [.str s%"core", .str s%"software", .str s%"licensing"])] :=
    ⟨_, List.mem_singleton.2 rfl, by simp [values]⟩
  have h2 : Inner [(s%"profile", .arr [.str s%"core", .str s%"software", .str s%"licensing"])] := by
    rw [inner_obj, complete_arr]
    simp [complete_str]
  simp [infoInfo, segAt, present_texts, h1, h2, inner_text, inner_texts, inner_date]

def mapInfo : ClassInfo := ⟨s%"ExternalMap", [s%"core:ExternalMap"].map owlIri, [s%"externalId"],
  [(s%"externalId", false), (s%"verifiedUsing", true), (s%"definingDocument", false)]⟩

theorem map_iff (m : ExternalMap3) : Complete (Spec.Ld.externalMap m) ↔ m.externalId ≠ [] ∧ ∀ h ∈ m.verifiedUsing, h.hashValue ≠ [] := by
  refine (object_iff mapInfo (by decide +kernel) ?_).trans ?_
  · exact ⟨seg_text _, seg_objects _ _, seg_opt _, trivial⟩
  simp [mapInfo, segAt, present_text, inner_objects, inner_text, inner_opt, hash_iff]

def namespaceInfo : ClassInfo := ⟨s%"NamespaceMap", [s%"core:NamespaceMap"].map owlIri, [s%"prefix", s%"namespace"],
  [(s%"prefix", false), (s%"namespace", false)]⟩

theorem namespace_iff (m : NamespaceMap3) : Complete (Spec.Ld.namespaceMap m) ↔ m.nsPrefix ≠ [] ∧ m.namespaceIri ≠ [] := by
  refine (object_iff namespaceInfo (by decide +kernel) ?_).trans ?_
  · exact ⟨seg_text _, seg_text _, trivial⟩
  simp [namespaceInfo, segAt, present_text, inner_text]

def rangeInfo : ClassInfo := ⟨s%"PositiveIntegerRange", [s%"core:PositiveIntegerRange"].map owlIri, [s%"begin", s%"end"],
  [(s%"begin", false), (s%"end", false)]⟩

theorem range_iff (r : Int × Int) : Complete (Spec.Ld.range r) ↔ r.1 ≠ 0 ∧ r.2 ≠ 0 := by
  refine (object_iff rangeInfo (by decide +kernel) ?_).trans ?_
  · exact ⟨seg_num _, seg_num _, trivial⟩
  simp [rangeInfo, segAt, present_num, inner_num]

def documentInfo : ClassInfo := ⟨s%"SpdxDocument", [s%"core:SpdxDocument", s%"core:Bundle", s%"core:ElementCollection"].map owlIri ++ element',
  [s%"name", s%"rootElement", s%"element"],
  [(s%"@id", false), (s%"creationInfo", false), (s%"name", false), (s%"comment", false), (s%"element", true), (s%"rootElement", true),
   (s%"namespaces", true), (s%"imports", true)]⟩

theorem document_iff (d : SpdxDocument3) : Complete (Spec.Ld.element (.document d)) ↔ Full (.document d) := by
  refine (object_iff documentInfo (by decide +kernel) ?_).trans ?_
  · exact ⟨seg_text _, seg_obj _ _, seg_text _, seg_opt _, seg_texts _, seg_texts _, seg_objects _ _, seg_objects _ _, trivial⟩
  simp [documentInfo, segAt, present_text, present_texts, inner_text, inner_opt, inner_texts, inner_objects, inner_obj, info_iff, map_iff,
    namespace_iff, Full]
  exact ⟨fun ⟨⟨a, b, c⟩, d, e, f⟩ => ⟨d, a, c, b, e, f⟩, fun ⟨d, a, c, b, e, f⟩ => ⟨⟨a, b, c⟩, d, e, f⟩⟩

def agentInfo (n c : Str) (cs : List Str) : ClassInfo := ⟨n, owlIri c :: cs.map owlIri ++ element', [],
  [(s%"@id", false), (s%"creationInfo", false), (s%"name", false), (s%"externalIdentifier", true)]⟩

theorem agent_iff (a : Agent3) : Complete (Spec.Ld.element (.agent a)) ↔ Full (.agent a) := by
  have hf : ∀ c : CreationInfo3, ∃ k ss, Spec.Ld.info c = Spec.Ld.object k ss := fun c => ⟨_, _, rfl⟩
  unfold Spec.Ld.element Full
  dsimp only
  have key : ∀ n c cs, infoB (agentInfo n c cs) = true → (Complete (Spec.Ld.object n
      [Spec.Ld.text s%"@id" a.spdxId, Spec.Ld.optObject s%"creationInfo" Spec.Ld.info a.creationInfo, Spec.Ld.text s%"name" a.name,
       Spec.Ld.objects s%"externalIdentifier" Spec.Ld.identifier a.externalIdentifier]) ↔
      (∀ c ∈ a.creationInfo, Some1 c.createdBy) ∧ ∀ i ∈ a.externalIdentifier, i.identifier ≠ []) := by
    intro n c cs hi
    refine (object_iff (agentInfo n c cs) hi ?_).trans ?_
    · exact ⟨seg_text _, seg_optObject hf _, seg_text _, seg_objects _ _, trivial⟩
    simp [agentInfo, inner_text, inner_optObject, inner_objects, info_iff, identifier_iff]
  cases a.kind
  · exact key _ s%"core:Person" [s%"core:Agent"] (by decide +kernel)
  · exact key _ s%"core:Organization" [s%"core:Agent"] (by decide +kernel)
  · exact key _ s%"core:Tool" [] (by decide +kernel)

def packageInfo : ClassInfo := ⟨s%"Package", owlIri s%"software:Package" :: artifact, [],
  [(s%"@id", false), (s%"name", false), (s%"summary", false), (s%"description", false), (s%"comment", false), (s%"verifiedUsing", true),
   (s%"externalReference", true), (s%"externalIdentifier", true), (s%"originatedBy", true), (s%"suppliedBy", true), (s%"builtTime", false),
   (s%"releaseTime", false), (s%"validUntilTime", false), (s%"primaryPurpose", false), (s%"copyrightText", false),
   (s%"attributionText", false), (s%"packageVersion", false), (s%"downloadLocation", false), (s%"packageUrl", false), (s%"homepage", false),
   (s%"sourceInfo", false)]⟩

theorem package_iff (p : Package3) : Complete (Spec.Ld.element (.package p)) ↔ Full (.package p) := by
  refine (object_iff packageInfo (by decide +kernel) ?_).trans ?_
  · exact ⟨seg_text _, seg_text _, seg_opt _, seg_opt _, seg_opt _, seg_objects _ _, seg_objects _ _, seg_objects _ _, seg_texts _,
      seg_texts _, seg_date _, seg_date _, seg_date _, seg_optMember _ _, seg_opt _, seg_text _, seg_opt _, seg_opt _, seg_opt _, seg_opt _,
      seg_opt _, trivial⟩
  simp [packageInfo, inner_text, inner_opt, inner_texts, inner_objects, inner_date, inner_optMember, hash_iff, identifier_iff, reference_ok,
    Full]

def fileInfo : ClassInfo := ⟨s%"File", owlIri s%"software:File" :: artifact, [],
  [(s%"@id", false), (s%"name", false), (s%"comment", false), (s%"verifiedUsing", true), (s%"copyrightText", false),
   (s%"attributionText", false)]⟩

theorem file_iff (f : File3) : Complete (Spec.Ld.element (.file f)) ↔ Full (.file f) := by
  refine (object_iff fileInfo (by decide +kernel) ?_).trans ?_
  · exact ⟨seg_text _, seg_text _, seg_opt _, seg_objects _ _, seg_opt _, seg_text _, trivial⟩
  simp [fileInfo, inner_text, inner_opt, inner_objects, hash_iff, Full]

def snippetInfo : ClassInfo := ⟨s%"Snippet", owlIri s%"software:Snippet" :: artifact, [],
  [(s%"@id", false), (s%"name", false), (s%"comment", false), (s%"copyrightText", false), (s%"attributionText", false),
   (s%"byteRange", false), (s%"lineRange", false)]⟩

theorem snippet_iff (x : Snippet3) : Complete (Spec.Ld.element (.snippet x)) ↔ Full (.snippet x) := by
  refine (object_iff snippetInfo (by decide +kernel) ?_).trans ?_
  · exact ⟨seg_text _, seg_opt _, seg_opt _, seg_opt _, seg_text _, seg_obj _ _, seg_optObject (fun r => ⟨_, _, rfl⟩) _, trivial⟩
  have h : ∀ k j, Inner [(k, j)] ↔ Complete j := fun k j => inner_obj j
  simp only [snippetInfo, List.forall_mem_cons, inner_text, inner_opt, h, inner_optObject, range_iff, Full, true_and]
  simp

def relationshipInfo : ClassInfo := ⟨s%"Relationship", owlIri s%"core:Relationship" :: element', [s%"from", s%"relationshipType"],
  [(s%"@id", false), (s%"comment", false), (s%"from", false), (s%"to", true), (s%"relationshipType", false), (s%"completeness", false)]⟩

def dependencyInfo : ClassInfo := ⟨s%"SoftwareDependencyRelationship",
  [s%"software:SoftwareDependencyRelationship", s%"core:LifecycleScopedRelationship", s%"core:Relationship"].map owlIri ++ element',
  [s%"from", s%"relationshipType"],
  [(s%"@id", false), (s%"comment", false), (s%"from", false), (s%"to", true), (s%"relationshipType", false), (s%"completeness", false),
   (s%"scope", false), (s%"softwareLinkage", false), (s%"conditionality", false)]⟩

theorem relationship_iff (r : Relationship3) : Complete (Spec.Ld.element (.relationship r)) ↔ Full (.relationship r) := by
  unfold Spec.Ld.element Full
  dsimp only
  cases r.software with
  | none =>
    rw [if_pos rfl, List.append_nil]
    refine (object_iff relationshipInfo (by decide +kernel) ?_).trans ?_
    · exact ⟨seg_text _, seg_opt _, seg_text _, seg_texts _, seg_member _, seg_optMember _ _, trivial⟩
    simp [relationshipInfo, segAt, present_text, present_member, inner_text, inner_opt, inner_texts, inner_member, inner_optMember]
  | some x =>
    obtain ⟨a, b, c⟩ := x
    rw [if_neg (by simp)]
    dsimp only [List.cons_append, List.nil_append]
    refine (object_iff dependencyInfo (by decide +kernel) ?_).trans ?_
    · exact ⟨seg_text _, seg_opt _, seg_text _, seg_texts _, seg_member _, seg_optMember _ _, seg_optMember _ _, seg_optMember _ _,
        seg_optMember _ _, trivial⟩
    simp [dependencyInfo, segAt, present_text, present_member, inner_text, inner_opt, inner_texts, inner_member, inner_optMember]

def annotationInfo : ClassInfo := ⟨s%"Annotation", owlIri s%"core:Annotation" :: element', [s%"annotationType", s%"subject"],
  [(s%"@id", false), (s%"creationInfo", false), (s%"annotationType", false), (s%"subject", false), (s%"statement", false)]⟩

theorem annotation_iff (a : Annotation3) : Complete (Spec.Ld.element (.annotation a)) ↔ Full (.annotation a) := by
  refine (object_iff annotationInfo (by decide +kernel) ?_).trans ?_
  · exact ⟨seg_text _, seg_obj _ _, seg_member _, seg_text _, seg_text _, trivial⟩
  have hm : Complete (Spec.Ld.member a.annotationType.name) := complete_str _
  simp [annotationInfo, segAt, present_text, present_member, inner_text, hm, inner_obj, info_iff, Full]
  exact And.comm

theorem element_iff (e : Element3) : Complete (Spec.Ld.element e) ↔ Full e := by
  cases e with
  | document d => exact document_iff d
  | agent a => exact agent_iff a
  | package p => exact package_iff p
  | file f => exact file_iff f
  | snippet s => exact snippet_iff s
  | relationship r => exact relationship_iff r
  | annotation a => exact annotation_iff a

end Spdx.LdComplete
