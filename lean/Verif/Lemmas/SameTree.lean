import Verif.Spec.SameTree
import Verif.Lemmas.JsonReadDoc
/-
What a tree says does not depend on the order of members, for C81.
-/
namespace Spdx.SameTrees
open Spec (SameTree listKeys otherKeys)
open Spec.JsonSays
open Spec.RdfSays (All2)

theorem all2_rfl {α : Type} {R : α → α → Prop} (h : ∀ a, R a a) : ∀ l : List α, All2 R l l
  | [] => .nil
  | a :: l => .cons (h a) (all2_rfl h l)

theorem all2_getElem {α β : Type} {R : α → β → Prop} : ∀ {l : List α} {m : List β}, l.length = m.length →
    (∀ (i : Nat) x y, l[i]? = some x → m[i]? = some y → R x y) → All2 R l m
  | [], [], _, _ => .nil
  | [], _ :: _, h, _ => by cases h
  | _ :: _, [], h, _ => by cases h
  | a :: l, b :: m, h, hr => .cons (hr 0 a b rfl rfl) (all2_getElem (by simpa using h) fun i x y hx hy => hr (i + 1) x y hx hy)

theorem scalar {v v' : Json} (h : SameTree v v') : v' = v ∨ (∃ l l', v = .arr l ∧ v' = .arr l') ∨ ∃ o o', v = .obj o ∧ v' = .obj o' := by
  cases h with
  | same => exact .inl rfl
  | arr _ _ => exact .inr (.inl ⟨_, _, rfl, rfl⟩)
  | obj _ _ _ _ => exact .inr (.inr ⟨_, _, rfl, rfl⟩)

theorem of_str {v v' : Json} {s : Str} (h : SameTree v v') (e : v = .str s) : v' = .str s := by subst e; cases h; rfl
theorem of_null {v v' : Json} (h : SameTree v v') (e : v = .null) : v' = .null := by subst e; cases h; rfl

theorem sym {v v' : Json} (h : SameTree v v') : SameTree v' v := by
  induction h with
  | same v => exact .same v
  | arr hl _ ih => exact .arr hl.symm fun i v v' h h' => ih i v' v h' h
  | obj h1 _ h3 h4 ih =>
    rename_i o o' h2
    refine .obj (fun k hk => (h1 k hk).symm) (fun k hk v v' h h' => ih k hk v' v h' h) (fun k hk m hm => ?_) h4.symm
    cases ho : o.lookup k with
    | none => rw [(h1 k (List.mem_append_left _ hk)).1 ho] at hm; cases hm
    | some v =>
      have hs := h2 k (List.mem_append_left _ hk) _ _ ho hm
      cases hs with
      | same => rfl
      | obj => rw [h3 k hk _ ho] at hm; exact hm

theorem all2_same {l l' : List Json} (h : SameTree (.arr l) (.arr l')) : All2 SameTree l l' := by
  cases h with
  | same => exact all2_rfl .same l
  | arr hl h => exact all2_getElem hl h

theorem blank {v v' : Json} (h : SameTree v v') : Blank v → Blank v' := by
  unfold Blank
  cases h with
  | same => exact id
  | @arr l l' hl _ =>
    intro hb
    have e : l = [] := by simpa using hb
    subst e
    have e : l' = [] := List.length_eq_zero_iff.1 hl.symm
    subst e
    simp
  | @obj o o' _ _ _ h4 =>
    intro hb
    have e : o = [] := by simpa using hb
    have e := h4.1 e
    subst e
    simp

theorem not_blank {v v' : Json} (h : SameTree v v') (hb : ¬ Blank v) : ¬ Blank v' := fun hx => hb (blank (sym h) hx)

/-- What a value says is said by the same tree. -/
def Keeps {α : Type} (R : Json → α → Prop) : Prop := ∀ (v v' : Json) (a : α), SameTree v v' → R v a → R v' a

/-- The same tree, and no object in place of a list but the very same. -/
def SameList (v v' : Json) : Prop := SameTree v v' ∧ ∀ m, v = .obj m → v' = v

theorem items {v v' : Json} {l : List Json} (h : SameList v v') (hi : Items v l) : ∃ l', Items v' l' ∧ All2 SameTree l l' := by
  have hr : ∀ l : List Json, All2 SameTree l l := all2_rfl .same
  rcases hi with rfl | ⟨s, rfl, rfl⟩ | ⟨o, rfl, rfl⟩
  · have h1 := h.1
    rcases scalar h1 with e | ⟨_, l', e, e'⟩ | ⟨_, _, e, _⟩
    · exact ⟨l, .inl e, hr l⟩
    · cases e; subst e'
      exact ⟨l', .inl rfl, all2_same h1⟩
    · cases e
  · exact ⟨_, .inr (.inl ⟨s, of_str h.1 rfl, rfl⟩), hr _⟩
  · exact ⟨_, .inr (.inr ⟨o, h.2 o rfl, rfl⟩), hr _⟩

theorem along {α : Type} {R : Json → α → Prop} (hR : Keeps R) {l l' : List Json} {as : List α} (h : All2 SameTree l l') (ha : All2 R l as) :
    All2 R l' as := by
  induction h generalizing as with
  | nil => exact ha
  | cons h _ ih =>
    cases ha with
    | cons h1 h2 => exact .cons (hR _ _ _ h h1) (ih h2)

theorem listOf {α : Type} {R : Json → α → Prop} (hR : Keeps R) {v v' : Json} {l : List α} (h : SameList v v') (hl : ListOf R v l) : ListOf R v' l := by
  obtain ⟨is, h1, h2⟩ := hl
  obtain ⟨is', h3, h4⟩ := items h h1
  exact ⟨is', h3, along hR h4 h2⟩

theorem requiredList {α : Type} {R : Json → α → Prop} (hR : Keeps R) {v v' : Json} {l : List α} (h : SameList v v') (hl : Required (ListOf R) v l) :
    Required (ListOf R) v' l := ⟨not_blank h.1 hl.1, listOf hR h hl.2⟩

theorem optList {α : Type} {R : Json → α → Prop} (hR : Keeps R) {v v' : Json} {l : List α} (h : SameList v v') (hl : OptList R v l) : OptList R v' l :=
  hl.imp (fun x => ⟨blank h.1 x.1, x.2⟩) (requiredList hR h)

theorem required {α : Type} {R : Json → α → Prop} (hR : Keeps R) : Keeps (Required R) := fun _ _ _ h hr => ⟨not_blank h hr.1, hR _ _ _ h hr.2⟩

theorem field {α : Type} {R : Json → α → Prop} (hR : Keeps R) : Keeps (Field R) := fun _ _ _ h hr =>
  hr.imp (fun x => ⟨blank h x.1, x.2⟩) fun ⟨x, a, ha, e⟩ => ⟨not_blank h x, a, hR _ _ _ h ha, e⟩

/-! ### Single values -/

theorem text (s : Str) {v v' : Json} (h : SameTree v v') (e : v = .str s) : v' = .str s := of_str h e

theorem optText : Keeps OptText := fun _ _ _ h hr => hr.imp (fun x => ⟨of_null h x.1, x.2⟩) fun ⟨s, e, x⟩ => ⟨s, of_str h e, x⟩

theorem texts : Keeps Texts := by
  intro v v' l h hr
  rcases hr with ⟨e, x⟩ | rfl
  · exact .inl ⟨of_null h e, x⟩
  · refine .inr ?_
    rcases scalar h with e | ⟨_, l', e, e'⟩ | ⟨_, _, e, _⟩
    · exact e
    · cases e
      subst e'
      have h' := all2_same h
      clear h
      congr 1
      induction l generalizing l' with
      | nil => cases h'; rfl
      | cons s l ih =>
        cases h' with
        | cons a b => rw [ih _ b, of_str a rfl]; rfl
    · cases e

theorem special : Keeps Special := by
  intro v v' a h hr
  cases hr with
  | noAssertion => cases h; exact .noAssertion
  | none => cases h; exact .none
  | text s h1 h2 => cases h; exact .text s h1 h2

theorem optSpecial : Keeps OptSpecial := fun _ _ _ h hr => hr.imp (fun x => ⟨of_null h x.1, x.2⟩) fun ⟨s, e, x⟩ => ⟨s, special _ _ _ h e, x⟩

theorem optNoAssertion : Keeps OptNoAssertion := by
  intro v v' a h hr
  cases hr with
  | missing => cases h; exact .missing
  | noAssertion => cases h; exact .noAssertion
  | text s h1 => cases h; exact .text s h1

theorem date : Keeps Date := fun _ _ _ h ⟨s, e, x⟩ => ⟨s, of_str h e, x⟩
theorem isVersion : Keeps IsVersion := fun _ _ _ h ⟨s, e, x⟩ => ⟨s, of_str h e, x⟩
theorem isActor : Keeps IsActor := fun _ _ _ h ⟨s, e, x⟩ => ⟨s, of_str h e, x⟩

theorem actorOr : Keeps ActorOrNoAssertion := by
  intro v v' a h hr
  cases hr with
  | noAssertion => cases h; exact .noAssertion
  | actor s a h1 h2 => cases h; exact .actor s a h1 h2

theorem member {α : Type} (name : α → Str) : Keeps (Member name) := fun _ _ _ h ⟨s, e, x⟩ => ⟨s, of_str h e, x⟩
theorem exactMember {α : Type} (name : α → Str) : Keeps (ExactMember name) := fun _ _ _ h e => of_str h e

theorem licenseText (L : LicText) : Keeps (LicenseText L) := by
  intro v v' a h hr
  cases hr with
  | noAssertion s h1 => cases h; exact .noAssertion s h1
  | none s h1 => cases h; exact .none s h1
  | expression s e h1 h2 h3 => cases h; exact .expression s e h1 h2 h3

theorem isLicense (L : LicText) : Keeps (IsLicense L) := fun _ _ _ h hr => licenseText L _ _ _ h hr
theorem optLicense (L : LicText) : Keeps (OptLicense L) := fun _ _ _ h hr =>
  hr.imp (fun x => ⟨blank h x.1, x.2⟩) fun x => ⟨not_blank h x.1, licenseText L _ _ _ h x.2⟩

theorem filesAnalyzed : Keeps FilesAnalyzed := by
  intro v v' a h hr
  rcases hr with ⟨e, x⟩ | e | ⟨s, e, x⟩
  · exact .inl ⟨of_null h e, x⟩
  · subst e; cases h; exact .inr (.inl rfl)
  · exact .inr (.inr ⟨s, of_str h e, x⟩)

theorem number : Keeps Number := by
  intro v v' a h hr
  cases hr with
  | num => cases h; exact .num _
  | bool => cases h; exact .bool _
  | digits s n h1 h2 h3 => cases h; exact .digits s n h1 h2 h3

/-! ### Members -/

/-- The members of two objects that are the same tree. -/
abbrev SameObj (o o' : Obj) : Prop := SameTree (.obj o) (.obj o')

theorem parts {o o' : Obj} (h : SameObj o o') : (∀ k ∈ listKeys ++ otherKeys, o.lookup k = none ↔ o'.lookup k = none) ∧
      (∀ k ∈ listKeys ++ otherKeys, ∀ v v', o.lookup k = some v → o'.lookup k = some v' → SameTree v v') ∧
      (∀ k ∈ listKeys, ∀ m, o.lookup k = some (.obj m) → o'.lookup k = some (.obj m)) := by
  cases h with
  | same => exact ⟨fun _ _ => Iff.rfl, fun k _ v v' h h' => (by rw [h] at h'; cases h'; exact .same v), fun _ _ _ h => h⟩
  | obj h1 h2 h3 _ => exact ⟨h1, h2, h3⟩

theorem at' {o o' : Obj} (h : SameObj o o') (k : Str) (hk : k ∈ listKeys ++ otherKeys) : SameTree (valueAt o k) (valueAt o' k) := by
  obtain ⟨h1, h2, _⟩ := parts h
  unfold valueAt
  cases ho : o.lookup k with
  | none => rw [(h1 k hk).1 ho]; exact .same _
  | some v =>
    cases ho' : o'.lookup k with
    | none => rw [(h1 k hk).2 ho'] at ho; cases ho
    | some v' => exact h2 k hk v v' ho ho'

theorem list {o o' : Obj} (h : SameObj o o') (k : Str) (hk : k ∈ listKeys) : SameList (valueAt o k) (valueAt o' k) := by
  refine ⟨at' h k (List.mem_append_left _ hk), fun m hm => ?_⟩
  obtain ⟨_, _, h3⟩ := parts h
  unfold valueAt at hm ⊢
  cases ho : o.lookup k with
  | none => rw [ho] at hm; cases hm
  | some v =>
    rw [ho] at hm
    have : v = .obj m := hm
    subst this
    rw [h3 k hk m ho]

theorem entries {o o' : Obj} (h : SameObj o o') (k : Str) (hk : k ∈ listKeys) {l : List Json} (he : Entries o k l) :
    ∃ l', Entries o' k l' ∧ All2 SameTree l l' := by
  obtain ⟨h1, h2, h3⟩ := parts h
  have hk' := List.mem_append_left otherKeys hk
  rcases he with ⟨hn, rfl⟩ | ⟨v, hv, hi⟩
  · exact ⟨[], .inl ⟨(h1 k hk').1 hn, rfl⟩, .nil⟩
  · cases ho' : o'.lookup k with
    | none => rw [(h1 k hk').2 ho'] at hv; cases hv
    | some v' =>
      have hs : SameList v v' := ⟨h2 k hk' v v' hv ho', fun m hm => by
        subst hm
        have := h3 k hk m hv
        rw [ho'] at this
        exact Option.some.inj this⟩
      obtain ⟨l', ha, hb⟩ := items hs hi
      exact ⟨l', .inr ⟨v', ho', ha⟩, hb⟩

theorem textEntries {o o' : Obj} (h : SameObj o o') (k : Str) (hk : k ∈ listKeys) {l : List Str} (he : Entries o k (l.map .str)) :
    Entries o' k (l.map .str) := by
  obtain ⟨l', h1, h2⟩ := entries h k hk he
  have : l' = l.map .str := by
    clear h1 he
    induction l generalizing l' with
    | nil => cases h2; rfl
    | cons s l ih =>
      cases h2 with
      | cons a b => rw [ih _ b, of_str a rfl]; rfl
  exact this ▸ h1

/-! ### Elements -/

def KeepsObj {α : Type} (R : Obj → α → Prop) : Prop := ∀ (o o' : Obj) (a : α), SameObj o o' → R o a → R o' a

theorem object {α : Type} {R : Obj → α → Prop} (hR : KeepsObj R) : Keeps (Object R) := by
  intro v v' a h hr
  obtain ⟨o, rfl, ho⟩ := hr
  rcases scalar h with e | ⟨_, _, e, _⟩ | ⟨_, o', e, e'⟩
  · exact ⟨o, e, ho⟩
  · cases e
  · cases e; subst e'
    exact ⟨o', rfl, hR _ _ _ h ho⟩

/-- Finds the reason why a member keeps its meaning. -/
macro "keep_members" h:ident : tactic => `(tactic| (
  constructor
  all_goals first
    | exact of_str (at' $h _ (by decide)) (by assumption)
    | exact optText _ _ _ (at' $h _ (by decide)) (by assumption)
    | exact texts _ _ _ (at' $h _ (by decide)) (by assumption)
    | exact special _ _ _ (at' $h _ (by decide)) (by assumption)
    | exact optSpecial _ _ _ (at' $h _ (by decide)) (by assumption)
    | exact optNoAssertion _ _ _ (at' $h _ (by decide)) (by assumption)
    | exact optLicense _ _ _ _ (at' $h _ (by decide)) (by assumption)
    | exact filesAnalyzed _ _ _ (at' $h _ (by decide)) (by assumption)
    | exact member _ _ _ _ (at' $h _ (by decide)) (by assumption)
    | exact required (member _) _ _ _ (at' $h _ (by decide)) (by assumption)
    | exact required (exactMember _) _ _ _ (at' $h _ (by decide)) (by assumption)
    | exact required isActor _ _ _ (at' $h _ (by decide)) (by assumption)
    | exact required date _ _ _ (at' $h _ (by decide)) (by assumption)
    | exact field actorOr _ _ _ (at' $h _ (by decide)) (by assumption)
    | exact field isVersion _ _ _ (at' $h _ (by decide)) (by assumption)
    | exact field date _ _ _ (at' $h _ (by decide)) (by assumption)
    | exact field (member _) _ _ _ (at' $h _ (by decide)) (by assumption)
    | exact optList (isLicense _) (list $h _ (by decide)) (by assumption)
    | exact optList (exactMember _) (list $h _ (by decide)) (by assumption)
    | exact requiredList isActor (list $h _ (by decide)) (by assumption)
    | skip))

theorem checksum : KeepsObj ChecksumSays := by
  intro o o' a h ⟨h1, h2⟩
  keep_members h

theorem externalDocumentRef : KeepsObj ExternalDocumentRefSays := by
  intro o o' a h ⟨h1, h2, h3⟩
  keep_members h
  exact required (object checksum) _ _ _ (at' h _ (by decide)) h3

theorem externalRef : KeepsObj ExternalRefSays := by
  intro o o' a h ⟨h1, h2, h3, h4⟩
  keep_members h

theorem verificationCode : KeepsObj VerificationCodeSays := by
  intro o o' a h ⟨h1, h2⟩
  keep_members h

theorem relationship : KeepsObj RelationshipSays := by
  intro o o' a h ⟨h1, h2, h3, h4⟩
  keep_members h

theorem extracted : KeepsObj ExtractedSays := by
  intro o o' a h ⟨h1, h2, h3, h4, h5⟩
  keep_members h

theorem package (L : LicText) : KeepsObj (PackageSays L) := by
  intro o o' a h ⟨h1, h2, h3, h4, h5, h6, h7, h8, h9, h10, h11, h12, h13, h14, h15, h16, h17, h18, h19, h20, h21, h22, h23, h24, h25, h26⟩
  keep_members h
  · exact field (object verificationCode) _ _ _ (at' h _ (by decide)) h9
  · exact optList (object checksum) (list h _ (by decide)) h10
  · exact optList (object externalRef) (list h _ (by decide)) h21

theorem file (L : LicText) : KeepsObj (FileSays L) := by
  intro o o' a h ⟨h1, h2, h3, h4, h5, h6, h7, h8, h9, h10, h11, h12⟩
  keep_members h
  exact requiredList (object checksum) (list h _ (by decide)) h3

/-! ### Snippets -/

/-- Ranges of the same kind with the same ends. -/
def SameRange (r r' : RangeType × (Json × Json)) : Prop := r.1 = r'.1 ∧ SameTree r.2.1 r'.2.1 ∧ SameTree r.2.2 r'.2.2

theorem pointer {t : RangeType} {v v' x : Json} (h : SameTree v v') (hp : Pointer t v x) : ∃ x', Pointer t v' x' ∧ SameTree x x' := by
  have key : ∀ {o : Obj} {a b : Str}, v = .obj o → a ∈ listKeys ++ otherKeys → b ∈ listKeys ++ otherKeys → o.lookup a = some x → o.lookup b = none →
      ∃ o' x', v' = .obj o' ∧ o'.lookup a = some x' ∧ o'.lookup b = none ∧ SameTree x x' := by
    intro o a b e ha hb h1 h2
    subst e
    rcases scalar h with e | ⟨_, _, e, _⟩ | ⟨_, o', e, e'⟩
    · exact ⟨o, x, e, h1, h2, .same x⟩
    · cases e
    · cases e; subst e'
      obtain ⟨p1, p2, _⟩ := parts h
      cases hx : o'.lookup a with
      | none => rw [(p1 a ha).2 hx] at h1; cases h1
      | some x' => exact ⟨o', x', rfl, hx, (p1 b hb).1 h2, p2 a ha x x' h1 hx⟩
  cases hp with
  | byte o _ h1 h2 =>
    obtain ⟨o', x', rfl, h3, h4, h5⟩ := key rfl (by decide) (by decide) h1 h2
    exact ⟨x', .byte o' x' h3 h4, h5⟩
  | line o _ h1 h2 =>
    obtain ⟨o', x', rfl, h3, h4, h5⟩ := key rfl (by decide) (by decide) h1 h2
    exact ⟨x', .line o' x' h3 h4, h5⟩

theorem range {v v' : Json} {r : RangeType × (Json × Json)} (h : SameTree v v') (hr : IsRange v r) : ∃ r', IsRange v' r' ∧ SameRange r r' := by
  obtain ⟨o, s, e, rfl, h1, h2, h3, h4⟩ := hr
  rcases scalar h with e' | ⟨_, _, e', _⟩ | ⟨_, o', e', e''⟩
  · exact ⟨r, ⟨o, s, e, e', h1, h2, h3, h4⟩, rfl, .same _, .same _⟩
  · cases e'
  · cases e'; subst e''
    obtain ⟨p1, p2, _⟩ := parts h
    cases hs : o'.lookup s%"startPointer" with
    | none => rw [(p1 _ (by decide)).2 hs] at h1; cases h1
    | some s' =>
      cases he : o'.lookup s%"endPointer" with
      | none => rw [(p1 _ (by decide)).2 he] at h2; cases h2
      | some e1 =>
        obtain ⟨x, hx, hx'⟩ := pointer (p2 _ (by decide) _ _ h1 hs) h3
        obtain ⟨y, hy, hy'⟩ := pointer (p2 _ (by decide) _ _ h2 he) h4
        exact ⟨(r.1, (x, y)), ⟨o', s', e1, rfl, hs, he, hx, hy⟩, rfl, hx', hy'⟩

theorem ranges {l l' : List Json} {rs : List (RangeType × (Json × Json))} (h : All2 SameTree l l') (hr : All2 IsRange l rs) :
    ∃ rs', All2 IsRange l' rs' ∧ All2 SameRange rs rs' := by
  induction h generalizing rs with
  | nil => cases hr; exact ⟨[], .nil, .nil⟩
  | cons h _ ih =>
    cases hr with
    | cons h1 h2 =>
      obtain ⟨r, a1, a2⟩ := range h h1
      obtain ⟨rs', b1, b2⟩ := ih h2
      exact ⟨r :: rs', .cons a1 b1, .cons a2 b2⟩

theorem filterKind {rs rs' : List (RangeType × (Json × Json))} (t : RangeType) (h : All2 SameRange rs rs') :
    All2 SameRange (rs.filter fun r => r.1 = t) (rs'.filter fun r => r.1 = t) := by
  induction h with
  | nil => exact .nil
  | @cons r r' _ _ h _ ih =>
    simp only [List.filter_cons, ← h.1]
    split
    · exact .cons h ih
    · exact ih

theorem lastOf {α β : Type} {R : α → β → Prop} {l : List α} {m : List β} (h : All2 R l m) :
    (l.getLast? = none ∧ m.getLast? = none) ∨ ∃ a b, l.getLast? = some a ∧ m.getLast? = some b ∧ R a b := by
  induction h with
  | nil => exact .inl ⟨rfl, rfl⟩
  | @cons a b l m h ht ih =>
    refine .inr ?_
    rcases ih with ⟨h1, h2⟩ | ⟨x, y, h1, h2, h3⟩
    · rw [List.getLast?_eq_none_iff] at h1 h2
      subst h1 h2
      exact ⟨a, b, rfl, rfl, h⟩
    · refine ⟨x, y, ?_, ?_, h3⟩
      · rw [List.getLast?_cons, h1]; rfl
      · rw [List.getLast?_cons, h2]; rfl

theorem lastRanges {rs rs' : List (RangeType × (Json × Json))} (t : RangeType) (h : All2 SameRange rs rs') :
    (lastRange rs t = none ∧ lastRange rs' t = none) ∨
      ∃ a b a' b', lastRange rs t = some (a, b) ∧ lastRange rs' t = some (a', b') ∧ SameTree a a' ∧ SameTree b b' := by
  unfold lastRange
  rcases lastOf (filterKind t h) with ⟨h1, h2⟩ | ⟨x, y, h1, h2, h3⟩
  · rw [h1, h2]; exact .inl ⟨rfl, rfl⟩
  · rw [h1, h2]; exact .inr ⟨_, _, _, _, rfl, rfl, h3.2.1, h3.2.2⟩

theorem snippet (L : LicText) : KeepsObj (SnippetSays L) := by
  intro o o' a h ⟨h1, h2, h3, h4, h5, h6, h7, h8, h9, h10⟩
  keep_members h
  obtain ⟨rs, ⟨hb, is, hi, hr⟩, hB, hL⟩ := h3
  obtain ⟨is', hi', hs⟩ := items (list h _ (by decide)) hi
  obtain ⟨rs', hr', hs'⟩ := ranges hs hr
  refine ⟨rs', ⟨not_blank (at' h _ (by decide)) hb, is', hi', hr'⟩, ?_, ?_⟩
  · obtain ⟨x, y, hl, hx, hy⟩ := hB
    rcases lastRanges .BYTE hs' with ⟨e, _⟩ | ⟨x1, y1, x2, y2, e1, e2, e3, e4⟩
    · rw [e] at hl; cases hl
    · rw [e1] at hl; cases hl
      exact ⟨x2, y2, e2, number _ _ _ e3 hx, number _ _ _ e4 hy⟩
  · rcases lastRanges .LINE hs' with ⟨e, e'⟩ | ⟨x1, y1, x2, y2, e1, e2, e3, e4⟩
    · rcases hL with ⟨_, hn⟩ | ⟨x, y, _, _, hl, _⟩
      · exact .inl ⟨e', hn⟩
      · rw [e] at hl; cases hl
    · rcases hL with ⟨hl, _⟩ | ⟨x, y, n, m, hl, hs, hx, hy⟩
      · rw [e1] at hl; cases hl
      · rw [e1] at hl; cases hl
        exact .inr ⟨x2, y2, n, m, e2, hs, number _ _ _ e3 hx, number _ _ _ e4 hy⟩

/-! ### Annotations and relationships -/

theorem annotation {e e' : Json} (he : SameTree e e') {o o' : Obj} {a : Annotation} (h : SameObj o o') (ha : AnnotationSays e o a) :
    AnnotationSays e' o' a := by
  obtain ⟨h1, h2, h3, h4, h5⟩ := ha
  have h0 := at' h s%"SPDXID" (by decide)
  have h1 := h1.imp (fun x => And.intro (not_blank h0 x.1) (of_str h0 x.2)) (fun x => And.intro (blank h0 x.1) (of_str he x.2))
  keep_members h
  exact h1

theorem annotations : KeepsObj Annotations := by
  intro o o' l h ha
  unfold Annotations at ha ⊢
  have hs := at' h s%"SPDXID" (by decide)
  have k : Keeps (Object (AnnotationSays (valueAt o s%"SPDXID"))) := object fun _ _ _ h hr => annotation (.same _) h hr
  refine (optList k (list h _ (by decide)) ha).imp id fun x => ?_
  obtain ⟨hb, is, hi, hr⟩ := x
  refine ⟨hb, is, hi, ?_⟩
  clear hi ha hb
  induction hr with
  | nil => exact .nil
  | cons h1 _ ih =>
    obtain ⟨m, rfl, hm⟩ := h1
    exact .cons ⟨m, rfl, annotation hs (.same _) hm⟩ ih

theorem review (id : Str) : KeepsObj (ReviewSays id) := by
  intro o o' a h ⟨h1, h2, h3, h4, h5⟩
  keep_members h
  · exact h1
  · exact h2

theorem containedFiles (stated : List Relationship) : KeepsObj (ContainedFiles stated) := by
  intro o o' rs h ⟨a, files, h1, h2, h3⟩
  exact ⟨a, files, of_str (at' h _ (by decide)) h1, textEntries h _ (by decide) h2, h3⟩

theorem creationInfo {o o' i i' : Obj} {c : CreationInfo} (h : SameObj o o') (hi : SameObj i i') (hc : CreationInfoSays o i c) :
    CreationInfoSays o' i' c := by
  obtain ⟨h1, h2, h3, h4, h5, h6, h7, h8, h9, h10, h11⟩ := hc
  keep_members h
  · exact requiredList isActor (list hi _ (by decide)) h5
  · exact required date _ _ _ (at' hi _ (by decide)) h6
  · exact optText _ _ _ (at' hi _ (by decide)) h7
  · exact optList (required (object externalDocumentRef)) (list h _ (by decide)) h9
  · exact field isVersion _ _ _ (at' hi _ (by decide)) h10

theorem document (L : LicText) : KeepsObj (DocumentSays L) := by
  intro o o' d h ⟨⟨i, h1, h1'⟩, h2, h3, h4, h5, h6, h7⟩
  have es : ∀ (k : Str), k ∈ listKeys → ∀ {α : Type} {R : Json → α → Prop} {as : List α}, Keeps R → (∃ l, Entries o k l ∧ All2 R l as) →
      ∃ l, Entries o' k l ∧ All2 R l as := by
    intro k hk α R as hR ⟨l, hl, ha⟩
    obtain ⟨l', a1, a2⟩ := entries h k hk hl
    exact ⟨l', a1, along hR a2 ha⟩
  constructor
  · have hs := at' h s%"creationInfo" (by decide)
    rw [h1] at hs
    rcases scalar hs with e | ⟨_, _, e, _⟩ | ⟨_, i', e, e'⟩
    · exact ⟨i, e, creationInfo h (.same _) h1'⟩
    · cases e
    · cases e
      rw [e'] at hs
      exact ⟨i', e', creationInfo h hs h1'⟩
  · exact es _ (by decide) (object (package L)) h2
  · exact es _ (by decide) (object (file L)) h3
  · exact es _ (by decide) (object (snippet L)) h4
  · obtain ⟨own, reviews, op, of, os, lr, lp, lf, ls, a1, a2, a3, a4, ⟨xp, a5, a5'⟩, a6, ⟨xf, a7, a7'⟩, a8, ⟨xs, a9, a9'⟩, a10⟩ := h5
    obtain ⟨lr', b1, b2⟩ := es _ (by decide) (object (review _)) ⟨lr, a2, a3⟩
    obtain ⟨lp', b3, b4⟩ := es _ (by decide) (object annotations) ⟨lp, a4, a5⟩
    obtain ⟨lf', b5, b6⟩ := es _ (by decide) (object annotations) ⟨lf, a6, a7⟩
    obtain ⟨ls', b7, b8⟩ := es _ (by decide) (object annotations) ⟨ls, a8, a9⟩
    exact ⟨own, reviews, op, of, os, lr', lp', lf', ls', annotations _ _ _ h a1, b1, b2, b3, ⟨xp, b4, a5'⟩, b5, ⟨xf, b6, a7'⟩, b7,
      ⟨xs, b8, a9'⟩, a10⟩
  · obtain ⟨listed, described, describes, lp, contains, a1, a2, a3, a4, a5, a6⟩ := h6
    obtain ⟨lp', b1, b2⟩ := es _ (by decide) (object (containedFiles _)) ⟨lp, a4, a5⟩
    exact ⟨listed, described, describes, lp', contains, optList (object relationship) (list h _ (by decide)) a1,
      textEntries h _ (by decide) a2, a3, b1, b2, a6⟩
  · exact optList (object extracted) (list h _ (by decide)) h7

end Spdx.SameTrees
