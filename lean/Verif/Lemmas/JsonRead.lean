import Verif.Spec.JsonRead
import Verif.Lemmas.ParseInv
import Verif.Lemmas.JsonRoundTrip
/- Each parser function of the JSON-like formats accepts exactly the values that say something, and reads what they say. -/
namespace Spdx.JsonSays
open Spdx Spdx.Spec.JsonSays
open Spdx.Spec.RdfSays (All2)

/-! Plumbing -/

theorem get_obj (o : Obj) (k : Str) : pyGet (.obj o) k = .ok (valueAt o k) := rfl
theorem getD_obj (o : Obj) (k : Str) (d : Json) : pyGetD (.obj o) k d = .ok ((o.lookup k).getD d) := rfl

theorem py_bind_iff {α β : Type} {x : Py α} {f : α → Py β} {b : β} : (x >>= f) = .ok b ↔ ∃ a, x = .ok a ∧ f a = .ok b :=
  ⟨py_bind_inv, by rintro ⟨a, rfl, h⟩; exact h⟩

theorem pbind_iff {α β : Type} {x : P α} {f : α → P β} {b : β} : (x >>= f) = pure b ↔ ∃ a, x = pure a ∧ f a = pure b := pbind_ok_nil

theorem pure_iff {α : Type} {a b : α} : (pure a : P α) = pure b ↔ a = b :=
  ⟨fun h => by cases h; rfl, fun h => by rw [h]⟩

theorem lift_iff {α : Type} {x : Py α} {a : α} : x.lift = pure a ↔ x = .ok a := by
  match x with
  | .ok b => exact ⟨fun h => by cases h; rfl, fun h => by cases h; rfl⟩
  | .error e => exact ⟨fun h => (by cases h), fun h => (by cases h)⟩

theorem orRaise_iff {α : Type} {p : P α} {a : α} : p.orRaise = .ok a ↔ p = pure a :=
  ⟨ok_orRaise, fun h => by rw [h]; rfl⟩

theorem orRaiseIn_iff {α : Type} {w : Str} {p : P α} {a : α} : p.orRaiseIn w = .ok a ↔ p = pure a := by
  constructor
  · intro h
    match p, h with
    | .ok ([], b), h => cases h; rfl
  · intro h; rw [h]; rfl

theorem construct_iff {α : Type} {cls : Str} {c : Check α} {a : α} : construct cls c = .ok a ↔ c = .ok a := by
  match c with
  | .ok b => exact ⟨fun h => by cases h; rfl, fun h => by cases h; rfl⟩
  | .error e => exact ⟨fun h => (by cases h), fun h => (by cases h)⟩

theorem ap_iff {α β : Type} {f : Check (α → β)} {a : Check α} {b : β} : (f ⊛ a) = .ok b ↔ ∃ g, f = .ok g ∧ ∃ x, a = .ok x ∧ g x = b := by
  match f, a with
  | .ok f, .ok a => exact ⟨fun h => ⟨f, rfl, a, rfl, by cases h; rfl⟩, by rintro ⟨g, hg, x, hx, rfl⟩; cases hg; cases hx; rfl⟩
  | .ok _, .error e => exact ⟨fun h => (by cases h), by rintro ⟨g, hg, x, hx, rfl⟩; cases hx⟩
  | .error e, .ok _ => exact ⟨fun h => (by cases h), by rintro ⟨g, hg, x, hx, rfl⟩; cases hg⟩
  | .error e, .error e' => exact ⟨fun h => (by cases h), by rintro ⟨g, hg, x, hx, rfl⟩; cases hg⟩

theorem ok_iff {α : Type} {a b : α} : (.ok a : Check α) = .ok b ↔ a = b := ⟨fun h => by cases h; rfl, fun h => by rw [h]⟩

theorem blank_iff (v : Json) : Blank v ↔ ¬ v.truthy = true := by
  cases v <;> simp [Blank, Json.truthy]

/-- The function raises no parsing error without messages and accepts exactly what the relation says. -/
structure Reads {α : Type} (m : Json → Py α) (R : Json → α → Prop) : Prop where
  iff : ∀ v a, m v = .ok a ↔ R v a
  ne : ∀ v, NE (m v)

theorem field_iff {α : Type} {m : Json → Py α} {R : Json → α → Prop} (r : Reads m R) {v : Json} {x : Option α} :
    parseField v m = pure x ↔ Field R v x := by
  unfold Field
  rw [blank_iff]
  by_cases ht : v.truthy = true
  · cases hm : m v with
    | ok a =>
      have hr := (r.iff v a).1 hm
      rw [parseField_some ht hm, pure_iff]
      constructor
      · rintro rfl; exact .inr ⟨by simpa using ht, a, hr, rfl⟩
      · rintro (⟨h, _⟩ | ⟨_, b, hb, rfl⟩)
        · exact absurd ht h
        · rw [← r.iff, hm] at hb; cases hb; rfl
    | error e =>
      have e1 : parseField v m = (match e.logged with
          | some ms => .ok (ms, none)
          | none => .error e : P (Option α)) := by
        unfold parseField; rw [hm]; exact if_pos ht
      constructor
      · intro h
        rw [e1] at h
        cases e <;> cases h
        exact absurd hm (r.ne v)
      · rintro (⟨h, _⟩ | ⟨_, b, hb, rfl⟩)
        · exact absurd ht h
        · rw [← r.iff, hm] at hb; cases hb
  · have e1 : parseField v m = pure none := if_neg ht
    rw [e1, pure_iff]
    constructor
    · rintro rfl; exact .inl ⟨by simpa using ht, rfl⟩
    · rintro (⟨_, rfl⟩ | ⟨h, _⟩)
      · rfl
      · exact absurd ht h

theorem field_some {α : Type} {R : Json → α → Prop} {v : Json} {a : α} : Field R v (some a) ↔ Required R v a := by
  constructor
  · rintro (⟨_, h⟩ | ⟨h, b, hb, he⟩)
    · cases h
    · cases he; exact ⟨h, hb⟩
  · rintro ⟨h, hb⟩; exact .inr ⟨h, a, hb, rfl⟩

theorem chkSome_iff {α : Type} {f : Str} {x : Option α} {a : α} : chkSome f x = .ok a ↔ x = some a := by
  cases x with
  | none => exact ⟨fun h => (by cases h), fun h => (by cases h)⟩
  | some b => exact ⟨fun h => by cases h; rfl, fun h => by cases h; rfl⟩

theorem iter_iff {v : Json} {l : List Json} : pyIter v = .ok l ↔ Items v l := by
  unfold Items
  cases v <;> simp [pyIter, eq_comm]

theorem collect_iff {α : Type} {m : Json → Py α} {R : Json → α → Prop} (r : Reads m R) {l : List Json} {xs : List α} :
    collect m l = pure xs ↔ All2 R l xs := by
  induction l generalizing xs with
  | nil => exact ⟨fun h => by cases h; exact .nil, fun h => by cases h; rfl⟩
  | cons j l ih =>
    constructor
    · intro h
      have h1 := ok_collect h r.ne
      cases xs with
      | nil => cases h1
      | cons x xs =>
        rw [List.map_cons, List.map_cons] at h1
        injection h1 with h1 h2
        refine .cons ((r.iff _ _).1 h1) (ih.1 ?_)
        unfold collect at h
        rw [h1] at h
        match hc : collect m l, h with
        | .ok (ms, as), h =>
          cases h; rfl
    · intro h
      cases h with
      | cons h1 h2 =>
        unfold collect
        rw [(r.iff _ _).2 h1, ih.2 h2]; rfl

theorem reads_list {α : Type} {m : Json → Py α} {R : Json → α → Prop} (r : Reads m R) (q : ∀ l, QuietP (collect m l)) :
    Reads (parseList m) (ListOf R) where
  iff v a := by
    unfold parseList ListOf
    simp only [py_bind_iff, iter_iff, orRaise_iff, collect_iff r]
  ne v := ne_bind (ne_quiet (quiet_iter _)) fun l => ne_orRaise (q l)

theorem list_iff {α : Type} {m : Json → Py α} {R : Json → α → Prop} (r : Reads m R) {v : Json} {x : Option (List α)} :
    parseField v (parseList m) = pure x ↔ Field (ListOf R) v x := field_iff (reads_list r (quietP_collect m))

theorem optList_iff {α : Type} {R : Json → α → Prop} {v : Json} {l : List α} :
    (∃ x, Field (ListOf R) v x ∧ x.getD [] = l) ↔ OptList R v l := by
  constructor
  · rintro ⟨x, (⟨h, rfl⟩ | ⟨h, a, ha, rfl⟩), rfl⟩
    · exact .inl ⟨h, rfl⟩
    · exact .inr ⟨h, ha⟩
  · rintro (⟨h, rfl⟩ | ⟨h, ha⟩)
    · exact ⟨none, .inl ⟨h, rfl⟩, rfl⟩
    · exact ⟨some l, .inr ⟨h, l, ha, rfl⟩, rfl⟩

theorem mapM_id_iff {α : Type} {l : List (Option α)} {as : List α} : l.mapM id = some as ↔ l = as.map some := by
  constructor
  · intro h
    induction l generalizing as with
    | nil => cases h; rfl
    | cons x l ih =>
      rw [List.mapM_cons] at h
      cases x with
      | none => cases h
      | some x =>
        cases hl : l.mapM id with
        | none => rw [hl] at h; cases h
        | some r => rw [hl] at h; cases h; rw [ih hl]; rfl
  · rintro rfl; exact mapM_id_some as

theorem chkAll_iff {α : Type} {f : Str} {x : Option (List (Option α))} {l : List α} :
    chkAll f x = .ok l ↔ (x = none ∧ l = []) ∨ x = some (l.map some) := by
  cases x with
  | none =>
    constructor
    · intro h; cases h; exact .inl ⟨rfl, rfl⟩
    · rintro (⟨_, rfl⟩ | h)
      · rfl
      · cases h
  | some m =>
    rw [chkAll.eq_def]
    dsimp only
    constructor
    · intro h
      cases hm : m.mapM id with
      | none => rw [hm] at h; cases h
      | some as => rw [hm] at h; cases h; exact .inr (by rw [mapM_id_iff.1 hm])
    · rintro (⟨h, _⟩ | h)
      · cases h
      · cases h; rw [mapM_id_some]

theorem all2_some {α : Type} {R : Json → Option α → Prop} {l : List Json} {as : List α} :
    All2 R l (as.map some) ↔ All2 (fun v a => R v (some a)) l as := by
  induction l generalizing as with
  | nil =>
    cases as with
    | nil => exact ⟨fun _ => .nil, fun _ => .nil⟩
    | cons a as => exact ⟨fun h => (nomatch h), fun h => (nomatch h)⟩
  | cons j l ih =>
    cases as with
    | nil => exact ⟨fun h => (nomatch h), fun h => (nomatch h)⟩
    | cons a as =>
      constructor
      · intro h; cases h with | cons h1 h2 => exact .cons h1 (ih.1 h2)
      · intro h; cases h with | cons h1 h2 => exact .cons h1 (ih.2 h2)

theorem all2_congr {α β : Type} {R S : α → β → Prop} (h : ∀ a b, R a b ↔ S a b) {l : List α} {m : List β} : All2 R l m ↔ All2 S l m := by
  rw [show R = S from funext fun a => funext fun b => propext (h a b)]

/-- A list all of whose entries must be there. -/
theorem allList_iff {α : Type} {R : Json → Option α → Prop} {v : Json} {f : Str} {l : List α} :
    (∃ x, Field (fun v xs => ∃ items, Items v items ∧ All2 R items xs) v x ∧ chkAll f x = .ok l) ↔
      OptList (fun v a => R v (some a)) v l := by
  simp only [chkAll_iff]
  constructor
  · rintro ⟨x, h, (⟨rfl, rfl⟩ | rfl)⟩
    · rcases h with ⟨h, _⟩ | ⟨_, _, _, h⟩
      · exact .inl ⟨h, rfl⟩
      · cases h
    · obtain ⟨h, i, hi, ha⟩ := field_some.1 h
      exact .inr ⟨h, i, hi, all2_some.1 ha⟩
  · rintro (⟨h, rfl⟩ | ⟨h, i, hi, ha⟩)
    · exact ⟨none, .inl ⟨h, rfl⟩, .inl ⟨rfl, rfl⟩⟩
    · exact ⟨some (l.map some), field_some.2 ⟨h, i, hi, all2_some.2 ha⟩, .inr rfl⟩

/-! Single values -/

theorem chkStr_iff {f : Str} {v : Json} {s : Str} : chkStr f v = .ok s ↔ v = .str s := by
  cases v <;> first
    | exact ⟨fun h => by cases h; rfl, fun h => by cases h; rfl⟩
    | exact ⟨fun h => (by cases h), fun h => (by cases h)⟩

theorem chkOptStr_iff {f : Str} {v : Json} {x : Option Str} : chkOptStr f v = .ok x ↔ OptText v x := by
  unfold OptText
  constructor
  · cases v <;> intro h <;> cases h
    · exact .inl ⟨rfl, rfl⟩
    · exact .inr ⟨_, rfl, rfl⟩
  · rintro (⟨rfl, rfl⟩ | ⟨s, rfl, rfl⟩) <;> rfl

theorem allStrs_iff {l : List Json} {ss : List Str} : allStrs l = some ss ↔ l = ss.map .str := by
  constructor
  · intro h
    induction l generalizing ss with
    | nil => cases h; rfl
    | cons j l ih =>
      cases j <;> try (cases h; done)
      rename_i s
      change (allStrs l).map (s :: ·) = _ at h
      rw [Option.map_eq_some_iff] at h
      obtain ⟨t, ht, rfl⟩ := h
      rw [ih ht]; rfl
  · rintro rfl; exact allStrs_map ss

theorem chkStrList_iff {f : Str} {v : Json} {l : List Str} : chkStrList f v = .ok l ↔ Texts v l := by
  unfold Texts
  constructor
  · cases v <;> intro h <;> try (cases h; done)
    · cases h; exact .inl ⟨rfl, rfl⟩
    · rename_i js
      rw [chkStrList.eq_def] at h
      dsimp only at h
      cases ha : allStrs js with
      | none => rw [ha] at h; cases h
      | some ss => rw [ha] at h; cases h; rw [allStrs_iff.1 ha]; exact .inr rfl
  · rintro (⟨rfl, rfl⟩ | rfl)
    · rfl
    · exact chkStrList_jstrs f l

theorem texts_getD {f : Str} {o : Obj} {k : Str} {l : List Str} :
    chkStrList f ((o.lookup k).getD (.arr [])) = .ok l ↔ Texts (valueAt o k) l := by
  rw [chkStrList_iff]
  unfold valueAt
  cases o.lookup k with
  | some v => exact Iff.rfl
  | none =>
    constructor
    · rintro (⟨h, _⟩ | h)
      · cases h
      · cases l with
        | nil => exact .inl ⟨rfl, rfl⟩
        | cons => cases h
    · rintro (⟨_, rfl⟩ | h)
      · exact .inr rfl
      · cases h

theorem special_iff {f : Str} {v : Json} {x : OrSpecial Str} : chkSpecial f (parseSpecial v) = .ok x ↔ Special v x := by
  unfold parseSpecial
  constructor
  · intro h
    split at h
    · subst v; cases h; exact .noAssertion
    · split at h
      · subst v; cases h; exact .none
      · rename_i h1 h2
        cases v <;> try (cases h; done)
        cases h
        exact .text _ (by simpa using h1) (by simpa using h2)
  · intro h
    cases h with
    | noAssertion => rfl
    | none => rfl
    | text s h1 h2 =>
      rw [if_neg (by simpa using h1), if_neg (by simpa using h2)]; rfl

theorem optSpecial_iff {f : Str} {v : Json} {x : Option (OrSpecial Str)} : chkOptSpecial f (parseSpecial v) = .ok x ↔ OptSpecial v x := by
  unfold OptSpecial
  simp only [← special_iff (f := f)]
  generalize hp : parseSpecial v = p
  have hv : v = .null ↔ p = .val .null := by
    rw [← hp]; unfold parseSpecial
    constructor
    · rintro rfl; rfl
    · split
      · intro h; cases h
      · split
        · intro h; cases h
        · intro h; cases h; rfl
  rw [hv]
  constructor
  · intro h
    match p, h with
    | .noAssertion, h => cases h; exact .inr ⟨_, rfl, rfl⟩
    | .none, h => cases h; exact .inr ⟨_, rfl, rfl⟩
    | .val .null, h => cases h; exact .inl ⟨rfl, rfl⟩
    | .val (.str s), h => cases h; exact .inr ⟨_, rfl, rfl⟩
  · rintro (⟨rfl, rfl⟩ | ⟨y, h, rfl⟩)
    · rfl
    · match p, h with
      | .noAssertion, h => cases h; rfl
      | .none, h => cases h; rfl
      | .val (.str s), h => cases h; rfl

theorem optNoAssertion_iff {f : Str} {v : Json} {x : Option (OrNoAssertion Str)} :
    chkOptNoAssertion f (parseNoAssertion v) = .ok x ↔ OptNoAssertion v x := by
  unfold parseNoAssertion
  constructor
  · intro h
    split at h
    · subst v; cases h; exact .noAssertion
    · rename_i h1
      cases v <;> try (cases h; done)
      · cases h; exact .missing
      · cases h; exact .text _ (by simpa using h1)
  · intro h
    cases h with
    | missing => rfl
    | noAssertion => rfl
    | text s h1 => rw [if_neg (by simpa using h1)]; rfl

theorem withStr_iff {α : Type} {m : Str → Py α} {v : Json} {a : α} : withStr m v = .ok a ↔ ∃ s, v = .str s ∧ m s = .ok a := by
  cases v <;> first
    | exact ⟨fun h => ⟨_, rfl, h⟩, by rintro ⟨s, hs, h⟩; cases hs; exact h⟩
    | exact ⟨fun h => (by cases h), by rintro ⟨s, hs, h⟩; cases hs⟩

theorem withStr_ne {α : Type} {m : Str → Py α} (h : ∀ s, NE (m s)) (v : Json) : NE (withStr m v) := by
  cases v <;> first | exact h _ | (intro h; cases h)

theorem reads_date : Reads parseDate Date where
  iff v a := by
    unfold Date
    cases v <;> try exact ⟨fun h => (by cases h), by rintro ⟨s, hs, _⟩; cases hs⟩
    rename_i s
    rw [parseDate.eq_def]
    dsimp only
    constructor
    · intro h
      cases hd : datetimeFromStr s with
      | none => rw [hd] at h; cases h
      | some t => rw [hd] at h; cases h; exact ⟨s, rfl, hd⟩
    · rintro ⟨t, ht, h⟩
      cases ht
      rw [h]
  ne v := by
    cases v <;> try (intro h; cases h)
    rename_i s
    rw [parseDate.eq_def]
    dsimp only
    cases datetimeFromStr s <;> (intro h; cases h)

theorem reads_version : Reads parseVersion IsVersion where
  iff v a := by
    unfold parseVersion IsVersion
    rw [withStr_iff]
    constructor
    · rintro ⟨s, hs, h⟩
      refine ⟨s, hs, ?_⟩
      cases hd : versionFromString s with
      | none => rw [hd] at h; cases h
      | some t => rw [hd] at h; cases h; rfl
    · rintro ⟨s, hs, h⟩
      exact ⟨s, hs, by rw [h]⟩
  ne := withStr_ne fun s => by cases versionFromString s <;> (intro h; cases h)

theorem actor_ok {s : Str} {a : Actor} : parseActorJson (.str s) = .ok a ↔ parseActor s = .ok a := by
  unfold parseActorJson withStr
  dsimp only
  constructor
  · intro h
    match hp : parseActor s, h with
    | .ok b, h => cases h; rfl
    | .error .noToolName, h => cases h
    | .error .noName, h => cases h
    | .error .noMatch, h => cases h
  · intro h; rw [h]

theorem reads_actor : Reads parseActorJson IsActor where
  iff v a := by
    unfold IsActor
    constructor
    · intro h
      cases v <;> try (cases h; done)
      exact ⟨_, rfl, actor_ok.1 h⟩
    · rintro ⟨s, rfl, h⟩; exact actor_ok.2 h
  ne := withStr_ne fun s => by
    match parseActor s with
    | .ok b => intro h; cases h
    | .error .noToolName => intro h; cases h
    | .error .noName => intro h; cases h
    | .error .noMatch => intro h; cases h

theorem reads_actorOrNoAssertion : Reads parseActorOrNoAssertion ActorOrNoAssertion where
  iff v a := by
    unfold parseActorOrNoAssertion parseNoAssertion
    by_cases hv : v = .str s%"NOASSERTION"
    · subst v
      rw [if_pos rfl]
      constructor
      · intro h; cases h; exact .noAssertion
      · intro h
        cases h with
        | noAssertion => rfl
        | actor s b h1 _ => exact absurd rfl h1
    · rw [if_neg hv]
      change (parseActorJson v).map OrNoAssertion.val = _ ↔ _
      constructor
      · intro h
        match hp : parseActorJson v, h with
        | .ok b, h =>
          cases h
          obtain ⟨s, rfl, hs⟩ := (reads_actor.iff _ _).1 hp
          exact .actor s b (by simpa using hv) hs
        | .error e, h => cases h
      · intro h
        cases h with
        | noAssertion => exact absurd rfl hv
        | actor s b h1 h2 => rw [actor_ok.2 h2]; rfl
  ne v := by
    unfold parseActorOrNoAssertion
    cases parseNoAssertion v with
    | noAssertion => intro h; cases h
    | val j =>
      intro h
      change (parseActorJson j).map OrNoAssertion.val = _ at h
      match hp : parseActorJson j, h with
      | .ok b, h => cases h
      | .error e, h => cases h; exact reads_actor.ne j hp

/-- A table of names in which members are found by their names. -/
structure Names {α : Type} (name : α → Str) (ofName? : Str → Option α) : Prop where
  sound : ∀ s a, ofName? s = some a → name a = s
  complete : ∀ a, ofName? (name a) = some a

theorem Names.iff {α : Type} {name : α → Str} {ofName? : Str → Option α} (n : Names name ofName?) {s : Str} {a : α} :
    ofName? s = some a ↔ s = name a := ⟨fun h => (n.sound s a h).symm, fun h => by rw [h]; exact n.complete a⟩

private theorem find_sound {α : Type} {l : List α} {name : α → Str} {s : Str} {a : α} (h : l.find? (fun m => name m == s) = some a) :
    name a = s := by
  have := List.find?_some h
  simpa using this

theorem names_algorithm : Names ChecksumAlgorithm.name ChecksumAlgorithm.ofName? :=
  ⟨fun _ _ h => find_sound h, by intro a; cases a <;> decide +kernel⟩
theorem names_category : Names ExternalPackageRefCategory.name ExternalPackageRefCategory.ofName? :=
  ⟨fun _ _ h => find_sound h, by intro a; cases a <;> decide +kernel⟩
theorem names_purpose : Names PackagePurpose.name PackagePurpose.ofName? :=
  ⟨fun _ _ h => find_sound h, by intro a; cases a <;> decide +kernel⟩
theorem names_relationship : Names RelationshipType.name RelationshipType.ofName? :=
  ⟨fun _ _ h => find_sound h, by intro a; cases a <;> decide +kernel⟩
theorem names_fileType : Names FileType.name FileType.ofName? := ⟨fun _ _ h => find_sound h, fileType_names⟩
theorem names_annotationType : Names AnnotationType.name AnnotationType.ofName? := ⟨fun _ _ h => find_sound h, annotationType_names⟩

theorem reads_enum {α : Type} {name : α → Str} {ofName? : Str → Option α} (n : Names name ofName?) (what : Str) :
    Reads (parseEnum what ofName?) (Member name) where
  iff v a := by
    unfold Member
    cases v <;> try exact ⟨fun h => (by cases h), by rintro ⟨s, hs, _⟩; cases hs⟩
    rename_i s
    rw [parseEnum.eq_def]
    dsimp only
    constructor
    · intro h
      cases ho : ofName? (jsonStrToEnumName s) with
      | none => rw [ho] at h; cases h
      | some b => rw [ho] at h; cases h; exact ⟨s, rfl, n.iff.1 ho⟩
    · rintro ⟨t, ht, h⟩
      cases ht
      rw [show ofName? (jsonStrToEnumName s) = some a from n.iff.2 h]
  ne v := by
    cases v <;> try (intro h; cases h)
    rename_i s
    rw [parseEnum.eq_def]
    dsimp only
    cases ofName? (jsonStrToEnumName s) <;> (intro h; cases h)

theorem reads_license (L : LicText) : Reads (parseLicense L) (LicenseText L) where
  iff v a := by
    cases v <;> try exact ⟨fun h => (by cases h), fun h => (by cases h)⟩
    rename_i s
    rw [parseLicense.eq_def]
    dsimp only
    by_cases h1 : upperAscii s = s%"NOASSERTION"
    · rw [if_pos h1]
      constructor
      · intro h; cases h; exact .noAssertion s h1
      · intro h
        cases h with
        | noAssertion => rfl
        | none _ h => rw [h1] at h; exact absurd h (by decide)
        | expression _ e h => exact absurd h1 h
    · rw [if_neg h1]
      by_cases h2 : upperAscii s = s%"NONE"
      · rw [if_pos h2]
        constructor
        · intro h; cases h; exact .none s h2
        · intro h
          cases h with
          | noAssertion _ h => exact absurd h h1
          | none => rfl
          | expression _ e _ h => exact absurd h2 h
      · rw [if_neg h2]
        constructor
        · intro h
          cases hp : L.parse s with
          | none => rw [hp] at h; cases h
          | some e => rw [hp] at h; cases h; exact .expression s e h1 h2 hp
        · intro h
          cases h with
          | noAssertion _ h => exact absurd h h1
          | none _ h => exact absurd h h2
          | expression _ e _ _ hp => rw [hp]
  ne v := by
    cases v <;> try (intro h; cases h)
    rename_i s
    rw [parseLicense.eq_def]
    dsimp only
    split
    · intro h; cases h
    · split
      · intro h; cases h
      · split <;> (intro h; cases h)

theorem optLicense_iff {L : LicText} {v : Json} {x : Option (OrSpecial LicExpr)} :
    (∃ y, Field (LicenseText L) v y ∧ y.join = x) ↔ OptLicense L v x := by
  constructor
  · rintro ⟨y, (⟨h, rfl⟩ | ⟨h, a, ha, rfl⟩), rfl⟩
    · exact .inl ⟨h, rfl⟩
    · exact .inr ⟨h, ha⟩
  · rintro (⟨h, rfl⟩ | ⟨h, ha⟩)
    · exact ⟨none, .inl ⟨h, rfl⟩, rfl⟩
    · exact ⟨some x, .inr ⟨h, x, ha, rfl⟩, rfl⟩

theorem analyzed_iff {f : Str} {v : Json} {b : Bool} : chkBool f (filesAnalyzedValue v) = .ok b ↔ FilesAnalyzed v b := by
  unfold FilesAnalyzed
  cases v with
  | null =>
    constructor
    · intro h; cases h; exact .inl ⟨rfl, rfl⟩
    · rintro (⟨_, rfl⟩ | h | ⟨s, h, _⟩)
      · rfl
      · cases h
      · cases h
  | bool c =>
    constructor
    · intro h; cases h; exact .inr (.inl rfl)
    · rintro (⟨h, _⟩ | h | ⟨s, h, _⟩)
      · cases h
      · cases h; rfl
      · cases h
  | str s =>
    rw [filesAnalyzedValue.eq_def]
    dsimp only
    constructor
    · intro h
      by_cases h1 : lowerAscii s = s%"true"
      · rw [if_pos h1] at h; cases h; exact .inr (.inr ⟨s, rfl, h1⟩)
      · rw [if_neg h1] at h
        by_cases h2 : lowerAscii s = s%"false"
        · rw [if_pos h2] at h; cases h; exact .inr (.inr ⟨s, rfl, h2⟩)
        · rw [if_neg h2] at h; cases h
    · rintro (⟨h, _⟩ | h | ⟨t, h, ht⟩)
      · cases h
      · cases h
      · cases h
        cases b with
        | true => rw [if_pos ht]; rfl
        | false =>
          have ht : lowerAscii s = s%"false" := ht
          rw [if_neg (by rw [ht]; decide), if_pos ht]; rfl
  | _ =>
    constructor
    · intro h; cases h
    · rintro (⟨h, _⟩ | h | ⟨s, h, _⟩) <;> cases h

end Spdx.JsonSays
