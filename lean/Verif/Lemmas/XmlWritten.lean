import Verif.Model.JsonWriter
import Verif.Model.Xml
import Verif.Spec.XmlOk
/- The trees that are written have the shape that XML keeps. -/
namespace Spdx.XmlVia
open Spdx Spec

/-! Texts -/

mutual
theorem at_texts {T : Str → Prop} {k : Str} {v : Json} (h : KeptAt (fun _ => True) k v) (ht : ∀ s ∈ texts v, T s) : KeptAt T k v :=
  match v, h, ht with
  | .null, _, _ => trivial
  | .bool _, h, _ => h
  | .num _, h, _ => h
  | .str s, h, ht => ⟨ht s (.head _), h.2⟩
  | .arr _, h, ht => ⟨h.1, items_texts h.2 ht⟩
  | .obj _, h, ht => ⟨h.1, h.2.1, members_texts h.2.2 ht⟩
theorem items_texts {T : Str → Prop} {l : List Json} (h : KeptItems (fun _ => True) l) (ht : ∀ s ∈ textsOf l, T s) : KeptItems T l :=
  match l, h, ht with
  | [], _, _ => trivial
  | .str s :: _, h, ht => ⟨ht s (.head _), items_texts h.2 fun s hs => ht s (.tail _ hs)⟩
  | .obj _ :: _, h, ht => ⟨⟨h.1.1, members_texts h.1.2 fun s hs => ht s (List.mem_append_left _ hs)⟩,
      items_texts h.2 fun s hs => ht s (List.mem_append_right _ hs)⟩
  | .null :: _, h, _ => h.elim
  | .bool _ :: _, h, _ => h.elim
  | .num _ :: _, h, _ => h.elim
  | .arr _ :: _, h, _ => h.elim
theorem members_texts {T : Str → Prop} {o : List (Str × Json)} (h : KeptMembers (fun _ => True) o) (ht : ∀ s ∈ textsIn o, T s) : KeptMembers T o :=
  match o, h, ht with
  | [], _, _ => trivial
  | (_, _) :: _, h, ht => ⟨at_texts h.1 fun s hs => ht s (List.mem_append_left _ hs), members_texts h.2 fun s hs => ht s (List.mem_append_right _ hs)⟩
end

/-! Objects -/

variable {T : Str → Prop}

/-- A property, if it is written. -/
def PropKept (T : Str → Prop) (k : Str) (v : Option Json) : Prop := ∀ x, v = some x → KeptAt T k x

def AllKept (T : Str → Prop) : List Str → List (Option Json) → Prop
  | k :: ks, v :: vs => PropKept T k v ∧ AllKept T ks vs
  | _, _ => True

private theorem members_kept {ks : List Str} {vs : List (Option Json)} (h : AllKept T ks vs) :
    KeptMembers T ((ks.zip vs).filterMap fun kv => kv.2.map (kv.1, ·)) := by
  induction ks generalizing vs with
  | nil => trivial
  | cons k ks ih =>
    cases vs with
    | nil => trivial
    | cons v vs =>
      cases v with
      | none => exact ih h.2
      | some x => exact ⟨h.1 x rfl, ih h.2⟩

private theorem keys_sub (ks : List Str) (vs : List (Option Json)) :
    (((ks.zip vs).filterMap fun kv => kv.2.map (kv.1, ·)).map (·.1)).Sublist ks := by
  induction ks generalizing vs with
  | nil => exact .refl _
  | cons k ks ih =>
    cases vs with
    | nil => exact List.nil_sublist _
    | cons v vs =>
      cases v with
      | none => exact (ih vs).cons _
      | some x => exact (ih vs).cons_cons _

/-- An object with kept members. -/
def IsKept (T : Str → Prop) (j : Json) : Prop := ∃ o, j = .obj o ∧ KeptObj T o

theorem mkObj_kept {ks : List Str} {vs : List (Option Json)} (hn : ks.Nodup) (h : AllKept T ks vs)
    (hc : ∃ k x, (k, some x) ∈ ks.zip vs ∧ x ≠ .arr []) : IsKept T (mkObj ks vs) := by
  refine ⟨_, rfl, ⟨hn.sublist (keys_sub ks vs), ?_⟩, members_kept h⟩
  obtain ⟨k, x, hm, hx⟩ := hc
  exact ⟨(k, x), List.mem_filterMap.2 ⟨_, hm, rfl⟩, hx⟩

theorem kept_none {k : Str} : PropKept T k none := fun _ h => nomatch h
theorem kept_text {k s : Str} (hk : k ∉ listLikeFields) (hs : T s) : PropKept T k (some (.str s)) := fun _ h => by cases h; exact ⟨hs, hk⟩
theorem kept_opt {α : Type} {k : Str} {f : α → Str} {o : Option α} (hk : k ∉ listLikeFields) (hs : ∀ a, T (f a)) :
    PropKept T k (o.map fun a => .str (f a)) := fun x h => by
  cases o with
  | none => cases h
  | some a => cases h; exact ⟨hs a, hk⟩

theorem items_strs {l : List Str} (hs : ∀ s ∈ l, T s) : KeptItems T (jstrs l) := by
  unfold jstrs
  induction l with
  | nil => trivial
  | cons s l ih => exact ⟨hs s (.head _), ih fun s h => hs s (.tail _ h)⟩

theorem items_objs {l : List Json} (h : ∀ j ∈ l, IsKept T j) : KeptItems T l := by
  induction l with
  | nil => trivial
  | cons j l ih =>
    obtain ⟨o, rfl, ho⟩ := h j (.head _)
    exact ⟨ho, ih fun j h' => h j (.tail _ h')⟩

theorem kept_list {k : Str} {l : List Json} (hk : k ∈ listLikeFields) (h : KeptItems T l) : PropKept T k (orNone l) := fun x hx => by
  unfold orNone at hx
  split at hx <;> cases hx
  exact ⟨.inl hk, h⟩

theorem kept_obj {k : Str} {j : Json} (hk : k ∉ listLikeFields) (h : IsKept T j) : PropKept T k (some j) := fun x hx => by
  obtain ⟨o, rfl, ho⟩ := h
  cases hx
  exact ⟨hk, ho⟩

theorem kept_objs {k : Str} {α : Type} {f : α → Json} {l : List α} (hk : k ∈ listLikeFields) (h : ∀ a ∈ l, IsKept T (f a)) :
    PropKept T k (orNone (l.map f)) :=
  kept_list hk (items_objs fun j hj => by obtain ⟨a, ha, rfl⟩ := List.mem_map.1 hj; exact h a ha)

theorem kept_strs {k : Str} {l : List Str} (hk : k ∈ listLikeFields) (h : ∀ s, T s) : PropKept T k (orNone (jstrs l)) :=
  kept_list hk (items_strs fun s _ => h s)

/-- any text -/
abbrev Any : Str → Prop := fun _ => True

local macro "props" : tactic => `(tactic| (repeat' apply And.intro) <;> first
  | exact trivial
  | exact kept_none
  | exact kept_text (by decide) trivial
  | exact kept_opt (by decide) fun _ => trivial
  | exact kept_strs (by decide) fun _ => trivial
  | skip)

theorem checksum_kept (c : Checksum) : IsKept Any (checksumToJson c) :=
  mkObj_kept (by decide) (by props) ⟨_, _, .head _, Json.noConfusion⟩

theorem annotation_kept {a : Annotation} {j : Json} (h : annotationToJson a = some j) : IsKept Any j := by
  obtain ⟨d, _, h⟩ := Option.bind_eq_some_iff.1 h
  cases h
  exact mkObj_kept (by decide) (by props) ⟨_, _, .head _, Json.noConfusion⟩

theorem mapM_kept {α : Type} {f : α → Option Json} {l : List α} {js : List Json} (h : l.mapM f = some js)
    (hf : ∀ a ∈ l, ∀ j, f a = some j → IsKept Any j) : ∀ j ∈ js, IsKept Any j := by
  induction l generalizing js with
  | nil => cases h; intro j hj; cases hj
  | cons a l ih =>
    rw [List.mapM_cons] at h
    obtain ⟨b, hb, h⟩ := Option.bind_eq_some_iff.1 h
    obtain ⟨bs, hbs, h⟩ := Option.bind_eq_some_iff.1 h
    cases h
    intro j hj
    cases hj with
    | head => exact hf a (.head _) _ hb
    | tail _ hj => exact ih hbs (fun a ha => hf a (.tail _ ha)) j hj

theorem annotationsOf_kept {d : Document} {id : Str} {v : Option Json} (h : annotationsOf d id = some v) : PropKept Any s%"annotations" v := by
  obtain ⟨js, hjs, h⟩ := Option.bind_eq_some_iff.1 h
  cases h
  exact kept_list (by decide) (items_objs (mapM_kept hjs fun a _ _ h => annotation_kept h))

theorem relationship_kept (r : Relationship) : IsKept Any (relationshipToJson r) :=
  mkObj_kept (by decide) (by props) ⟨_, _, .head _, Json.noConfusion⟩

theorem extracted_kept (e : ExtractedLicensingInfo) (h : SaysSomething e) : IsKept Any (extractedToJson e) := by
  refine mkObj_kept (by decide) (by props) ?_
  rcases h with h | h | h | h | h
  · obtain ⟨x, hx⟩ := Option.ne_none_iff_exists'.1 h
    rw [hx]
    exact ⟨_, _, .tail _ (.tail _ (.head _)), Json.noConfusion⟩
  · obtain ⟨x, hx⟩ := Option.ne_none_iff_exists'.1 h
    rw [hx]
    exact ⟨_, _, .tail _ (.head _), Json.noConfusion⟩
  · obtain ⟨x, hx⟩ := Option.ne_none_iff_exists'.1 h
    rw [hx]
    exact ⟨_, _, .tail _ (.tail _ (.tail _ (.head _))), Json.noConfusion⟩
  · obtain ⟨x, l, hx⟩ := List.exists_cons_of_ne_nil h
    rw [hx]
    exact ⟨_, .arr (jstrs (x :: l)), .tail _ (.tail _ (.tail _ (.tail _ (.head _)))), by rw [jstrs, List.map_cons]; simp⟩
  · obtain ⟨x, hx⟩ := Option.ne_none_iff_exists'.1 h
    rw [hx]
    exact ⟨_, _, .head _, Json.noConfusion⟩

theorem externalDocumentRef_kept (r : ExternalDocumentRef) : IsKept Any (externalDocumentRefToJson r) :=
  mkObj_kept (by decide) (by props; exact kept_obj (by decide) (checksum_kept _)) ⟨_, _, .head _, Json.noConfusion⟩

theorem externalRef_kept (r : ExternalPackageRef) : IsKept Any (externalPackageRefToJson r) :=
  mkObj_kept (by decide) (by props) ⟨_, _, .tail _ (.head _), Json.noConfusion⟩

theorem verificationCode_kept (c : PackageVerificationCode) : IsKept Any (verificationCodeToJson c) :=
  mkObj_kept (by decide) (by props) ⟨_, _, .tail _ (.head _), Json.noConfusion⟩

theorem creationInfo_kept {c : CreationInfo} {j : Json} (h : creationInfoToJson c = some j) : IsKept Any j := by
  obtain ⟨d, _, h⟩ := Option.bind_eq_some_iff.1 h
  cases h
  exact mkObj_kept (by decide) (by props) ⟨_, _, .head _, Json.noConfusion⟩

theorem file_kept {L : LicText} {d : Document} {f : File} {j : Json} (h : fileToJson L d f = some j) : IsKept Any j := by
  obtain ⟨v, hv, h⟩ := Option.bind_eq_some_iff.1 h
  cases h
  refine mkObj_kept (by decide) ?_ ⟨_, _, .head _, Json.noConfusion⟩
  props
  · exact annotationsOf_kept hv
  · exact kept_objs (by decide) fun a _ => checksum_kept a

theorem date_kept {k : Str} {t : Option DateTime} {v : Option Json} (hk : k ∉ listLikeFields) (h : dateToJson t = some v) : PropKept Any k v := by
  cases t with
  | none => cases h; exact kept_none
  | some t =>
    obtain ⟨s, _, rfl⟩ := Option.map_eq_some_iff.1 h
    exact kept_text hk trivial

theorem package_kept {L : LicText} {d : Document} {p : Package} {j : Json} (h : packageToJson L d p = some j) : IsKept Any j := by
  obtain ⟨v, hv, h⟩ := Option.bind_eq_some_iff.1 h
  obtain ⟨b, hb, h⟩ := Option.bind_eq_some_iff.1 h
  obtain ⟨r, hr, h⟩ := Option.bind_eq_some_iff.1 h
  obtain ⟨u, hu, h⟩ := Option.bind_eq_some_iff.1 h
  cases h
  refine mkObj_kept (by decide) ?_ ⟨_, _, .head _, Json.noConfusion⟩
  props
  · exact annotationsOf_kept hv
  · exact date_kept (by decide) hb
  · exact kept_objs (by decide) fun a _ => checksum_kept a
  · exact kept_objs (by decide) fun a _ => externalRef_kept a
  · intro x hx; cases hx; rfl
  · cases p.verificationCode with
    | none => exact kept_none
    | some c => exact kept_obj (by decide) (verificationCode_kept c)
  · exact date_kept (by decide) hr
  · exact date_kept (by decide) hu

theorem pointer_kept {f : Str} {i : Int} {k : Str} (hi : 0 ≤ i) (hk : k = s%"offset" ∨ k = s%"lineNumber") : IsKept Any (pointerToJson f i k) := by
  refine ⟨_, rfl, ⟨?_, _, .head _, Json.noConfusion⟩, ?_⟩
  · rcases hk with rfl | rfl <;> exact of_decide_eq_true rfl
  · exact ⟨⟨trivial, by decide⟩, ⟨hi, hk⟩, trivial⟩

theorem range_kept {f : Str} {r : Int × Int} {k : Str} (h1 : 0 ≤ r.1) (h2 : 0 ≤ r.2) (hk : k = s%"offset" ∨ k = s%"lineNumber") :
    IsKept Any (rangeToJson r f k) := by
  obtain ⟨a, ha, ka⟩ := pointer_kept (f := f) h1 hk
  obtain ⟨b, hb, kb⟩ := pointer_kept (f := f) h2 hk
  unfold rangeToJson
  rw [ha, hb]
  exact ⟨_, rfl, ⟨of_decide_eq_true rfl, _, .head _, Json.noConfusion⟩, ⟨by decide, ka⟩, ⟨by decide, kb⟩, trivial⟩

theorem snippet_kept {L : LicText} {d : Document} {s : Snippet} {j : Json} (hs : NonNegative s) (h : snippetToJson L d s = some j) : IsKept Any j := by
  obtain ⟨v, hv, h⟩ := Option.bind_eq_some_iff.1 h
  cases h
  refine mkObj_kept (by decide) ?_ ⟨_, _, .head _, Json.noConfusion⟩
  props
  · exact annotationsOf_kept hv
  · intro x hx
    cases hx
    refine ⟨.inl (by decide), items_objs ?_⟩
    intro j hj
    rcases List.mem_cons.1 hj with rfl | hj
    · exact range_kept hs.1.1 hs.1.2 (.inl rfl)
    · cases hl : s.lineRange with
      | none => rw [hl] at hj; cases hj
      | some r =>
        rw [hl] at hj
        cases hj with
        | head => exact range_kept (hs.2 r hl).1 (hs.2 r hl).2 (.inr rfl)
        | tail _ h => cases h

theorem document_kept {L : LicText} {d : Document} {j : Json} (h : documentToJson L d = some j) (hs : ∀ s ∈ d.snippets, NonNegative s)
    (he : ∀ e ∈ d.extractedLicensingInfo, SaysSomething e) : IsKept Any j := by
  obtain ⟨as, ha, h⟩ := Option.bind_eq_some_iff.1 h
  obtain ⟨ci, hc, h⟩ := Option.bind_eq_some_iff.1 h
  obtain ⟨ps, hp, h⟩ := Option.bind_eq_some_iff.1 h
  obtain ⟨fs, hf, h⟩ := Option.bind_eq_some_iff.1 h
  obtain ⟨ss, hss, h⟩ := Option.bind_eq_some_iff.1 h
  cases h
  refine mkObj_kept (by decide) ?_ ⟨_, _, .head _, Json.noConfusion⟩
  props
  · exact kept_list (by decide) (items_objs (mapM_kept ha fun a _ _ h => annotation_kept h))
  · exact kept_obj (by decide) (creationInfo_kept hc)
  · exact kept_objs (by decide) fun a _ => externalDocumentRef_kept a
  · exact kept_objs (by decide) fun a h => extracted_kept a (he a h)
  · exact kept_list (by decide) (items_objs (mapM_kept hp fun a _ _ h => package_kept h))
  · exact kept_list (by decide) (items_objs (mapM_kept hf fun a _ _ h => file_kept h))
  · exact kept_list (by decide) (items_objs (mapM_kept hss fun a ha _ h => snippet_kept (hs a ha) h))
  · exact kept_objs (by decide) fun a _ => relationship_kept a

end Spdx.XmlVia
