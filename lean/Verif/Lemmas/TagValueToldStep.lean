import Verif.Lemmas.TagValueToldElem
/- The invariant of the reader is kept by every attribute. -/
namespace Spdx.Told
open Spdx Spec

/-! ## The action of an attribute, after the beginning of a new element -/

def actValue (L : LicText) (e : TvState) (tag : Str) (v : Tok) : TvState :=
  match slots.lookup tag with
  | some (c, f, many) =>
    let e := e.logLicense (licenseFault L tag v)
    if e.cls = some c then e.putElem many f tag (valueOf L tag v)
    else
      let e := { e with log := e.log ++ [outsideMsg c] }
      if tag = s%"PackageAttributionText" then e.appendElem f (.str (textOrLineValue v)) else e
  | none => match infoSlots.lookup tag with
    | some (f, many) => e.putInfo many f tag (valueOf L tag v)
    | none => e

def act (L : LicText) (e : TvState) : TvAttr → TvState
  | .value tag v => actValue L e tag v
  | .bad tag =>
    if tag ∈ creationTags then e.logInfo (.text (s%"Error while parsing " ++ tag)) else e.logElem (.text (s%"Error while parsing " ++ tag))
  | .spdxId v =>
    if (e.info.get? s%"spdx_id").isSome then { e with elem := e.elem.set s%"spdx_id" (.one (.str v)) }
    else { e with info := e.info.set s%"spdx_id" (.one (.str v)) }
  | .unknown => { e with log := e.log ++ [.text s%"Unknown tag provided"] }
  | .commented tag line comment =>
    if tag = s%"Relationship" then e.setRelationship line (comment.map textOrLineValue)
    else e.inScope .package fun s => match parseTvExtRef line (comment.map textOrLineValue) with
      | .ok r => s.appendElem s%"external_references" (.extRef r)
      | .error m => s.logElem m

theorem act_bad (L : LicText) (e : TvState) (tag : Str) : act L e (.bad tag) =
    if tag ∈ creationTags then e.logInfo (.text (s%"Error while parsing " ++ tag)) else e.logElem (.text (s%"Error while parsing " ++ tag)) := rfl

theorem act_commented (L : LicText) (e : TvState) (tag line : Str) (comment : Option Tok) : act L e (.commented tag line comment) =
    if tag = s%"Relationship" then e.setRelationship line (comment.map textOrLineValue)
    else e.inScope .package fun s => match parseTvExtRef line (comment.map textOrLineValue) with
      | .ok r => s.appendElem s%"external_references" (.extRef r)
      | .error m => s.logElem m := rfl

/-- The attribute does not end the reading. -/
def Fine : TvAttr → Prop
  | .value tag v => C68.Sound C68.Good (.value tag v) ∧ ActorFine tag v
  | .bad tag => tag ≠ s%"Relationship"
  | _ => True

theorem creation_info (tag : Str) : tag ∈ creationTags ↔ tag ∈ infoTags := by
  have h1 : ∀ t ∈ creationTags, t ∈ infoTags := by decide +kernel
  have h2 : ∀ t ∈ infoTags, t ∈ creationTags := by decide +kernel
  exact ⟨h1 tag, h2 tag⟩

theorem step_act {L : LicText} (s : TvState) {a : TvAttr} (h : Fine a) : s.step L a = .ok (act L (s.entry a) a) := by
  cases a with
  | value tag v =>
    change s.attr L tag v = _
    rw [attr_take s h.1 h.2]
    change _ = Except.ok (actValue L (s.entry (.value tag v)) tag v)
    unfold TvState.take actValue
    cases hs : slots.lookup tag with
    | some p => rfl
    | none =>
      have tab : ∀ p ∈ tvSyntax, slots.lookup p.1 = none → startTag p.1 = none := by decide +kernel
      have e := tab _ (C68.lookup_mem h.1.choose_spec.1) hs
      have he : s.entry (.value tag v) = s := by
        change (match startTag tag with | some c => s.start c | none => s) = s
        rw [e]
      rw [he]; rfl
  | bad tag =>
    change s.badAttr tag = _
    rw [act_bad]
    unfold TvState.badAttr
    have hentry : s.entry (.bad tag) = match (if tag ∈ infoTags then none else startTag tag) with | some c => s.start c | none => s := rfl
    by_cases hi : tag ∈ infoTags
    · rw [hentry, if_pos hi, if_pos ((creation_info tag).2 hi), if_pos hi]
    · rw [hentry, if_neg hi, if_neg (fun h => hi ((creation_info tag).1 h)), if_neg hi]
      cases hst : startTag tag with
      | none => rfl
      | some c => rw [tagClass_of_start tag c hst h]; rfl
  | spdxId v => rfl
  | unknown => rfl
  | commented tag line c =>
    change (if tag = s%"Relationship" then _ else _) = Except.ok (act L (s.entry (.commented tag line c)) (.commented tag line c))
    rw [act_commented]
    have hentry : s.entry (.commented tag line c) = match (if tag = s%"Relationship" then some TvClass.relationship else none) with
      | some c => s.start c | none => s := rfl
    rw [hentry]
    by_cases hr : tag = s%"Relationship"
    · rw [if_pos hr, if_pos hr, if_pos hr]
    · rw [if_neg hr, if_neg hr, if_neg hr]; rfl

/-! ## The creation information -/

def infoKinds : List (Str × Kind × Bool) :=
  [(s%"spdx_version", .str, false), (s%"spdx_id", .str, false), (s%"name", .str, false), (s%"document_namespace", .str, false),
   (s%"creators", .actor, true), (s%"created", .date, false), (s%"creator_comment", .str, false), (s%"data_license", .str, false),
   (s%"external_document_refs", .docRef, true), (s%"license_list_version", .version, false), (s%"document_comment", .str, false)]

def InfoFits (f : Str) (x : TvVal) : Prop :=
  match infoKinds.lookup f with
  | some (k, false) => ∃ y, x = .one y ∧ k.ok y = true
  | some (k, true) => ∃ l, x = .many l ∧ l.all k.ok = true
  | none => False

private theorem map_some {α : Type} {o : Option α} {g : α → TvItem} {x : TvItem} {k : Kind} (h : o.map g = some x) (hk : ∀ a, k.ok (g a) = true) :
    k.ok x = true := by
  cases o with
  | none => cases h
  | some a => cases h; exact hk a

theorem info_kind {L : LicText} {tag : Str} {v : Tok} {f : Str} {many : Bool} {x : TvItem}
    (hm : infoSlots.lookup tag = some (f, many)) (hx : itemOf L tag v = some x) : ∃ k, infoKinds.lookup f = some (k, many) ∧ k.ok x = true := by
  have hm := C68.lookup_mem hm
  simp only [infoSlots, List.mem_cons, List.not_mem_nil, or_false, Prod.mk.injEq] at hm
  rcases hm with ⟨rfl, rfl, rfl⟩ | ⟨rfl, rfl, rfl⟩ | ⟨rfl, rfl, rfl⟩ | ⟨rfl, rfl, rfl⟩ | ⟨rfl, rfl, rfl⟩ | ⟨rfl, rfl, rfl⟩ | ⟨rfl, rfl, rfl⟩ |
    ⟨rfl, rfl, rfl⟩ | ⟨rfl, rfl, rfl⟩ | ⟨rfl, rfl, rfl⟩
  all_goals first
    | (refine ⟨.str, by decide +kernel, ?_⟩; cases (show some (TvItem.str (textOrLineValue v)) = some x from hx); rfl; done)
    | (refine ⟨.version, by decide +kernel, ?_⟩; exact map_some (o := asVersion v) hx fun _ => rfl)
    | (refine ⟨.date, by decide +kernel, ?_⟩; exact map_some (o := asDate v) hx fun _ => rfl)
    | (refine ⟨.actor, by decide +kernel, ?_⟩; exact map_some (o := asActor v) hx fun _ => rfl)
    | (refine ⟨.docRef, by decide +kernel, ?_⟩; exact map_some (o := asDocRef v) hx fun _ => rfl)

structure InfoInv (pre : List TvAttr) (d : Dict Str TvVal) : Prop where
  has : ∀ f, (d.get? f).isSome = true ↔ f ∈ pre.flatMap givesInfo
  fits : ∀ f x, d.get? f = some x → InfoFits f x

theorem InfoInv.skip {pre : List TvAttr} {d : Dict Str TvVal} {a : TvAttr} (h : InfoInv pre d) (hg : ∀ f ∈ givesInfo a, f ∈ pre.flatMap givesInfo) :
    InfoInv (pre ++ [a]) d where
  has f := by
    rw [List.flatMap_append, List.mem_append, h.has]
    simp only [List.flatMap_cons, List.flatMap_nil, List.append_nil]
    exact ⟨.inl, fun h => h.elim id (hg f)⟩
  fits := h.fits

theorem InfoInv.set {pre : List TvAttr} {d : Dict Str TvVal} {a : TvAttr} {f : Str} {x : TvItem} {k : Kind} (h : InfoInv pre d) (hg : givesInfo a = [f])
    (hk : infoKinds.lookup f = some (k, false)) (ok : k.ok x = true) : InfoInv (pre ++ [a]) (d.set f (.one x)) where
  has f' := by
    rw [List.flatMap_append, List.mem_append, ← h.has, Dict.get?_set]
    simp only [List.flatMap_cons, List.flatMap_nil, List.append_nil, hg, List.mem_singleton]
    by_cases e : f = f'
    · subst e; simp
    · rw [if_neg e]
      exact ⟨.inl, fun h => h.elim id (fun h => absurd h.symm e)⟩
  fits f' y hy := by
    rw [Dict.get?_set] at hy
    split at hy
    · rename_i e; subst e; cases hy
      unfold InfoFits; rw [hk]; exact ⟨_, rfl, ok⟩
    · exact h.fits f' y hy

theorem InfoInv.append {pre : List TvAttr} {d : Dict Str TvVal} {a : TvAttr} {f : Str} {x : TvItem} {k : Kind} (h : InfoInv pre d) (hg : givesInfo a = [f])
    (hk : infoKinds.lookup f = some (k, true)) (ok : k.ok x = true) : InfoInv (pre ++ [a]) (tvAppend d f x) := by
  have hold : d.get? f = none ∨ ∃ l, d.get? f = some (.many l) ∧ l.all k.ok = true := by
    cases hd : d.get? f with
    | none => exact .inl rfl
    | some z =>
      have := h.fits f z hd
      unfold InfoFits at this
      rw [hk] at this
      obtain ⟨l, rfl, hl⟩ := this
      exact .inr ⟨l, rfl, hl⟩
  have key : ∃ l, tvAppend d f x = d.set f (.many l) ∧ l.all k.ok = true := by
    rcases hold with e | ⟨l, e, hl⟩
    · exact ⟨[x], by unfold tvAppend; rw [e], by simpa using ok⟩
    · exact ⟨l ++ [x], by unfold tvAppend; rw [e], by rw [List.all_append, hl]; simpa using ok⟩
  obtain ⟨l, e, hl⟩ := key
  rw [e]
  constructor
  · intro f'
    rw [List.flatMap_append, List.mem_append, ← h.has, Dict.get?_set]
    simp only [List.flatMap_cons, List.flatMap_nil, List.append_nil, hg, List.mem_singleton]
    by_cases e : f = f'
    · subst e; simp
    · rw [if_neg e]
      exact ⟨.inl, fun h => h.elim id (fun h => absurd h.symm e)⟩
  · intro f' y hy
    rw [Dict.get?_set] at hy
    split at hy
    · rename_i e; subst e; cases hy
      unfold InfoFits; rw [hk]; exact ⟨_, rfl, hl⟩
    · exact h.fits f' y hy

theorem idGiven_iff (pre : List TvAttr) : idGiven pre = true ↔ s%"spdx_id" ∈ pre.flatMap givesInfo := by
  have tab : ∀ p ∈ infoSlots, p.2.1 ≠ s%"spdx_id" := by decide +kernel
  induction pre with
  | nil => simp [idGiven, ids]
  | cons a pre ih =>
    rw [List.flatMap_cons, List.mem_append]
    refine Iff.trans ?_ (or_congr Iff.rfl ih)
    cases a with
    | spdxId v => simp [idGiven, ids, givesInfo]
    | value tag v =>
      have : s%"spdx_id" ∉ givesInfo (.value tag v) := by
        unfold givesInfo
        dsimp only
        split
        · rename_i f m e
          have := tab _ (C68.lookup_mem e)
          dsimp only at this
          split
          · simpa using fun h => this h.symm
          · exact List.not_mem_nil
        · exact List.not_mem_nil
      simp only [this, false_or]
      rfl
    | bad tag => simp [idGiven, ids, givesInfo]
    | unknown => simp [idGiven, ids, givesInfo]
    | commented t l c => simp [idGiven, ids, givesInfo]

/-! ## The invariant -/

structure Inv (L : LicText) (cl : Option TvClass) (P : Sections) (pre : List TvAttr) (s : TvState) : Prop where
  cls : s.cls = cl
  elem : ElemInv L cl P.last s.elemLog s.elem
  infoLog : s.infoLog = infoComplaintsFrom [] pre
  info : InfoInv pre s.info
  tried : s.packages = none ↔ ¬ ∃ p ∈ P.complete, p.1 = .package ∧ elementComplaints L p.2 = []
  built : s.packages.getD [] = [] ↔ ¬ ∃ p ∈ P.complete, p.1 = .package ∧ Sane L .package p.2

section
variable {L : LicText} {cl : Option TvClass} {Q : Sections} {pre : List TvAttr} {e s' : TvState} {a : TvAttr}

theorem Inv.elemStep (h : Inv L cl Q pre e) (he : ElemInv L cl (Q.last ++ [⟨pre, a⟩]) s'.elemLog s'.elem) (h1 : s'.cls = e.cls)
    (h2 : s'.infoLog = e.infoLog) (h3 : s'.info = e.info) (h4 : s'.packages = e.packages) (hg : givesInfo a = []) (hc : infoComplaints pre a = []) :
    Inv L cl ⟨Q.complete, Q.last ++ [⟨pre, a⟩]⟩ (pre ++ [a]) s' where
  cls := h1.trans h.cls
  elem := he
  infoLog := by rw [info_snoc, hc, List.append_nil, h2, h.infoLog]
  info := by rw [h3]; exact h.info.skip (by rw [hg]; intro f hf; cases hf)
  tried := by rw [h4]; exact h.tried
  built := by rw [h4]; exact h.built

theorem Inv.infoStep (h : Inv L cl Q pre e) (hi : InfoInv (pre ++ [a]) s'.info) (hl : s'.infoLog = e.infoLog ++ infoComplaints pre a)
    (h1 : s'.cls = e.cls) (h2 : s'.elemLog = e.elemLog) (h3 : s'.elem = e.elem) (h4 : s'.packages = e.packages)
    (hg : Place.gives ⟨pre, a⟩ = []) (hc : Place.complaints L Q.last ⟨pre, a⟩ = []) (hb : ∀ f, Place.blankIn L f ⟨pre, a⟩ = false)
    (hn : Place.newId ⟨pre, a⟩ = none) : Inv L cl ⟨Q.complete, Q.last ++ [⟨pre, a⟩]⟩ (pre ++ [a]) s' where
  cls := h1.trans h.cls
  elem := by
    have := h.elem.same (p := ⟨pre, a⟩) (by rw [hg]; intro f hf; cases hf) (fun _ => hb) hn
    rw [hc, List.append_nil] at this
    rw [h2, h3]; exact this
  infoLog := by rw [info_snoc, hl, h.infoLog]
  info := hi
  tried := by rw [h4]; exact h.tried
  built := by rw [h4]; exact h.built

end

end Spdx.Told
