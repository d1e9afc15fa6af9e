import Verif.Lemmas.TagValueFields
import Verif.Props.C04
/- Reading back the fields of one element. -/
namespace Spdx
open Spec

/-! ## The element being read -/

/-- The values present. -/
def fieldsOf (fs : List (Str × Option TvVal)) : Dict Str TvVal := fs.filterMap fun p => p.2.map (p.1, ·)

/-- The state in which some fields of an element have been read; `b` is the state before the element. -/
def inProg (b : TvState) (c : TvClass) (fs : List (Str × Option TvVal)) : TvState := { b with cls := some c, elem := fieldsOf fs }

theorem fieldsOf_none (fs : List (Str × Option TvVal)) (k : Str) : fieldsOf (fs ++ [(k, none)]) = fieldsOf fs := by
  simp [fieldsOf]

theorem fieldsOf_some (fs : List (Str × Option TvVal)) (k : Str) (v : TvVal) : fieldsOf (fs ++ [(k, some v)]) = fieldsOf fs ++ [(k, v)] := by
  simp [fieldsOf]

theorem fieldsOf_fresh {fs : List (Str × Option TvVal)} {k : Str} (h : k ∉ fs.map (·.1)) : k ∉ (fieldsOf fs).keys := by
  intro hm
  refine h ?_
  obtain ⟨⟨a, v⟩, hv, rfl⟩ := List.mem_map.1 hm
  obtain ⟨⟨a', w⟩, hw, e⟩ := List.mem_filterMap.1 hv
  cases w with
  | none => cases e
  | some w =>
    simp only [Option.map_some, Option.some.injEq, Prod.mk.injEq] at e
    rw [← e.1]; exact List.mem_map.2 ⟨_, hw, rfl⟩

theorem fieldsOf_get?_fresh {fs : List (Str × Option TvVal)} {k : Str} (h : k ∉ fs.map (·.1)) : (fieldsOf fs).get? k = none :=
  (Dict.get?_eq_none _ _).2 (fieldsOf_fresh h)

theorem fieldsOf_get? {fs : List (Str × Option TvVal)} (hn : (fs.map (·.1)).Nodup) {k : Str} {v : Option TvVal} (h : (k, v) ∈ fs) :
    (fieldsOf fs).get? k = v := by
  induction fs with
  | nil => cases h
  | cons p fs ih =>
    obtain ⟨a, w⟩ := p
    rw [List.map_cons, List.nodup_cons] at hn
    have e : fieldsOf ((a, w) :: fs) = (w.map (a, ·)).toList ++ fieldsOf fs := by
      unfold fieldsOf
      cases w <;> rfl
    rw [e]
    rcases List.mem_cons.1 h with h1 | h1
    · simp only [Prod.mk.injEq] at h1
      obtain ⟨rfl, rfl⟩ := h1
      cases v with
      | none => exact fieldsOf_get?_fresh hn.1
      | some v => exact if_pos rfl
    · have hne : a ≠ k := by
        rintro rfl
        exact hn.1 (List.mem_map.2 ⟨_, h1, rfl⟩)
      cases w with
      | none => exact ih hn.2 h1
      | some w => exact (if_neg hne).trans (ih hn.2 h1)

theorem fieldsOf_set {fs : List (Str × Option TvVal)} {k : Str} (h : k ∉ fs.map (·.1)) (v : TvVal) :
    (fieldsOf fs).set k v = fieldsOf (fs ++ [(k, some v)]) := by
  rw [fieldsOf_some, Dict.set_fresh _ _ _ (fieldsOf_fresh h)]

/-- The document's own id has been read. -/
def HasId (b : TvState) : Prop := (b.info.get? s%"spdx_id").isSome

/-- Reading `w` adds the field. -/
def TvField (L : LicText) (w : TvSteps) (c : TvClass) (k : Str) (v : Option TvVal) : Prop :=
  ∀ b fs, HasId b → k ∉ fs.map (·.1) → Runs L w (inProg b c fs) (inProg b c (fs ++ [(k, v)]))

/-- Reading `w` gives these fields, if no key is there twice. -/
structure Chain (L : LicText) (s : TvState) (b : TvState) (c : TvClass) (w : TvSteps) (fs : List (Str × Option TvVal)) : Prop where
  run : (fs.map (·.1)).Nodup → Runs L w s (inProg b c fs)

theorem Chain.field {L : LicText} {w w' : TvSteps} {s b : TvState} {c : TvClass} {fs : List (Str × Option TvVal)} {k : Str}
    {v : Option TvVal} (h : Chain L s b c w fs) (hb : HasId b) (hf : TvField L w' c k v) : Chain L s b c (w ++ w') (fs ++ [(k, v)]) := by
  refine ⟨fun hn => ?_⟩
  rw [List.map_append, List.nodup_append] at hn
  refine (h.run hn.1).append (hf b fs hb ?_)
  intro hm
  exact hn.2.2 _ hm k (by simp) rfl

theorem Chain.done {L : LicText} {w w' : TvSteps} {s b : TvState} {c : TvClass} {fs fs' : List (Str × Option TvVal)}
    (h : Chain L s b c w fs) (hw : w = w') (hf : fs = fs') (hn : (fs'.map (·.1)).Nodup) : Runs L w' s (inProg b c fs') := by
  subst hw; subst hf; exact h.run hn

theorem TvField.absent {L : LicText} {c : TvClass} {k : Str} : TvField L [] c k none := by
  intro b fs _ _
  have : inProg b c (fs ++ [(k, none)]) = inProg b c fs := by unfold inProg; rw [fieldsOf_none]
  rw [this]; exact .nil L _

theorem TvField.one {L : LicText} {c : TvClass} {k : Str} {w : TvSteps} {a : TvAttr} {v : TvVal} (h : Gives w [a])
    (hs : ∀ s : TvState, s.cls = some c → HasId s → s.elem.get? k = none → s.step L a = .ok { s with elem := s.elem.set k v }) :
    TvField L w c k (some v) := by
  intro b fs hb hk
  refine Runs.one h ?_
  rw [hs (inProg b c fs) rfl hb (fieldsOf_get?_fresh hk)]
  show Except.ok { inProg b c fs with elem := (fieldsOf fs).set k v } = _
  rw [fieldsOf_set hk]; rfl

theorem TvField.opt {L : LicText} {c : TvClass} {k : Str} {α : Type} {f : α → TvSteps} {v : α → TvVal} (x : Option α)
    (h : ∀ a, x = some a → TvField L (f a) c k (some (v a))) : TvField L (x.toList.flatMap f) c k (x.map v) := by
  cases x with
  | none => exact .absent
  | some a =>
    have : (some a).toList.flatMap f = f a := by simp
    rw [this]; exact h a rfl

/-- A list of values, absent when empty. -/
def manyOf (l : List TvItem) : Option TvVal := if l = [] then none else some (.many l)

theorem manyOf_append (l : List TvItem) (x : TvItem) : manyOf (l ++ [x]) = some (.many (l ++ [x])) := if_neg (by simp)

theorem tvAppend_manyOf {fs : List (Str × Option TvVal)} {k : Str} (h : k ∉ fs.map (·.1)) (l : List TvItem) (x : TvItem) :
    tvAppend (fieldsOf (fs ++ [(k, manyOf l)])) k x = fieldsOf (fs ++ [(k, manyOf (l ++ [x]))]) := by
  rw [manyOf_append, fieldsOf_some]
  unfold manyOf
  split
  · rename_i e; subst e
    rw [fieldsOf_none]
    unfold tvAppend
    rw [fieldsOf_get?_fresh h]
    exact Dict.set_fresh _ _ _ (fieldsOf_fresh h)
  · rw [fieldsOf_some]
    unfold tvAppend
    have hg : ∀ (d : Dict Str TvVal) (v : TvVal), k ∉ Dict.keys d → Dict.get? (d ++ [(k, v)]) k = some v ∧
        ∀ v', Dict.set (d ++ [(k, v)]) k v' = d ++ [(k, v')] := by
      intro d v hd
      induction d with
      | nil => exact ⟨if_pos rfl, fun v' => if_pos rfl⟩
      | cons p d ih =>
        obtain ⟨a, w⟩ := p
        have hd' : ¬ (k = a ∨ k ∈ Dict.keys d) := by simpa [Dict.keys] using hd
        obtain ⟨h1, h2⟩ := ih (fun h => hd' (.inr h))
        refine ⟨(if_neg (fun e => hd' (.inl e.symm))).trans h1, fun v' => (if_neg (fun e => hd' (.inl e.symm))).trans ?_⟩
        exact congrArg ((a, w) :: ·) (h2 v')
    rw [(hg _ _ (fieldsOf_fresh h)).1]
    exact (hg _ _ (fieldsOf_fresh h)).2 _

theorem TvField.list {L : LicText} {c : TvClass} {k : Str} {α : Type} {f : α → TvSteps} {a : α → TvAttr} {v : α → TvItem} (l : List α)
    (hg : ∀ x ∈ l, Gives (f x) [a x])
    (hs : ∀ x ∈ l, ∀ s : TvState, s.cls = some c → s.step L (a x) = .ok (s.appendElem k (v x))) :
    TvField L (l.flatMap f) c k (manyOf (l.map v)) := by
  intro b fs _ hk
  have : ∀ (l : List α), (∀ x ∈ l, Gives (f x) [a x]) →
      (∀ x ∈ l, ∀ s : TvState, s.cls = some c → s.step L (a x) = .ok (s.appendElem k (v x))) → ∀ pre,
      Runs L (l.flatMap f) (inProg b c (fs ++ [(k, manyOf pre)])) (inProg b c (fs ++ [(k, manyOf (pre ++ l.map v))])) := by
    intro l
    induction l with
    | nil => intro _ _ pre; rw [List.map_nil, List.append_nil]; exact .nil L _
    | cons x l ih =>
      intro hg hs pre
      rw [List.flatMap_cons, List.map_cons]
      have := ih (fun y hy => hg y (List.mem_cons_of_mem _ hy)) (fun y hy => hs y (List.mem_cons_of_mem _ hy)) (pre ++ [v x])
      rw [List.append_assoc] at this
      refine (Runs.one (hg x List.mem_cons_self) ?_).append this
      rw [hs x List.mem_cons_self _ rfl]
      unfold TvState.appendElem
      show Except.ok { inProg b c (fs ++ [(k, manyOf pre)]) with elem := tvAppend (fieldsOf (fs ++ [(k, manyOf pre)])) k (v x) } = _
      rw [tvAppend_manyOf hk]; rfl
  have h0 := this l hg hs []
  have e : inProg b c (fs ++ [(k, manyOf [])]) = inProg b c fs := by
    unfold inProg manyOf; rw [if_pos rfl, fieldsOf_none]
  rw [e, List.nil_append] at h0
  exact h0

/-! ## The actions for the kinds of tags -/

theorem generic_ok {s : TvState} {tag k : Str} {c : TvClass} (hc : tagClass tag = some c) (hs : startTag tag = none) (hk : propertyName tag = k)
    (h : s.cls = some c) (hf : s.elem.get? k = none) (v : TvItem) :
    s.generic tag v = .ok { s with elem := s.elem.set k (.one v) } := by
  unfold TvState.generic
  rw [hc]
  simp only [hs, Option.isSome_none, Bool.false_eq_true, if_false]
  unfold TvState.inScope TvState.setElem
  rw [if_pos h, hk]
  show Except.ok (if (s.elem.get? k).isSome = true then _ else _) = _
  rw [hf]
  rfl

/-- A tag of the class `c` whose value is kept as `k`. -/
structure TagOf (tags : List Str) (tag : Str) (c : TvClass) (k : Str) (x : TvSyntax) : Prop where
  mem : tag ∈ tags
  cls : tagClass tag = some c
  start : startTag tag = none
  key : propertyName tag = k
  syn : tvSyntax.lookup tag = some x

instance (tags : List Str) (tag : Str) (c : TvClass) (k : Str) (x : TvSyntax) : Decidable (TagOf tags tag c k x) :=
  decidable_of_iff (tag ∈ tags ∧ tagClass tag = some c ∧ startTag tag = none ∧ propertyName tag = k ∧ tvSyntax.lookup tag = some x)
    ⟨fun h => ⟨h.1, h.2.1, h.2.2.1, h.2.2.2.1, h.2.2.2.2⟩, fun h => ⟨h.mem, h.cls, h.start, h.key, h.syn⟩⟩

theorem special_not_text : ∀ t ∈ genericSpecialTags, t ∉ genericTextTags := by decide +kernel
theorem license_not_text : ∀ t ∈ genericLicenseTags, t ∉ genericTextTags ∧ t ∉ genericSpecialTags := by decide +kernel

theorem attr_text {L : LicText} {s : TvState} {tag : Str} {v : Tok} (h : tag ∈ genericTextTags) :
    s.attr L tag v = s.generic tag (.str (textOrLineValue v)) := if_pos h
theorem attr_special {L : LicText} {s : TvState} {tag : Str} {v : Tok} (h : tag ∈ genericSpecialTags) :
    s.attr L tag v = s.generic tag (lineOrSpecialValue v) := (if_neg (special_not_text _ h)).trans (if_pos h)
theorem attr_license {L : LicText} {s : TvState} {tag : Str} {v : Tok} (h : tag ∈ genericLicenseTags) :
    s.attr L tag v = (s.logLicense (licenseValue L v).2).generic tag (licenseValue L v).1 :=
  (if_neg (license_not_text _ h).1).trans ((if_neg (license_not_text _ h).2).trans (if_pos h))

/-- A text that may have several lines. -/
theorem field_text {L : LicText} {tag : Str} {c : TvClass} {k : Str} (ht : TagOf genericTextTags tag c k .textOrLine) (v : Str)
    (hv : FreeText v) : TvField L (writeText tag v) c k (some (.one (.str v))) :=
  .one (.text ht.syn hv) fun s hc _ hf => by
    show s.attr L tag _ = _
    rw [attr_text ht.mem, (textTok_value hv).2]
    exact generic_ok ht.cls ht.start ht.key hc hf _

theorem field_text? {L : LicText} {tag : Str} {c : TvClass} {k : Str} (ht : TagOf genericTextTags tag c k .textOrLine) (v : Option Str)
    (hv : ∀ t, v = some t → FreeText t) : TvField L (writeText? tag v) c k (v.map fun t => .one (.str t)) :=
  .opt v fun t e => field_text ht t (hv t e)

/-- A text on one line. -/
theorem field_line {L : LicText} {tag : Str} {c : TvClass} {k : Str} (ht : TagOf genericTextTags tag c k .line) (v : Str)
    (hv : Plain v) : TvField L (writeValue tag v) c k (some (.one (.str v))) :=
  .one (.value ht.syn (lexes_plain hv) rfl) fun s hc _ hf => by
    show s.attr L tag _ = _
    rw [attr_text ht.mem]
    exact generic_ok ht.cls ht.start ht.key hc hf _

theorem field_line? {L : LicText} {tag : Str} {c : TvClass} {k : Str} (ht : TagOf genericTextTags tag c k .line) (v : Option Str)
    (hv : ∀ t, v = some t → Plain t) : TvField L (writeValue? tag v) c k (v.map fun t => .one (.str t)) :=
  .opt v fun t e => field_line ht t (hv t e)

/-- The token of a text, NONE or NOASSERTION on one line. -/
def specialTok : OrSpecial Str → Tok
  | .val s => .line s
  | .noAssertion => .noAssertion
  | .none => .none

theorem lexes_special {x : OrSpecial Str} (h : LineTv x) : Lexes x.text (specialTok x) := by
  cases x with
  | val s => exact lexes_plain (h s rfl)
  | noAssertion => exact lexes_noAssertion
  | none => exact lexes_none

theorem field_special {L : LicText} {tag : Str} {c : TvClass} {k : Str} (ht : TagOf genericSpecialTags tag c k .lineOrSpecial)
    (v : OrSpecial Str) (hv : LineTv v) : TvField L (writeValue tag v.text) c k (some (.one (specialItem v))) :=
  .one (.value ht.syn (lexes_special hv) (by cases v <;> rfl)) fun s hc _ hf => by
    show s.attr L tag _ = _
    rw [attr_special ht.mem, generic_ok ht.cls ht.start ht.key hc hf]
    cases v <;> rfl

theorem opt_map {L : LicText} {c : TvClass} {k tag : Str} {α : Type} {g : α → Str} {v : α → TvVal} (x : Option α)
    (h : ∀ a, x = some a → TvField L (writeValue tag (g a)) c k (some (v a))) : TvField L (writeValue? tag (x.map g)) c k (x.map v) := by
  have : writeValue? tag (x.map g) = x.toList.flatMap fun a => writeValue tag (g a) := by cases x <;> rfl
  rw [this]; exact .opt x h

theorem field_special? {L : LicText} {tag : Str} {c : TvClass} {k : Str} (ht : TagOf genericSpecialTags tag c k .lineOrSpecial)
    (v : Option (OrSpecial Str)) (hv : ∀ x, v = some x → LineTv x) :
    TvField L (writeValue? tag (v.map OrSpecial.text)) c k (v.map fun x => .one (specialItem x)) :=
  opt_map v fun x e => field_special ht x (hv x e)

/-- A copyright text. -/
theorem field_specialText? {L : LicText} {tag : Str} {c : TvClass} {k : Str} (ht : TagOf genericSpecialTags tag c k .lineOrSpecial)
    (v : Option (OrSpecial Str)) (hv : ∀ x, v = some x → TextTv x) :
    TvField L (writeTextSpecial? tag v) c k (v.map fun x => .one (specialItem x)) := by
  refine .opt v fun x e => ?_
  cases x with
  | val t =>
    obtain ⟨hf, h1, h2⟩ := hv _ e t rfl
    refine .one (.specialText ht.syn hf) fun s hc _ hn => ?_
    show s.attr L tag _ = _
    rw [attr_special ht.mem, generic_ok ht.cls ht.start ht.key hc hn]
    have : lineOrSpecialValue (textTok t) = .str t := by
      have hv := (textTok_value hf).2
      unfold textTok reservedTok at hv ⊢
      rw [if_neg h1, if_neg h2] at hv ⊢
      split
      · rename_i hn; rw [if_pos hn] at hv; exact congrArg TvItem.str hv
      · rename_i hn
        have := ((freeText_cases hf).2 hn).2
        rw [if_neg this]; rfl
    rw [this]; rfl
  | noAssertion =>
    refine .one (.value ht.syn lexes_noAssertion rfl) fun s hc _ hn => ?_
    show s.attr L tag _ = _
    rw [attr_special ht.mem, generic_ok ht.cls ht.start ht.key hc hn]; rfl
  | none =>
    refine .one (.value ht.syn lexes_none rfl) fun s hc _ hn => ?_
    show s.attr L tag _ = _
    rw [attr_special ht.mem, generic_ok ht.cls ht.start ht.key hc hn]; rfl

/-- The token of a license expression. -/
def licTok (L : LicText) : OrSpecial LicExpr → Tok
  | .val e => .line (L.render e)
  | .noAssertion => .noAssertion
  | .none => .none

def licItem : OrSpecial LicExpr → TvItem
  | .val e => .lic e
  | .noAssertion => .noAssertion
  | .none => .none

theorem lexes_lic {L : LicText} {x : OrSpecial LicExpr} (h : LicTv L x) :
    Lexes (L.str x) (licTok L x) ∧ TvSyntax.license.accepts (licTok L x) = true ∧ licenseValue L (licTok L x) = (licItem x, none) := by
  cases x with
  | val e =>
    obtain ⟨h1, h2⟩ := h e rfl
    refine ⟨lexes_plain h1, rfl, ?_⟩
    show (match L.parse (L.render e) with | some (some e) => _ | some none => _ | none => _) = _
    rw [h2]; rfl
  | noAssertion => exact ⟨lexes_noAssertion, rfl, rfl⟩
  | none => exact ⟨lexes_none, rfl, rfl⟩

theorem field_license? {L : LicText} {tag : Str} {c : TvClass} {k : Str} (ht : TagOf genericLicenseTags tag c k .license)
    (v : Option (OrSpecial LicExpr)) (hv : ∀ x, v = some x → LicTv L x) :
    TvField L (writeValue? tag (v.map L.str)) c k (v.map fun x => .one (licItem x)) := by
  refine opt_map v fun x e => ?_
  obtain ⟨h1, h2, h3⟩ := lexes_lic (hv x e)
  refine .one (.value ht.syn h1 h2) fun s hc _ hn => ?_
  show s.attr L tag _ = _
  rw [attr_license ht.mem, h3]
  exact generic_ok ht.cls ht.start ht.key hc hn _

/-- Lists of texts. -/
theorem textList_cases {tag : Str} {c : TvClass} {k : Str} (h : textListTags.lookup tag = some (c, k)) (L : LicText) (s : TvState) (v : Tok) :
    s.attr L tag v = .ok (s.inScope c fun s => s.appendElem k (.str (textOrLineValue v))) := by
  have := lookup_mem h
  simp only [textListTags, List.mem_cons, Prod.mk.injEq, List.not_mem_nil, or_false] at this
  rcases this with ⟨rfl, rfl, rfl⟩ | ⟨rfl, rfl, rfl⟩ | ⟨rfl, rfl, rfl⟩ | ⟨rfl, rfl, rfl⟩ <;> rfl

theorem licenseList_cases {tag : Str} {c : TvClass} {k : Str} (h : licenseListTags.lookup tag = some (c, k)) (L : LicText) (s : TvState)
    (v : Tok) : s.attr L tag v = .ok ((s.logLicense (licenseValue L v).2).inScope c fun s => s.appendElem k (licenseValue L v).1) := by
  have := lookup_mem h
  simp only [licenseListTags, List.mem_cons, Prod.mk.injEq, List.not_mem_nil, or_false] at this
  rcases this with ⟨rfl, rfl, rfl⟩ | ⟨rfl, rfl, rfl⟩ | ⟨rfl, rfl, rfl⟩ <;> rfl

theorem field_lines {L : LicText} {tag : Str} {c : TvClass} {k : Str} (ht : textListTags.lookup tag = some (c, k))
    (hx : tvSyntax.lookup tag = some .line) (l : List Str) (hl : ∀ t ∈ l, Plain t) :
    TvField L (l.flatMap (writeValue tag)) c k (manyOf (l.map .str)) := by
  refine .list (a := fun t => .value tag (.line t)) l (fun t h => .value hx (lexes_plain (hl t h)) rfl) fun t _ s hc => ?_
  show s.attr L tag _ = _
  rw [textList_cases ht]
  unfold TvState.inScope
  rw [if_pos hc]; rfl

theorem field_texts {L : LicText} {tag : Str} {c : TvClass} {k : Str} (ht : textListTags.lookup tag = some (c, k))
    (hx : tvSyntax.lookup tag = some .textOrLine) (l : List Str) (hl : ∀ t ∈ l, FreeText t) :
    TvField L (l.flatMap (writeText tag)) c k (manyOf (l.map .str)) := by
  refine .list (a := fun t => .value tag (textTok t)) l (fun t h => .text hx (hl t h)) fun t h s hc => ?_
  show s.attr L tag _ = _
  rw [textList_cases ht]
  unfold TvState.inScope
  rw [if_pos hc, (textTok_value (hl t h)).2]

theorem field_licenses {L : LicText} {tag : Str} {c : TvClass} {k : Str} (ht : licenseListTags.lookup tag = some (c, k))
    (hx : tvSyntax.lookup tag = some .license) (l : List (OrSpecial LicExpr)) (hl : ∀ x ∈ l, LicTv L x) :
    TvField L (l.flatMap fun x => writeValue tag (L.str x)) c k (manyOf (l.map licItem)) := by
  refine .list (a := fun x => .value tag (licTok L x)) l (fun x h => .value hx (lexes_lic (hl x h)).1 (lexes_lic (hl x h)).2.1)
    fun x h s hc => ?_
  show s.attr L tag _ = _
  rw [licenseList_cases ht, (lexes_lic (hl x h)).2.2]
  show Except.ok (s.inScope c _) = _
  unfold TvState.inScope
  rw [if_pos hc]

/-- The id of an element. -/
theorem field_spdxId {L : LicText} {c : TvClass} (v : Str) (hv : Plain v) :
    TvField L (writeValue s%"SPDXID" v) c s%"spdx_id" (some (.one (.str v))) :=
  .one (.spdxId hv) fun s _ hb _ => by
    exact congrArg Except.ok (if_pos hb)

/-- Checksums. -/
theorem checksum_line (c : Checksum) (h : ChecksumTv c) : ∃ s, checksumToTv c = some s ∧ Lexes s (.checksum s) ∧ checksumFromTv s = some c := by
  have hv := C06.tv_roundtrip c (fun hm => (hex_facts (h.2 _ hm)).2.1 rfl) (by
    rw [strip_eq_self_iff]
    exact ⟨fun x t et => (hex_facts (h.2 x (by rw [et]; simp))).1, fun x t et => (hex_facts (h.2 x (by rw [et]; simp))).1⟩)
  have hs : checksumToTv c = some (C06.specName c.algorithm ++ s%": " ++ c.value) := by
    unfold checksumToTv
    rw [C06.tv_name]; rfl
  rw [hs] at hv
  exact ⟨_, hs, lexes_checksum c.algorithm h.1 h.2, hv⟩

theorem field_checksums {L : LicText} {tag : Str} {c : TvClass} (hx : tvSyntax.lookup tag = some .checksum)
    (ha : ∀ (s : TvState) v, s.attr L tag v = s.checksumAttr c v.value) (l : List Checksum) (hl : ∀ x ∈ l, ChecksumTv x) :
    TvField L (l.flatMap (writeChecksum tag)) c s%"checksums" (manyOf (l.map .checksum)) := by
  refine .list (a := fun x => .value tag (.checksum ((checksumToTv x).getD []))) l (fun x h => ?_) fun x h s hc => ?_
  · obtain ⟨t, h1, h2, _⟩ := checksum_line x (hl x h)
    unfold writeChecksum
    rw [h1]
    exact .value hx h2 rfl
  · obtain ⟨t, h1, _, h3⟩ := checksum_line x (hl x h)
    show s.attr L tag _ = _
    rw [ha, h1]
    show s.checksumAttr c t = _
    unfold TvState.checksumAttr
    rw [if_pos hc, h3]

/-- Dates of packages and annotations. -/
theorem field_date {L : LicText} {tag : Str} {c : TvClass} {k : Str} (hx : tvSyntax.lookup tag = some .date) (hk : propertyName tag = k)
    (ha : ∀ (s : TvState) v, s.attr L tag v = .ok (s.inScope c fun s => s.setElem tag (dateItem v.value))) (t : DateTime) (h : DateOk t) :
    TvField L (writeDate tag t) c k (some (.one (.date t))) := by
  obtain ⟨x, h1, h2, h3⟩ := lexes_date t h
  unfold writeDate
  rw [h1]
  refine .one (.value hx h2 rfl) fun s hc _ hn => ?_
  show s.attr L tag _ = _
  rw [ha]
  unfold TvState.inScope TvState.setElem
  rw [if_pos hc, hk]
  show (Except.ok (if (s.elem.get? k).isSome = true then _ else _) : Py TvState) = _
  rw [hn]
  show (Except.ok (match dateItem x with | .ok x => _ | .error m => _) : Py TvState) = _
  unfold dateItem
  rw [h3]

theorem field_date? {L : LicText} {tag : Str} {c : TvClass} {k : Str} (hx : tvSyntax.lookup tag = some .date) (hk : propertyName tag = k)
    (ha : ∀ (s : TvState) v, s.attr L tag v = .ok (s.inScope c fun s => s.setElem tag (dateItem v.value))) (t : Option DateTime)
    (h : ∀ x, t = some x → DateOk x) : TvField L (t.toList.flatMap (writeDate tag)) c k (t.map fun x => .one (.date x)) :=
  .opt t fun x e => field_date hx hk ha x (h x e)

end Spdx
