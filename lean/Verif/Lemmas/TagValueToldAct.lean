import Verif.Lemmas.TagValueToldStep
/- Every attribute keeps the invariant and is reported as described. -/
namespace Spdx.Told
open Spdx Spec

variable {L : LicText} {cl : Option TvClass} {Q : Sections} {pre : List TvAttr} {e : TvState}

/-- What is to be shown of an attribute. -/
def Acts (L : LicText) (cl : Option TvClass) (Q : Sections) (pre : List TvAttr) (e : TvState) (a : TvAttr) : Prop :=
  Inv L cl ⟨Q.complete, Q.last ++ [⟨pre, a⟩]⟩ (pre ++ [a]) (act L e a) ∧ (act L e a).log = e.log ++ Place.misplaced ⟨pre, a⟩

private theorem logLicense_eq (e : TvState) (m : Option PMsg) : e.logLicense m = { e with elemLog := e.elemLog ++ m.toList } := by
  cases m with
  | none => simp [TvState.logLicense]
  | some m => rfl

private theorem blank_value {L : LicText} {pre : List TvAttr} {tag : Str} {v : Tok} {c : TvClass} {f : Str} {many : Bool}
    (hl : slots.lookup tag = some (c, f, many)) {f' : Str}
    (hn : ¬ (Place.element ⟨pre, .value tag v⟩ = some c ∧ many = true ∧ f' = f ∧ tag ∈ licenseTags)) : Place.blankIn L f' ⟨pre, .value tag v⟩ = false := by
  rw [Bool.eq_false_iff]
  intro hb
  unfold Place.blankIn at hb
  simp only [Bool.and_eq_true, Option.any_eq_true, beq_iff_eq, decide_eq_true_eq] at hb
  obtain ⟨⟨⟨⟨⟨c', hc, h⟩, ht⟩, _⟩, _⟩, _⟩ := hb
  rw [hl] at h
  cases h
  exact hn ⟨hc, rfl, rfl, ht⟩

private theorem lic_blank {L : LicText} {pre : List TvAttr} {tag : Str} {v : Tok} {c : TvClass} {f : Str}
    (hl : slots.lookup tag = some (c, f, true)) (he : Place.element ⟨pre, .value tag v⟩ = some c) (ht : tag ∈ licenseTags)
    (hf : licenseFault L tag v = none) : (licenseValue L v).1.lic?.isSome = !Place.blankIn L f ⟨pre, .value tag v⟩ := by
  have hb : Place.blankIn L f ⟨pre, .value tag v⟩ = (decide (v ≠ .noAssertion) && decide (v ≠ .none) && decide (L.parse v.value = some none)) := by
    unfold Place.blankIn
    simp [he, hl, ht]
  rw [hb]
  rw [licenseFault_eq ht] at hf
  unfold licenseValue at hf ⊢
  split
  · rfl
  · rfl
  · rename_i h1 h2
    have h1' : v ≠ .noAssertion := h1
    have h2' : v ≠ .none := h2
    split at hf
    · exact absurd rfl h1
    · exact absurd rfl h2
    · cases hp : L.parse v.value with
      | none => rw [hp] at hf; cases hf
      | some o => cases o <;> simp [h1', h2', TvItem.lic?]

theorem act_slot (h : Inv L cl Q pre e) {tag : Str} {v : Tok} (hcl : cl = current (pre ++ [.value tag v])) (hfine : Fine (.value tag v))
    {c : TvClass} {f : Str} {many : Bool} (hl : slots.lookup tag = some (c, f, many)) : Acts L cl Q pre e (.value tag v) := by
  obtain ⟨hs, ha⟩ := hfine
  have hel : Place.element ⟨pre, .value tag v⟩ = cl := hcl.symm
  have hgi : givesInfo (.value tag v) = [] ∧ infoComplaints pre (.value tag v) = [] := by
    have tab : ∀ p ∈ slots, infoSlots.lookup p.1 = none := by decide +kernel
    have := tab _ (C68.lookup_mem hl)
    unfold givesInfo infoComplaints
    simp only [this, and_self]
  have hg : Place.gives ⟨pre, .value tag v⟩ =
      if (cl = some c ∨ tag = s%"PackageAttributionText") ∧ faultOf tag v = none then [f] else [] := by
    unfold Place.gives
    rw [hel]
    dsimp only
    rw [hl]
  have hc : Place.complaints L Q.last ⟨pre, .value tag v⟩ = (licenseFault L tag v).toList ++
      if cl = some c then
        if many = false ∧ f ∈ filled Q.last then [multipleMsg tag] else (faultOf tag v).toList
      else [] := by
    unfold Place.complaints
    rw [hel]
    dsimp only
    rw [hl]
    rfl
  have hmis : Place.misplaced ⟨pre, .value tag v⟩ = if cl = some c then [] else [outsideMsg c] := by
    unfold Place.misplaced
    rw [hel]
    dsimp only
    rw [hl]
    rfl
  have hid : Place.newId ⟨pre, .value tag v⟩ = none := rfl
  have hhas := h.elem.has f
  unfold Acts
  rw [hmis]
  change Inv L cl _ _ (actValue L e tag v) ∧ (actValue L e tag v).log = _
  unfold actValue
  rw [hl, logLicense_eq]
  dsimp only
  by_cases hin : cl = some c
  · have hin' : e.cls = some c := h.cls.trans hin
    rw [if_pos hin', if_pos hin]
    rw [if_pos hin] at hc
    unfold TvState.putElem
    dsimp only
    by_cases hdup : many = false ∧ (e.elem.get? f).isSome
    · rw [if_pos hdup]
      have hdup' : many = false ∧ f ∈ filled Q.last := ⟨hdup.1, hhas.1 hdup.2⟩
      rw [if_pos hdup'] at hc
      refine ⟨?_, (List.append_nil _).symm⟩
      have := h.elem.same (p := ⟨pre, .value tag v⟩) (by
        rw [hg]
        split
        · intro f' hf'; cases List.mem_singleton.1 hf'; exact hdup'.2
        · intro f' hf'; cases hf') (by
        rw [hc]
        intro hh
        exact absurd (nil_of_append hh).2 (by simp)) hid
      rw [hc, ← List.append_assoc] at this
      exact h.elemStep this rfl rfl rfl rfl hgi.1 hgi.2
    · rw [if_neg hdup]
      have hdup' : ¬ (many = false ∧ f ∈ filled Q.last) := fun hh => hdup ⟨hh.1, hhas.2 hh.2⟩
      rw [if_neg hdup'] at hc
      unfold valueOf
      cases hfa : faultOf tag v with
      | some m =>
        refine ⟨?_, (List.append_nil _).symm⟩
        have := h.elem.same (p := ⟨pre, .value tag v⟩) (by
          rw [hg, hfa, if_neg (by simp)]
          intro f' hf'; cases hf') (by
          rw [hc, hfa]
          intro hh
          exact absurd (nil_of_append hh).2 (by simp)) hid
        rw [hc, hfa, ← List.append_assoc] at this
        exact h.elemStep this rfl rfl rfl rfl hgi.1 hgi.2
      | none =>
        rw [hfa] at hg hc
        rw [if_pos ⟨.inl hin, rfl⟩] at hg
        obtain ⟨x, hx⟩ := item_some (L := L) hs ha hfa
        rw [hx]
        dsimp only [Option.getD]
        have hc2 : Place.complaints L Q.last ⟨pre, .value tag v⟩ = (licenseFault L tag v).toList := by rw [hc]; simp
        by_cases hlist : tag ∈ licenseTags ∧ many = true
        · obtain ⟨ht, rfl⟩ := hlist
          rw [if_pos rfl]
          refine ⟨?_, (List.append_nil _).symm⟩
          have tab : ∀ p ∈ slots, p.1 ∈ licenseTags → p.2.2.2 = true → p.2.2.1 ∈ licenseLists ∧ kinds.lookup p.2.2.1 = none := by decide +kernel
          obtain ⟨k1, k2⟩ := tab _ (C68.lookup_mem hl) ht rfl
          dsimp only at k1 k2
          have := h.elem.append (p := ⟨pre, .value tag v⟩) (f := f) (x := x) hg (by rw [k2]; rfl) hid (by
            intro hh
            rw [hc2] at hh
            have hlf : licenseFault L tag v = none := by
              cases hq : licenseFault L tag v with
              | none => rfl
              | some m => rw [hq] at hh; cases hh
            rw [item_license ht] at hx
            cases hx
            refine .inr ⟨k2, k1, lic_blank hl (hel.trans hin) ht hlf, ?_⟩
            intro f' hf'
            exact blank_value hl (fun hh => hf' hh.2.2.1))
          rw [hc2] at this
          exact h.elemStep this rfl rfl rfl rfl hgi.1 hgi.2
        · have hb : ∀ f', Place.blankIn L f' ⟨pre, .value tag v⟩ = false := fun f' => blank_value hl (fun hh => hlist ⟨hh.2.2.2, hh.2.1⟩)
          obtain ⟨k, hk, hok⟩ := item_kind hs hl hx hlist
          cases many with
          | true =>
            rw [if_pos rfl]
            refine ⟨?_, (List.append_nil _).symm⟩
            have := h.elem.append (p := ⟨pre, .value tag v⟩) (f := f) (x := x) hg (by rw [hk]; rfl) hid (fun _ => .inl ⟨k, hk, hok, hb⟩)
            rw [hc2] at this
            exact h.elemStep this rfl rfl rfl rfl hgi.1 hgi.2
          | false =>
            rw [if_neg (by simp)]
            refine ⟨?_, (List.append_nil _).symm⟩
            have := h.elem.set (p := ⟨pre, .value tag v⟩) [(f, x)] hg hb (by
              intro kv hkv; cases List.mem_singleton.1 hkv; exact ⟨k, hk, hok⟩) (.inl ⟨hid, by
              intro hcf kv hkv
              cases List.mem_singleton.1 hkv
              have tab : ∀ p ∈ slots, p.2.1 = .file → p.2.2.1 ≠ s%"spdx_id" := by decide +kernel
              rcases hcf with hcf | hcf
              · rw [hin] at hcf; cases hcf
              · rw [hin] at hcf
                cases hcf
                exact tab _ (C68.lookup_mem hl) rfl⟩)
            rw [hc2] at this
            exact h.elemStep this rfl rfl rfl rfl hgi.1 hgi.2
  · have hin' : ¬ e.cls = some c := fun hh => hin (h.cls.symm.trans hh)
    rw [if_neg hin', if_neg hin]
    rw [if_neg hin, List.append_nil] at hc
    have hb : ∀ f', Place.blankIn L f' ⟨pre, .value tag v⟩ = false := fun f' => blank_value hl (fun hh => hin (hel.symm.trans hh.1))
    by_cases hp : tag = s%"PackageAttributionText"
    · rw [if_pos hp]
      subst hp
      have e1 : slots.lookup s%"PackageAttributionText" = some (.package, s%"attribution_texts", true) := by decide +kernel
      rw [e1] at hl
      cases hl
      refine ⟨?_, rfl⟩
      have := h.elem.append (p := ⟨pre, .value s%"PackageAttributionText" v⟩) (f := s%"attribution_texts") (x := .str (textOrLineValue v)) (by
        rw [hg, if_pos ⟨.inr rfl, faultOf_none (by decide +kernel) v⟩]) (by decide +kernel) hid (fun _ => .inl ⟨.str, by decide +kernel, rfl, hb⟩)
      rw [hc] at this
      exact h.elemStep this rfl rfl rfl rfl hgi.1 hgi.2
    · rw [if_neg hp]
      refine ⟨?_, rfl⟩
      have := h.elem.same (p := ⟨pre, .value tag v⟩) (by
        rw [hg, if_neg (fun hh => hh.1.elim hin hp)]
        intro f' hf'; cases hf') (fun _ => hb) hid
      rw [hc] at this
      exact h.elemStep this rfl rfl rfl rfl hgi.1 hgi.2

theorem act_info (h : Inv L cl Q pre e) {tag : Str} {v : Tok} (hfine : Fine (.value tag v)) (hl : slots.lookup tag = none) : Acts L cl Q pre e (.value tag v) := by
  obtain ⟨hs, ha⟩ := hfine
  have hlt : tag ∉ licenseTags := by
    intro ht
    have tab : ∀ t ∈ licenseTags, slots.lookup t ≠ none := by decide +kernel
    exact tab _ ht hl
  have hg : Place.gives ⟨pre, .value tag v⟩ = [] := by
    unfold Place.gives; dsimp only; rw [hl]
  have hc : Place.complaints L Q.last ⟨pre, .value tag v⟩ = [] := by
    unfold Place.complaints; dsimp only; rw [hl, licenseFault_none hlt]; rfl
  have hmis : Place.misplaced ⟨pre, .value tag v⟩ = [] := by
    unfold Place.misplaced; dsimp only; rw [hl]
  have hb : ∀ f', Place.blankIn L f' ⟨pre, .value tag v⟩ = false := by
    intro f'
    unfold Place.blankIn
    simp [hlt]
  have hid : Place.newId ⟨pre, .value tag v⟩ = none := rfl
  obtain ⟨f, many, hi⟩ : ∃ f many, infoSlots.lookup tag = some (f, many) := by
    have tab : ∀ p ∈ tvSyntax, slots.lookup p.1 = none → (infoSlots.lookup p.1).isSome = true := by decide +kernel
    obtain ⟨⟨f, many⟩, hf⟩ := Option.isSome_iff_exists.1 (tab _ (C68.lookup_mem hs.choose_spec.1) hl)
    exact ⟨f, many, hf⟩
  have hgi : givesInfo (.value tag v) = if faultOf tag v = none then [f] else [] := by
    unfold givesInfo; dsimp only; rw [hi]
  have hci : infoComplaints pre (.value tag v) =
      if many = false ∧ f ∈ pre.flatMap givesInfo then [multipleMsg tag] else (faultOf tag v).toList := by
    unfold infoComplaints; dsimp only; rw [hi]; rfl
  unfold Acts
  rw [hmis]
  change Inv L cl _ _ (actValue L e tag v) ∧ (actValue L e tag v).log = _
  unfold actValue
  rw [hl]
  dsimp only
  rw [hi]
  dsimp only
  unfold TvState.putInfo
  by_cases hdup : many = false ∧ (e.info.get? f).isSome
  · rw [if_pos hdup]
    have hdup' : many = false ∧ f ∈ pre.flatMap givesInfo := ⟨hdup.1, (h.info.has f).1 hdup.2⟩
    rw [if_pos hdup'] at hci
    refine ⟨h.infoStep ?_ (by rw [hci]; rfl) rfl rfl rfl rfl hg hc hb hid, (List.append_nil _).symm⟩
    refine h.info.skip ?_
    rw [hgi]
    split
    · intro f' hf'; cases List.mem_singleton.1 hf'; exact hdup'.2
    · intro f' hf'; cases hf'
  · rw [if_neg hdup]
    have hdup' : ¬ (many = false ∧ f ∈ pre.flatMap givesInfo) := fun hh => hdup ⟨hh.1, (h.info.has f).2 hh.2⟩
    rw [if_neg hdup'] at hci
    unfold valueOf
    cases hfa : faultOf tag v with
    | some m =>
      rw [hfa] at hci hgi
      refine ⟨h.infoStep ?_ (by rw [hci]; rfl) rfl rfl rfl rfl hg hc hb hid, (List.append_nil _).symm⟩
      refine h.info.skip ?_
      rw [hgi, if_neg (by simp)]
      intro f' hf'; cases hf'
    | none =>
      rw [hfa] at hci hgi
      rw [if_pos rfl] at hgi
      obtain ⟨x, hx⟩ := item_some (L := L) hs ha hfa
      rw [hx]
      dsimp only [Option.getD]
      obtain ⟨k, hk, hok⟩ := info_kind hi hx
      cases many with
      | true =>
        rw [if_pos rfl]
        refine ⟨h.infoStep (h.info.append hgi hk hok) (by rw [hci]; exact (List.append_nil _).symm) rfl rfl rfl rfl hg hc hb hid, (List.append_nil _).symm⟩
      | false =>
        rw [if_neg (by simp)]
        refine ⟨h.infoStep (h.info.set hgi hk hok) (by rw [hci]; exact (List.append_nil _).symm) rfl rfl rfl rfl hg hc hb hid, (List.append_nil _).symm⟩

theorem act_badAttr (h : Inv L cl Q pre e) (tag : Str) : Acts L cl Q pre e (.bad tag) := by
  unfold Acts
  rw [act_bad]
  by_cases hi : tag ∈ creationTags
  · rw [if_pos hi]
    refine ⟨h.infoStep (h.info.skip (by intro f hf; cases hf)) ?_ rfl rfl rfl rfl rfl (if_pos hi) (fun _ => rfl) rfl, (List.append_nil _).symm⟩
    have : infoComplaints pre (.bad tag) = [.text (s%"Error while parsing " ++ tag)] := if_pos hi
    rw [this]; rfl
  · rw [if_neg hi]
    have hc : Place.complaints L Q.last ⟨pre, .bad tag⟩ = [.text (s%"Error while parsing " ++ tag)] := if_neg hi
    have := h.elem.same (p := ⟨pre, .bad tag⟩) (by intro f hf; cases hf) (fun _ _ => rfl) rfl
    rw [hc] at this
    exact ⟨h.elemStep this rfl rfl rfl rfl rfl (if_neg hi), (List.append_nil _).symm⟩

theorem act_unknown (h : Inv L cl Q pre e) : Acts L cl Q pre e .unknown := by
  have hc : Place.complaints L Q.last ⟨pre, .unknown⟩ = [] := rfl
  have := h.elem.same (p := ⟨pre, .unknown⟩) (by intro f hf; cases hf) (fun _ _ => rfl) rfl
  rw [hc, List.append_nil] at this
  exact ⟨h.elemStep this rfl rfl rfl rfl rfl rfl, rfl⟩

theorem act_spdxId (h : Inv L cl Q pre e) (v : Str) : Acts L cl Q pre e (.spdxId v) := by
  have hc : Place.complaints L Q.last ⟨pre, .spdxId v⟩ = [] := rfl
  have hci : infoComplaints pre (.spdxId v) = [] := rfl
  have hgi : givesInfo (.spdxId v) = [s%"spdx_id"] := rfl
  have hg : Place.gives ⟨pre, .spdxId v⟩ = if idGiven pre then [s%"spdx_id"] else [] := rfl
  have hn : Place.newId ⟨pre, .spdxId v⟩ = if idGiven pre then some v else none := rfl
  have hhas := h.info.has s%"spdx_id"
  unfold Acts
  change Inv L cl _ _ (if (e.info.get? s%"spdx_id").isSome = true then _ else _) ∧ TvState.log (if (e.info.get? s%"spdx_id").isSome = true then _ else _) = _
  by_cases hi : (e.info.get? s%"spdx_id").isSome = true
  · rw [if_pos hi]
    have hid : idGiven pre = true := (idGiven_iff pre).2 (hhas.1 hi)
    rw [if_pos hid] at hg hn
    have := h.elem.set (p := ⟨pre, .spdxId v⟩) [(s%"spdx_id", .str v)] hg (fun _ => rfl) (by
      intro kv hkv; cases List.mem_singleton.1 hkv; exact ⟨.str, by dsimp only; decide +kernel, rfl⟩) (.inr ⟨v, hn, rfl⟩)
    rw [hc, List.append_nil] at this
    refine ⟨⟨h.cls, this, ?_, ?_, h.tried, h.built⟩, (List.append_nil _).symm⟩
    · rw [info_snoc, hci, List.append_nil]; exact h.infoLog
    · refine h.info.skip ?_
      rw [hgi]
      intro f hf; cases List.mem_singleton.1 hf; exact hhas.1 hi
  · rw [if_neg hi]
    have hid : ¬ idGiven pre = true := fun hh => hi (hhas.2 ((idGiven_iff pre).1 hh))
    rw [if_neg hid] at hg hn
    refine ⟨h.infoStep (h.info.set hgi (k := .str) (by decide +kernel) rfl) ?_ rfl rfl rfl rfl hg hc (fun _ => rfl) hn, (List.append_nil _).symm⟩
    rw [hci]; exact (List.append_nil _).symm

private theorem related_ok (b : Str) : Kind.special.ok (relatedItem b) = true := by
  unfold relatedItem
  split
  · rfl
  · split <;> rfl

private def rels (a b : Str) (comment : Option Tok) : List (Str × TvItem) :=
  [(s%"related_spdx_element_id", relatedItem b), (s%"spdx_element_id", .str a)] ++
    (match comment with | some w => [(s%"comment", .str (textOrLineValue w))] | none => [])

private theorem rels_ok (a b : Str) (comment : Option Tok) : ∀ kv ∈ rels a b comment, ∃ k, kinds.lookup kv.1 = some (k, false) ∧ k.ok kv.2 = true := by
  intro kv hkv
  unfold rels at hkv
  rcases List.mem_append.1 hkv with hkv | hkv
  · simp only [List.mem_cons, List.not_mem_nil, or_false] at hkv
    rcases hkv with rfl | rfl
    · exact ⟨.special, by dsimp only; decide +kernel, related_ok b⟩
    · exact ⟨.str, by dsimp only; decide +kernel, rfl⟩
  · cases comment with
    | none => cases hkv
    | some w => cases List.mem_singleton.1 hkv; exact ⟨.str, by dsimp only; decide +kernel, rfl⟩

private theorem rels_ok' (ty : RelationshipType) (a b : Str) (comment : Option Tok) :
    ∀ kv ∈ (s%"relationship_type", .relationshipType ty) :: rels a b comment, ∃ k, kinds.lookup kv.1 = some (k, false) ∧ k.ok kv.2 = true := by
  intro kv hkv
  rcases List.mem_cons.1 hkv with rfl | hkv
  · exact ⟨.relationshipType, by dsimp only; decide +kernel, rfl⟩
  · exact rels_ok a b comment kv hkv

theorem act_comment (h : Inv L cl Q pre e) {tag line : Str} {comment : Option Tok} (hcl : cl = current (pre ++ [.commented tag line comment])) :
    Acts L cl Q pre e (.commented tag line comment) := by
  have hel : Place.element ⟨pre, .commented tag line comment⟩ = cl := hcl.symm
  have hci : infoComplaints pre (.commented tag line comment) = [] := rfl
  have hgi : givesInfo (.commented tag line comment) = [] := rfl
  have hb : ∀ f, Place.blankIn L f ⟨pre, .commented tag line comment⟩ = false := fun _ => rfl
  have hid : Place.newId ⟨pre, .commented tag line comment⟩ = none := rfl
  unfold Acts
  rw [act_commented]
  by_cases hr : tag = s%"Relationship"
  · rw [if_pos hr]
    have hmis : Place.misplaced ⟨pre, .commented tag line comment⟩ = [] := if_pos hr
    have hc : Place.complaints L Q.last ⟨pre, .commented tag line comment⟩ = (relationshipFault line).toList := if_pos hr
    have hg : Place.gives ⟨pre, .commented tag line comment⟩ = match splitOn ' ' line with
      | [_, t, _] => (if (RelationshipType.ofName? t).isSome then [s%"relationship_type"] else []) ++
          [s%"related_spdx_element_id", s%"spdx_element_id"] ++ (if comment.isSome then [s%"comment"] else [])
      | _ => [] := if_pos hr
    have hrel : cl = some .relationship := by
      rw [hcl, current_snoc]
      have : opens (.commented tag line comment) = some .relationship := if_pos hr
      rw [this]; rfl
    rw [hmis]
    unfold relationshipFault at hc
    unfold TvState.setRelationship
    split
    · rename_i a t b hsp
      rw [hsp] at hc hg
      dsimp only at hc hg
      cases ht : RelationshipType.ofName? t with
      | none =>
        rw [ht] at hc hg
        have := h.elem.set (p := ⟨pre, .commented tag line comment⟩)
          (rels a b comment) (by rw [hg]; cases comment <;> rfl) hb (rels_ok a b comment) (.inl ⟨hid, by intro hh; rw [hrel] at hh; rcases hh with hh | hh <;> cases hh⟩)
        rw [hc] at this
        cases comment with
        | none => exact ⟨h.elemStep this rfl rfl rfl rfl hgi hci, (List.append_nil _).symm⟩
        | some w => exact ⟨h.elemStep this rfl rfl rfl rfl hgi hci, (List.append_nil _).symm⟩
      | some ty =>
        rw [ht] at hc hg
        have := h.elem.set (p := ⟨pre, .commented tag line comment⟩)
          ((s%"relationship_type", .relationshipType ty) :: rels a b comment) (by rw [hg]; cases comment <;> rfl) hb (rels_ok' ty a b comment) (.inl ⟨hid, by intro hh; rw [hrel] at hh; rcases hh with hh | hh <;> cases hh⟩)
        rw [hc] at this
        have e0 : (complain (some ty).isSome (.invalid s%"RelationshipType" (.str t))).toList = [] := rfl
        rw [e0, List.append_nil] at this
        cases comment with
        | none => exact ⟨h.elemStep this rfl rfl rfl rfl hgi hci, (List.append_nil _).symm⟩
        | some w => exact ⟨h.elemStep this rfl rfl rfl rfl hgi hci, (List.append_nil _).symm⟩
    · rename_i hsp
      have hg' : Place.gives ⟨pre, .commented tag line comment⟩ = [] := by
        rw [hg]
        split
        · rename_i a t b e; exact absurd e (hsp a t b)
        · rfl
      have hc' : Place.complaints L Q.last ⟨pre, .commented tag line comment⟩ =
          [.text s%"Relationship couldn't be split in spdx_element_id, relationship_type and related_spdx_element"] := by
        rw [hc]
        split
        · rename_i a t b e; exact absurd e (hsp a t b)
        · rfl
      have := h.elem.same (p := ⟨pre, .commented tag line comment⟩) (by rw [hg']; intro f hf; cases hf) (fun _ => hb) hid
      rw [hc'] at this
      exact ⟨h.elemStep this rfl rfl rfl rfl hgi hci, (List.append_nil _).symm⟩
  · rw [if_neg hr]
    have hmis : Place.misplaced ⟨pre, .commented tag line comment⟩ = if cl = some .package then [] else [outsideMsg .package] := by
      rw [← hel]; exact if_neg hr
    have hc : Place.complaints L Q.last ⟨pre, .commented tag line comment⟩ =
        if cl = some .package then (externalRefFault line comment).toList else [] := by
      rw [← hel]; exact if_neg hr
    have hg : Place.gives ⟨pre, .commented tag line comment⟩ =
        if cl = some .package ∧ externalRefFault line comment = none then [s%"external_references"] else [] := by
      rw [← hel]; exact if_neg hr
    rw [hmis]
    unfold TvState.inScope
    by_cases hin : cl = some .package
    · rw [if_pos (h.cls.trans hin), if_pos hin]
      rw [if_pos hin] at hc
      unfold externalRefFault at hc hg
      cases hp : parseTvExtRef line (comment.map textOrLineValue) with
      | ok r =>
        rw [hp] at hc hg
        rw [if_pos ⟨hin, rfl⟩] at hg
        have := h.elem.append (p := ⟨pre, .commented tag line comment⟩) (f := s%"external_references") (x := .extRef r) hg (by decide +kernel) hid
          (fun _ => .inl ⟨.extRef, by decide +kernel, rfl, hb⟩)
        rw [hc] at this
        refine ⟨h.elemStep (by rw [← List.append_nil (TvState.elemLog _)]; exact this) rfl rfl rfl rfl hgi hci, (List.append_nil _).symm⟩
      | error m =>
        rw [hp] at hc hg
        rw [if_neg (by simp)] at hg
        have := h.elem.same (p := ⟨pre, .commented tag line comment⟩) (by rw [hg]; intro f hf; cases hf) (fun _ => hb) hid
        rw [hc] at this
        exact ⟨h.elemStep this rfl rfl rfl rfl hgi hci, (List.append_nil _).symm⟩
    · rw [if_neg (fun hh => hin (h.cls.symm.trans hh)), if_neg hin]
      rw [if_neg hin] at hc
      rw [if_neg (fun hh => hin hh.1)] at hg
      have := h.elem.same (p := ⟨pre, .commented tag line comment⟩) (by rw [hg]; intro f hf; cases hf) (fun _ => hb) hid
      rw [hc, List.append_nil] at this
      exact ⟨h.elemStep this rfl rfl rfl rfl hgi hci, rfl⟩

theorem act_inv (h : Inv L cl Q pre e) {a : TvAttr} (hcl : cl = current (pre ++ [a])) (hf : Fine a) : Acts L cl Q pre e a := by
  cases a with
  | value tag v =>
    cases hl : slots.lookup tag with
    | none => exact act_info h hf hl
    | some p => exact act_slot h hcl hf hl
  | bad tag => exact act_badAttr h tag
  | spdxId v => exact act_spdxId h v
  | unknown => exact act_unknown h
  | commented tag line c => exact act_comment h hcl

end Spdx.Told
