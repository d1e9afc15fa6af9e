import Verif.Lemmas.TagValueMeaning
/- Reading a tag-value document section by section. -/
namespace Spdx
open Spec

theorem says_relationship {L : LicText} {b : List TvAttr} {d : Dict Str TvVal} (h : Holds L .relationship b d) {x : Relationship}
    (hx : mkRelationship d = .ok x) : SaysRelationship b x := by
  obtain ⟨l, cm, a, t, r, ty, h1, h2, h3, k1, k2, k3, k4⟩ := h.rel rfl
  unfold mkRelationship at hx
  have x4 := tvOnly_ok hx
  clear hx
  obtain ⟨g4, y4, x3, e4, q4⟩ := ap_inv x4
  obtain ⟨g3, y3, x2, e3, q3⟩ := ap_inv x3
  obtain ⟨g2, y2, x1, e2, q2⟩ := ap_inv x2
  obtain ⟨g1, y1, x0, e1, q1⟩ := ap_inv x1
  cases x0
  subst q1 q2 q3 q4
  unfold tvReq at e1 e2 e3
  rw [k1] at e1; rw [k2] at e2; rw [k3] at e3
  cases e1; cases e2
  refine ⟨l, cm, t, r, h1, h2, h3, ?_, ?_⟩
  · unfold relatedItem at e3
    by_cases hn : r = s%"NONE"
    · rw [if_pos hn] at e3 ⊢; cases e3; rfl
    · rw [if_neg hn] at e3 ⊢
      by_cases ha : r = s%"NOASSERTION"
      · rw [if_pos ha] at e3 ⊢; cases e3; rfl
      · rw [if_neg ha] at e3 ⊢; cases e3; rfl
  · unfold tvOpt at e4
    rw [k4] at e4
    cases cm with
    | none => cases e4; rfl
    | some c => cases e4; rfl

/-- The document as it is so far. -/
def docOf (ci : CreationInfo) (s : TvState) : Document :=
  ⟨ci, s.packages.getD [], s.files, s.snippets, s.annotations, s.relationships, s.extracted⟩

private theorem noisy_concat {s : TvState} {l : List PMsg} {m : PMsg} (h : s.log = l ++ [m]) : ∃ m, Logged m s :=
  ⟨m, .inl (by rw [h]; exact List.mem_append_right _ (List.mem_singleton.2 rfl))⟩

private theorem contains_says {L : LicText} {ci : CreationInfo} {bs : List (List TvAttr)} {b : List TvAttr} {s : TvState} {f : File}
    (hs : Says L ci bs (docOf ci s)) (hb : about b = some .file) (hf : SaysFile L b f) :
    (∃ l m, (TvState.addContains { s with files := s.files ++ [f] } f).log = l ++ [m]) ∨
      Says L ci (bs ++ [b]) (docOf ci (TvState.addContains { s with files := s.files ++ [f] } f)) := by
  have key := Says.file hs hb hf
  obtain ⟨log, infoLog, info, cls, elemLog, elem, packages, files, snippets, annotations, relationships, extracted⟩ := s
  cases packages with
  | none => exact .inr key
  | some ps =>
    cases hl : ps.getLast? with
    | none =>
      left
      unfold TvState.addContains; simp only [hl]
      exact ⟨_, _, rfl⟩
    | some p =>
      right
      unfold withContained docOf at key
      simp only [Option.getD_some, hl] at key
      unfold TvState.addContains; simp only [hl]
      split
      · rename_i hm; rw [if_pos hm] at key; exact key
      · rename_i hm; rw [if_neg hm] at key; exact key

theorem build_says {L : LicText} {bs : List (List TvAttr)} {b : List TvAttr} {s : TvState} {c : TvClass}
    (hs : ∀ ci, Says L ci bs (docOf ci s)) (hb : about b = some c) (hh : Holds L c b s.elem) :
    (∃ l m, (s.build c).log = l ++ [m]) ∨ ∀ ci, Says L ci (bs ++ [b]) (docOf ci (s.build c)) := by
  by_cases hl : ∃ l m, (s.build c).log = l ++ [m]
  · exact .inl hl
  right
  intro ci
  have no : ∀ {P : Prop}, (∃ l m, (s.build c).log = l ++ [m]) ∨ P → P := fun h => h.resolve_left hl
  refine no ?_
  clear no hl
  unfold TvState.build
  split
  · exact .inl ⟨_, _, rfl⟩
  cases c with
  | file =>
    simp only []
    split
    · rename_i f e; exact contains_says (hs ci) hb (says_file hh e)
    · exact .inl ⟨_, _, rfl⟩
  | package =>
    simp only []
    split
    · rename_i p e; exact .inr (.package (hs ci) hb (says_package hh e))
    · exact .inl ⟨_, _, rfl⟩
  | snippet =>
    simp only []
    split
    · rename_i p e; exact .inr (.snippet (hs ci) hb (says_snippet hh e))
    · exact .inl ⟨_, _, rfl⟩
  | annotation =>
    simp only []
    split
    · rename_i p e; exact .inr (.annotation (hs ci) hb (says_annotation hh e))
    · exact .inl ⟨_, _, rfl⟩
  | relationship =>
    simp only []
    split
    · rename_i p e; exact .inr (.relationship (hs ci) hb (says_relationship hh e))
    · exact .inl ⟨_, _, rfl⟩
  | extracted =>
    simp only []
    split
    · rename_i p e; exact .inr (.extracted (hs ci) hb (says_extracted hh e))
    · exact .inl ⟨_, _, rfl⟩

/-! ## Sections -/

theorem preamble_none {as : List TvAttr} (h : ∀ a ∈ as, opens a = none) (bs : List TvAttr) : preamble (as ++ bs) = as ++ preamble bs := by
  induction as with
  | nil => rfl
  | cons a as ih =>
    unfold preamble at ih ⊢
    rw [List.cons_append, List.takeWhile_cons, h a (List.mem_cons_self ..), ih fun x hx => h x (List.mem_cons_of_mem _ hx)]
    rfl

theorem preamble_some {as : List TvAttr} (h : ∃ a ∈ as, opens a ≠ none) (bs : List TvAttr) : preamble (as ++ bs) = preamble as := by
  induction as with
  | nil => obtain ⟨a, ha, _⟩ := h; cases ha
  | cons a as ih =>
    unfold preamble at ih ⊢
    rw [List.cons_append, List.takeWhile_cons, List.takeWhile_cons]
    split
    · rename_i hn
      rw [ih]
      obtain ⟨x, hx, ho⟩ := h
      cases hx with
      | head => exact absurd (Option.isNone_iff_eq_none.1 hn) ho
      | tail _ hx => exact ⟨x, hx, ho⟩
    · rfl

theorem sections_none {as : List TvAttr} (h : ∀ a ∈ as, opens a = none) : sections as = [] := by
  induction as with
  | nil => rfl
  | cons a as ih =>
    unfold sections
    rw [h a (List.mem_cons_self ..), ih fun x hx => h x (List.mem_cons_of_mem _ hx)]
    rfl

theorem sections_concat (as : List TvAttr) {a : TvAttr} {b : List TvAttr} (ha : opens a ≠ none) (hb : ∀ x ∈ b, opens x = none) :
    sections (as ++ a :: b) = sections as ++ [a :: b] := by
  induction as with
  | nil =>
    change sections (a :: b) = [a :: b]
    unfold sections
    rw [if_pos (Option.isSome_iff_ne_none.2 ha), sections_none hb]
    have := preamble_none hb []
    rw [List.append_nil] at this
    rw [this]
    change [a :: (b ++ [])] = _
    rw [List.append_nil]
  | cons x as ih =>
    rw [List.cons_append]
    unfold sections
    by_cases hx : (opens x).isSome = true
    · rw [if_pos hx, if_pos hx, ih]
      by_cases ho : ∃ y ∈ as, opens y ≠ none
      · rw [preamble_some ho]; rfl
      · have hn : ∀ y ∈ as, opens y = none := fun y hy => Decidable.byContradiction fun e => ho ⟨y, hy, e⟩
        have h1 : preamble (a :: b) = [] := by
          unfold preamble
          rw [List.takeWhile_cons, if_neg]
          rw [Option.isNone_iff_eq_none]; exact ha
        rw [preamble_none hn, h1]
        have := preamble_none hn []
        rw [List.append_nil] at this
        rw [this]; rfl
    · rw [if_neg hx, if_neg hx, ih]

/-! ## The state after some of the attributes -/

/-- Before the first element. -/
structure Before (done : List TvAttr) (s : TvState) : Prop where
  no : ∀ a ∈ done, opens a = none
  cls : s.cls = none
  elem : s.elem = []
  says : ∀ ci, docOf ci s = { creationInfo := ci }

/-- In the section of an element. -/
structure Within (L : LicText) (done : List TvAttr) (s : TvState) (c : TvClass) (pre b : List TvAttr) : Prop where
  done : done = pre ++ b
  about : about b = some c
  tail : ∀ a ∈ b.tail, opens a = none
  cls : s.cls = some c
  says : ∀ ci, Says L ci (sections pre) (docOf ci s)
  holds : Holds L c b s.elem

structure Good (L : LicText) (done : List TvAttr) (s : TvState) : Prop where
  info : InfoHolds L done s.info
  elem : Before done s ∨ ∃ c pre b, Within L done s c pre b

theorem Within.sections {L : LicText} {done : List TvAttr} {s : TvState} {c : TvClass} {pre b : List TvAttr} (h : Within L done s c pre b) :
    sections done = sections pre ++ [b] := by
  rw [h.done]
  have ha := h.about
  have ht := h.tail
  cases b with
  | nil => cases ha
  | cons a b => exact sections_concat pre (by change opens a = some c at ha; rw [ha]; exact Option.some_ne_none _) ht

theorem finish_says {L : LicText} {done : List TvAttr} {s : TvState} (h : Good L done s) :
    (∃ l m, s.finish.log = l ++ [m]) ∨ ((∀ ci, Says L ci (sections done) (docOf ci s.finish)) ∧ s.finish.elem = []) := by
  rcases h.elem with h | ⟨c, pre, b, h⟩
  · right
    have e : s.finish = s := by unfold TvState.finish; rw [h.cls]
    rw [e, sections_none h.no]
    exact ⟨fun ci => by rw [h.says]; exact .nil, h.elem⟩
  · have e : s.finish = { s.build c with cls := none, elemLog := [], elem := [] } := by unfold TvState.finish; rw [h.cls]
    rw [e, h.sections]
    rcases build_says h.says h.about h.holds with hl | hl
    · exact .inl hl
    · exact .inr ⟨hl, rfl⟩

theorem start_says {L : LicText} {done : List TvAttr} {s : TvState} (h : Good L done s) (c : TvClass) :
    (∃ m, Logged m (s.start c)) ∨ ((∀ ci, Says L ci (sections done) (docOf ci (s.start c))) ∧ (s.start c).elem = []) := by
  rcases finish_says h with ⟨l, m, e⟩ | h
  · exact .inl (noisy_concat (s := s.start c) e)
  · exact .inr h

theorem Within.snoc {L : LicText} {done : List TvAttr} {s s' : TvState} {c : TvClass} {pre b : List TvAttr} {a : TvAttr}
    (h : Within L done s c pre b) (ho : opens a = none) (hd : ∀ ci, docOf ci s' = docOf ci s) (hc : s'.cls = s.cls)
    (hh : Holds L c (b ++ [a]) s'.elem) : Within L (done ++ [a]) s' c pre (b ++ [a]) where
  done := by rw [h.done, List.append_assoc]
  about := by
    have := h.about
    cases b with
    | nil => cases this
    | cons x b => exact this
  tail := by
    have ha := h.about
    have := h.tail
    cases b with
    | nil => cases ha
    | cons x b =>
      intro y hy
      rcases List.mem_append.1 (show y ∈ b ++ [a] from hy) with hy | hy
      · exact this y hy
      · rw [List.mem_singleton.1 hy]; exact ho
  cls := hc.trans h.cls
  says ci := by rw [hd]; exact h.says ci
  holds := hh

theorem Within.fresh {L : LicText} {done : List TvAttr} {e s' : TvState} {c : TvClass} {a : TvAttr}
    (h : ∀ ci, Says L ci (Spec.sections done) (docOf ci e)) (ho : opens a = some c) (hd : ∀ ci, docOf ci s' = docOf ci e) (hc : s'.cls = some c)
    (hh : Holds L c [a] s'.elem) : Within L (done ++ [a]) s' c done [a] where
  done := rfl
  about := ho
  tail _ hy := by cases hy
  cls := hc
  says ci := by rw [hd]; exact h ci
  holds := hh

/-- One value in a section. -/
theorem eff_holds {L : LicText} {e s' : TvState} {c : TvClass} {tag : Str} {v : Tok} {done b : List TvAttr} (h : Eff L e s' tag v)
    (hc : e.cls = some c) (hh : Holds L c b e.elem) (hi : InfoHolds L done e.info) :
    Holds L c (b ++ [.value tag v]) s'.elem ∧ InfoHolds L (done ++ [.value tag v]) s'.info ∧ (∀ ci, docOf ci s' = docOf ci e) ∧
      s'.cls = e.cls := by
  cases h with
  | one hm hc' hx hn he =>
    rw [hc] at hc'; cases hc'
    subst he
    exact ⟨hh.one hm hx hn, hi.other hm, fun _ => rfl, rfl⟩
  | many hm hc' hx he =>
    rw [hc] at hc'; cases hc'
    subst he
    exact ⟨hh.many hm hx, hi.other hm, fun _ => rfl, rfl⟩
  | infoOne hm hx hn he => subst he; exact ⟨hh.info hm, hi.one hm hx hn, fun _ => rfl, rfl⟩
  | infoMany hm hx he => subst he; exact ⟨hh.info hm, hi.many hm hx, fun _ => rfl, rfl⟩

/-- One value before the first section. -/
theorem eff_before {L : LicText} {s s' : TvState} {tag : Str} {v : Tok} {done : List TvAttr} (h : Eff L s s' tag v)
    (hb : Before done s) (ho : opens (.value tag v) = none) (hi : InfoHolds L done s.info) :
    InfoHolds L (done ++ [.value tag v]) s'.info ∧ Before (done ++ [.value tag v]) s' := by
  have hno : ∀ a ∈ done ++ [.value tag v], opens a = none := by
    intro a ha
    rcases List.mem_append.1 ha with ha | ha
    · exact hb.no a ha
    · rw [List.mem_singleton.1 ha]; exact ho
  cases h with
  | one hm hc' hx hn he => rw [hb.cls] at hc'; cases hc'
  | many hm hc' hx he => rw [hb.cls] at hc'; cases hc'
  | infoOne hm hx hn he => subst he; exact ⟨hi.one hm hx hn, hno, hb.cls, hb.elem, hb.says⟩
  | infoMany hm hx he => subst he; exact ⟨hi.many hm hx, hno, hb.cls, hb.elem, hb.says⟩

private theorem slots_class : ∀ p ∈ slots, p.2.1 ≠ .relationship := by decide +kernel
private theorem info_opens : ∀ p ∈ infoSlots, begins.lookup p.1 = none := by decide +kernel

private theorem eff_class {L : LicText} {e s' : TvState} {c : TvClass} {tag : Str} {v : Tok} (h : Eff L e s' tag v)
    (hc : e.cls = some c) (ho : opens (.value tag v) = some c) : c ≠ .relationship := by
  cases h with
  | one hm hc' hx hn he => rw [hc] at hc'; cases hc'; exact slots_class _ hm
  | many hm hc' hx he => rw [hc] at hc'; cases hc'; exact slots_class _ hm
  | infoOne hm hx hn he => have := info_opens _ hm; change begins.lookup tag = _ at ho; rw [this] at ho; cases ho
  | infoMany hm hx he => have := info_opens _ hm; change begins.lookup tag = _ at ho; rw [this] at ho; cases ho

private theorem given_skip {a : TvAttr} (h : ∀ t v, a ≠ .value t v) (b : List TvAttr) (tag : Str) : given (b ++ [a]) tag = given b tag :=
  given_rest _ _ _ h

theorem InfoHolds.rest {L : LicText} {b : List TvAttr} {d : Dict Str TvVal} (h : InfoHolds L b d) {a : TvAttr} (h1 : ∀ t v, a ≠ .value t v)
    (h2 : ∀ v, a ≠ .spdxId v) : InfoHolds L (b ++ [a]) d :=
  h.skip a (fun _ _ => given_skip h1 _ _) (by
    rw [ids_concat]
    cases a with
    | spdxId v => exact absurd rfl (h2 v)
    | _ => simp)

/-- The first attribute of a relationship. -/
theorem relationship_holds {L : LicText} {e : TvState} {line : Str} {cm : Option Tok} (hc : e.cls = some .relationship) (he : e.elem = []) :
    (∃ m, Logged m (e.setRelationship line (cm.map textOrLineValue))) ∨
      (Holds L .relationship [.commented s%"Relationship" line cm] (e.setRelationship line (cm.map textOrLineValue)).elem ∧
        (e.setRelationship line (cm.map textOrLineValue)).info = e.info ∧
        (e.setRelationship line (cm.map textOrLineValue)).cls = e.cls ∧
        ∀ ci, docOf ci (e.setRelationship line (cm.map textOrLineValue)) = docOf ci e) := by
  unfold TvState.setRelationship
  split
  · rename_i a t r hsp
    cases ht : RelationshipType.ofName? t with
    | none =>
      left
      refine ⟨.invalid s%"RelationshipType" (.str t), .inr (.inr (.inl ⟨?_, ?_⟩))⟩
      · cases cm <;> exact (by rw [hc]; exact Option.some_ne_none _ : e.cls ≠ none)
      · cases cm <;> exact List.mem_append_right _ (List.mem_singleton.2 rfl)
    | some ty =>
      right
      obtain ⟨log, infoLog, info, cls, elemLog, elem, packages, files, snippets, annotations, relationships, extracted⟩ := e
      cases he
      refine ⟨⟨?_, ?_, fun e => (by cases e), fun _ => ⟨line, cm, a, t, r, ty, rfl, hsp, ht, ?_, ?_, ?_, ?_⟩⟩, ?_, ?_, ?_⟩
      · intro tag k m hm; exact absurd rfl (slots_class _ hm)
      all_goals cases cm <;> first | rfl | exact fun _ => rfl
  · exact .inl ⟨_, logElem_logged _ (by rw [hc]; exact Option.some_ne_none _)⟩

theorem step_good {L : LicText} {done rest : List TvAttr} {s s' : TvState} {a : TvAttr} (h : Good L done s) (hs : s.step L a = .ok s')
    (hr : ∀ t l c, a = .commented t l c → t = s%"Relationship" ∨ t = s%"ExternalRef")
    (hid : (ids (preamble (done ++ a :: rest))).length = 1) : (∃ m, Logged m s') ∨ Good L (done ++ [a]) s' := by
  have hg := step_grows hs
  cases ho : opens a with
  | some c =>
    have he : s.entry a = s.start c := by unfold TvState.entry; rw [starts_eq, ho]
    rw [he] at hg
    rcases start_says h c with ⟨m, hm⟩ | ⟨hy, hemp⟩
    · exact .inl ⟨m, hm.grows hg⟩
    have hcls : (s.start c).cls = some c := rfl
    have hinfo : InfoHolds L done (s.start c).info := by rw [start_info]; exact h.info
    cases a with
    | value tag v =>
      rcases attr_eff hs with hm | hf
      · exact .inl hm
      rw [he] at hf
      have hne := eff_class hf hcls ho
      obtain ⟨k1, k2, k3, k4⟩ := eff_holds (b := []) hf hcls (by rw [hemp]; exact .nil L hne) hinfo
      exact .inr ⟨k2, .inr ⟨c, done, _, .fresh hy ho k3 (k4.trans hcls) k1⟩⟩
    | bad tag =>
      rcases bad_pending hs with hm | hm
      · exact .inl ⟨_, hm⟩
      · exact .inl ⟨_, .inr (.inr (.inl ⟨by rw [hg.cls]; exact Option.some_ne_none _, hm⟩))⟩
    | commented tag line cm =>
      change (if tag = s%"Relationship" then some TvClass.relationship else none) = some c at ho
      by_cases ht : tag = s%"Relationship"
      · rw [if_pos ht] at ho; cases ho; subst ht
        have hs : s' = (s.start .relationship).setRelationship line (cm.map textOrLineValue) := (Except.ok.inj hs).symm
        rcases relationship_holds (L := L) (line := line) (cm := cm) hcls hemp with hm | ⟨k1, k2, k3, k4⟩
        · exact .inl (hs ▸ hm)
        · right
          subst hs
          refine ⟨?_, .inr ⟨_, done, _, .fresh hy rfl k4 (k3.trans hcls) k1⟩⟩
          rw [k2]
          exact hinfo.rest (fun _ _ e => by cases e) (fun _ e => by cases e)
      · rw [if_neg ht] at ho; cases ho
    | spdxId v => cases ho
    | unknown => cases ho
  | none =>
    have he : s.entry a = s := by unfold TvState.entry; rw [starts_eq, ho]
    rw [he] at hg
    cases a with
    | value tag v =>
      rcases attr_eff hs with hm | hf
      · exact .inl hm
      rw [he] at hf
      right
      rcases h.elem with hb | ⟨c, pre, b, hw⟩
      · obtain ⟨k1, k2⟩ := eff_before hf hb ho h.info
        exact ⟨k1, .inl k2⟩
      · obtain ⟨k1, k2, k3, k4⟩ := eff_holds hf hw.cls hw.holds h.info
        exact ⟨k2, .inr ⟨c, pre, _, hw.snoc ho k3 k4 k1⟩⟩
    | bad tag =>
      rcases h.elem with hb | ⟨c, pre, b, hw⟩
      · change s.badAttr tag = .ok s' at hs
        unfold TvState.badAttr at hs
        split at hs
        · cases hs; exact .inl ⟨_, logInfo_logged _ _⟩
        · rename_i hti
          have : startTag tag = none := by
            have := starts_eq (.bad tag)
            rw [ho] at this
            exact (if_neg hti).symm.trans this
          rw [this] at hs
          cases hs
          refine .inr ⟨h.info.rest (fun _ _ e => by cases e) (fun _ e => by cases e), .inl ⟨?_, hb.cls, hb.elem, hb.says⟩⟩
          intro x hx
          rcases List.mem_append.1 hx with hx | hx
          · exact hb.no x hx
          · rw [List.mem_singleton.1 hx]; exact ho
      · rcases bad_pending hs with hm | hm
        · exact .inl ⟨_, hm⟩
        · exact .inl ⟨_, .inr (.inr (.inl ⟨by rw [hg.cls, hw.cls]; exact Option.some_ne_none _, hm⟩))⟩
    | commented tag line cm =>
      rcases hr _ _ _ rfl with ht | ht
      · subst ht; cases ho
      subst ht
      have hs : s.inScope .package (fun s => match parseTvExtRef line (cm.map textOrLineValue) with
        | .ok r => s.appendElem s%"external_references" (.extRef r)
        | .error m => s.logElem m) = s' := Except.ok.inj hs
      rcases inScope_eff hs with hm | ⟨hc, hk⟩
      · exact .inl hm
      cases hp : parseTvExtRef line (cm.map textOrLineValue) with
      | error m =>
        simp only [hp] at hk
        subst hk
        exact .inl ⟨_, logElem_logged _ (by rw [hc]; exact Option.some_ne_none _)⟩
      | ok r =>
        simp only [hp] at hk
        rcases h.elem with hb | ⟨c, pre, b, hw⟩
        · rw [hb.cls] at hc; cases hc
        · have : c = .package := Option.some.inj (hw.cls.symm.trans hc)
          subst this
          subst hk
          right
          refine ⟨h.info.rest (fun _ _ e => by cases e) (fun _ e => by cases e), .inr ⟨_, pre, _, hw.snoc ho (fun _ => rfl) rfl (hw.holds.ref hp)⟩⟩
    | spdxId v =>
      have hs : (if (s.info.get? s%"spdx_id").isSome then { s with elem := s.elem.set s%"spdx_id" (.one (.str v)) }
        else { s with info := s.info.set s%"spdx_id" (.one (.str v)) }) = s' := Except.ok.inj hs
      rcases h.elem with hb | ⟨c, pre, b, hw⟩
      · have hn : ids done = [] := by
          rw [preamble_none hb.no] at hid
          have : preamble (.spdxId v :: rest) = .spdxId v :: preamble rest := rfl
          rw [this] at hid
          unfold ids at hid ⊢
          rw [List.filterMap_append, List.length_append, List.filterMap_cons] at hid
          simp only [List.length_cons] at hid
          exact List.eq_nil_of_length_eq_zero (by omega)
        rw [h.info.id, hn] at hs
        subst hs
        right
        refine ⟨h.info.spdxId v hn, .inl ⟨?_, hb.cls, hb.elem, hb.says⟩⟩
        intro x hx
        rcases List.mem_append.1 hx with hx | hx
        · exact hb.no x hx
        · rw [List.mem_singleton.1 hx]; exact ho
      · have hn : ids done ≠ [] := by
          have hex : ∃ x ∈ done, opens x ≠ none := by
            have := hw.about
            cases b with
            | nil => cases this
            | cons x b =>
              refine ⟨x, by rw [hw.done]; exact List.mem_append_right _ (List.mem_cons_self ..), ?_⟩
              change opens x = _ at this
              rw [this]; exact Option.some_ne_none _
          rw [preamble_some hex] at hid
          intro hn
          have hsub : ∀ x ∈ ids (preamble done), x ∈ ids done := by
            intro x hx
            unfold ids at hx ⊢
            rw [List.mem_filterMap] at hx ⊢
            obtain ⟨y, hy, e⟩ := hx
            exact ⟨y, (List.takeWhile_sublist _).subset hy, e⟩
          rw [hn] at hsub
          rw [List.eq_nil_iff_forall_not_mem.2 fun x hx => nomatch hsub x hx] at hid
          cases hid
        have hsome : (s.info.get? s%"spdx_id").isSome = true := by
          rw [h.info.id]
          cases hd : ids done with
          | nil => exact absurd hd hn
          | cons x l => rfl
        rw [if_pos hsome] at hs
        subst hs
        right
        refine ⟨h.info.skip _ (fun _ _ => given_skip (fun _ _ e => by cases e) _ _) ?_, .inr ⟨c, pre, _, hw.snoc ho (fun _ => rfl) rfl (hw.holds.spdxId v)⟩⟩
        rw [ids_concat]
        cases hd : ids done with
        | nil => exact absurd hd hn
        | cons x l => rfl
    | unknown =>
      have hs : { s with log := s.log ++ [.text s%"Unknown tag provided"] } = s' := Except.ok.inj hs
      subst hs
      exact .inl (noisy_concat rfl)

theorem run_good {L : LicText} {as done : List TvAttr} {s s' : TvState} (h : Good L done s) (hs : s.run L as = .ok s')
    (hr : ∀ t l c, .commented t l c ∈ as → t = s%"Relationship" ∨ t = s%"ExternalRef")
    (hid : (ids (preamble (done ++ as))).length = 1) : (∃ m, Logged m s') ∨ Good L (done ++ as) s' := by
  induction as generalizing s done with
  | nil => cases hs; rw [List.append_nil]; exact .inr h
  | cons a as ih =>
    unfold TvState.run at hs
    split at hs
    · rename_i s1 e
      rcases step_good h e (fun t l c e => hr t l c (e ▸ List.mem_cons_self ..)) hid with ⟨m, hm⟩ | hg
      · exact .inl ⟨m, hm.run hs⟩
      · have := ih hg hs (fun t l c e => hr t l c (List.mem_cons_of_mem _ e)) (by rw [List.append_assoc]; exact hid)
        rw [List.append_assoc] at this
        exact this
    · cases hs

theorem attrs_commented {ts : List Tok} {t l : Str} {c : Option Tok} (h : .commented t l c ∈ attrs ts) :
    t = s%"Relationship" ∨ t = s%"ExternalRef" := by
  have hone : ∀ ts r, attrOne ts = some (some (.commented t l c), r) → t = s%"Relationship" ∨ t = s%"ExternalRef" := by
    intro ts r h
    have key : ∀ t' ct, commentTag t' = some ct → t' = s%"Relationship" ∨ t' = s%"ExternalRef" := by
      intro t' ct h
      unfold commentTag at h
      split at h
      · exact .inr rfl
      · exact .inl rfl
      · cases h
    unfold attrOne at h
    split at h
    · cases h
    · cases h
    · repeat' split at h
      all_goals cases h
    · split at h
      · repeat' split at h
        all_goals cases h
      · split at h
        · repeat' split at h
          all_goals cases h
        · split at h
          · rename_i hct
            have := key _ _ hct
            repeat' split at h
            all_goals (first | (cases h; done) | (cases h; exact this))
          · cases h
    · cases h
  have hscan : ∀ n ts, .commented t l c ∈ scan attrOne n ts → t = s%"Relationship" ∨ t = s%"ExternalRef" := by
    intro n
    induction n with
    | zero => intro ts h; cases h
    | succ n ih =>
      intro ts h
      unfold scan at h
      split at h
      · cases h
      · rename_i a r e
        rcases List.mem_append.1 h with h | h
        · cases a with
          | none => cases h
          | some a => rw [Option.toList_some, List.mem_singleton] at h; subst h; exact hone _ _ e
        · exact ih _ h
  exact hscan _ _ h

end Spdx
