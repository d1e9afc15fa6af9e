import Verif.Lemmas.TagValueToldAct
import Verif.Lemmas.TagValueToldMake
import Verif.Lemmas.TagValueMeaning
/- The messages of the whole reading. -/
namespace Spdx.Told
open Spdx Spec

section
variable {L : LicText} {P : Sections} {pre : List TvAttr} {s : TvState}

theorem Errs.split {α : Type} {c : Check α} {l : List Str} (h : Errs c l) : (l = [] ∧ ∃ x, c = .ok x) ∨ (l ≠ [] ∧ c = .error l) := by
  cases c with
  | ok x => exact .inl ⟨h, x, rfl⟩
  | error e => obtain ⟨rfl, h⟩ := h; exact .inr ⟨h, rfl⟩

theorem sane_iff {c : TvClass} {b : List Place} : Sane L c b ↔ elementComplaints L b = [] ∧ wrongIn L c b = [] := by
  unfold Sane wrongIn
  by_cases h1 : unexpected c b = []
  · by_cases h2 : missing c b = []
    · simp [h1, h2]
    · simp [h1, h2]
  · simp [h1]

/-- The complaint about a file without a package that could be built. -/
def homeless (L : LicText) (P : Sections) (c : TvClass) : List PMsg :=
  if c = .file ∧ (∃ p ∈ P.complete, p.1 = .package ∧ elementComplaints L p.2 = []) ∧ ¬ ∃ p ∈ P.complete, p.1 = .package ∧ Sane L .package p.2 then
    [.text (s%"Error while building contains relationship for file " ++ (lastId P.last).getD [])]
  else []

theorem closing_eq (c : TvClass) : P.closing L c = if elementComplaints L P.last ≠ [] then [.wrapped c.name (elementComplaints L P.last)]
    else if wrongIn L c P.last ≠ [] then [.constructing c.name (wrongIn L c P.last)] else homeless L P c := by
  unfold Sections.closing wrongIn homeless
  dsimp only
  by_cases h0 : elementComplaints L P.last = []
  · rw [if_neg (not_not_intro h0), if_neg (not_not_intro h0)]
    by_cases h1 : unexpected c P.last = []
    · simp only [h1, ne_eq, not_true_eq_false, if_false]
      by_cases h2 : missing c P.last = []
      · simp only [h2, ne_eq, not_true_eq_false, if_false]
      · simp only [h2, ne_eq, not_false_eq_true, if_true]
    · have : (unexpected c P.last).take 1 ≠ [] := by
        cases h : unexpected c P.last with
        | nil => exact absurd h h1
        | cons => simp
      simp only [h1, this, ne_eq, not_false_eq_true, if_true]
  · rw [if_pos h0, if_pos h0]

theorem homeless_other {c : TvClass} (h : c ≠ .file) : homeless L P c = [] := if_neg fun hh => h hh.1

/-- What the building of an element does to the messages and the packages. -/
structure Built (L : LicText) (P : Sections) (c : TvClass) (s s' : TvState) : Prop where
  log : s'.log = s.log ++ P.closing L c
  infoLog : s'.infoLog = s.infoLog
  info : s'.info = s.info
  tried : s'.packages = none ↔ s.packages = none ∧ ¬ (c = .package ∧ elementComplaints L P.last = [])
  built : s'.packages.getD [] = [] ↔ s.packages.getD [] = [] ∧ ¬ (c = .package ∧ Sane L .package P.last)

theorem Built.of_same {c : TvClass} {s' : TvState} (hl : s'.log = s.log ++ P.closing L c) (h1 : s'.infoLog = s.infoLog) (h2 : s'.info = s.info)
    (hp : s'.packages = s.packages) (hc : c ≠ .package ∨ elementComplaints L P.last ≠ []) : Built L P c s s' where
  log := hl
  infoLog := h1
  info := h2
  tried := by
    rw [hp]
    exact ⟨fun h => ⟨h, fun hh => hc.elim (fun h => h hh.1) fun h => h hh.2⟩, fun h => h.1⟩
  built := by
    rw [hp]
    exact ⟨fun h => ⟨h, fun hh => hc.elim (fun h => h hh.1) fun h => h hh.2.1⟩, fun h => h.1⟩

theorem file_id {d : Dict Str TvVal} {o : Option Str} (h : d.get? s%"spdx_id" = o.map fun v => .one (.str v)) {f : File} (hx : mkFile d = .ok f) :
    o.getD [] = f.spdxId := by
  unfold mkFile at hx
  have h12 := tvOnly_ok hx
  clear hx
  obtain ⟨g12, attributionTexts, h11, e12, q12⟩ := ap_inv h12
  obtain ⟨g11, contributors, h10, e11, q11⟩ := ap_inv h11
  obtain ⟨g10, notice, h9, e10, q10⟩ := ap_inv h10
  obtain ⟨g9, comment, h8, e9, q9⟩ := ap_inv h9
  obtain ⟨g8, copyrightText, h7, e8, q8⟩ := ap_inv h8
  obtain ⟨g7, licenseComment, h6, e7, q7⟩ := ap_inv h7
  obtain ⟨g6, licenseInfoInFile, h5, e6, q6⟩ := ap_inv h6
  obtain ⟨g5, licenseConcluded, h4, e5, q5⟩ := ap_inv h5
  obtain ⟨g4, fileTypes, h3, e4, q4⟩ := ap_inv h4
  obtain ⟨g3, checksums, h2, e3, q3⟩ := ap_inv h3
  obtain ⟨g2, spdxId, h1, e2, q2⟩ := ap_inv h2
  obtain ⟨g1, name, h0, e1, q1⟩ := ap_inv h1
  cases h0
  subst q1 q2 q3 q4 q5 q6 q7 q8 q9 q10 q11 q12
  unfold tvReq at e2
  rw [h] at e2
  cases o with
  | none => cases e2
  | some y => cases e2; rfl

theorem built {c : TvClass} (h : Inv L (some c) P pre s) : Built L P c s (s.build c) := by
  have hlog := h.elem.log
  unfold TvState.build
  by_cases hl : elementComplaints L P.last = []
  · rw [if_neg (by rw [hlog]; exact not_not_intro hl)]
    have hcl := closing_eq (L := L) (P := P) c
    rw [if_neg (not_not_intro hl)] at hcl
    cases c with
    | file =>
      dsimp only
      rcases (file_errs h.elem hl).split with ⟨he, f, hf⟩ | ⟨he, hf⟩
      · rw [hf]
        rw [if_neg (not_not_intro he)] at hcl
        have hid := file_id (h.elem.id (.inr rfl)) hf
        dsimp only
        unfold TvState.addContains
        dsimp only
        have ht := h.tried
        have hb := h.built
        cases hp : s.packages with
        | none =>
          refine Built.of_same ?_ rfl rfl hp.symm (.inl (by simp))
          rw [hcl]
          have : homeless L P .file = [] := if_neg fun hh => (ht.1 hp) hh.2.1
          rw [this]; exact (List.append_nil _).symm
        | some ps =>
          have htr : ∃ p ∈ P.complete, p.1 = .package ∧ elementComplaints L p.2 = [] := by
            apply Classical.byContradiction
            intro hn
            rw [ht.2 hn] at hp; cases hp
          dsimp only
          cases hps : ps.getLast? with
          | none =>
            have : ps = [] := List.getLast?_eq_none_iff.1 hps
            subst this
            have : homeless L P .file = [.text (s%"Error while building contains relationship for file " ++ f.spdxId)] := by
              unfold homeless
              rw [if_pos ⟨rfl, htr, hb.1 (by rw [hp]; rfl)⟩, hid]
            refine Built.of_same ?_ rfl rfl hp.symm (.inl (by simp))
            rw [hcl, this]
          | some p =>
            have : homeless L P .file = [] := by
              refine if_neg fun hh => ?_
              have := hb.2 hh.2.2
              rw [hp] at this
              have : ps = [] := this
              subst this; cases hps
            rw [this] at hcl
            dsimp only
            split
            · refine Built.of_same ?_ rfl rfl hp.symm (.inl (by simp))
              rw [hcl]; exact (List.append_nil _).symm
            · refine Built.of_same ?_ rfl rfl hp.symm (.inl (by simp))
              rw [hcl]; exact (List.append_nil _).symm
      · rw [hf]
        rw [if_pos he] at hcl
        exact Built.of_same (by rw [hcl]) rfl rfl rfl (.inl (by simp))
    | package =>
      rw [homeless_other (by simp)] at hcl
      dsimp only
      rcases (package_errs h.elem hl).split with ⟨he, f, hf⟩ | ⟨he, hf⟩
      · rw [hf]
        rw [if_neg (not_not_intro he)] at hcl
        exact ⟨by rw [hcl]; exact (List.append_nil _).symm, rfl, rfl,
          ⟨fun hh => (by cases hh), fun hh => absurd ⟨rfl, hl⟩ hh.2⟩,
          ⟨fun hh => (by simp at hh), fun hh => absurd ⟨rfl, sane_iff.2 ⟨hl, he⟩⟩ hh.2⟩⟩
      · rw [hf]
        rw [if_pos he] at hcl
        exact ⟨by rw [hcl], rfl, rfl, ⟨fun hh => (by cases hh), fun hh => absurd ⟨rfl, hl⟩ hh.2⟩,
          ⟨fun hh => ⟨hh, fun hs => he (sane_iff.1 hs.2).2⟩, fun hh => hh.1⟩⟩
    | snippet =>
      rw [homeless_other (by simp)] at hcl
      dsimp only
      rcases (snippet_errs h.elem hl).split with ⟨he, f, hf⟩ | ⟨he, hf⟩
      · rw [hf]
        rw [if_neg (not_not_intro he)] at hcl
        exact Built.of_same (by rw [hcl]; exact (List.append_nil _).symm) rfl rfl rfl (.inl (by simp))
      · rw [hf]
        rw [if_pos he] at hcl
        exact Built.of_same (by rw [hcl]) rfl rfl rfl (.inl (by simp))
    | annotation =>
      rw [homeless_other (by simp)] at hcl
      dsimp only
      rcases (annotation_errs h.elem hl).split with ⟨he, f, hf⟩ | ⟨he, hf⟩
      · rw [hf]
        rw [if_neg (not_not_intro he)] at hcl
        exact Built.of_same (by rw [hcl]; exact (List.append_nil _).symm) rfl rfl rfl (.inl (by simp))
      · rw [hf]
        rw [if_pos he] at hcl
        exact Built.of_same (by rw [hcl]) rfl rfl rfl (.inl (by simp))
    | relationship =>
      rw [homeless_other (by simp)] at hcl
      dsimp only
      rcases (relationship_errs h.elem hl).split with ⟨he, f, hf⟩ | ⟨he, hf⟩
      · rw [hf]
        rw [if_neg (not_not_intro he)] at hcl
        exact Built.of_same (by rw [hcl]; exact (List.append_nil _).symm) rfl rfl rfl (.inl (by simp))
      · rw [hf]
        rw [if_pos he] at hcl
        exact Built.of_same (by rw [hcl]) rfl rfl rfl (.inl (by simp))
    | extracted =>
      rw [homeless_other (by simp)] at hcl
      dsimp only
      rcases (extracted_errs h.elem hl).split with ⟨he, f, hf⟩ | ⟨he, hf⟩
      · rw [hf]
        rw [if_neg (not_not_intro he)] at hcl
        exact Built.of_same (by rw [hcl]; exact (List.append_nil _).symm) rfl rfl rfl (.inl (by simp))
      · rw [hf]
        rw [if_pos he] at hcl
        exact Built.of_same (by rw [hcl]) rfl rfl rfl (.inl (by simp))
  · rw [if_pos (by rw [hlog]; exact hl)]
    refine Built.of_same ?_ rfl rfl rfl (.inr hl)
    rw [closing_eq, if_pos hl, hlog]

private theorem elem_nil (cl : Option TvClass) : ElemInv L cl [] [] [] where
  log := rfl
  keys := rfl
  fits := by intro _ f x h; cases h
  shape := by intro f y h; cases h
  id := fun _ => rfl

theorem Inv.nil : Inv L none {} [] {} where
  cls := rfl
  elem := elem_nil _
  infoLog := rfl
  info := ⟨fun f => ⟨fun h => (by cases h), fun h => (by cases h)⟩, fun f x h => by cases h⟩
  tried := ⟨fun _ ⟨p, hp, _⟩ => by (cases hp), fun _ => rfl⟩
  built := ⟨fun _ ⟨p, hp, _⟩ => by (cases hp), fun _ => rfl⟩

private theorem or_snoc {α : Type} {l : List α} {x : α} {p : α → Prop} : (¬ ∃ y ∈ l ++ [x], p y) ↔ (¬ ∃ y ∈ l, p y) ∧ ¬ p x := by
  simp only [List.mem_append, List.mem_singleton]
  constructor
  · exact fun h => ⟨fun ⟨y, h1, h2⟩ => h ⟨y, .inl h1, h2⟩, fun hx => h ⟨x, .inr rfl, hx⟩⟩
  · rintro ⟨h1, h2⟩ ⟨y, hy | rfl, hp⟩
    · exact h1 ⟨y, hy, hp⟩
    · exact h2 hp

theorem enter (h : Inv L (current pre) (parts pre) pre s) (a : TvAttr) :
    Inv L (current (pre ++ [a])) ((parts pre).opened pre a) pre (s.entry a) ∧
      (s.entry a).log = s.log ++ (if (opens a).isSome then closing L pre else []) := by
  unfold closing
  revert h
  generalize parts pre = P
  intro h
  rw [current_snoc]
  unfold TvState.entry Sections.opened
  rw [starts_eq]
  cases ho : opens a with
  | none =>
    refine ⟨?_, (List.append_nil _).symm⟩
    exact h
  | some c' =>
    dsimp only
    unfold TvState.start TvState.finish
    cases hc : current pre with
    | none =>
      rw [hc] at h
      rw [h.cls]
      refine ⟨⟨rfl, ⟨h.elem.log, h.elem.keys, h.elem.fits, h.elem.shape, fun _ => h.elem.id (.inl rfl)⟩, h.infoLog, h.info, h.tried, h.built⟩, ?_⟩
      exact (List.append_nil _).symm
    | some c =>
      rw [hc] at h
      rw [h.cls]
      have hb := built h
      refine ⟨⟨rfl, elem_nil _, ?_, ?_, ?_, ?_⟩, hb.log⟩
      · exact hb.infoLog.trans h.infoLog
      · exact (congrArg _ hb.info).mpr h.info
      · refine hb.tried.trans ?_
        rw [h.tried]
        exact (or_snoc (x := (c, P.last)) (p := fun p => p.1 = .package ∧ elementComplaints L p.2 = [])).symm
      · refine hb.built.trans ?_
        rw [h.built]
        exact (or_snoc (x := (c, P.last)) (p := fun p => p.1 = .package ∧ Sane L .package p.2)).symm

theorem run_told (as : List TvAttr) : ∀ (pre : List TvAttr) (s : TvState), Inv L (current pre) (parts pre) pre s → (∀ a ∈ as, Fine a) →
    ∃ s', s.run L as = .ok s' ∧ Inv L (current (pre ++ as)) (parts (pre ++ as)) (pre ++ as) s' ∧ s'.finish.log = s.log ++ toldFrom L pre as := by
  induction as with
  | nil =>
    intro pre s h _
    refine ⟨s, rfl, by rw [List.append_nil]; exact h, ?_⟩
    unfold toldFrom closing TvState.finish
    rw [h.cls]
    cases hc : current pre with
    | none => exact (List.append_nil _).symm
    | some c => rw [hc] at h; exact (built h).log
  | cons a as ih =>
    intro pre s h hf
    obtain ⟨h1, h2⟩ := enter h a
    obtain ⟨h3, h4⟩ := act_inv h1 rfl (hf a List.mem_cons_self)
    have hstep := step_act (L := L) (s := s) (hf a List.mem_cons_self)
    have hparts : parts (pre ++ [a]) = (parts pre).add pre a := parts_snoc pre a
    obtain ⟨s', h5, h6, h7⟩ := ih (pre ++ [a]) _ (by rw [hparts]; exact h3) fun x hx => hf x (List.mem_cons_of_mem _ hx)
    refine ⟨s', ?_, ?_, ?_⟩
    · unfold TvState.run
      rw [hstep]
      exact h5
    · rw [List.append_assoc] at h6; exact h6
    · rw [h7, h4, h2]
      rw [toldFrom]
      simp only [List.append_assoc]

theorem result_told {as : List TvAttr} (hf : ∀ a ∈ as, Fine a) : ∃ s, TvState.run L {} as = .ok s ∧
    ((told L as = [] ∧ ∃ d, s.result = .ok d) ∨ (told L as ≠ [] ∧ s.result = .error (.parsing (told L as)))) := by
  obtain ⟨s, h1, h2, h3⟩ := run_told (L := L) as [] {} Inv.nil hf
  refine ⟨s, h1, ?_⟩
  rw [List.nil_append] at h2
  have h3 : s.finish.log = toldFrom L [] as := h3
  have hinfo : s.finish.infoLog = infoComplaintsFrom [] as ∧ s.finish.info = s.info := by
    unfold TvState.finish
    rw [h2.cls]
    cases hc : current as with
    | none => exact ⟨h2.infoLog, rfl⟩
    | some c => rw [hc] at h2; exact ⟨(built h2).infoLog.trans h2.infoLog, (built h2).info⟩
  unfold told TvState.result
  dsimp only
  rw [h3, hinfo.1, hinfo.2]
  by_cases hm : toldFrom L [] as ++ (if infoComplaintsFrom [] as = [] then [] else [.wrapped s%"CreationInfo" (infoComplaintsFrom [] as)]) = []
  · rw [if_neg (not_not_intro hm), if_neg (not_not_intro hm)]
    rcases (info_errs h2.info).split with ⟨he, x, hx⟩ | ⟨he, hx⟩
    · rw [if_pos he, hx]
      exact .inl ⟨rfl, _, rfl⟩
    · rw [if_neg he, hx]
      exact .inr ⟨by simp, rfl⟩
  · rw [if_pos hm, if_pos hm]
    exact .inr ⟨hm, rfl⟩

end
end Spdx.Told
