import Verif.Lemmas.TagValueToldStep
/- What the constructors complain about. -/
namespace Spdx.Told
open Spdx Spec

def Errs {α : Type} (c : Check α) (l : List Str) : Prop :=
  match c with
  | .ok _ => l = []
  | .error e => e = l ∧ l ≠ []

section
variable {α β : Type} {d : Dict Str TvVal} {f : Str} {k : Kind} {as? : TvItem → Option α} {bad : Str → Bool}

theorem Errs.ap {F : Check (α → β)} {x : Check α} {args : List Str} (hF : Errs F (args.filter bad)) (hx : Errs x (if bad f then [f] else [])) :
    Errs (F ⊛ x) ((args ++ [f]).filter bad) := by
  rw [List.filter_append]
  have e : [f].filter bad = if bad f then [f] else [] := by cases h : bad f <;> simp [h]
  rw [e]
  cases F with
  | ok F =>
    have hF : args.filter bad = [] := hF
    rw [hF, List.nil_append]
    cases x with
    | ok x => exact hx
    | error e => exact hx
  | error e =>
    obtain ⟨rfl, h1⟩ := hF
    cases x with
    | ok x =>
      have hx : (if bad f then [f] else []) = [] := hx
      rw [hx, List.append_nil]; exact ⟨rfl, h1⟩
    | error e' =>
      obtain ⟨rfl, h2⟩ := hx
      exact ⟨rfl, by simp [h1]⟩

def One (d : Dict Str TvVal) (f : Str) (k : Kind) : Prop := ∀ x, d.get? f = some x → ∃ y, x = .one y ∧ k.ok y = true
def Many (d : Dict Str TvVal) (f : Str) (k : Kind) : Prop := ∀ x, d.get? f = some x → ∃ l, x = .many l ∧ l.all k.ok = true

theorem isSome_mapM (as? : TvItem → Option α) (l : List TvItem) : (l.mapM as?).isSome = l.all fun x => (as? x).isSome := by
  induction l with
  | nil => rfl
  | cons x l ih =>
    rw [List.mapM_cons, List.all_cons, ← ih]
    cases as? x with
    | none => rfl
    | some a => cases l.mapM as? <;> rfl

theorem errs_req (ho : One d f k) (hk : ∀ x, k.ok x = true → (as? x).isSome = true) (hb : bad f = (d.get? f).isNone) :
    Errs (tvReq as? d f) (if bad f then [f] else []) := by
  unfold tvReq
  cases hd : d.get? f with
  | none => rw [hb, hd]; exact ⟨rfl, by simp⟩
  | some x =>
    obtain ⟨y, rfl, hy⟩ := ho x hd
    rw [hb, hd]
    obtain ⟨a, ha⟩ := Option.isSome_iff_exists.1 (hk y hy)
    dsimp only
    rw [ha]
    rfl

theorem errs_opt (ho : One d f k) (hk : ∀ x, k.ok x = true → x = .null ∨ (as? x).isSome = true) (hb : bad f = false) :
    Errs (tvOpt as? d f) (if bad f then [f] else []) := by
  rw [hb]
  unfold tvOpt
  cases hd : d.get? f with
  | none => rfl
  | some x =>
    obtain ⟨y, rfl, hy⟩ := ho x hd
    by_cases hn : y = .null
    · subst hn; rfl
    · obtain ⟨a, ha⟩ := Option.isSome_iff_exists.1 ((hk y hy).resolve_left hn)
      cases y <;> first
        | exact absurd rfl hn
        | (dsimp only; rw [ha]; rfl)

theorem errs_dflt {z : α} (ho : One d f k) (hk : ∀ x, k.ok x = true → (as? x).isSome = true) (hb : bad f = false) :
    Errs (tvDflt as? z d f) (if bad f then [f] else []) := by
  rw [hb]
  unfold tvDflt
  cases hd : d.get? f with
  | none => rfl
  | some x =>
    obtain ⟨y, rfl, hy⟩ := ho x hd
    obtain ⟨a, ha⟩ := Option.isSome_iff_exists.1 (hk y hy)
    dsimp only
    rw [ha]
    rfl

theorem errs_reqList (ho : Many d f k) (hk : ∀ x, k.ok x = true → (as? x).isSome = true) (hb : bad f = (d.get? f).isNone) :
    Errs (tvReqList as? d f) (if bad f then [f] else []) := by
  unfold tvReqList
  cases hd : d.get? f with
  | none => rw [hb, hd]; exact ⟨rfl, by simp⟩
  | some x =>
    obtain ⟨l, rfl, hl⟩ := ho x hd
    rw [hb, hd]
    have : (l.mapM as?).isSome = true := by
      rw [isSome_mapM, List.all_eq_true]
      exact fun x hx => hk x (List.all_eq_true.1 hl x hx)
    obtain ⟨a, ha⟩ := Option.isSome_iff_exists.1 this
    dsimp only
    rw [ha]
    rfl

theorem errs_lists (ho : ∀ x, d.get? f = some x → ∃ l, x = .many l ∧ (l.all fun x => (as? x).isSome) = !bad f) (hb : d.get? f = none → bad f = false) :
    Errs (tvList as? d f) (if bad f then [f] else []) := by
  unfold tvList
  cases hd : d.get? f with
  | none => rw [hb hd]; rfl
  | some x =>
    obtain ⟨l, rfl, hl⟩ := ho x hd
    rw [← isSome_mapM] at hl
    dsimp only
    cases hm : l.mapM as? with
    | none =>
      rw [hm] at hl
      have : bad f = true := by cases hb : bad f <;> simp [hb] at hl ⊢
      rw [this]; exact ⟨rfl, by simp⟩
    | some a =>
      rw [hm] at hl
      have : bad f = false := by cases hb : bad f <;> simp [hb] at hl ⊢
      rw [this]; rfl

theorem errs_list (ho : Many d f k) (hk : ∀ x, k.ok x = true → (as? x).isSome = true) (hb : bad f = false) :
    Errs (tvList as? d f) (if bad f then [f] else []) := by
  refine errs_lists (fun x hx => ?_) fun _ => hb
  obtain ⟨l, rfl, hl⟩ := ho x hx
  refine ⟨l, rfl, ?_⟩
  rw [hb]
  exact List.all_eq_true.2 fun x hx => hk x (List.all_eq_true.1 hl x hx)

/-- The constructor's complaints. -/
theorem only_errs {names needed : List Str} {c : Check α} (h : Errs c (names.filter bad)) (hn : ∀ n ∈ needed, n ∈ names)
    (hb : ∀ n ∈ needed, d.get? n = none → bad n = true) :
    Errs (tvOnly d names needed c) (if d.keys.filter (· ∉ names) ≠ [] then (d.keys.filter (· ∉ names)).take 1
      else if needed.filter (fun n => (d.get? n).isNone) ≠ [] then needed.filter (fun n => (d.get? n).isNone) else names.filter bad) := by
  unfold tvOnly
  cases hu : d.keys.filter (· ∉ names) with
  | cons x l => exact ⟨rfl, by simp⟩
  | nil =>
    rw [if_neg (by simp)]
    dsimp only
    unfold tvMissing
    by_cases hm : needed.filter (fun n => (d.get? n).isNone) = []
    · rw [if_neg (by simp [hm])]
      have hall : (needed.all fun k => (d.get? k).isSome) = true := by
        rw [List.all_eq_true]
        intro n hn'
        cases hd : d.get? n with
        | some => rfl
        | none =>
          have : n ∈ needed.filter (fun n => (d.get? n).isNone) := List.mem_filter.2 ⟨hn', by rw [hd]; rfl⟩
          rw [hm] at this; cases this
      cases c with
      | ok x => exact h
      | error e => dsimp only; rw [hall, if_pos rfl]; exact h
    · rw [if_pos hm]
      obtain ⟨n, hnm⟩ := List.exists_mem_of_ne_nil _ hm
      obtain ⟨h1, h2⟩ := List.mem_filter.1 hnm
      have hd : d.get? n = none := Option.isNone_iff_eq_none.1 h2
      have hbn : n ∈ names.filter bad := List.mem_filter.2 ⟨hn n h1, hb n h1 hd⟩
      cases c with
      | ok x =>
        have h : names.filter bad = [] := h
        rw [h] at hbn; cases hbn
      | error e =>
        dsimp only
        have hall : ¬ (needed.all fun k => (d.get? k).isSome) = true := by
          intro hall
          have := List.all_eq_true.1 hall n h1
          rw [hd] at this; cases this
        rw [if_neg hall]
        exact ⟨rfl, hm⟩

end

/-- What the constructor of an element complains about. -/
def wrongIn (L : LicText) (c : TvClass) (b : List Place) : List Str :=
  if unexpected c b ≠ [] then (unexpected c b).take 1 else if missing c b ≠ [] then missing c b else blank L c b

section
variable {L : LicText} {cl : Option TvClass} {b : List Place} {log : List PMsg} {d : Dict Str TvVal}

def badIn (L : LicText) (c : TvClass) (b : List Place) (f : Str) : Bool := (f ∈ mandatory c ∧ f ∉ filled b) || b.any (·.blankIn L f)

theorem make_errs {α : Type} {c : TvClass} {m : Check α} (h : ElemInv L cl b log d) (hm : Errs m ((argsOf c).filter (badIn L c b))) :
    Errs (tvOnly d (argsOf c) (mandatory c) m) (wrongIn L c b) := by
  have tab : ∀ n ∈ mandatory c, n ∈ argsOf c := by cases c <;> decide +kernel
  have hnone : ∀ n, (d.get? n).isNone = decide (n ∉ filled b) := by
    intro n
    have := h.has n
    cases hd : d.get? n <;> simp [hd] at this <;> simp [this]
  have := only_errs (d := d) hm tab (by
    intro n hn hd
    have : n ∉ filled b := by intro hh; rw [← h.has, hd] at hh; cases hh
    unfold badIn; simp [hn, this])
  have e1 : (d.keys.filter (· ∉ argsOf c)).take 1 = (unexpected c b).take 1 := by
    have := head_firsts (fun k => decide (k ∉ argsOf c)) (filled b)
    rw [h.keys]
    unfold unexpected
    have one : ∀ l : List Str, l.take 1 = l.head?.toList := by intro l; cases l <;> rfl
    rw [one, one]
    exact congrArg _ this
  have e2 : d.keys.filter (· ∉ argsOf c) = [] ↔ unexpected c b = [] := by
    have : ∀ {l l' : List Str}, l.take 1 = l'.take 1 → (l = [] ↔ l' = []) := by
      intro l l' hh
      cases l <;> cases l' <;> simp at hh ⊢
    exact this e1
  have e3 : (mandatory c).filter (fun n => (d.get? n).isNone) = missing c b := by
    unfold missing
    exact List.filter_congr fun n _ => hnone n
  rw [e1, e3] at this
  unfold wrongIn
  by_cases hu : unexpected c b = []
  · rw [if_neg (not_not_intro (e2.2 hu))] at this
    rw [if_neg (not_not_intro hu)]
    by_cases hmi : missing c b = []
    · rw [if_neg (not_not_intro hmi)] at this ⊢
      have e4 : (argsOf c).filter (badIn L c b) = blank L c b := by
        unfold blank
        refine List.filter_congr fun n _ => ?_
        unfold badIn
        have : ¬ (n ∈ mandatory c ∧ n ∉ filled b) := by
          intro hh
          have : n ∈ missing c b := List.mem_filter.2 ⟨hh.1, decide_eq_true hh.2⟩
          rw [hmi] at this; cases this
        simp [this]
      rw [← e4]; exact this
    · rw [if_pos hmi] at this ⊢; exact this
  · rw [if_pos (fun hh => hu (e2.1 hh))] at this
    rw [if_pos hu]; exact this

theorem one_of (h : ElemInv L cl b log d) (hl : elementComplaints L b = []) {f : Str} {k : Kind} (hk : kinds.lookup f = some (k, false)) : One d f k := by
  intro x hx
  have := h.fits hl f x hx
  unfold Fits at this
  rw [hk] at this
  exact this

theorem many_of (h : ElemInv L cl b log d) (hl : elementComplaints L b = []) {f : Str} {k : Kind} (hk : kinds.lookup f = some (k, true)) : Many d f k := by
  intro x hx
  have := h.fits hl f x hx
  unfold Fits at this
  rw [hk] at this
  exact this

theorem not_blank {f : Str} {x : Kind × Bool} (hk : kinds.lookup f = some x) : b.any (·.blankIn L f) = false := by
  rw [List.any_eq_false]
  intro p _ hb
  have := (blank_lists hb).2
  rw [hk] at this; cases this

theorem bad_free {c : TvClass} {f : Str} {x : Kind × Bool} (hk : kinds.lookup f = some x) (hm : f ∉ mandatory c) : badIn L c b f = false := by
  unfold badIn; rw [not_blank hk]; simp [hm]

theorem bad_needed {c : TvClass} (h : ElemInv L cl b log d) {f : Str} {x : Kind × Bool} (hk : kinds.lookup f = some x) (hm : f ∈ mandatory c) :
    badIn L c b f = (d.get? f).isNone := by
  unfold badIn; rw [not_blank hk]
  have := h.has f
  cases hd : d.get? f <;> simp [hd] at this <;> simp [this, hm]

section
variable {α : Type} {as? : TvItem → Option α} {c : TvClass}

theorem part_req (h : ElemInv L cl b log d) (hl : elementComplaints L b = []) {f : Str} (k : Kind) (hk : kinds.lookup f = some (k, false))
    (hm : f ∈ mandatory c) (hc : ∀ x, k.ok x = true → (as? x).isSome = true) : Errs (tvReq as? d f) (if badIn L c b f then [f] else []) :=
  errs_req (one_of h hl hk) hc (bad_needed h hk hm)
theorem part_reqList (h : ElemInv L cl b log d) (hl : elementComplaints L b = []) {f : Str} (k : Kind) (hk : kinds.lookup f = some (k, true))
    (hm : f ∈ mandatory c) (hc : ∀ x, k.ok x = true → (as? x).isSome = true) : Errs (tvReqList as? d f) (if badIn L c b f then [f] else []) :=
  errs_reqList (many_of h hl hk) hc (bad_needed h hk hm)
theorem part_opt (h : ElemInv L cl b log d) (hl : elementComplaints L b = []) {f : Str} (k : Kind) (hk : kinds.lookup f = some (k, false))
    (hm : f ∉ mandatory c) (hc : ∀ x, k.ok x = true → x = .null ∨ (as? x).isSome = true) : Errs (tvOpt as? d f) (if badIn L c b f then [f] else []) :=
  errs_opt (one_of h hl hk) hc (bad_free hk hm)
theorem part_dflt {z : α} (h : ElemInv L cl b log d) (hl : elementComplaints L b = []) {f : Str} (k : Kind) (hk : kinds.lookup f = some (k, false))
    (hm : f ∉ mandatory c) (hc : ∀ x, k.ok x = true → (as? x).isSome = true) : Errs (tvDflt as? z d f) (if badIn L c b f then [f] else []) :=
  errs_dflt (one_of h hl hk) hc (bad_free hk hm)
theorem part_list (h : ElemInv L cl b log d) (hl : elementComplaints L b = []) {f : Str} (k : Kind) (hk : kinds.lookup f = some (k, true))
    (hm : f ∉ mandatory c) (hc : ∀ x, k.ok x = true → (as? x).isSome = true) : Errs (tvList as? d f) (if badIn L c b f then [f] else []) :=
  errs_list (many_of h hl hk) hc (bad_free hk hm)
theorem part_lics (h : ElemInv L cl b log d) (hl : elementComplaints L b = []) {f : Str} (hk : kinds.lookup f = none) (hm : f ∉ mandatory c) :
    Errs (tvList TvItem.lic? d f) (if badIn L c b f then [f] else []) := by
  have e : badIn L c b f = b.any (·.blankIn L f) := by unfold badIn; simp [hm]
  refine errs_lists (fun x hx => ?_) fun hd => ?_
  · have := h.fits hl f x hx
    unfold Fits at this
    rw [hk] at this
    rw [e]
    exact this.2
  · rw [e, List.any_eq_false]
    intro p hp hb
    have : f ∈ filled b := by
      unfold filled
      exact List.mem_flatMap.2 ⟨p, hp, blank_gives hb⟩
    rw [← h.has, hd] at this
    cases this
end

private theorem lic_null (x : TvItem) (h : Kind.license.ok x = true) : x = .null ∨ x.lic?.isSome = true := by
  simpa [Kind.ok] using h

theorem file_errs (h : ElemInv L cl b log d) (hl : elementComplaints L b = []) : Errs (mkFile d) (wrongIn L .file b) := by
  have h0 : Errs (Except.ok File.mk : Check _) (([] : List Str).filter (badIn L .file b)) := rfl
  refine make_errs (c := .file) h ?_
  have k1 := h0.ap (part_req h hl .str (f := s%"name") (as? := TvItem.str?) (by decide +kernel) (by decide +kernel) fun _ h => h)
  have k2 := k1.ap (part_req h hl .str (f := s%"spdx_id") (as? := TvItem.str?) (by decide +kernel) (by decide +kernel) fun _ h => h)
  have k3 := k2.ap (part_reqList h hl .checksum (f := s%"checksums") (as? := TvItem.checksum?) (by decide +kernel) (by decide +kernel) fun _ h => h)
  have k4 := k3.ap (part_list h hl .fileType (f := s%"file_types") (as? := TvItem.fileType?) (by decide +kernel) (by decide +kernel) fun _ h => h)
  have k5 := k4.ap (part_opt h hl .license (f := s%"license_concluded") (as? := TvItem.lic?) (by decide +kernel) (by decide +kernel) lic_null)
  have k6 := k5.ap (part_lics h hl (f := s%"license_info_in_file") (by decide +kernel) (by decide +kernel))
  have k7 := k6.ap (part_opt h hl .str (f := s%"license_comment") (as? := TvItem.str?) (by decide +kernel) (by decide +kernel) fun _ h => .inr h)
  have k8 := k7.ap (part_opt h hl .special (f := s%"copyright_text") (as? := TvItem.special?) (by decide +kernel) (by decide +kernel) fun _ h => .inr h)
  have k9 := k8.ap (part_opt h hl .str (f := s%"comment") (as? := TvItem.str?) (by decide +kernel) (by decide +kernel) fun _ h => .inr h)
  have k10 := k9.ap (part_opt h hl .str (f := s%"notice") (as? := TvItem.str?) (by decide +kernel) (by decide +kernel) fun _ h => .inr h)
  have k11 := k10.ap (part_list h hl .str (f := s%"contributors") (as? := TvItem.str?) (by decide +kernel) (by decide +kernel) fun _ h => h)
  exact k11.ap (part_list h hl .str (f := s%"attribution_texts") (as? := TvItem.str?) (by decide +kernel) (by decide +kernel) fun _ h => h)

theorem package_errs (h : ElemInv L cl b log d) (hl : elementComplaints L b = []) : Errs (mkPackage d) (wrongIn L .package b) := by
  have h0 : Errs (Except.ok Package.mk : Check _) (([] : List Str).filter (badIn L .package b)) := rfl
  refine make_errs (c := .package) h ?_
  have k1 := h0.ap (part_req h hl .str (f := s%"spdx_id") (as? := TvItem.str?) (by decide +kernel) (by decide +kernel) fun _ h => h)
  have k2 := k1.ap (part_req h hl .str (f := s%"name") (as? := TvItem.str?) (by decide +kernel) (by decide +kernel) fun _ h => h)
  have k3 := k2.ap (part_req h hl .special (f := s%"download_location") (as? := TvItem.special?) (by decide +kernel) (by decide +kernel) fun _ h => h)
  have k4 := k3.ap (part_opt h hl .str (f := s%"version") (as? := TvItem.str?) (by decide +kernel) (by decide +kernel) fun _ h => .inr h)
  have k5 := k4.ap (part_opt h hl .str (f := s%"file_name") (as? := TvItem.str?) (by decide +kernel) (by decide +kernel) fun _ h => .inr h)
  have k6 := k5.ap (part_opt h hl .actorOrNoAssertion (f := s%"supplier") (as? := TvItem.actorNoAssertion?) (by decide +kernel) (by decide +kernel) fun _ h => .inr h)
  have k7 := k6.ap (part_opt h hl .actorOrNoAssertion (f := s%"originator") (as? := TvItem.actorNoAssertion?) (by decide +kernel) (by decide +kernel) fun _ h => .inr h)
  have k8 := k7.ap (part_dflt (z := true) h hl .bool (f := s%"files_analyzed") (as? := TvItem.bool?) (by decide +kernel) (by decide +kernel) fun _ h => h)
  have k9 := k8.ap (part_opt h hl .code (f := s%"verification_code") (as? := TvItem.code?) (by decide +kernel) (by decide +kernel) fun _ h => .inr h)
  have k10 := k9.ap (part_list h hl .checksum (f := s%"checksums") (as? := TvItem.checksum?) (by decide +kernel) (by decide +kernel) fun _ h => h)
  have k11 := k10.ap (part_opt h hl .special (f := s%"homepage") (as? := TvItem.special?) (by decide +kernel) (by decide +kernel) fun _ h => .inr h)
  have k12 := k11.ap (part_opt h hl .str (f := s%"source_info") (as? := TvItem.str?) (by decide +kernel) (by decide +kernel) fun _ h => .inr h)
  have k13 := k12.ap (part_opt h hl .license (f := s%"license_concluded") (as? := TvItem.lic?) (by decide +kernel) (by decide +kernel) lic_null)
  have k14 := k13.ap (part_lics h hl (f := s%"license_info_from_files") (by decide +kernel) (by decide +kernel))
  have k15 := k14.ap (part_opt h hl .license (f := s%"license_declared") (as? := TvItem.lic?) (by decide +kernel) (by decide +kernel) lic_null)
  have k16 := k15.ap (part_opt h hl .str (f := s%"license_comment") (as? := TvItem.str?) (by decide +kernel) (by decide +kernel) fun _ h => .inr h)
  have k17 := k16.ap (part_opt h hl .special (f := s%"copyright_text") (as? := TvItem.special?) (by decide +kernel) (by decide +kernel) fun _ h => .inr h)
  have k18 := k17.ap (part_opt h hl .str (f := s%"summary") (as? := TvItem.str?) (by decide +kernel) (by decide +kernel) fun _ h => .inr h)
  have k19 := k18.ap (part_opt h hl .str (f := s%"description") (as? := TvItem.str?) (by decide +kernel) (by decide +kernel) fun _ h => .inr h)
  have k20 := k19.ap (part_opt h hl .str (f := s%"comment") (as? := TvItem.str?) (by decide +kernel) (by decide +kernel) fun _ h => .inr h)
  have k21 := k20.ap (part_list h hl .extRef (f := s%"external_references") (as? := TvItem.extRef?) (by decide +kernel) (by decide +kernel) fun _ h => h)
  have k22 := k21.ap (part_list h hl .str (f := s%"attribution_texts") (as? := TvItem.str?) (by decide +kernel) (by decide +kernel) fun _ h => h)
  have k23 := k22.ap (part_opt h hl .purpose (f := s%"primary_package_purpose") (as? := TvItem.purpose?) (by decide +kernel) (by decide +kernel) fun _ h => .inr h)
  have k24 := k23.ap (part_opt h hl .date (f := s%"release_date") (as? := TvItem.date?) (by decide +kernel) (by decide +kernel) fun _ h => .inr h)
  have k25 := k24.ap (part_opt h hl .date (f := s%"built_date") (as? := TvItem.date?) (by decide +kernel) (by decide +kernel) fun _ h => .inr h)
  exact k25.ap (part_opt h hl .date (f := s%"valid_until_date") (as? := TvItem.date?) (by decide +kernel) (by decide +kernel) fun _ h => .inr h)

theorem snippet_errs (h : ElemInv L cl b log d) (hl : elementComplaints L b = []) : Errs (mkSnippet d) (wrongIn L .snippet b) := by
  have h0 : Errs (Except.ok Snippet.mk : Check _) (([] : List Str).filter (badIn L .snippet b)) := rfl
  refine make_errs (c := .snippet) h ?_
  have k1 := h0.ap (part_req h hl .str (f := s%"spdx_id") (as? := TvItem.str?) (by decide +kernel) (by decide +kernel) fun _ h => h)
  have k2 := k1.ap (part_req h hl .str (f := s%"file_spdx_id") (as? := TvItem.str?) (by decide +kernel) (by decide +kernel) fun _ h => h)
  have k3 := k2.ap (part_req h hl .range (f := s%"byte_range") (as? := TvItem.range?) (by decide +kernel) (by decide +kernel) fun _ h => h)
  have k4 := k3.ap (part_opt h hl .range (f := s%"line_range") (as? := TvItem.range?) (by decide +kernel) (by decide +kernel) fun _ h => .inr h)
  have k5 := k4.ap (part_opt h hl .license (f := s%"license_concluded") (as? := TvItem.lic?) (by decide +kernel) (by decide +kernel) lic_null)
  have k6 := k5.ap (part_lics h hl (f := s%"license_info_in_snippet") (by decide +kernel) (by decide +kernel))
  have k7 := k6.ap (part_opt h hl .str (f := s%"license_comment") (as? := TvItem.str?) (by decide +kernel) (by decide +kernel) fun _ h => .inr h)
  have k8 := k7.ap (part_opt h hl .special (f := s%"copyright_text") (as? := TvItem.special?) (by decide +kernel) (by decide +kernel) fun _ h => .inr h)
  have k9 := k8.ap (part_opt h hl .str (f := s%"comment") (as? := TvItem.str?) (by decide +kernel) (by decide +kernel) fun _ h => .inr h)
  have k10 := k9.ap (part_opt h hl .str (f := s%"name") (as? := TvItem.str?) (by decide +kernel) (by decide +kernel) fun _ h => .inr h)
  exact k10.ap (part_list h hl .str (f := s%"attribution_texts") (as? := TvItem.str?) (by decide +kernel) (by decide +kernel) fun _ h => h)

theorem annotation_errs (h : ElemInv L cl b log d) (hl : elementComplaints L b = []) : Errs (mkAnnotation d) (wrongIn L .annotation b) := by
  have h0 : Errs (Except.ok Annotation.mk : Check _) (([] : List Str).filter (badIn L .annotation b)) := rfl
  refine make_errs (c := .annotation) h ?_
  have k1 := h0.ap (part_req h hl .str (f := s%"spdx_id") (as? := TvItem.str?) (by decide +kernel) (by decide +kernel) fun _ h => h)
  have k2 := k1.ap (part_req h hl .annotationType (f := s%"annotation_type") (as? := TvItem.annotationType?) (by decide +kernel) (by decide +kernel) fun _ h => h)
  have k3 := k2.ap (part_req h hl .actor (f := s%"annotator") (as? := TvItem.actor?) (by decide +kernel) (by decide +kernel) fun _ h => h)
  have k4 := k3.ap (part_req h hl .date (f := s%"annotation_date") (as? := TvItem.date?) (by decide +kernel) (by decide +kernel) fun _ h => h)
  exact k4.ap (part_req h hl .str (f := s%"annotation_comment") (as? := TvItem.str?) (by decide +kernel) (by decide +kernel) fun _ h => h)

theorem relationship_errs (h : ElemInv L cl b log d) (hl : elementComplaints L b = []) : Errs (mkRelationship d) (wrongIn L .relationship b) := by
  have h0 : Errs (Except.ok Relationship.mk : Check _) (([] : List Str).filter (badIn L .relationship b)) := rfl
  refine make_errs (c := .relationship) h ?_
  have k1 := h0.ap (part_req h hl .str (f := s%"spdx_element_id") (as? := TvItem.str?) (by decide +kernel) (by decide +kernel) fun _ h => h)
  have k2 := k1.ap (part_req h hl .relationshipType (f := s%"relationship_type") (as? := TvItem.relationshipType?) (by decide +kernel) (by decide +kernel) fun _ h => h)
  have k3 := k2.ap (part_req h hl .special (f := s%"related_spdx_element_id") (as? := TvItem.special?) (by decide +kernel) (by decide +kernel) fun _ h => h)
  exact k3.ap (part_opt h hl .str (f := s%"comment") (as? := TvItem.str?) (by decide +kernel) (by decide +kernel) fun _ h => .inr h)

theorem extracted_errs (h : ElemInv L cl b log d) (hl : elementComplaints L b = []) : Errs (mkExtracted d) (wrongIn L .extracted b) := by
  have h0 : Errs (Except.ok ExtractedLicensingInfo.mk : Check _) (([] : List Str).filter (badIn L .extracted b)) := rfl
  refine make_errs (c := .extracted) h ?_
  have k1 := h0.ap (part_opt h hl .str (f := s%"license_id") (as? := TvItem.str?) (by decide +kernel) (by decide +kernel) fun _ h => .inr h)
  have k2 := k1.ap (part_opt h hl .str (f := s%"extracted_text") (as? := TvItem.str?) (by decide +kernel) (by decide +kernel) fun _ h => .inr h)
  have k3 := k2.ap (part_opt h hl .textOrNoAssertion (f := s%"license_name") (as? := TvItem.strNoAssertion?) (by decide +kernel) (by decide +kernel) fun _ h => .inr h)
  have k4 := k3.ap (part_list h hl .str (f := s%"cross_references") (as? := TvItem.str?) (by decide +kernel) (by decide +kernel) fun _ h => h)
  exact k4.ap (part_opt h hl .str (f := s%"comment") (as? := TvItem.str?) (by decide +kernel) (by decide +kernel) fun _ h => .inr h)

end

section
variable {pre : List TvAttr} {d : Dict Str TvVal}

def infoNeeded : List Str := [s%"spdx_version", s%"spdx_id", s%"name", s%"document_namespace", s%"creators", s%"created"]

def infoBad (pre : List TvAttr) (f : Str) : Bool := f ∈ infoNeeded ∧ f ∉ pre.flatMap givesInfo

private theorem info_one (h : InfoInv pre d) {f : Str} {k : Kind} (hk : infoKinds.lookup f = some (k, false)) : One d f k := by
  intro x hx
  have := h.fits f x hx
  unfold InfoFits at this
  rw [hk] at this
  exact this

private theorem info_many (h : InfoInv pre d) {f : Str} {k : Kind} (hk : infoKinds.lookup f = some (k, true)) : Many d f k := by
  intro x hx
  have := h.fits f x hx
  unfold InfoFits at this
  rw [hk] at this
  exact this

private theorem info_none (h : InfoInv pre d) (f : Str) : (d.get? f).isNone = decide (f ∉ pre.flatMap givesInfo) := by
  by_cases hh : f ∈ pre.flatMap givesInfo
  · have := (h.has f).2 hh
    rw [decide_eq_false (not_not_intro hh)]
    cases hd : d.get? f with
    | none => rw [hd] at this; cases this
    | some => rfl
  · rw [decide_eq_true hh]
    cases hd : d.get? f with
    | none => rfl
    | some => exact absurd ((h.has f).1 (by rw [hd]; rfl)) hh

private theorem info_needed (h : InfoInv pre d) {f : Str} (hf : f ∈ infoNeeded) : infoBad pre f = (d.get? f).isNone := by
  rw [info_none h]; unfold infoBad; simp [hf]

private theorem info_free {f : Str} (hf : f ∉ infoNeeded) : infoBad pre f = false := by
  unfold infoBad; simp [hf]

theorem info_errs (h : InfoInv pre d) : Errs (mkInfo d) (infoMissing pre) := by
  have hu : d.keys.filter (· ∉ infoArgs) = [] := by
    rw [List.filter_eq_nil_iff]
    intro f hf
    rw [← Dict.get?_isSome] at hf
    obtain ⟨x, hx⟩ := Option.isSome_iff_exists.1 hf
    have := h.fits f x hx
    unfold InfoFits at this
    cases hl : infoKinds.lookup f with
    | none => rw [hl] at this; exact this.elim
    | some y =>
      have tab : ∀ p ∈ infoKinds, p.1 ∈ infoArgs := by decide +kernel
      simpa using tab _ (C68.lookup_mem hl)
  have h0 : Errs (Except.ok CreationInfo.mk : Check _) (([] : List Str).filter (infoBad pre)) := rfl
  have k1 := h0.ap (errs_req (info_one h (k := .str) (f := s%"spdx_version") (by decide +kernel)) (as? := TvItem.str?) (fun _ h => h) (info_needed h (by decide +kernel)))
  have k2 := k1.ap (errs_req (info_one h (k := .str) (f := s%"spdx_id") (by decide +kernel)) (as? := TvItem.str?) (fun _ h => h) (info_needed h (by decide +kernel)))
  have k3 := k2.ap (errs_req (info_one h (k := .str) (f := s%"name") (by decide +kernel)) (as? := TvItem.str?) (fun _ h => h) (info_needed h (by decide +kernel)))
  have k4 := k3.ap (errs_req (info_one h (k := .str) (f := s%"document_namespace") (by decide +kernel)) (as? := TvItem.str?) (fun _ h => h) (info_needed h (by decide +kernel)))
  have k5 := k4.ap (errs_reqList (info_many h (k := .actor) (f := s%"creators") (by decide +kernel)) (as? := TvItem.actor?) (fun _ h => h) (info_needed h (by decide +kernel)))
  have k6 := k5.ap (errs_req (info_one h (k := .date) (f := s%"created") (by decide +kernel)) (as? := TvItem.date?) (fun _ h => h) (info_needed h (by decide +kernel)))
  have k7 := k6.ap (errs_opt (info_one h (k := .str) (f := s%"creator_comment") (by decide +kernel)) (as? := TvItem.str?) (fun _ h => .inr h) (info_free (by decide +kernel)))
  have k8 := k7.ap (errs_dflt (z := s%"CC0-1.0") (info_one h (k := .str) (f := s%"data_license") (by decide +kernel)) (as? := TvItem.str?) (fun _ h => h) (info_free (by decide +kernel)))
  have k9 := k8.ap (errs_list (info_many h (k := .docRef) (f := s%"external_document_refs") (by decide +kernel)) (as? := TvItem.docRef?) (fun _ h => h) (info_free (by decide +kernel)))
  have k10 := k9.ap (errs_opt (info_one h (k := .version) (f := s%"license_list_version") (by decide +kernel)) (as? := TvItem.version?) (fun _ h => .inr h) (info_free (by decide +kernel)))
  have k11 := k10.ap (errs_opt (info_one h (k := .str) (f := s%"document_comment") (by decide +kernel)) (as? := TvItem.str?) (fun _ h => .inr h) (info_free (by decide +kernel)))
  have := only_errs (d := d) (names := infoArgs) (needed := infoNeeded) k11 (by decide +kernel) (by
    intro n hn hd; rw [info_needed h hn, hd]; rfl)
  rw [hu, if_neg (by simp)] at this
  have e : infoNeeded.filter (fun n => (d.get? n).isNone) = infoMissing pre := List.filter_congr fun n _ => info_none h n
  rw [e] at this
  by_cases hm : infoMissing pre = []
  · rw [if_neg (by simp [hm])] at this
    rw [hm]
    have e2 : infoArgs.filter (infoBad pre) = [] := by
      rw [List.filter_eq_nil_iff]
      intro f _ hb
      unfold infoBad at hb
      have hb := of_decide_eq_true hb
      have : f ∈ infoMissing pre := List.mem_filter.2 ⟨hb.1, decide_eq_true hb.2⟩
      rw [hm] at this; cases this
    rw [← e2]; exact this
  · rw [if_pos hm] at this; exact this

end
end Spdx.Told
