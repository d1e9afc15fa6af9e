import Verif.Spec.Converted
import Verif.Lemmas.Dedup
import Verif.Lemmas.ValidSame
/- Writing and reading a document again and again: `Conveys` composes, and what every format can hold stays so. -/
namespace Spdx.Converted
open Spdx Spec ValidSame

/-! ### Lists -/

variable {α β γ : Type}

theorem all2_refl {R : α → α → Prop} (l : List α) (h : ∀ a ∈ l, R a a) : All2 R l l := by
  induction l with
  | nil => exact .nil
  | cons a l ih => exact .cons (h a List.mem_cons_self) (ih fun x hx => h x (List.mem_cons_of_mem _ hx))

theorem re_refl {R : α → α → Prop} (l : List α) (h : ∀ a ∈ l, R a a) : Rearranged2 R l l := ⟨l, all2_refl l h, .refl _⟩

theorem re_of_perm {R : α → α → Prop} (h : ∀ a, R a a) {l m : List α} (hp : m.Perm l) : Rearranged2 R l m := ⟨l, all2_refl l fun a _ => h a, hp⟩

theorem re_mono {R S : α → β → Prop} (h : ∀ a b, R a b → S a b) {l : List α} {m : List β} (hl : Rearranged2 R l m) : Rearranged2 S l m := by
  obtain ⟨l', h1, h2⟩ := hl
  refine ⟨l', ?_, h2⟩
  clear h2
  induction h1 with
  | nil => exact .nil
  | cons hr _ ih => exact .cons (h _ _ hr) ih

theorem all2_along {R : α → β → Prop} {l l' : List α} (hp : l.Perm l') : ∀ {m : List β}, All2 R l m → ∃ m', All2 R l' m' ∧ m.Perm m' := by
  induction hp with
  | nil => intro m h; exact ⟨m, h, .refl _⟩
  | cons a _ ih =>
    intro m h
    cases h with
    | cons hr h =>
      obtain ⟨m', h1, h2⟩ := ih h
      exact ⟨_, .cons hr h1, h2.cons _⟩
  | swap a b l =>
    intro m h
    cases h with
    | cons h1 h => cases h with
      | cons h2 h => exact ⟨_, .cons h2 (.cons h1 h), .swap _ _ _⟩
  | trans _ _ ih1 ih2 =>
    intro m h
    obtain ⟨m1, h1, p1⟩ := ih1 h
    obtain ⟨m2, h2, p2⟩ := ih2 h1
    exact ⟨m2, h2, p1.trans p2⟩

theorem all2_trans {R : α → β → Prop} {S : β → γ → Prop} {T : α → γ → Prop} (h : ∀ a b c, R a b → S b c → T a c) {l : List α} {m : List β}
    (h1 : All2 R l m) : ∀ {n : List γ}, All2 S m n → All2 T l n := by
  induction h1 with
  | nil => intro n h2; cases h2; exact .nil
  | cons hr _ ih => intro n h2; cases h2 with
    | cons hs h2 => exact .cons (h _ _ _ hr hs) (ih h2)

theorem re_trans {R : α → β → Prop} {S : β → γ → Prop} {T : α → γ → Prop} (h : ∀ a b c, R a b → S b c → T a c) {l : List α} {m : List β} {n : List γ}
    (h1 : Rearranged2 R l m) (h2 : Rearranged2 S m n) : Rearranged2 T l n := by
  obtain ⟨l', a1, p1⟩ := h1
  obtain ⟨m', a2, p2⟩ := h2
  obtain ⟨n', a3, p3⟩ := all2_along p1 a2
  exact ⟨n', all2_trans h a1 a3, p2.trans p3⟩

theorem all2_mem_right {R : α → β → Prop} {l : List α} {m : List β} (h : All2 R l m) {b : β} (hb : b ∈ m) : ∃ a ∈ l, R a b := by
  induction h with
  | nil => cases hb
  | cons hr _ ih =>
    rcases List.mem_cons.1 hb with rfl | hb
    · exact ⟨_, List.mem_cons_self, hr⟩
    · obtain ⟨a, ha, h⟩ := ih hb
      exact ⟨a, List.mem_cons_of_mem _ ha, h⟩

theorem re_mem {R : α → β → Prop} {l : List α} {m : List β} (h : Rearranged2 R l m) {b : β} (hb : b ∈ m) : ∃ a ∈ l, R a b :=
  all2_mem_right h.choose_spec.1 (h.choose_spec.2.mem_iff.1 hb)

/-- A condition on the entries goes over. -/
theorem re_all {R : α → β → Prop} {P : α → Prop} {Q : β → Prop} {l : List α} {m : List β} (h : Rearranged2 R l m) (hp : ∀ a ∈ l, P a)
    (hq : ∀ a b, R a b → P a → Q b) : ∀ b ∈ m, Q b := fun b hb =>
  have ⟨a, ha, hr⟩ := re_mem h hb
  hq a b hr (hp a ha)

/-- Pairwise differences go over. -/
theorem re_pairwise {R : α → β → Prop} {D : α → α → Prop} {E : β → β → Prop} (hs : ∀ {x y}, E x y → E y x)
    (h : ∀ a a' b b', R a b → R a' b' → D a a' → E b b') {l : List α} {m : List β} (hl : Rearranged2 R l m) (hd : l.Pairwise D) : m.Pairwise E := by
  obtain ⟨l', h1, h2⟩ := hl
  refine (h2.pairwise_iff hs).2 ?_
  clear h2
  induction h1 with
  | nil => exact .nil
  | cons hr h1 ih =>
    rw [List.pairwise_cons] at hd ⊢
    refine ⟨fun b hb => ?_, ih hd.2⟩
    obtain ⟨a, ha, hr'⟩ := all2_mem_right h1 hb
    exact h _ _ _ _ hr hr' (hd.1 a ha)

/-! ### License expressions -/

theorem all2_of_get {R : α → β → Prop} : ∀ {l : List α} {m : List β}, m.length = l.length → (∀ (i : Nat) x y, l[i]? = some x → m[i]? = some y → R x y) → All2 R l m
  | [], [], _, _ => .nil
  | [], _ :: _, h, _ => by simp at h
  | _ :: _, [], h, _ => by simp at h
  | a :: l, b :: m, h, hr => .cons (hr 0 a b rfl rfl) (all2_of_get (by simpa using h) fun i x y hx hy => hr (i + 1) x y (by simpa using hx) (by simpa using hy))

theorem get_of_all2 {R : α → β → Prop} {l : List α} {m : List β} (h : All2 R l m) :
    m.length = l.length ∧ ∀ (i : Nat) x y, l[i]? = some x → m[i]? = some y → R x y := by
  induction h with
  | nil => exact ⟨rfl, fun i x y hx => by simp at hx⟩
  | cons hr _ ih =>
    refine ⟨by simp [ih.1], fun i x y hx hy => ?_⟩
    cases i with
    | zero => simp at hx hy; subst hx hy; exact hr
    | succ i => exact ih.2 i x y (by simpa using hx) (by simpa using hy)

private theorem args_trans {l l' m n n' : List LicExpr} (hl : l'.length = l.length)
    (ih : ∀ (i : Nat) x y, l[i]? = some x → l'[i]? = some y → ∀ z, SameLic y z → SameLic x z) (hp : m.Perm l') (hn : n'.length = m.length)
    (hs : ∀ (i : Nat) x y, m[i]? = some x → n'[i]? = some y → SameLic x y) (hq : n.Perm n') :
    ∃ n'' : List LicExpr, n''.length = l.length ∧ (∀ (i : Nat) x y, l[i]? = some x → n''[i]? = some y → SameLic x y) ∧ n.Perm n'' := by
  have h1 : All2 (fun x y => ∀ z, SameLic y z → SameLic x z) l l' := all2_of_get hl ih
  obtain ⟨n'', h2, h3⟩ := all2_along hp (all2_of_get hn hs)
  have h4 : All2 SameLic l n'' := all2_trans (fun a b c hab hbc => hab c hbc) h1 h2
  exact ⟨n'', (get_of_all2 h4).1, (get_of_all2 h4).2, hq.trans h3⟩

theorem sameLic_trans {a b c : LicExpr} (h1 : SameLic a b) (h2 : SameLic b c) : SameLic a c := by
  induction h1 generalizing c with
  | sym k => exact h2
  | withExc l x => exact h2
  | and hl _ hp ih =>
    cases h2 with
    | and hn hs hq =>
      obtain ⟨n, h3, h4, h5⟩ := args_trans hl (fun i x y hx hy z hz => ih i x y hx hy hz) hp hn hs hq
      exact .and h3 h4 h5
  | or hl _ hp ih =>
    cases h2 with
    | or hn hs hq =>
      obtain ⟨n, h3, h4, h5⟩ := args_trans hl (fun i x y hx hy z hz => ih i x y hx hy hz) hp hn hs hq
      exact .or h3 h4 h5

private theorem args_symm {l l' m : List LicExpr} (hl : l'.length = l.length)
    (ih : ∀ (i : Nat) x y, l[i]? = some x → l'[i]? = some y → SameLic y x) (hp : m.Perm l') :
    ∃ m' : List LicExpr, m'.length = m.length ∧ (∀ (i : Nat) x y, m[i]? = some x → m'[i]? = some y → SameLic x y) ∧ l.Perm m' := by
  have h : All2 SameLic l' l := all2_of_get hl.symm fun i x y hx hy => ih i y x hy hx
  obtain ⟨m', h1, h2⟩ := all2_along hp.symm h
  exact ⟨m', (get_of_all2 h1).1, (get_of_all2 h1).2, h2⟩

theorem sameLic_symm {a b : LicExpr} (h : SameLic a b) : SameLic b a := by
  induction h with
  | sym k => exact .sym k
  | withExc l x => exact .withExc l x
  | and hl _ hp ih =>
    obtain ⟨m, h1, h2, h3⟩ := args_symm hl ih hp
    exact .and h1 h2 h3
  | or hl _ hp ih =>
    obtain ⟨m, h1, h2, h3⟩ := args_symm hl ih hp
    exact .or h1 h2 h3

mutual
theorem sameLic_refl : (a : LicExpr) → SameLic a a
  | .sym k => .sym k
  | .withExc l x => .withExc l x
  | .and l => .and rfl (sameLic_refls l) (.refl _)
  | .or l => .or rfl (sameLic_refls l) (.refl _)
theorem sameLic_refls : (l : List LicExpr) → ∀ (i : Nat) x y, l[i]? = some x → l[i]? = some y → SameLic x y
  | [] => fun i x y h => by simp at h
  | a :: l => fun i x y hx hy => by
    cases i with
    | zero => simp at hx hy; subst hx hy; exact sameLic_refl _
    | succ i => exact sameLic_refls l i x y (by simpa using hx) (by simpa using hy)
end

theorem sameLicOr_refl : (x : OrSpecial LicExpr) → SameLicOr x x
  | .val e => .val (sameLic_refl e)
  | .noAssertion => .noAssertion
  | .none => .none

theorem sameLicOr_trans (x y z : OrSpecial LicExpr) (h1 : SameLicOr x y) (h2 : SameLicOr y z) : SameLicOr x z := by
  cases h1 with
  | val h1 => cases h2 with | val h2 => exact .val (sameLic_trans h1 h2)
  | noAssertion => exact h2
  | none => exact h2

theorem sameOpt_refl {R : α → α → Prop} (h : ∀ a, R a a) : (x : Option α) → SameOpt R x x
  | none => .none
  | some a => .some (h a)

theorem sameOpt_trans {R : α → α → Prop} (h : ∀ a b c, R a b → R b c → R a c) {x y z : Option α} (h1 : SameOpt R x y) (h2 : SameOpt R y z) :
    SameOpt R x z := by
  cases h1 with
  | none => exact h2
  | some h1 => cases h2 with | some h2 => exact .some (h _ _ _ h1 h2)

/-! ### Elements -/

theorem file_refl (f : File) : Spec.SameFile f f where
  name := rfl
  id := rfl
  checksums := .refl _
  types := .refl _
  concluded := sameOpt_refl sameLicOr_refl _
  info := re_refl _ fun a _ => sameLicOr_refl a
  licenseComment := rfl
  copyright := rfl
  comment := rfl
  notice := rfl
  contributors := .refl _
  attribution := .refl _

theorem file_trans (f g h : File) (h1 : Spec.SameFile f g) (h2 : Spec.SameFile g h) : Spec.SameFile f h where
  name := h2.name.trans h1.name
  id := h2.id.trans h1.id
  checksums := h2.checksums.trans h1.checksums
  types := h2.types.trans h1.types
  concluded := sameOpt_trans sameLicOr_trans h1.concluded h2.concluded
  info := re_trans sameLicOr_trans h1.info h2.info
  licenseComment := h2.licenseComment.trans h1.licenseComment
  copyright := h2.copyright.trans h1.copyright
  comment := h2.comment.trans h1.comment
  notice := h2.notice.trans h1.notice
  contributors := h2.contributors.trans h1.contributors
  attribution := h2.attribution.trans h1.attribution

private theorem code_trans (a b c : PackageVerificationCode) (h1 : SameCode a b) (h2 : SameCode b c) : SameCode a c :=
  ⟨h2.value.trans h1.value, h2.excluded.trans h1.excluded⟩

theorem package_refl (p : Package) : SamePackage p p where
  id := rfl
  name := rfl
  download := rfl
  version := rfl
  fileName := rfl
  supplier := rfl
  originator := rfl
  analyzed := rfl
  code := sameOpt_refl (fun _ => ⟨rfl, .refl _⟩) _
  checksums := .refl _
  homepage := rfl
  sourceInfo := rfl
  concluded := sameOpt_refl sameLicOr_refl _
  info := re_refl _ fun a _ => sameLicOr_refl a
  declared := sameOpt_refl sameLicOr_refl _
  licenseComment := rfl
  copyright := rfl
  summary := rfl
  description := rfl
  comment := rfl
  refs := .refl _
  attribution := .refl _
  purpose := rfl
  release := rfl
  built := rfl
  validUntil := rfl

theorem package_trans (p q r : Package) (h1 : SamePackage p q) (h2 : SamePackage q r) : SamePackage p r where
  id := h2.id.trans h1.id
  name := h2.name.trans h1.name
  download := h2.download.trans h1.download
  version := h2.version.trans h1.version
  fileName := h2.fileName.trans h1.fileName
  supplier := h2.supplier.trans h1.supplier
  originator := h2.originator.trans h1.originator
  analyzed := h2.analyzed.trans h1.analyzed
  code := sameOpt_trans code_trans h1.code h2.code
  checksums := h2.checksums.trans h1.checksums
  homepage := h2.homepage.trans h1.homepage
  sourceInfo := h2.sourceInfo.trans h1.sourceInfo
  concluded := sameOpt_trans sameLicOr_trans h1.concluded h2.concluded
  info := re_trans sameLicOr_trans h1.info h2.info
  declared := sameOpt_trans sameLicOr_trans h1.declared h2.declared
  licenseComment := h2.licenseComment.trans h1.licenseComment
  copyright := h2.copyright.trans h1.copyright
  summary := h2.summary.trans h1.summary
  description := h2.description.trans h1.description
  comment := h2.comment.trans h1.comment
  refs := h2.refs.trans h1.refs
  attribution := h2.attribution.trans h1.attribution
  purpose := h2.purpose.trans h1.purpose
  release := h2.release.trans h1.release
  built := h2.built.trans h1.built
  validUntil := h2.validUntil.trans h1.validUntil

theorem snippet_refl (s : Snippet) : SameSnippet s s where
  id := rfl
  file := rfl
  bytes := rfl
  lines := rfl
  concluded := sameOpt_refl sameLicOr_refl _
  info := re_refl _ fun a _ => sameLicOr_refl a
  licenseComment := rfl
  copyright := rfl
  comment := rfl
  name := rfl
  attribution := .refl _

theorem snippet_trans (s t u : Snippet) (h1 : SameSnippet s t) (h2 : SameSnippet t u) : SameSnippet s u where
  id := h2.id.trans h1.id
  file := h2.file.trans h1.file
  bytes := h2.bytes.trans h1.bytes
  lines := h2.lines.trans h1.lines
  concluded := sameOpt_trans sameLicOr_trans h1.concluded h2.concluded
  info := re_trans sameLicOr_trans h1.info h2.info
  licenseComment := h2.licenseComment.trans h1.licenseComment
  copyright := h2.copyright.trans h1.copyright
  comment := h2.comment.trans h1.comment
  name := h2.name.trans h1.name
  attribution := h2.attribution.trans h1.attribution

theorem license_refl (e : ExtractedLicensingInfo) : SameLicense e e := ⟨.refl _, rfl⟩

theorem license_trans (a b c : ExtractedLicensingInfo) (h1 : SameLicense a b) (h2 : SameLicense b c) : SameLicense a c := by
  refine ⟨h2.1.trans h1.1, ?_⟩
  rw [h2.2]
  conv => lhs; rw [h1.2]

theorem info_refl (c : CreationInfo) : SameInfo c c := ⟨.refl _, .refl _, rfl⟩

theorem info_trans {a b c : CreationInfo} (h1 : SameInfo a b) (h2 : SameInfo b c) : SameInfo a c := by
  refine ⟨h2.1.trans h1.1, h2.2.1.trans h1.2.1, ?_⟩
  rw [h2.2.2]
  conv => lhs; rw [h1.2.2]

/-! ### Relationships -/

/-- Which package and file a relationship links depends on the identifiers of the document only. -/
theorem packagedIds_congr {d e : Document} (hp : ∀ i, i ∈ e.packages.map (·.spdxId) ↔ i ∈ d.packages.map (·.spdxId))
    (hf : ∀ i, i ∈ e.files.map (·.spdxId) ↔ i ∈ d.files.map (·.spdxId)) : C27.packagedIds e = C27.packagedIds d := by
  funext r
  apply Option.ext
  rintro ⟨p, f⟩
  rw [← Option.mem_def, ← Option.mem_def]
  show C27.packagedIds e r = some (p, f) ↔ C27.packagedIds d r = some (p, f)
  rw [C27.packagedIds_iff, C27.packagedIds_iff]
  unfold Packaged
  rw [hp, hf]

variable {k m : Nat} {d e g : Document}

theorem same_packaged (hp : Rearranged2 SamePackage d.packages e.packages) (hf : Rearranged2 Spec.SameFile d.files e.files) :
    C27.packagedIds e = C27.packagedIds d :=
  packagedIds_congr (fun _ => (re_map (f := Package.spdxId) (g := Package.spdxId) (fun _ _ h => h.id) hp).mem_iff)
    (fun _ => (re_map (f := File.spdxId) (g := File.spdxId) (fun _ _ h => h.id) hf).mem_iff)

theorem conveys_packaged (h : Conveys k d e) : C27.packagedIds e = C27.packagedIds d := same_packaged h.packages h.files

/-- Counted among the relationships written as such. -/
private theorem count_outright (d : Document) (p f : Str) : remarked d p f =
    (d.relationships.filter (outright d)).countP fun r => decide (C27.packagedIds d r = some (p, f) ∧ ¬ NoComment r) := by
  rw [List.countP_filter]
  refine List.countP_congr fun r _ => ?_
  simp only [outright, Bool.and_eq_true, decide_eq_true_eq]
  exact ⟨fun h => ⟨h, .inr h.2⟩, fun h => h.1⟩

theorem conveys_remarked (h : Conveys k d e) (p f : Str) : remarked e p f = remarked d p f := by
  rw [count_outright, count_outright, conveys_packaged h]
  exact h.outright.countP_eq _

theorem conveys_refl (d : Document) : Conveys 0 d d where
  info := info_refl _
  packages := re_refl _ fun a _ => package_refl a
  files := re_refl _ fun a _ => file_refl a
  snippets := re_refl _ fun a _ => snippet_refl a
  annotations := .refl _
  licenses := re_refl _ fun a _ => license_refl a
  outright := .refl _
  others := fun r hr => .inl hr
  placed := fun p f => by omega

theorem conveys_trans (h1 : Conveys k d e) (h2 : Conveys m e g) : Conveys (k + m) d g where
  info := info_trans h1.info h2.info
  packages := re_trans package_trans h1.packages h2.packages
  files := re_trans file_trans h1.files h2.files
  snippets := re_trans snippet_trans h1.snippets h2.snippets
  annotations := h2.annotations.trans h1.annotations
  licenses := re_trans license_trans h1.licenses h2.licenses
  outright := h2.outright.trans h1.outright
  others := by
    intro r hr
    rcases h2.others r hr with hr | ⟨p, f, rfl, r', hr', hk⟩
    · exact h1.others r hr
    · rw [conveys_packaged h1] at hk
      rcases h1.others r' hr' with hr' | ⟨p', f', rfl, r'', hr'', hk'⟩
      · exact .inr ⟨p, f, rfl, r', hr', hk⟩
      · have : (p, f) = (p', f') := by
          have h := (C27.packagedIds_iff d _ p f).1 hk
          rcases h with ⟨_, _, ⟨_, h1, h2⟩ | ⟨h, _⟩⟩
          · have h2' : OrSpecial.val f' = OrSpecial.val f := h2
            cases h2'
            have h1' : p' = p := h1
            rw [h1']
          · cases h
        cases this
        exact .inr ⟨_, _, rfl, r'', hr'', hk'⟩
  placed := by
    intro p f
    rw [h2.placed, h1.placed, conveys_remarked h1, Nat.add_mul]
    omega

end Spdx.Converted
