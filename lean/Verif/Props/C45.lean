import Verif.Lemmas.Messages
import Verif.Spec.Example
/-
C45 – External reference rules form the documented table.
-/
namespace Spdx.C45
open Spdx Spec Re

/-! ### Specification: readable descriptions of the locator patterns -/

/-- `a` `sep` `b`, both nonempty and without `sep`. -/
def TwoParts (sep : Char) (l : Str) : Prop := ∃ a b, l = a ++ sep :: b ∧ a ≠ [] ∧ b ≠ [] ∧ sep ∉ a ∧ sep ∉ b
/-- `a:b` or `a:b:c` -/
def Maven (l : Str) : Prop :=
  TwoParts ':' l ∨ ∃ a b c, l = a ++ ':' :: b ++ ':' :: c ∧ a ≠ [] ∧ b ≠ [] ∧ c ≠ [] ∧ ':' ∉ a ∧ ':' ∉ b ∧ ':' ∉ c
def HexAny (s : Str) : Prop := ∀ c ∈ s, c ∈ s%"0123456789abcdefABCDEF"
/-- `swh:1:<kind>:<40 hex digits>` -/
def Swh (l : Str) : Prop :=
  ∃ kind hex, l = s%"swh:1:" ++ kind ++ ':' :: hex ∧ kind ∈ [s%"snp", s%"rel", s%"rev", s%"dir", s%"cnt"] ∧
    hex.length = 40 ∧ HexAny hex
/-- `gitoid:<kind>:sha1:<40 hex digits>` or `gitoid:<kind>:sha256:<64 hex digits>` -/
def Gitoid (l : Str) : Prop :=
  ∃ kind alg hex, l = s%"gitoid:" ++ kind ++ ':' :: alg ++ ':' :: hex ∧ kind ∈ [s%"blob", s%"tree", s%"commit", s%"tag"] ∧
    ((alg = s%"sha1" ∧ hex.length = 40) ∨ (alg = s%"sha256" ∧ hex.length = 64)) ∧ HexAny hex
/-- `pkg:` followed by a nonempty text, a slash and a nonempty text, without newlines. -/
def Purl (l : Str) : Prop := ∃ a b, l = s%"pkg:" ++ a ++ '/' :: b ∧ a ≠ [] ∧ b ≠ [] ∧ '\n' ∉ a ∧ '\n' ∉ b

/-! ### Theorems -/

/-- The exact rule, for every category, type, locator and version. -/
theorem accepts_iff (X : Ext) (r : ExternalPackageRef) (parent ver : Str) :
    validateExternalPackageRef X r parent ver = [] ↔
      if r.category = .OTHER then ' ' ∉ r.locator
      else ¬ (ver = s%"SPDX-2.2" ∧ RefOnly23 r.referenceType) ∧ RefTypeRule r.category r.referenceType ∧
        LocatorRule X r.referenceType r.locator :=
  validateExternalPackageRef_nil X r parent ver

/-- At most one message per reference. -/
theorem one_message (X : Ext) (r : ExternalPackageRef) (parent ver : Str) :
    (validateExternalPackageRef X r parent ver).length ≤ 1 := by
  unfold validateExternalPackageRef msgIf
  repeat' split
  all_goals simp

/-- Every type of a category other than OTHER is a URL type, `swid`, or has a pattern: the lookup of the pattern never fails. -/
theorem regex_defined (cat : ExternalPackageRefCategory) (t : Str) (h : t ∈ categoryToRefTypes cat) :
    t ∈ [s%"advisory", s%"fix", s%"url", s%"swid"] ∨ ∃ r, typeToRegex.lookup t = some r := by
  have : ∀ cat, ∀ t ∈ categoryToRefTypes cat,
      t ∈ [s%"advisory", s%"fix", s%"url", s%"swid"] ∨ (typeToRegex.lookup t).isSome = true := by
    intro cat; cases cat <;> decide
  rcases this cat t h with h | h
  · exact .inl h
  · exact .inr (Option.isSome_iff_exists.1 h)

/-- No reference type belongs to two categories. -/
theorem categories_disjoint (a b : ExternalPackageRefCategory) (t : Str) (ha : t ∈ categoryToRefTypes a)
    (hb : t ∈ categoryToRefTypes b) : a = b := by
  have : ∀ a b, a ≠ b → ∀ t ∈ categoryToRefTypes a, t ∉ categoryToRefTypes b := by
    intro a b; cases a <;> cases b <;> decide
  by_cases h : a = b
  · exact h
  · exact absurd hb (this a b h t ha)

private theorem notChr_iff (c : Char) (u : Str) : Matches (notChr c) u ↔ u ≠ [] ∧ c ∉ u := by
  unfold notChr
  rw [plus_set_iff]
  refine and_congr Iff.rfl ?_
  simp only [bne_iff_ne, ne_eq]
  constructor
  · intro h hm; exact h c hm rfl
  · intro h d hd e; exact h (e ▸ hd)

private theorem seqs_iff (r : Re) (rs : List Re) (hrs : rs ≠ []) (u : Str) :
    Matches (seqs (r :: rs)) u ↔ ∃ s t, u = s ++ t ∧ Matches r s ∧ Matches (seqs rs) t := by
  match rs, hrs with
  | q :: qs, h => rw [seqs, seq_iff]; exact h

private theorem twoParts_iff (sep : Char) (u : Str) :
    Matches (seqs [notChr sep, chr sep, notChr sep]) u ↔ TwoParts sep u := by
  rw [seqs_iff _ _ (by simp)]
  unfold TwoParts
  constructor
  · rintro ⟨s, t, rfl, h1, h2⟩
    rw [seqs_iff _ _ (by simp)] at h2
    obtain ⟨s', t', rfl, h2, h3⟩ := h2
    rw [chr_iff] at h2
    subst h2
    rw [notChr_iff] at h1
    have h3 := (notChr_iff _ _).1 h3
    exact ⟨s, t', rfl, h1.1, h3.1, h1.2, h3.2⟩
  · rintro ⟨a, b, rfl, h1, h2, h3, h4⟩
    refine ⟨a, sep :: b, rfl, (notChr_iff _ _).2 ⟨h1, h3⟩, ?_⟩
    rw [seqs_iff _ _ (by simp)]
    exact ⟨[sep], b, rfl, (chr_iff _ _).2 rfl, (notChr_iff _ _).2 ⟨h2, h4⟩⟩

theorem npm_iff (l : Str) : Matches npmRe l ↔ TwoParts '@' l := twoParts_iff '@' l
theorem nuget_iff (l : Str) : Matches nugetRe l ↔ TwoParts '/' l := twoParts_iff '/' l
theorem bower_iff (l : Str) : Matches bowerRe l ↔ TwoParts '#' l := twoParts_iff '#' l

theorem maven_iff (l : Str) : Matches mavenRe l ↔ Maven l := by
  unfold mavenRe Maven TwoParts
  simp only [seqs, seq_iff, notChr_iff, chr_iff, opt_iff]
  constructor
  · rintro ⟨a, _, rfl, ⟨h1, h1'⟩, _, _, rfl, rfl, b, _, rfl, ⟨h2, h2'⟩, rfl | ⟨_, c, rfl, rfl, h3, h3'⟩⟩
    · exact .inl ⟨a, b, by simp, h1, h2, h1', h2'⟩
    · exact .inr ⟨a, b, c, by simp, h1, h2, h3, h1', h2', h3'⟩
  · rintro (⟨a, b, rfl, h1, h2, h1', h2'⟩ | ⟨a, b, c, rfl, h1, h2, h3, h1', h2', h3'⟩)
    · exact ⟨a, _, rfl, ⟨h1, h1'⟩, [':'], b, rfl, rfl, b, [], by simp, ⟨h2, h2'⟩, .inl rfl⟩
    · exact ⟨a, ':' :: b ++ ':' :: c, by simp, ⟨h1, h1'⟩, [':'], b ++ ':' :: c, by simp, rfl, b, ':' :: c, rfl, ⟨h2, h2'⟩,
        .inr ⟨[':'], c, rfl, rfl, h3, h3'⟩⟩

private theorem isHexAny_iff (c : Char) : isHexAny c = true ↔ c ∈ s%"0123456789abcdefABCDEF" := by
  by_cases hc : c.toNat < 128
  · exact of_decide_eq_true (char_below (P := fun c => decide (isHexAny c = true ↔ c ∈ s%"0123456789abcdefABCDEF")) 128
      (by decide +kernel) c hc)
  · constructor
    · intro h
      exfalso
      unfold isHexAny isDigit09 at h
      simp only [Bool.or_eq_true, Bool.and_eq_true, decide_eq_true_eq] at h
      have e1 : 'f'.toNat = 102 := rfl
      have e2 : 'F'.toNat = 70 := rfl
      have e3 : '9'.toNat = 57 := rfl
      omega
    · intro h
      exfalso
      have : ∀ c ∈ s%"0123456789abcdefABCDEF", c.toNat < 128 := by decide
      exact hc (this c h)

private theorem hex_iff (n : Nat) (u : Str) : Matches (rep (.set isHexAny) n) u ↔ u.length = n ∧ HexAny u := by
  rw [rep_set_iff]
  refine and_congr Iff.rfl ?_
  unfold HexAny
  simp only [isHexAny_iff]

theorem swh_iff (l : Str) : Matches swhRe l ↔ Swh l := by
  unfold swhRe Swh
  simp only [seqs, alts, seq_iff, alt_iff, lit_iff, chr_iff, hex_iff]
  constructor
  · rintro ⟨_, _, rfl, rfl, kind, _, rfl, hk, _, hex, rfl, rfl, hl, hh⟩
    exact ⟨kind, hex, by simp, by simpa using hk, hl, hh⟩
  · rintro ⟨kind, hex, rfl, hk, hl, hh⟩
    exact ⟨_, kind ++ ':' :: hex, by simp, rfl, kind, ':' :: hex, rfl, by simpa using hk, [':'], hex, rfl, rfl, hl, hh⟩

theorem gitoid_iff (l : Str) : Matches gitoidRe l ↔ Gitoid l := by
  unfold gitoidRe Gitoid
  simp only [seqs, alts, seq_iff, alt_iff, lit_iff, chr_iff, hex_iff]
  constructor
  · rintro ⟨_, _, rfl, rfl, kind, _, rfl, hk, _, _, rfl, rfl, ⟨_, hex, rfl, rfl, hl, hh⟩ | ⟨_, hex, rfl, rfl, hl, hh⟩⟩
    · exact ⟨kind, s%"sha1", hex, by simp, by simpa using hk, .inl ⟨rfl, hl⟩, hh⟩
    · exact ⟨kind, s%"sha256", hex, by simp, by simpa using hk, .inr ⟨rfl, hl⟩, hh⟩
  · rintro ⟨kind, alg, hex, rfl, hk, ⟨rfl, hl⟩ | ⟨rfl, hl⟩, hh⟩
    · exact ⟨_, kind ++ ':' :: s%"sha1:" ++ hex, by simp, rfl, kind, ':' :: s%"sha1:" ++ hex, by simp, by simpa using hk, [':'],
        s%"sha1:" ++ hex, rfl, rfl, .inl ⟨s%"sha1:", hex, rfl, rfl, hl, hh⟩⟩
    · exact ⟨_, kind ++ ':' :: s%"sha256:" ++ hex, by simp, rfl, kind, ':' :: s%"sha256:" ++ hex, by simp, by simpa using hk, [':'],
        s%"sha256:" ++ hex, rfl, rfl, .inr ⟨s%"sha256:", hex, rfl, rfl, hl, hh⟩⟩

private theorem dot_iff (u : Str) : Matches (plus dot) u ↔ u ≠ [] ∧ '\n' ∉ u := notChr_iff '\n' u

/-- The optional groups of the purl pattern are already covered by its mandatory parts. -/
theorem purl_iff (l : Str) : Matches purlRe l ↔ Purl l := by
  unfold purlRe Purl
  simp only [seqs, seq_iff, lit_iff, chr_iff, opt_iff, dot_iff]
  constructor
  · rintro ⟨_, _, rfl, rfl, a, _, rfl, ⟨ha, ha'⟩, o, _, rfl, ho, _, _, rfl, rfl, b, _, rfl, ⟨hb, hb'⟩, p, _, rfl, hp, q, r, rfl,
      hq, hr⟩
    have no : '\n' ∉ o := by
      rcases ho with rfl | ⟨_, t, rfl, rfl, -, h⟩
      · simp
      · simp [h]
    have np : '\n' ∉ p := by
      rcases hp with rfl | ⟨_, t, rfl, rfl, -, h⟩
      · simp
      · simp [h]
    have nq : '\n' ∉ q := by
      rcases hq with rfl | ⟨_, t, rfl, rfl, -, h⟩
      · simp
      · simp [h]
    have nr : '\n' ∉ r := by
      rcases hr with rfl | ⟨_, t, rfl, rfl, -, h⟩
      · simp
      · simp [h]
    refine ⟨a ++ o, b ++ p ++ q ++ r, by simp, by simp [ha], by simp [hb], by simp [ha', no], by simp [hb', np, nq, nr]⟩
  · rintro ⟨a, b, rfl, ha, hb, ha', hb'⟩
    exact ⟨_, a ++ '/' :: b, by simp, rfl, a, '/' :: b, rfl, ⟨ha, ha'⟩, [], _, rfl, .inl rfl, ['/'], b, rfl, rfl, b, [], by simp,
      ⟨hb, hb'⟩, [], [], rfl, .inl rfl, [], [], rfl, .inl rfl, .inl rfl⟩

/-- The table with the patterns spelled out, for the types whose pattern has a simple description. -/
theorem table (X : Ext) (r : ExternalPackageRef) (parent : Str) (P : Str → Prop)
    (h : (r.category, r.referenceType, P) ∈
      [(.PACKAGE_MANAGER, s%"maven-central", Maven), (.PACKAGE_MANAGER, s%"npm", TwoParts '@'),
       (.PACKAGE_MANAGER, s%"nuget", TwoParts '/'), (.PACKAGE_MANAGER, s%"bower", TwoParts '#'),
       (.PACKAGE_MANAGER, s%"purl", Purl), (.PERSISTENT_ID, s%"swh", Swh), (.PERSISTENT_ID, s%"gitoid", Gitoid)]) (ver : Str) :
    validateExternalPackageRef X r parent ver = [] ↔ OrNewline P r.locator := by
  rw [accepts_iff]
  have key : ∀ (t : Str) (q : Re), (t, q) ∈ typeToRegex → (∀ l, Matches q l ↔ P l) → t ∉ [s%"advisory", s%"fix", s%"url", s%"swid"] →
      (LocatorRule X t r.locator ↔ OrNewline P r.locator) := by
    intro t q hq hP ht
    simp only [List.mem_cons, List.not_mem_nil, or_false, not_or] at ht
    unfold LocatorRule OrNewline
    have nd : (typeToRegex.map (·.1)).Nodup := by decide
    constructor
    · rintro (⟨h, -⟩ | ⟨h, -⟩ | ⟨q', hq', h⟩)
      · exfalso; grind
      · exfalso; grind
      · have : q' = q := by
          have e1 := (lookup_some_iff_of_nodup typeToRegex nd t q).2 hq
          have e2 := (lookup_some_iff_of_nodup typeToRegex nd t q').2 hq'
          rw [e1] at e2; exact (Option.some.inj e2).symm
        subst this
        simpa only [hP] using h
    · intro h
      exact .inr (.inr ⟨q, hq, by simpa only [hP] using h⟩)
  simp only [List.mem_cons, Prod.mk.injEq, List.not_mem_nil, or_false] at h
  rcases h with ⟨hc, ht, rfl⟩ | ⟨hc, ht, rfl⟩ | ⟨hc, ht, rfl⟩ | ⟨hc, ht, rfl⟩ | ⟨hc, ht, rfl⟩ | ⟨hc, ht, rfl⟩ | ⟨hc, ht, rfl⟩ <;>
    rw [hc, if_neg (by decide), ht]
  · rw [key _ mavenRe (by simp [typeToRegex]) maven_iff (by decide)]; simp [RefOnly23, RefTypeRule]
  · rw [key _ npmRe (by simp [typeToRegex]) npm_iff (by decide)]; simp [RefOnly23, RefTypeRule]
  · rw [key _ nugetRe (by simp [typeToRegex]) nuget_iff (by decide)]; simp [RefOnly23, RefTypeRule]
  · rw [key _ bowerRe (by simp [typeToRegex]) bower_iff (by decide)]; simp [RefOnly23, RefTypeRule]
  · rw [key _ purlRe (by simp [typeToRegex]) purl_iff (by decide)]; simp [RefOnly23, RefTypeRule]
  · rw [key _ swhRe (by simp [typeToRegex]) swh_iff (by decide)]; simp [RefOnly23, RefTypeRule]
  · rw [key _ gitoidRe (by simp [typeToRegex]) gitoid_iff (by decide)]; simp [RefOnly23, RefTypeRule]

/-! Non-vacuity -/
example : validateExternalPackageRef Example.ext
    { category := .SECURITY, referenceType := s%"cpe23Type", locator := s%"cpe:2.3:o:canonical:ubuntu_linux:10.04:-:lts:*:*:*:*:*" }
    s%"SPDXRef-P" s%"SPDX-2.3" = [] := by decide +kernel
example : validateExternalPackageRef Example.ext
    { category := .SECURITY, referenceType := s%"url", locator := s%"https://example.com/a?b" } s%"SPDXRef-P" s%"SPDX-2.3" = [] := by
  decide +kernel
example : validateExternalPackageRef Example.ext
    { category := .SECURITY, referenceType := s%"npm", locator := s%"a@1" } s%"SPDXRef-P" s%"SPDX-2.3" ≠ [] := by decide +kernel
example : Swh s%"swh:1:cnt:94a9ed024d3859793618152ea559a168bbcbb5e2" := by
  refine ⟨s%"cnt", s%"94a9ed024d3859793618152ea559a168bbcbb5e2", rfl, by decide, rfl, by unfold HexAny; decide⟩

end Spdx.C45
