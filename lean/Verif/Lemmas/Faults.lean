import Verif.Lemmas.Messages
import Verif.Spec.Faults
/-
The validators report exactly the faults (C75): one lemma per validator.
-/
namespace Spdx
open Spec

private theorem in_msgIf {c : Prop} [Decidable c] {k m : Msg} {x y : Ctx} : (⟨m, y⟩ : VMsg) ∈ msgIf c k x ↔ c ∧ m = k ∧ y = x := by
  unfold msgIf; split <;> simp_all

private theorem in_map {α : Type} {l : List α} {f : α → Msg} {m : Msg} {x y : Ctx} :
    (⟨m, y⟩ : VMsg) ∈ l.map (fun a => ⟨f a, x⟩) ↔ (∃ a ∈ l, f a = m) ∧ y = x := by
  simp only [List.mem_map, VMsg.mk.injEq]
  constructor
  · rintro ⟨a, h, rfl, rfl⟩; exact ⟨⟨a, h, rfl⟩, rfl⟩
  · rintro ⟨⟨a, h, rfl⟩, rfl⟩; exact ⟨a, h, rfl, rfl⟩

private theorem in_ite {α : Type} {c : Prop} [Decidable c] {x y : α} : x ∈ (if c then [y] else []) ↔ c ∧ x = y := by
  split <;> simp_all

private theorem in_ite2 {α : Type} {c : Prop} [Decidable c] {x : α} {l : List α} : x ∈ (if c then l else []) ↔ c ∧ x ∈ l := by
  split <;> simp_all

/-- How many colons there are, by how the text is cut at them. -/
private theorem split_cases (t : Str) :
    (splitOn ':' t = [t] ∧ ':' ∉ t) ∨ (∃ ref loc, splitOn ':' t = [ref, loc] ∧ OneColon t ref loc) ∨
    (∃ a b c r, splitOn ':' t = a :: b :: c :: r ∧ 2 ≤ t.count ':') := by
  have h := splitOn_spec ':' t
  cases h1 : splitOn ':' t with
  | nil => exact absurd h1 (splitOn_ne_nil _ _)
  | cons a l =>
    cases l with
    | nil => obtain ⟨rfl, hn⟩ := (splitOn_one _ _ _).1 h1; exact .inl ⟨rfl, hn⟩
    | cons b l =>
      cases l with
      | nil => exact .inr (.inl ⟨a, b, rfl, (splitOn_two _ _ _ _).1 h1⟩)
      | cons c r =>
        refine .inr (.inr ⟨a, b, c, r, rfl, ?_⟩)
        rw [← h.2, h1]
        simp only [joinWith, List.append_assoc, List.count_append, List.cons_append, List.nil_append, List.count_cons_self]
        omega

private theorem count_oneColon {t ref loc : Str} (h : OneColon t ref loc) : t.count ':' = 1 := by
  obtain ⟨rfl, h1, h2⟩ := h
  simp [List.count_append, List.count_eq_zero.2 h1, List.count_eq_zero.2 h2]

private theorem oneColon_unique {t ref loc ref' loc' : Str} (h : OneColon t ref loc) (h' : OneColon t ref' loc') :
    ref' = ref ∧ loc' = loc := by
  have h1 := (splitOn_two ':' _ _ _).2 h
  have h2 := (splitOn_two ':' _ _ _).2 h'
  rw [h1] at h2; simp only [List.cons.injEq, and_true] at h2
  exact ⟨h2.1.symm, h2.2.symm⟩

/-- All that can be said about an identifier. -/
theorem in_validateSpdxId {d : Document} {id : Str} {cd cf : Bool} {m : IdMsg} : m ∈ validateSpdxId id d cd cf ↔
    IdFault d id m ∨ (cd = true ∧ ':' ∉ id ∧ ¬ InDocument d id ∧ m = .notInDocument id) ∨
      (cf = true ∧ ':' ∉ id ∧ ¬ InFiles d id ∧ m = .notInFiles id) := by
  unfold validateSpdxId
  rcases split_cases id with ⟨h, hn⟩ | ⟨ref, loc, h, ho⟩ | ⟨a, b, c, r, h, hc⟩
  · rw [h]
    have h0 : id.count ':' = 0 := List.count_eq_zero.2 hn
    have e1 : ∀ (b : Bool) (P : Prop) [Decidable P] (x : IdMsg),
        m ∈ (if b = true then if P then [x] else [] else []) ↔ b = true ∧ P ∧ m = x := by
      intro b P _ x; cases b <;> simp
    simp only [List.mem_append, in_ite, e1, Bool.not_eq_true', Bool.eq_false_iff, ne_eq, internalId_iff, presentInDocument_iff,
      presentInFiles_iff]
    constructor
    · rintro ((⟨h1, rfl⟩ | ⟨h1, h2, rfl⟩) | ⟨h1, h2, rfl⟩)
      · exact .inl (.format hn h1)
      · exact .inr (.inl ⟨h1, hn, h2, rfl⟩)
      · exact .inr (.inr ⟨h1, hn, h2, rfl⟩)
    · rintro (h1 | ⟨h1, -, h2, rfl⟩ | ⟨h1, -, h2, rfl⟩)
      · cases h1 with
        | colons h => omega
        | document ho _ => have := count_oneColon ho; omega
        | element ho _ => have := count_oneColon ho; omega
        | undeclared ho _ => have := count_oneColon ho; omega
        | format _ h => exact .inl (.inl ⟨h, rfl⟩)
      · exact .inl (.inr ⟨h1, h2, rfl⟩)
      · exact .inr ⟨h1, h2, rfl⟩
  · rw [h]
    have h1 := count_oneColon ho
    have hin : ':' ∈ id := List.count_pos_iff.1 (by omega)
    simp only [List.mem_append, in_ite, Bool.not_eq_true', Bool.eq_false_iff, ne_eq, internalId_iff, docRef_iff, declared_iff, hin,
      not_true_eq_false, false_and, and_false, or_false]
    constructor
    · rintro ((⟨h1, rfl⟩ | ⟨h1, rfl⟩) | ⟨h1, rfl⟩)
      · exact .document ho h1
      · exact .element ho h1
      · exact .undeclared ho h1
    · intro h
      cases h with
      | colons h => omega
      | document ho' g => obtain ⟨rfl, rfl⟩ := oneColon_unique ho ho'; exact .inl (.inl ⟨g, rfl⟩)
      | element ho' g => obtain ⟨rfl, rfl⟩ := oneColon_unique ho ho'; exact .inl (.inr ⟨g, rfl⟩)
      | undeclared ho' g => obtain ⟨rfl, rfl⟩ := oneColon_unique ho ho'; exact .inr ⟨g, rfl⟩
      | format g => exact absurd hin g
  · rw [h]
    have hin : ':' ∈ id := List.count_pos_iff.1 (by omega)
    simp only [List.mem_singleton, hin, not_true_eq_false, false_and, and_false, or_false]
    constructor
    · rintro rfl; exact .colons hc
    · intro h
      cases h with
      | colons h => rfl
      | document ho _ => have := count_oneColon ho; omega
      | element ho _ => have := count_oneColon ho; omega
      | undeclared ho _ => have := count_oneColon ho; omega
      | format g => exact absurd hin g

theorem in_ownId {d : Document} {id : Str} {m : IdMsg} : m ∈ validateSpdxId id d false false ↔ IdFault d id m := by
  simp [in_validateSpdxId]

theorem in_refId {d : Document} {id : Str} {m : IdMsg} : m ∈ validateSpdxId id d true false ↔ RefFault d id m := by
  rw [in_validateSpdxId]
  constructor
  · rintro (h | ⟨-, h1, h2, rfl⟩ | ⟨h, -⟩)
    · exact .itself h
    · exact .unknown h1 h2
    · cases h
  · rintro (h | ⟨h1, h2⟩)
    · exact .inl h
    · exact .inr (.inl ⟨rfl, h1, h2, rfl⟩)

theorem in_fileId {d : Document} {id : Str} {m : IdMsg} : m ∈ validateSpdxId id d false true ↔ FileRefFault d id m := by
  rw [in_validateSpdxId]
  constructor
  · rintro (h | ⟨h, -⟩ | ⟨-, h1, h2, rfl⟩)
    · exact .itself h
    · cases h
    · exact .unknown h1 h2
  · rintro (h | ⟨h1, h2⟩)
    · exact .inl h
    · exact .inr (.inr ⟨rfl, h1, h2, rfl⟩)

theorem in_checksum {c : Checksum} {pid ver : Str} {m : Msg} {x : Ctx} : (⟨m, x⟩ : VMsg) ∈ validateChecksum c pid ver ↔
    ChecksumFault (ver = v22) c m ∧ x = inElement .CHECKSUM pid := by
  unfold validateChecksum
  simp only []
  have hv : ∀ s, dollar (hexBody (algorithmLength c.algorithm)) s = true ↔
      OrNewline (fun v => LowerHex v ∧ HexDigits c.algorithm v.length) s := dollar_orNewline (hexBody_iff c.algorithm)
  split
  · rename_i h; rw [only23_iff] at h
    simp only [List.mem_singleton, VMsg.mk.injEq]
    constructor
    · rintro ⟨rfl, rfl⟩; exact ⟨.version h.1 h.2, rfl⟩
    · rintro ⟨hf, rfl⟩
      cases hf with
      | version => exact ⟨rfl, rfl⟩
      | value g => exact absurd h g
  · rename_i h; rw [only23_iff] at h
    rw [in_msgIf, hv]
    constructor
    · rintro ⟨h1, rfl, rfl⟩; exact ⟨.value h h1, rfl⟩
    · rintro ⟨hf, rfl⟩
      cases hf with
      | version h1 h2 => exact absurd ⟨h1, h2⟩ h
      | value _ g => exact ⟨g, rfl, rfl⟩

theorem in_uri {X : Ext} {u : Str} {m : Msg} : m ∈ validateUri X u ↔ UriFault X u m := by
  unfold validateUri
  cases h1 : X.isAbsUri u <;> cases h2 : X.uriHasScheme u <;> simp only [Bool.not_true, Bool.not_false, if_true, Bool.false_eq_true, if_false,
    List.mem_singleton, List.not_mem_nil, false_iff]
  · exact ⟨by rintro rfl; exact .relative h1, by rintro (_ | ⟨h, _⟩) <;> simp_all⟩
  · exact ⟨by rintro rfl; exact .relative h1, by rintro (_ | ⟨h, _⟩) <;> simp_all⟩
  · exact ⟨by rintro rfl; exact .scheme h1 h2, by rintro (h | ⟨h, _⟩) <;> simp_all⟩
  · rintro (_ | ⟨h, _⟩) <;> simp_all

theorem in_actor {a : Actor} {pid : Str} {m : Msg} {x : Ctx} : (⟨m, x⟩ : VMsg) ∈ validateActor a pid ↔
    ActorFault a m ∧ x = inElement .ACTOR pid := by
  unfold validateActor
  split
  · rename_i h1 h2
    simp only [List.mem_singleton, VMsg.mk.injEq]
    constructor
    · rintro ⟨rfl, rfl⟩; exact ⟨.email h1 h2, rfl⟩
    · rintro ⟨⟨_, h⟩, rfl⟩; rw [h2] at h; cases h; exact ⟨rfl, rfl⟩
  · rename_i h
    simp only [List.not_mem_nil, false_iff]
    rintro ⟨⟨h1, h2⟩, -⟩
    exact h _ h1 h2

theorem in_licToken {t : Str} {d : Document} {m : Msg} : m ∈ validateLicToken t d ↔
    (2 ≤ t.count ':' ∧ m = .licColons t) ∨
    (∃ ref loc, OneColon t ref loc ∧ ((¬ s%"LicenseRef-" <+: loc ∧ m = .licExtPrefix loc t) ∨ (¬ Declared d ref ∧ m = .licExtMissing ref t))) ∨
    (':' ∉ t ∧ (¬ ∃ i ∈ d.extractedLicensingInfo, i.licenseId = some t) ∧ m = .licUnrecognized t) := by
  unfold validateLicToken
  have hh : hasChar ':' t = true ↔ ':' ∈ t := by simp [hasChar]
  rcases split_cases t with ⟨h, hn⟩ | ⟨ref, loc, h, ho⟩ | ⟨a, b, c, r, h, hc⟩
  · rw [if_neg (by rwa [hh])]
    have h0 : t.count ':' = 0 := List.count_eq_zero.2 hn
    simp only [in_ite, Bool.not_eq_true', Bool.eq_false_iff, ne_eq, List.contains_iff_mem, List.mem_map]
    constructor
    · rintro ⟨h1, rfl⟩; exact .inr (.inr ⟨hn, h1, rfl⟩)
    · rintro (⟨h1, -⟩ | ⟨ref, loc, ho, -⟩ | ⟨-, h1, rfl⟩)
      · omega
      · have := count_oneColon ho; omega
      · exact ⟨h1, rfl⟩
  · have h1 := count_oneColon ho
    have hin : ':' ∈ t := List.count_pos_iff.1 (by omega)
    rw [if_pos (hh.2 hin), h]
    simp only [List.mem_append, in_ite, Bool.not_eq_true', Bool.eq_false_iff, ne_eq, declared_iff, startsWith_iff]
    constructor
    · intro h; exact .inr (.inl ⟨ref, loc, ho, h⟩)
    · rintro (⟨h1, -⟩ | ⟨ref', loc', ho', g⟩ | ⟨h, -⟩)
      · omega
      · obtain ⟨rfl, rfl⟩ := oneColon_unique ho ho'; exact g
      · exact absurd hin h
  · have hin : ':' ∈ t := List.count_pos_iff.1 (by omega)
    rw [if_pos (hh.2 hin), h]
    simp only [List.mem_singleton]
    constructor
    · rintro rfl; exact .inl ⟨hc, rfl⟩
    · rintro (⟨-, h⟩ | ⟨ref, loc, ho, -⟩ | ⟨h, -⟩)
      · exact h
      · have := count_oneColon ho; omega
      · exact absurd hin h

theorem in_lic {X : Ext} {d : Document} {e : Option (OrSpecial LicExpr)} {pid : Str} {m : Msg} {x : Ctx} :
    (⟨m, x⟩ : VMsg) ∈ validateLicExpr X e d pid ↔ (∃ o, e = some o ∧ LicFault X d o m) ∧ x = inElement .LICENSE_EXPRESSION pid := by
  unfold validateLicExpr
  split
  · rename_i e
    simp only [List.mem_append, List.mem_flatMap, in_map, in_licToken]
    constructor
    · rintro (⟨t, ht, ⟨a, h, rfl⟩, rfl⟩ | h)
      · refine ⟨⟨_, rfl, ?_⟩, rfl⟩
        rcases h with ⟨h, rfl⟩ | ⟨ref, loc, ho, ⟨h, rfl⟩ | ⟨h, rfl⟩⟩ | ⟨h1, h2, rfl⟩
        · exact .colons ht h
        · exact .format ht ho h
        · exact .undeclared ht ho h
        · exact .unknown ht h1 h2
      · split at h
        · rename_i text he
          simp only [List.mem_singleton, VMsg.mk.injEq] at h
          obtain ⟨rfl, rfl⟩ := h
          exact ⟨⟨_, rfl, .syntaxError he⟩, rfl⟩
        · cases h
    · rintro ⟨⟨o, ho, hf⟩, rfl⟩
      cases ho
      cases hf with
      | colons ht h => exact .inl ⟨_, ht, ⟨_, .inl ⟨h, rfl⟩, rfl⟩, rfl⟩
      | format ht ho h => exact .inl ⟨_, ht, ⟨_, .inr (.inl ⟨_, _, ho, .inl ⟨h, rfl⟩⟩), rfl⟩, rfl⟩
      | undeclared ht ho h => exact .inl ⟨_, ht, ⟨_, .inr (.inl ⟨_, _, ho, .inr ⟨h, rfl⟩⟩), rfl⟩, rfl⟩
      | unknown ht h1 h2 => exact .inl ⟨_, ht, ⟨_, .inr (.inr ⟨h1, h2, rfl⟩), rfl⟩, rfl⟩
      | syntaxError h => right; rw [h]; exact List.mem_singleton.2 rfl
  · rename_i h
    simp only [List.not_mem_nil, false_iff]
    rintro ⟨⟨o, rfl, hf⟩, -⟩
    cases hf <;> exact h _ rfl

theorem in_lics {X : Ext} {d : Document} {es : List (OrSpecial LicExpr)} {pid : Str} {m : Msg} {x : Ctx} :
    (⟨m, x⟩ : VMsg) ∈ validateLicExprs X es d pid ↔ (∃ o ∈ es, LicFault X d o m) ∧ x = inElement .LICENSE_EXPRESSION pid := by
  simp only [validateLicExprs, List.mem_flatMap, in_lic, Option.some.injEq]
  constructor
  · rintro ⟨a, h, ⟨o, rfl, hf⟩, rfl⟩; exact ⟨⟨a, h, hf⟩, rfl⟩
  · rintro ⟨⟨a, h, hf⟩, rfl⟩; exact ⟨a, h, ⟨a, rfl, hf⟩, rfl⟩

theorem in_code {v : PackageVerificationCode} {pid : Str} {m : Msg} {x : Ctx} : (⟨m, x⟩ : VMsg) ∈ validateVerificationCode v pid ↔
    CodeFault v m ∧ x = inElement .PACKAGE_VERIFICATION_CODE pid := by
  unfold validateVerificationCode
  simp only [List.mem_append, List.mem_flatMap, in_msgIf, startsWith_iff, dollar_orNewline hex40_iff]
  constructor
  · rintro (⟨f, hf, h, rfl, rfl⟩ | ⟨h, rfl, rfl⟩)
    · exact ⟨.excluded hf h, rfl⟩
    · exact ⟨.value h, rfl⟩
  · rintro ⟨h | h, rfl⟩
    · rename_i hf; exact .inl ⟨_, h, hf, rfl, rfl⟩
    · exact .inr ⟨h, rfl, rfl⟩

theorem in_packageRef {X : Ext} {r : ExternalPackageRef} {pid ver : Str} {m : Msg} {x : Ctx} :
    (⟨m, x⟩ : VMsg) ∈ validateExternalPackageRef X r pid ver ↔
      PackageRefFault X (ver = v22) r m ∧ x = inElement .EXTERNAL_PACKAGE_REF pid := by
  unfold validateExternalPackageRef
  have e23 : [s%"advisory", s%"fix", s%"url", s%"swid"].contains r.referenceType = true ↔ RefOnly23 r.referenceType := by
    simp [RefOnly23]
  simp only []
  split
  · rename_i hc
    rw [in_msgIf]
    constructor
    · rintro ⟨h, rfl, rfl⟩; exact ⟨.spaces hc (by simpa [hasChar] using h), rfl⟩
    · rintro ⟨h, rfl⟩
      cases h with
      | spaces _ h => exact ⟨by simpa [hasChar] using h, rfl, rfl⟩
      | version h => exact absurd hc h
      | category h => exact absurd hc h
      | url _ h => rw [hc] at h; cases h
      | swid _ h => rw [hc] at h; cases h
      | pattern h => exact absurd hc h
  · rename_i hc
    split
    · rename_i h22
      rw [e23] at h22
      simp only [List.mem_singleton, VMsg.mk.injEq]
      constructor
      · rintro ⟨rfl, rfl⟩; exact ⟨.version hc h22.1 h22.2, rfl⟩
      · rintro ⟨h, rfl⟩
        cases h with
        | spaces h => exact absurd h hc
        | version => exact ⟨rfl, rfl⟩
        | category _ h => exact absurd h22 h
        | url h => exact absurd h22.1 h
        | swid h => exact absurd h22.1 h
        | pattern _ _ h => exact absurd h22.2 h
    · rename_i h22
      rw [e23] at h22
      split
      · rename_i ht
        rw [refTypes_iff _ hc] at ht
        simp only [List.mem_singleton, VMsg.mk.injEq]
        constructor
        · rintro ⟨rfl, rfl⟩; exact ⟨.category hc h22 ht, rfl⟩
        · rintro ⟨h, rfl⟩
          cases h with
          | spaces h => exact absurd h hc
          | version _ h1 h2 => exact absurd ⟨h1, h2⟩ h22
          | category => exact ⟨rfl, rfl⟩
          | url _ h1 h2 => exfalso; apply ht; rw [h1]; rcases h2 with h | h | h <;> rw [h] <;> simp [RefTypeRule]
          | swid _ h1 h2 => exfalso; apply ht; rw [h1, h2]; simp [RefTypeRule]
          | pattern _ h => exact absurd h ht
      · rename_i ht
        rw [refTypes_iff _ hc] at ht
        simp only [Classical.not_not] at ht
        have hsec : RefOnly23 r.referenceType → r.category = .SECURITY := by
          intro h
          cases hcat : r.category with
          | SECURITY => rfl
          | OTHER => exact absurd hcat hc
          | PACKAGE_MANAGER =>
            exfalso; rw [hcat] at ht; rcases h with h | h | h | h <;> (rw [h] at ht; revert ht; simp [RefTypeRule])
          | PERSISTENT_ID =>
            exfalso; rw [hcat] at ht; rcases h with h | h | h | h <;> (rw [h] at ht; revert ht; simp [RefTypeRule])
        split
        · rename_i hu
          have hu' : r.referenceType = s%"advisory" ∨ r.referenceType = s%"fix" ∨ r.referenceType = s%"url" := by simpa using hu
          have h23 : RefOnly23 r.referenceType := by rcases hu' with h | h | h <;> simp [RefOnly23, h]
          rw [in_msgIf, urlOk_iff]
          constructor
          · rintro ⟨h, rfl, rfl⟩; exact ⟨.url (fun g => h22 ⟨g, h23⟩) (hsec h23) hu' h, rfl⟩
          · rintro ⟨h, rfl⟩
            cases h with
            | spaces h => exact absurd h hc
            | version _ h1 h2 => exact absurd ⟨h1, h2⟩ h22
            | category _ _ h => exact absurd ht h
            | url _ _ _ h => exact ⟨h, rfl, rfl⟩
            | swid _ _ h => exfalso; rw [h] at hu'; revert hu'; decide
            | pattern _ _ h => exact absurd h23 h
        · rename_i hu
          have hu' : ¬ (r.referenceType = s%"advisory" ∨ r.referenceType = s%"fix" ∨ r.referenceType = s%"url") := by
            simpa using hu
          split
          · rename_i hsw
            have h23 : RefOnly23 r.referenceType := by simp [RefOnly23, hsw]
            have e : (¬ X.isUri r.locator = true ∨ ¬ startsWith r.locator s%"swid" = true) ↔
                ¬ (X.isUri r.locator = true ∧ s%"swid" <+: r.locator) := by rw [startsWith_iff, Classical.not_and_iff_not_or_not]
            rw [in_msgIf, e]
            constructor
            · rintro ⟨h, rfl, rfl⟩; exact ⟨.swid (fun g => h22 ⟨g, h23⟩) (hsec h23) hsw h, rfl⟩
            · rintro ⟨h, rfl⟩
              cases h with
              | spaces h => exact absurd h hc
              | version _ h1 h2 => exact absurd ⟨h1, h2⟩ h22
              | category _ _ h => exact absurd ht h
              | url _ _ h => exact absurd h hu'
              | swid _ _ _ h => exact ⟨h, rfl, rfl⟩
              | pattern _ _ h => exact absurd h23 h
          · rename_i hsw
            have h23 : ¬ RefOnly23 r.referenceType := by
              rintro (h | h | h | h)
              · exact hu' (.inl h)
              · exact hu' (.inr (.inl h))
              · exact hu' (.inr (.inr h))
              · exact hsw h
            rw [in_msgIf, locatorMatches_iff]
            constructor
            · rintro ⟨h, rfl, rfl⟩; exact ⟨.pattern hc ht h23 h, rfl⟩
            · rintro ⟨h, rfl⟩
              cases h with
              | spaces h => exact absurd h hc
              | version _ h1 h2 => exact absurd ⟨h1, h2⟩ h22
              | category _ _ h => exact absurd ht h
              | url _ _ h => exact absurd h hu'
              | swid _ _ h => exact absurd h hsw
              | pattern _ _ _ h => exact ⟨h, rfl, rfl⟩

theorem in_creation {X : Ext} {d : Document} {ver : Str} {m : Msg} {x : Ctx} :
    (⟨m, x⟩ : VMsg) ∈ validateCreationInfo X d.creationInfo ver ↔ CreationFault X (ver = v22) d m x := by
  unfold validateCreationInfo validateExternalDocumentRef
  simp only [List.mem_append, List.mem_flatMap, in_msgIf, in_map, in_uri, in_actor, in_checksum, docRef_iff]
  constructor
  · rintro ((((⟨h, rfl, rfl⟩ | ⟨h, rfl, rfl⟩) | ⟨⟨a, h, rfl⟩, rfl⟩) | ⟨a, ha, h, rfl⟩) | ⟨r, hr, (⟨h, rfl, rfl⟩ | ⟨⟨a, h, rfl⟩, rfl⟩) | ⟨h, rfl⟩⟩)
    · exact .id h
    · exact .license h
    · exact .nameSpace h
    · exact .creator ha h
    · exact .refId hr h
    · exact .refUri hr h
    · exact .refChecksum hr h
  · intro h
    cases h with
    | id h => exact .inl (.inl (.inl (.inl ⟨h, rfl, rfl⟩)))
    | license h => exact .inl (.inl (.inl (.inr ⟨h, rfl, rfl⟩)))
    | nameSpace h => exact .inl (.inl (.inr ⟨⟨_, h, rfl⟩, rfl⟩))
    | creator ha h => exact .inl (.inr ⟨_, ha, h, rfl⟩)
    | refId hr h => exact .inr ⟨_, hr, .inl (.inl ⟨h, rfl, rfl⟩)⟩
    | refUri hr h => exact .inr ⟨_, hr, .inl (.inr ⟨⟨_, h, rfl⟩, rfl⟩)⟩
    | refChecksum hr h => exact .inr ⟨_, hr, .inr ⟨h, rfl⟩⟩

private theorem links_eq (d : Document) (p : Package) : packageFileRelationships p d = fileLinks d p := by
  have h1 : ∀ r : Relationship, getTargetType r.relatedSpdxElementId d = some .file ↔
      ∃ id, r.relatedSpdxElementId = .val id ∧ InFiles d id ∧ ¬ ∃ q ∈ d.packages, q.spdxId = id := by
    intro r
    unfold getTargetType
    split
    · rename_i id h
      rw [elementType_file]
      constructor
      · intro g; exact ⟨id, h, g⟩
      · rintro ⟨i, e, g⟩; rw [h] at e; cases e; exact g
    · rename_i h
      simp only [reduceCtorEq, false_iff]
      rintro ⟨i, e, -⟩; exact h i e
  unfold packageFileRelationships fileLinks filterByTypeAndOrigin filterByTypeAndTarget
  rw [List.filter_filter, List.filter_filter]
  congr 1
  · apply List.filter_congr
    intro r _
    rw [← Bool.decide_and, decide_eq_decide, h1]
    unfold LinksFile
    constructor
    · rintro ⟨h, h2, h3⟩; exact ⟨h2, .inl ⟨h2, h3, h⟩⟩
    · rintro ⟨h, ⟨-, h3, h⟩ | ⟨h2, -⟩⟩
      · exact ⟨h, ‹_›, h3⟩
      · simp_all
  · apply List.filter_congr
    intro r _
    rw [← Bool.decide_and, decide_eq_decide, elementType_file]
    unfold LinksFile
    constructor
    · rintro ⟨h, h2, h3⟩; exact ⟨h2, .inr ⟨h2, h3, h⟩⟩
    · rintro ⟨h, ⟨h2, -⟩ | ⟨-, h3, h⟩⟩
      · simp_all
      · exact ⟨h, ‹_›, h3⟩

theorem in_package {X : Ext} {d : Document} {p : Package} {ver : Str} {m : Msg} {x : Ctx} :
    (⟨m, x⟩ : VMsg) ∈ validatePackageInDocument X p ver d ↔ PackageFault X (ver = v22) d p m x := by
  unfold validatePackageInDocument validatePackage validateChecksums
  simp only [List.mem_append, List.mem_flatMap, in_map, in_ownId, in_lic, in_packageRef, in_checksum, links_eq]
  constructor
  · rintro (((((h | h) | h) | h) | h) | ((((h | h) | h) | h) | h) | h)
    · obtain ⟨⟨a, h, rfl⟩, rfl⟩ := h; exact .id h
    · cases hf : p.filesAnalyzed
      · rw [hf] at h
        simp only [Bool.not_false, if_true, in_msgIf] at h
        obtain ⟨h, rfl, rfl⟩ := h
        exact .files hf h
      · rw [hf] at h; cases h
    · obtain ⟨⟨o, ho, h⟩, rfl⟩ := h; exact .concluded ho h
    · rw [in_ite2] at h
      obtain ⟨hn, h⟩ := h
      cases hf : p.filesAnalyzed
      · rw [hf] at h
        simp only [Bool.not_false, if_true, List.mem_singleton, VMsg.mk.injEq] at h
        obtain ⟨rfl, rfl⟩ := h
        exact .notAnalyzedLicense hf hn
      · rw [hf] at h
        simp only [Bool.not_true, Bool.false_eq_true, if_false, in_lics] at h
        obtain ⟨⟨o, ho, h⟩, rfl⟩ := h
        exact .fromFiles hf ho h
    · obtain ⟨⟨o, ho, h⟩, rfl⟩ := h; exact .declared ho h
    · split at h
      · rename_i l hl
        rw [in_msgIf, downloadLocationOk_iff] at h
        obtain ⟨h, rfl, rfl⟩ := h
        exact .download hl h
      · cases h
    · split at h
      · rename_i u hu
        rw [in_msgIf, urlOk_iff] at h
        obtain ⟨h, rfl, rfl⟩ := h
        exact .homepage hu h
      · cases h
    · split at h
      · rename_i v hv
        cases hf : p.filesAnalyzed
        · rw [hf] at h
          simp only [Bool.not_false, if_true, List.mem_singleton, VMsg.mk.injEq] at h
          obtain ⟨rfl, rfl⟩ := h
          exact .notAnalyzedCode hf (by simp [hv])
        · rw [hf] at h
          simp only [Bool.not_true, Bool.false_eq_true, if_false, in_code] at h
          obtain ⟨h, rfl⟩ := h
          exact .code hf hv h
      · cases h
    · obtain ⟨c, hc, h, rfl⟩ := h; exact .checksum hc h
    · obtain ⟨r, hr, h, rfl⟩ := h; exact .reference hr h
    · rw [in_ite2] at h
      obtain ⟨hv, h⟩ := h
      simp only [List.mem_append, in_msgIf] at h
      rcases h with (((((⟨h, rfl, rfl⟩ | ⟨h, rfl, rfl⟩) | ⟨h, rfl, rfl⟩) | ⟨h, rfl, rfl⟩) | ⟨h, rfl, rfl⟩) | ⟨h, rfl, rfl⟩) | ⟨h, rfl, rfl⟩
      · exact .new hv (.inl ⟨rfl, h⟩)
      · exact .new hv (.inr (.inl ⟨rfl, h⟩))
      · exact .new hv (.inr (.inr (.inl ⟨rfl, h⟩)))
      · exact .new hv (.inr (.inr (.inr ⟨rfl, h⟩)))
      · exact .missing hv (.inl ⟨rfl, h⟩)
      · exact .missing hv (.inr (.inl ⟨rfl, h⟩))
      · exact .missing hv (.inr (.inr ⟨rfl, h⟩))
  · intro h
    cases h with
    | id h => exact .inl (.inl (.inl (.inl (.inl ⟨⟨_, h, rfl⟩, rfl⟩))))
    | files hf h =>
      refine .inl (.inl (.inl (.inl (.inr ?_))))
      rw [hf]; exact in_msgIf.2 ⟨h, rfl, rfl⟩
    | concluded ho h => exact .inl (.inl (.inl (.inr ⟨⟨_, ho, h⟩, rfl⟩)))
    | notAnalyzedLicense hf hn =>
      refine .inl (.inl (.inr ?_))
      rw [in_ite2, hf]; exact ⟨hn, List.mem_singleton.2 rfl⟩
    | fromFiles hf ho h =>
      refine .inl (.inl (.inr ?_))
      rw [in_ite2, hf]
      exact ⟨(by intro g; rw [g] at ho; cases ho), in_lics.2 ⟨⟨_, ho, h⟩, rfl⟩⟩
    | declared ho h => exact .inl (.inr ⟨⟨_, ho, h⟩, rfl⟩)
    | download hl h =>
      refine .inr (.inl (.inl (.inl (.inl (.inl ?_)))))
      rw [hl]; exact in_msgIf.2 ⟨by rwa [downloadLocationOk_iff], rfl, rfl⟩
    | homepage hu h =>
      refine .inr (.inl (.inl (.inl (.inl (.inr ?_)))))
      rw [hu]; exact in_msgIf.2 ⟨by rwa [urlOk_iff], rfl, rfl⟩
    | notAnalyzedCode hf hn =>
      refine .inr (.inl (.inl (.inl (.inr ?_))))
      cases hv : p.verificationCode with
      | none => exact absurd hv hn
      | some v => rw [hf]; exact List.mem_singleton.2 rfl
    | code hf hv h =>
      refine .inr (.inl (.inl (.inl (.inr ?_))))
      rw [hv, hf]; exact in_code.2 ⟨h, rfl⟩
    | checksum hc h => exact .inr (.inl (.inl (.inr ⟨_, hc, h, rfl⟩)))
    | reference hr h => exact .inr (.inl (.inr ⟨_, hr, h, rfl⟩))
    | new hv h =>
      refine .inr (.inr ?_)
      rw [in_ite2]
      refine ⟨hv, ?_⟩
      simp only [List.mem_append, in_msgIf]
      rcases h with ⟨rfl, h⟩ | ⟨rfl, h⟩ | ⟨rfl, h⟩ | ⟨rfl, h⟩
      · exact .inl (.inl (.inl (.inl (.inl (.inl ⟨h, rfl, rfl⟩)))))
      · exact .inl (.inl (.inl (.inl (.inl (.inr ⟨h, rfl, rfl⟩)))))
      · exact .inl (.inl (.inl (.inl (.inr ⟨h, rfl, rfl⟩))))
      · exact .inl (.inl (.inl (.inr ⟨h, rfl, rfl⟩)))
    | missing hv h =>
      refine .inr (.inr ?_)
      rw [in_ite2]
      refine ⟨hv, ?_⟩
      simp only [List.mem_append, in_msgIf]
      rcases h with ⟨rfl, h⟩ | ⟨rfl, h⟩ | ⟨rfl, h⟩
      · exact .inl (.inl (.inr ⟨h, rfl, rfl⟩))
      · exact .inl (.inr ⟨h, rfl, rfl⟩)
      · exact .inr ⟨h, rfl, rfl⟩

theorem in_file {X : Ext} {d : Document} {f : File} {ver : Str} {m : Msg} {x : Ctx} :
    (⟨m, x⟩ : VMsg) ∈ validateFileInDocument X f ver d ↔ FileFault X (ver = v22) d f m x := by
  unfold validateFileInDocument validateFile validateChecksums
  have hs : (f.checksums.map (·.algorithm)).contains .SHA1 = true ↔ ∃ c ∈ f.checksums, c.algorithm = .SHA1 := by simp
  simp only [List.mem_append, List.mem_flatMap, in_map, in_ownId, in_lic, in_lics, in_checksum, in_msgIf, in_ite2, startsWith_iff, hs]
  constructor
  · rintro (((⟨⟨a, h, rfl⟩, rfl⟩ | ⟨⟨o, ho, h⟩, rfl⟩) | ⟨⟨o, ho, h⟩, rfl⟩) | ((⟨h, rfl, rfl⟩ | ⟨h, rfl, rfl⟩) | ⟨c, hc, h, rfl⟩) |
      ⟨hv, (⟨h, rfl, rfl⟩ | ⟨h, rfl, rfl⟩) | ⟨h, rfl, rfl⟩⟩)
    · exact .id h
    · exact .concluded ho h
    · exact .inFile ho h
    · exact .name h
    · exact .sha1 h
    · exact .checksum hc h
    · exact .noConcluded hv h
    · exact .noInFile hv h
    · exact .noCopyright hv h
  · intro h
    cases h with
    | id h => exact .inl (.inl (.inl ⟨⟨_, h, rfl⟩, rfl⟩))
    | concluded ho h => exact .inl (.inl (.inr ⟨⟨_, ho, h⟩, rfl⟩))
    | inFile ho h => exact .inl (.inr ⟨⟨_, ho, h⟩, rfl⟩)
    | name h => exact .inr (.inl (.inl (.inl ⟨h, rfl, rfl⟩)))
    | sha1 h => exact .inr (.inl (.inl (.inr ⟨h, rfl, rfl⟩)))
    | checksum hc h => exact .inr (.inl (.inr ⟨_, hc, h, rfl⟩))
    | noConcluded hv h => exact .inr (.inr ⟨hv, .inl (.inl ⟨h, rfl, rfl⟩)⟩)
    | noInFile hv h => exact .inr (.inr ⟨hv, .inl (.inr ⟨h, rfl, rfl⟩)⟩)
    | noCopyright hv h => exact .inr (.inr ⟨hv, .inr ⟨h, rfl, rfl⟩⟩)

theorem in_snippet {X : Ext} {d : Document} {s : Snippet} {ver : Str} {m : Msg} {x : Ctx} :
    (⟨m, x⟩ : VMsg) ∈ validateSnippetInDocument X s ver d ↔ SnippetFault X (ver = v22) d s m x := by
  unfold validateSnippetInDocument validateSnippet
  have hl : (⟨m, x⟩ : VMsg) ∈ (match s.lineRange with
      | some r => msgIf (r.1 < 1) (.lineRangeStart r) (atElement d .SNIPPET s.spdxId) ++
        msgIf (r.1 > r.2) (.lineRangeOrder r) (atElement d .SNIPPET s.spdxId)
      | none => []) ↔
      ∃ r, s.lineRange = some r ∧ ((r.1 < 1 ∧ m = .lineRangeStart r ∧ x = atElement d .SNIPPET s.spdxId) ∨
        (r.2 < r.1 ∧ m = .lineRangeOrder r ∧ x = atElement d .SNIPPET s.spdxId)) := by
    cases s.lineRange with
    | none => simp
    | some r => simp [in_msgIf]
  simp only [List.mem_append, in_map, in_ownId, in_fileId, in_lic, in_lics, in_msgIf, in_ite2]
  constructor
  · rintro ((((⟨⟨a, h, rfl⟩, rfl⟩ | ⟨⟨a, h, rfl⟩, rfl⟩) | ⟨⟨o, ho, h⟩, rfl⟩) | ⟨⟨o, ho, h⟩, rfl⟩) | ((⟨h, rfl, rfl⟩ | ⟨h, rfl, rfl⟩) | h) |
      ⟨hv, ⟨h, rfl, rfl⟩ | ⟨h, rfl, rfl⟩⟩)
    · exact .id h
    · exact .file h
    · exact .concluded ho h
    · exact .inSnippet ho h
    · exact .byteStart h
    · exact .byteOrder h
    · rcases hl.1 h with ⟨r, hr, ⟨g, rfl, rfl⟩ | ⟨g, rfl, rfl⟩⟩
      · exact .lineStart hr g
      · exact .lineOrder hr g
    · exact .noConcluded hv h
    · exact .noCopyright hv h
  · intro h
    cases h with
    | id h => exact .inl (.inl (.inl (.inl ⟨⟨_, h, rfl⟩, rfl⟩)))
    | file h => exact .inl (.inl (.inl (.inr ⟨⟨_, h, rfl⟩, rfl⟩)))
    | concluded ho h => exact .inl (.inl (.inr ⟨⟨_, ho, h⟩, rfl⟩))
    | inSnippet ho h => exact .inl (.inr ⟨⟨_, ho, h⟩, rfl⟩)
    | byteStart h => exact .inr (.inl (.inl (.inl ⟨h, rfl, rfl⟩)))
    | byteOrder h => exact .inr (.inl (.inl (.inr ⟨h, rfl, rfl⟩)))
    | lineStart hr h => exact .inr (.inl (.inr (hl.2 ⟨_, hr, .inl ⟨h, rfl, rfl⟩⟩)))
    | lineOrder hr h => exact .inr (.inl (.inr (hl.2 ⟨_, hr, .inr ⟨h, rfl, rfl⟩⟩)))
    | noConcluded hv h => exact .inr (.inr ⟨hv, .inl ⟨h, rfl, rfl⟩⟩)
    | noCopyright hv h => exact .inr (.inr ⟨hv, .inr ⟨h, rfl, rfl⟩⟩)

theorem in_annotation {d : Document} {a : Annotation} {m : Msg} {x : Ctx} :
    (⟨m, x⟩ : VMsg) ∈ validateAnnotation a d ↔ AnnotationFault d a m x := by
  unfold validateAnnotation
  simp only [List.mem_append, in_map, in_actor, in_refId]
  constructor
  · rintro (⟨h, rfl⟩ | ⟨⟨a, h, rfl⟩, rfl⟩)
    · exact .annotator h
    · exact .id h
  · intro h
    cases h with
    | annotator h => exact .inl ⟨h, rfl⟩
    | id h => exact .inr ⟨⟨_, h, rfl⟩, rfl⟩

theorem in_relationship {d : Document} {r : Relationship} {ver : Str} {m : Msg} {x : Ctx} :
    (⟨m, x⟩ : VMsg) ∈ validateRelationship r ver d ↔ RelationshipFault (ver = v22) d r m x := by
  unfold validateRelationship
  simp only [List.mem_append, in_map, in_refId, in_msgIf, in_ite2]
  constructor
  · rintro ((⟨⟨a, h, rfl⟩, rfl⟩ | h) | ⟨hv, h, rfl, rfl⟩)
    · exact .source h
    · split at h
      · rename_i id hi
        simp only [in_map, in_refId] at h
        obtain ⟨⟨a, h, rfl⟩, rfl⟩ := h
        exact .target hi h
      · cases h
    · exact .version hv h
  · intro h
    cases h with
    | source h => exact .inl (.inl ⟨⟨_, h, rfl⟩, rfl⟩)
    | target hi h =>
      refine .inl (.inr ?_)
      rw [hi]; simp only [in_map, in_refId]; exact ⟨⟨_, h, rfl⟩, rfl⟩
    | version hv h => exact .inr ⟨hv, h, rfl, rfl⟩

theorem in_license {X : Ext} {e : ExtractedLicensingInfo} {m : Msg} {x : Ctx} :
    (⟨m, x⟩ : VMsg) ∈ validateExtracted X e ↔ LicenseFault X e m x := by
  unfold validateExtracted
  have ht : (e.extractedText = none ∨ e.extractedText = some []) ↔ ¬ ∃ t, e.extractedText = some t ∧ t ≠ [] := by
    cases e.extractedText <;> simp
  simp only [List.mem_append, List.mem_flatMap, in_msgIf, urlOk_iff]
  constructor
  · rintro (h | ⟨u, hu, h, rfl, rfl⟩)
    · split at h
      · rename_i i hi
        rw [in_ite2, List.mem_append, in_msgIf, in_msgIf, licRef_iff, ht] at h
        obtain ⟨hn, ⟨h, rfl, rfl⟩ | ⟨h, rfl, rfl⟩⟩ := h
        · exact .id hi hn h
        · exact .text hi hn h
      · cases h
    · exact .reference hu h
  · intro h
    cases h with
    | id hi hn h =>
      refine .inl ?_
      rw [hi]; simp only []; rw [in_ite2, List.mem_append, in_msgIf, licRef_iff]; exact ⟨hn, .inl ⟨h, rfl, rfl⟩⟩
    | text hi hn h =>
      refine .inl ?_
      rw [hi]; simp only []; rw [in_ite2, List.mem_append, in_msgIf, in_msgIf, ht]; exact ⟨hn, .inr ⟨h, rfl, rfl⟩⟩
    | reference hu h => exact .inr ⟨_, hu, h, rfl, rfl⟩

private theorem nodup_eraseDups (l : List Str) : l.eraseDups.Nodup := by
  generalize hn : l.length = n
  induction n using Nat.strongRecOn generalizing l with
  | _ n ih =>
    match l with
    | [] => simp
    | a :: as =>
      rw [List.eraseDups_cons, List.nodup_cons]
      refine ⟨?_, ih _ ?_ _ rfl⟩
      · rw [List.mem_eraseDups]; simp
      · have := List.length_filter_le (fun b => !b == a) as
        simp only [List.length_cons] at hn; omega

private theorem duplicated_iff (d : Document) (ids : List Str) :
    duplicatedIds (allSpdxIds d) = ids ↔ (∀ i, i ∈ ids ↔ 2 ≤ (elementIds d).count i) ∧ ids.Nodup ∧ ids.Pairwise (· ≤ ·) := by
  have hc : ∀ i, i ∈ duplicatedIds (allSpdxIds d) ↔ 2 ≤ (elementIds d).count i := by
    intro i; rw [mem_duplicatedIds, (elementIds_perm d).count_eq]
  have hn : (duplicatedIds (allSpdxIds d)).Nodup := (sortStr_perm _).nodup_iff.2 (nodup_eraseDups _)
  constructor
  · rintro rfl; exact ⟨hc, hn, sortStr_sorted _⟩
  · rintro ⟨h1, h2, h3⟩
    refine sortStr_unique _ _ ?_ h3
    refine List.Perm.trans ?_ (sortStr_perm _)
    exact (List.perm_ext_iff_of_nodup h2 hn).2 fun i => by rw [h1, hc]

/-- The messages for a document whose version is supported. -/
theorem in_document {X : Ext} {d : Document} {m : Msg} {x : Ctx} :
    (⟨m, x⟩ : VMsg) ∈ partMsgs X d ++ describesMsgs d ++ duplicateMsgs d ↔ Fault X (d.creationInfo.spdxVersion = v22) d m x := by
  have hd : (⟨m, x⟩ : VMsg) ∈ describesMsgs d ↔ ¬ DescribesRule d ∧ m = .noDescribes d.creationInfo.spdxId ∧ x = atDocument d := by
    rw [← describesMsgs_nil]
    unfold describesMsgs
    simp only [in_msgIf, msgIf_nil, Classical.not_not]; rfl
  unfold partMsgs duplicateMsgs
  simp only [List.mem_append, List.mem_flatMap, in_creation, in_package, in_file, in_snippet, in_annotation, in_relationship, in_license, hd,
    in_msgIf]
  constructor
  · rintro ((((((((h | ⟨p, hp, h⟩) | ⟨p, hp, h⟩) | ⟨p, hp, h⟩) | ⟨p, hp, h⟩) | ⟨p, hp, h⟩) | ⟨p, hp, h⟩) | ⟨h, rfl, rfl⟩) | ⟨h, rfl, rfl⟩)
    · exact .creation h
    · exact .package hp h
    · exact .file hp h
    · exact .snippet hp h
    · exact .annotation hp h
    · exact .relationship hp h
    · exact .license hp h
    · exact .describes h
    · obtain ⟨h1, h2, h3⟩ := (duplicated_iff d _).1 rfl
      exact .duplicates _ h h1 h2 h3
  · intro h
    cases h with
    | creation h => exact .inl (.inl (.inl (.inl (.inl (.inl (.inl (.inl h)))))))
    | package hp h => exact .inl (.inl (.inl (.inl (.inl (.inl (.inl (.inr ⟨_, hp, h⟩)))))))
    | file hp h => exact .inl (.inl (.inl (.inl (.inl (.inl (.inr ⟨_, hp, h⟩))))))
    | snippet hp h => exact .inl (.inl (.inl (.inl (.inl (.inr ⟨_, hp, h⟩)))))
    | annotation hp h => exact .inl (.inl (.inl (.inl (.inr ⟨_, hp, h⟩))))
    | relationship hp h => exact .inl (.inl (.inl (.inr ⟨_, hp, h⟩)))
    | license hp h => exact .inl (.inl (.inr ⟨_, hp, h⟩))
    | describes h => exact .inl (.inr ⟨h, rfl, rfl⟩)
    | duplicates ids hn h1 h2 h3 =>
      have := (duplicated_iff d ids).2 ⟨h1, h2, h3⟩
      exact .inr ⟨by rw [this]; exact hn, by rw [this], rfl⟩

end Spdx
