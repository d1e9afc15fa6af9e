import Verif.Model.Validation
import Verif.Spec.Valid
import Verif.Lemmas.Regex
import Verif.Lemmas.Chars
/- Each validator returns no message iff the rule of `Verif.Spec.Valid` holds. -/
namespace Spdx
open Spec

theorem msgIf_nil (c : Prop) [Decidable c] (m : Msg) (x : Ctx) : msgIf c m x = [] ↔ ¬ c := by
  unfold msgIf; split <;> simp_all

theorem flatMap_nil {α β : Type} (l : List α) (f : α → List β) : l.flatMap f = [] ↔ ∀ a ∈ l, f a = [] := by
  simp [List.flatMap_eq_nil_iff]

theorem dollar_orNewline {b : Str → Bool} {P : Str → Prop} (h : ∀ s, b s = true ↔ P s) (s : Str) :
    dollar b s = true ↔ OrNewline P s := by
  rw [dollar_iff]; simp only [h, OrNewline]

theorem isHexLower_iff (c : Char) : isHexLower c = true ↔ c ∈ s%"0123456789abcdef" := by
  by_cases hc : c.toNat < 128
  · exact char_below (P := fun c => isHexLower c = true ↔ c ∈ s%"0123456789abcdef") 128 (by decide +kernel) c hc
  · have h1 : isHexLower c = false := by
      simp only [isHexLower, isDigit09, Bool.or_eq_false_iff, Bool.and_eq_false_iff, decide_eq_false_iff_not]
      refine ⟨.inr ?_, .inr ?_⟩
      · show ¬ c.toNat ≤ 57; omega
      · show ¬ c.toNat ≤ 102; omega
    simp only [h1, Bool.false_eq_true, false_iff]
    intro hm
    apply hc
    revert hm
    simp only [List.mem_cons, List.not_mem_nil, or_false]
    rintro (rfl | rfl | rfl | rfl | rfl | rfl | rfl | rfl | rfl | rfl | rfl | rfl | rfl | rfl | rfl | rfl) <;> decide

theorem char_le_iff (a b : Char) : a ≤ b ↔ a.toNat ≤ b.toNat := Iff.rfl

theorem isIdChar_iff (c : Char) : isIdChar c = true ↔ IdChar c := by
  simp only [isIdChar, isLowerAZ, isUpperAZ, Bool.or_eq_true, Bool.and_eq_true, decide_eq_true_eq, beq_iff_eq, IdChar,
    char_le_iff]
  grind

theorem idBody_iff (pre : Str) (p : Char → Bool) (P : Char → Prop) (h : ∀ c, p c = true ↔ P c) (s : Str) :
    idBody pre p s = true ↔ ∃ t, t ≠ [] ∧ s = pre ++ t ∧ ∀ c ∈ t, P c := by
  simp only [idBody, startsWith, Bool.and_eq_true, Bool.not_eq_true', List.all_eq_true, List.isPrefixOf_iff_prefix, h,
    List.isEmpty_eq_false_iff]
  constructor
  · rintro ⟨⟨⟨t, rfl⟩, h2⟩, h3⟩
    simp only [List.drop_left] at h2 h3
    exact ⟨t, h2, rfl, h3⟩
  · rintro ⟨t, h2, rfl, h3⟩
    simp only [List.drop_left]
    exact ⟨⟨⟨t, rfl⟩, h2⟩, h3⟩

theorem internalId_iff (s : Str) : isValidInternalSpdxId s = true ↔ OrNewline LocalId s :=
  dollar_orNewline (idBody_iff _ _ _ isIdChar_iff) s

theorem docRef_iff (s : Str) : isValidExternalDocRefId s = true ↔ OrNewline DocRef s := by
  refine dollar_orNewline (idBody_iff _ _ _ fun c => ?_) s
  simp only [Bool.or_eq_true, isIdChar_iff, beq_iff_eq]

theorem licRef_iff (s : Str) : dollar (idBody s%"LicenseRef-" isIdChar) s = true ↔ OrNewline LicRef s :=
  dollar_orNewline (idBody_iff _ _ _ isIdChar_iff) s

theorem mem_containedIds (d : Document) (id : Str) : id ∈ containedIds d ↔
    (∃ p ∈ d.packages, p.spdxId = id) ∨ (∃ f ∈ d.files, f.spdxId = id) ∨ (∃ s ∈ d.snippets, s.spdxId = id) := by
  simp only [containedIds, List.mem_append, List.mem_map]
  grind

theorem presentInDocument_iff (d : Document) (id : Str) : isSpdxIdPresentInDocument id d = true ↔ InDocument d id := by
  simp only [isSpdxIdPresentInDocument, allSpdxIds, List.contains_iff_mem, List.mem_cons, mem_containedIds, InDocument]

theorem presentInFiles_iff (d : Document) (id : Str) : isSpdxIdPresentInFiles id d.files = true ↔ InFiles d id := by
  simp [isSpdxIdPresentInFiles, List.contains_iff_mem, InFiles]

theorem declared_iff (d : Document) (ref : Str) : isExternalDocRefPresent ref d = true ↔ Declared d ref := by
  simp [isExternalDocRefPresent, List.contains_iff_mem, Declared]

theorem idChar_colon : ¬ IdChar ':' := by rw [← isIdChar_iff]; decide +kernel

theorem localId_no_colon {s : Str} (h : OrNewline LocalId s) : ':' ∉ s := by
  have g : ∀ s, LocalId s → ':' ∉ s := by
    rintro s ⟨t, -, rfl, ht⟩ hm
    rcases List.mem_append.1 hm with hm | hm
    · revert hm; decide
    · exact idChar_colon (ht _ hm)
  rcases h with h | ⟨t, rfl, h⟩
  · exact g _ h
  · intro hm
    rcases List.mem_append.1 hm with hm | hm
    · exact g _ h hm
    · revert hm; decide

theorem docRef_no_colon {s : Str} (h : OrNewline DocRef s) : ':' ∉ s := by
  have g : ∀ s, DocRef s → ':' ∉ s := by
    rintro s ⟨t, -, rfl, ht⟩ hm
    rcases List.mem_append.1 hm with hm | hm
    · revert hm; decide
    · rcases ht _ hm with h | h
      · exact idChar_colon h
      · revert h; decide
  rcases h with h | ⟨t, rfl, h⟩
  · exact g _ h
  · intro hm
    rcases List.mem_append.1 hm with hm | hm
    · exact g _ h hm
    · revert hm; decide

theorem ite_nil {α : Type} (c : Prop) [Decidable c] (x : α) : (if c then [x] else []) = [] ↔ ¬ c := by
  split <;> simp_all

theorem validateSpdxId_nil (id : Str) (d : Document) (cd cf : Bool) : validateSpdxId id d cd cf = [] ↔
    IdRule d (fun i => (cd = true → InDocument d i) ∧ (cf = true → InFiles d i)) id := by
  unfold validateSpdxId
  split
  · rename_i a b c r hs
    simp only [List.cons_ne_nil, false_iff]
    rintro (⟨h, -⟩ | ⟨ref, loc, rfl, h1, h2, -⟩)
    · rw [splitOn_none _ _ (localId_no_colon h)] at hs; simp at hs
    · rw [(splitOn_two _ _ _ _).2 ⟨rfl, docRef_no_colon h1, localId_no_colon h2⟩] at hs; simp at hs
  · rename_i ref loc hs
    obtain ⟨rfl, h1, h2⟩ := (splitOn_two _ _ _ _).1 hs
    simp only [List.append_eq_nil_iff, ite_nil, Bool.not_eq_true', Bool.not_eq_false, internalId_iff, docRef_iff, declared_iff]
    constructor
    · rintro ⟨⟨ha, hb⟩, hc⟩; exact .inr ⟨ref, loc, rfl, ha, hb, hc⟩
    · rintro (⟨h, -⟩ | ⟨ref', loc', he, ha, hb, hc⟩)
      · exact absurd (by simp) (localId_no_colon h)
      · have := (splitOn_two _ _ _ _).2 ⟨he, docRef_no_colon ha, localId_no_colon hb⟩
        rw [this] at hs
        simp only [List.cons.injEq, and_true] at hs
        obtain ⟨rfl, rfl⟩ := hs
        exact ⟨⟨ha, hb⟩, hc⟩
  · rename_i h1 h2
    have e1 : ∀ (b : Bool) (P : Prop) [Decidable P] (x : IdMsg),
        (if b = true then if P then [x] else [] else []) = [] ↔ (b = true → ¬ P) := by
      intro b P _ x; cases b <;> simp [ite_nil]
    simp only [List.append_eq_nil_iff, ite_nil, e1, Bool.not_eq_true', Bool.not_eq_false, internalId_iff, presentInDocument_iff,
      presentInFiles_iff]
    constructor
    · rintro ⟨⟨ha, hb⟩, hc⟩; exact .inl ⟨ha, hb, hc⟩
    · rintro (⟨ha, hb, hc⟩ | ⟨ref, loc, he, ha, hb, hc⟩)
      · exact ⟨⟨ha, hb⟩, hc⟩
      · exact absurd ((splitOn_two _ _ _ _).2 ⟨he, docRef_no_colon ha, localId_no_colon hb⟩) (h2 _ _)

theorem IdRule_congr {d : Document} {P Q : Str → Prop} (h : ∀ i, P i ↔ Q i) (id : Str) : IdRule d P id ↔ IdRule d Q id := by
  simp only [IdRule, h]

theorem validateActor_nil (a : Actor) (pid : Str) : validateActor a pid = [] ↔ ActorRule a := by
  obtain ⟨ty, n, em⟩ := a
  cases ty <;> cases em <;> simp [validateActor, ActorRule]

theorem hexBody_iff (a : ChecksumAlgorithm) (s : Str) :
    hexBody (algorithmLength a) s = true ↔ LowerHex s ∧ HexDigits a s.length := by
  simp only [hexBody, Bool.and_eq_true, List.all_eq_true, isHexLower_iff, decide_eq_true_eq]
  have e : (∀ x ∈ s, x ∈ s%"0123456789abcdef") ↔ LowerHex s := Iff.rfl
  rw [e, and_assoc]
  generalize LowerHex s = P
  generalize s.length = n
  cases a <;> simp only [algorithmLength, HexDigits, decide_eq_true_eq] <;> constructor <;> rintro ⟨h, h'⟩ <;>
    refine ⟨h, ?_⟩ <;> first | omega | exact h'.1 | exact ⟨h', trivial⟩

theorem hex40_iff (s : Str) : hexBody (40, some 40) s = true ↔ LowerHex s ∧ s.length = 40 := hexBody_iff .SHA1 s

theorem only23_iff (a : ChecksumAlgorithm) : newAlgorithms23.contains a = true ↔ Only23 a := by
  cases a <;> simp [newAlgorithms23, Only23]

theorem validateChecksum_nil (c : Checksum) (pid ver : Str) :
    validateChecksum c pid ver = [] ↔ ChecksumRule (ver = v22) c := by
  unfold validateChecksum ChecksumRule
  simp only []
  split
  · rename_i h
    rw [only23_iff] at h
    simp [h]
  · rename_i h
    rw [only23_iff] at h
    simp only [msgIf_nil, Classical.not_not, h, not_false_eq_true, true_and]
    exact dollar_orNewline (hexBody_iff _) _

theorem validateUri_nil (X : Ext) (u : Str) : validateUri X u = [] ↔ UriRule X u := by
  unfold validateUri UriRule
  cases X.isAbsUri u <;> cases X.uriHasScheme u <;> simp

theorem validateExternalDocumentRef_nil (X : Ext) (r : ExternalDocumentRef) (pid ver : Str) :
    validateExternalDocumentRef X r pid ver = [] ↔ ExternalDocumentRefRule X (ver = v22) r := by
  simp only [validateExternalDocumentRef, ExternalDocumentRefRule, List.append_eq_nil_iff, msgIf_nil, List.map_eq_nil_iff,
    validateUri_nil, validateChecksum_nil, Classical.not_not, docRef_iff, and_assoc]

theorem validateCreationInfo_nil (X : Ext) (ci : CreationInfo) (ver : Str) :
    validateCreationInfo X ci ver = [] ↔ CreationInfoRule X (ver = v22) ci := by
  simp only [validateCreationInfo, CreationInfoRule, List.append_eq_nil_iff, msgIf_nil, List.map_eq_nil_iff, flatMap_nil,
    validateUri_nil, validateActor_nil, validateExternalDocumentRef_nil, ne_eq, Classical.not_not, and_assoc]
  rfl

theorem validateLicToken_nil (t : Str) (d : Document) : validateLicToken t d = [] ↔ LicSymbolRule d t := by
  unfold validateLicToken LicSymbolRule
  split
  · rename_i hc
    have hc : ':' ∈ t := by simpa [hasChar, List.contains_iff_mem] using hc
    split
    · rename_i ref loc hs
      obtain ⟨rfl, h1, h2⟩ := (splitOn_two _ _ _ _).1 hs
      simp only [List.append_eq_nil_iff, ite_nil, Bool.not_eq_true', Bool.not_eq_false, declared_iff, startsWith,
        List.isPrefixOf_iff_prefix]
      constructor
      · rintro ⟨ha, hb⟩; exact .inr ⟨ref, loc, rfl, h1, h2, ha, hb⟩
      · rintro (⟨h, -⟩ | ⟨ref', loc', he, ha, hb, hp, hd⟩)
        · exact absurd hc h
        · have := (splitOn_two _ _ _ _).2 ⟨he, ha, hb⟩
          rw [this] at hs
          simp only [List.cons.injEq, and_true] at hs
          obtain ⟨rfl, rfl⟩ := hs
          exact ⟨hp, hd⟩
    · rename_i hs
      simp only [List.cons_ne_nil, false_iff]
      rintro (⟨h, -⟩ | ⟨ref', loc', he, ha, hb, hp, hd⟩)
      · exact h hc
      · exact hs _ _ ((splitOn_two _ _ _ _).2 ⟨he, ha, hb⟩)
  · rename_i hc
    have hc : ':' ∉ t := by simpa [hasChar, List.contains_iff_mem] using hc
    simp only [ite_nil, Bool.not_eq_true', Bool.not_eq_false, List.contains_iff_mem, List.mem_map]
    constructor
    · rintro h; exact .inl ⟨hc, h⟩
    · rintro (⟨-, h⟩ | ⟨ref', loc', rfl, -⟩)
      · exact h
      · exact absurd (by simp) hc

theorem validateLicExpr_nil (X : Ext) (e : Option (OrSpecial LicExpr)) (d : Document) (pid : Str) :
    validateLicExpr X e d pid = [] ↔ LicRuleOpt X d e := by
  unfold validateLicExpr LicRuleOpt
  split
  · rename_i e
    simp only [List.append_eq_nil_iff, flatMap_nil, List.map_eq_nil_iff, validateLicToken_nil, Option.some.injEq]
    constructor
    · rintro ⟨h1, h2⟩ x rfl
      refine ⟨h1, ?_⟩
      split at h2
      · simp at h2
      · assumption
    · intro h
      obtain ⟨h1, h2⟩ := h _ rfl
      exact ⟨h1, by rw [h2]⟩
  · rename_i h
    simp only [true_iff]
    intro x hx
    cases x with
    | val e => exact absurd hx (h e)
    | noAssertion => trivial
    | none => trivial

theorem validateLicExprs_nil (X : Ext) (es : List (OrSpecial LicExpr)) (d : Document) (pid : Str) :
    validateLicExprs X es d pid = [] ↔ ∀ e ∈ es, LicRule X d e := by
  simp only [validateLicExprs, flatMap_nil, validateLicExpr_nil, LicRuleOpt, Option.some.injEq]
  constructor
  · intro h e he; exact h e he e rfl
  · rintro h e he x rfl; exact h e he

theorem startsWith_iff (s p : Str) : startsWith s p = true ↔ p <+: s := List.isPrefixOf_iff_prefix

theorem validateVerificationCode_nil (v : PackageVerificationCode) (pid : Str) :
    validateVerificationCode v pid = [] ↔ VerificationCodeRule v := by
  simp only [validateVerificationCode, VerificationCodeRule, List.append_eq_nil_iff, flatMap_nil, msgIf_nil, startsWith_iff,
    Classical.not_not]
  rw [dollar_orNewline hex40_iff]

theorem urlOk_iff (X : Ext) (u : Str) : urlOk X u = true ↔ UrlRule X u := Re.pref_iff _ _

theorem downloadLocationOk_iff (X : Ext) (u : Str) : downloadLocationOk X u = true ↔ DownloadRule X u := by
  simp only [downloadLocationOk, Bool.or_eq_true, urlOk_iff, DownloadRule, OrNewline, Re.anchored_iff]

theorem lookup_some_iff_of_nodup {α : Type} [BEq α] [LawfulBEq α] {β : Type} (l : List (α × β)) (h : (l.map (·.1)).Nodup) (k : α) (v : β) :
    l.lookup k = some v ↔ (k, v) ∈ l := by
  induction l with
  | nil => simp
  | cons p ps ih =>
    obtain ⟨k', v'⟩ := p
    simp only [List.map_cons, List.nodup_cons] at h
    rw [List.lookup_cons]
    by_cases hk : k = k'
    · subst hk
      simp only [beq_self_eq_true, Option.some.injEq, List.mem_cons, Prod.mk.injEq, true_and]
      constructor
      · intro e; exact .inl e.symm
      · rintro (e | e)
        · exact e.symm
        · exact absurd (List.mem_map.2 ⟨(k, v), e, rfl⟩) h.1
    · have : (k == k') = false := by simpa using hk
      simp only [this, List.mem_cons, Prod.mk.injEq, hk, false_and, false_or]
      exact ih h.2

theorem locatorMatches_iff (t l : Str) : locatorMatches t l = true ↔ ∃ r, (t, r) ∈ typeToRegex ∧ OrNewline (Re.Matches r) l := by
  have hn : (typeToRegex.map (·.1)).Nodup := by decide +kernel
  unfold locatorMatches
  constructor
  · intro h
    split at h
    · rename_i r hr
      exact ⟨r, (lookup_some_iff_of_nodup _ hn _ _).1 hr, (Re.anchored_iff _ _).1 h⟩
    · simp at h
  · rintro ⟨r, hr, h⟩
    rw [(lookup_some_iff_of_nodup _ hn _ _).2 hr]
    exact (Re.anchored_iff _ _).2 h

theorem refTypes_iff (c : ExternalPackageRefCategory) (hc : c ≠ .OTHER) (t : Str) :
    (categoryToRefTypes c).contains t = true ↔ RefTypeRule c t := by
  cases c <;> simp_all [categoryToRefTypes, RefTypeRule]

theorem validateExternalPackageRef_nil (X : Ext) (r : ExternalPackageRef) (pid ver : Str) :
    validateExternalPackageRef X r pid ver = [] ↔ ExternalPackageRefRule X (ver = v22) r := by
  unfold validateExternalPackageRef ExternalPackageRefRule
  have e23 : [s%"advisory", s%"fix", s%"url", s%"swid"].contains r.referenceType = true ↔ RefOnly23 r.referenceType := by
    simp [RefOnly23]
  simp only []
  split
  · rw [msgIf_nil]; simp [hasChar, List.contains_iff_mem]
  · rename_i hc
    split
    · rename_i h
      rw [e23] at h
      simp [h]
    · rename_i h22
      rw [e23] at h22
      split
      · rename_i ht
        rw [refTypes_iff _ hc] at ht
        simp [ht]
      · rename_i ht
        rw [refTypes_iff _ hc] at ht
        simp only [Classical.not_not] at ht
        simp only [h22, not_false_eq_true, true_and, ht]
        split
        · rename_i hu
          have hu' : r.referenceType = s%"advisory" ∨ r.referenceType = s%"fix" ∨ r.referenceType = s%"url" := by simpa using hu
          rw [msgIf_nil, Classical.not_not, urlOk_iff]
          constructor
          · intro h; exact .inl ⟨hu', h⟩
          · rintro (⟨-, h⟩ | ⟨h, -⟩ | ⟨re, h, -⟩)
            · exact h
            · exfalso; rw [h] at hu'; revert hu'; decide
            · have : r.referenceType ∈ typeToRegex.map (·.1) := List.mem_map.2 ⟨_, h, rfl⟩
              exfalso; rcases hu' with e | e | e <;> (rw [e] at this; revert this; decide)
        · rename_i hu
          have hu' : ¬ (r.referenceType = s%"advisory" ∨ r.referenceType = s%"fix" ∨ r.referenceType = s%"url") := by
            simpa using hu
          split
          · rename_i hsw
            rw [msgIf_nil, startsWith_iff]
            constructor
            · intro h
              simp only [not_or, Classical.not_not] at h
              exact .inr (.inl ⟨hsw, h.1, h.2⟩)
            · rintro (⟨h, -⟩ | ⟨-, h⟩ | ⟨re, h, -⟩)
              · exact absurd h hu'
              · simp [h.1, h.2]
              · have : r.referenceType ∈ typeToRegex.map (·.1) := List.mem_map.2 ⟨_, h, rfl⟩
                exfalso; rw [hsw] at this; revert this; decide
          · rename_i hsw
            rw [msgIf_nil, Classical.not_not, locatorMatches_iff]
            constructor
            · intro h; exact .inr (.inr h)
            · rintro (⟨h, -⟩ | ⟨h, -⟩ | h)
              · exact absurd h hu'
              · exact absurd h hsw
              · exact h

theorem elementType_file (d : Document) (id : Str) :
    getElementType id d = some .file ↔ InFiles d id ∧ ¬ ∃ q ∈ d.packages, q.spdxId = id := by
  unfold getElementType
  simp only [List.contains_iff_mem, List.mem_map, InFiles]
  split
  · rename_i h; simp [h]
  · rename_i h
    split
    · rename_i h'; simp [h, h']
    · rename_i h'
      split <;> simp [h']

theorem packageFileRelationships_nil (p : Package) (d : Document) :
    packageFileRelationships p d = [] ↔ ∀ r ∈ d.relationships, ¬ LinksFile d p r := by
  have h1 : ∀ r : Relationship, getTargetType r.relatedSpdxElementId d = some .file ↔
      ∃ id, r.relatedSpdxElementId = .val id ∧ InFiles d id ∧ ¬ ∃ q ∈ d.packages, q.spdxId = id := by
    intro r
    unfold getTargetType
    split
    · rename_i id h
      rw [elementType_file]
      constructor
      · intro g; exact ⟨id, h, g⟩
      · rintro ⟨i, e, g⟩; rw [h] at e; cases e; exact g
    · rename_i h
      simp only [reduceCtorEq, false_iff]
      rintro ⟨i, e, -⟩; exact h i e
  simp only [packageFileRelationships, List.append_eq_nil_iff, List.filter_eq_nil_iff, filterByTypeAndOrigin,
    filterByTypeAndTarget, List.mem_filter, decide_eq_true_eq, h1, elementType_file, LinksFile]
  grind

theorem validatePackage_nil (X : Ext) (p : Package) (ver : Str) (ctx : Ctx) :
    validatePackage X p ver ctx = [] ↔
      (∀ l, p.downloadLocation = .val l → DownloadRule X l) ∧
      (∀ u, p.homepage = some (.val u) → UrlRule X u) ∧
      (∀ v, p.verificationCode = some v → p.filesAnalyzed = true ∧ VerificationCodeRule v) ∧
      (∀ c ∈ p.checksums, ChecksumRule (ver = v22) c) ∧
      (∀ r ∈ p.externalReferences, ExternalPackageRefRule X (ver = v22) r) ∧
      (ver = v22 → p.primaryPackagePurpose = none ∧ p.builtDate = none ∧ p.releaseDate = none ∧ p.validUntilDate = none ∧
        p.licenseConcluded ≠ none ∧ p.licenseDeclared ≠ none ∧ p.copyrightText ≠ none) := by
  unfold validatePackage
  simp only [List.append_eq_nil_iff, and_assoc]
  refine and_congr ?_ (and_congr ?_ (and_congr ?_ (and_congr ?_ (and_congr ?_ ?_))))
  · split
    · rename_i l h; simp [msgIf_nil, downloadLocationOk_iff, h]
    · rename_i h; simp only [true_iff]; intro l e; exact absurd e (h l)
  · split
    · rename_i l h; simp [msgIf_nil, urlOk_iff, h]
    · rename_i h; simp only [true_iff]; intro l e; exact absurd e (h l)
  · split
    · rename_i v h
      cases p.filesAnalyzed <;> simp [validateVerificationCode_nil, h]
    · rename_i h; simp [h]
  · simp only [validateChecksums, flatMap_nil, validateChecksum_nil]
  · simp only [flatMap_nil, validateExternalPackageRef_nil]
  · split
    · rename_i h; simp only [List.append_eq_nil_iff, msgIf_nil, h, true_implies, and_assoc, ne_eq, Classical.not_not]
    · rename_i h; simp [h]

theorem validateSpdxId_own (d : Document) (id : Str) :
    validateSpdxId id d false false = [] ↔ IdRule d (fun _ => True) id :=
  (validateSpdxId_nil _ _ _ _).trans (IdRule_congr (by simp) id)

theorem validateSpdxId_doc (d : Document) (id : Str) :
    validateSpdxId id d true false = [] ↔ IdRule d (InDocument d) id :=
  (validateSpdxId_nil _ _ _ _).trans (IdRule_congr (by simp) id)

theorem validateSpdxId_files (d : Document) (id : Str) :
    validateSpdxId id d false true = [] ↔ IdRule d (InFiles d) id :=
  (validateSpdxId_nil _ _ _ _).trans (IdRule_congr (by simp) id)

theorem validatePackageInDocument_nil (X : Ext) (p : Package) (ver : Str) (d : Document) :
    validatePackageInDocument X p ver d = [] ↔ PackageRule X (ver = v22) d p := by
  unfold validatePackageInDocument
  simp only [List.append_eq_nil_iff, List.map_eq_nil_iff, validateSpdxId_own, validateLicExpr_nil,
    validatePackage_nil, and_assoc]
  unfold PackageRule
  cases hfa : p.filesAnalyzed
  · simp only [Bool.not_false, if_true, msgIf_nil, ne_eq, Classical.not_not, packageFileRelationships_nil, ite_nil, true_implies]
    constructor
    · rintro ⟨a, b, c, e, f, g, h, i, j, k, l⟩
      have hv : p.verificationCode = none := by
        cases hv : p.verificationCode with
        | none => rfl
        | some v => exact absurd (i v hv).1 (by simp)
      exact ⟨a, ⟨b, e, hv⟩, c, f, by simp [e], g, h, by simp [hv], j, k, l⟩
    · rintro ⟨a, ⟨b, e, hv⟩, c, f, -, g, h, -, j, k, l⟩
      exact ⟨a, b, c, e, f, g, h, by simp [hv], j, k, l⟩
  · simp only [Bool.not_true, Bool.false_eq_true, if_false, reduceCtorEq, false_implies, true_and]
    have : (if p.licenseInfoFromFiles ≠ [] then validateLicExprs X p.licenseInfoFromFiles d p.spdxId else []) = [] ↔
        ∀ e ∈ p.licenseInfoFromFiles, LicRule X d e := by
      split
      · rw [validateLicExprs_nil]
      · rename_i h; simp only [ne_eq, Classical.not_not] at h; simp [h]
    rw [this]
    constructor
    · rintro ⟨a, c, e, f, g⟩; exact ⟨a, c, f, e, g⟩
    · rintro ⟨a, c, e, f, g⟩; exact ⟨a, c, f, e, g⟩

theorem validateFileInDocument_nil (X : Ext) (f : File) (ver : Str) (d : Document) :
    validateFileInDocument X f ver d = [] ↔ FileRule X (ver = v22) d f := by
  unfold validateFileInDocument validateFile
  simp only [List.append_eq_nil_iff, List.map_eq_nil_iff, validateSpdxId_own, validateLicExpr_nil,
    validateLicExprs_nil, validateChecksums, flatMap_nil, validateChecksum_nil, msgIf_nil, startsWith_iff, Classical.not_not,
    List.contains_iff_mem, List.mem_map, and_assoc, FileRule]
  refine and_congr Iff.rfl (and_congr Iff.rfl (and_congr Iff.rfl (and_congr Iff.rfl (and_congr Iff.rfl (and_congr Iff.rfl ?_)))))
  split
  · rename_i h; simp only [List.append_eq_nil_iff, msgIf_nil, h, true_implies, and_assoc, ne_eq]
  · rename_i h; simp [h]

theorem validateSnippetInDocument_nil (X : Ext) (s : Snippet) (ver : Str) (d : Document) :
    validateSnippetInDocument X s ver d = [] ↔ SnippetRule X (ver = v22) d s := by
  unfold validateSnippetInDocument validateSnippet
  simp only [List.append_eq_nil_iff, List.map_eq_nil_iff, validateSpdxId_own, validateSpdxId_files, validateLicExpr_nil,
    validateLicExprs_nil, msgIf_nil, and_assoc, SnippetRule]
  refine and_congr Iff.rfl (and_congr Iff.rfl (and_congr Iff.rfl (and_congr Iff.rfl (and_congr ?_ (and_congr ?_ (and_congr ?_ ?_))))))
  · omega
  · omega
  · split
    · rename_i r h
      simp only [List.append_eq_nil_iff, msgIf_nil, h, Option.some.injEq, forall_eq']
      omega
    · rename_i h; simp [h]
  · split
    · rename_i h; simp only [List.append_eq_nil_iff, msgIf_nil, h, true_implies, ne_eq]
    · rename_i h; simp [h]

theorem validateAnnotation_nil (a : Annotation) (d : Document) : validateAnnotation a d = [] ↔ AnnotationRule d a := by
  simp only [validateAnnotation, List.append_eq_nil_iff, List.map_eq_nil_iff, validateSpdxId_doc, validateActor_nil,
    AnnotationRule]

theorem validateRelationship_nil (r : Relationship) (ver : Str) (d : Document) :
    validateRelationship r ver d = [] ↔ RelationshipRule (ver = v22) d r := by
  unfold validateRelationship
  simp only [List.append_eq_nil_iff, List.map_eq_nil_iff, validateSpdxId_doc, and_assoc, RelationshipRule]
  refine and_congr Iff.rfl (and_congr ?_ ?_)
  · split
    · rename_i id h; simp [validateSpdxId_doc, h]
    · rename_i h; simp only [true_iff]; intro l e; exact absurd e (h l)
  · split
    · rename_i h; simp only [msgIf_nil, h, true_and]
    · rename_i h; simp [h]

theorem validateExtracted_nil (X : Ext) (e : ExtractedLicensingInfo) : validateExtracted X e = [] ↔ ExtractedRule X e := by
  unfold validateExtracted ExtractedRule
  simp only [List.append_eq_nil_iff, flatMap_nil, msgIf_nil, Classical.not_not, urlOk_iff]
  refine and_congr ?_ Iff.rfl
  split
  · rename_i id h
    split
    · rename_i h0
      simp only [List.append_eq_nil_iff, msgIf_nil, Classical.not_not, h, Option.some.injEq, forall_eq', h0, ne_eq,
        not_false_eq_true, true_implies]
      refine and_congr (licRef_iff id) ?_
      cases ht : e.extractedText with
      | none => simp
      | some t => simp
    · rename_i h0; simp only [ne_eq, Classical.not_not] at h0; simp [h, h0]
  · rename_i h; simp [h]

/-! ### The whole document -/

theorem partMsgs_nil (X : Ext) (d : Document) :
    partMsgs X d = [] ↔ Parts X (d.creationInfo.spdxVersion = v22) d := by
  simp only [partMsgs, List.append_eq_nil_iff, flatMap_nil, validateCreationInfo_nil, validatePackageInDocument_nil,
    validateFileInDocument_nil, validateSnippetInDocument_nil, validateAnnotation_nil, validateRelationship_nil,
    validateExtracted_nil]
  constructor
  · rintro ⟨⟨⟨⟨⟨⟨a, b⟩, c⟩, e⟩, f⟩, g⟩, h⟩; exact ⟨a, b, c, e, f, g, h⟩
  · rintro ⟨a, b, c, e, f, g, h⟩; exact ⟨⟨⟨⟨⟨⟨a, b⟩, c⟩, e⟩, f⟩, g⟩, h⟩

theorem describesMsgs_nil (d : Document) : describesMsgs d = [] ↔ DescribesRule d := by
  simp only [describesMsgs, msgIf_nil, DescribesRule, List.append_eq_nil_iff, filterByTypeAndOrigin, filterByTypeAndTarget,
    List.filter_eq_nil_iff, decide_eq_true_eq]
  grind

theorem mem_dupScan (seen ids : List Str) (x : Str) :
    x ∈ dupScan seen ids ↔ (x ∈ seen ∧ x ∈ ids) ∨ 2 ≤ ids.count x := by
  induction ids generalizing seen with
  | nil => simp [dupScan]
  | cons y ys ih =>
    unfold dupScan
    rw [List.count_cons]
    split
    · rename_i hy
      have hy : y ∈ seen := by simpa using hy
      rw [List.mem_cons, ih]
      by_cases hxy : x = y
      · subst hxy; simp [hy]
      · have : (y == x) = false := by simpa using Ne.symm hxy
        simp [hxy, this]
    · rename_i hy
      have hy : y ∉ seen := by simpa using hy
      rw [ih]
      by_cases hxy : x = y
      · subst hxy
        simp only [List.mem_cons, true_or, true_and, beq_self_eq_true, if_true, hy, false_and, false_or]
        have hc : x ∈ ys ↔ 1 ≤ ys.count x := List.count_pos_iff.symm
        rw [hc]
        omega
      · have : (y == x) = false := by simpa using Ne.symm hxy
        simp [hxy, this]

/-- The reported identifiers are exactly those that occur at least twice. -/
theorem mem_duplicatedIds (ids : List Str) (x : Str) : x ∈ duplicatedIds ids ↔ 2 ≤ ids.count x := by
  simp only [duplicatedIds, mem_sortStr, List.mem_eraseDups, mem_dupScan, List.not_mem_nil, false_and, false_or]

theorem duplicatedIds_nil (ids : List Str) : duplicatedIds ids = [] ↔ ids.Nodup := by
  rw [List.eq_nil_iff_forall_not_mem, List.nodup_iff_count]
  simp only [mem_duplicatedIds]
  constructor
  · intro h a; have := h a; omega
  · intro h a; have := h a; omega

theorem elementIds_perm (d : Document) : (allSpdxIds d).Perm (elementIds d) := by
  unfold allSpdxIds elementIds containedIds
  refine List.Perm.cons _ (List.Perm.append_right _ ?_)
  exact List.perm_append_comm

theorem duplicateMsgs_nil (d : Document) : duplicateMsgs d = [] ↔ (elementIds d).Nodup := by
  simp only [duplicateMsgs, msgIf_nil, ne_eq, Classical.not_not, duplicatedIds_nil]
  exact (elementIds_perm d).nodup_iff

theorem versionMsgs_nil (d : Document) (ver : Option Str) : versionMsgs d ver = [] ↔
    (d.creationInfo.spdxVersion = v22 ∨ d.creationInfo.spdxVersion = v23) ∧
      (ver = none ∨ ver = some [] ∨ ver = some d.creationInfo.spdxVersion) := by
  unfold versionMsgs
  simp only [List.contains_iff_mem, List.mem_cons, List.not_mem_nil, or_false]
  split
  · rename_i h; simp [h]
  · rename_i h
    simp only [Classical.not_not] at h
    simp only [h, true_and]
    rw [ite_nil]
    cases ver with
    | none => simp
    | some v =>
      by_cases hv : v = [] <;> simp [hv]

theorem validateDocument_nil (X : Ext) (d : Document) (ver : Option Str) : validateDocument X d ver = [] ↔
    Valid X d ∧ (ver = none ∨ ver = some [] ∨ ver = some d.creationInfo.spdxVersion) := by
  unfold validateDocument
  split
  · rename_i h
    obtain ⟨h1, h2⟩ := (versionMsgs_nil _ _).1 h
    simp only [List.append_eq_nil_iff, partMsgs_nil, describesMsgs_nil, duplicateMsgs_nil]
    constructor
    · rintro ⟨⟨a, b⟩, c⟩; exact ⟨⟨h1, a, b, c⟩, h2⟩
    · rintro ⟨⟨-, a, b, c⟩, -⟩; exact ⟨⟨a, b⟩, c⟩
  · rename_i h
    simp only [List.append_eq_nil_iff, List.cons_ne_nil, and_false, false_iff]
    rintro ⟨⟨a, -, -, -⟩, b⟩
    exact h ((versionMsgs_nil _ _).2 ⟨a, b⟩)

end Spdx
