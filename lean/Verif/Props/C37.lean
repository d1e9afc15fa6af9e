import Verif.Model.Bump
import Verif.Spec.Example
/-
C37 – Every external package reference becomes exactly one of package URL, external identifier or external reference; a package URL is set
only when there is exactly one purl and it has no comment.

The first half is false of the code: references of the types url, maven-central, npm, nuget, bower and of any type that is not in the
table are dropped (`unsupported_dropped`). `kept_partial` and `count_partial` state it for the supported types.
-/
namespace Spdx.C37
open Spdx

/-! ### Specification -/

/-- The types that become external identifiers. -/
def identifierType (t : Str) : Option ExternalIdentifierType :=
  [(s%"cpe22Type", ExternalIdentifierType.CPE22), (s%"cpe23Type", .CPE23), (s%"swid", .SWID), (s%"purl", .PURL), (s%"swh", .SWHID),
   (s%"gitoid", .GITOID)].lookup t

/-- The types that become external references. -/
def referenceType (t : Str) : Option ExternalReferenceType :=
  [(s%"advisory", ExternalReferenceType.SECURITY_ADVISORY), (s%"fix", .SECURITY_FIX)].lookup t

def Supported (r : ExternalPackageRef) : Prop := (identifierType r.referenceType).isSome ∨ (referenceType r.referenceType).isSome
instance (r) : Decidable (Supported r) := inferInstanceAs (Decidable (_ ∨ _))

/-- The reference at a position is the only purl of the list, and has no comment. -/
def LonePurl (rs : List ExternalPackageRef) (r : ExternalPackageRef) : Prop :=
  ∃ before after, rs = before ++ r :: after ∧ r.referenceType = s%"purl" ∧ r.comment = none ∧
    ∀ x ∈ before ++ after, x.referenceType ≠ s%"purl"

/-- The external identifiers that the references should give, in order: all but the lone purl. -/
def expectedIds (lone : Bool) (rs : List ExternalPackageRef) : List ExternalIdentifier3 :=
  rs.filterMap fun r => if lone ∧ r.referenceType = s%"purl" then none
    else (identifierType r.referenceType).map fun t => ⟨t, r.locator, r.comment⟩

/-- The external references they should give, in order. -/
def expectedRefs (rs : List ExternalPackageRef) : List ExternalReference3 :=
  rs.filterMap fun r => (referenceType r.referenceType).map fun t => ⟨t, [r.locator], r.comment⟩

/-! ### Theorems -/

private theorem filter_single {α : Type} (f : α → Bool) (l : List α) (r : α) :
    l.filter f = [r] ↔ ∃ before after, l = before ++ r :: after ∧ f r = true ∧ ∀ x ∈ before ++ after, f x = false := by
  induction l with
  | nil => simp
  | cons a l ih =>
    by_cases ha : f a = true
    · rw [List.filter_cons_of_pos ha]
      constructor
      · intro h
        simp only [List.cons.injEq] at h
        obtain ⟨rfl, h⟩ := h
        exact ⟨[], l, rfl, ha, fun x hx => by simpa using List.filter_eq_nil_iff.1 h x (by simpa using hx)⟩
      · rintro ⟨before, after, e, hr, hx⟩
        cases before with
        | nil =>
          simp only [List.nil_append, List.cons.injEq] at e
          obtain ⟨rfl, rfl⟩ := e
          rw [List.filter_eq_nil_iff.2 (fun x h => by simp [hx x (by simpa using h)])]
        | cons b before =>
          simp only [List.cons_append, List.cons.injEq] at e
          obtain ⟨rfl, rfl⟩ := e
          have := hx a (by simp)
          simp [ha] at this
    · rw [List.filter_cons_of_neg ha, ih]
      constructor
      · rintro ⟨before, after, rfl, hr, hx⟩
        refine ⟨a :: before, after, rfl, hr, ?_⟩
        intro x h
        rcases List.mem_cons.1 h with rfl | h
        · simpa using ha
        · exact hx x h
      · rintro ⟨before, after, e, hr, hx⟩
        cases before with
        | nil =>
          simp only [List.nil_append, List.cons.injEq] at e
          obtain ⟨rfl, rfl⟩ := e
          exact absurd hr ha
        | cons b before =>
          simp only [List.cons_append, List.cons.injEq] at e
          obtain ⟨rfl, rfl⟩ := e
          exact ⟨before, after, rfl, hr, fun x h => hx x (by simp only [List.cons_append, List.mem_cons]; exact .inr h)⟩

private theorem onePurl_iff (rs : List ExternalPackageRef) (r : ExternalPackageRef) : onePurl rs = some r ↔ LonePurl rs r := by
  have h : onePurl rs = some r ↔ purlRefs rs = [r] ∧ r.comment = none := by
    unfold onePurl
    split
    · rename_i x hx
      rw [hx]
      split
      · rename_i hc
        simp only [Option.some.injEq, List.cons.injEq, and_true]
        exact ⟨fun h => ⟨h, h ▸ hc⟩, fun h => h.1⟩
      · rename_i hc
        simp only [reduceCtorEq, List.cons.injEq, and_true, false_iff, not_and]
        rintro rfl; exact hc
    · rename_i hx
      simp only [reduceCtorEq, false_iff, not_and]
      intro h; exact absurd h (hx r)
  rw [h, purlRefs, filter_single]
  unfold LonePurl
  simp only [decide_eq_true_eq, decide_eq_false_iff_not]
  constructor
  · rintro ⟨⟨b, a, e, hr, hx⟩, hc⟩; exact ⟨b, a, e, hr, hc, hx⟩
  · rintro ⟨b, a, e, hr, hc, hx⟩; exact ⟨⟨b, a, e, hr, hx⟩, hc⟩

/-- The package URL is set exactly when there is exactly one purl and it has no comment; it is that purl's locator. -/
theorem package_url_iff (rs : List ExternalPackageRef) (u : Str) :
    (bumpExternalRefs rs).1 = some u ↔ ∃ r, LonePurl rs r ∧ r.locator = u := by
  simp only [bumpExternalRefs, Option.map_eq_some_iff, onePurl_iff]

private def types : List Str :=
  [s%"cpe22Type", s%"cpe23Type", s%"advisory", s%"fix", s%"url", s%"swid", s%"maven-central", s%"npm", s%"nuget", s%"bower", s%"purl",
   s%"swh", s%"gitoid"]

private theorem table (t : Str) : (externalRefTypeMap t).join =
    match identifierType t, referenceType t with
    | some i, none => some (.inl i)
    | none, some r => some (.inr r)
    | _, _ => none := by
  have h : ∀ t ∈ types, (externalRefTypeMap t).join =
      match identifierType t, referenceType t with
      | some i, none => some (.inl i)
      | none, some r => some (.inr r)
      | _, _ => none := by decide +kernel
  by_cases ht : t ∈ types
  · exact h t ht
  · simp only [types, List.mem_cons, List.not_mem_nil, or_false, not_or] at ht
    obtain ⟨h1, h2, h3, h4, h5, h6, h7, h8, h9, h10, h11, h12, h13⟩ := ht
    have e1 : externalRefTypeMap t = none := by
      unfold externalRefTypeMap
      rw [if_neg h1, if_neg h2, if_neg h3, if_neg h4, if_neg h5, if_neg h6, if_neg h7, if_neg h8, if_neg h9, if_neg h10, if_neg h11,
        if_neg h12, if_neg h13]
    have b : ∀ k : Str, t ≠ k → (t == k) = false := fun k h => by simpa using h
    have e2 : identifierType t = none := by
      unfold identifierType
      simp only [List.lookup, b _ h1, b _ h2, b _ h6, b _ h11, b _ h12, b _ h13]
    have e3 : referenceType t = none := by
      unfold referenceType
      simp only [List.lookup, b _ h3, b _ h4]
    rw [e1, e2, e3]; rfl

private theorem not_both (t : Str) (h : (identifierType t).isSome = true) : referenceType t = none := by
  have hd : ∀ t ∈ types, (identifierType t).isSome = true → referenceType t = none := by decide +kernel
  by_cases ht : t ∈ types
  · exact hd t ht h
  · simp only [types, List.mem_cons, List.not_mem_nil, or_false, not_or] at ht
    obtain ⟨h1, h2, h3, h4, h5, h6, h7, h8, h9, h10, h11, h12, h13⟩ := ht
    have b : ∀ k : Str, t ≠ k → (t == k) = false := fun k h => by simpa using h
    unfold referenceType
    simp only [List.lookup, b _ h3, b _ h4]

private theorem bump_eq (r : ExternalPackageRef) :
    (match bumpExternalRef r with | some (.inl i) => some i | _ => none) =
      (identifierType r.referenceType).map (fun t => (⟨t, r.locator, r.comment⟩ : ExternalIdentifier3)) ∧
    (match bumpExternalRef r with | some (.inr i) => some i | _ => none) =
      (referenceType r.referenceType).map (fun t => (⟨t, [r.locator], r.comment⟩ : ExternalReference3)) := by
  have hb : bumpExternalRef r = (externalRefTypeMap r.referenceType).join.map fun x => match x with
      | .inl t => .inl { type := t, identifier := r.locator, comment := r.comment }
      | .inr t => .inr { type := t, locator := [r.locator], comment := r.comment } := by
    unfold bumpExternalRef
    split <;> rename_i h <;> simp [h]
  rw [hb, table]
  have := not_both r.referenceType
  cases h1 : identifierType r.referenceType <;> cases h2 : referenceType r.referenceType <;> simp_all

/-- The external identifiers and references of the migrated package are, in order, those of the supported types, with locator and comment
    unchanged; only the lone purl is left out, since it became the package URL. (Missing from the full statement: unsupported types.) -/
theorem kept_partial (rs : List ExternalPackageRef) :
    (bumpExternalRefs rs).2.1 = expectedIds (bumpExternalRefs rs).1.isSome rs ∧ (bumpExternalRefs rs).2.2 = expectedRefs rs := by
  simp only [bumpExternalRefs, otherRefs, Option.isSome_map, expectedIds, expectedRefs]
  generalize (onePurl rs).isSome = b
  induction rs with
  | nil => simp
  | cons r rs ih =>
    obtain ⟨h1, h2⟩ := bump_eq r
    by_cases hp : b = true ∧ r.referenceType = s%"purl"
    · rw [List.filter_cons_of_neg (by simpa using hp)]
      have hr : referenceType r.referenceType = none := by rw [hp.2]; decide +kernel
      simp only [List.filterMap_cons, hr, Option.map_none]
      rw [if_pos hp]
      exact ih
    · rw [List.filter_cons_of_pos (by simp only [decide_eq_true_eq]; exact hp)]
      simp only [List.filterMap_cons]
      rw [if_neg hp, ← h1, ← h2]
      cases bumpExternalRef r with
      | none => exact ih
      | some x =>
        cases x with
        | inl x => simp only [List.filterMap_cons]; exact ⟨by rw [ih.1], ih.2⟩
        | inr x => simp only [List.filterMap_cons]; exact ⟨ih.1, by rw [ih.2]⟩

/-- If all types are supported, the number of references is the number of results. -/
theorem count_partial (rs : List ExternalPackageRef) (h : ∀ r ∈ rs, Supported r) :
    rs.length = (bumpExternalRefs rs).1.toList.length + (bumpExternalRefs rs).2.1.length + (bumpExternalRefs rs).2.2.length := by
  have key : ∀ (b : Bool) (l : List ExternalPackageRef), (∀ r ∈ l, Supported r) →
      l.length = (if b then (purlRefs l).length else 0) + (expectedIds b l).length + (expectedRefs l).length := by
    intro b l hl
    induction l with
    | nil => cases b <;> simp [purlRefs, expectedIds, expectedRefs]
    | cons r l ih =>
      have ih := ih (fun r hr => hl r (.tail _ hr))
      have hs := hl r (.head _)
      simp only [purlRefs, expectedIds, expectedRefs, List.length_cons, List.filterMap_cons, List.filter_cons, decide_eq_true_eq] at ih ⊢
      by_cases hp : r.referenceType = s%"purl"
      · have h1 : identifierType r.referenceType = some .PURL := by rw [hp]; decide +kernel
        have h2 : referenceType r.referenceType = none := by rw [hp]; decide +kernel
        cases b <;> simp [hp, h1, h2, ih] at ih ⊢ <;> rw [← hp] <;> simp [h1, h2] <;> omega
      · simp only [hp, and_false, if_false]
        rcases hs with hs | hs
        · have := not_both _ hs
          obtain ⟨x, hx⟩ := Option.isSome_iff_exists.1 hs
          simp only [this, hx, Option.map_some, Option.map_none, List.length_cons]
          omega
        · have : identifierType r.referenceType = none := by
            cases h : identifierType r.referenceType with
            | none => rfl
            | some x => have := not_both r.referenceType (by simp [h]); simp [this] at hs
          obtain ⟨x, hx⟩ := Option.isSome_iff_exists.1 hs
          simp only [this, hx, Option.map_some, Option.map_none, List.length_cons]
          omega
  rw [(kept_partial rs).1, (kept_partial rs).2]
  have hk := key (bumpExternalRefs rs).1.isSome rs h
  have hp : (if (bumpExternalRefs rs).1.isSome = true then (purlRefs rs).length else 0) = (bumpExternalRefs rs).1.toList.length := by
    show (if ((onePurl rs).map (·.locator)).isSome = true then (purlRefs rs).length else 0) = ((onePurl rs).map (·.locator)).toList.length
    cases h : onePurl rs with
    | none => rfl
    | some r =>
      have : purlRefs rs = [r] := by
        unfold onePurl at h
        split at h
        · rename_i x hx; rw [hx]; split at h <;> simp_all
        · simp at h
      simp [this]
  rw [hp] at hk
  exact hk

/-- The full statement fails: a reference of an unsupported type, for example a URL, leaves no trace. -/
theorem unsupported_dropped (r : ExternalPackageRef) (h : ¬ Supported r) : bumpExternalRefs [r] = (none, [], []) := by
  have hp : r.referenceType ≠ s%"purl" := by
    intro hp; apply h; left; rw [hp]; decide +kernel
  have h1 : (bumpExternalRefs [r]).1 = none := by
    simp [bumpExternalRefs, onePurl, purlRefs, hp]
  obtain ⟨h2, h3⟩ := kept_partial [r]
  simp only [Supported, not_or, Bool.not_eq_true, Option.isSome_eq_false_iff, Option.isNone_iff_eq_none] at h
  simp only [expectedIds, expectedRefs, List.filterMap_cons, h.1, h.2, Option.map_none, List.filterMap_nil, ite_self] at h2 h3
  rw [← h1, ← h2, ← h3]

/-- A package with nothing but an npm reference. -/
theorem npm_reference_lost : ∃ r : ExternalPackageRef, r.referenceType = s%"npm" ∧ bumpExternalRefs [r] = (none, [], []) :=
  ⟨{ category := .PACKAGE_MANAGER, referenceType := s%"npm", locator := s%"http-server@0.3.0" }, rfl, unsupported_dropped _ (by decide +kernel)⟩

/-- The migrated package holds these results. -/
theorem in_package (ns id : Str) (p : Package) (q : Package3) (h : bumpedPackage ns id p = .ok q) :
    (q.packageUrl, q.externalIdentifier, q.externalReference) = bumpExternalRefs p.externalReferences := by
  simp only [bumpedPackage] at h
  split at h <;> cases h <;> rfl

/-! Non-vacuity -/
private def refs : List ExternalPackageRef :=
  [{ category := .SECURITY, referenceType := s%"cpe23Type", locator := s%"cpe:2.3:x" },
   { category := .PACKAGE_MANAGER, referenceType := s%"purl", locator := s%"pkg:a/b@1" },
   { category := .SECURITY, referenceType := s%"fix", locator := s%"https://e.org/f", comment := some s%"c" }]
example : (∀ r ∈ refs, Supported r) ∧
    bumpExternalRefs refs = (some s%"pkg:a/b@1", [⟨.CPE23, s%"cpe:2.3:x", none⟩], [⟨.SECURITY_FIX, [s%"https://e.org/f"], some s%"c"⟩]) := by
  decide +kernel
example : (bumpExternalRefs (refs ++ refs)).1 = none ∧ (bumpExternalRefs (refs ++ refs)).2.1.length = 4 := by decide +kernel

end Spdx.C37
