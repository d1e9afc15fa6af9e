import Verif.Lemmas.RdfLic
import Verif.Spec.RdfNames
/- The reader does not look at the names of blank nodes. -/
namespace Spdx
open Spec

section
variable {σ : List Nat → List Nat}

theorem rename_inj (hσ : ∀ p q, σ p = σ q → p = q) {a b : RdfNode} (h : a.rename σ = b.rename σ) : a = b := by
  cases a <;> cases b <;> simp only [RdfNode.rename, RdfNode.bnode.injEq, RdfNode.uri.injEq, RdfNode.str.injEq, RdfNode.bool.injEq, RdfNode.int.injEq, reduceCtorEq] at h ⊢
  all_goals first | exact h | exact hσ _ _ h

@[simp] theorem rename_truthy (n : RdfNode) : (n.rename σ).truthy = n.truthy := by cases n <;> rfl
@[simp] theorem rename_parseRdfId (b : Bindings) (ns : Str) (n : RdfNode) : parseRdfId b ns (n.rename σ) = parseRdfId b ns n := by cases n <;> rfl

theorem rename_eq_uri {n : RdfNode} {u : Str} : n.rename σ = .uri u ↔ n = .uri u := by
  cases n <;> simp [RdfNode.rename]

@[simp] theorem rename_eq_spdxTerm {n : RdfNode} {t : Str} : n.rename σ = spdxTerm t ↔ n = spdxTerm t := rename_eq_uri
@[simp] theorem rename_eq_pointerTerm {n : RdfNode} {t : Str} : n.rename σ = pointerTerm t ↔ n = pointerTerm t := rename_eq_uri

theorem rename_objects (hσ : ∀ p q, σ p = σ q → p = q) (g : RdfGraph) (s : RdfNode) (p : Pred) :
    (g.rename σ).objects (s.rename σ) p = (g.objects s p).map (RdfNode.rename σ) := by
  induction g with
  | nil => rfl
  | cons t g ih =>
    obtain ⟨a, q, o⟩ := t
    have e1 : RdfGraph.rename σ ((a, q, o) :: g) = (a.rename σ, q, o.rename σ) :: RdfGraph.rename σ g := rfl
    rw [e1, objects_cons, objects_cons, List.map_append, ih]
    congr 1
    by_cases h : a = s ∧ q = p
    · rw [if_pos h, if_pos ⟨by rw [h.1], h.2⟩]; rfl
    · rw [if_neg h, if_neg (fun h' => h ⟨rename_inj hσ h'.1, h'.2⟩)]; rfl

theorem rename_subjects (g : RdfGraph) (p : Pred) (t : Str) :
    (g.rename σ).subjects p (spdxTerm t) = (g.subjects p (spdxTerm t)).map (RdfNode.rename σ) := by
  induction g with
  | nil => rfl
  | cons x g ih =>
    obtain ⟨a, q, o⟩ := x
    have e1 : RdfGraph.rename σ ((a, q, o) :: g) = (a.rename σ, q, o.rename σ) :: RdfGraph.rename σ g := rfl
    rw [e1]
    unfold RdfGraph.subjects at ih ⊢
    by_cases h : q = p ∧ o = spdxTerm t
    · rw [List.filter_cons_of_pos (by simpa using h), List.filter_cons_of_pos (by simpa using h), List.map_cons, List.map_cons, List.map_cons, ih]
    · rw [List.filter_cons_of_neg (by simpa using h), List.filter_cons_of_neg (by simpa using h), ih]

theorem rename_pairs (g : RdfGraph) (p : Pred) :
    (g.rename σ).pairs p = (g.pairs p).map fun e => (e.1.rename σ, e.2.rename σ) := by
  induction g with
  | nil => rfl
  | cons x g ih =>
    obtain ⟨a, q, o⟩ := x
    have e1 : RdfGraph.rename σ ((a, q, o) :: g) = (a.rename σ, q, o.rename σ) :: RdfGraph.rename σ g := rfl
    rw [e1]
    unfold RdfGraph.pairs at ih ⊢
    by_cases h : q = p
    · rw [List.filter_cons_of_pos (by simpa using h), List.filter_cons_of_pos (by simpa using h), List.map_cons, List.map_cons, List.map_cons, ih]
    · rw [List.filter_cons_of_neg (by simpa using h), List.filter_cons_of_neg (by simpa using h), ih]

theorem mapM_map_eq {α β γ : Type} {f : β → Option γ} {k : α → β} {f' : α → Option γ} (h : ∀ a, f (k a) = f' a) (l : List α) :
    (l.map k).mapM f = l.mapM f' := by
  induction l with
  | nil => rfl
  | cons a l ih => rw [List.map_cons, List.mapM_cons, List.mapM_cons, h, ih]

theorem specialTexts (p : List Nat) : blankName p ≠ s%"NOASSERTION" ∧ blankName p ≠ s%"NONE" :=
  ⟨blank_ne p 'O' (by decide) (by decide), blank_ne p 'O' (by decide) (by decide)⟩

theorem rename_specialOr {α : Type} {m m' : RdfNode → Option (Option α)} (v : RdfNode) (hm : m (v.rename σ) = m' v) :
    specialOr m (v.rename σ) = specialOr m' v := by
  unfold specialOr
  rw [hm]
  have h1 : ((v.rename σ).toPyStr = some s%"NOASSERTION") = (v.toPyStr = some s%"NOASSERTION") := by
    cases v with
    | bnode p =>
      exact propext ⟨fun h => absurd (Option.some.inj h) (specialTexts _).1, fun h => absurd (Option.some.inj h) (specialTexts _).1⟩
    | _ => rfl
  have h2 : ((v.rename σ).toPyStr = some s%"NONE") = (v.toPyStr = some s%"NONE") := by
    cases v with
    | bnode p =>
      exact propext ⟨fun h => absurd (Option.some.inj h) (specialTexts _).2, fun h => absurd (Option.some.inj h) (specialTexts _).2⟩
    | _ => rfl
  simp only [rename_truthy, rename_eq_spdxTerm, h1, h2]

/-- The names of blank nodes do not begin with a text that has a colon. -/
theorem rename_startsWith (n : RdfNode) {u : Str} (h : ':' ∈ u) : startsWith (n.rename σ).text u = startsWith n.text u := by
  cases n with
  | bnode p =>
    have h1 : ∀ q, startsWith (blankName q) u = false := by
      intro q
      rw [Bool.eq_false_iff]
      intro h'
      rw [startsWith_iff] at h'
      exact ns_not_blank h q h'
    show startsWith (blankName (σ p)) u = startsWith (blankName p) u
    rw [h1, h1]
  | _ => rfl

theorem colon_license : ':' ∈ licenseNamespace := by decide

variable {g : RdfGraph}

theorem rename_namespace (env : RdfEnv) :
    parseNamespace env (g.rename σ) = (parseNamespace env g).map fun x => (x.1, x.2.1, x.2.2.rename σ) := by
  unfold parseNamespace
  rw [rename_subjects]
  match g.subjects .type (spdxTerm s%"SpdxDocument") with
  | [] => rfl
  | [n] =>
    by_cases hb : n.rename σ = n
    · simp only [List.map_cons, List.map_nil, hb]
      by_cases h1 : '#' ∈ n.text
      · by_cases h2 : env.defrag n.text = []
        · simp only [h1, h2, if_true, Option.map_none]
        · by_cases h3 : fragmentOf n.text = []
          · simp only [h1, h2, h3, if_true, if_false, Option.map_none]
          · simp only [h1, h2, h3, if_true, if_false, Option.map_some, hb]
      · simp only [h1, if_false, Option.map_none]
    · cases n with
      | bnode p =>
        have h1 : ∀ q, '#' ∉ blankName q := fun q h => absurd (blankName_mem h) (by decide)
        refine (if_neg (h1 _)).trans (Eq.trans ?_ (congrArg _ (if_neg (h1 _)).symm))
        rfl
      | _ => exact absurd rfl hb
  | _ :: _ :: _ => rfl

theorem rename_rangeKind (n : RdfNode) : rangeKind (n.rename σ) = rangeKind n := by
  unfold rangeKind
  simp only [rename_eq_pointerTerm]

variable (hσ : ∀ p q, σ p = σ q → p = q)
include hσ

theorem rename_uniqueValue (s : RdfNode) (p : Pred) :
    uniqueValue (g.rename σ) (s.rename σ) p = (uniqueValue g s p).map (Option.map (RdfNode.rename σ)) := by
  unfold uniqueValue
  rw [rename_objects hσ]
  match g.objects s p with
  | [] => rfl
  | [_] => rfl
  | _ :: _ :: _ => rfl

theorem rename_someValue (s : RdfNode) (p : Pred) : someValue (g.rename σ) (s.rename σ) p = (someValue g s p).map (RdfNode.rename σ) := by
  unfold someValue
  rw [rename_objects hσ, List.head?_map]

theorem rename_rdfLiteral {α : Type} (s : RdfNode) (p : Pred) {m m' : RdfNode → Option α} (hm : ∀ v, m (v.rename σ) = m' v) :
    rdfLiteral (g.rename σ) (s.rename σ) p m = rdfLiteral g s p m' := by
  unfold rdfLiteral
  rw [rename_uniqueValue hσ]
  cases uniqueValue g s p with
  | none => rfl
  | some v =>
    cases v with
    | none => rfl
    | some v =>
      simp only [Option.map_some, rename_truthy]
      unfold applyMethod
      rw [hm]

theorem rename_rdfSpecial {α : Type} (s : RdfNode) (p : Pred) {m m' : RdfNode → Option (Option α)} (hm : ∀ v, m (v.rename σ) = m' v) :
    rdfSpecial (g.rename σ) (s.rename σ) p m = rdfSpecial g s p m' := by
  unfold rdfSpecial
  rw [rename_uniqueValue hσ]
  cases uniqueValue g s p with
  | none => rfl
  | some v =>
    cases v with
    | none => rfl
    | some v => exact rename_specialOr v (hm v)

variable (hp : PlainTexts g)
include hp

/-- The values of textual properties are left as they are. -/
theorem rename_textual (s : RdfNode) {p : Pred} (ht : textual p = true) : (g.rename σ).objects (s.rename σ) p = g.objects s p := by
  rw [rename_objects hσ]
  have : ∀ o ∈ g.objects s p, o.rename σ = o := by
    intro o ho
    have := hp s p o ((mem_objects _ _ _ _).1 ho) ht
    cases o with
    | bnode q => exact absurd rfl (this q)
    | _ => rfl
  exact (List.map_congr_left this).trans (List.map_id _)

theorem rename_lit {α : Type} (s : RdfNode) {p : Pred} (ht : textual p = true) (m : RdfNode → Option α) :
    rdfLiteral (g.rename σ) (s.rename σ) p m = rdfLiteral g s p m := by
  unfold rdfLiteral uniqueValue
  rw [rename_textual hσ hp s ht]

theorem rename_special {α : Type} (s : RdfNode) {p : Pred} (ht : textual p = true) (m : RdfNode → Option (Option α)) :
    rdfSpecial (g.rename σ) (s.rename σ) p m = rdfSpecial g s p m := by
  unfold rdfSpecial uniqueValue
  rw [rename_textual hσ hp s ht]

theorem rename_rdfTexts (s : RdfNode) {p : Pred} (ht : textual p = true) : rdfTexts (g.rename σ) (s.rename σ) p = rdfTexts g s p := by
  unfold rdfTexts
  rw [rename_textual hσ hp s ht]

theorem rename_parseException (n : RdfNode) : parseException (g.rename σ) (n.rename σ) = parseException g n := by
  unfold parseException
  rw [rename_startsWith n colon_license]
  have : someValue (g.rename σ) (n.rename σ) .licenseExceptionId = someValue g n .licenseExceptionId := by
    unfold someValue
    rw [rename_textual hσ hp n rfl]
  rw [this]
  cases n with
  | bnode p =>
    refine (if_neg (license_not_blank _)).trans (if_neg (license_not_blank _)).symm
  | _ => rfl

theorem rename_lic (env : RdfEnv) {ns : Str} (hns : ':' ∈ ns) (depth : Nat) (n : RdfNode) :
    parseRdfLic env (g.rename σ) ns depth (n.rename σ) = parseRdfLic env g ns depth n := by
  induction depth generalizing n with
  | zero => rfl
  | succ depth ih =>
    have hmem : ((g.rename σ).objects (n.rename σ) .member).mapM (parseRdfLic env (g.rename σ) ns depth) =
        (g.objects n .member).mapM (parseRdfLic env g ns depth) := by
      rw [rename_objects hσ]
      exact mapM_map_eq ih _
    rw [parseRdfLic.eq_def, parseRdfLic.eq_def env g]
    dsimp only
    rw [rename_startsWith n colon_license, rename_startsWith n hns, hmem, rename_someValue hσ, rename_someValue hσ, rename_someValue hσ]
    by_cases h1 : startsWith n.text licenseNamespace = true
    · rw [if_pos h1, if_pos h1]
      cases n with
      | bnode p => exact absurd h1 (license_not_blank p)
      | _ => rfl
    rw [if_neg h1, if_neg h1]
    by_cases h2 : startsWith n.text ns = true
    · rw [if_pos h2, if_pos h2]
      cases n <;> rfl
    rw [if_neg h2, if_neg h2]
    cases someValue g n .type with
    | none => rfl
    | some ty =>
      simp only [Option.map_some, rename_eq_spdxTerm]
      congr 1
      congr 1
      congr 1
      cases someValue g n .member with
      | none => rfl
      | some m =>
        simp only [Option.map_some, Option.bind_eq_bind, Option.bind_some]
        rw [ih]
        cases someValue g n .licenseException with
        | none => rfl
        | some x =>
          simp only [Option.map_some, Option.bind_some]
          rw [rename_parseException hσ hp]

theorem rename_licMethod (env : RdfEnv) {ns : Str} (hns : ':' ∈ ns) (n : RdfNode) :
    licMethod env (g.rename σ) ns (n.rename σ) = licMethod env g ns n :=
  rename_lic hσ hp env hns env.depth n

theorem rename_rdfLicenses (env : RdfEnv) {ns : Str} (hns : ':' ∈ ns) (s : RdfNode) (p : Pred) :
    rdfLicenses env (g.rename σ) ns (s.rename σ) p = rdfLicenses env g ns s p := by
  unfold rdfLicenses
  rw [rename_objects hσ]
  refine mapM_map_eq (fun v => ?_) _
  rw [rename_specialOr v (rename_licMethod hσ hp env hns v)]

theorem rename_license (env : RdfEnv) {ns : Str} (hns : ':' ∈ ns) (s : RdfNode) (p : Pred) :
    rdfSpecial (g.rename σ) (s.rename σ) p (licMethod env (g.rename σ) ns) = rdfSpecial g s p (licMethod env g ns) :=
  rename_rdfSpecial hσ s p (rename_licMethod hσ hp env hns)

theorem rename_checksum (n : RdfNode) : parseRdfChecksum (g.rename σ) (n.rename σ) = parseRdfChecksum g n := by
  unfold parseRdfChecksum
  rw [rename_lit hσ hp n rfl, rename_lit hσ hp n rfl]

theorem rename_checksums (n : RdfNode) :
    ((g.rename σ).objects (n.rename σ) .checksum).mapM (parseRdfChecksum (g.rename σ)) = (g.objects n .checksum).mapM (parseRdfChecksum g) := by
  rw [rename_objects hσ]
  exact mapM_map_eq (rename_checksum hσ hp) _

theorem rename_extRef (ns : Str) (b : Bindings) (n : RdfNode) : parseExtRef (g.rename σ) ns b (n.rename σ) = parseExtRef g ns b n := by
  unfold parseExtRef
  rw [rename_parseRdfId, rename_lit hσ hp n rfl, rename_rdfLiteral hσ n .checksum (rename_checksum hσ hp)]

theorem rename_extRefs (ns : Str) (b : Bindings) (l : List RdfNode) :
    parseExtRefs (g.rename σ) ns b (l.map (RdfNode.rename σ)) = parseExtRefs g ns b l := by
  induction l generalizing b with
  | nil => rfl
  | cons n l ih =>
    rw [List.map_cons, parseExtRefs, parseExtRefs, rename_extRef hσ hp]
    congr 1
    funext x
    simp only [ih]

omit hσ hp in
theorem bind_eq {α β : Type} {o o' : Option α} {f f' : α → Option β} (h : o = o') (hf : ∀ a, f a = f' a) : o.bind f = o'.bind f' := by
  subst h
  exact congrArg _ (funext hf)

theorem rename_info (env : RdfEnv) (b : Bindings) : parseRdfCreationInfo env b (g.rename σ) = parseRdfCreationInfo env b g := by
  unfold parseRdfCreationInfo
  rw [rename_namespace]
  cases parseNamespace env g with
  | none => simp only [Option.map_none, Option.bind_eq_bind, Option.bind_none]
  | some x =>
    obtain ⟨ns, id, doc⟩ := x
    simp only [Option.map_some, Option.bind_eq_bind, Option.bind_some]
    refine bind_eq (congrArg _ (rename_lit hσ hp doc rfl _)) fun version => ?_
    refine bind_eq (congrArg _ (rename_lit hσ hp doc rfl _)) fun license => ?_
    refine bind_eq (rename_lit hσ hp doc rfl _) fun comment => ?_
    refine bind_eq (congrArg _ (rename_lit hσ hp doc rfl _)) fun name => ?_
    rw [rename_subjects, List.head?_map]
    cases (g.subjects .type (spdxTerm s%"CreationInfo")).head? with
    | none => rfl
    | some i =>
      simp only [Option.map_some, Option.filter_some, rename_truthy]
      by_cases ht : i.truthy = true
      · rw [if_pos ht, if_pos ht]
        simp only [Option.bind_some]
        refine bind_eq (congrArg _ (rename_lit hσ hp i rfl _)) fun created => ?_
        refine bind_eq (rename_lit hσ hp i rfl _) fun listVersion => ?_
        refine bind_eq (rename_lit hσ hp i rfl _) fun creatorComment => ?_
        refine bind_eq (congrArg _ (rename_textual hσ hp i rfl)) fun creators => ?_
        rw [rename_objects hσ g doc .externalDocumentRef, rename_extRefs hσ hp]
      · rw [if_neg ht, if_neg ht]
        rfl

theorem rename_annotation (b : Bindings) (ns : Str) (e : RdfNode × RdfNode) :
    parseRdfAnnotation b (g.rename σ) ns (e.1.rename σ, e.2.rename σ) = parseRdfAnnotation b g ns e := by
  unfold parseRdfAnnotation
  dsimp only
  rw [rename_parseRdfId, rename_lit hσ hp e.2 rfl, rename_lit hσ hp e.2 rfl, rename_lit hσ hp e.2 rfl, rename_lit hσ hp e.2 rfl]

theorem rename_relationship (b : Bindings) (ns : Str) (e : RdfNode × RdfNode) :
    parseRdfRelationship b (g.rename σ) ns (e.1.rename σ, e.2.rename σ) = parseRdfRelationship b g ns e := by
  unfold parseRdfRelationship
  dsimp only
  rw [rename_parseRdfId, rename_lit hσ hp e.2 rfl, rename_rdfSpecial hσ _ _ (rename_parseRdfId b ns), rename_lit hσ hp e.2 rfl]

theorem rename_file (env : RdfEnv) (b : Bindings) {ns : Str} (hns : ':' ∈ ns) (n : RdfNode) :
    parseRdfFile env b (g.rename σ) ns (n.rename σ) = parseRdfFile env b g ns n := by
  unfold parseRdfFile
  rw [rename_parseRdfId, rename_checksums hσ hp, rename_textual hσ hp n rfl, rename_license hσ hp env hns,
    rename_rdfLicenses hσ hp env hns, rename_special hσ hp n rfl, rename_rdfTexts hσ hp n rfl, rename_rdfTexts hσ hp n rfl,
    rename_lit hσ hp n rfl, rename_lit hσ hp n rfl, rename_lit hσ hp n rfl, rename_lit hσ hp n rfl]

theorem rename_code (n : RdfNode) : parseRdfVerificationCode (g.rename σ) (n.rename σ) = parseRdfVerificationCode g n := by
  unfold parseRdfVerificationCode
  rw [rename_lit hσ hp n rfl, rename_rdfTexts hσ hp n rfl]

theorem rename_packageRef (ns : Str) (n : RdfNode) : parseRdfPackageRef (g.rename σ) ns (n.rename σ) = parseRdfPackageRef g ns n := by
  unfold parseRdfPackageRef
  rw [rename_lit hσ hp n rfl, rename_lit hσ hp n rfl, rename_lit hσ hp n rfl, rename_lit hσ hp n rfl]

theorem rename_package (env : RdfEnv) (b : Bindings) {ns : Str} (hns : ':' ∈ ns) (n : RdfNode) :
    parseRdfPackage env b (g.rename σ) ns (n.rename σ) = parseRdfPackage env b g ns n := by
  have hr : ((g.rename σ).objects (n.rename σ) .externalRef).mapM (parseRdfPackageRef (g.rename σ) ns) =
      (g.objects n .externalRef).mapM (parseRdfPackageRef g ns) := by
    rw [rename_objects hσ]
    exact mapM_map_eq (rename_packageRef hσ hp ns) _
  have ha : (someValue (g.rename σ) (n.rename σ) .filesAnalyzed).elim true RdfNode.truthy = (someValue g n .filesAnalyzed).elim true RdfNode.truthy := by
    rw [rename_someValue hσ]
    cases someValue g n .filesAnalyzed with
    | none => rfl
    | some v => exact rename_truthy v
  have hc := rename_rdfLiteral (g := g) hσ n .packageVerificationCode (rename_code (g := g) hσ hp)
  unfold parseRdfPackage
  rw [rename_parseRdfId, rename_checksums hσ hp, hr, ha, hc, rename_license hσ hp env hns, rename_license hσ hp env hns,
    rename_rdfLicenses hσ hp env hns, rename_rdfTexts hσ hp n rfl]
  rw [rename_special hσ hp n rfl, rename_special hσ hp n rfl, rename_special hσ hp n rfl, rename_special hσ hp n rfl]
  repeat rw [rename_lit hσ hp n rfl]

omit hp in
theorem rename_rangeValue (n : RdfNode) (k : RangeKind) : parseRangeValue (g.rename σ) (n.rename σ) k = parseRangeValue g n k := by
  unfold parseRangeValue
  rw [rename_objects hσ]
  generalize g.objects n (match k with | .byte => .offset | .line => .lineNumber) = l
  match l with
  | [] => rfl
  | [a] => cases a <;> rfl
  | a :: b :: _ => rfl

omit hp in
theorem rename_pointer (n : RdfNode) (p : Pred) :
    pointerOf (g.rename σ) (n.rename σ) p = (pointerOf g n p).map fun x => (x.1.rename σ, x.2.rename σ) := by
  unfold pointerOf
  rw [rename_uniqueValue hσ]
  cases uniqueValue g n p with
  | none => rfl
  | some v =>
    cases v with
    | none => rfl
    | some v =>
      simp only [Option.map_some, needed, Option.bind_eq_bind, Option.bind_some, id, Option.filter_some, rename_truthy]
      by_cases ht : v.truthy = true
      · rw [if_pos ht, if_pos ht]
        simp only [Option.bind_some]
        rw [rename_someValue hσ]
        cases someValue g v .type <;> rfl
      · rw [if_neg ht, if_neg ht]
        rfl

omit hp in
theorem rename_range (n : RdfNode) : parseRdfRange (g.rename σ) (n.rename σ) = parseRdfRange g n := by
  unfold parseRdfRange
  rw [rename_pointer hσ, rename_pointer hσ]
  cases pointerOf g n .startPointer with
  | none => rfl
  | some x =>
    cases pointerOf g n .endPointer with
    | none => rfl
    | some y =>
      obtain ⟨t, a⟩ := x
      obtain ⟨t', z⟩ := y
      simp only [Option.map_some, Option.bind_eq_bind, Option.bind_some]
      rw [rename_rangeKind]
      by_cases h : t = t'
      · rw [if_neg (by simp [h]), if_neg (by simp [h])]
        congr 1
        funext k
        rw [rename_rangeValue hσ, rename_rangeValue hσ]
      · rw [if_pos (fun e => h (rename_inj hσ e)), if_pos h]

omit hp in
theorem rename_ranges (rs : Option (Int × Int) × Option (Int × Int)) (l : List RdfNode) :
    parseRdfRanges (g.rename σ) rs (l.map (RdfNode.rename σ)) = parseRdfRanges g rs l := by
  induction l generalizing rs with
  | nil => rfl
  | cons n l ih =>
    rw [List.map_cons, parseRdfRanges, parseRdfRanges, rename_range hσ]
    congr 1
    funext r
    congr 1
    funext r
    exact ih r

theorem rename_snippet (env : RdfEnv) (b : Bindings) {ns : Str} (hns : ':' ∈ ns) (n : RdfNode) :
    parseRdfSnippet env b (g.rename σ) ns (n.rename σ) = parseRdfSnippet env b g ns n := by
  have hr := rename_ranges (g := g) hσ (none, none) (g.objects n .range)
  rw [← rename_objects hσ] at hr
  unfold parseRdfSnippet
  rw [rename_parseRdfId, rename_someValue hσ]
  simp only [Option.bind_eq_bind, Option.bind_map]
  congr 1
  funext _
  congr 1
  funext f
  rw [Function.comp_apply, rename_parseRdfId, hr]
  rw [rename_license hσ hp env hns, rename_rdfLicenses hσ hp env hns, rename_special hσ hp n rfl, rename_rdfTexts hσ hp n rfl]
  repeat rw [rename_lit hσ hp n rfl]

theorem rename_extracted (ns : Str) (n : RdfNode) (hn : ∀ p, n = .bnode p → ∃ x, (n, .licenseId, .str x) ∈ g ∧ strip x ≠ []) :
    parseRdfExtracted (g.rename σ) ns (n.rename σ) = parseRdfExtracted g ns n := by
  have h1 : (rdfLiteral g n .licenseId stripText).bind (extractedId ns (n.rename σ)) = (rdfLiteral g n .licenseId stripText).bind (extractedId ns n) := by
    cases n with
    | bnode p =>
      obtain ⟨x, hx, hne⟩ := hn p rfl
      have hm : RdfNode.str x ∈ g.objects (.bnode p) .licenseId := (mem_objects _ _ _ _).2 hx
      unfold rdfLiteral uniqueValue
      match ho : g.objects (.bnode p) .licenseId with
      | [] => rw [ho] at hm; cases hm
      | [v] =>
        rw [ho] at hm
        have : v = .str x := (List.mem_singleton.1 hm).symm
        subst this
        dsimp only
        by_cases ht : (RdfNode.str x).truthy = true
        · rw [if_pos ht]
          show extractedId ns _ (some (strip x)) = extractedId ns _ (some (strip x))
          exact (if_neg hne).trans (if_neg hne).symm
        · exact absurd (show strip x = [] by
            have : x = [] := by
              simpa [RdfNode.truthy] using ht
            rw [this]; rfl) hne
      | _ :: _ :: _ => rfl
    | _ => rfl
  unfold parseRdfExtracted
  rw [rename_special hσ hp n rfl, rename_rdfTexts hσ hp n rfl, rename_lit hσ hp n rfl, rename_lit hσ hp n rfl, rename_lit hσ hp n rfl]
  simp only [Option.bind_eq_bind]
  rw [← Option.bind_assoc, ← Option.bind_assoc, h1]

omit hσ hp in
theorem rename_implicit (b : Bindings) (ns : Str) (type : RelationshipType) (l : List (RdfNode × RdfNode)) (rels : List Relationship) :
    (l.map fun e => (e.1.rename σ, e.2.rename σ)).foldlM (addImplicit b ns type) rels = l.foldlM (addImplicit b ns type) rels := by
  induction l generalizing rels with
  | nil => rfl
  | cons e l ih =>
    rw [List.map_cons, List.foldlM_cons, List.foldlM_cons]
    have : addImplicit b ns type rels (e.1.rename σ, e.2.rename σ) = addImplicit b ns type rels e := by
      unfold addImplicit parseImplicit
      dsimp only
      rw [rename_parseRdfId, rename_parseRdfId]
    rw [this]
    congr 1
    funext r
    exact ih r

/-- The document read does not depend on the names of blank nodes. -/
theorem rename_parseRdf (env : RdfEnv) (b : Bindings)
    (hns : ∀ n, (n, .type, spdxTerm s%"SpdxDocument") ∈ g → ':' ∈ env.defrag n.text)
    (hx : ∀ s p, (s, .hasExtractedLicensingInfo, .bnode p) ∈ g → ∃ x, (.bnode p, .licenseId, .str x) ∈ g ∧ strip x ≠ []) :
    parseRdf env b (g.rename σ) = parseRdf env b g := by
  unfold parseRdf
  rw [rename_info hσ hp]
  cases hi : parseRdfCreationInfo env b g with
  | none => simp only [Option.bind_eq_bind, Option.bind_none]
  | some x =>
    obtain ⟨info, b'⟩ := x
    have hc : ':' ∈ info.documentNamespace := by
      unfold parseRdfCreationInfo at hi
      cases hn : parseNamespace env g with
      | none => rw [hn] at hi; cases hi
      | some x =>
        obtain ⟨ns, id, doc⟩ := x
        rw [hn] at hi
        simp only [Option.bind_eq_bind, Option.bind_eq_some_iff, Option.pure_def, Option.some.injEq, Prod.mk.injEq, Prod.exists] at hi
        have hd : ns = env.defrag doc.text ∧ (doc, .type, spdxTerm s%"SpdxDocument") ∈ g := by
          unfold parseNamespace at hn
          match hs : g.subjects .type (spdxTerm s%"SpdxDocument") with
          | [] => rw [hs] at hn; cases hn
          | [n] =>
            rw [hs] at hn
            dsimp only at hn
            have hmem : (n, Pred.type, spdxTerm s%"SpdxDocument") ∈ g := (mem_subjects _ _ _ _).1 (hs ▸ List.mem_singleton.2 rfl)
            split at hn
            · split at hn
              · cases hn
              · split at hn
                · cases hn
                · cases hn
                  exact ⟨rfl, hmem⟩
            · cases hn
          | _ :: _ :: _ => rw [hs] at hn; cases hn
        have he : info.documentNamespace = ns := by
          obtain ⟨_, _, _, ⟨rfl, rfl, rfl⟩, hi⟩ := hi
          obtain ⟨_, _, _, _, _, _, _, _, _, _, _, _, _, _, _, _, _, _, hi⟩ := hi
          split at hi
          · cases hi
          · obtain ⟨_, _, hi⟩ := Option.bind_eq_some_iff.1 hi
            cases hi
            rfl
        rw [he, hd.1]
        exact hns _ hd.2
    simp only [Option.bind_eq_bind, Option.bind_some]
    rw [rename_subjects, rename_subjects, rename_subjects, rename_pairs, rename_pairs, rename_pairs, rename_pairs, rename_pairs,
      mapM_map_eq (f' := parseRdfPackage env b' g info.documentNamespace) (rename_package hσ hp env b' hc),
      mapM_map_eq (f' := parseRdfFile env b' g info.documentNamespace) (rename_file hσ hp env b' hc),
      mapM_map_eq (f' := parseRdfSnippet env b' g info.documentNamespace) (rename_snippet hσ hp env b' hc),
      mapM_map_eq (f' := parseRdfAnnotation b' g info.documentNamespace) (rename_annotation hσ hp b' _),
      mapM_map_eq (f' := parseRdfRelationship b' g info.documentNamespace) (rename_relationship hσ hp b' _)]
    have hxs : ∀ l : List (RdfNode × RdfNode), (∀ e ∈ l, e ∈ g.pairs .hasExtractedLicensingInfo) →
        (l.map fun e => (e.1.rename σ, e.2.rename σ)).mapM (fun e => parseRdfExtracted (g.rename σ) info.documentNamespace e.2) =
        l.mapM fun e => parseRdfExtracted g info.documentNamespace e.2 := by
      intro l hl
      induction l with
      | nil => rfl
      | cons e l ih =>
        rw [List.map_cons, List.mapM_cons, List.mapM_cons, ih (fun e' h' => hl e' (List.mem_cons_of_mem _ h')),
          rename_extracted hσ hp _ e.2 (fun p hpp => by
            have hm := (mem_graph_pairs _ _ _).1 (hl e List.mem_cons_self)
            rw [hpp] at hm ⊢
            exact hx e.1 p hm)]
    rw [hxs _ (fun _ h => h)]
    simp only [rename_implicit]

end
end Spdx
