import Verif.Lemmas.RdfGraph
import Verif.Spec.RdfNames
/- The values of textual properties of a written graph are never blank nodes. -/
namespace Spdx
open Spec

/-- the predicates whose objects must not be blank -/
def inked (p : Pred) : Bool := textual p || decide (p = .hasExtractedLicensingInfo)

/-- What is shown of every triple. -/
structure Inked (doc : RdfNode) (t : Triple) : Prop where
  text : inked t.2.1 = true → ∀ q, t.2.2 ≠ .bnode q
  doc : t.2.1 = .type → t.2.2 = spdxTerm s%"SpdxDocument" → t.1 = doc

def Inkeds (doc : RdfNode) (l : List Triple) : Prop := ∀ t ∈ l, Inked doc t

variable {doc : RdfNode}

theorem inked_str {s : RdfNode} {p : Pred} (v : Str) (hp : p ≠ .type) : Inked doc (s, p, .str v) := ⟨fun _ _ h => by (cases h), fun h => absurd h hp⟩
theorem inked_uri {s : RdfNode} {p : Pred} (v : Str) (hp : p ≠ .type) : Inked doc (s, p, .uri v) := ⟨fun _ _ h => by (cases h), fun h => absurd h hp⟩
theorem inked_node {s : RdfNode} {p : Pred} (o : RdfNode) (hp : p ≠ .type) (hi : inked p = false) : Inked doc (s, p, o) :=
  ⟨fun h => absurd (hi.symm.trans h) (by decide), fun h => absurd h hp⟩
theorem inked_type {s : RdfNode} {o : RdfNode} (h : o ≠ spdxTerm s%"SpdxDocument") : Inked doc (s, .type, o) :=
  ⟨fun h => absurd (show inked .type = true from h) (by decide), fun _ h' => absurd h' h⟩

theorem inkeds_nil : Inkeds doc [] := by intro t h; cases h
theorem inkeds_cons {t : Triple} {l : List Triple} (h : Inked doc t) (hl : Inkeds doc l) : Inkeds doc (t :: l) := by
  intro x hx
  rcases List.mem_cons.1 hx with rfl | hx
  · exact h
  · exact hl x hx
theorem inkeds_append {l m : List Triple} (h : Inkeds doc l) (hm : Inkeds doc m) : Inkeds doc (l ++ m) := by
  intro x hx
  rcases List.mem_append.1 hx with hx | hx
  · exact h x hx
  · exact hm x hx
theorem inkeds_flatMap {α : Type} {l : List α} {F : α → List Triple} (h : ∀ a ∈ l, Inkeds doc (F a)) : Inkeds doc (l.flatMap F) := by
  intro x hx
  obtain ⟨a, ha, hx⟩ := List.mem_flatMap.1 hx
  exact h a ha x hx
theorem inkeds_flatten {α : Type} {l : List α} {f : α → Option (List Triple)} {ls : List (List Triple)} (hm : l.mapM f = some ls)
    (h : ∀ a ∈ l, ∀ t, f a = some t → Inkeds doc t) : Inkeds doc ls.flatten := by
  induction l generalizing ls with
  | nil => cases hm; exact inkeds_nil
  | cons a l ih =>
    rw [List.mapM_cons] at hm
    simp only [Option.bind_eq_bind, Option.bind_eq_some_iff, Option.pure_def, Option.some.injEq] at hm
    obtain ⟨t, ht, ts, hts, rfl⟩ := hm
    rw [List.flatten_cons]
    exact inkeds_append (h a List.mem_cons_self t ht) (ih hts fun b hb => h b (List.mem_cons_of_mem _ hb))

theorem inkeds_optLiteral {s : RdfNode} {p : Pred} (v : Option Str) (hp : p ≠ .type) : Inkeds doc (optLiteral s p v) := by
  cases v with
  | none => exact inkeds_nil
  | some t => exact inkeds_cons (inked_str t hp) inkeds_nil

theorem inkeds_truthyLiteral {s : RdfNode} {p : Pred} (v : Option Str) (hp : p ≠ .type) : Inkeds doc (truthyLiteral s p v) := by
  cases v with
  | none => exact inkeds_nil
  | some t =>
    unfold truthyLiteral
    dsimp only
    split
    · exact inkeds_nil
    · exact inkeds_cons (inked_str t hp) inkeds_nil

theorem inkeds_literals {s : RdfNode} {p : Pred} (l : List Str) (hp : p ≠ .type) : Inkeds doc (literals s p l) := by
  intro x hx
  obtain ⟨t, -, rfl⟩ := List.mem_map.1 hx
  exact inked_str t hp

theorem inkeds_uris {s : RdfNode} {p : Pred} (l : List Str) (hp : p ≠ .type) : Inkeds doc (l.map fun t => (s, p, RdfNode.uri t)) := by
  intro x hx
  obtain ⟨t, -, rfl⟩ := List.mem_map.1 hx
  exact inked_uri t hp

theorem inkeds_literalOrSpecial {s : RdfNode} {p : Pred} (v : OrSpecial Str) (hp : p ≠ .type) : Inkeds doc (literalOrSpecial s p v) := by
  cases v <;> first | exact inkeds_cons (inked_str _ hp) inkeds_nil | exact inkeds_cons (inked_uri _ hp) inkeds_nil

theorem inkeds_literalOrNoAssertion {s : RdfNode} {p : Pred} (v : Option (OrNoAssertion Str)) (hp : p ≠ .type) :
    Inkeds doc (literalOrNoAssertion s p v) := by
  cases v with
  | none => exact inkeds_nil
  | some v => cases v <;> first | exact inkeds_cons (inked_str _ hp) inkeds_nil | exact inkeds_cons (inked_uri _ hp) inkeds_nil

theorem inkeds_optDate {s : RdfNode} {p : Pred} {v : Option DateTime} {l : List Triple} (h : optDate s p v = some l) (hp : p ≠ .type) : Inkeds doc l := by
  cases v with
  | none => cases h; exact inkeds_nil
  | some d =>
    unfold optDate at h
    dsimp only at h
    split at h
    · cases h
    · cases h; exact inkeds_cons (inked_str _ hp) inkeds_nil

theorem inkeds_checksum {path : List Nat} {s : RdfNode} (c : Checksum) : Inkeds doc (checksumTriples path s c) :=
  inkeds_cons (inked_type (by decide)) (inkeds_cons (inked_uri _ (by decide)) (inkeds_cons (inked_str _ (by decide))
    (inkeds_cons (inked_node _ (by decide) (by decide)) inkeds_nil)))

theorem inkeds_checksums {path : List Nat} {s : RdfNode} (l : List Checksum) : Inkeds doc (checksumListTriples path s l) :=
  inkeds_flatMap fun _ _ => inkeds_checksum _

theorem inkeds_exception (env : RdfEnv) {path : List Nat} {s : RdfNode} (x : Str) : Inkeds doc (exceptionTriples env path s x) := by
  unfold exceptionTriples
  split
  · exact inkeds_cons (inked_uri _ (by decide)) (inkeds_cons (inked_type (by decide)) inkeds_nil)
  · exact inkeds_cons (inked_str _ (by decide)) (inkeds_cons (inked_node _ (by decide) (by decide)) (inkeds_cons (inked_type (by decide)) inkeds_nil))

mutual
theorem inkeds_lic (env : RdfEnv) (ns : Str) {path : List Nat} {s : RdfNode} {p : Pred} (hp : p ≠ .type) (hi : inked p = false) :
    (e : LicExpr) → Inkeds doc (licTriples env ns path s p e)
  | .sym _ => by
    rw [licTriples]
    exact inkeds_cons (inked_node _ hp hi) inkeds_nil
  | .withExc l x => by
    rw [licTriples]
    exact inkeds_append (inkeds_cons (inked_type (by decide)) (inkeds_cons (inked_node _ hp hi)
      (inkeds_cons (inked_node _ (by decide) (by decide)) inkeds_nil))) (inkeds_exception env x)
  | .and l => by
    rw [licTriples]
    exact inkeds_append (inkeds_cons (inked_type (by decide)) (inkeds_cons (inked_node _ hp hi) inkeds_nil)) (inkeds_licL env ns 0 l)
  | .or l => by
    rw [licTriples]
    exact inkeds_append (inkeds_cons (inked_type (by decide)) (inkeds_cons (inked_node _ hp hi) inkeds_nil)) (inkeds_licL env ns 0 l)
theorem inkeds_licL (env : RdfEnv) (ns : Str) {path : List Nat} (i : Nat) : (l : List LicExpr) → Inkeds doc (licTriplesL env ns path i l)
  | [] => by rw [licTriplesL]; exact inkeds_nil
  | e :: l => by
    rw [licTriplesL]
    exact inkeds_append (inkeds_lic env ns (by decide) (by decide) e) (inkeds_licL env ns (i + 1) l)
end

theorem inkeds_licOr (env : RdfEnv) (ns : Str) {path : List Nat} {s : RdfNode} {p : Pred} (x : OrSpecial LicExpr) (hp : p ≠ .type) (hi : inked p = false) :
    Inkeds doc (licOrSpecialTriples env ns path s p x) := by
  cases x with
  | val e => exact inkeds_lic env ns hp hi e
  | _ => exact inkeds_cons (inked_uri _ hp) inkeds_nil

theorem inkeds_optLic (env : RdfEnv) (ns : Str) {path : List Nat} {s : RdfNode} {p : Pred} (x : Option (OrSpecial LicExpr)) (hp : p ≠ .type)
    (hi : inked p = false) : Inkeds doc (optLicTriples env ns path s p x) := by
  cases x with
  | none => exact inkeds_nil
  | some x => exact inkeds_licOr env ns x hp hi

theorem inkeds_licList (env : RdfEnv) (ns : Str) {path : List Nat} {s : RdfNode} {p : Pred} (l : List (OrSpecial LicExpr)) (hp : p ≠ .type)
    (hi : inked p = false) : Inkeds doc (licListTriples env ns path s p l) :=
  inkeds_flatMap fun _ _ => inkeds_licOr env ns _ hp hi

theorem inkeds_code {path : List Nat} {s : RdfNode} (v : Option PackageVerificationCode) : Inkeds doc (verificationCodeTriples path s v) := by
  cases v with
  | none => exact inkeds_nil
  | some v =>
    exact inkeds_append (inkeds_append (inkeds_cons (inked_type (by decide)) (inkeds_cons (inked_str _ (by decide)) inkeds_nil))
      (inkeds_literals _ (by decide))) (inkeds_cons (inked_node _ (by decide) (by decide)) inkeds_nil)

theorem inkeds_packageRef (ns : Str) {path : List Nat} {s : RdfNode} {r : ExternalPackageRef} {l : List Triple}
    (h : packageRefTriples ns path s r = some l) : Inkeds doc l := by
  unfold packageRefTriples at h
  split at h
  · cases h
  · cases h
    exact inkeds_append (inkeds_append (inkeds_cons (inked_type (by decide)) (inkeds_cons (inked_uri _ (by decide))
      (inkeds_cons (inked_uri _ (by decide)) (inkeds_cons (inked_str _ (by decide)) inkeds_nil)))) (inkeds_truthyLiteral _ (by decide)))
      (inkeds_cons (inked_node _ (by decide) (by decide)) inkeds_nil)

theorem inkeds_purpose {s : RdfNode} {v : Option PackagePurpose} {l : List Triple} (h : purposeTriples s v = some l) : Inkeds doc l := by
  cases v with
  | none => cases h; exact inkeds_nil
  | some d =>
    unfold purposeTriples at h
    dsimp only at h
    split at h
    · cases h
    · cases h; exact inkeds_cons (inked_uri _ (by decide)) inkeds_nil

theorem inkeds_range {path : List Nat} {s from_ : RdfNode} {cls : Str} {p : Pred} (r : Int × Int) (hc : pointerTerm cls ≠ spdxTerm s%"SpdxDocument")
    (hp : p ≠ .type) (hi : inked p = false) : Inkeds doc (rangeTriples path s from_ cls p r) :=
  inkeds_cons (inked_type (by decide)) (inkeds_cons (inked_type hc) (inkeds_cons (inked_node _ (by decide) (by decide))
    (inkeds_cons (inked_node _ (by decide) (by decide)) (inkeds_cons (inked_node _ hp hi) (inkeds_cons (inked_type hc)
    (inkeds_cons (inked_node _ (by decide) (by decide)) (inkeds_cons (inked_node _ (by decide) (by decide)) (inkeds_cons (inked_node _ hp hi)
    (inkeds_cons (inked_node _ (by decide) (by decide)) inkeds_nil)))))))))

theorem inkeds_info {c : CreationInfo} {l : List Triple} (h : creationInfoTriples c = some l) : Inkeds (docNode c) l := by
  unfold creationInfoTriples at h
  split at h
  · cases h
  · cases h
    refine inkeds_append (inkeds_append (inkeds_append (inkeds_append (inkeds_append (inkeds_append (inkeds_append ?_ (inkeds_optLiteral _ (by decide))) ?_)
      (inkeds_literals _ (by decide))) (inkeds_optLiteral _ (by decide))) (inkeds_optLiteral _ (by decide))) ?_) ?_
    · exact inkeds_cons ⟨fun h => absurd (show inked .type = true from h) (by decide), fun _ _ => rfl⟩ (inkeds_cons (inked_str _ (by decide))
        (inkeds_cons (inked_uri _ (by decide)) (inkeds_cons (inked_str _ (by decide)) inkeds_nil)))
    · exact inkeds_cons (inked_type (by decide)) (inkeds_cons (inked_str _ (by decide)) inkeds_nil)
    · exact inkeds_cons (inked_node _ (by decide) (by decide)) inkeds_nil
    · refine inkeds_flatMap fun e _ => ?_
      exact inkeds_append (inkeds_append (inkeds_cons (inked_type (by decide)) (inkeds_cons (inked_uri _ (by decide)) inkeds_nil))
        (inkeds_checksum _)) (inkeds_cons (inked_uri _ (by decide)) inkeds_nil)

theorem inkeds_annotation {ns : Str} {ext : Dict Str Str} {path : List Nat} {a : Annotation} {l : List Triple}
    (h : annotationTriples ns ext path a = some l) : Inkeds doc l := by
  unfold annotationTriples at h
  split at h
  · cases h
    exact inkeds_cons (inked_type (by decide)) (inkeds_cons (inked_uri _ (by decide)) (inkeds_cons (inked_str _ (by decide))
      (inkeds_cons (inked_str _ (by decide)) (inkeds_cons (inked_str _ (by decide)) (inkeds_cons (inked_node _ (by decide) (by decide)) inkeds_nil)))))
  · cases h

theorem inkeds_file {env : RdfEnv} {ns : Str} {path : List Nat} {res : RdfNode} {f : File} {l : List Triple}
    (h : fileTriples env ns path res f = some l) : Inkeds doc l := by
  unfold fileTriples at h
  split at h
  · cases h
  · cases h
    exact ((((((((((inkeds_append (inkeds_cons (inked_type (by decide)) (inkeds_cons (inked_str _ (by decide)) inkeds_nil)) (inkeds_uris _ (by decide))
      |> inkeds_append) (inkeds_checksums _)
      |> inkeds_append) (inkeds_optLic _ _ _ (by decide) (by decide))
      |> inkeds_append) (inkeds_licList _ _ _ (by decide) (by decide))
      |> inkeds_append) (inkeds_optLiteral _ (by decide))
      |> inkeds_append) (inkeds_optLiteral _ (by decide))
      |> inkeds_append) (inkeds_optLiteral _ (by decide))
      |> inkeds_append) (inkeds_optLiteral _ (by decide))
      |> inkeds_append) (inkeds_literals _ (by decide))
      |> inkeds_append) (inkeds_literals _ (by decide)))

theorem inkeds_package {env : RdfEnv} {ns : Str} {path : List Nat} {res : RdfNode} {p : Package} {l : List Triple}
    (h : packageTriples env ns path res p = some l) : Inkeds doc l := by
  unfold packageTriples at h
  split at h
  · rename_i refs purpose release built valid hr hp h1 h2 h3
    rw [← Option.some.inj h]
    repeat' with_reducible apply inkeds_append
    all_goals first
      | (with_reducible refine inkeds_optLiteral _ ?_); decide
      | (with_reducible refine inkeds_literals _ ?_); decide
      | (with_reducible refine inkeds_literalOrSpecial _ ?_); decide
      | with_reducible exact inkeds_code _
      | with_reducible exact inkeds_checksums _
      | (with_reducible refine inkeds_optLic _ _ _ ?_ ?_) <;> decide
      | (with_reducible refine inkeds_licList _ _ _ ?_ ?_) <;> decide
      | with_reducible exact inkeds_purpose hp
      | (with_reducible refine inkeds_optDate h1 ?_); decide
      | (with_reducible refine inkeds_optDate h2 ?_); decide
      | (with_reducible refine inkeds_optDate h3 ?_); decide
      | with_reducible exact inkeds_flatten hr fun _ _ _ ht => inkeds_packageRef _ ht
      | exact inkeds_cons (inked_type (by decide)) (inkeds_cons (inked_str _ (by decide)) inkeds_nil)
      | exact inkeds_cons (inked_node _ (by decide) (by decide)) inkeds_nil
  · cases h

theorem inkeds_relationship {ns : Str} {ext : Dict Str Str} {path : List Nat} {r : Relationship} {l : List Triple}
    (h : relationshipTriples ns ext path r = some l) : Inkeds doc l := by
  unfold relationshipTriples at h
  split at h
  · cases h
  · cases h
    exact inkeds_append (inkeds_append (inkeds_cons (inked_type (by decide)) (inkeds_cons (inked_uri _ (by decide))
      (inkeds_cons (inked_node _ (by decide) (by decide)) inkeds_nil))) (inkeds_truthyLiteral _ (by decide)))
      (inkeds_cons (inked_node _ (by decide) (by decide)) inkeds_nil)

theorem inkeds_snippet {env : RdfEnv} {ns : Str} {ext : Dict Str Str} {path : List Nat} {res : RdfNode} {s : Snippet} {l : List Triple}
    (h : snippetTriples env ns ext path res s = some l) : Inkeds doc l := by
  unfold snippetTriples at h
  split at h
  · cases h
  · cases h
    repeat' apply inkeds_append
    all_goals first
      | exact inkeds_cons (inked_type (by decide)) (inkeds_cons (inked_node _ (by decide) (by decide)) inkeds_nil)
      | exact inkeds_range _ (by decide) (by decide) (by decide)
      | exact inkeds_optLiteral _ (by decide)
      | exact inkeds_literals _ (by decide)
      | exact inkeds_optLic _ _ _ (by decide) (by decide)
      | exact inkeds_licList _ _ _ (by decide) (by decide)

theorem inkeds_extracted {ns : Str} {path : List Nat} {d : RdfNode} {e : ExtractedLicensingInfo} {i : Str} (h : e.licenseId = some i) (hi : i ≠ []) :
    Inkeds doc (extractedTriples ns path d e) := by
  have hn : extractedNode ns path e = .uri (ns ++ s%"#" ++ i) := by
    unfold extractedNode
    rw [h]
    exact if_neg hi
  unfold extractedTriples
  rw [hn]
  repeat' apply inkeds_append
  all_goals first
    | exact inkeds_cons (inked_type (by decide)) inkeds_nil
    | exact inkeds_optLiteral _ (by decide)
    | exact inkeds_literals _ (by decide)
    | exact inkeds_literalOrNoAssertion _ (by decide)
    | exact inkeds_cons (inked_uri _ (by decide)) inkeds_nil

/-- The triples of a written graph. -/
theorem inkeds_graph {env : RdfEnv} {d : Document} {w : RdfGraph} (h : rdfGraph env d = some w)
    (hl : ∀ e ∈ d.extractedLicensingInfo, ∃ i, e.licenseId = some i ∧ i ≠ []) : Inkeds (docNode d.creationInfo) w := by
  unfold rdfGraph at h
  dsimp only at h
  split at h
  · rename_i ci as fs ps rs ss h1 h2 h3 h4 h5 h6
    cases h
    refine inkeds_append (inkeds_append (inkeds_append (inkeds_append (inkeds_append (inkeds_append (inkeds_info h1) ?_) ?_) ?_) ?_) ?_) ?_
    · exact inkeds_flatten h2 fun _ _ _ ht => inkeds_annotation ht
    · exact inkeds_flatten h3 fun _ _ _ ht => inkeds_file ht
    · exact inkeds_flatten h4 fun _ _ _ ht => inkeds_package ht
    · exact inkeds_flatten h5 fun _ _ _ ht => inkeds_relationship ht
    · exact inkeds_flatten h6 fun _ _ _ ht => inkeds_snippet ht
    · refine inkeds_flatMap fun e he => ?_
      obtain ⟨i, hi, hne⟩ := hl e.1 (List.fst_mem_of_mem_zipIdx he)
      exact inkeds_extracted hi hne
  · cases h

end Spdx
