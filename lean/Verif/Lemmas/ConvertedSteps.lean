import Verif.Lemmas.Converted
import Verif.Props.C58
/- What one writing and reading, in each of the formats, does to a document, in terms of `Conveys`. -/
namespace Spdx.Converted
open Spdx Spec ValidSame

variable {d e : Document}

/-! ### JSON, YAML, XML -/

/-- Entries sorted by a key: those with no key of the list, then those with each key. -/
private theorem grouped {α : Type} (key : α → Str) (l : List α) : ∀ (ids : List Str), ids.Nodup →
    (l.filter (fun a => decide (key a ∉ ids)) ++ ids.flatMap (fun i => l.filter fun a => decide (key a = i))).Perm l
  | [], _ => by
    rw [List.flatMap_nil, List.append_nil]
    exact List.Perm.of_eq (List.filter_eq_self.2 fun a _ => by simp)
  | i :: ids, h => by
    obtain ⟨h1, h2⟩ := List.nodup_cons.1 h
    refine List.Perm.trans ?_ (grouped key l ids h2)
    rw [List.flatMap_cons, ← List.append_assoc]
    refine List.Perm.append_right _ ?_
    have e1 : l.filter (fun a => decide (key a ∉ i :: ids)) = (l.filter (fun a => decide (key a ∉ ids))).filter (fun a => !decide (key a = i)) := by
      rw [List.filter_filter]
      refine List.filter_congr fun a _ => ?_
      by_cases hk : key a = i <;> simp [hk]
    have e2 : l.filter (fun a => decide (key a = i)) = (l.filter (fun a => decide (key a ∉ ids))).filter (fun a => decide (key a = i)) := by
      rw [List.filter_filter]
      refine List.filter_congr fun a _ => ?_
      by_cases hk : key a = i
      · simp [hk, h1]
      · simp [hk]
    rw [e1, e2]
    exact List.perm_append_comm.trans (List.filter_append_perm _ _)

theorem regroup_perm (h : (d.packages.map (·.spdxId) ++ d.files.map (·.spdxId) ++ d.snippets.map (·.spdxId)).Nodup) :
    (regroup d).Perm d.annotations := by
  unfold regroup
  refine List.Perm.trans ?_ (grouped (·.spdxId) d.annotations _ h)
  refine List.Perm.append_right _ (List.Perm.of_eq (List.filter_congr fun a _ => ?_))
  refine decide_eq_decide.2 (not_congr ?_)
  simp [containedIds, or_left_comm]

theorem conveys_regroup (h : (d.packages.map (·.spdxId) ++ d.files.map (·.spdxId) ++ d.snippets.map (·.spdxId)).Nodup) :
    Conveys 0 d { d with annotations := regroup d } :=
  { conveys_refl d with annotations := regroup_perm h }

/-! ### RDF -/

theorem conveys_rdf (h : SameRdf d e) : Conveys 0 d e := by
  have hk := same_packaged h.packages h.files
  exact {
    info := h.info, packages := h.packages, files := h.files, snippets := h.snippets, annotations := h.annotations, licenses := h.licenses
    outright := by
      have : outright e = outright d := by funext r; unfold outright; rw [hk]
      rw [this]
      exact h.relationships.filter _
    others := fun r hr => .inl (h.relationships.mem_iff.1 hr)
    placed := fun p f => by
      rw [Nat.zero_mul, Nat.add_zero]
      unfold placements
      rw [hk]
      exact h.relationships.countP_eq _ }

/-! ### Tag-value -/

private theorem packaged_contains {r : Relationship} {p f : Str} (h : C27.packagedIds d r = some (p, f)) : C27.packagedIds d (contains p f) = some (p, f) := by
  rw [C27.packagedIds_iff] at h ⊢
  exact ⟨h.1, h.2.1, .inl ⟨rfl, rfl, rfl⟩⟩

private theorem contains_plain (p f : Str) : NoComment (contains p f) := .inl rfl

private theorem said_none {r : Relationship} (h : C27.packagedIds d r = none) : C27.said d r = [r] := by
  unfold C27.said; rw [h]

private theorem said_plain {r : Relationship} {p f : Str} (h : C27.packagedIds d r = some (p, f)) (hc : NoComment r) : C27.said d r = [contains p f] := by
  unfold C27.said; rw [h]; dsimp only; rw [if_pos (show r.comment = none ∨ r.comment = some [] from hc)]; rfl

private theorem said_remarked {r : Relationship} {p f : Str} (h : C27.packagedIds d r = some (p, f)) (hc : ¬ NoComment r) : C27.said d r = [r, contains p f] := by
  unfold C27.said; rw [h]; dsimp only; rw [if_neg (show ¬ (r.comment = none ∨ r.comment = some []) from hc)]; rfl

private theorem said_outright (r : Relationship) : (C27.said d r).filter (outright d) = [r].filter (outright d) := by
  cases h : C27.packagedIds d r with
  | none => rw [said_none h]
  | some x =>
    obtain ⟨p, f⟩ := x
    have hn : outright d (contains p f) = false := by
      unfold outright; rw [packaged_contains h]; simp [contains_plain p f]
    by_cases hc : NoComment r
    · rw [said_plain h hc]
      have : outright d r = false := by unfold outright; rw [h]; simp [hc]
      simp [hn, this]
    · rw [said_remarked h hc]
      have : outright d r = true := by unfold outright; rw [h]; simp [hc]
      simp [hn, this]

private theorem said_count (r : Relationship) (p f : Str) :
    (C27.said d r).countP (fun r => decide (C27.packagedIds d r = some (p, f) ∧ NoComment r)) =
      [r].countP (fun r => decide (C27.packagedIds d r = some (p, f) ∧ NoComment r)) +
      [r].countP (fun r => decide (C27.packagedIds d r = some (p, f) ∧ ¬ NoComment r)) := by
  cases h : C27.packagedIds d r with
  | none => rw [said_none h]; simp [h]
  | some x =>
    obtain ⟨p', f'⟩ := x
    have hk := packaged_contains h
    by_cases hc : NoComment r
    · rw [said_plain h hc]; simp [h, hk, hc, contains_plain p' f']
    · rw [said_remarked h hc]; simp [h, hk, hc, contains_plain p' f', List.countP_cons]

private theorem flat_outright (d : Document) : ∀ rs : List Relationship, (rs.flatMap (C27.said d)).filter (outright d) = rs.filter (outright d)
  | [] => rfl
  | r :: rs => by
    rw [List.flatMap_cons, List.filter_append, said_outright, flat_outright d rs, ← List.filter_append]; rfl

private theorem flat_count (d : Document) (p f : Str) : ∀ rs : List Relationship,
    (rs.flatMap (C27.said d)).countP (fun r => decide (C27.packagedIds d r = some (p, f) ∧ NoComment r)) =
      rs.countP (fun r => decide (C27.packagedIds d r = some (p, f) ∧ NoComment r)) +
      rs.countP (fun r => decide (C27.packagedIds d r = some (p, f) ∧ ¬ NoComment r))
  | [] => rfl
  | r :: rs => by
    have h1 : r :: rs = [r] ++ rs := rfl
    rw [List.flatMap_cons, List.countP_append, said_count, flat_count d p f rs, h1, List.countP_append, List.countP_append]
    omega

private theorem file_tv {f g : File} (h : C48.SameFile f g) : Spec.SameFile f g := by
  obtain ⟨hp, hg⟩ := h
  generalize g.contributors = cs at hp hg
  subst hg
  exact { file_refl f with contributors := hp }

theorem conveys_tagvalue (h : C48.SameTv d e) : Conveys 1 d e := by
  have hfiles : Rearranged2 Spec.SameFile d.files e.files := by
    obtain ⟨φ, hφ, hp⟩ := h.files
    refine ⟨d.files.map φ, ?_, hp⟩
    clear hp
    generalize d.files = l at hφ
    induction l with
    | nil => exact .nil
    | cons f l ih => exact .cons (file_tv (hφ f List.mem_cons_self)) (ih fun x hx => hφ x (List.mem_cons_of_mem _ hx))
  have hpk : Rearranged2 SamePackage d.packages e.packages := by rw [h.packages]; exact re_refl _ fun a _ => package_refl a
  have hk := same_packaged hpk hfiles
  exact {
    info := by rw [h.info]; exact info_refl _
    packages := hpk
    files := hfiles
    snippets := re_of_perm snippet_refl h.snippets
    annotations := .of_eq h.annotations
    licenses := by
      refine ⟨e.extractedLicensingInfo, all2_of_get h.extracted.1 fun i x y hx hy => ?_, .refl _⟩
      obtain ⟨y', hy', hs⟩ := h.extracted.2 i x hx
      rw [hy] at hy'
      cases hy'
      exact hs
    outright := by
      have : outright e = outright d := by funext r; unfold outright; rw [hk]
      rw [this, ← flat_outright d d.relationships]
      exact h.relationships.filter _
    others := by
      intro r hr
      obtain ⟨r', hr', hs⟩ := List.mem_flatMap.1 (h.relationships.mem_iff.1 hr)
      cases hp : C27.packagedIds d r' with
      | none => rw [said_none hp, List.mem_singleton] at hs; subst hs; exact .inl hr'
      | some x =>
        obtain ⟨p, f⟩ := x
        by_cases hc : NoComment r'
        · rw [said_plain hp hc, List.mem_singleton] at hs; exact .inr ⟨p, f, hs, r', hr', hp⟩
        · rw [said_remarked hp hc] at hs
          rcases List.mem_cons.1 hs with rfl | hs
          · exact .inl hr'
          · exact .inr ⟨p, f, List.mem_singleton.1 hs, r', hr', hp⟩
    placed := by
      intro p f
      rw [Nat.one_mul]
      unfold placements remarked
      rw [hk, h.relationships.countP_eq]
      exact flat_count d p f _ }

end Spdx.Converted
