import Verif.Lemmas.SameTree
import Verif.Props.C56
/-
C81: the order of members, and other members, at any depth of a JSON, YAML or XML tree make no difference.
-/
namespace Spdx.C81
open Spec.JsonSays (Obj)
open Spec (SameTree listKeys otherKeys)

/-- The same tree says the same document, or none. -/
theorem same_document (L : LicText) {j j' : Json} (h : SameTree j j') (d : Document) : parseDocument L j = .ok d ↔ parseDocument L j' = .ok d := by
  rw [C56.reads_exactly, C56.reads_exactly]
  exact ⟨SameTrees.object (SameTrees.document L) _ _ _ h, SameTrees.object (SameTrees.document L) _ _ _ (SameTrees.sym h)⟩

/-- And is refused if and only if the other is. -/
theorem same_refusal (L : LicText) {j j' : Json} (h : SameTree j j') :
    (∃ e, parseDocument L j = .error e) ↔ ∃ e, parseDocument L j' = .error e := by
  simp only [C56.refused_iff, ← C56.reads_exactly, same_document L h]

/-! ### Which trees are the same -/

/-- Being the same tree is an equivalence, so that any number of changes may be made in turn. -/
theorem equivalence : Equivalence SameTree where
  refl := .same
  symm := SameTrees.sym
  trans := by
    intro a b c h
    induction h generalizing c with
    | same => exact id
    | @arr l l' hl h ih =>
      intro h'
      cases h' with
      | same => exact .arr hl h
      | @arr _ l2 hl' h' =>
        refine .arr (hl.trans hl') fun i v v' hv hv' => ?_
        cases hm : l'[i]? with
        | none =>
          have h1 := List.getElem?_eq_none_iff.1 hm
          have h2 := (List.getElem?_eq_some_iff.1 hv).1
          omega
        | some m => exact ih i v m hv hm (h' i m v' hm hv')
    | @obj o o' h1 h2 h3 h4 ih =>
      intro h'
      cases h' with
      | same => exact .obj h1 h2 h3 h4
      | @obj _ o2 h1' h2' h3' h4' =>
        refine .obj (fun k hk => (h1 k hk).trans (h1' k hk)) (fun k hk v v' hv hv' => ?_) (fun k hk m hm => h3' k hk m (h3 k hk m hm)) (h4.trans h4')
        cases hm : o'.lookup k with
        | none => rw [(h1 k hk).2 hm] at hv; cases hv
        | some m => exact ih k hk v m hv hm (h2' k hk m v' hm hv')

private theorem lookup_perm {o o' : Obj} (hn : (o.map (·.1)).Nodup) (hp : o.Perm o') (k : Str) : o.lookup k = o'.lookup k := by
  induction hp with
  | nil => rfl
  | cons x _ ih =>
    rw [List.map_cons, List.nodup_cons] at hn
    rw [List.lookup_cons, List.lookup_cons, ih hn.2]
  | swap x y l =>
    obtain ⟨a, b⟩ := x
    obtain ⟨c, d⟩ := y
    simp only [List.map_cons, List.nodup_cons, List.mem_cons, not_or] at hn
    simp only [List.lookup_cons]
    by_cases h1 : k = a
    · subst h1
      have : (k == c) = false := by simpa using fun e => hn.1.1 e.symm
      rw [this]
    · have : (k == a) = false := by simpa using h1
      rw [this]
  | trans h1 _ ih1 ih2 => exact (ih1 hn).trans (ih2 ((h1.map _).nodup_iff.1 hn))

/-- The members of an object may come in any order. -/
theorem any_order {o o' : Obj} (hn : (o.map (·.1)).Nodup) (hp : o.Perm o') : SameTree (.obj o) (.obj o') := by
  have h := lookup_perm hn hp
  refine .obj (fun k _ => by rw [h]) (fun k _ v v' hv hv' => ?_) (fun k _ m hm => h k ▸ hm) ⟨fun e => ?_, fun e => ?_⟩
  · rw [h] at hv
    rw [hv] at hv'
    cases hv'
    exact .same v
  · subst e; exact List.nil_perm.1 hp
  · subst e; exact List.perm_nil.1 hp

/-- A member that nobody asks for may be added to any object that has members. -/
theorem other_member {o : Obj} (ho : o ≠ []) (k : Str) (hk : k ∉ listKeys ++ otherKeys) (v : Json) : SameTree (.obj o) (.obj ((k, v) :: o)) := by
  have h : ∀ k' ∈ listKeys ++ otherKeys, List.lookup k' ((k, v) :: o) = o.lookup k' := by
    intro k' hk'
    have : (k' == k) = false := by simpa using fun e : k' = k => hk (e ▸ hk')
    rw [List.lookup_cons, this]
  refine .obj (fun k hk => by rw [h k hk]) (fun k hk v v' hv hv' => ?_) (fun k hk m hm => (h k (List.mem_append_left _ hk)).trans hm)
    ⟨fun e => absurd e ho, fun e => by cases e⟩
  rw [h k hk, hv] at hv'
  cases hv'
  exact .same v

private theorem lookup_replace (o : Obj) (k k' : Str) (v' : Json) :
    (o.map fun m => if m.1 = k then (k, v') else m).lookup k' = if k' = k then (o.lookup k).map (fun _ => v') else o.lookup k' := by
  induction o with
  | nil => simp
  | cons m o ih =>
    obtain ⟨a, b⟩ := m
    rw [List.map_cons]
    by_cases h1 : a = k
    · subst h1
      rw [if_pos rfl]
      by_cases h2 : k' = a
      · subst h2; simp
      · have : (k' == a) = false := by simpa using h2
        rw [if_neg h2] at ih ⊢
        simp only [List.lookup_cons, this]
        exact ih
    · rw [if_neg h1]
      by_cases h2 : k' = a
      · subst h2
        simp [h1]
      · have : (k' == a) = false := by simpa using h2
        have h3 : (k == a) = false := by simpa using fun e => h1 e.symm
        simp only [List.lookup_cons, this, h3]
        exact ih

/-- A value may be replaced by the same tree; only an object in place of a list may not. -/
theorem inside {o : Obj} (k : Str) {v v' : Json} (hv : o.lookup k = some v) (h : SameTree v v') (hk : k ∈ listKeys → ∀ m, v ≠ .obj m) :
    SameTree (.obj o) (.obj (o.map fun m => if m.1 = k then (k, v') else m)) := by
  refine .obj (fun k' _ => ?_) (fun k' _ x x' hx hx' => ?_) (fun k' hk' m hm => ?_) (by simp)
  · rw [lookup_replace]
    split
    · rename_i e; subst e; rw [hv]; simp
    · rfl
  · rw [lookup_replace] at hx'
    split at hx'
    · rename_i e
      subst e
      rw [hv] at hx hx'
      cases hx
      cases hx'
      exact h
    · rw [hx] at hx'
      cases hx'
      exact .same x
  · rw [lookup_replace]
    split
    · rename_i e
      subst e
      rw [hv] at hm
      cases hm
      exact absurd rfl (hk hk' m)
    · exact hm

/-- An entry of a list may be replaced by the same tree. -/
theorem inside_list (l : List Json) (i : Nat) {v v' : Json} (hv : l[i]? = some v) (h : SameTree v v') : SameTree (.arr l) (.arr (l.set i v')) := by
  refine .arr (by simp) fun j x x' hx hx' => ?_
  rw [List.getElem?_set] at hx'
  split at hx'
  · rename_i e
    subst e
    rw [hv] at hx
    cases hx
    split at hx' <;> cases hx'
    exact h
  · rw [hx] at hx'
    cases hx'
    exact .same x

/-! ### Where the order matters -/

private def withCreators (v : Json) : Json :=
  .obj [(s%"spdxVersion", .str s%"SPDX-2.3"), (s%"SPDXID", .str s%"SPDXRef-DOCUMENT"), (s%"name", .str s%"n"),
   (s%"documentNamespace", .str s%"https://x.org/d"), (s%"dataLicense", .str s%"CC0-1.0"),
   (s%"creationInfo", .obj [(s%"creators", v), (s%"created", .str s%"2022-01-01T00:00:00Z")])]

/-- Where a list belongs, an object is read as the list of its members' names, so that their order matters. -/
theorem names_as_entries : ∃ (o o' : Obj) (d d' : Document), o.Perm o' ∧ parseDocument C23.exampleLic (withCreators (.obj o)) = .ok d ∧
    parseDocument C23.exampleLic (withCreators (.obj o')) = .ok d' ∧ d ≠ d' := by
  refine ⟨[(s%"Tool: a", .null), (s%"Tool: b", .null)], [(s%"Tool: b", .null), (s%"Tool: a", .null)],
    { creationInfo := { spdxVersion := s%"SPDX-2.3", spdxId := s%"SPDXRef-DOCUMENT", name := s%"n", documentNamespace := s%"https://x.org/d",
                        dataLicense := s%"CC0-1.0", creators := [{ actorType := .TOOL, name := s%"a" }, { actorType := .TOOL, name := s%"b" }],
                        created := { year := 2022, month := 1, day := 1 } } },
    { creationInfo := { spdxVersion := s%"SPDX-2.3", spdxId := s%"SPDXRef-DOCUMENT", name := s%"n", documentNamespace := s%"https://x.org/d",
                        dataLicense := s%"CC0-1.0", creators := [{ actorType := .TOOL, name := s%"b" }, { actorType := .TOOL, name := s%"a" }],
                        created := { year := 2022, month := 1, day := 1 } } }, List.Perm.swap .., ?_, ?_, ?_⟩
  · decide +kernel
  · decide +kernel
  · decide +kernel

/-! ### The hypotheses are met -/

-- The tree of C56 with its members in reverse, the package's in another order and a member more.
example : SameTree (.obj C56.tree) (.obj C56.tree.reverse) := any_order (by decide +kernel) (List.reverse_perm _).symm
example : parseDocument C23.exampleLic (.obj ((s%"x-tool", .num 1) :: C56.tree.reverse)) = .ok C56.treeDoc :=
  (same_document C23.exampleLic (equivalence.trans (any_order (by decide +kernel) (List.reverse_perm _).symm)
    (other_member (by decide +kernel) s%"x-tool" (by decide +kernel) (.num 1))) _).1 C56.tree_read
private def turnedPackage : Json :=
  .arr [.obj [(s%"hasFiles", .arr [.str s%"SPDXRef-F"]), (s%"filesAnalyzed", .str s%"False"), (s%"downloadLocation", .str s%"NONE"),
    (s%"name", .str s%"a"), (s%"SPDXID", .str s%"SPDXRef-A")]]
example : parseDocument C23.exampleLic (.obj (C56.tree.map fun m => if m.1 = s%"packages" then (s%"packages", turnedPackage) else m)) =
    .ok C56.treeDoc :=
  (same_document C23.exampleLic (inside (o := C56.tree) s%"packages" rfl
    (inside_list _ 0 (v' := (.obj [(s%"hasFiles", .arr [.str s%"SPDXRef-F"]), (s%"filesAnalyzed", .str s%"False"), (s%"downloadLocation", .str s%"NONE"),
      (s%"name", .str s%"a"), (s%"SPDXID", .str s%"SPDXRef-A")])) rfl (any_order (by decide +kernel) (List.reverse_perm _).symm))
    (fun _ m h => by cases h)) _).1 C56.tree_read

end Spdx.C81
