import Verif.Lemmas.RdfSeen
/- License expressions in graphs. -/
namespace Spdx
open Spec

/-- The node that stands for the expression written at the place. -/
def licNode (env : RdfEnv) (ns : Str) (path : List Nat) : LicExpr → RdfNode
  | .sym k => symbolNode env ns k
  | .withExc .. | .and _ | .or _ => .bnode path

/-- … or for a special value. -/
def licOrNode (env : RdfEnv) (ns : Str) (path : List Nat) : OrSpecial LicExpr → RdfNode
  | .noAssertion => spdxTerm s%"noassertion"
  | .none => spdxTerm s%"none"
  | .val e => licNode env ns path e

theorem licTriplesL_eq (env : RdfEnv) (ns : Str) (path : List Nat) (l : List LicExpr) (i : Nat) :
    licTriplesL env ns path i l = (l.zipIdx i).flatMap fun e => licTriples env ns (e.2 :: path) (.bnode path) .member e.1 := by
  induction l generalizing i with
  | nil => rw [licTriplesL]; rfl
  | cons a l ih => rw [licTriplesL, ih, List.zipIdx_cons, List.flatMap_cons]

theorem objects_exception_out (env : RdfEnv) (path : List Nat) (parent : RdfNode) (x : Str) (s : RdfNode) (q : Pred) (h : Out path s) :
    RdfGraph.objects (exceptionTriples env path parent x) s q =
      if parent = s ∧ .licenseException = q then [if env.known x then .uri (licenseNamespace ++ x) else .bnode path] else [] := by
  have h1 : ¬ RdfNode.uri (licenseNamespace ++ x) = s := fun e => h.2 x e.symm
  have h2 : ¬ RdfNode.bnode path = s := h.ne (List.suffix_refl _)
  unfold exceptionTriples
  by_cases hk : env.known x = true
  · simp only [if_pos hk, objects_cons, objects_nil, h1, false_and, if_false, List.append_nil]
  · simp only [if_neg hk, objects_cons, objects_nil, h2, false_and, if_false, List.append_nil, List.nil_append]

mutual
theorem objects_lic_out (env : RdfEnv) (ns : Str) (path : List Nat) (parent : RdfNode) (p : Pred) (s : RdfNode) (q : Pred) (h : Out path s) :
    (e : LicExpr) → RdfGraph.objects (licTriples env ns path parent p e) s q = if parent = s ∧ p = q then [licNode env ns path e] else []
  | .sym k => by
    rw [licTriples, objects_cons, objects_nil, List.append_nil]; rfl
  | .withExc l x => by
    have h2 : ¬ RdfNode.bnode path = s := h.ne (List.suffix_refl _)
    rw [licTriples, objects_append, objects_exception_out _ _ _ _ _ _ (h.below (List.suffix_cons 0 path))]
    simp only [objects_cons, objects_nil, h2, false_and, if_false, List.append_nil, List.nil_append]
    rfl
  | .and l => by
    have h2 : ¬ RdfNode.bnode path = s := h.ne (List.suffix_refl _)
    rw [licTriples, objects_append, objects_licL_out env ns path s q h 0 l]
    simp only [objects_cons, objects_nil, h2, false_and, if_false, List.append_nil, List.nil_append]
    rfl
  | .or l => by
    have h2 : ¬ RdfNode.bnode path = s := h.ne (List.suffix_refl _)
    rw [licTriples, objects_append, objects_licL_out env ns path s q h 0 l]
    simp only [objects_cons, objects_nil, h2, false_and, if_false, List.append_nil, List.nil_append]
    rfl
theorem objects_licL_out (env : RdfEnv) (ns : Str) (path : List Nat) (s : RdfNode) (q : Pred) (h : Out path s) (i : Nat) :
    (l : List LicExpr) → RdfGraph.objects (licTriplesL env ns path i l) s q = []
  | [] => by rw [licTriplesL]; rfl
  | e :: l => by
    have h2 : ¬ RdfNode.bnode path = s := h.ne (List.suffix_refl _)
    rw [licTriplesL, objects_append, objects_lic_out env ns (i :: path) (.bnode path) .member s q (h.below (List.suffix_cons i path)) e,
      objects_licL_out env ns path s q h (i + 1) l, if_neg (fun e => h2 e.1)]
    rfl
end

/-- The arguments as seen from their parent. -/
theorem objects_licL_parent (env : RdfEnv) (ns : Str) (path : List Nat) (l : List LicExpr) (q : Pred) :
    RdfGraph.objects (licTriplesL env ns path 0 l) (.bnode path) q =
      if .member = q then l.zipIdx.map fun e => licNode env ns (e.2 :: path) e.1 else [] := by
  rw [licTriplesL_eq, objects_flatMap]
  have : ∀ e : LicExpr × Nat, RdfGraph.objects (licTriples env ns (e.2 :: path) (.bnode path) .member e.1) (.bnode path) q =
      if .member = q then [licNode env ns (e.2 :: path) e.1] else [] := by
    intro e
    rw [objects_lic_out env ns _ _ _ _ _ (Out.parent e.2 path) e.1]
    simp only [true_and]
  simp only [this]
  exact flatMap_ite_singleton _ _ _

/-! ### Reading -/

/-- The conditions on the namespace that matter for licenses. -/
structure NsLic (ns : Str) : Prop where
  colon : ':' ∈ ns
  noHash : '#' ∉ ns
  license : ¬ licenseNamespace <+: ns
  terms : ns ++ s%"#" ≠ spdxNamespace

theorem NamespaceOk.lic {env : RdfEnv} {ns id : Str} (h : NamespaceOk env ns id) : NsLic ns := ⟨h.colon, h.noHash, h.license, h.terms⟩

theorem prefix_hash {a ns k : Str} (ha : '#' ∉ a) (h : a <+: ns ++ s%"#" ++ k) : a <+: ns := by
  rcases Nat.le_total a.length ns.length with hl | hl
  · exact List.prefix_of_prefix_length_le h ((List.prefix_append ns _).trans (by rw [List.append_assoc]; exact List.prefix_rfl)) hl
  · have h1 : ns <+: a := List.prefix_of_prefix_length_le ((List.prefix_append ns s%"#").trans (List.prefix_append _ k)) h hl
    obtain ⟨t, rfl⟩ := h1
    cases t with
    | nil => simp
    | cons c t =>
      rw [List.append_assoc, List.prefix_append_right_inj] at h
      have : c = '#' := by
        obtain ⟨r, hr⟩ := h
        exact (List.cons.inj hr).1
      subst this
      simp at ha

theorem licenseNamespace_noHash : '#' ∉ licenseNamespace := by decide +kernel

theorem ns_not_license {ns : Str} (h : ¬ licenseNamespace <+: ns) (k : Str) : ¬ licenseNamespace <+: ns ++ s%"#" ++ k :=
  fun h' => h (prefix_hash licenseNamespace_noHash h')

theorem blankName_mem {p : List Nat} {c : Char} (h : c ∈ blankName p) : c = 'N' ∨ c = 'a' ∨ c = 'b' := by
  unfold blankName at h
  rcases List.mem_cons.1 h with h | h
  · exact .inl h
  · obtain ⟨n, _, h⟩ := List.mem_flatMap.1 h
    rcases List.mem_append.1 h with h | h
    · exact .inr (.inl (List.mem_replicate.1 h).2)
    · exact .inr (.inr (List.mem_singleton.1 h))

/-- A text with another character does not begin the name of a blank node. -/
theorem not_blank_prefix {s : Str} {p : List Nat} (c : Char) (h : c ∈ s) (h1 : ¬ (c = 'N' ∨ c = 'a' ∨ c = 'b')) : ¬ s <+: blankName p :=
  fun hp => h1 (blankName_mem (hp.subset h))

theorem ns_not_blank {ns : Str} (h : ':' ∈ ns) (p : List Nat) : ¬ ns <+: blankName p := not_blank_prefix ':' h (by decide)

theorem license_not_blank (p : List Nat) : ¬ startsWith (blankName p) licenseNamespace = true := by
  rw [startsWith_iff]
  exact not_blank_prefix ':' (by decide) (by decide)

theorem blank_ne {s : Str} (p : List Nat) (c : Char) (h : c ∈ s) (h1 : ¬ (c = 'N' ∨ c = 'a' ∨ c = 'b')) : blankName p ≠ s :=
  fun e => h1 (blankName_mem (e ▸ h))

theorem symbol_read (env : RdfEnv) (g : RdfGraph) (ns : Str) (hns : NsLic ns) (depth : Nat) (k : Str) :
    parseRdfLic env g ns (depth + 1) (symbolNode env ns k) = env.lic.parse k := by
  unfold parseRdfLic symbolNode
  by_cases hk : env.known k = true
  · rw [if_pos hk]
    refine (if_pos (startsWith_append _ _)).trans ?_
    show env.lic.parse (removePrefix (licenseNamespace ++ k) licenseNamespace) = _
    rw [removePrefix_append]
  · rw [if_neg hk]
    refine (if_neg ?_).trans ((if_pos ?_).trans ?_)
    · rw [startsWith_iff]; exact ns_not_license hns.license k
    · rw [startsWith_iff]; exact (List.prefix_append ns s%"#").trans (List.prefix_append _ k)
    · show env.lic.parse (fragmentOf (ns ++ s%"#" ++ k)) = _
      rw [fragmentOf_append _ _ hns.noHash]

/-- Reading at a blank node. -/
theorem blank_read (env : RdfEnv) (g : RdfGraph) (ns : Str) (hns : NsLic ns) (depth : Nat) (path : List Nat) (ty : RdfNode)
    (h : g.objects (.bnode path) .type = [ty]) : parseRdfLic env g ns (depth + 1) (.bnode path) =
      if ty = spdxTerm s%"ConjunctiveLicenseSet" then
        ((g.objects (.bnode path) .member).mapM (parseRdfLic env g ns depth)).bind fun ms =>
          env.lic.parse (joinWith s%" AND " (ms.map (licStr env)))
      else if ty = spdxTerm s%"DisjunctiveLicenseSet" then
        ((g.objects (.bnode path) .member).mapM (parseRdfLic env g ns depth)).bind fun ms =>
          env.lic.parse (joinWith s%" OR " (ms.map (licStr env)))
      else if ty = spdxTerm s%"WithExceptionOperator" then
        (someValue g (.bnode path) .member).bind fun m => (parseRdfLic env g ns depth m).bind fun l =>
          (someValue g (.bnode path) .licenseException).bind fun x => (parseException g x).bind fun e =>
            env.lic.parse (licStr env l ++ s%" WITH " ++ e)
      else env.lic.parse [] := by
  rw [parseRdfLic.eq_def]
  refine (if_neg (license_not_blank _)).trans ((if_neg ?_).trans ?_)
  · rw [startsWith_iff]; exact ns_not_blank hns.colon _
  · unfold someValue
    rw [h]
    rfl

theorem ns_ne_term {ns : Str} (h : NsLic ns) (k t : Str) : ns ++ s%"#" ++ k ≠ spdxNamespace ++ t := by
  intro e
  have h1 : spdxNamespace = s%"http://spdx.org/rdf/terms" ++ s%"#" := by decide
  rw [h1] at e
  have := hash_split h.noHash (by decide +kernel) (by simpa using e : ns ++ '#' :: k = s%"http://spdx.org/rdf/terms" ++ '#' :: t)
  exact h.terms (by rw [this, h1])

theorem symbolNode_inj {env : RdfEnv} {ns : Str} (hns : NsLic ns) {k k' : Str} (h : symbolNode env ns k = symbolNode env ns k') : k = k' := by
  unfold symbolNode at h
  split at h <;> split at h <;> simp only [RdfNode.uri.injEq] at h
  · exact List.append_cancel_left h
  · exact absurd (h ▸ List.prefix_append _ _) (ns_not_license hns.license k')
  · exact absurd (h ▸ List.prefix_append _ _) (ns_not_license hns.license k)
  · exact List.append_cancel_left h

theorem symbolNode_uri (env : RdfEnv) (ns k : Str) : ∃ u, symbolNode env ns k = .uri u := by
  unfold symbolNode; split <;> exact ⟨_, rfl⟩

/-- The nodes of distinct expressions at distinct places are distinct. -/
theorem licNode_inj {env : RdfEnv} {ns : Str} (hns : NsLic ns) {e e' : LicExpr} {q q' : List Nat} (h : licNode env ns q e = licNode env ns q' e')
    (hne : q ≠ q') : e = e' := by
  have hb : ∀ k q, symbolNode env ns k ≠ .bnode q := by
    intro k q h
    obtain ⟨u, hu⟩ := symbolNode_uri env ns k
    rw [hu] at h
    cases h
  cases e <;> cases e' <;> unfold licNode at h
  case sym.sym k k' => rw [symbolNode_inj hns h]
  all_goals first
    | exact absurd h (hb _ _)
    | exact absurd h.symm (hb _ _)
    | exact absurd (RdfNode.bnode.inj h) hne

theorem zipIdx_inj {α : Type} {l : List α} (hn : l.Nodup) {a b : α × Nat} (ha : a ∈ l.zipIdx) (hb : b ∈ l.zipIdx) (h : a.1 = b.1) : a = b := by
  have h1 := List.mem_zipIdx_iff_getElem?.1 ha
  have h2 := List.mem_zipIdx_iff_getElem?.1 hb
  rw [← h] at h2
  have hi : a.2 < l.length := (List.getElem?_eq_some_iff.1 h1).1
  have := (List.getElem?_inj hi hn).1 (h1.trans h2.symm)
  exact Prod.ext h this

theorem zipIdx_nodup {α : Type} (l : List α) : l.zipIdx.Nodup := by
  have : (l.zipIdx.map Prod.snd).Nodup := by
    rw [List.zipIdx_map_snd]
    exact List.nodup_range'
  revert this
  induction l.zipIdx with
  | nil => intro _; exact List.nodup_nil
  | cons a t ih =>
    intro this
    rw [List.map_cons, List.nodup_cons] at this
    rw [List.nodup_cons]
    exact ⟨fun h => this.1 (List.mem_map_of_mem h), ih this.2⟩

theorem licNodes_nodup {env : RdfEnv} {ns : Str} (hns : NsLic ns) (path : List Nat) {l : List LicExpr} (h : l.Nodup) :
    (l.zipIdx.map fun e => licNode env ns (e.2 :: path) e.1).Nodup := by
  refine nodup_map_of_inj (zipIdx_nodup l) ?_
  intro a ha b hb e
  by_cases hi : a.2 = b.2
  · have h1 := List.mem_zipIdx_iff_getElem?.1 ha
    have h2 := List.mem_zipIdx_iff_getElem?.1 hb
    rw [hi, h2] at h1
    exact Prod.ext (Option.some.inj h1).symm hi
  · exact zipIdx_inj h ha hb (licNode_inj hns e (fun h => hi (List.cons.inj h).1))

theorem perm_map_some {α : Type} {l : List (Option α)} {m : List α} (h : l.Perm (m.map some)) : ∃ m' : List α, l = m'.map some ∧ m'.Perm m := by
  refine ⟨l.filterMap id, ?_, ?_⟩
  · have hall : ∀ x ∈ l, ∃ a, x = some a := by
      intro x hx
      obtain ⟨a, _, rfl⟩ := List.mem_map.1 (h.mem_iff.1 hx)
      exact ⟨a, rfl⟩
    clear h
    induction l with
    | nil => rfl
    | cons x l ih =>
      obtain ⟨a, rfl⟩ := hall x List.mem_cons_self
      show some a :: l = some a :: (l.filterMap id).map some
      rw [← ih (fun y hy => hall y (List.mem_cons_of_mem _ hy))]
  · have := h.filterMap id
    rwa [show (m.map some).filterMap id = m by simp] at this

theorem exception_read (env : RdfEnv) (g : RdfGraph) (hg : g.Nodup) (path : List Nat) (parent : RdfNode) (x : Str)
    (h : SeenAt g (exceptionTriples env path parent x) path) :
    parseException g (if env.known x then .uri (licenseNamespace ++ x) else .bnode path) = some x := by
  unfold parseException
  by_cases hk : env.known x = true
  · rw [if_pos hk]
    refine (if_pos (startsWith_append _ _)).trans ?_
    exact congrArg some (removePrefix_append _ _)
  · rw [if_neg hk]
    refine (if_neg (license_not_blank _)).trans ?_
    have h1 := (h.node (List.suffix_refl _) .licenseExceptionId).one hg (v := .str x) (by
      unfold exceptionTriples
      simp only [if_neg hk, objects_cons, objects_nil]
      simp)
    unfold someValue
    rw [h1]
    rfl

/-- What is seen of an argument. -/
theorem SeenAt.arg {env : RdfEnv} {g : RdfGraph} {ns : Str} {path : List Nat} {parent : RdfNode} (front : RdfGraph) {l : List LicExpr}
    (h : SeenAt g (front ++ licTriplesL env ns path 0 l) path) (hf : ∀ t ∈ front, t.1 = parent ∨ t.1 = .bnode path) (hp : Out path parent)
    (i : Nat) (x : LicExpr) (hi : l[i]? = some x) : SeenAt g (licTriples env ns (i :: path) (.bnode path) .member x) (i :: path) := by
  refine h.narrow (List.suffix_cons i path) ?_
  intro q p hq
  have hout : ∀ r, r <:+ path → RdfNode.bnode r ≠ .bnode q := by
    intro r hr e
    cases e
    have h1 := hq.length_le
    have h2 := hr.length_le
    simp only [List.length_cons] at h1
    omega
  rw [objects_append, objects_empty, List.nil_append, licTriplesL_eq, objects_zipIdx _ l _ _ i x hi]
  · intro j y hj hne
    rw [objects_lic_out _ _ _ _ _ _ _ (Out.sibling hq hne), if_neg]
    rintro ⟨e, -⟩
    exact hout path (List.suffix_refl _) e
  · intro t ht h1 _
    rcases hf t ht with h2 | h2
    · exact hp.1 q (h2.symm.trans h1) ((List.suffix_cons i path).trans hq)
    · exact hout path (List.suffix_refl _) (h2.symm.trans h1)

theorem zipIdx_map_cons {α β : Type} (f : α × Nat → β) (a : α) (l : List α) (i : Nat) :
    ((a :: l).zipIdx i).map f = f (a, i) :: (l.zipIdx (i + 1)).map f := by rw [List.zipIdx_cons, List.map_cons]

mutual
theorem lic_read (env : RdfEnv) (g : RdfGraph) (hg : g.Nodup) (ns : Str) (hns : NsLic ns) : (e : LicExpr) → (depth : Nat) → (path : List Nat) →
    (parent : RdfNode) → (p : Pred) → LicRdf env.lic e → licHeight e ≤ depth → Out path parent → SeenAt g (licTriples env ns path parent p e) path →
    ∃ e', parseRdfLic env g ns depth (licNode env ns path e) = some (some e') ∧ SameLic e e'
  | .sym k, depth, path, parent, p, hl, hd, hp, hs => by
    rw [licHeight] at hd
    obtain ⟨d, rfl⟩ : ∃ d, depth = d + 1 := ⟨depth - 1, by omega⟩
    rw [LicRdf] at hl
    exact ⟨.sym k, (symbol_read env g ns hns d k).trans hl, .sym k⟩
  | .withExc l x, depth, path, parent, p, hl, hd, hp, hs => by
    rw [licHeight] at hd
    obtain ⟨d, rfl⟩ : ∃ d, depth = d + 1 + 1 := ⟨depth - 2, by omega⟩
    rw [LicRdf] at hl
    rw [licTriples] at hs
    have hne : ¬ parent = .bnode path := fun e => hp.ne (List.suffix_refl _) e.symm
    have hex := fun q => objects_exception_out env (0 :: path) (.bnode path) x (.bnode path) q (Out.parent 0 path)
    have hty := (hs.node (List.suffix_refl _) .type).one hg (v := spdxTerm s%"WithExceptionOperator") (by
      rw [objects_append, hex]; simp [objects_cons, objects_nil, hne])
    have hmem := (hs.node (List.suffix_refl _) .member).one hg (v := symbolNode env ns l) (by
      rw [objects_append, hex]; simp [objects_cons, objects_nil, hne])
    have hexc := (hs.node (List.suffix_refl _) .licenseException).one hg (v := if env.known x then .uri (licenseNamespace ++ x) else .bnode (0 :: path)) (by
      rw [objects_append, hex]; simp [objects_cons, objects_nil, hne])
    have hx := exception_read env g hg (0 :: path) (.bnode path) x (hs.narrow (List.suffix_cons 0 path) (by
      intro q r hq
      have h1 : ¬ parent = .bnode q := fun e => hp.1 q e ((List.suffix_cons 0 path).trans hq)
      have h2 : ¬ path = q := by
        rintro rfl
        have : path.length + 1 ≤ path.length := hq.length_le
        omega
      rw [objects_append]
      simp [objects_cons, objects_nil, h1, h2]))
    refine ⟨.withExc l x, ?_, .withExc l x⟩
    show parseRdfLic env g ns (d + 1 + 1) (.bnode path) = _
    rw [blank_read env g ns hns (d + 1) path _ hty, if_neg (by decide), if_neg (by decide), if_pos rfl]
    unfold someValue
    rw [hmem, hexc]
    show ((parseRdfLic env g ns (d + 1) (symbolNode env ns l)).bind fun l' => _) = _
    rw [symbol_read env g ns hns d l, hl.1]
    show ((parseException g _).bind fun e => _) = _
    rw [hx]
    exact hl.2
  | .and l, depth, path, parent, p, hl, hd, hp, hs => by
    rw [licHeight] at hd
    obtain ⟨d, rfl⟩ : ∃ d, depth = d + 1 := ⟨depth - 1, by omega⟩
    rw [LicRdf] at hl
    rw [licTriples] at hs
    have hne : ¬ parent = .bnode path := fun e => hp.ne (List.suffix_refl _) e.symm
    have hty := (hs.node (List.suffix_refl _) .type).one hg (v := spdxTerm s%"ConjunctiveLicenseSet") (by
      rw [objects_append, objects_licL_parent]; simp [objects_cons, objects_nil, hne])
    have hmem := (hs.node (List.suffix_refl _) .member).perm hg (l := l.zipIdx.map fun e => licNode env ns (e.2 :: path) e.1) (by
      rw [objects_append, objects_licL_parent]; simp [objects_cons, objects_nil, hne]) (licNodes_nodup hns path hl.2.1)
    obtain ⟨m, hm, hlen, hsame⟩ := licL_read env g hg ns hns l d path 0 hl.1 (by omega) (by
      intro j x hj
      rw [Nat.zero_add]
      exact hs.arg (parent := parent) _ (by
        intro t ht
        simp only [List.mem_cons, List.not_mem_nil, or_false] at ht
        rcases ht with rfl | rfl
        · exact .inr rfl
        · exact .inl rfl) hp j x hj)
    obtain ⟨ms, hms, hperm⟩ := mapM_perm hmem.symm hm
    obtain ⟨m', rfl, hm'⟩ := perm_map_some hperm.symm
    have hsl : SameLic (.and l) (.and m') := .and hlen hsame hm'
    refine ⟨.and m', ?_, hsl⟩
    show parseRdfLic env g ns (d + 1) (.bnode path) = _
    rw [blank_read env g ns hns d path _ hty, if_pos rfl, hms]
    show env.lic.parse (joinWith s%" AND " ((m'.map some).map (licStr env))) = _
    rw [List.map_map]
    exact hl.2.2 m' hsl
  | .or l, depth, path, parent, p, hl, hd, hp, hs => by
    rw [licHeight] at hd
    obtain ⟨d, rfl⟩ : ∃ d, depth = d + 1 := ⟨depth - 1, by omega⟩
    rw [LicRdf] at hl
    rw [licTriples] at hs
    have hne : ¬ parent = .bnode path := fun e => hp.ne (List.suffix_refl _) e.symm
    have hty := (hs.node (List.suffix_refl _) .type).one hg (v := spdxTerm s%"DisjunctiveLicenseSet") (by
      rw [objects_append, objects_licL_parent]; simp [objects_cons, objects_nil, hne])
    have hmem := (hs.node (List.suffix_refl _) .member).perm hg (l := l.zipIdx.map fun e => licNode env ns (e.2 :: path) e.1) (by
      rw [objects_append, objects_licL_parent]; simp [objects_cons, objects_nil, hne]) (licNodes_nodup hns path hl.2.1)
    obtain ⟨m, hm, hlen, hsame⟩ := licL_read env g hg ns hns l d path 0 hl.1 (by omega) (by
      intro j x hj
      rw [Nat.zero_add]
      exact hs.arg (parent := parent) _ (by
        intro t ht
        simp only [List.mem_cons, List.not_mem_nil, or_false] at ht
        rcases ht with rfl | rfl
        · exact .inr rfl
        · exact .inl rfl) hp j x hj)
    obtain ⟨ms, hms, hperm⟩ := mapM_perm hmem.symm hm
    obtain ⟨m', rfl, hm'⟩ := perm_map_some hperm.symm
    have hsl : SameLic (.or l) (.or m') := .or hlen hsame hm'
    refine ⟨.or m', ?_, hsl⟩
    show parseRdfLic env g ns (d + 1) (.bnode path) = _
    rw [blank_read env g ns hns d path _ hty, if_neg (by decide), if_pos rfl, hms]
    show env.lic.parse (joinWith s%" OR " ((m'.map some).map (licStr env))) = _
    rw [List.map_map]
    exact hl.2.2 m' hsl
theorem licL_read (env : RdfEnv) (g : RdfGraph) (hg : g.Nodup) (ns : Str) (hns : NsLic ns) : (l : List LicExpr) → (depth : Nat) → (path : List Nat) →
    (i : Nat) → LicRdfL env.lic l → licHeightL l ≤ depth →
    (∀ (j : Nat) x, l[j]? = some x → SeenAt g (licTriples env ns ((i + j) :: path) (.bnode path) .member x) ((i + j) :: path)) →
    ∃ m : List LicExpr, ((l.zipIdx i).map fun e => licNode env ns (e.2 :: path) e.1).mapM (parseRdfLic env g ns depth) = some (m.map some) ∧ m.length = l.length ∧
      ∀ (k : Nat) x y, l[k]? = some x → m[k]? = some y → SameLic x y
  | [], depth, path, i, hl, hd, hs => ⟨[], rfl, rfl, by intro k x y h; simp at h⟩
  | e :: l, depth, path, i, hl, hd, hs => by
    rw [LicRdfL] at hl
    rw [licHeightL] at hd
    obtain ⟨e', he, hse⟩ := lic_read env g hg ns hns e depth (i :: path) (.bnode path) .member hl.1 (by omega) (Out.parent i path) (hs 0 e rfl)
    obtain ⟨m, hm, hlen, hsame⟩ := licL_read env g hg ns hns l depth path (i + 1) hl.2 (by omega) (by
      intro j x hj
      have := hs (j + 1) x (by simpa using hj)
      rwa [show i + (j + 1) = i + 1 + j by omega] at this)
    refine ⟨e' :: m, ?_, by simp [hlen], ?_⟩
    · rw [zipIdx_map_cons]
      exact mapM_cons_some he hm
    · intro k x y hx hy
      cases k with
      | zero => cases hx; cases hy; exact hse
      | succ k => exact hsame k x y (by simpa using hx) (by simpa using hy)
end

/-! ### Values and lists of values -/

theorem objects_licOr_out (env : RdfEnv) (ns : Str) (path : List Nat) (parent : RdfNode) (p : Pred) (s : RdfNode) (q : Pred) (h : Out path s)
    (x : OrSpecial LicExpr) : RdfGraph.objects (licOrSpecialTriples env ns path parent p x) s q =
      if parent = s ∧ p = q then [licOrNode env ns path x] else [] := by
  cases x with
  | val e => exact objects_lic_out env ns path parent p s q h e
  | noAssertion => simp [licOrSpecialTriples, licOrNode, objects_cons, objects_nil]
  | none => simp [licOrSpecialTriples, licOrNode, objects_cons, objects_nil]

theorem objects_optLic_out (env : RdfEnv) (ns : Str) (path : List Nat) (parent : RdfNode) (p : Pred) (s : RdfNode) (q : Pred) (h : Out path s)
    (x : Option (OrSpecial LicExpr)) : RdfGraph.objects (optLicTriples env ns path parent p x) s q =
      if parent = s ∧ p = q then (x.map (licOrNode env ns path)).toList else [] := by
  cases x with
  | none => simp [optLicTriples, objects_nil]
  | some x => exact objects_licOr_out env ns path parent p s q h x

theorem objects_licList_out (env : RdfEnv) (ns : Str) (path : List Nat) (parent : RdfNode) (p : Pred) (s : RdfNode) (q : Pred) (h : Out path s)
    (l : List (OrSpecial LicExpr)) : RdfGraph.objects (licListTriples env ns path parent p l) s q =
      if parent = s ∧ p = q then l.zipIdx.map fun e => licOrNode env ns (e.2 :: path) e.1 else [] := by
  unfold licListTriples
  rw [objects_flatMap]
  have : ∀ e : OrSpecial LicExpr × Nat, RdfGraph.objects (licOrSpecialTriples env ns (e.2 :: path) parent p e.1) s q =
      if parent = s ∧ p = q then [licOrNode env ns (e.2 :: path) e.1] else [] :=
    fun e => objects_licOr_out env ns _ _ _ _ _ (h.below (List.suffix_cons _ _)) e.1
  simp only [this]
  exact flatMap_ite_singleton _ _ _

theorem licNode_plain (env : RdfEnv) {ns : Str} (hns : NsLic ns) (path : List Nat) (e : LicExpr) : (licNode env ns path e).truthy = true ∧
    (licNode env ns path e ≠ spdxTerm s%"noassertion" ∧ (licNode env ns path e).toPyStr ≠ some s%"NOASSERTION") ∧
    licNode env ns path e ≠ spdxTerm s%"none" ∧ (licNode env ns path e).toPyStr ≠ some s%"NONE" := by
  have hb : (RdfNode.bnode path).truthy = true ∧ (RdfNode.bnode path ≠ spdxTerm s%"noassertion" ∧ (RdfNode.bnode path).toPyStr ≠ some s%"NOASSERTION") ∧
      RdfNode.bnode path ≠ spdxTerm s%"none" ∧ (RdfNode.bnode path).toPyStr ≠ some s%"NONE" :=
    ⟨rfl, ⟨fun h => by (cases h), fun h => absurd (Option.some.inj h) (blank_ne (s := s%"NOASSERTION") path 'O' (by decide) (by decide))⟩, fun h => by (cases h),
      fun h => absurd (Option.some.inj h) (blank_ne (s := s%"NONE") path 'O' (by decide) (by decide))⟩
  cases e with
  | withExc => exact hb
  | and => exact hb
  | or => exact hb
  | sym k =>
    show (symbolNode env ns k).truthy = true ∧ (symbolNode env ns k ≠ _ ∧ (symbolNode env ns k).toPyStr ≠ _) ∧ symbolNode env ns k ≠ _ ∧
      (symbolNode env ns k).toPyStr ≠ _
    unfold symbolNode
    by_cases hk : env.known k = true
    · rw [if_pos hk]
      have hterm : ∀ t : Str, RdfNode.uri (licenseNamespace ++ k) ≠ spdxTerm t := by
        intro t e
        have := congrArg (List.take 20) (RdfNode.uri.inj e)
        rw [List.take_append_of_le_length (by decide), List.take_append_of_le_length (by decide)] at this
        revert this; decide
      have htext : ∀ t : Str, t.take 1 ≠ ['h'] → (RdfNode.uri (licenseNamespace ++ k)).toPyStr ≠ some t := by
        intro t ht e
        apply ht
        rw [← Option.some.inj e]
        rw [List.take_append_of_le_length (by decide)]
        rfl
      refine ⟨?_, ⟨hterm _, htext _ (by decide)⟩, hterm _, htext _ (by decide)⟩
      unfold RdfNode.truthy
      simp [licenseNamespace]
    · rw [if_neg hk]
      have htext : ∀ t : Str, '#' ∉ t → (RdfNode.uri (ns ++ s%"#" ++ k)).toPyStr ≠ some t := by
        intro t ht e
        apply ht
        rw [← Option.some.inj e]
        simp
      refine ⟨by unfold RdfNode.truthy; simp, ⟨?_, htext _ (by decide)⟩, ?_, htext _ (by decide)⟩
      · intro e; exact ns_ne_term hns k _ (RdfNode.uri.inj e)
      · intro e; exact ns_ne_term hns k _ (RdfNode.uri.inj e)

theorem licOr_read (env : RdfEnv) (g : RdfGraph) (hg : g.Nodup) (ns : Str) (hns : NsLic ns) (path : List Nat) (parent : RdfNode) (p : Pred)
    (x : OrSpecial LicExpr) (hx : LicOrRdf env x) (hp : Out path parent) (hs : SeenAt g (licOrSpecialTriples env ns path parent p x) path) :
    ∃ y, specialOr (licMethod env g ns) (licOrNode env ns path x) = some (some y) ∧ SameLicOr x y := by
  cases x with
  | noAssertion => exact ⟨_, specialOr_noAssertion, .noAssertion⟩
  | none => exact ⟨_, specialOr_none, .none⟩
  | val e =>
    obtain ⟨h1, h2⟩ := hx e rfl
    obtain ⟨e', he, hs⟩ := lic_read env g hg ns hns e env.depth path parent p h1 h2 hp hs
    obtain ⟨a, ⟨b, c⟩, d, f⟩ := licNode_plain env hns path e
    exact ⟨.val e', specialOr_val a b c d f he, .val hs⟩

theorem optLic_read {env : RdfEnv} {g : RdfGraph} (hg : g.Nodup) {ns : Str} (hns : NsLic ns) {path : List Nat} {parent : RdfNode} {p : Pred}
    {x : Option (OrSpecial LicExpr)} (hx : ∀ v, x = some v → LicOrRdf env v) (hp : Out path parent) (hs : SeenAt g (optLicTriples env ns path parent p x) path)
    (hv : g.objects parent p = (x.map (licOrNode env ns path)).toList) :
    ∃ y, rdfSpecial g parent p (licMethod env g ns) = some y ∧ SameOpt SameLicOr x y := by
  cases x with
  | none => exact ⟨none, rdfSpecial_none hv, .none⟩
  | some v =>
    obtain ⟨y, hy, hsame⟩ := licOr_read env g hg ns hns path parent p v (hx v rfl) hp hs
    exact ⟨some y, (rdfSpecial_some hv).trans hy, .some hsame⟩

theorem licOrNode_inj {env : RdfEnv} {ns : Str} (hns : NsLic ns) {x y : OrSpecial LicExpr} {q q' : List Nat}
    (h : licOrNode env ns q x = licOrNode env ns q' y) (hne : q ≠ q') : x = y := by
  cases x <;> cases y
  case val.val e e' => rw [licNode_inj hns h hne]
  case noAssertion.noAssertion => rfl
  case none.none => rfl
  case noAssertion.none => revert h; show spdxTerm _ = spdxTerm _ → _; decide
  case none.noAssertion => revert h; show spdxTerm _ = spdxTerm _ → _; decide
  case val.noAssertion e => exact absurd h (licNode_plain env hns q e).2.1.1
  case val.none e => exact absurd h (licNode_plain env hns q e).2.2.1
  case noAssertion.val e => exact absurd h.symm (licNode_plain env hns q' e).2.1.1
  case none.val e => exact absurd h.symm (licNode_plain env hns q' e).2.2.1

theorem licOrNodes_nodup {env : RdfEnv} {ns : Str} (hns : NsLic ns) (path : List Nat) {l : List (OrSpecial LicExpr)} (h : l.Nodup) :
    (l.zipIdx.map fun e => licOrNode env ns (e.2 :: path) e.1).Nodup := by
  refine nodup_map_of_inj (zipIdx_nodup l) ?_
  intro a ha b hb e
  by_cases hi : a.2 = b.2
  · have h1 := List.mem_zipIdx_iff_getElem?.1 ha
    have h2 := List.mem_zipIdx_iff_getElem?.1 hb
    rw [hi, h2] at h1
    exact Prod.ext (Option.some.inj h1).symm hi
  · exact zipIdx_inj h ha hb (licOrNode_inj hns e (fun h => hi (List.cons.inj h).1))

theorem all2_zipIdx {α β : Type} {R : α → β → Prop} {l : List α} {i : Nat} {m : List β} (h : All2 (fun (x : α × Nat) y => R x.1 y) (l.zipIdx i) m) : All2 R l m := by
  induction l generalizing i m with
  | nil => cases h; exact .nil
  | cons a l ih =>
    rw [List.zipIdx_cons] at h
    cases h with
    | cons h1 h2 => exact .cons h1 (ih h2)

theorem rearranged_zipIdx {α β : Type} {R : α → β → Prop} {l : List α} {m : List β} (h : Rearranged2 (fun (x : α × Nat) y => R x.1 y) l.zipIdx m) :
    Rearranged2 R l m := by
  obtain ⟨l', h1, h2⟩ := h
  exact ⟨l', all2_zipIdx h1, h2⟩

theorem licList_read {env : RdfEnv} {g : RdfGraph} (hg : g.Nodup) {ns : Str} (hns : NsLic ns) {path : List Nat} {parent : RdfNode} {p : Pred}
    {l : List (OrSpecial LicExpr)} (hl : ∀ v ∈ l, LicOrRdf env v) (hp : Out path parent) (hs : SeenAt g (licListTriples env ns path parent p l) path)
    (hv : (g.objects parent p).Perm (l.zipIdx.map fun e => licOrNode env ns (e.2 :: path) e.1)) :
    ∃ m, rdfLicenses env g ns parent p = some m ∧ Rearranged2 SameLicOr l m := by
  have : ∀ e ∈ l.zipIdx, ∃ y, needed (specialOr (licMethod env g ns) (licOrNode env ns (e.2 :: path) e.1)) = some y ∧ SameLicOr e.1 y := by
    intro e he
    have hi := List.mem_zipIdx_iff_getElem?.1 he
    obtain ⟨y, hy, hsame⟩ := licOr_read env g hg ns hns (e.2 :: path) parent p e.1 (hl _ (List.mem_of_getElem? hi)) (hp.below (List.suffix_cons _ _))
      (hs.narrow (List.suffix_cons _ _) (by
        intro q r hq
        unfold licListTriples
        rw [objects_zipIdx _ l _ _ e.2 e.1 hi]
        intro j y hj hne
        rw [objects_licOr_out _ _ _ _ _ _ _ (Out.sibling hq hne), if_neg]
        rintro ⟨h1, -⟩
        exact hp.1 q h1 ((List.suffix_cons _ _).trans hq)))
    exact ⟨y, by rw [hy]; rfl, hsame⟩
  obtain ⟨m, hm, hr⟩ := mapM_rearranged (f := fun v => needed (specialOr (licMethod env g ns) v))
    (R := fun (x : OrSpecial LicExpr × Nat) y => SameLicOr x.1 y) (k := fun e => licOrNode env ns (e.2 :: path) e.1) this hv
  exact ⟨m, hm, rearranged_zipIdx hr⟩

end Spdx
