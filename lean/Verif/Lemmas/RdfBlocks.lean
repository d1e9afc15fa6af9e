import Verif.Lemmas.RdfRest
/- A written graph is the union of blocks, one for each element, that say nothing about each other's nodes. -/
namespace Spdx
open Spec

/-! ### What a block says -/

/-- the predicates by which blocks are found -/
def specialPreds : List Pred := [.type, .hasFile, .describesPackage] ++ linkPreds

/-- the types of the nodes below an element -/
def innerTypes : List RdfNode :=
  [spdxTerm s%"Checksum", spdxTerm s%"ConjunctiveLicenseSet", spdxTerm s%"DisjunctiveLicenseSet", spdxTerm s%"WithExceptionOperator",
   spdxTerm s%"LicenseException", spdxTerm s%"PackageVerificationCode", spdxTerm s%"ExternalRef", pointerTerm s%"StartEndPointer",
   pointerTerm s%"ByteOffsetPointer", pointerTerm s%"LineCharPointer"]

/-- the nodes a block is about -/
def Inside (base : List Nat) (res s : RdfNode) : Prop := s = res ∨ (∃ q, s = .bnode q ∧ base <:+ q) ∨ ∃ x, s = .uri (licenseNamespace ++ x)

/-- a triple in the block of the node -/
inductive Okt (base : List Nat) (res ty : RdfNode) : Triple → Prop where
  | plain {s p o} : Inside base res s → p ∉ specialPreds → Okt base res ty (s, p, o)
  | own : Okt base res ty (res, .type, ty)
  | inner {s o} : Inside base res s → o ∈ innerTypes → Okt base res ty (s, .type, o)

def Oks (base : List Nat) (res ty : RdfNode) (l : List Triple) : Prop := ∀ t ∈ l, Okt base res ty t

variable {base : List Nat} {res ty : RdfNode}

theorem Inside.self : Inside base res res := .inl rfl
theorem Inside.node {q : List Nat} (h : base <:+ q) : Inside base res (.bnode q) := .inr (.inl ⟨q, rfl, h⟩)
theorem Inside.lic (x : Str) : Inside base res (.uri (licenseNamespace ++ x)) := .inr (.inr ⟨x, rfl⟩)

theorem oks_nil : Oks base res ty [] := by intro t h; cases h
theorem oks_cons {t : Triple} {l : List Triple} (h : Okt base res ty t) (hl : Oks base res ty l) : Oks base res ty (t :: l) := by
  intro x hx
  rcases List.mem_cons.1 hx with rfl | hx
  · exact h
  · exact hl x hx
theorem oks_append {l m : List Triple} (h : Oks base res ty l) (hm : Oks base res ty m) : Oks base res ty (l ++ m) := by
  intro x hx
  rcases List.mem_append.1 hx with hx | hx
  · exact h x hx
  · exact hm x hx
theorem oks_flatMap {α : Type} {l : List α} {F : α → List Triple} (h : ∀ a ∈ l, Oks base res ty (F a)) : Oks base res ty (l.flatMap F) := by
  intro x hx
  obtain ⟨a, ha, hx⟩ := List.mem_flatMap.1 hx
  exact h a ha x hx

theorem oks_optLiteral {s : RdfNode} {p : Pred} (v : Option Str) (hs : Inside base res s) (hp : p ∉ specialPreds) : Oks base res ty (optLiteral s p v) := by
  cases v with
  | none => exact oks_nil
  | some t => exact oks_cons (.plain hs hp) oks_nil

theorem oks_truthyLiteral {s : RdfNode} {p : Pred} (v : Option Str) (hs : Inside base res s) (hp : p ∉ specialPreds) : Oks base res ty (truthyLiteral s p v) := by
  cases v with
  | none => exact oks_nil
  | some t =>
    unfold truthyLiteral
    dsimp only
    split
    · exact oks_nil
    · exact oks_cons (.plain hs hp) oks_nil

theorem oks_map {α : Type} {s : RdfNode} {p : Pred} (l : List α) (f : α → RdfNode) (hs : Inside base res s) (hp : p ∉ specialPreds) :
    Oks base res ty (l.map fun t => (s, p, f t)) := by
  intro x hx
  obtain ⟨t, -, rfl⟩ := List.mem_map.1 hx
  exact .plain hs hp

theorem oks_literals {s : RdfNode} {p : Pred} (l : List Str) (hs : Inside base res s) (hp : p ∉ specialPreds) : Oks base res ty (literals s p l) :=
  oks_map l .str hs hp

theorem oks_literalOrSpecial {s : RdfNode} {p : Pred} (v : OrSpecial Str) (hs : Inside base res s) (hp : p ∉ specialPreds) :
    Oks base res ty (literalOrSpecial s p v) := by
  cases v <;> exact oks_cons (.plain hs hp) oks_nil

theorem oks_literalOrNoAssertion {s : RdfNode} {p : Pred} (v : Option (OrNoAssertion Str)) (hs : Inside base res s) (hp : p ∉ specialPreds) :
    Oks base res ty (literalOrNoAssertion s p v) := by
  cases v with
  | none => exact oks_nil
  | some v => cases v <;> exact oks_cons (.plain hs hp) oks_nil

theorem oks_purpose {s : RdfNode} (v : Option PackagePurpose) (hs : Inside base res s) : Oks base res ty (purposeBlock s v) := by
  cases v with
  | none => exact oks_nil
  | some t => exact oks_cons (.plain hs (by decide)) oks_nil

theorem oks_checksum {path : List Nat} {s : RdfNode} (c : Checksum) (hs : Inside base res s) (hp : base <:+ path) : Oks base res ty (checksumTriples path s c) :=
  oks_cons (.inner (.node hp) (by decide)) (oks_cons (.plain (.node hp) (by decide)) (oks_cons (.plain (.node hp) (by decide))
    (oks_cons (.plain hs (by decide)) oks_nil)))

theorem oks_checksums {path : List Nat} {s : RdfNode} (l : List Checksum) (hs : Inside base res s) (hp : base <:+ path) :
    Oks base res ty (checksumListTriples path s l) :=
  oks_flatMap fun _ _ => oks_checksum _ hs (hp.trans (List.suffix_cons _ _))

theorem oks_exception (env : RdfEnv) {path : List Nat} {s : RdfNode} (x : Str) (hs : Inside base res s) (hp : base <:+ path) :
    Oks base res ty (exceptionTriples env path s x) := by
  unfold exceptionTriples
  split
  · exact oks_cons (.plain hs (by decide)) (oks_cons (.inner (.lic _) (by decide)) oks_nil)
  · exact oks_cons (.plain (.node hp) (by decide)) (oks_cons (.plain hs (by decide)) (oks_cons (.inner (.node hp) (by decide)) oks_nil))

mutual
theorem oks_lic (env : RdfEnv) (ns : Str) {path : List Nat} {s : RdfNode} {p : Pred} (hs : Inside base res s) (hq : p ∉ specialPreds) (hp : base <:+ path) :
    (e : LicExpr) → Oks base res ty (licTriples env ns path s p e)
  | .sym _ => by
    rw [licTriples]
    exact oks_cons (.plain hs hq) oks_nil
  | .withExc l x => by
    rw [licTriples]
    exact oks_append (oks_cons (.inner (.node hp) (by decide)) (oks_cons (.plain hs hq) (oks_cons (.plain (.node hp) (by decide)) oks_nil)))
      (oks_exception env x (.node hp) (hp.trans (List.suffix_cons _ _)))
  | .and l => by
    rw [licTriples]
    exact oks_append (oks_cons (.inner (.node hp) (by decide)) (oks_cons (.plain hs hq) oks_nil)) (oks_licL env ns hp 0 l)
  | .or l => by
    rw [licTriples]
    exact oks_append (oks_cons (.inner (.node hp) (by decide)) (oks_cons (.plain hs hq) oks_nil)) (oks_licL env ns hp 0 l)
theorem oks_licL (env : RdfEnv) (ns : Str) {path : List Nat} (hp : base <:+ path) (i : Nat) :
    (l : List LicExpr) → Oks base res ty (licTriplesL env ns path i l)
  | [] => by rw [licTriplesL]; exact oks_nil
  | e :: l => by
    rw [licTriplesL]
    exact oks_append (oks_lic env ns (.node hp) (by decide) (hp.trans (List.suffix_cons _ _)) e) (oks_licL env ns hp (i + 1) l)
end

theorem oks_licOr (env : RdfEnv) (ns : Str) {path : List Nat} {s : RdfNode} {p : Pred} (x : OrSpecial LicExpr) (hs : Inside base res s) (hq : p ∉ specialPreds)
    (hp : base <:+ path) : Oks base res ty (licOrSpecialTriples env ns path s p x) := by
  cases x with
  | val e => exact oks_lic env ns hs hq hp e
  | _ => exact oks_cons (.plain hs hq) oks_nil

theorem oks_optLic (env : RdfEnv) (ns : Str) {path : List Nat} {s : RdfNode} {p : Pred} (x : Option (OrSpecial LicExpr)) (hs : Inside base res s)
    (hq : p ∉ specialPreds) (hp : base <:+ path) : Oks base res ty (optLicTriples env ns path s p x) := by
  cases x with
  | none => exact oks_nil
  | some x => exact oks_licOr env ns x hs hq hp

theorem oks_licList (env : RdfEnv) (ns : Str) {path : List Nat} {s : RdfNode} {p : Pred} (l : List (OrSpecial LicExpr)) (hs : Inside base res s)
    (hq : p ∉ specialPreds) (hp : base <:+ path) : Oks base res ty (licListTriples env ns path s p l) :=
  oks_flatMap fun _ _ => oks_licOr env ns _ hs hq (hp.trans (List.suffix_cons _ _))

theorem oks_code {path : List Nat} {s : RdfNode} (v : Option PackageVerificationCode) (hs : Inside base res s) (hp : base <:+ path) :
    Oks base res ty (verificationCodeTriples path s v) := by
  cases v with
  | none => exact oks_nil
  | some v =>
    exact oks_append (oks_append (oks_cons (.inner (.node hp) (by decide)) (oks_cons (.plain (.node hp) (by decide)) oks_nil))
      (oks_literals _ (.node hp) (by decide))) (oks_cons (.plain hs (by decide)) oks_nil)

theorem oks_packageRefs (ns : Str) {path : List Nat} {s : RdfNode} (l : List ExternalPackageRef) (hs : Inside base res s) (hp : base <:+ path) :
    Oks base res ty (packageRefBlocks ns path s l) := by
  refine oks_flatMap fun e _ => ?_
  have hp' : base <:+ e.2 :: path := hp.trans (List.suffix_cons _ _)
  exact oks_append (oks_append (oks_cons (.inner (.node hp') (by decide)) (oks_cons (.plain (.node hp') (by decide))
    (oks_cons (.plain (.node hp') (by decide)) (oks_cons (.plain (.node hp') (by decide)) oks_nil)))) (oks_truthyLiteral _ (.node hp') (by decide)))
    (oks_cons (.plain hs (by decide)) oks_nil)

theorem oks_range {path : List Nat} {s from_ : RdfNode} {cls : Str} (k : RangeKind) (r : Int × Int) (hs : Inside base res s) (hp : base <:+ path)
    (hc : pointerTerm cls ∈ innerTypes) : Oks base res ty (rangeTriples path s from_ cls k.pred r) := by
  have h0 : base <:+ 0 :: path := hp.trans (List.suffix_cons _ _)
  have h1 : base <:+ 1 :: path := hp.trans (List.suffix_cons _ _)
  have hk : k.pred ∉ specialPreds := by cases k <;> decide
  exact oks_cons (.inner (.node hp) (by decide)) (oks_cons (.inner (.node h0) hc) (oks_cons (.plain (.node hp) (by decide))
    (oks_cons (.plain (.node h0) (by decide)) (oks_cons (.plain (.node h0) hk) (oks_cons (.inner (.node h1) hc)
    (oks_cons (.plain (.node hp) (by decide)) (oks_cons (.plain (.node h1) (by decide)) (oks_cons (.plain (.node h1) hk)
    (oks_cons (.plain hs (by decide)) oks_nil)))))))))

/-! ### Blocks -/

structure Block where
  path : List Nat
  name : Option Str
  ty : RdfNode
  body : List Triple
  link : List Triple

/-- the node of a block -/
def nodeOf (ns : Str) (path : List Nat) : Option Str → RdfNode
  | none => .bnode path
  | some n => .uri (ns ++ s%"#" ++ n)

structure Block.Ok (ns : Str) (b : Block) : Prop where
  body : Oks b.path (nodeOf ns b.path b.name) b.ty b.body
  own : (nodeOf ns b.path b.name, .type, b.ty) ∈ b.body
  link : ∀ t ∈ b.link, t.2.1 ∈ linkPreds ∧ ∃ u, t.1 = .uri u
  ty : b.ty ∉ innerTypes

/-- Blocks that do not interfere. -/
structure Blocks (ns : Str) (bs : List Block) : Prop where
  ok : ∀ b ∈ bs, b.Ok ns
  length : ∀ b ∈ bs, b.path.length = 2
  path : ∀ a ∈ bs, ∀ b ∈ bs, a.path = b.path → a = b
  name : ∀ a ∈ bs, ∀ b ∈ bs, ∀ n, a.name = some n → b.name = some n → a = b

def Block.triples (b : Block) : List Triple := b.body ++ b.link

theorem suffix_eq {α : Type} {a b q : List α} (h1 : a <:+ q) (h2 : b <:+ q) (hl : a.length = b.length) : a = b := by
  rw [← List.reverse_prefix] at h1 h2
  have := List.prefix_of_prefix_length_le h1 h2 (by simp [hl])
  have := this.eq_of_length (by simp [hl])
  exact List.reverse_inj.1 this

variable {ns : Str} {bs : List Block}

theorem special_of_link {p : Pred} (h : p ∈ linkPreds) : p ∈ specialPreds := List.mem_append_right _ h

theorem type_not_link : Pred.type ∉ linkPreds := by decide

/-- A triple of a body about a node of another block belongs to the latter's body. -/
theorem Blocks.inside (hb : Blocks ns bs) (hns : NsLic ns) {a b : Block} (ha : a ∈ bs) (hbm : b ∈ bs)
    (hin : Inside a.path (nodeOf ns a.path a.name) (nodeOf ns b.path b.name)) : a = b := by
  rcases hin with h | ⟨q, h, hq⟩ | ⟨x, h⟩
  · cases hna : a.name with
    | none =>
      cases hnb : b.name with
      | none =>
        rw [hna, hnb] at h
        exact hb.path a ha b hbm (RdfNode.bnode.inj h).symm
      | some m => rw [hna, hnb] at h; cases h
    | some n =>
      cases hnb : b.name with
      | none => rw [hna, hnb] at h; cases h
      | some m =>
        rw [hna, hnb] at h
        have := List.append_cancel_left (RdfNode.uri.inj h)
        exact hb.name a ha b hbm n hna (by rw [hnb, this])
  · cases hnb : b.name with
    | none =>
      rw [hnb] at h
      cases RdfNode.bnode.inj h
      refine hb.path a ha b hbm (suffix_eq hq (List.suffix_refl _) ?_)
      rw [hb.length a ha, hb.length b hbm]
    | some m => rw [hnb] at h; cases h
  · cases hnb : b.name with
    | none => rw [hnb] at h; cases h
    | some m =>
      rw [hnb] at h
      have h := RdfNode.uri.inj h
      exact absurd (h ▸ List.prefix_append _ _) (ns_not_license hns.license m)

theorem Okt.inside {t : Triple} (h : Okt base res ty t) : Inside base res t.1 := by
  cases h with
  | plain h => exact h
  | own => exact .self
  | inner h => exact h

theorem Okt.notLink {t : Triple} (h : Okt base res ty t) : t.2.1 ∉ linkPreds := by
  cases h with
  | plain _ h => exact fun hl => h (special_of_link hl)
  | own => exact type_not_link
  | inner => exact type_not_link

theorem mem_blocks {t : Triple} : t ∈ bs.flatMap Block.triples ↔ ∃ b ∈ bs, t ∈ b.body ∨ t ∈ b.link := by
  simp only [List.mem_flatMap, Block.triples, List.mem_append]

/-- T1, T2: what the graph says about the nodes of a block is what the block says. -/
theorem Blocks.seen (hb : Blocks ns bs) (hns : NsLic ns) {g : RdfGraph} (hg : SameTriples g (bs.flatMap Block.triples)) {b : Block} (hm : b ∈ bs) :
    Seen g b.body (nodeOf ns b.path b.name) b.path := by
  refine ⟨hg.1, ?_, ?_⟩
  · intro p hp o
    rw [hg.2, mem_blocks, mem_objects]
    constructor
    · rintro ⟨a, ha, h | h⟩
      · have := hb.inside hns ha hm ((hb.ok a ha).body _ h).inside
        subst this
        exact h
      · exact absurd ((hb.ok a ha).link _ h).1 hp
    · exact fun h => ⟨b, hm, .inl h⟩
  · intro q p hq o
    rw [hg.2, mem_blocks, mem_objects]
    constructor
    · rintro ⟨a, ha, h | h⟩
      · have : a = b := by
          have hl : a.path.length = b.path.length := by rw [hb.length a ha, hb.length b hm]
          rcases ((hb.ok a ha).body _ h).inside with e | ⟨q', e, hq'⟩ | ⟨x, e⟩
          · cases hna : a.name with
            | none =>
              rw [hna] at e
              cases RdfNode.bnode.inj e
              exact hb.path a ha b hm (suffix_eq (List.suffix_refl _) hq hl)
            | some n => rw [hna] at e; cases e
          · cases RdfNode.bnode.inj e
            exact hb.path a ha b hm (suffix_eq hq' hq hl)
          · cases e
        rw [← this]
        exact h
      · obtain ⟨u, hu⟩ := ((hb.ok a ha).link _ h).2
        cases hu
    · exact fun h => ⟨b, hm, .inl h⟩

/-- T3: the nodes of a type. -/
theorem Blocks.types (hb : Blocks ns bs) {ty : RdfNode} (hty : ty ∉ innerTypes) (s : RdfNode) :
    (s, .type, ty) ∈ bs.flatMap Block.triples ↔ ∃ b ∈ bs, b.ty = ty ∧ nodeOf ns b.path b.name = s := by
  rw [mem_blocks]
  constructor
  · rintro ⟨a, ha, h | h⟩
    · refine ⟨a, ha, ?_⟩
      have := (hb.ok a ha).body _ h
      generalize ht : (s, Pred.type, ty) = t at this
      cases this with
      | plain _ hp => cases ht; exact absurd (by decide) hp
      | own => cases ht; exact ⟨rfl, rfl⟩
      | inner _ ho => cases ht; exact absurd ho hty
    · exact absurd ((hb.ok a ha).link _ h).1 type_not_link
  · rintro ⟨b, hm, rfl, rfl⟩
    exact ⟨b, hm, .inl (hb.ok b hm).own⟩

/-- T4: the triples of a linking predicate. -/
theorem Blocks.links (hb : Blocks ns bs) {p : Pred} (hp : p ∈ linkPreds) (s o : RdfNode) :
    (s, p, o) ∈ bs.flatMap Block.triples ↔ ∃ b ∈ bs, (s, p, o) ∈ b.link := by
  rw [mem_blocks]
  constructor
  · rintro ⟨a, ha, h | h⟩
    · exact absurd hp ((hb.ok a ha).body _ h).notLink
    · exact ⟨a, ha, h⟩
  · rintro ⟨b, hm, h⟩
    exact ⟨b, hm, .inr h⟩

/-- No implicit relationships are written. -/
theorem Blocks.implicit (hb : Blocks ns bs) {p : Pred} (hp : p = .hasFile ∨ p = .describesPackage) (s o : RdfNode) : (s, p, o) ∉ bs.flatMap Block.triples := by
  rw [mem_blocks]
  have h1 : p ∈ specialPreds := by rcases hp with rfl | rfl <;> decide
  have h2 : p ∉ linkPreds := by rcases hp with rfl | rfl <;> decide
  have h3 : p ≠ .type := by rcases hp with rfl | rfl <;> decide
  rintro ⟨a, ha, h | h⟩
  · have := (hb.ok a ha).body _ h
    generalize ht : (s, p, o) = t at this
    cases this with
    | plain _ hp => cases ht; exact hp h1
    | own => cases ht; exact h3 rfl
    | inner _ ho => cases ht; exact h3 rfl
  · exact h2 ((hb.ok a ha).link _ h).1

/-! ### Places and names -/

theorem path_inj {kinds : List (List Block)} (h : ∀ (k i : Nat) l b, kinds[k]? = some l → l[i]? = some b → b.path = [i, k]) :
    (∀ b ∈ kinds.flatten, b.path.length = 2) ∧ ∀ a ∈ kinds.flatten, ∀ b ∈ kinds.flatten, a.path = b.path → a = b := by
  have key : ∀ b ∈ kinds.flatten, ∃ (k i : Nat) (l : List Block), kinds[k]? = some l ∧ l[i]? = some b := by
    intro b hb
    obtain ⟨l, hl, hb⟩ := List.mem_flatten.1 hb
    obtain ⟨k, hk⟩ := List.mem_iff_getElem?.1 hl
    obtain ⟨i, hi⟩ := List.mem_iff_getElem?.1 hb
    exact ⟨k, i, l, hk, hi⟩
  constructor
  · intro b hb
    obtain ⟨k, i, l, h1, h2⟩ := key b hb
    rw [h k i l b h1 h2]
    rfl
  · intro a ha b hb e
    obtain ⟨k, i, l, h1, h2⟩ := key a ha
    obtain ⟨k', i', l', h1', h2'⟩ := key b hb
    rw [h k i l a h1 h2, h k' i' l' b h1' h2'] at e
    cases e
    rw [h1] at h1'
    cases h1'
    rw [h2] at h2'
    cases h2'
    rfl

theorem name_inj {α β : Type} {f : α → Option β} {l : List α} (h : (l.filterMap f).Nodup) : ∀ a ∈ l, ∀ b ∈ l, ∀ n, f a = some n → f b = some n → a = b := by
  induction l with
  | nil => intro a ha; cases ha
  | cons c l ih =>
    intro a ha b hb n h1 h2
    cases hc : f c with
    | none =>
      rw [List.filterMap_cons_none hc] at h
      rcases List.mem_cons.1 ha with rfl | ha'
      · rw [hc] at h1; cases h1
      · rcases List.mem_cons.1 hb with rfl | hb'
        · rw [hc] at h2; cases h2
        · exact ih h a ha' b hb' n h1 h2
    | some m =>
      rw [List.filterMap_cons_some hc, List.nodup_cons] at h
      rcases List.mem_cons.1 ha with rfl | ha'
      · rcases List.mem_cons.1 hb with rfl | hb'
        · rfl
        · exfalso
          rw [h1] at hc
          cases hc
          exact h.1 (List.mem_filterMap.2 ⟨b, hb', h2⟩)
      · rcases List.mem_cons.1 hb with rfl | hb'
        · exfalso
          rw [h2] at hc
          cases hc
          exact h.1 (List.mem_filterMap.2 ⟨a, ha', h1⟩)
        · exact ih h.2 a ha' b hb' n h1 h2

end Spdx
