import Verif.Lemmas.JsonRead
/- The parser functions of the elements in the JSON-like formats. -/
namespace Spdx.JsonSays
open Spdx Spdx.Spec.JsonSays
open Spdx.Spec.RdfSays (All2)

theorem reads_object {α : Type} {m : Json → Py α} {R : Obj → α → Prop} (h : ∀ o a, m (.obj o) = .ok a ↔ R o a)
    (hn : ∀ v a, m v = .ok a → ∃ o, v = .obj o) (ne : ∀ v, NE (m v)) : Reads m (Object R) where
  iff v a := by
    constructor
    · intro hm
      obtain ⟨o, rfl⟩ := hn v a hm
      exact ⟨o, rfl, (h o a).1 hm⟩
    · rintro ⟨o, rfl, hr⟩; exact (h o a).2 hr
  ne := ne

macro "only_objects" f:ident : tactic => `(tactic| (intro v a h; cases v <;> first | exact ⟨_, rfl⟩ | (unfold $f:ident at h; cases h)))

/-- The check succeeds with a value of which `k` holds. -/
def Chain {α : Type} (f : Check α) (k : α → Prop) : Prop := ∃ g, f = .ok g ∧ k g
/-- The computation logs nothing and has a value of which `k` holds. -/
def Then {α : Type} (p : P α) (k : α → Prop) : Prop := ∃ a, p = pure a ∧ k a

theorem construct_chain {α : Type} {cls : Str} {c : Check α} {a : α} : construct cls c = .ok a ↔ Chain c (· = a) :=
  construct_iff.trans ⟨fun h => ⟨a, h, rfl⟩, by rintro ⟨_, h, rfl⟩; exact h⟩
theorem chain_ap {α β : Type} {f : Check (α → β)} {a : Check α} {k : β → Prop} :
    Chain (f ⊛ a) k ↔ Chain f fun g => ∃ x, a = .ok x ∧ k (g x) := by
  constructor
  · rintro ⟨b, h, hk⟩
    obtain ⟨g, hg, x, hx, rfl⟩ := ap_iff.1 h
    exact ⟨g, hg, x, hx, hk⟩
  · rintro ⟨g, hg, x, hx, hk⟩
    exact ⟨_, ap_iff.2 ⟨g, hg, x, hx, rfl⟩, hk⟩
theorem chain_ok {α : Type} {a : α} {k : α → Prop} : Chain (.ok a : Check α) k ↔ k a :=
  ⟨by rintro ⟨_, h, hk⟩; cases h; exact hk, fun h => ⟨a, rfl, h⟩⟩
theorem chain_mk {α β : Type} {f : α → β} {a : Check α} {k : β → Prop} :
    Chain ((.ok f : Check (α → β)) ⊛ a) k ↔ ∃ x, a = .ok x ∧ k (f x) := chain_ap.trans chain_ok
theorem chain_ap_ok {α β : Type} {f : Check (α → β)} {a : α} {k : β → Prop} :
    Chain (f ⊛ (.ok a : Check α)) k ↔ Chain f fun g => k (g a) := by
  refine chain_ap.trans ?_
  constructor
  · rintro ⟨g, hg, x, hx, hk⟩; cases hx; exact ⟨g, hg, hk⟩
  · rintro ⟨g, hg, hk⟩; exact ⟨g, hg, a, rfl, hk⟩
theorem chain_mk_ok {α β : Type} {f : α → β} {a : α} {k : β → Prop} :
    Chain ((.ok f : Check (α → β)) ⊛ (.ok a : Check α)) k ↔ k (f a) := chain_ap_ok.trans chain_ok
theorem raise_then {α β : Type} {w : Str} {p : P α} {f : α → Py β} {b : β} :
    (P.orRaiseIn w p >>= f) = .ok b ↔ Then p fun a => f a = .ok b := by
  simp only [py_bind_iff, orRaiseIn_iff, Then]
theorem raise_then' {α β : Type} {p : P α} {f : α → Py β} {b : β} :
    (P.orRaise p >>= f) = .ok b ↔ Then p fun a => f a = .ok b := by
  simp only [py_bind_iff, orRaise_iff, Then]
theorem then_bind {α β : Type} {x : P α} {f : α → P β} {k : β → Prop} : Then (x >>= f) k ↔ Then x fun a => Then (f a) k := by
  simp only [Then, pbind_iff]
  constructor
  · rintro ⟨b, ⟨a, h1, h2⟩, h3⟩; exact ⟨a, h1, b, h2, h3⟩
  · rintro ⟨a, h1, b, h2, h3⟩; exact ⟨b, ⟨a, h1, h2⟩, h3⟩
theorem then_pure {α : Type} {a : α} {k : α → Prop} : Then (pure a) k ↔ k a :=
  ⟨by rintro ⟨_, h, hk⟩; rw [pure_iff.1 h]; exact hk, fun h => ⟨a, rfl, h⟩⟩
theorem then_field {α : Type} {m : Json → Py α} {R : Json → α → Prop} (r : Reads m R) {v : Json} {k : Option α → Prop} :
    Then (parseField v m) k ↔ ∃ x, Field R v x ∧ k x := by
  simp only [Then, field_iff r]
theorem ok_self {α : Type} {a : α} {k : α → Prop} : (∃ x, (.ok a : Check α) = .ok x ∧ k x) ↔ k a :=
  ⟨by rintro ⟨_, h, hk⟩; cases h; exact hk, fun h => ⟨a, rfl, h⟩⟩

macro "read_steps" "[" ts:Lean.Parser.Tactic.simpLemma,* "]" : tactic => `(tactic| simp only [get_obj, getD_obj, py_bind_ok, lift_ok, pbind_pure, raise_then, then_bind, then_pure,
  construct_chain, chain_mk_ok, chain_ap_ok, chain_mk, chain_ap, chain_ok, ok_self, chkStr_iff, chkOptStr_iff, chkSome_iff, texts_getD, special_iff, optSpecial_iff, analyzed_iff,
  then_field (reads_enum names_category _), then_field (reads_enum names_purpose _), then_field (reads_enum names_relationship _),
  then_field reads_date, then_field reads_actor, then_field reads_actorOrNoAssertion, then_field reads_version, $ts,*])

macro "read_steps" : tactic => `(tactic| read_steps [then_pure])

theorem externalRef_iff (o : Obj) (r : ExternalPackageRef) : parseExternalRef (.obj o) = .ok r ↔ ExternalRefSays o r := by
  unfold parseExternalRef
  read_steps
  constructor
  · rintro ⟨_, h1, _, rfl, _, h2, _, h3, _, h4, rfl⟩
    exact ⟨field_some.1 h1, h2, h3, h4⟩
  · rintro ⟨h1, h2, h3, h4⟩
    exact ⟨_, field_some.2 h1, _, rfl, _, h2, _, h3, _, h4, rfl⟩

theorem ne_externalRef (j : Json) : NE (parseExternalRef j) := by unfold parseExternalRef pyGet; has_messages

theorem reads_externalRef : Reads parseExternalRef (Object ExternalRefSays) :=
  reads_object externalRef_iff (by only_objects parseExternalRef) ne_externalRef

theorem algorithmFromJson_iff {s : Str} {a : ChecksumAlgorithm} :
    algorithmFromJson s = some a ↔ upperAscii (replaceChar '-' ['_'] s) = a.name := names_algorithm.iff

/-- The algorithm of a checksum. -/
def algorithmOf (v : Json) : Py ChecksumAlgorithm :=
  match v with
  | .str s => match algorithmFromJson s with
    | some a => .ok a
    | none => .error (.parsing [.wrapped s%"Checksum" [.invalid s%"ChecksumAlgorithm" (.str (jsonStrToEnumName s))]])
  | v => .error (.parsing [.text (s%"Type for enum must be str not " ++ v.typeName)])

theorem algorithmOf_iff {v : Json} {a : ChecksumAlgorithm} : algorithmOf v = .ok a ↔ Member ChecksumAlgorithm.name v a := by
  unfold Member
  cases v <;> try exact ⟨fun h => (by cases h), by rintro ⟨s, hs, _⟩; cases hs⟩
  rename_i s
  rw [algorithmOf.eq_def]
  dsimp only
  constructor
  · intro h
    cases ha : algorithmFromJson s with
    | none => rw [ha] at h; cases h
    | some b => rw [ha] at h; cases h; exact ⟨s, rfl, algorithmFromJson_iff.1 ha⟩
  · rintro ⟨t, ht, h⟩
    cases ht
    rw [algorithmFromJson_iff.2 h]

theorem checksum_eq (o : Obj) : parseChecksum (.obj o) = (do
    let a ← algorithmOf ((o.lookup s%"algorithm").getD (.str []))
    construct s%"Checksum" (.ok Checksum.mk ⊛ .ok a ⊛ chkStr s%"value" (valueAt o s%"checksumValue"))) := by
  unfold parseChecksum
  simp only [getD_obj, get_obj, py_bind_ok]
  generalize (o.lookup s%"algorithm").getD (.str []) = v
  cases v <;> try rfl
  rename_i s
  rw [algorithmOf.eq_def]
  dsimp only
  cases algorithmFromJson s <;> rfl

theorem checksum_iff (o : Obj) (c : Checksum) : parseChecksum (.obj o) = .ok c ↔ ChecksumSays o c := by
  rw [checksum_eq, py_bind_iff]
  simp only [algorithmOf_iff]
  have e : ∀ a, Member ChecksumAlgorithm.name ((o.lookup s%"algorithm").getD (.str [])) a ↔
      Member ChecksumAlgorithm.name (valueAt o s%"algorithm") a := by
    intro a
    unfold valueAt
    cases o.lookup s%"algorithm" with
    | some v => exact Iff.rfl
    | none =>
      constructor
      · rintro ⟨t, ht, h⟩
        cases ht
        cases a <;> exact absurd h (by decide)
      · rintro ⟨t, ht, h⟩; cases ht
  simp only [e]
  read_steps
  constructor
  · rintro ⟨_, h1, _, h2, rfl⟩; exact ⟨h1, h2⟩
  · rintro ⟨h1, h2⟩; exact ⟨_, h1, _, h2, rfl⟩

theorem ne_checksum (j : Json) : NE (parseChecksum j) := by
  cases j <;> try (intro h; cases h; done)
  rw [checksum_eq]
  refine ne_bind ?_ fun _ => ne_construct _ _
  rename_i o
  generalize (o.lookup s%"algorithm").getD (.str []) = v
  cases v <;> try (intro h; cases h; done)
  rw [algorithmOf.eq_def]
  dsimp only
  split <;> (intro h; cases h)

theorem reads_checksum : Reads parseChecksum (Object ChecksumSays) :=
  reads_object checksum_iff (by only_objects parseChecksum) ne_checksum

theorem externalDocumentRef_iff (o : Obj) (r : ExternalDocumentRef) :
    parseExternalDocumentRef (.obj o) = .ok r ↔ ExternalDocumentRefSays o r := by
  unfold parseExternalDocumentRef
  read_steps [then_field reads_checksum]
  constructor
  · rintro ⟨_, h1, _, h2, _, h3, _, rfl, rfl⟩; exact ⟨h2, h3, field_some.1 h1⟩
  · rintro ⟨h1, h2, h3⟩; exact ⟨_, field_some.2 h3, _, h1, _, h2, _, rfl, rfl⟩

theorem reads_externalDocumentRef : Reads parseExternalDocumentRef (Object ExternalDocumentRefSays) :=
  reads_object externalDocumentRef_iff (by only_objects parseExternalDocumentRef)
    (fun j => by unfold parseExternalDocumentRef pyGet; has_messages)

theorem collectFields_iff {α : Type} {m : Json → Py α} {R : Json → α → Prop} (r : Reads m R) {l : List Json} {xs : List (Option α)} :
    collectFields m l = pure xs ↔ All2 (Field R) l xs := by
  induction l generalizing xs with
  | nil =>
    refine pure_iff.trans ?_
    exact ⟨by rintro rfl; exact .nil, fun h => by cases h; rfl⟩
  | cons j l ih =>
    unfold collectFields
    simp only [pbind_iff, field_iff r, ih, pure_iff]
    constructor
    · rintro ⟨a, h1, as, h2, rfl⟩; exact .cons h1 h2
    · intro h
      cases h with
      | cons h1 h2 => exact ⟨_, h1, _, h2, rfl⟩

theorem reads_externalDocumentRefs : Reads parseExternalDocumentRefs
    (fun v xs => ∃ items, Items v items ∧ All2 (Field (Object ExternalDocumentRefSays)) items xs) where
  iff v xs := by
    unfold parseExternalDocumentRefs
    simp only [py_bind_iff, iter_iff, orRaise_iff, collectFields_iff reads_externalDocumentRef]
  ne v := ne_bind (ne_quiet (quiet_iter _)) fun l => ne_orRaise (quietP_collectFields _ _)

theorem field_some_eq {α : Type} {R : Json → α → Prop} : (fun v a => Field R v (some a)) = Required R :=
  funext fun _ => funext fun _ => propext field_some

theorem creationInfo_iff (o : Obj) (c : CreationInfo) :
    parseCreationInfo (.obj o) = .ok c ↔ ∃ i, valueAt o s%"creationInfo" = .obj i ∧ CreationInfoSays o i c := by
  unfold parseCreationInfo
  simp only [get_obj, py_bind_ok]
  by_cases hn : valueAt o s%"creationInfo" = .null
  · rw [if_pos hn]
    exact ⟨fun h => (by cases h), by rintro ⟨i, h, _⟩; rw [hn] at h; cases h⟩
  · rw [if_neg hn]
    by_cases ho : ∃ i, valueAt o s%"creationInfo" = .obj i
    · obtain ⟨i, hi⟩ := ho
      rw [hi]
      read_steps [then_field reads_externalDocumentRefs, then_field (reads_list reads_actor (quietP_collect _))]
      constructor
      · rintro ⟨_, h1, _, h2, _, h3, _, h4, _, h5, _, h6, _, h7, _, h8, _, rfl, _, rfl, _, h9, _, h10, _, h11, _, h12, rfl⟩
        refine ⟨i, rfl, h5, h6, h7, h8, field_some.1 h1, field_some.1 h2, h9, h10, ?_, h4, h12⟩
        have := allList_iff.1 ⟨_, h3, h11⟩
        rw [field_some_eq] at this
        exact this
      · rintro ⟨_, hj, h5, h6, h7, h8, h1, h2, h9, h10, h11, h4, h12⟩
        cases hj
        rw [← field_some_eq] at h11
        obtain ⟨x, hx, hx'⟩ := (allList_iff (f := s%"external_document_refs")).2 h11
        exact ⟨_, field_some.2 h1, _, field_some.2 h2, _, hx, _, h4, _, h5, _, h6, _, h7, _, h8, _, rfl, _, rfl, _, h9, _, h10, _, hx', _, h12, rfl⟩
    · constructor
      · intro h
        exfalso
        generalize valueAt o s%"creationInfo" = v at *
        cases v <;> first | exact ho ⟨_, rfl⟩ | cases h
      · rintro ⟨i, hi, _⟩; exact absurd ⟨i, hi⟩ ho

theorem verificationCode_iff (o : Obj) (c : PackageVerificationCode) : parseVerificationCode (.obj o) = .ok c ↔ VerificationCodeSays o c := by
  unfold parseVerificationCode
  read_steps
  constructor
  · rintro ⟨_, h1, _, h2, rfl⟩; exact ⟨h1, h2⟩
  · rintro ⟨h1, h2⟩; exact ⟨_, h1, _, h2, rfl⟩

theorem reads_verificationCode : Reads parseVerificationCode (Object VerificationCodeSays) :=
  reads_object verificationCode_iff (by only_objects parseVerificationCode) (fun j => by unfold parseVerificationCode pyGet; has_messages)

/-- The messages of the external references of a package. -/
private def refMessages (v : Json) : List PMsg :=
  if v.truthy then
    match pyIter v with
    | .error _ => []
    | .ok l => match collect parseExternalRef l with
      | .ok (ms, _) => ms
      | .error _ => []
  else []

private theorem refMessages_eq (o : Obj) : externalRefMessages (.obj o) = refMessages (valueAt o s%"externalRefs") := rfl

private theorem refs_iff {v : Json} {x : Option (List ExternalPackageRef)} :
    (parseField v parseExternalRefs = pure x ∧ refMessages v = []) ↔ Field (ListOf (Object ExternalRefSays)) v x := by
  rw [← list_iff reads_externalRef]
  by_cases ht : v.truthy = true
  · have e1 : refMessages v = match pyIter v with
      | .error _ => []
      | .ok l => match collect parseExternalRef l with
        | .ok (ms, _) => ms
        | .error _ => [] := if_pos ht
    rw [e1]
    cases hi : pyIter v with
    | error e =>
      have h1 : parseExternalRefs v = .error e := by unfold parseExternalRefs; rw [hi]; rfl
      have h2 : parseList parseExternalRef v = .error e := by unfold parseList; rw [hi]; rfl
      rw [parseField_error h1 ht, parseField_error h2 ht]
      exact ⟨fun h => h.1, fun h => ⟨h, rfl⟩⟩
    | ok l =>
      dsimp only
      match hc : collect parseExternalRef l with
      | .error e =>
        have h1 : parseExternalRefs v = .error e := by unfold parseExternalRefs; rw [hi, py_bind_ok, hc]
        have h2 : parseList parseExternalRef v = .error e := by unfold parseList; rw [hi, py_bind_ok, hc]; rfl
        rw [parseField_error h1 ht, parseField_error h2 ht]
        exact ⟨fun h => h.1, fun h => ⟨h, rfl⟩⟩
      | .ok ([], rs) =>
        have h1 : parseExternalRefs v = .ok rs := by unfold parseExternalRefs; rw [hi, py_bind_ok, hc]
        have h2 : parseList parseExternalRef v = .ok rs := by unfold parseList; rw [hi, py_bind_ok, hc]; rfl
        rw [parseField_ok h1 ht, parseField_ok h2 ht]
        exact ⟨fun h => h.1, fun h => ⟨h, rfl⟩⟩
      | .ok (m :: ms, rs) =>
        have h2 : parseList parseExternalRef v = .error (.parsing (m :: ms)) := by unfold parseList; rw [hi, py_bind_ok, hc]; rfl
        rw [parseField_error h2 ht]
        exact ⟨fun h => (by cases h.2), fun h => (by cases h)⟩
  · have e1 : refMessages v = [] := if_neg ht
    rw [parseField_falsy ht, parseField_falsy ht, e1]
    exact ⟨fun h => h.1, fun h => ⟨h, rfl⟩⟩

theorem package_iff (L : LicText) (o : Obj) (p : Package) :
    (parsePackage L (.obj o) = .ok p ∧ externalRefMessages (.obj o) = []) ↔ PackageSays L o p := by
  rw [refMessages_eq]
  unfold parsePackage
  read_steps [then_field (reads_list reads_checksum (quietP_collect _)), then_field (reads_license L),
    then_field (reads_list (reads_license L) (quietP_collect _)), then_field reads_verificationCode]
  constructor
  · rintro ⟨⟨_, h1, _, h2, _, h3, _, h4, _, h5, _, h6, _, h7, _, h8, _, h9, _, h10, _, h11, _, h12,
      _, h13, _, h14, _, h15, _, h16, _, h17, _, h18, _, h19, _, h20, _, h21, _, h22, _, h23, _, h24, _, h25, _, h26, _, h27, rfl⟩, hm⟩
    exact ⟨h13, h14, h15, h16, h17, h11, h7, h18, h8, optList_iff.1 ⟨_, h2, rfl⟩, h19, h20, optLicense_iff.1 ⟨_, h4, rfl⟩,
      allList_iff.1 ⟨_, h6, h21⟩, optLicense_iff.1 ⟨_, h5, rfl⟩, h22, h23, h24, h25, h26, optList_iff.1 ⟨_, refs_iff.1 ⟨h3, hm⟩, rfl⟩, h27,
      h9, h10, h1, h12⟩
  · rintro ⟨h13, h14, h15, h16, h17, h11, h7, h18, h8, h2, h19, h20, h4, h6, h5, h22, h23, h24, h25, h26, h3, h27, h9, h10, h1, h12⟩
    obtain ⟨_, h2, e2⟩ := optList_iff.2 h2
    obtain ⟨_, h3, e3⟩ := optList_iff.2 h3
    obtain ⟨h3, hm⟩ := refs_iff.2 h3
    obtain ⟨_, h4, e4⟩ := optLicense_iff.2 h4
    obtain ⟨_, h5, e5⟩ := optLicense_iff.2 h5
    obtain ⟨_, h6, h21⟩ := (allList_iff (f := s%"license_info_from_files")).2 h6
    refine ⟨⟨_, h1, _, h2, _, h3, _, h4, _, h5, _, h6, _, h7, _, h8, _, h9, _, h10, _, h11, _, h12,
      _, h13, _, h14, _, h15, _, h16, _, h17, _, h18, _, h19, _, h20, _, h21, _, h22, _, h23, _, h24, _, h25, _, h26, _, h27, ?_⟩, hm⟩
    rw [e2, e3, e4, e5]

theorem package_object (L : LicText) (v : Json) (p : Package) :
    (parsePackage L v = .ok p ∧ externalRefMessages v = []) ↔ Object (PackageSays L) v p := by
  constructor
  · rintro ⟨h, hm⟩
    have : ∃ o, v = .obj o := by
      cases v <;> first | exact ⟨_, rfl⟩ | (unfold parsePackage at h; cases h)
    obtain ⟨o, rfl⟩ := this
    exact ⟨o, rfl, (package_iff L o p).1 ⟨h, hm⟩⟩
  · rintro ⟨o, rfl, h⟩; exact (package_iff L o p).2 h

theorem collectPackages_iff (L : LicText) {l : List Json} {ps : List Package} :
    collectPackages L l = pure ps ↔ All2 (Object (PackageSays L)) l ps := by
  induction l generalizing ps with
  | nil => exact ⟨fun h => by cases h; exact .nil, fun h => by cases h; rfl⟩
  | cons j l ih =>
    constructor
    · intro h
      have h1 := ok_collectPackages h
      cases ps with
      | nil => cases h1
      | cons p ps =>
        rw [List.map_cons, List.map_cons] at h1
        injection h1 with h1 h2
        unfold collectPackages at h
        rw [h1] at h
        match hc : collectPackages L l, h with
        | .ok (ms, as), h =>
          have h := Except.ok.inj h
          simp only [Prod.mk.injEq, List.append_eq_nil_iff, List.cons.injEq] at h
          obtain ⟨⟨hm, rfl⟩, _, rfl⟩ := h
          exact .cons ((package_object L _ _).1 ⟨h1, hm⟩) (ih.1 hc)
    · intro h
      cases h with
      | cons h1 h2 =>
        obtain ⟨h1, hm⟩ := (package_object L _ _).2 h1
        unfold collectPackages
        rw [h1, ih.2 h2, hm]; rfl

theorem reads_packages (L : LicText) : Reads (parsePackages L) (ListOf (Object (PackageSays L))) where
  iff v ps := by
    unfold parsePackages ListOf
    simp only [py_bind_iff, iter_iff, orRaise_iff, collectPackages_iff]
  ne v := ne_bind (ne_quiet (quiet_iter _)) fun l => ne_orRaise (quietP_collectPackages _ _)

/-! Files -/

theorem collectFileTypes_iff {l : List Json} {ts : List FileType} :
    collectFileTypes l = pure ts ↔ All2 (ExactMember FileType.name) l ts := by
  induction l generalizing ts with
  | nil => exact ⟨fun h => by cases h; exact .nil, fun h => by cases h; rfl⟩
  | cons j l ih =>
    constructor
    · intro h
      unfold collectFileTypes at h
      match hj : fileTypeEntry j, h with
      | .ok r, h =>
        match hc : collectFileTypes l, h with
        | .ok (ms, us), h =>
          match r, hj, h with
          | .inr t, hj, h =>
            cases h
            refine .cons ?_ (ih.1 hc)
            cases j with
            | str s =>
              simp only [fileTypeEntry] at hj
              cases hs : FileType.ofName? s with
              | none => rw [hs] at hj; cases hj
              | some u => rw [hs] at hj; cases hj; rw [names_fileType.iff.1 hs]; rfl
            | _ => simp only [fileTypeEntry] at hj; split at hj <;> cases hj
          | .inl m, hj, h => cases h
    · intro h
      cases h with
      | cons h1 h2 =>
        cases h1
        unfold collectFileTypes
        have : ∀ t : FileType, fileTypeEntry (.str t.name) = .ok (.inr t) := fun t => by
          simp only [fileTypeEntry, fileType_names]
        rw [this, ih.2 h2]; rfl

theorem quietP_collectFileTypes (l : List Json) : QuietP (collectFileTypes l) := by
  induction l with
  | nil => intro ms h; cases h
  | cons j l ih =>
    intro ms h
    unfold collectFileTypes at h
    match hj : fileTypeEntry j, h with
    | .error e, h =>
      cases h
      cases j <;> simp only [fileTypeEntry] at hj <;> split at hj <;> cases hj
    | .ok r, h =>
      match hc : collectFileTypes l, h with
      | .error e, h => cases h; exact ih ms hc
      | .ok (ms, us), h => match r, h with
        | .inr t, h => cases h
        | .inl m, h => cases h

theorem reads_fileTypes : Reads parseFileTypes (ListOf (ExactMember FileType.name)) where
  iff v ts := by
    unfold parseFileTypes ListOf
    simp only [py_bind_iff, iter_iff, orRaiseIn_iff, collectFileTypes_iff]
  ne v := ne_bind (ne_quiet (quiet_iter _)) fun l => ne_orRaiseIn (quietP_collectFileTypes _)

theorem file_iff (L : LicText) (o : Obj) (f : File) : parseFile L (.obj o) = .ok f ↔ FileSays L o f := by
  unfold parseFile
  read_steps [then_field (reads_list reads_checksum (quietP_collect _)), then_field (reads_license L),
    then_field (reads_list (reads_license L) (quietP_collect _)), then_field reads_fileTypes]
  constructor
  · rintro ⟨_, h1, _, h2, _, h3, _, h4, _, h5, _, h6, _, rfl, _, h7, _, h8, _, h9, _, h10, _, h11, _, h12, _, h13, rfl⟩
    exact ⟨h5, h6, field_some.1 h1, optList_iff.1 ⟨_, h2, rfl⟩, optLicense_iff.1 ⟨_, h3, rfl⟩, allList_iff.1 ⟨_, h4, h7⟩, h8, h9, h10, h11, h12, h13⟩
  · rintro ⟨h5, h6, h1, h2, h3, h4, h8, h9, h10, h11, h12, h13⟩
    obtain ⟨_, h2, e2⟩ := optList_iff.2 h2
    obtain ⟨_, h3, e3⟩ := optLicense_iff.2 h3
    obtain ⟨_, h4, h7⟩ := (allList_iff (f := s%"license_info_in_file")).2 h4
    refine ⟨_, field_some.2 h1, _, h2, _, h3, _, h4, _, h5, _, h6, _, rfl, _, h7, _, h8, _, h9, _, h10, _, h11, _, h12, _, h13, ?_⟩
    rw [e2, e3]

theorem reads_file (L : LicText) : Reads (parseFile L) (Object (FileSays L)) :=
  reads_object (file_iff L) (by only_objects parseFile) (ne_file L)

/-! Snippets -/

def keyOf : RangeType → Str
  | .BYTE => s%"offset"
  | .LINE => s%"lineNumber"

theorem pointer_iff {p : Json} {t : RangeType} {v : Json} :
    (pointerType p = .ok t ∧ pyIndex (keyOf t) p = .ok v) ↔ Pointer t p v := by
  cases p with
  | obj o =>
    unfold pointerType
    simp only [pyIn, py_bind_ok, dictGet]
    cases h1 : o.lookup s%"offset" with
    | none =>
      cases h2 : o.lookup s%"lineNumber" with
      | none =>
        constructor
        · rintro ⟨h, _⟩; cases h
        · intro h
          cases h with
          | byte _ _ h _ => rw [h1] at h; cases h
          | line _ _ h _ => rw [h2] at h; cases h
      | some w =>
        constructor
        · rintro ⟨h, h'⟩
          have ht : t = .LINE := (Except.ok.inj h).symm
          subst ht
          simp only [keyOf, pyIndex, dictGet, h2] at h'
          cases h'
          exact .line o _ h2 h1
        · intro h
          cases h with
          | byte _ _ h _ => rw [h1] at h; cases h
          | line _ _ h _ =>
            rw [h2] at h; cases h
            refine ⟨rfl, ?_⟩
            simp only [keyOf, pyIndex, dictGet, h2]
    | some u =>
      cases h2 : o.lookup s%"lineNumber" with
      | none =>
        constructor
        · rintro ⟨h, h'⟩
          have ht : t = .BYTE := (Except.ok.inj h).symm
          subst ht
          simp only [keyOf, pyIndex, dictGet, h1] at h'
          cases h'
          exact .byte o _ h1 h2
        · intro h
          cases h with
          | line _ _ h _ => rw [h2] at h; cases h
          | byte _ _ h _ =>
            rw [h1] at h; cases h
            refine ⟨rfl, ?_⟩
            simp only [keyOf, pyIndex, dictGet, h1]
      | some w =>
        constructor
        · rintro ⟨h, _⟩; cases h
        · intro h
          cases h with
          | byte _ _ _ h => rw [h2] at h; cases h
          | line _ _ _ h => rw [h1] at h; cases h
  | _ => exact ⟨fun h => (by cases h.2), fun h => (by cases h)⟩

theorem rangeType_obj (o : Obj) {s e : Json} (h1 : o.lookup s%"startPointer" = some s) (h2 : o.lookup s%"endPointer" = some e) :
    rangeType (.obj o) = (do
      let a ← pointerType s
      let b ← pointerType e
      if a ≠ b then .error (.value s%"Type of startpointer is not the same as type of endpointer.") else .ok a) := by
  unfold rangeType
  simp only [pyIn, pyIndex, dictGet, h1, h2, py_bind_ok]
  rfl

private theorem rangeType_ok {v : Json} {t : RangeType} (h : rangeType v = .ok t) :
    ∃ o s e, v = .obj o ∧ o.lookup s%"startPointer" = some s ∧ o.lookup s%"endPointer" = some e := by
  cases v with
  | obj o =>
    unfold rangeType at h
    simp only [pyIn, pyIndex, dictGet, py_bind_ok] at h
    cases h1 : o.lookup s%"startPointer" with
    | none => rw [h1] at h; cases h
    | some s =>
      cases h2 : o.lookup s%"endPointer" with
      | none => rw [h1, h2] at h; cases h
      | some e => exact ⟨o, s, e, rfl, h1, h2⟩
  | arr l =>
    unfold rangeType at h
    simp only [pyIn, pyIndex, py_bind_ok] at h
    split at h
    · cases h
    · split at h <;> cases h
  | str s =>
    unfold rangeType at h
    simp only [pyIn, pyIndex, py_bind_ok] at h
    split at h
    · cases h
    · split at h <;> cases h
  | _ => cases h

theorem startEnd_obj (o : Obj) {s e : Json} (h1 : o.lookup s%"startPointer" = some s) (h2 : o.lookup s%"endPointer" = some e)
    (t : RangeType) : startEnd (.obj o) t = (do return (← pyIndex (keyOf t) s, ← pyIndex (keyOf t) e)) := by
  unfold startEnd
  simp only [pyIndex, dictGet, h1, h2, py_bind_ok]
  cases t <;> rfl

theorem range_iff {v : Json} {r : RangeType × (Json × Json)} : parseRange v = .ok r ↔ IsRange v r := by
  obtain ⟨t, a, b⟩ := r
  unfold parseRange
  constructor
  · intro h
    obtain ⟨t', ht, h⟩ := py_bind_inv h
    obtain ⟨se, hse, h⟩ := py_bind_inv h
    cases h
    obtain ⟨o, s, e, rfl, h1, h2⟩ := rangeType_ok ht
    rw [rangeType_obj o h1 h2] at ht
    rw [startEnd_obj o h1 h2] at hse
    obtain ⟨ta, hta, ht⟩ := py_bind_inv ht
    obtain ⟨tb, htb, ht⟩ := py_bind_inv ht
    by_cases hab : ta ≠ tb
    · rw [if_pos hab] at ht; cases ht
    · rw [if_neg hab] at ht
      cases ht
      have hab := Decidable.not_not.1 hab
      subst hab
      obtain ⟨x, hx, hse⟩ := py_bind_inv hse
      obtain ⟨y, hy, hse⟩ := py_bind_inv hse
      cases hse
      exact ⟨o, s, e, rfl, h1, h2, pointer_iff.1 ⟨hta, hx⟩, pointer_iff.1 ⟨htb, hy⟩⟩
  · rintro ⟨o, s, e, rfl, h1, h2, ha, hb⟩
    obtain ⟨hta, hx⟩ := pointer_iff.2 ha
    obtain ⟨htb, hy⟩ := pointer_iff.2 hb
    rw [rangeType_obj o h1 h2, hta, py_bind_ok, htb, py_bind_ok, if_neg (by simp), py_bind_ok, startEnd_obj o h1 h2, hx, py_bind_ok, hy]
    rfl

def setRange (d : Dict RangeType (Json × Json)) (r : RangeType × (Json × Json)) : Dict RangeType (Json × Json) := d.set r.1 r.2

theorem collectRanges_iff {l : List Json} {acc d : Dict RangeType (Json × Json)} :
    collectRanges l acc = pure d ↔ ∃ rs, All2 IsRange l rs ∧ d = rs.foldl setRange acc := by
  induction l generalizing acc d with
  | nil =>
    exact ⟨fun h => by cases h; exact ⟨[], .nil, rfl⟩, by rintro ⟨rs, hr, rfl⟩; cases hr; rfl⟩
  | cons j l ih =>
    unfold collectRanges
    constructor
    · intro h
      match hj : parseRange j, h with
      | .ok (t, se), h =>
        obtain ⟨rs, h1, rfl⟩ := ih.1 h
        exact ⟨(t, se) :: rs, .cons (range_iff.1 hj) h1, rfl⟩
      | .error (.value m), h =>
        match hc : collectRanges l acc, h with
        | .ok (ms, d'), h => cases h
    · rintro ⟨rs, hr, rfl⟩
      cases hr with
      | cons h1 h2 =>
        rw [range_iff.2 h1]
        exact ih.2 ⟨_, h2, rfl⟩

private theorem lastRange_cons (r : RangeType × (Json × Json)) (rs : List (RangeType × (Json × Json))) (t : RangeType) :
    lastRange (r :: rs) t = (lastRange rs t).or (if r.1 = t then some r.2 else none) := by
  unfold lastRange
  by_cases h : r.1 = t
  · rw [List.filter_cons_of_pos (by simpa using h), if_pos h, List.getLast?_cons]
    cases (rs.filter fun r => r.1 = t).getLast? <;> rfl
  · rw [List.filter_cons_of_neg (by simpa using h), if_neg h]
    cases (rs.filter fun r => r.1 = t).getLast? <;> rfl

theorem foldl_get (rs : List (RangeType × (Json × Json))) (acc : Dict RangeType (Json × Json)) (t : RangeType) :
    (rs.foldl setRange acc).get? t = (lastRange rs t).or (acc.get? t) := by
  induction rs generalizing acc with
  | nil => rfl
  | cons r rs ih =>
    rw [List.foldl_cons, ih, lastRange_cons, setRange, Dict.get?_set]
    cases lastRange rs t with
    | some x => rfl
    | none =>
      by_cases h : r.1 = t
      · rw [if_pos h, if_pos h]; rfl
      · rw [if_neg h, if_neg h]; rfl

private theorem quiet_pyIn (k : Str) (v : Json) : Quiet (pyIn k v) := by intro ms; unfold pyIn; split <;> simp
private theorem quiet_pyIndex (k : Str) (v : Json) : Quiet (pyIndex k v) := by
  intro ms
  unfold pyIndex
  split
  · split <;> simp
  · simp
private theorem quiet_if {α : Type} (c : Prop) [Decidable c] {x y : Py α} (hx : Quiet x) (hy : Quiet y) : Quiet (if c then x else y) := by
  split
  · exact hx
  · exact hy
private theorem quiet_value {α : Type} (m : Str) : Quiet (.error (.value m) : Py α) := by intro ms h; cases h

private theorem quiet_pointerType (p : Json) : Quiet (pointerType p) := by
  unfold pointerType
  refine quiet_bind (quiet_pyIn _ _) fun off => ?_
  cases off
  · refine quiet_bind (quiet_ok _) fun _ => quiet_if _ (quiet_value _) ?_
    exact quiet_bind (quiet_pyIn _ _) fun _ => quiet_if _ (quiet_value _) (quiet_ok _)
  · refine quiet_bind (quiet_pyIn _ _) fun _ => quiet_if _ (quiet_value _) ?_
    exact quiet_bind (quiet_ok _) fun _ => quiet_if _ (quiet_value _) (quiet_ok _)

theorem quiet_parseRange (r : Json) : Quiet (parseRange r) := by
  unfold parseRange rangeType startEnd
  refine quiet_bind (quiet_bind (quiet_pyIn _ _) fun _ => quiet_if _ (quiet_value _) ?_) fun _ => quiet_bind ?_ fun _ => quiet_ok _
  · refine quiet_bind (quiet_pyIn _ _) fun _ => quiet_if _ (quiet_value _) ?_
    exact quiet_bind (quiet_pyIndex _ _) fun _ => quiet_bind (quiet_pointerType _) fun _ => quiet_bind (quiet_pyIndex _ _) fun _ =>
      quiet_bind (quiet_pointerType _) fun _ => quiet_if _ (quiet_value _) (quiet_ok _)
  · exact quiet_bind (quiet_pyIndex _ _) fun _ => quiet_bind (quiet_pyIndex _ _) fun _ => quiet_bind (quiet_pyIndex _ _) fun _ =>
      quiet_bind (quiet_pyIndex _ _) fun _ => quiet_ok _

theorem quietP_collectRanges (l : List Json) (acc : Dict RangeType (Json × Json)) : QuietP (collectRanges l acc) := by
  induction l generalizing acc with
  | nil => intro ms h; cases h
  | cons j l ih =>
    intro ms h
    unfold collectRanges at h
    match hj : parseRange j, h with
    | .ok (t, se), h => exact ih _ ms h
    | .error (.value m), h =>
      match hc : collectRanges l acc, h with
      | .ok (ms, d'), h => cases h
      | .error e, h => cases h; exact ih _ ms hc
    | .error (.parsing ms), _ => exact quiet_parseRange j ms hj

theorem reads_ranges : Reads parseRanges (fun v d => ∃ rs, ListOf IsRange v rs ∧ d = rs.foldl setRange []) where
  iff v d := by
    unfold parseRanges ListOf
    simp only [py_bind_iff, iter_iff, orRaiseIn_iff, collectRanges_iff]
    constructor
    · rintro ⟨i, hi, rs, hr, rfl⟩; exact ⟨rs, ⟨i, hi, hr⟩, rfl⟩
    · rintro ⟨rs, ⟨i, hi, hr⟩, rfl⟩; exact ⟨i, hi, rs, hr, rfl⟩
  ne v := ne_bind (ne_quiet (quiet_iter _)) fun l => ne_orRaiseIn (quietP_collectRanges _ _)

theorem number_iff {v : Json} {i : Int} : pyInt? (intFromStr v) = some i ↔ Number v i := by
  cases v with
  | num n => exact ⟨fun h => by cases h; exact .num _, fun h => by cases h; rfl⟩
  | bool b => cases b <;> exact ⟨fun h => by cases h; exact .bool _, fun h => by cases h; rfl⟩
  | str s =>
    rw [intFromStr.eq_def]
    dsimp only
    constructor
    · intro h
      by_cases hs : s ≠ [] ∧ s.all isPyDigit = true
      · rw [if_pos hs] at h
        cases hd : digitsVal? s with
        | none => rw [hd] at h; cases h
        | some n => rw [hd] at h; cases h; exact .digits s n hs.1 (List.all_eq_true.1 hs.2) hd
      · rw [if_neg hs] at h; cases h
    · intro h
      cases h with
      | digits _ n h1 h2 h3 => rw [if_pos ⟨h1, List.all_eq_true.2 h2⟩, h3]; rfl
  | _ => exact ⟨fun h => (by cases h), fun h => (by cases h)⟩

theorem range_chk {f : Str} {x : Option (Json × Json)} {r : Int × Int} :
    chkRange f (rangeFromStr x) = .ok r ↔ ∃ a b, x = some (a, b) ∧ Number a r.1 ∧ Number b r.2 := by
  simp only [← number_iff]
  cases x with
  | none => exact ⟨fun h => (by cases h), by rintro ⟨a, b, h, _⟩; cases h⟩
  | some p =>
    obtain ⟨a, b⟩ := p
    change chkRange f (some (intFromStr a, intFromStr b)) = _ ↔ _
    rw [chkRange.eq_def]
    dsimp only
    constructor
    · intro h
      cases ha : pyInt? (intFromStr a) with
      | none => rw [ha] at h; cases h
      | some i =>
        cases hb : pyInt? (intFromStr b) with
        | none => rw [ha, hb] at h; cases h
        | some j => rw [ha, hb] at h; cases h; exact ⟨a, b, rfl, ha, hb⟩
    · rintro ⟨a, b, h, ha, hb⟩
      cases h
      rw [ha, hb]

theorem optRange_chk {f : Str} {x : Option (Json × Json)} {r : Option (Int × Int)} :
    chkOptRange f (rangeFromStr x) = .ok r ↔
      (x = none ∧ r = none) ∨ ∃ a b i j, x = some (a, b) ∧ r = some (i, j) ∧ Number a i ∧ Number b j := by
  simp only [← number_iff]
  cases x with
  | none =>
    exact ⟨fun h => by cases h; exact .inl ⟨rfl, rfl⟩, by
      rintro (⟨_, rfl⟩ | ⟨_, _, _, _, h, _⟩)
      · rfl
      · cases h⟩
  | some p =>
    obtain ⟨a, b⟩ := p
    change chkOptRange f (some (intFromStr a, intFromStr b)) = _ ↔ _
    rw [chkOptRange.eq_def]
    dsimp only
    constructor
    · intro h
      cases ha : pyInt? (intFromStr a) with
      | none => rw [ha] at h; cases h
      | some i =>
        cases hb : pyInt? (intFromStr b) with
        | none => rw [ha, hb] at h; cases h
        | some j => rw [ha, hb] at h; cases h; exact .inr ⟨a, b, i, j, rfl, rfl, ha, hb⟩
    · rintro (⟨h, _⟩ | ⟨a, b, i, j, h, rfl, ha, hb⟩)
      · cases h
      · cases h
        rw [ha, hb]

theorem field_getD {α : Type} {R : Json → α → Prop} {o : Obj} {k : Str} {x : Option α} :
    Field R ((o.lookup k).getD (.arr [])) x ↔ Field R (valueAt o k) x := by
  unfold valueAt
  cases o.lookup k with
  | some v => exact Iff.rfl
  | none =>
    have b1 : Blank ((none : Option Json).getD (.arr [])) := .inr (.inr (.inr (.inr (.inl rfl))))
    have b2 : Blank ((none : Option Json).getD .null) := .inl rfl
    constructor
    · rintro (⟨_, h⟩ | ⟨h, _⟩)
      · exact .inl ⟨b2, h⟩
      · exact absurd b1 h
    · rintro (⟨_, h⟩ | ⟨h, _⟩)
      · exact .inl ⟨b1, h⟩
      · exact absurd b2 h

theorem snippet_iff (L : LicText) (o : Obj) (s : Snippet) : parseSnippet L (.obj o) = .ok s ↔ SnippetSays L o s := by
  unfold parseSnippet
  read_steps [then_field (reads_license L), then_field (reads_list (reads_license L) (quietP_collect _)), then_field reads_ranges,
    field_getD, range_chk, optRange_chk]
  constructor
  · rintro ⟨x, h1, _, h2, _, h3, _, h4, _, h5, _, h6, _, h7, _, h8, _, h9, _, h10, _, h11, _, h12, _, h13, rfl⟩
    refine ⟨h4, h5, ?_, optLicense_iff.1 ⟨_, h2, rfl⟩, allList_iff.1 ⟨_, h3, h8⟩, h9, h10, h11, h12, h13⟩
    rcases h1 with ⟨_, rfl⟩ | ⟨hb, _, ⟨rs, hr, rfl⟩, rfl⟩
    · obtain ⟨a, b, h, _⟩ := h6; cases h
    · rw [Option.getD_some, foldl_get] at h6 h7
      rw [show Dict.get? [] RangeType.BYTE = (none : Option (Json × Json)) from rfl, Option.or_none] at h6
      rw [show Dict.get? [] RangeType.LINE = (none : Option (Json × Json)) from rfl, Option.or_none] at h7
      exact ⟨rs, ⟨hb, hr⟩, h6, h7⟩
  · rintro ⟨h4, h5, ⟨rs, ⟨hb, hr⟩, h6, h7⟩, h2, h3, h9, h10, h11, h12, h13⟩
    obtain ⟨_, h2, e2⟩ := optLicense_iff.2 h2
    obtain ⟨_, h3, h8⟩ := (allList_iff (f := s%"license_info_in_snippet")).2 h3
    refine ⟨_, .inr ⟨hb, _, ⟨rs, hr, rfl⟩, rfl⟩, _, h2, _, h3, _, h4, _, h5, s.byteRange, ?_, s.lineRange, ?_, _, h8, _, h9, _, h10, _, h11, _, h12, _, h13, ?_⟩
    · rw [Option.getD_some, foldl_get, show Dict.get? [] RangeType.BYTE = (none : Option (Json × Json)) from rfl, Option.or_none]
      exact h6
    · rw [Option.getD_some, foldl_get, show Dict.get? [] RangeType.LINE = (none : Option (Json × Json)) from rfl, Option.or_none]
      exact h7
    · rw [e2]

theorem reads_snippet (L : LicText) : Reads (parseSnippet L) (Object (SnippetSays L)) :=
  reads_object (snippet_iff L) (by only_objects parseSnippet) (ne_snippet L)

end Spdx.JsonSays
