import Verif.Lemmas.JsonSaying
/- What is said about the elements of a document. -/
namespace Spdx.JsonSaying
open Spdx Spdx.Spec Spdx.Spec.JsonFaults
open JsonSays (Obj valueAt Blank Items Object Field Entries ListOf)
open Spdx.JsonSays
open Spdx.JsonCrash (lift_bind items_unique)
open RdfSays (All2)

theorem checks_iff {α : Type} {c : Check α} {f : Str} {Q Q' : Prop} (h : Checks c [(f, Q)]) (e : Q ↔ Q') : Checks c [(f, Q')] := by
  rwa [propext e] at h

theorem reads_unique {α : Type} {m : Json → Py α} {R : Json → α → Prop} (r : Reads m R) (v : Json) (a b : α) (h : R v a) (h' : R v b) : a = b :=
  Except.ok.inj (((r.iff v a).2 h).symm.trans ((r.iff v b).2 h'))

theorem none_said {α : Type} {f : Json → Py α} (h : ∀ v, NoObject v → ∃ m, f v = .error (.other m)) (v : Json) (hv : NoObject v) : said (f v) = none := by
  obtain ⟨m, hm⟩ := h v hv
  rw [hm]; rfl

macro "no_object" : tactic => `(tactic| (intro v hv; cases v <;> first | rfl | exact absurd rfl (hv _)))

/-- A license text that means no expression. -/
theorem checks_licenses {f : Str} {L : LicText} {v : Json} {x : Option (List (Option (OrSpecial LicExpr)))} (h : Field (ListOf (JsonSays.LicenseText L)) v x) :
    Checks (chkAll f x) [(f, SomeNoLicense L v)] := checks_all (reads_unique (reads_license L)) h

attribute [local irreducible] Check.ap

macro "check_one" : tactic => `(tactic| first | exact checks_ok | exact checks_str | exact checks_optStr | exact checks_strList | exact checks_special | exact checks_optSpecial)
macro "check_other" : tactic => `(tactic| first | exact checks_licenses (by assumption) | exact checks_analyzed | exact checks_optNoAssertion | exact checks_some (by assumption))
macro "checks" : tactic => `(tactic| repeat (first | check_one | check_other | apply checks_ap))

macro "all_checks" : tactic => `(tactic| (apply checks_of; checks; simp only [List.append_nil, List.nil_append, List.cons_append]))

/-! ### Checksums, references -/

theorem said_checksum (o : Obj) (ms : List PMsg) : said (parseChecksum (.obj o)) = some ms ↔ aboutChecksum o ms := by
  rw [checksum_eq]
  have hval : ∀ v a, (o.lookup s%"algorithm").getD (.str []) = v → algorithmOf v = .ok a → JsonSays.Member ChecksumAlgorithm.name (valueAt o s%"algorithm") a := by
    intro v a hv ha
    have := algorithmOf_iff.1 ha
    unfold valueAt
    cases hl : o.lookup s%"algorithm" with
    | some w => rw [hl] at hv; cases hv; exact this
    | none =>
      rw [hl] at hv; cases hv
      obtain ⟨t, ht, h⟩ := this
      cases ht
      cases a <;> exact absurd h (by decide)
  cases ha : algorithmOf ((o.lookup s%"algorithm").getD (.str [])) with
  | ok a =>
    rw [JsonCrash.ok_bind, builds_said (wrong := [(s%"value", NoText (valueAt o s%"checksumValue"))]) ⟨_, rfl, by all_checks⟩]
    have hm := hval _ a rfl ha
    constructor
    · intro h; exact .value hm h
    · intro h
      obtain ⟨t, ht, hn⟩ := hm
      have hl : o.lookup s%"algorithm" = some (.str t) := by
        unfold valueAt at ht
        cases hl : o.lookup s%"algorithm" with
        | some w => rw [hl] at ht; cases ht; rfl
        | none => rw [hl] at ht; cases ht
      cases h with
      | kind h1 h2 => rw [hl] at h1; cases h1; exact absurd rfl (h2 t)
      | algorithm h1 h2 =>
        rcases h1 with h1 | ⟨h1, _⟩
        · rw [hl] at h1; cases h1; exact absurd ⟨t, rfl, hn⟩ (h2 a)
        · rw [hl] at h1; cases h1
      | value _ h => exact h
  | error e =>
    have hno : ∀ a, ¬ JsonSays.Member ChecksumAlgorithm.name (valueAt o s%"algorithm") a := by
      rintro a ⟨t, ht, hn⟩
      have hl : o.lookup s%"algorithm" = some (.str t) := by
        unfold valueAt at ht
        cases hl : o.lookup s%"algorithm" with
        | some w => rw [hl] at ht; cases ht; rfl
        | none => rw [hl] at ht; cases ht
      rw [hl] at ha
      have := algorithmOf_iff.2 ⟨t, rfl, hn⟩
      rw [show (some (Json.str t)).getD (.str []) = .str t from rfl, this] at ha
      cases ha
    have hs : said ((Except.error e : Py ChecksumAlgorithm) >>= fun a => construct s%"Checksum" (.ok Checksum.mk ⊛ .ok a ⊛ chkStr s%"value" (valueAt o s%"checksumValue"))) =
      e.logged := rfl
    rw [hs]
    have hstr : ∀ s, (o.lookup s%"algorithm" = some (.str s) ∨ (o.lookup s%"algorithm" = none ∧ s = [])) → ∀ a, ¬ JsonSays.Member ChecksumAlgorithm.name (.str s) a := by
      rintro s (hl | ⟨hl, rfl⟩) a hm
      · exact hno a (by unfold valueAt; rw [hl]; exact hm)
      · obtain ⟨t, ht, h⟩ := hm
        cases ht
        cases a <;> exact absurd h (by decide)
    cases hl : o.lookup s%"algorithm" with
    | none =>
      rw [hl] at ha
      cases ha
      constructor
      · intro h; cases h; exact .algorithm (.inr ⟨hl, rfl⟩) (hstr _ (.inr ⟨hl, rfl⟩))
      · intro h
        cases h with
        | kind h1 _ => rw [hl] at h1; cases h1
        | algorithm h1 _ =>
          rcases h1 with h1 | ⟨_, rfl⟩
          · rw [hl] at h1; cases h1
          · rfl
        | value h1 _ => exact absurd h1 (hno _)
    | some v =>
      rw [hl] at ha
      by_cases hv : NoText v
      · have he : e = .parsing [wrongKind v] := by
          cases v <;> first | (cases ha; rfl) | exact absurd rfl (hv _)
        subst he
        constructor
        · intro h; cases h; exact .kind hl hv
        · intro h
          cases h with
          | kind h1 _ => rw [hl] at h1; cases h1; rfl
          | algorithm h1 _ =>
            rcases h1 with h1 | ⟨h1, _⟩
            · rw [hl] at h1; cases h1; exact absurd rfl (hv _)
            · rw [hl] at h1; cases h1
          | value h1 _ => exact absurd h1 (hno _)
      · cases v with
        | str s =>
          have he : e = .parsing [.wrapped s%"Checksum" [.invalid s%"ChecksumAlgorithm" (.str (jsonStrToEnumName s))]] := by
            change algorithmOf (.str s) = _ at ha
            rw [algorithmOf.eq_def] at ha
            dsimp only at ha
            cases hf : algorithmFromJson s with
            | some a => rw [hf] at ha; cases ha
            | none => rw [hf] at ha; cases ha; rfl
          subst he
          constructor
          · intro h; cases h; exact .algorithm (.inl hl) (hstr _ (.inl hl))
          · intro h
            cases h with
            | kind h1 h2 => rw [hl] at h1; cases h1; exact absurd rfl (h2 s)
            | algorithm h1 _ =>
              rcases h1 with h1 | ⟨h1, _⟩
              · rw [hl] at h1; cases h1; rfl
              · rw [hl] at h1; cases h1
            | value h1 _ => exact absurd h1 (hno _)
        | _ => exact absurd (fun s e => by cases e) hv

theorem tells_checksum : Tells parseChecksum (Object JsonSays.ChecksumSays) (object aboutChecksum) :=
  tells_object reads_checksum said_checksum (by no_object)

theorem said_externalDocumentRef (o : Obj) (ms : List PMsg) : said (parseExternalDocumentRef (.obj o)) = some ms ↔ aboutExternalDocumentRef o ms := by
  unfold parseExternalDocumentRef aboutExternalDocumentRef
  simp only [get_obj, lift_bind]
  refine element_said (by hard) ?_ ms
  refine logs_cons (logs_field tells_checksum) fun x => logs_pure ?_
  intros
  exact ⟨_, rfl, by all_checks⟩

theorem tells_externalDocumentRef : Tells parseExternalDocumentRef (Object JsonSays.ExternalDocumentRefSays) (object aboutExternalDocumentRef) :=
  tells_object reads_externalDocumentRef said_externalDocumentRef (by no_object)

theorem said_externalRef (o : Obj) (ms : List PMsg) : said (parseExternalRef (.obj o)) = some ms ↔ aboutExternalRef o ms := by
  unfold parseExternalRef aboutExternalRef
  simp only [get_obj, lift_bind]
  refine element_said (by hard) ?_ ms
  refine logs_cons (logs_field (tells_member names_category _)) fun x => logs_pure ?_
  intros
  exact ⟨_, rfl, by all_checks⟩

theorem tells_externalRef : Tells parseExternalRef (Object JsonSays.ExternalRefSays) (object aboutExternalRef) :=
  tells_object reads_externalRef said_externalRef (by no_object)

theorem said_verificationCode (o : Obj) (ms : List PMsg) : said (parseVerificationCode (.obj o)) = some ms ↔ aboutVerificationCode o ms := by
  unfold parseVerificationCode aboutVerificationCode
  simp only [get_obj, getD_obj, py_bind_ok]
  exact builds_said ⟨_, rfl, by all_checks⟩ ms

theorem tells_verificationCode : Tells parseVerificationCode (Object JsonSays.VerificationCodeSays) (object aboutVerificationCode) :=
  tells_object reads_verificationCode said_verificationCode (by no_object)

theorem logs_collectFields {α : Type} {m : Json → Py α} {R : Json → α → Prop} {A : About} (t : Tells m R A) (l : List Json) :
    Logs1 (collectFields m l) (fun fs => ∃ mss, All2 (orBlank A) l mss ∧ fs = mss.flatten) (All2 (Field R) l) where
  iff fs := by
    induction l generalizing fs with
    | nil =>
      constructor
      · rintro ⟨x, hx⟩; cases hx; exact ⟨[], .nil, rfl⟩
      · rintro ⟨mss, h, rfl⟩; cases h; exact ⟨[], rfl⟩
    | cons j js ih =>
      unfold collectFields
      constructor
      · rintro ⟨x, hx⟩
        obtain ⟨m1, a, m2, h1, h2, rfl⟩ := pbind_ok.1 hx
        obtain ⟨m3, b, m4, h3, h4, rfl⟩ := pbind_ok.1 h2
        cases h4
        obtain ⟨mss, h5, rfl⟩ := (ih m3).1 ⟨b, h3⟩
        exact ⟨m1 :: mss, .cons (((logs_field t).iff m1).1 ⟨a, h1⟩) h5, by simp⟩
      · rintro ⟨mss, h, rfl⟩
        cases h with
        | cons h1 h2 =>
          obtain ⟨a, ha⟩ := ((logs_field t).iff _).2 h1
          obtain ⟨b, hb⟩ := (ih _).2 ⟨_, h2, rfl⟩
          exact ⟨a :: b, pbind_ok.2 ⟨_, a, _, ha, pbind_ok.2 ⟨_, b, [], hb, rfl, rfl⟩, by simp⟩⟩
  val xs hxs := (collectFields_iff t.reads).1 hxs

theorem hard_collectFields {α : Type} (m : Json → Py α) (l : List Json) : Hard (collectFields m l) := by
  induction l with
  | nil => exact hard_pure _
  | cons j js ih =>
    unfold collectFields
    exact hard_bind (hard_field _ _) fun _ => hard_bind ih fun _ => hard_pure _

theorem tells_externalDocumentRefs : Tells parseExternalDocumentRefs (ListOf (Field (Object JsonSays.ExternalDocumentRefSays)))
    (each (orBlank (object aboutExternalDocumentRef))) where
  reads := reads_externalDocumentRefs
  iff v ms := by
    unfold parseExternalDocumentRefs
    rw [iter_said (G := fun l ms => ∃ mss, All2 (orBlank (object aboutExternalDocumentRef)) l mss ∧ ms = mss.flatten)
      fun l ms => orRaise_said (logs_collectFields tells_externalDocumentRef l) (hard_collectFields _ l) ms]
    unfold each items
    constructor
    · rintro (⟨l, h1, mss, h2, h3⟩ | h)
      · exact .inl ⟨l, mss, h1, h2, h3⟩
      · exact .inr h
    · rintro (⟨l, mss, h1, h2, h3⟩ | h)
      · exact .inl ⟨l, h1, mss, h2, h3⟩
      · exact .inr h

theorem field_none {α : Type} {R : Json → α → Prop} {v : Json} : Field R v none ↔ Blank v :=
  ⟨fun h => h.elim And.left fun ⟨_, _, _, e⟩ => (by cases e), fun h => .inl ⟨h, rfl⟩⟩

theorem field_unique {α : Type} {m : Json → Py α} {R : Json → α → Prop} (r : Reads m R) (v : Json) (a b : Option α) (h : Field R v a) (h' : Field R v b) : a = b := by
  rcases h with ⟨h, rfl⟩ | ⟨h, x, hx, rfl⟩ <;> rcases h' with ⟨h', rfl⟩ | ⟨h', y, hy, rfl⟩
  · rfl
  · exact absurd h h'
  · exact absurd h' h
  · rw [reads_unique r v x y hx hy]

theorem checks_refs {f : Str} {v : Json} {x : Option (List (Option ExternalDocumentRef))} (h : Field (ListOf (Field (Object JsonSays.ExternalDocumentRefSays))) v x) :
    Checks (chkAll f x) [(f, ∃ l, Items v l ∧ ∃ x ∈ l, Blank x)] :=
  checks_iff (checks_all (field_unique reads_externalDocumentRef) h) (by simp only [field_none])

theorem said_creationInfo (o i : Obj) (hi : valueAt o s%"creationInfo" = .obj i) (ms : List PMsg) :
    said (parseCreationInfo (.obj o)) = some ms ↔ aboutInfo o i ms := by
  unfold parseCreationInfo aboutInfo
  simp only [get_obj, py_bind_ok, hi]
  rw [if_neg (by simp)]
  simp only [lift_bind]
  refine element_said (by hard) ?_ ms
  refine logs_cons (logs_field (tells_list tells_actor)) fun _ => logs_cons (logs_field tells_date) fun _ =>
    logs_cons (logs_field tells_externalDocumentRefs) fun _ => logs_cons (logs_field tells_version) fun _ => logs_pure ?_
  intros
  exact ⟨_, rfl, by apply checks_of; (repeat (first | check_one | exact checks_refs (by assumption) | check_other | apply checks_ap)); simp only [List.append_nil, List.nil_append, List.cons_append]⟩

/-! ### Packages -/

/-- A function described by itself. -/
theorem reads_self {α : Type} {m : Json → Py α} (ne : ∀ v, NE (m v)) : Reads m (fun v a => m v = .ok a) := ⟨fun _ _ => Iff.rfl, ne⟩

private theorem refs_of_list {l : List Json} {v : Json} (hi : pyIter v = .ok l) :
    parseExternalRefs v = (match collect parseExternalRef l with
      | .ok (_, refs) => .ok refs
      | .error e => .error e) := by
  unfold parseExternalRefs
  rw [hi]; rfl

theorem tells_externalRefs : Tells parseExternalRefs (fun v l => parseExternalRefs v = .ok l) goneThrough where
  reads := reads_self fun v h => by
    cases hi : pyIter v with
    | error e =>
      have : parseExternalRefs v = .error e := by unfold parseExternalRefs; rw [hi]; rfl
      rw [this] at h
      cases h
      cases v <;> cases hi
    | ok l =>
      rw [refs_of_list hi] at h
      match hc : collect parseExternalRef l with
      | .ok (ms, as) => rw [hc] at h; cases h
      | .error e =>
        rw [hc] at h
        cases h
        have := hard_collect parseExternalRef l _ hc
        cases this
  iff v ms := by
    unfold goneThrough items
    cases hi : pyIter v with
    | error e =>
      have he : parseExternalRefs v = .error e := by unfold parseExternalRefs; rw [hi]; rfl
      have hn : NoItems v := by
        rintro ⟨l, hl⟩
        rw [JsonSays.iter_iff.2 hl] at hi; cases hi
      have hm : e = .type s%"not iterable" := by cases v <;> cases hi <;> rfl
      rw [he, hm]
      constructor
      · intro h; cases h; exact .inr ⟨hn, rfl⟩
      · rintro (⟨⟨_, l, _, hl, _⟩, _⟩ | ⟨_, rfl⟩)
        · exact absurd ⟨l, hl⟩ hn
        · rfl
    | ok l =>
      have hl := JsonSays.iter_iff.1 hi
      rw [refs_of_list hi]
      have hc' := collect_said tells_externalRef l
      match hc : collect parseExternalRef l with
      | .ok (fs, as) =>
        obtain ⟨mss, h1, h2⟩ := (hc'.iff fs).1 ⟨as, hc⟩
        constructor
        · intro h; cases h; exact .inl ⟨⟨fs, l, mss, hl, h1, h2⟩, rfl⟩
        · rintro (⟨_, rfl⟩ | ⟨hn, _⟩)
          · rfl
          · exact absurd ⟨l, hl⟩ hn
      | .error e =>
        have : said (.error e : Py (List ExternalPackageRef)) = none := hard_collect parseExternalRef l _ hc
        dsimp only
        rw [this]
        constructor
        · intro h; cases h
        · rintro (⟨⟨fs, l', mss, hl', h1, h2⟩, _⟩ | ⟨hn, _⟩)
          · rw [items_unique hl' hl] at h1
            obtain ⟨as, ha⟩ := (hc'.iff fs).2 ⟨mss, h1, h2⟩
            rw [hc] at ha; cases ha
          · exact absurd ⟨l, hl⟩ hn

theorem said_package (L : LicText) (o : Obj) (ms : List PMsg) : said (parsePackage L (.obj o)) = some ms ↔ aboutPackage L o ms := by
  unfold parsePackage aboutPackage
  simp only [get_obj, getD_obj, py_bind_ok, lift_bind]
  refine element_said (by hard) ?_ ms
  refine logs_cons (logs_field tells_date) fun _ => logs_cons (logs_field (tells_list tells_checksum)) fun _ =>
    logs_cons (logs_field tells_externalRefs) fun _ => logs_cons (logs_field (tells_license L)) fun _ => logs_cons (logs_field (tells_license L)) fun _ =>
    logs_cons (logs_field (tells_list (tells_license L))) fun _ => logs_cons (logs_field tells_actorOrNoAssertion) fun _ =>
    logs_cons (logs_field tells_verificationCode) fun _ => logs_cons (logs_field (tells_member names_purpose _)) fun _ =>
    logs_cons (logs_field tells_date) fun _ => logs_cons (logs_field tells_actorOrNoAssertion) fun _ => logs_cons (logs_field tells_date) fun _ => logs_pure ?_
  intros
  refine ⟨_, rfl, ?_⟩
  dsimp only
  all_checks

/-- The messages about the external references of a package. -/
theorem refMessages_of {o : Obj} {ms : List PMsg} (h : member o s%"externalRefs" (itemsIfAny (object aboutExternalRef)) ms) :
    externalRefMessages (.obj o) = ms := by
  unfold externalRefMessages
  rw [get_obj]
  unfold member orBlank itemsIfAny items at h
  rw [JsonSays.blank_iff] at h
  generalize valueAt o s%"externalRefs" = v at *
  dsimp only
  rcases h with ⟨h, rfl⟩ | ⟨ht, ⟨l, mss, hl, h1, rfl⟩ | ⟨hn, rfl⟩⟩
  · exact if_neg h
  · rw [if_pos (by simpa using ht), JsonSays.iter_iff.2 hl]
    dsimp only
    obtain ⟨as, ha⟩ := ((collect_said tells_externalRef l).iff _).2 ⟨mss, h1, rfl⟩
    rw [ha]
  · rw [if_pos (by simpa using ht)]
    cases hi : pyIter v with
    | error e => rfl
    | ok l => exact absurd ⟨l, JsonSays.iter_iff.1 hi⟩ hn

theorem refMessages_some {L : LicText} {o : Obj} {ms : List PMsg} (h : aboutPackage L o ms) :
    ∃ ms', member o s%"externalRefs" (itemsIfAny (object aboutExternalRef)) ms' := by
  have hf : ∃ fs, member o s%"externalRefs" goneThrough fs := by
    unfold aboutPackage element at h
    rcases h with ⟨fs, hc, _⟩ | ⟨hc, _⟩ <;>
    · obtain ⟨_, _, _, hc, _⟩ := concat_cons.1 hc
      obtain ⟨_, _, _, hc, _⟩ := concat_cons.1 hc
      obtain ⟨a, _, hg, _, _⟩ := concat_cons.1 hc
      exact ⟨a, hg⟩
  obtain ⟨fs, (⟨hb, _⟩ | ⟨hb, ⟨⟨x, hx⟩, _⟩ | ⟨hn, _⟩⟩)⟩ := hf
  · exact ⟨[], .inl ⟨hb, rfl⟩⟩
  · exact ⟨x, .inr ⟨hb, .inl hx⟩⟩
  · exact ⟨[], .inr ⟨hb, .inr ⟨hn, rfl⟩⟩⟩

/-- What a package adds to the messages. -/
private theorem entry_said (L : LicText) (o : Obj) (ms : List PMsg) :
    (∃ a, said (parsePackage L (.obj o)) = some a ∧ ms = externalRefMessages (.obj o) ++ a) ↔ aboutPackageEntry L o ms := by
  unfold aboutPackageEntry
  rw [concat_cons]
  simp only [said_package, concat_cons, concat_nil]
  constructor
  · rintro ⟨a, ha, rfl⟩
    obtain ⟨r, hr⟩ := refMessages_some ha
    exact ⟨r, a, hr, ⟨a, [], ha, rfl, by simp⟩, by rw [refMessages_of hr]⟩
  · rintro ⟨r, b, hr, ⟨a, _, ha, rfl, rfl⟩, rfl⟩
    exact ⟨a, ha, by rw [refMessages_of hr, List.append_nil]⟩

private theorem package_other (L : LicText) (v : Json) (h : NoObject v) : said (parsePackage L v) = none := by
  cases v <;> first | rfl | exact absurd rfl (h _)

theorem logs_packages (L : LicText) (l : List Json) :
    Logs1 (collectPackages L l) (fun fs => ∃ mss, All2 (object (aboutPackageEntry L)) l mss ∧ fs = mss.flatten) (fun _ => True) where
  iff fs := by
    induction l generalizing fs with
    | nil =>
      constructor
      · rintro ⟨x, hx⟩; cases hx; exact ⟨[], .nil, rfl⟩
      · rintro ⟨mss, h, rfl⟩; cases h; exact ⟨[], rfl⟩
    | cons j js ih =>
      have step : (∃ x, collectPackages L (j :: js) = .ok (fs, x)) ↔
          ∃ a b, said (parsePackage L j) = some a ∧ (∃ x, collectPackages L js = .ok (b, x)) ∧ fs = (externalRefMessages j ++ a) ++ b := by
        rw [collectPackages.eq_2]
        generalize collectPackages L js = c
        cases hm : parsePackage L j with
        | ok p =>
          dsimp only
          match c with
          | .ok (ms, as) =>
            constructor
            · rintro ⟨x, hx⟩; cases hx; exact ⟨[], _, rfl, ⟨as, rfl⟩, by simp⟩
            · rintro ⟨a', b, h1, ⟨x, h2⟩, rfl⟩
              cases h1; cases h2
              exact ⟨p :: as, by rw [List.append_nil]⟩
          | .error e =>
            constructor
            · rintro ⟨x, hx⟩; cases hx
            · rintro ⟨a', b, h1, ⟨x, h2⟩, rfl⟩; cases h2
        | error e =>
          dsimp only
          have hs : said (.error e : Py Package) = e.logged := rfl
          rw [hs]
          cases hl : e.logged with
          | none =>
            constructor
            · rintro ⟨x, hx⟩; cases hx
            · rintro ⟨a', b, h1, _⟩; cases h1
          | some ms' =>
            dsimp only
            match c with
            | .ok (ms, as) =>
              constructor
              · rintro ⟨x, hx⟩; cases hx; exact ⟨ms', ms, rfl, ⟨as, rfl⟩, rfl⟩
              · rintro ⟨a', b, h1, ⟨x, h2⟩, rfl⟩
                cases h1; cases h2
                exact ⟨_, rfl⟩
            | .error e =>
              constructor
              · rintro ⟨x, hx⟩; cases hx
              · rintro ⟨a', b, h1, ⟨x, h2⟩, rfl⟩; cases h2
      rw [step]
      simp only [ih]
      constructor
      · rintro ⟨a, b, h1, ⟨mss, h2, rfl⟩, rfl⟩
        have : ∃ o, j = .obj o := by
          cases j <;> first | exact ⟨_, rfl⟩ | (rw [package_other L _ (by intro o e; cases e)] at h1; cases h1)
        obtain ⟨o, rfl⟩ := this
        exact ⟨_, .cons ⟨o, rfl, (entry_said L o _).1 ⟨a, h1, rfl⟩⟩ h2, rfl⟩
      · rintro ⟨mss, h, rfl⟩
        cases h with
        | cons h1 h2 =>
          obtain ⟨o, rfl, h1⟩ := h1
          obtain ⟨a, ha, rfl⟩ := (entry_said L o _).2 h1
          exact ⟨a, _, ha, ⟨_, h2, rfl⟩, rfl⟩
  val _ _ := trivial

/-! ### Files -/

/-- What is said about an entry. -/
def entryMessages : PMsg ⊕ FileType → List PMsg
  | .inl m => [m]
  | .inr _ => []

abbrev aboutFileType : About := expect (JsonSays.ExactMember FileType.name) fun v m => m = .invalid s%"FileType" v

private theorem hashable_iff (v : Json) : v.hashable = true ↔ ¬ Unhashable v := by
  unfold Unhashable
  cases v <;> simp [Json.hashable]

private theorem fileType_said (v : Json) (ms : List PMsg) : (∃ r, fileTypeEntry v = .ok r ∧ ms = entryMessages r) ↔ ¬ Unhashable v ∧ aboutFileType v ms := by
  unfold aboutFileType expect
  cases v with
  | str s =>
    have hh : ¬ Unhashable (.str s) := (hashable_iff _).1 rfl
    rw [fileTypeEntry.eq_def]
    dsimp only
    cases hf : FileType.ofName? s with
    | some t =>
      have hm : ∃ a, JsonSays.ExactMember FileType.name (.str s) a := ⟨t, by rw [names_fileType.iff.1 hf]; rfl⟩
      constructor
      · rintro ⟨r, h, rfl⟩; cases h; exact ⟨hh, .inl ⟨hm, rfl⟩⟩
      · rintro ⟨_, ⟨_, rfl⟩ | ⟨h, _⟩⟩
        · exact ⟨_, rfl, rfl⟩
        · exact absurd hm h
    | none =>
      have hm : ¬ ∃ a, JsonSays.ExactMember FileType.name (.str s) a := by
        rintro ⟨a, ha⟩
        cases ha
        rw [fileType_names] at hf; cases hf
      constructor
      · rintro ⟨r, h, rfl⟩; cases h; exact ⟨hh, .inr ⟨hm, _, rfl, rfl⟩⟩
      · rintro ⟨_, ⟨h, _⟩ | ⟨_, m, rfl, rfl⟩⟩
        · exact absurd h hm
        · exact ⟨_, rfl, rfl⟩
  | _ =>
    rw [fileTypeEntry.eq_def]
    dsimp only
    rw [← hashable_iff]
    split
    · rename_i hh
      constructor
      · rintro ⟨r, h, rfl⟩; cases h; exact ⟨hh, .inr ⟨fun ⟨a, ha⟩ => (by cases ha), _, rfl, rfl⟩⟩
      · rintro ⟨_, ⟨⟨a, ha⟩, _⟩ | ⟨_, m, rfl, rfl⟩⟩
        · cases ha
        · exact ⟨_, rfl, rfl⟩
    · rename_i hh
      constructor
      · rintro ⟨r, h, _⟩; cases h
      · rintro ⟨h, _⟩; exact absurd h hh

private theorem fileType_error {v : Json} {e : PyErr} (h : fileTypeEntry v = .error e) : e = .type s%"unhashable type" ∧ Unhashable v := by
  cases v with
  | str s =>
    rw [fileTypeEntry.eq_def] at h
    dsimp only at h
    split at h <;> cases h
  | arr l => cases h; exact ⟨rfl, .inl ⟨_, rfl⟩⟩
  | obj l => cases h; exact ⟨rfl, .inr ⟨_, rfl⟩⟩
  | _ => cases h

private theorem logs_fileTypes (l : List Json) :
    Logs1 (collectFileTypes l) (fun fs => (∀ x ∈ l, ¬ Unhashable x) ∧ ∃ mss, All2 aboutFileType l mss ∧ fs = mss.flatten) (fun _ => True) where
  iff fs := by
    induction l generalizing fs with
    | nil =>
      constructor
      · rintro ⟨x, hx⟩; cases hx; exact ⟨by simp, [], .nil, rfl⟩
      · rintro ⟨_, mss, h, rfl⟩; cases h; exact ⟨[], rfl⟩
    | cons j js ih =>
      have step : (∃ x, collectFileTypes (j :: js) = .ok (fs, x)) ↔
          ∃ a b, (∃ r, fileTypeEntry j = .ok r ∧ a = entryMessages r) ∧ (∃ x, collectFileTypes js = .ok (b, x)) ∧ fs = a ++ b := by
        rw [collectFileTypes.eq_2]
        generalize collectFileTypes js = c
        cases hm : fileTypeEntry j with
        | ok r =>
          dsimp only
          match c with
          | .ok (ms, as) =>
            constructor
            · rintro ⟨x, hx⟩
              cases r <;> (cases hx; exact ⟨_, _, ⟨_, rfl, rfl⟩, ⟨as, rfl⟩, rfl⟩)
            · rintro ⟨a', b, ⟨r', h1, rfl⟩, ⟨x, h2⟩, rfl⟩
              cases h1; cases h2
              cases r <;> exact ⟨_, rfl⟩
          | .error e =>
            constructor
            · rintro ⟨x, hx⟩; cases hx
            · rintro ⟨a', b, h1, ⟨x, h2⟩, rfl⟩; cases h2
        | error e =>
          constructor
          · rintro ⟨x, hx⟩; cases hx
          · rintro ⟨a', b, ⟨r, h1, _⟩, _⟩; cases h1
      rw [step]
      simp only [ih, fileType_said]
      constructor
      · rintro ⟨a, b, ⟨h0, h1⟩, ⟨h3, mss, h2, rfl⟩, rfl⟩
        refine ⟨?_, _, .cons h1 h2, rfl⟩
        intro x hx
        rcases List.mem_cons.1 hx with rfl | hx
        · exact h0
        · exact h3 x hx
      · rintro ⟨h0, mss, h, rfl⟩
        cases h with
        | cons h1 h2 => exact ⟨_, _, ⟨h0 _ (.head _), h1⟩, ⟨fun x hx => h0 x (.tail _ hx), _, h2, rfl⟩, rfl⟩
  val _ _ := trivial

private theorem fileTypes_error {l : List Json} {e : PyErr} (h : collectFileTypes l = .error e) : e = .type s%"unhashable type" ∧ ∃ x ∈ l, Unhashable x := by
  induction l generalizing e with
  | nil => cases h
  | cons j js ih =>
    rw [collectFileTypes.eq_2] at h
    cases hm : fileTypeEntry j with
    | error e' =>
      rw [hm] at h
      cases h
      obtain ⟨h1, h2⟩ := fileType_error hm
      exact ⟨h1, j, .head _, h2⟩
    | ok r =>
      rw [hm] at h
      dsimp only at h
      match hc : collectFileTypes js with
      | .error e' =>
        rw [hc] at h; cases h
        obtain ⟨h1, x, hx, h2⟩ := ih hc
        exact ⟨h1, x, .tail _ hx, h2⟩
      | .ok (ms, as) => rw [hc] at h; cases r <;> cases h

theorem tells_fileTypes : Tells parseFileTypes (ListOf (JsonSays.ExactMember FileType.name)) aboutFileTypes where
  reads := reads_fileTypes
  iff v ms := by
    unfold parseFileTypes
    have hG : ∀ l ms, said ((collectFileTypes l).orRaiseIn s%"FileType") = some ms ↔
        ((∃ x ∈ l, Unhashable x) ∧ ms = [unhashable]) ∨ ((∀ x ∈ l, ¬ Unhashable x) ∧ ∃ mss, All2 aboutFileType l mss ∧ wrap s%"FileType" mss.flatten ms) := by
      intro l ms
      match hc : collectFileTypes l with
      | .error e =>
        obtain ⟨rfl, x, hx, hu⟩ := fileTypes_error hc
        have : said (P.orRaiseIn s%"FileType" (.error (.type s%"unhashable type") : P (List FileType))) = some [unhashable] := rfl
        rw [this]
        constructor
        · intro h; cases h; exact .inl ⟨⟨x, hx, hu⟩, rfl⟩
        · rintro (⟨_, rfl⟩ | ⟨h, _⟩)
          · rfl
          · exact absurd hu (h x hx)
      | .ok (fs, ts) =>
        have hl := logs_fileTypes l
        rw [hc] at hl
        rw [orRaiseIn_said hl (hard_ok _)]
        constructor
        · rintro ⟨fs, ⟨h1, mss, h2, rfl⟩, hw⟩; exact .inr ⟨h1, mss, h2, hw⟩
        · rintro (⟨⟨x, hx, hu⟩, _⟩ | ⟨h1, mss, h2, hw⟩)
          · exact absurd hu (((hl.iff fs).1 ⟨ts, rfl⟩).1 x hx)
          · exact ⟨_, ⟨h1, mss, h2, rfl⟩, hw⟩
    rw [iter_said hG]
    constructor
    · rintro (⟨l, hl, ⟨⟨x, hx, hu⟩, rfl⟩ | ⟨h1, mss, h2, hw⟩⟩ | ⟨hn, rfl⟩)
      · exact .unhashable hl hx hu
      · exact .names hl h1 h2 hw
      · exact .noItems hn
    · intro h
      cases h with
      | noItems hn => exact .inr ⟨hn, rfl⟩
      | unhashable hl hx hu => exact .inl ⟨_, hl, .inl ⟨⟨_, hx, hu⟩, rfl⟩⟩
      | names hl h1 h2 hw => exact .inl ⟨_, hl, .inr ⟨h1, _, h2, hw⟩⟩

theorem said_file (L : LicText) (o : Obj) (ms : List PMsg) : said (parseFile L (.obj o)) = some ms ↔ aboutFile L o ms := by
  unfold parseFile aboutFile
  simp only [get_obj, getD_obj, py_bind_ok, lift_bind]
  refine element_said (by hard) ?_ ms
  refine logs_cons (logs_field (tells_list tells_checksum)) fun _ => logs_cons (logs_field tells_fileTypes) fun _ =>
    logs_cons (logs_field (tells_license L)) fun _ => logs_cons (logs_field (tells_list (tells_license L))) fun _ => logs_pure ?_
  intros
  exact ⟨_, rfl, by all_checks⟩

theorem tells_file (L : LicText) : Tells (parseFile L) (Object (JsonSays.FileSays L)) (object (aboutFile L)) :=
  tells_object (reads_file L) (said_file L) (by no_object)

end Spdx.JsonSaying
