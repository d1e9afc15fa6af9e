import Verif.Model.ParserObjects
/- The computations with loggers that outlive an exception agree with those of Model/JsonParser when none is raised. -/
namespace Spdx

/-- Forget the messages if an exception is raised. -/
def W.toP (x : W α) : P α :=
  match x.result with
  | .error e => .error e
  | .ok a => .ok (x.logs, a)

theorem W.toP_pure (a : α) : (Pure.pure a : W α).toP = Pure.pure a := rfl

theorem W.toP_bind (x : W α) (f : α → W β) : (x >>= f).toP = (x.toP >>= fun a => (f a).toP) := by
  obtain ⟨ms, r⟩ := x
  cases r with
  | error e => rfl
  | ok a =>
    show W.toP (W.bind ⟨ms, .ok a⟩ f) = P.bind (.ok (ms, a)) _
    unfold W.bind P.bind W.toP
    dsimp only
    cases (f a).result <;> rfl

theorem W.toP_lift (x : Py α) : x.liftW.toP = x.lift := by cases x <;> rfl

theorem W.toP_parseField (j : Json) (m : Json → Py α) : (parseFieldW j m).toP = parseField j m := by
  unfold parseFieldW parseField
  cases j.truthy with
  | false => rfl
  | true =>
    cases m j with
    | ok a => rfl
    | error e => cases h : e.logged <;> simp only [h] <;> rfl

theorem W.toP_collect (m : Json → Py α) (l : List Json) : (collectW m l).toP = collect m l := by
  induction l with
  | nil => rfl
  | cons j js ih =>
    rw [collectW, collect, ← ih]
    cases m j with
    | ok a =>
      show W.toP (collectW m js >>= _) = _
      rw [toP_bind]
      show P.bind _ _ = _
      unfold P.bind W.toP
      cases (collectW m js).result with
      | error e => rfl
      | ok as => show Except.ok _ = _; simp [Pure.pure, W.pure]
    | error e =>
      dsimp only
      cases e.logged with
      | none => rfl
      | some ms =>
        dsimp only
        unfold W.toP
        cases (collectW m js).result <;> rfl

/-- The messages are those of the other model when no exception is raised. -/
theorem W.logs_of_ok {x : W α} {ms : List PMsg} {a : α} (h : x.toP = .ok (ms, a)) : x = ⟨ms, .ok a⟩ := by
  obtain ⟨ms', r⟩ := x
  unfold W.toP at h
  cases r with
  | error e => cases h
  | ok b => cases h; rfl

theorem W.error_of {x : W α} {e : PyErr} (h : x.toP = .error e) : x.result = .error e := by
  obtain ⟨ms', r⟩ := x
  unfold W.toP at h
  cases r with
  | error e => cases h; rfl
  | ok b => cases h

private theorem P_lift_bind (a : α) (f : α → P β) : (Py.lift (.ok a) >>= f) = f a := by
  have key : ∀ x : Except PyErr (List PMsg × β),
      (match x with | .error e => .error e | .ok (ms', b) => .ok ([] ++ ms', b) : Except PyErr (List PMsg × β)) = x := by
    intro x; cases x <;> rfl
  exact key (f a)
private theorem P_error_bind (e : PyErr) (f : α → P β) : @Bind.bind P _ α β (Except.error e) f = .error e := rfl
private theorem Py_ok_bind (a : α) (f : α → Py β) : ((.ok a : Py α) >>= f) = f a := rfl
private theorem Py_error_bind (e : PyErr) (f : α → Py β) : ((.error e : Py α) >>= f) = .error e := rfl

private theorem parseField_error {j : Json} {m : Json → Py α} {e : PyErr} (h : parseField j m = .error e) : e.logged = none := by
  unfold parseField at h
  cases ht : j.truthy with
  | false => rw [ht] at h; cases h
  | true =>
    rw [ht] at h
    cases hm : m j with
    | ok a => simp [hm] at h
    | error e' =>
      cases hl : e'.logged with
      | some ms => simp [hm, hl] at h
      | none => simp only [hm, hl] at h; cases h; exact hl

private theorem collect_error {m : Json → Py α} {l : List Json} {e : PyErr} (h : collect m l = .error e) : e.logged = none := by
  induction l with
  | nil => cases h
  | cons j js ih =>
    rw [collect] at h
    cases hm : m j with
    | ok a =>
      rw [hm] at h
      cases hc : collect m js with
      | ok x => simp [hc] at h
      | error e' => simp [hc] at h; exact ih (by rw [hc, h])
    | error e' =>
      rw [hm] at h
      cases hl : e'.logged with
      | none => simp only [hl] at h; cases h; exact hl
      | some ms =>
        simp only [hl] at h
        cases hc : collect m js with
        | ok x => simp [hc] at h
        | error e' => simp [hc] at h; exact ih (by rw [hc, h])

/-- If `parse_package` is not ended by an uncaught exception, the external references were all looked at. -/
theorem packageLogs_eq (L : LicText) (j : Json) (h : ∀ e, parsePackage L j = .error e → e.logged ≠ none) :
    packageLogs j = externalRefMessages j := by
  cases j with
  | obj o =>
    have get : ∀ k, pyGet (.obj o) k = .ok ((dictGet o k).getD .null) := fun k => rfl
    have getD : ∀ k d, pyGetD (.obj o) k d = .ok ((dictGet o k).getD d) := fun k d => rfl
    cases hA : parseField ((dictGet o s%"builtDate").getD .null) parseDate with
    | error e =>
      refine absurd (parseField_error hA) (h e ?_)
      unfold parsePackage
      simp only [get, getD, Py_ok_bind, P_lift_bind, hA, P_error_bind]
      rfl
    | ok a =>
    cases hB : parseField ((dictGet o s%"checksums").getD .null) (parseList parseChecksum) with
    | error e =>
      refine absurd (parseField_error hB) (h e ?_)
      unfold parsePackage
      simp only [get, getD, Py_ok_bind, P_lift_bind, hA, hB, P_error_bind]
      rfl
    | ok b =>
    have hr : reachesExternalRefs (.obj o) = true := by
      unfold reachesExternalRefs
      simp only [get, P_lift_bind, hA, hB]
      rfl
    unfold packageLogs externalRefMessages
    rw [if_pos hr, get]
    dsimp only
    cases ht : ((dictGet o s%"externalRefs").getD .null).truthy with
    | false => rfl
    | true =>
    rw [if_pos rfl, if_pos rfl]
    cases hi : pyIter ((dictGet o s%"externalRefs").getD .null) with
    | error e => rfl
    | ok l =>
    dsimp only
    cases hc : collect parseExternalRef l with
    | ok x =>
      have := W.toP_collect parseExternalRef l
      rw [hc] at this
      rw [W.logs_of_ok this]
    | error e =>
      refine absurd (collect_error hc) (h e ?_)
      have hp : parseField ((dictGet o s%"externalRefs").getD .null) parseExternalRefs = .error e := by
        unfold parseField parseExternalRefs
        rw [ht, hi]
        simp only [Py_ok_bind, hc, collect_error hc]
        rfl
      unfold parsePackage
      simp only [get, getD, Py_ok_bind, P_lift_bind, hA, hB, hp, P_error_bind]
      rfl
  | _ =>
    unfold packageLogs externalRefMessages
    cases reachesExternalRefs _ <;> rfl

theorem W.toP_collectPackages (L : LicText) (l : List Json) : (collectPackagesW L l).toP = collectPackages L l := by
  induction l with
  | nil => rfl
  | cons j js ih =>
    rw [collectPackagesW, collectPackages, ← ih]
    cases hp : parsePackage L j with
    | ok a =>
      rw [packageLogs_eq L j (by rw [hp]; intro e h; cases h)]
      dsimp only
      unfold W.toP
      cases (collectPackagesW L js).result <;> rfl
    | error e =>
      cases hl : e.logged with
      | none => simp only [hl]; rfl
      | some ms =>
        rw [packageLogs_eq L j (by rw [hp]; intro e' h; cases h; rw [hl]; simp)]
        simp only [hl]
        unfold W.toP
        cases (collectPackagesW L js).result <;> rfl

theorem W.toP_annotationsFrom (l : List Json) : (annotationsFromW l).toP = annotationsFrom l := by
  induction l with
  | nil => rfl
  | cons j js ih => simp only [annotationsFromW, annotationsFrom, toP_bind, toP_lift, toP_parseField, toP_pure, ih]

theorem W.toP_allAnnotations (j : Json) : (allAnnotationsW j).toP.orRaiseIn s%"annotations" = parseAllAnnotations j := by
  simp only [allAnnotationsW, parseAllAnnotations, toP_bind, toP_lift, toP_collect, toP_annotationsFrom, toP_pure]

theorem W.toP_allRelationships (j : Json) : (allRelationshipsW j).toP.orRaise = parseAllRelationships j := by
  simp only [allRelationshipsW, parseAllRelationships, toP_bind, toP_lift, toP_parseField, toP_pure]

end Spdx
