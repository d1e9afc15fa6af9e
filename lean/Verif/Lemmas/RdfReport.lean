import Verif.Model.RdfReport
/- The RDF reader with exceptions (`Model/RdfReport`) returns what `Model/RdfParser` says. -/
namespace Spdx.RdfReport
open Spdx

/-- the value returned -/
def val : Py α → Option α
  | .ok a => some a
  | .error _ => none

/-- the value, when nothing was logged -/
def clean : P α → Option α
  | .ok ([], a) => some a
  | _ => none

/-- the object constructed -/
def built : Check α → Option α
  | .ok a => some a
  | .error _ => none

/-- It does not raise an `SPDXParsingError` without any message. -/
def Loud (x : Py α) : Prop := x ≠ .error (.parsing [])
def LoudP (x : P α) : Prop := x ≠ Except.error (PyErr.parsing [])

theorem val_bind (x : Py α) (f : α → Py β) : val (x >>= f) = (val x).bind fun a => val (f a) := by
  cases x with
  | ok a => rfl
  | error e => rfl

theorem val_pure (a : α) : val (pure a : Py α) = some a := rfl

theorem val_ok {x : Py α} {a : α} : val x = some a ↔ x = .ok a := by
  cases x with
  | ok b => exact ⟨fun h => congrArg Except.ok (Option.some.inj h), fun h => congrArg some (Except.ok.inj h)⟩
  | error e => exact ⟨fun h => (nomatch h), fun h => (nomatch h)⟩

theorem clean_bind (x : P α) (f : α → P β) : clean (x >>= f) = (clean x).bind fun a => clean (f a) := by
  change clean (P.bind x f) = _
  unfold P.bind
  match x with
  | .error e => rfl
  | .ok ([], a) =>
    change clean (match f a with | .error e => .error e | .ok (ms', b) => .ok ([] ++ ms', b)) = clean (f a)
    match f a with
    | .error e => rfl
    | .ok (ms, b) => rfl
  | .ok (m :: ms, a) =>
    change clean (match f a with | .error e => .error e | .ok (ms', b) => .ok ((m :: ms) ++ ms', b)) = none
    match f a with
    | .error e => rfl
    | .ok (ms, b) => rfl

theorem clean_pure (a : α) : clean (pure a : P α) = some a := rfl

theorem clean_lift (x : Py α) : clean x.lift = val x := by
  cases x <;> rfl

theorem val_orRaise (p : P α) : val p.orRaise = clean p := by
  match p with
  | .error e => rfl
  | .ok ([], a) => rfl
  | .ok (m :: ms, a) => rfl

theorem val_orRaiseIn (w : Str) (p : P α) : val (p.orRaiseIn w) = clean p := by
  match p with
  | .error e => rfl
  | .ok ([], a) => rfl
  | .ok (m :: ms, a) => rfl

theorem val_construct (cls : Str) (c : Check α) : val (construct cls c) = built c := by
  cases c <;> rfl

theorem built_ap (f : Check (α → β)) (a : Check α) : built (f ⊛ a) = (built f).bind fun f => (built a).map f := by
  cases f <;> cases a <;> rfl

theorem built_okAp (f : α → β) (a : Check α) : built (.ok f ⊛ a) = (built a).map f := by
  cases a <;> rfl

theorem built_apOk (f : Check (α → β)) (a : α) : built (f ⊛ .ok a) = (built f).map fun f => f a := by
  cases f <;> rfl

theorem built_ok (a : α) : built (.ok a) = some a := rfl

theorem built_some (fld : Str) (o : Option α) : built (chkSome fld o) = o := by
  cases o <;> rfl

theorem built_all (fld : Str) (l : List (Option α)) : built (chkAll fld (some l)) = l.mapM id := by
  unfold chkAll
  dsimp only
  cases l.mapM id <;> rfl

theorem built_texts (fld : Str) (l : List RdfNode) : built (chkTexts fld l) = l.mapM RdfNode.toPyStr := by
  unfold chkTexts
  cases l.mapM RdfNode.toPyStr <;> rfl

theorem built_noNone (fld : Str) (o : Option (OrSpecial α)) : built (chkNoNone fld o) = noNone (some o) := by
  match o with
  | none => rfl
  | some (.val _) => rfl
  | some .noAssertion => rfl
  | some .none => rfl

/-! ### No empty errors -/

theorem loud_ok (a : α) : Loud (.ok a : Py α) := fun h => nomatch h

theorem loud_bind {x : Py α} {f : α → Py β} (h : Loud x) (hf : ∀ a, Loud (f a)) : Loud (x >>= f) := by
  cases x with
  | ok a => exact hf a
  | error e => exact fun he => h (by cases he; rfl)

theorem loudP_bind {x : P α} {f : α → P β} (h : LoudP x) (hf : ∀ a, LoudP (f a)) : LoudP (x >>= f) := by
  change P.bind x f ≠ _
  unfold P.bind
  match x, h with
  | .error e, h => exact fun he => h (by cases he; rfl)
  | .ok (ms, a), _ =>
    have hf := hf a
    intro he
    dsimp only at he
    revert he hf
    match f a with
    | .error e => exact fun hf he => hf (by cases he; rfl)
    | .ok (ms', b) => exact fun _ he => nomatch he

theorem loudP_pure (a : α) : LoudP (pure a : P α) := fun h => nomatch h

theorem loudP_lift {x : Py α} (h : Loud x) : LoudP x.lift := by
  cases x with
  | ok a => exact fun h => nomatch h
  | error e => exact fun he => h (by cases he; rfl)

theorem loud_orRaiseIn {w : Str} {p : P α} (h : LoudP p) : Loud (p.orRaiseIn w) := by
  match p, h with
  | .error e, h => exact fun he => h (by cases he; rfl)
  | .ok ([], a), _ => exact fun h => nomatch h
  | .ok (m :: ms, a), _ => exact fun h => nomatch h

theorem loud_construct (cls : Str) (c : Check α) : Loud (construct cls c) := by
  cases c with
  | ok a => exact fun h => nomatch h
  | error e => exact fun h => nomatch h

theorem loudP_apply (m : RdfNode → Py α) (v : RdfNode) : LoudP (applyOrLog m v) := by
  unfold applyOrLog
  match m v with
  | .ok a => exact fun h => nomatch h
  | .error (.parsing ms) => exact fun h => nomatch h
  | .error (.type _) => exact fun h => nomatch h
  | .error (.value _) => exact fun h => nomatch h
  | .error (.other _) => exact fun h => nomatch h

theorem loudP_unique (g : RdfGraph) (s : RdfNode) (p : Pred) : LoudP (readUnique g s p) := by
  unfold readUnique
  match g.objects s p with
  | [] => exact fun h => nomatch h
  | [v] => exact fun h => nomatch h
  | _ :: _ :: _ => exact fun h => nomatch h

theorem loudP_literal (g : RdfGraph) (s : RdfNode) (p : Pred) (m : RdfNode → Py α) : LoudP (readLiteral g s p m) := by
  unfold readLiteral
  refine loudP_bind (loudP_unique g s p) fun o => ?_
  cases o with
  | none => exact loudP_pure _
  | some v =>
    dsimp only
    by_cases h : v.truthy = true
    · rw [if_pos h]; exact loudP_apply m v
    · rw [if_neg h]; exact loudP_pure _

theorem loudP_typed (m : RdfNode → Py (Option α)) (v : RdfNode) : LoudP (readTyped m v) := by
  unfold readTyped
  split
  · exact loudP_pure _
  split
  · exact loudP_pure _
  split
  · exact loudP_pure _
  exact loudP_bind (loudP_apply m v) fun _ => loudP_pure _

theorem loudP_special (g : RdfGraph) (s : RdfNode) (p : Pred) (m : RdfNode → Py (Option α)) : LoudP (readSpecial g s p m) := by
  unfold readSpecial
  refine loudP_bind (loudP_unique g s p) fun o => ?_
  cases o with
  | none => exact loudP_pure _
  | some v => exact loudP_typed m v

theorem loud_mapM {ν α : Type} {m : ν → Py α} (h : ∀ v, Loud (m v)) : ∀ l : List ν, Loud (l.mapM m)
  | [] => loud_ok _
  | v :: l => by
    rw [List.mapM_cons]
    exact loud_bind (h v) fun _ => loud_bind (loud_mapM h l) fun _ => loud_ok _

/-! ### Single values -/

/-- The method with exceptions and the one without agree. -/
structure Agree {ν α : Type} (m : ν → Py α) (m' : ν → Option α) : Prop where
  val : ∀ v, val (m v) = m' v
  loud : ∀ v, Loud (m v)

theorem clean_apply {m : RdfNode → Py α} {m' : RdfNode → Option α} (h : Agree m m') (v : RdfNode) : clean (applyOrLog m v) = applyMethod m' v := by
  have hv := h.val v
  have hl := h.loud v
  unfold applyOrLog applyMethod
  rw [← hv]
  match m v, hl with
  | .ok a, _ => rfl
  | .error (.parsing []), hl => exact absurd rfl hl
  | .error (.parsing (_ :: _)), _ => rfl
  | .error (.type _), _ => rfl
  | .error (.value _), _ => rfl
  | .error (.other _), _ => rfl

theorem clean_unique (g : RdfGraph) (s : RdfNode) (p : Pred) : clean (readUnique g s p) = uniqueValue g s p := by
  unfold readUnique uniqueValue
  match g.objects s p with
  | [] => rfl
  | [v] => rfl
  | _ :: _ :: _ => rfl

theorem clean_literal {m : RdfNode → Py α} {m' : RdfNode → Option α} (h : Agree m m') (g : RdfGraph) (s : RdfNode) (p : Pred) :
    clean (readLiteral g s p m) = rdfLiteral g s p m' := by
  unfold readLiteral rdfLiteral
  rw [clean_bind, clean_unique]
  match uniqueValue g s p with
  | none => rfl
  | some none => rfl
  | some (some v) =>
    dsimp only [Option.bind_some]
    by_cases ht : v.truthy = true
    · rw [if_pos ht, if_pos ht]; exact clean_apply h v
    · rw [if_neg ht, if_neg ht]; rfl

theorem clean_typed {m : RdfNode → Py (Option α)} {m' : RdfNode → Option (Option α)} (h : Agree m m') (v : RdfNode) :
    clean (readTyped m v) = specialOr m' v := by
  unfold readTyped specialOr
  by_cases h1 : ¬ v.truthy = true
  · rw [if_pos h1, if_pos h1]; rfl
  rw [if_neg h1, if_neg h1]
  by_cases h2 : v = spdxTerm s%"noassertion" ∨ v.toPyStr = some s%"NOASSERTION"
  · rw [if_pos h2, if_pos h2]; rfl
  rw [if_neg h2, if_neg h2]
  by_cases h3 : v = spdxTerm s%"none" ∨ v.toPyStr = some s%"NONE"
  · rw [if_pos h3, if_pos h3]; rfl
  rw [if_neg h3, if_neg h3, clean_bind, clean_apply h]
  unfold applyMethod
  match m' v with
  | none => rfl
  | some none => rfl
  | some (some _) => rfl

theorem clean_special {m : RdfNode → Py (Option α)} {m' : RdfNode → Option (Option α)} (h : Agree m m') (g : RdfGraph) (s : RdfNode) (p : Pred) :
    clean (readSpecial g s p m) = rdfSpecial g s p m' := by
  unfold readSpecial rdfSpecial
  rw [clean_bind, clean_unique]
  match uniqueValue g s p with
  | none => rfl
  | some none => rfl
  | some (some v) => exact clean_typed h v

theorem val_mapM {ν α : Type} {m : ν → Py α} {m' : ν → Option α} (h : ∀ v, val (m v) = m' v) : ∀ l : List ν, val (l.mapM m) = l.mapM m'
  | [] => rfl
  | v :: l => by
    rw [List.mapM_cons, List.mapM_cons, val_bind, h]
    refine congrArg _ (funext fun a => ?_)
    rw [val_bind, val_mapM h l]
    rfl

theorem agree_strip : Agree readStrip stripText := ⟨fun _ => rfl, fun _ => loud_ok _⟩
theorem agree_stripS : Agree readStripSpecial textSpecial := ⟨fun _ => rfl, fun _ => loud_ok _⟩

theorem agree_enum (cls pre : Str) (f : Str → Option α) : Agree (readEnum cls f pre) (textMethod (enumFromRdf f pre)) := by
  constructor <;> intro v <;> unfold readEnum <;> (try unfold textMethod) <;> cases enumFromRdf f pre v.text <;> first | rfl | exact fun h => nomatch h

theorem agree_actor : Agree (fun n => readActor n.text) (textMethod actorOf) := by
  constructor <;> intro v <;> unfold readActor <;> (try unfold textMethod actorOf) <;>
    (match parseActor v.text with
      | .ok a => first | rfl | exact fun h => nomatch h
      | .error .noToolName => first | rfl | exact fun h => nomatch h
      | .error .noName => first | rfl | exact fun h => nomatch h
      | .error .noMatch => first | rfl | exact fun h => nomatch h)

theorem agree_actorS : Agree (fun n => (readActor n.text).map some) actorSpecial := by
  constructor <;> intro v <;> unfold readActor <;> (try unfold actorSpecial actorOf) <;>
    (match parseActor v.text with
      | .ok a => first | rfl | exact fun h => nomatch h
      | .error .noToolName => first | rfl | exact fun h => nomatch h
      | .error .noName => first | rfl | exact fun h => nomatch h
      | .error .noMatch => first | rfl | exact fun h => nomatch h)

theorem agree_date : Agree readDate (textMethod datetimeFromStr) := by
  constructor <;> intro v <;> unfold readDate <;> (try unfold textMethod) <;> cases datetimeFromStr v.text <;> first | rfl | exact fun h => nomatch h

theorem agree_version : Agree readVersion (textMethod versionFromString) := by
  constructor <;> intro v <;> unfold readVersion <;> (try unfold textMethod) <;> cases versionFromString v.text <;> first | rfl | exact fun h => nomatch h

theorem agree_algorithm : Agree readAlgorithm (textMethod algorithmFromRdf) := by
  constructor <;> intro v <;> unfold readAlgorithm <;> (try unfold textMethod) <;> cases algorithmFromRdf v.text <;> first | rfl | exact fun h => nomatch h

theorem agree_id (b : Bindings) (ns : Str) : Agree (readId b ns) (parseRdfId b ns) := by
  constructor <;> intro v <;> unfold readId <;> cases parseRdfId b ns v <;> first | rfl | exact fun h => nomatch h

theorem agree_dataLicense : Agree (fun n => (.ok (removePrefix n.text licenseNamespace) : Py Str))
    (textMethod fun s => some (removePrefix s licenseNamespace)) := ⟨fun _ => rfl, fun _ => loud_ok _⟩

theorem agree_creator : Agree readCreator (fun c => c.toPyStr.bind actorOf) := by
  constructor <;> intro v <;> unfold readCreator
  · cases v.toPyStr with
    | none => rfl
    | some s => exact agree_actor.val (.str s)
  · cases v.toPyStr with
    | none => exact fun h => nomatch h
    | some s => exact agree_actor.loud (.str s)

/-! ### Licenses -/

theorem val_licText (env : RdfEnv) (s : Str) : val (readLicText env s) = env.lic.parse s := by
  unfold readLicText; cases env.lic.parse s <;> rfl

theorem loud_licText (env : RdfEnv) (s : Str) : Loud (readLicText env s) := by
  unfold readLicText; cases env.lic.parse s <;> exact fun h => nomatch h

theorem val_notNone (o : Option α) : val (notNone o) = o := by cases o <;> rfl
theorem loud_notNone (o : Option α) : Loud (notNone o) := by cases o <;> exact fun h => nomatch h

theorem agree_license (env : RdfEnv) (g : RdfGraph) (ns : Str) : ∀ k, Agree (readLicense env g ns k) (parseRdfLic env g ns k)
  | 0 => ⟨fun v => by rw [readLicense.eq_def, parseRdfLic.eq_def]; rfl, fun v => by rw [readLicense.eq_def]; exact fun h => nomatch h⟩
  | k + 1 => by
    have ih := agree_license env g ns k
    constructor
    · intro v
      rw [readLicense.eq_def, parseRdfLic.eq_def]
      dsimp only
      by_cases h1 : startsWith v.text licenseNamespace = true
      · rw [if_pos h1, if_pos h1, val_licText]
      rw [if_neg h1, if_neg h1]
      by_cases h2 : startsWith v.text ns = true
      · rw [if_pos h2, if_pos h2]
        cases v <;> first | rfl | exact val_licText _ _
      rw [if_neg h2, if_neg h2]
      cases someValue g v .type with
      | none => exact val_licText _ _
      | some ty =>
        dsimp only
        by_cases h3 : ty = spdxTerm s%"ConjunctiveLicenseSet"
        · rw [if_pos h3, if_pos h3, val_bind, val_mapM ih.val]
          exact congrArg _ (funext fun _ => val_licText _ _)
        rw [if_neg h3, if_neg h3]
        by_cases h4 : ty = spdxTerm s%"DisjunctiveLicenseSet"
        · rw [if_pos h4, if_pos h4, val_bind, val_mapM ih.val]
          exact congrArg _ (funext fun _ => val_licText _ _)
        rw [if_neg h4, if_neg h4]
        by_cases h5 : ty = spdxTerm s%"WithExceptionOperator"
        · rw [if_pos h5, if_pos h5, val_bind, val_notNone]
          refine congrArg _ (funext fun m => ?_)
          rw [val_bind, ih.val]
          refine congrArg _ (funext fun l => ?_)
          rw [val_bind, val_notNone]
          refine congrArg _ (funext fun x => ?_)
          rw [val_bind, val_notNone]
          exact congrArg _ (funext fun _ => val_licText _ _)
        rw [if_neg h5, if_neg h5]
        exact val_licText _ _
    · intro v
      rw [readLicense.eq_def]
      dsimp only
      split
      · exact loud_licText _ _
      split
      · split
        · exact loud_licText _ _
        · exact fun h => nomatch h
      split
      · exact loud_licText _ _
      split
      · exact loud_bind (loud_mapM ih.loud _) fun _ => loud_licText _ _
      split
      · exact loud_bind (loud_mapM ih.loud _) fun _ => loud_licText _ _
      split
      · exact loud_bind (loud_notNone _) fun m => loud_bind (ih.loud m) fun _ => loud_bind (loud_notNone _) fun _ =>
          loud_bind (loud_notNone _) fun _ => loud_licText _ _
      · exact loud_licText _ _

theorem agree_lic (env : RdfEnv) (g : RdfGraph) (ns : Str) : Agree (readLicense env g ns env.depth) (licMethod env g ns) := agree_license env g ns env.depth

/-! ### Elements -/

/-- turns a reader's success into the values it was built from -/
macro "values" : tactic => `(tactic|
  simp only [val_bind, val_orRaiseIn, val_orRaise, val_construct, val_pure, clean_bind, clean_pure, clean_lift, built_okAp, built_apOk, built_ap, built_ok, built_some, built_all,
    built_texts, built_noNone, Option.bind_some, Option.bind_eq_bind, Option.map_some, Option.pure_def, Option.bind_assoc])

theorem flat {α β : Sort _} {p : α → Prop} {f : α → β} {q : β → Prop} : (∃ b, (∃ a, p a ∧ f a = b) ∧ q b) ↔ ∃ a, p a ∧ q (f a) :=
  ⟨fun ⟨_, ⟨a, ha, e⟩, h⟩ => ⟨a, ha, e ▸ h⟩, fun ⟨a, ha, h⟩ => ⟨_, ⟨a, ha, rfl⟩, h⟩⟩

theorem needed_eq {o : Option (Option α)} {a : α} : needed o = some a ↔ o = some (some a) := by
  match o with
  | none => exact ⟨fun h => (nomatch h), fun h => (nomatch h)⟩
  | some none => exact ⟨fun h => (nomatch h), fun h => (nomatch h)⟩
  | some (some b) => exact ⟨fun h => congrArg some h, fun h => Option.some.inj h⟩

/-- the same, as equations -/
macro "steps" : tactic => `(tactic| simp only [Option.bind_eq_some_iff, Option.map_eq_some_iff, needed_eq, Option.some.injEq, flat])

theorem loud_checksum (g : RdfGraph) (n : RdfNode) : Loud (readChecksum g n) := by
  unfold readChecksum
  refine loud_bind (loud_orRaiseIn ?_) fun _ => loud_construct _ _
  exact loudP_bind (loudP_literal _ _ _ _) fun _ => loudP_bind (loudP_literal _ _ _ _) fun _ => loudP_pure _

theorem agree_checksum (g : RdfGraph) : Agree (readChecksum g) (parseRdfChecksum g) := by
  refine ⟨fun n => ?_, loud_checksum g⟩
  unfold readChecksum parseRdfChecksum
  values
  rw [clean_literal agree_algorithm, clean_literal agree_strip]
  ext x
  steps
  constructor
  · rintro ⟨_, h1, _, h2, a, rfl, v, rfl, rfl⟩
    exact ⟨_, h1, _, h2, rfl⟩
  · rintro ⟨_, h1, _, h2, rfl⟩
    exact ⟨_, h1, _, h2, _, rfl, _, rfl, rfl⟩

theorem val_licenses (env : RdfEnv) (g : RdfGraph) (ns : Str) : ∀ l, clean (readLicenses env g ns l) = l.mapM (specialOr (licMethod env g ns))
  | [] => rfl
  | v :: l => by
    rw [readLicenses, List.mapM_cons, clean_bind, clean_typed (agree_lic env g ns)]
    refine congrArg _ (funext fun a => ?_)
    rw [clean_bind, val_licenses env g ns l]
    rfl

theorem mapM_needed {ν α : Type} (f : ν → Option (Option α)) : ∀ l : List ν, l.mapM (fun v => needed (f v)) = (l.mapM f).bind fun as => as.mapM id
  | [] => rfl
  | v :: l => by
    rw [List.mapM_cons, List.mapM_cons, mapM_needed f l]
    match f v with
    | none => rfl
    | some none =>
      cases l.mapM f <;> rfl
    | some (some a) =>
      cases hl : l.mapM f with
      | none => rfl
      | some as =>
        change ((as.mapM id).bind fun bs => some (a :: bs)) = (some a :: as).mapM id
        rw [List.mapM_cons]
        rfl

theorem licenses_eq (env : RdfEnv) (g : RdfGraph) (ns : Str) (n : RdfNode) (p : Pred) (as : List (OrSpecial LicExpr)) :
    rdfLicenses env g ns n p = some as ↔ ∃ l, (g.objects n p).mapM (specialOr (licMethod env g ns)) = some l ∧ l.mapM id = some as := by
  unfold rdfLicenses
  rw [mapM_needed, Option.bind_eq_some_iff]

theorem noNone_eq {α : Type} {o : Option (Option (OrSpecial α))} {a : Option (OrNoAssertion α)} :
    noNone o = some a ↔ ∃ w, o = some w ∧ noNone (some w) = some a := by
  cases o with
  | none => exact ⟨fun h => (nomatch h), fun ⟨_, h, _⟩ => (nomatch h)⟩
  | some w => exact ⟨fun h => ⟨w, rfl, h⟩, fun ⟨_, e, h⟩ => by cases e; exact h⟩

theorem clean_each {m : RdfNode → Py α} {m' : RdfNode → Option α} (h : Agree m m') : ∀ l, clean (readEach m l) = (l.mapM m').map (List.map some)
  | [] => rfl
  | v :: l => by
    rw [readEach, List.mapM_cons, clean_bind, clean_apply h]
    unfold applyMethod
    cases m' v with
    | none => rfl
    | some a =>
      dsimp only [Option.bind_some]
      rw [clean_bind, clean_each h l]
      cases l.mapM m' <;> rfl

theorem mapM_some {α : Type} : ∀ l : List α, (l.map some).mapM id = some l
  | [] => rfl
  | a :: l => by
    rw [List.map_cons, List.mapM_cons, mapM_some l]
    rfl

theorem loudP_each (m : RdfNode → Py α) : ∀ l, LoudP (readEach m l)
  | [] => loudP_pure _
  | v :: l => by
    rw [readEach]
    exact loudP_bind (loudP_apply m v) fun _ => loudP_bind (loudP_each m l) fun _ => loudP_pure _

theorem loudP_licenses (env : RdfEnv) (g : RdfGraph) (ns : Str) : ∀ l, LoudP (readLicenses env g ns l)
  | [] => loudP_pure _
  | v :: l => by
    rw [readLicenses]
    exact loudP_bind (loudP_typed _ v) fun _ => loudP_bind (loudP_licenses env g ns l) fun _ => loudP_pure _

theorem loud_code (g : RdfGraph) (n : RdfNode) : Loud (readVerificationCode g n) := by
  unfold readVerificationCode
  exact loud_bind (loud_orRaiseIn (loudP_literal _ _ _ _)) fun _ => loud_construct _ _

theorem agree_code (g : RdfGraph) : Agree (readVerificationCode g) (parseRdfVerificationCode g) := by
  refine ⟨fun n => ?_, loud_code g⟩
  unfold readVerificationCode parseRdfVerificationCode rdfTexts
  values
  rw [clean_literal agree_strip]
  ext x
  steps
  constructor
  · rintro ⟨_, h1, _, rfl, _, h2, rfl⟩
    exact ⟨_, h1, _, h2, rfl⟩
  · rintro ⟨_, h1, _, h2, rfl⟩
    exact ⟨_, h1, _, rfl, _, h2, rfl⟩

/-- `parse_external_package_ref_type`: where the type check would refuse the value -/
theorem refType_val (ns : Str) (n : RdfNode) : (val (readRefType ns n)).join = parseRefType ns n := by
  unfold readRefType parseRefType
  by_cases h1 : startsWith n.text ns = true
  · rw [if_pos h1, if_pos h1]
    cases n <;> rfl
  rw [if_neg h1, if_neg h1]
  by_cases h2 : startsWith n.text referenceNamespace = true
  · rw [if_pos h2, if_pos h2]; rfl
  rw [if_neg h2, if_neg h2]
  rfl

theorem loud_refType (ns : Str) (n : RdfNode) : Loud (readRefType ns n) := by
  unfold readRefType
  split
  · split
    · exact loud_ok _
    · exact fun h => nomatch h
  split <;> exact loud_ok _

theorem agree_refType (ns : Str) : Agree (readRefType ns) (fun n => val (readRefType ns n)) := ⟨fun _ => rfl, loud_refType ns⟩

theorem refType_eq (g : RdfGraph) (ns : Str) (n : RdfNode) (t : Str) : needed (rdfLiteral g n .referenceType (parseRefType ns)) = some t ↔
    rdfLiteral g n .referenceType (fun n => val (readRefType ns n)) = some (some (some t)) := by
  unfold rdfLiteral
  match uniqueValue g n .referenceType with
  | none => exact ⟨fun h => (nomatch h), fun h => (nomatch h)⟩
  | some none => exact ⟨fun h => (nomatch h), fun h => (nomatch h)⟩
  | some (some v) =>
    dsimp only
    by_cases ht : v.truthy = true
    · rw [if_pos ht, if_pos ht]
      unfold applyMethod
      dsimp only
      rw [← refType_val]
      match val (readRefType ns v) with
      | none => exact ⟨fun h => (nomatch h), fun h => (nomatch h)⟩
      | some none => exact ⟨fun h => (nomatch h), fun h => (nomatch h)⟩
      | some (some x) => exact ⟨fun h => by cases h; rfl, fun h => by cases h; rfl⟩
    · rw [if_neg ht, if_neg ht]
      exact ⟨fun h => (nomatch h), fun h => (nomatch h)⟩

theorem join_eq {o : Option (Option α)} {a : α} : o.join = some a ↔ o = some (some a) := by
  match o with
  | none => exact ⟨fun h => (nomatch h), fun h => (nomatch h)⟩
  | some none => exact ⟨fun h => (nomatch h), fun h => (nomatch h)⟩
  | some (some b) => exact ⟨fun h => congrArg some h, fun h => Option.some.inj h⟩

theorem loud_packageRef (g : RdfGraph) (ns : Str) (n : RdfNode) : Loud (readPackageRef g ns n) := by
  unfold readPackageRef
  refine loud_bind (loud_orRaiseIn ?_) fun _ => loud_construct _ _
  exact loudP_bind (loudP_literal _ _ _ _) fun _ => loudP_bind (loudP_literal _ _ _ _) fun _ => loudP_bind (loudP_literal _ _ _ _) fun _ =>
    loudP_bind (loudP_literal _ _ _ _) fun _ => loudP_pure _

theorem agree_packageRef (g : RdfGraph) (ns : Str) : Agree (readPackageRef g ns) (parseRdfPackageRef g ns) := by
  refine ⟨fun n => ?_, loud_packageRef g ns⟩
  unfold readPackageRef parseRdfPackageRef
  values
  ext x
  simp only [clean_literal agree_strip, clean_literal (agree_enum _ _ _), clean_literal (agree_refType ns)]
  simp only [Option.bind_eq_some_iff, refType_eq]
  steps
  constructor
  · rintro ⟨_, h1, _, h2, _, h3, _, h4, _, ⟨_, rfl, _, e, _, rfl, rfl⟩, rfl⟩
    exact ⟨_, h1, _, h2, _, h3.trans (congrArg some (join_eq.1 e)), _, h4, rfl⟩
  · rintro ⟨_, h1, _, h2, _, h3, _, h4, rfl⟩
    exact ⟨_, h1, _, h2, _, h3, _, h4, _, ⟨_, rfl, _, rfl, _, rfl, rfl⟩, rfl⟩

theorem loud_package (env : RdfEnv) (b : Bindings) (g : RdfGraph) (ns : Str) (n : RdfNode) : Loud (readPackage env b g ns n) := by
  unfold readPackage
  refine loud_bind ((agree_id b ns).loud n) fun _ => loud_bind (loud_orRaiseIn ?_) fun _ => loud_construct _ _
  refine loudP_bind (loudP_literal _ _ _ _) fun _ => loudP_bind (loudP_special _ _ _ _) fun _ =>
    loudP_bind (loudP_lift (loud_mapM (loud_checksum g) _)) fun _ => loudP_bind (loudP_literal _ _ _ _) fun _ =>
    loudP_bind (loudP_literal _ _ _ _) fun _ => loudP_bind (loudP_special _ _ _ _) fun _ => loudP_bind (loudP_special _ _ _ _) fun _ =>
    loudP_bind (loudP_literal _ _ _ _) fun _ => loudP_bind (loudP_lift (loud_mapM (loud_packageRef g ns) _)) fun _ =>
    loudP_bind (loudP_special _ _ _ _) fun _ => loudP_bind (loudP_special _ _ _ _) fun _ => loudP_bind (loudP_licenses _ _ _ _) fun _ => ?_
  repeat first | exact loudP_pure _ | refine loudP_bind (loudP_literal _ _ _ _) fun _ => ?_ | refine loudP_bind (loudP_special _ _ _ _) fun _ => ?_

theorem agree_package (env : RdfEnv) (b : Bindings) (g : RdfGraph) (ns : Str) : Agree (readPackage env b g ns) (parseRdfPackage env b g ns) := by
  refine ⟨fun n => ?_, loud_package env b g ns⟩
  unfold readPackage parseRdfPackage rdfTexts
  values
  ext x
  simp only [(agree_id b ns).val, clean_literal agree_strip, clean_literal (agree_enum _ _ _), clean_literal agree_date, clean_literal (agree_code g),
    clean_special agree_stripS, clean_special agree_actorS, clean_special (agree_lic env g ns), val_licenses, val_mapM (agree_checksum g).val,
    val_mapM (agree_packageRef g ns).val]
  steps
  constructor
  · rintro ⟨_, h1, _, h2, _, h3, _, h4, _, h5, _, h6, _, h7, _, h8, _, h9, _, h10, _, h11, _, h12, _, h13, _, h14, _, h15, _, h16, _, h17, _, h18, _, h19, _, h20, _, h21, _, h22, _, h23, _, h24,
      _, ⟨_, ⟨_, ⟨_, ⟨_, rfl, _, rfl, _, rfl, rfl⟩, _, n1, _, n2, rfl⟩, _, n3, rfl⟩, _, n4, rfl⟩, rfl⟩
    exact ⟨_, h1, _, h2, _, h3, _, h4, _, h5, _, h6, _, noNone_eq.2 ⟨_, h7, n1⟩, _, noNone_eq.2 ⟨_, h8, n2⟩, _, h9, _, h10, _, h11, _, h12, _, (licenses_eq ..).2 ⟨_, h13, n3⟩,
      _, h14, _, h15, _, h16, _, h17, _, h18, _, h19, _, h20, _, h21, _, n4, _, h22, _, h23, _, h24, rfl⟩
  · rintro ⟨_, h1, _, h2, _, h3, _, h4, _, h5, _, h6, _, h7, _, h8, _, h9, _, h10, _, h11, _, h12, _, h13, _, h14, _, h15, _, h16, _, h17, _, h18, _, h19, _, h20, _, h21, _, n4,
      _, h22, _, h23, _, h24, rfl⟩
    obtain ⟨_, h7, n1⟩ := noNone_eq.1 h7
    obtain ⟨_, h8, n2⟩ := noNone_eq.1 h8
    obtain ⟨_, h13, n3⟩ := (licenses_eq ..).1 h13
    exact ⟨_, h1, _, h2, _, h3, _, h4, _, h5, _, h6, _, h7, _, h8, _, h9, _, h10, _, h11, _, h12, _, h13, _, h14, _, h15, _, h16, _, h17, _, h18, _, h19, _, h20, _, h21, _, h22, _, h23, _, h24,
      _, ⟨_, ⟨_, ⟨_, ⟨_, rfl, _, rfl, _, rfl, rfl⟩, _, n1, _, n2, rfl⟩, _, n3, rfl⟩, _, n4, rfl⟩, rfl⟩

theorem loud_file (env : RdfEnv) (b : Bindings) (g : RdfGraph) (ns : Str) (n : RdfNode) : Loud (readFile env b g ns n) := by
  unfold readFile
  refine loud_bind ((agree_id b ns).loud n) fun _ => loud_bind (loud_orRaiseIn ?_) fun _ => loud_construct _ _
  refine loudP_bind (loudP_literal _ _ _ _) fun _ => loudP_bind (loudP_lift (loud_mapM (loud_checksum g) _)) fun _ =>
    loudP_bind (loudP_each _ _) fun _ => loudP_bind (loudP_special _ _ _ _) fun _ => loudP_bind (loudP_licenses _ _ _ _) fun _ => ?_
  repeat first | exact loudP_pure _ | refine loudP_bind (loudP_literal _ _ _ _) fun _ => ?_ | refine loudP_bind (loudP_special _ _ _ _) fun _ => ?_

theorem agree_file (env : RdfEnv) (b : Bindings) (g : RdfGraph) (ns : Str) : Agree (readFile env b g ns) (parseRdfFile env b g ns) := by
  refine ⟨fun n => ?_, loud_file env b g ns⟩
  unfold readFile parseRdfFile rdfTexts
  values
  ext x
  simp only [(agree_id b ns).val, clean_literal agree_strip, clean_each (agree_enum _ _ _),
    clean_special agree_stripS, clean_special (agree_lic env g ns), val_licenses, val_mapM (agree_checksum g).val]
  steps
  constructor
  · rintro ⟨_, h1, _, h2, _, h3, _, h4, _, h5, _, h6, _, h7, _, h8, _, h9, _, h10, _, ⟨_, ⟨_, ⟨_, rfl, _, rfl, rfl⟩, _, n1, rfl⟩, _, n2, rfl⟩, _, n3, _, n4, rfl⟩
    rw [mapM_some] at n1
    cases n1
    exact ⟨_, h1, _, h2, _, h3, _, h4, _, h5, _, (licenses_eq ..).2 ⟨_, h6, n2⟩, _, h7, _, h8, _, n3, _, h9, _, h10, _, n4, rfl⟩
  · rintro ⟨_, h1, _, h2, _, h3, _, h4, _, h5, _, h6, _, h7, _, h8, _, n3, _, h9, _, h10, _, n4, rfl⟩
    obtain ⟨_, h6, n2⟩ := (licenses_eq ..).1 h6
    exact ⟨_, h1, _, h2, _, h3, _, h4, _, h5, _, h6, _, h7, _, h8, _, h9, _, h10, _, ⟨_, ⟨_, ⟨_, rfl, _, rfl, rfl⟩, _, mapM_some _, rfl⟩, _, n2, rfl⟩, _, n3, _, n4, rfl⟩

theorem loud_annotation (b : Bindings) (g : RdfGraph) (ns : Str) (e : RdfNode × RdfNode) : Loud (readAnnotation b g ns e) := by
  unfold readAnnotation
  refine loud_bind ((agree_id b ns).loud _) fun _ => loud_bind (loud_orRaiseIn ?_) fun _ => loud_construct _ _
  repeat first | exact loudP_pure _ | refine loudP_bind (loudP_literal _ _ _ _) fun _ => ?_

theorem agree_annotation (b : Bindings) (g : RdfGraph) (ns : Str) : Agree (readAnnotation b g ns) (parseRdfAnnotation b g ns) := by
  refine ⟨fun n => ?_, loud_annotation b g ns⟩
  unfold readAnnotation parseRdfAnnotation
  values
  ext x
  simp only [(agree_id b ns).val, clean_literal agree_strip, clean_literal (agree_enum _ _ _), clean_literal agree_date, clean_literal agree_actor]
  steps
  constructor
  · rintro ⟨_, h1, _, h2, _, h3, _, h4, _, h5, _, rfl, _, rfl, _, rfl, _, rfl, _, rfl, rfl⟩
    exact ⟨_, h1, _, h2, _, h3, _, h4, _, h5, rfl⟩
  · rintro ⟨_, h1, _, h2, _, h3, _, h4, _, h5, rfl⟩
    exact ⟨_, h1, _, h2, _, h3, _, h4, _, h5, _, rfl, _, rfl, _, rfl, _, rfl, _, rfl, rfl⟩

theorem loud_relationship (b : Bindings) (g : RdfGraph) (ns : Str) (e : RdfNode × RdfNode) : Loud (readRelationship b g ns e) := by
  unfold readRelationship
  refine loud_bind ((agree_id b ns).loud _) fun _ => loud_bind (loud_orRaiseIn ?_) fun _ => loud_construct _ _
  repeat first | exact loudP_pure _ | refine loudP_bind (loudP_literal _ _ _ _) fun _ => ?_ | refine loudP_bind (loudP_special _ _ _ _) fun _ => ?_

theorem agree_relationship (b : Bindings) (g : RdfGraph) (ns : Str) : Agree (readRelationship b g ns) (parseRdfRelationship b g ns) := by
  refine ⟨fun n => ?_, loud_relationship b g ns⟩
  unfold readRelationship parseRdfRelationship
  values
  ext x
  simp only [(agree_id b ns).val, clean_literal agree_strip, clean_literal (agree_enum _ _ _), clean_special (agree_id b ns)]
  steps
  constructor
  · rintro ⟨_, h1, _, h2, _, h3, _, h4, _, ⟨_, rfl, _, rfl, _, rfl, rfl⟩, rfl⟩
    exact ⟨_, h1, _, h2, _, h3, _, h4, rfl⟩
  · rintro ⟨_, h1, _, h2, _, h3, _, h4, rfl⟩
    exact ⟨_, h1, _, h2, _, h3, _, h4, _, ⟨_, rfl, _, rfl, _, rfl, rfl⟩, rfl⟩

theorem loud_implicit (b : Bindings) (ns : Str) (t : RelationshipType) (e : RdfNode × RdfNode) : Loud (readImplicit b ns t e) := by
  unfold readImplicit
  exact loud_bind ((agree_id b ns).loud _) fun _ => loud_bind ((agree_id b ns).loud _) fun _ => loud_construct _ _

theorem agree_implicit (b : Bindings) (ns : Str) (t : RelationshipType) : Agree (readImplicit b ns t) (parseImplicit b ns t) := by
  refine ⟨fun n => ?_, loud_implicit b ns t⟩
  unfold readImplicit parseImplicit
  values
  ext x
  simp only [(agree_id b ns).val]
  steps
  constructor
  · rintro ⟨_, h1, _, h2, _, ⟨_, ⟨_, rfl, rfl⟩, _, ⟨_, rfl, rfl⟩, rfl⟩, rfl⟩
    exact ⟨_, h1, _, h2, rfl⟩
  · rintro ⟨_, h1, _, h2, rfl⟩
    exact ⟨_, h1, _, h2, _, ⟨_, rfl, _, rfl, rfl⟩, rfl⟩

/-! ### Snippets -/

/-- the numbers of a range, if both are numbers -/
def ints : Option Int × Option Int → Option (Int × Int)
  | (some a, some z) => some (a, z)
  | _ => none

theorem loud_pointer (g : RdfGraph) (n : RdfNode) (p : Pred) : Loud (readPointer g n p) := by
  unfold readPointer
  split
  · exact fun h => nomatch h
  · split
    · exact loud_ok _
    · exact fun h => nomatch h
  · exact fun h => nomatch h

theorem loud_rangeValue (g : RdfGraph) (n : RdfNode) (p : Pred) : Loud (readRangeValue g n p) := by
  unfold readRangeValue
  split
  · exact loud_ok _
  · split
    · split
      · exact loud_ok _
      · exact fun h => nomatch h
    · exact loud_ok _
  · exact fun h => nomatch h

theorem loud_range (g : RdfGraph) (n : RdfNode) : Loud (readRange g n) := by
  unfold readRange
  refine loud_bind (loud_pointer _ _ _) fun p => loud_bind (loud_pointer _ _ _) fun q => ?_
  dsimp only
  split
  · exact fun h => nomatch h
  split
  · exact fun h => nomatch h
  · exact loud_bind (loud_rangeValue _ _ _) fun _ => loud_bind (loud_rangeValue _ _ _) fun _ => loud_ok _

theorem rangeValue_eq (g : RdfGraph) (n : RdfNode) (k : RangeKind) : parseRangeValue g n k = (val (readRangeValue g n k.number)).join := by
  cases k <;>
  · unfold parseRangeValue readRangeValue RangeKind.number
    dsimp only
    split
    · next v h =>
      rw [h]
      dsimp only
      split
      · cases v.toInt <;> rfl
      · rfl
    · next h =>
      split
      · rfl
      · next e => exact absurd e (h _)
      · rfl

theorem pointer_eq (g : RdfGraph) (n : RdfNode) (p : Pred) : pointerOf g n p = (val (readPointer g n p)).bind fun r => r.1.map fun t => (t, r.2) := by
  unfold pointerOf uniqueValue readPointer
  match g.objects n p with
  | [] => rfl
  | [v] =>
    change ((some v).filter RdfNode.truthy).bind _ = _
    by_cases h : v.truthy = true
    · rw [Option.filter_some_pos h]
      dsimp only
      rw [if_pos h]
      change (someValue g v .type).bind _ = (someValue g v .type).map _
      cases someValue g v .type <;> rfl
    · rw [Option.filter_some_neg (by simpa using h)]
      dsimp only
      rw [if_neg h]; rfl
  | _ :: _ :: _ => rfl

theorem range_eq (g : RdfGraph) (n : RdfNode) : parseRdfRange g n = (val (readRange g n)).bind fun r => (ints r.2).map fun i => (r.1, i) := by
  unfold parseRdfRange readRange
  rw [pointer_eq, pointer_eq, val_bind]
  cases val (readPointer g n .startPointer) with
  | none => rfl
  | some r =>
    obtain ⟨t, v⟩ := r
    dsimp only [Option.bind_some]
    rw [val_bind]
    cases val (readPointer g n .endPointer) with
    | none => cases t <;> rfl
    | some r' =>
      obtain ⟨t', v'⟩ := r'
      dsimp only [Option.bind_some]
      cases t with
      | none =>
        by_cases h : none ≠ t'
        · rw [if_pos h]; rfl
        · rw [if_neg h]; rfl
      | some t =>
        cases t' with
        | none => rfl
        | some t' =>
          change (if t ≠ t' then none else _) = _
          by_cases h : t = t'
          · cases h
            rw [if_neg (fun h => h rfl), if_neg (fun h => h rfl)]
            dsimp only [Option.bind_some]
            cases rangeKind t with
            | none => rfl
            | some k =>
              change (parseRangeValue g v k).bind _ = _
              dsimp only
              rw [val_bind, rangeValue_eq]
              match val (readRangeValue g v k.number) with
              | none => rfl
              | some none =>
                dsimp only [Option.bind_some]
                rw [val_bind]
                cases val (readRangeValue g v' k.number) <;> rfl
              | some (some a) =>
                change (parseRangeValue g v' k).bind _ = _
                dsimp only [Option.bind_some]
                rw [val_bind, rangeValue_eq]
                match val (readRangeValue g v' k.number) with
                | none => rfl
                | some none => rfl
                | some (some a) => rfl
          · rw [if_pos h, if_pos (fun e => h (Option.some.inj e))]; rfl

/-- a range as the type check of a snippet takes it -/
def lower : Option (Option Int × Option Int) → Option (Option (Int × Int))
  | none => some none
  | some r => (ints r).map some

/-- both ranges -/
def lowerBoth (rs : Ranges) : Option (Option (Int × Int) × Option (Int × Int)) := (lower rs.1).bind fun a => (lower rs.2).map fun z => (a, z)

theorem built_optInts (fld : Str) (o : Option (Option Int × Option Int)) : built (chkOptInts fld o) = lower o := by
  match o with
  | none => rfl
  | some (some _, some _) => rfl
  | some (none, _) => rfl
  | some (some _, none) => rfl

theorem built_ints (fld : Str) (o : Option (Option Int × Option Int)) : built (chkInts fld o) = needed (lower o) := by
  match o with
  | none => rfl
  | some (some _, some _) => rfl
  | some (none, _) => rfl
  | some (some _, none) => rfl

theorem set_eq (rs : Ranges) (k : RangeKind) (r : Option Int × Option Int) : (clean (setReadRange rs (some (k, r)))).bind lowerBoth =
    (lowerBoth rs).bind fun l => (ints r).bind fun i => setRdfRange l (k, i) := by
  obtain ⟨x, y⟩ := rs
  cases k with
  | byte =>
    cases x with
    | none =>
      change (lower (some r)).bind _ = ((lower y).map _).bind _
      change ((ints r).map some).bind _ = _
      cases ints r <;> cases lower y <;> rfl
    | some x =>
      change none = (((ints x).map some).bind _).bind _
      cases ints x <;> cases lower y <;> cases ints r <;> rfl
  | line =>
    cases y with
    | none =>
      change (lower x).bind _ = ((lower x).bind _).bind _
      change (lower x).bind (fun a => ((ints r).map some).map _) = _
      cases ints r <;> cases lower x <;> rfl
    | some y =>
      change none = ((lower x).bind fun a => ((ints y).map some).map _).bind _
      cases ints y <;> cases lower x <;> cases ints r <;> rfl

theorem ranges_eq (g : RdfGraph) : ∀ l rs, (clean (readRanges g rs l)).bind lowerBoth = (lowerBoth rs).bind fun r => parseRdfRanges g r l
  | [], rs => by
    cases h : lowerBoth rs with
    | none => exact h
    | some r => exact h
  | n :: l, rs => by
    rw [readRanges, clean_bind, clean_apply ⟨fun _ => rfl, loud_range g⟩]
    have e : ∀ r, parseRdfRanges g r (n :: l) = (parseRdfRange g n).bind fun i => (setRdfRange r i).bind fun r => parseRdfRanges g r l := fun _ => rfl
    simp only [e, range_eq]
    unfold applyMethod
    dsimp only
    cases val (readRange g n) with
    | none => cases lowerBoth rs <;> rfl
    | some kr =>
      obtain ⟨k, r⟩ := kr
      dsimp only [Option.bind_some]
      rw [clean_bind]
      have hs := set_eq rs k r
      cases hc : clean (setReadRange rs (some (k, r))) with
      | none =>
        rw [hc] at hs
        cases hl : lowerBoth rs with
        | none => rfl
        | some b =>
          rw [hl] at hs
          dsimp only [Option.bind_some, Option.bind_none] at hs ⊢
          cases hi : ints r with
          | none => rfl
          | some i =>
            rw [hi] at hs
            dsimp only [Option.bind_some, Option.map_some] at hs ⊢
            rw [← hs]; rfl
      | some rs' =>
        rw [hc] at hs
        dsimp only [Option.bind_some] at hs ⊢
        rw [ranges_eq g l rs', hs]
        cases lowerBoth rs with
        | none => rfl
        | some b => cases ints r <;> rfl

theorem loudP_ranges (g : RdfGraph) : ∀ l rs, LoudP (readRanges g rs l)
  | [], _ => loudP_pure _
  | n :: l, rs => by
    rw [readRanges]
    refine loudP_bind (loudP_apply _ _) fun r => loudP_bind ?_ fun _ => loudP_ranges g l _
    unfold setReadRange
    split
    · exact fun h => nomatch h
    · split <;> exact fun h => nomatch h
    · split <;> exact fun h => nomatch h

theorem agree_idOf (b : Bindings) (ns : Str) : Agree (readIdOf b ns) (fun o => o.elim (some none) (parseRdfId b ns)) := by
  constructor <;> intro o <;> cases o with
  | none => first | rfl | exact loud_ok _
  | some n => first | exact (agree_id b ns).val n | exact (agree_id b ns).loud n

theorem loud_snippet (env : RdfEnv) (b : Bindings) (g : RdfGraph) (ns : Str) (n : RdfNode) : Loud (readSnippet env b g ns n) := by
  unfold readSnippet
  refine loud_bind ((agree_id b ns).loud n) fun _ => loud_bind ((agree_idOf b ns).loud _) fun _ => loud_bind (loud_orRaiseIn ?_) fun _ => loud_construct _ _
  refine loudP_bind (loudP_ranges _ _ _) fun _ => loudP_bind (loudP_special _ _ _ _) fun _ => loudP_bind (loudP_licenses _ _ _ _) fun _ => ?_
  repeat first | exact loudP_pure _ | refine loudP_bind (loudP_literal _ _ _ _) fun _ => ?_ | refine loudP_bind (loudP_special _ _ _ _) fun _ => ?_

theorem agree_snippet (env : RdfEnv) (b : Bindings) (g : RdfGraph) (ns : Str) : Agree (readSnippet env b g ns) (parseRdfSnippet env b g ns) := by
  refine ⟨fun n => ?_, loud_snippet env b g ns⟩
  unfold readSnippet parseRdfSnippet rdfTexts
  values
  ext x
  simp only [(agree_id b ns).val, (agree_idOf b ns).val, clean_literal agree_strip, clean_special agree_stripS, clean_special (agree_lic env g ns), val_licenses, built_ints, built_optInts]
  have hr := ranges_eq g (g.objects n .range) (none, none)
  change _ = parseRdfRanges g (none, none) _ at hr
  rw [← hr]
  unfold lowerBoth
  steps
  constructor
  · rintro ⟨_, h1, _, h2, _, h3, _, h4, _, h5, _, h6, _, h7, _, h8, _, h9, _, ⟨_, ⟨_, rfl, _, rfl, _, n1, _, n2, rfl⟩, _, n3, rfl⟩, _, n4, rfl⟩
    cases hf : someValue g n .snippetFromFile with
    | none => rw [hf] at h2; cases h2
    | some f =>
      rw [hf] at h2
      exact ⟨_, h1, _, rfl, _, h2, _, ⟨_, h3, _, n1, _, n2, rfl⟩, _, rfl, _, h4, _, (licenses_eq ..).2 ⟨_, h5, n3⟩, _, h6, _, h7, _, h8, _, h9, _, n4, rfl⟩
  · rintro ⟨_, h1, _, hf, _, h2, _, ⟨_, h3, _, n1, _, n2, rfl⟩, _, e, _, h4, _, h5, _, h6, _, h7, _, h8, _, h9, _, n4, rfl⟩
    obtain ⟨_, h5, n3⟩ := (licenses_eq ..).1 h5
    dsimp only at e
    rw [e] at n1
    rw [hf]
    exact ⟨_, h1, _, h2, _, h3, _, h4, _, h5, _, h6, _, h7, _, h8, _, h9, _, ⟨_, ⟨_, rfl, _, rfl, _, n1, _, n2, rfl⟩, _, n3, rfl⟩, _, n4, rfl⟩

/-! ### Extracted licensing information -/

theorem loud_licenseId (ns : Str) (n : RdfNode) (o : Option Str) : Loud (readLicenseId ns n o) := by
  unfold readLicenseId
  split
  · exact loud_ok _
  · split
    · split
      · exact loud_ok _
      · exact fun h => nomatch h
    · exact loud_ok _

theorem licenseId_eq (ns : Str) (n : RdfNode) (o : Option Str) : extractedId ns n o = (val (readLicenseId ns n o)).join := by
  have hn : extractedId.nodeName ns n = (val (readLicenseId ns n none)).join := by
    unfold extractedId.nodeName readLicenseId
    dsimp only
    by_cases h : startsWith n.text (ns ++ s%"#") = true
    · rw [if_pos h, if_pos h]; cases n <;> rfl
    · rw [if_neg h, if_neg h]; rfl
  match o with
  | none => exact hn
  | some [] => exact hn
  | some (_ :: _) => rfl

theorem loud_extracted (g : RdfGraph) (ns : Str) (n : RdfNode) : Loud (readExtracted g ns n) := by
  unfold readExtracted
  refine loud_bind (loud_orRaiseIn ?_) fun _ => loud_construct _ _
  refine loudP_bind (loudP_literal _ _ _ _) fun _ => loudP_bind (loudP_lift (loud_licenseId _ _ _)) fun _ => ?_
  repeat first | exact loudP_pure _ | refine loudP_bind (loudP_literal _ _ _ _) fun _ => ?_ | refine loudP_bind (loudP_special _ _ _ _) fun _ => ?_

theorem built_text (fld : Str) (o : Option Str) : built (chkText fld o) = o.map some := by
  cases o <;> rfl

theorem agree_extracted (g : RdfGraph) (ns : Str) : Agree (readExtracted g ns) (parseRdfExtracted g ns) := by
  refine ⟨fun n => ?_, loud_extracted g ns⟩
  unfold readExtracted parseRdfExtracted rdfTexts
  values
  ext x
  simp only [clean_literal agree_strip, clean_special agree_stripS, built_text, licenseId_eq]
  steps
  constructor
  · rintro ⟨_, h1, _, h2, _, h3, _, h4, _, h5, _, ⟨_, rfl, _, n1, _, n2, rfl⟩, rfl⟩
    exact ⟨_, h1, _, join_eq.2 h2, _, h3, _, h4, _, noNone_eq.2 ⟨_, h5, n1⟩, _, n2, rfl⟩
  · rintro ⟨_, h1, _, h2, _, h3, _, h4, _, h5, _, n2, rfl⟩
    obtain ⟨_, h5, n1⟩ := noNone_eq.1 h5
    exact ⟨_, h1, _, join_eq.1 h2, _, h3, _, h4, _, h5, _, ⟨_, rfl, _, n1, _, n2, rfl⟩, rfl⟩

/-! ### The creation information -/

/-- the value, whatever was logged -/
def out (p : P α) : Option α := val p.unheard

theorem out_bind (x : P α) (f : α → P β) : out (x >>= f) = (out x).bind fun a => out (f a) := by
  change out (P.bind x f) = _
  unfold P.bind
  match x with
  | .error e => rfl
  | .ok (ms, a) =>
    change out (match f a with | .error e => .error e | .ok (ms', b) => .ok (ms ++ ms', b)) = out (f a)
    match f a with
    | .error e => rfl
    | .ok (_, b) => rfl

theorem out_pure (a : α) : out (pure a : P α) = some a := rfl

theorem out_literal (g : RdfGraph) (s : RdfNode) (p : Pred) (m : RdfNode → Py α) (a : α) :
    out (readLiteral g s p m) = some (some a) ↔ clean (readLiteral g s p m) = some (some a) := by
  unfold readLiteral
  rw [out_bind, clean_bind]
  unfold readUnique
  match g.objects s p with
  | [] => exact Iff.rfl
  | [v] =>
    change out (if v.truthy = true then applyOrLog m v else pure none) = _ ↔ clean (if v.truthy = true then applyOrLog m v else pure none) = _
    by_cases h : v.truthy = true
    · rw [if_pos h]
      unfold applyOrLog
      match m v with
      | .ok a => exact Iff.rfl
      | .error (.parsing []) => exact Iff.rfl
      | .error (.parsing (_ :: _)) => exact ⟨fun h => (nomatch h), fun h => (nomatch h)⟩
      | .error (.type _) => exact ⟨fun h => (nomatch h), fun h => (nomatch h)⟩
      | .error (.value _) => exact ⟨fun h => (nomatch h), fun h => (nomatch h)⟩
      | .error (.other _) => exact ⟨fun h => (nomatch h), fun h => (nomatch h)⟩
    · rw [if_neg h]
      exact Iff.rfl
  | _ :: _ :: _ => exact ⟨fun h => (nomatch h), fun h => (nomatch h)⟩

theorem val_unheard (p : P α) : val p.unheard = out p := rfl

theorem val_ite {c : Prop} [Decidable c] (x y : Py α) : val (if c then x else y) = if c then val x else val y := by
  by_cases h : c
  · rw [if_pos h, if_pos h]
  · rw [if_neg h, if_neg h]

theorem extRef_val (g : RdfGraph) (ns : Str) (b : Bindings) (n : RdfNode) : val (readExtRef g ns b n) = parseExtRef g ns b n := by
  unfold readExtRef parseExtRef
  values
  ext x
  simp only [(agree_id b ns).val, val_unheard, out_bind, out_pure, val_ite]
  steps
  simp only [← clean_literal agree_strip, ← clean_literal (agree_checksum g), ← out_literal]
  constructor
  · rintro ⟨_, h1, _, ⟨_, h2, _, h3, rfl⟩, _, rfl, _, rfl, _, rfl, e⟩
    exact ⟨_, h1, _, h2, _, h3, e⟩
  · rintro ⟨_, h1, _, h2, _, h3, e⟩
    exact ⟨_, h1, _, ⟨_, h2, _, h3, rfl⟩, _, rfl, _, rfl, _, rfl, e⟩

theorem extRefs_val (g : RdfGraph) (ns : Str) : ∀ l b, val (readExtRefs g ns b l) = parseExtRefs g ns b l
  | [], _ => rfl
  | n :: l, b => by
    rw [readExtRefs, parseExtRefs, val_bind, extRef_val]
    refine congrArg _ (funext fun r => ?_)
    dsimp only
    rw [val_bind, extRefs_val g ns l]
    rfl

theorem namespace_eq (env : RdfEnv) (g : RdfGraph) (ns id : Str) (doc : RdfNode) :
    parseNamespace env g = some (ns, id, doc) ↔ val (readNamespace env g) = some (ns, some id, doc) := by
  unfold parseNamespace readNamespace
  match g.subjects .type (spdxTerm s%"SpdxDocument") with
  | [] => exact ⟨fun h => (nomatch h), fun h => (nomatch h)⟩
  | [n] =>
    dsimp only
    split
    · split
      · exact ⟨fun h => (nomatch h), fun h => (nomatch h)⟩
      · split
        · exact ⟨fun h => (nomatch h), fun h => (nomatch h)⟩
        · exact ⟨fun h => by cases h; rfl, fun h => by cases h; rfl⟩
    · exact ⟨fun h => (nomatch h), fun h => (nomatch h)⟩
  | _ :: _ :: _ => exact ⟨fun h => (nomatch h), fun h => (nomatch h)⟩

theorem clean_noCreators (cs : List Actor) : clean (logNoCreators cs) = some () ↔ cs ≠ [] := by
  cases cs with
  | nil => exact ⟨fun h => (nomatch h), fun h => absurd rfl h⟩
  | cons c cs => exact ⟨fun _ h => (nomatch h), fun _ => rfl⟩

theorem infoNode_logged (b : Bindings) (g : RdfGraph) (ns : Str) (doc info : RdfNode) (m : PMsg) (ms : List PMsg) :
    val (readInfoNode b g ns doc info (m :: ms)) = none := by
  unfold readInfoNode
  rw [val_orRaiseIn, clean_bind]
  rfl

/-- after the fields of the document -/
theorem docFields_val {β : Type} (d : P (Option Str × Option Str × Option Str × Option Str)) (o : Option RdfNode) (e : List PMsg → Option Str → PyErr)
    (k : List PMsg → RdfNode → Option Str → Option Str → Option Str → Option Str → Py β) (hk : ∀ m ms i v l c n, val (k (m :: ms) i v l c n) = none) :
    val (match d with
      | .error e => .error e
      | .ok (logged, version, license, comment, name) => match o with
        | none => .error (e logged name)
        | some info => k logged info version license comment name) =
      (clean d).bind fun f => o.bind fun i => val (k [] i f.1 f.2.1 f.2.2.1 f.2.2.2) := by
  match d, o with
  | .error e, _ => rfl
  | .ok ([], _), none => rfl
  | .ok ([], _), some _ => rfl
  | .ok (m :: ms, a), none => rfl
  | .ok (m :: ms, a), some _ => exact hk ..

/-- creation_info_parser.py L33-89 after the document's node was found -/
theorem creationInfo_step (env : RdfEnv) (b : Bindings) (g : RdfGraph) : val (readCreationInfo env b g) = (val (readNamespace env g)).bind fun r =>
    (clean (readDocFields g r.2.2)).bind fun f => (((g.subjects .type (spdxTerm s%"CreationInfo")).head?).filter RdfNode.truthy).bind fun i =>
      (val (readInfoNode b g r.1 r.2.2 i [])).bind fun x => (built
        (.ok CreationInfo.mk ⊛ chkSome s%"spdx_version" f.1 ⊛ chkSome s%"spdx_id" r.2.1 ⊛ chkSome s%"name" f.2.2.2 ⊛ .ok r.1 ⊛ .ok x.2.2.2.1
          ⊛ chkSome s%"created" x.1 ⊛ .ok x.2.2.1 ⊛ chkSome s%"data_license" f.2.1 ⊛ .ok x.2.2.2.2.1 ⊛ .ok x.2.1 ⊛ .ok f.2.2.1)).bind fun c =>
        some (c, x.2.2.2.2.2) := by
  unfold readCreationInfo
  rw [val_bind]
  refine congrArg _ (funext fun ⟨ns, id, doc⟩ => ?_)
  refine (docFields_val (readDocFields g doc) _ _ (fun logged info version license comment name => (do
      let (created, listVersion, creatorComment, creators, refs, b) ← readInfoNode b g ns doc info logged
      let c ← construct s%"CreationInfo"
        (.ok CreationInfo.mk ⊛ chkSome s%"spdx_version" version ⊛ chkSome s%"spdx_id" id ⊛ chkSome s%"name" name ⊛ .ok ns ⊛ .ok creators
          ⊛ chkSome s%"created" created ⊛ .ok creatorComment ⊛ chkSome s%"data_license" license ⊛ .ok refs ⊛ .ok listVersion ⊛ .ok comment)
      return (c, b) : Py (CreationInfo × Bindings))) (fun m ms i v l c n => by rw [val_bind, infoNode_logged]; rfl)).trans ?_
  refine congrArg _ (funext fun f => congrArg _ (funext fun i => ?_))
  dsimp only
  rw [val_bind]
  refine congrArg _ (funext fun ⟨created, listVersion, creatorComment, creators, refs, b⟩ => ?_)
  dsimp only
  rw [val_bind, val_construct]
  rfl

theorem creationInfo_val (env : RdfEnv) (b : Bindings) (g : RdfGraph) : val (readCreationInfo env b g) = parseRdfCreationInfo env b g := by
  rw [creationInfo_step]
  unfold parseRdfCreationInfo readDocFields readInfoNode readInfoFields
  values
  ext x
  simp only [clean_literal agree_strip, clean_literal agree_date, clean_literal agree_version, clean_literal agree_dataLicense, val_mapM agree_creator.val, extRefs_val]
  steps
  constructor
  · rintro ⟨⟨ns, id, doc⟩, h0, _, h1, _, h2, _, h3, _, h4, i, h5, _, _, _, h7, _, h8, _, h9, cs, h10, _, h11, _, h12, _, ⟨_, ⟨_, ⟨_, rfl, _, e, _, rfl, rfl⟩, _, rfl, rfl⟩, _, rfl, rfl⟩, rfl⟩
    dsimp only at e
    cases e
    refine ⟨(ns, _, doc), (namespace_eq ..).2 h0, _, h1, _, h2, _, h3, _, h4, i, h5, _, h7, _, h8, _, h9, cs, h10, ?_⟩
    rw [if_neg ((clean_noCreators cs).1 h11)]
    exact Option.bind_eq_some_iff.2 ⟨_, h12, rfl⟩
  · rintro ⟨⟨ns, id, doc⟩, h0, _, h1, _, h2, _, h3, _, h4, i, h5, _, h7, _, h8, _, h9, cs, h10, h⟩
    by_cases hc : cs = []
    · rw [if_pos hc] at h; cases h
    rw [if_neg hc] at h
    obtain ⟨_, h12, h⟩ := Option.bind_eq_some_iff.1 h
    cases h
    exact ⟨(ns, some id, doc), (namespace_eq ..).1 h0, _, h1, _, h2, _, h3, _, h4, i, h5, (), rfl, _, h7, _, h8, _, h9, cs, h10, (), (clean_noCreators cs).2 hc, _, h12, _,
      ⟨_, ⟨_, ⟨_, rfl, _, rfl, _, rfl, rfl⟩, _, rfl, rfl⟩, _, rfl, rfl⟩, rfl⟩

/-! ### The document -/

theorem clean_part {x : Py α} (h : Loud x) : clean (part x) = (val x).map some := by
  unfold part
  match x, h with
  | .ok a, _ => rfl
  | .error (.parsing []), h => exact absurd rfl h
  | .error (.parsing (_ :: _)), _ => rfl
  | .error (.type _), _ => rfl
  | .error (.value _), _ => rfl
  | .error (.other _), _ => rfl

theorem clean_all {ν α : Type} {m : ν → Py α} {m' : ν → Option α} (h : Agree m m') : ∀ l, clean (readAll m l) = l.mapM m'
  | [] => rfl
  | v :: l => by
    rw [readAll, List.mapM_cons, clean_bind, clean_part (h.loud v), h.val]
    cases m' v with
    | none => rfl
    | some a =>
      dsimp only [Option.bind_some, Option.map_some]
      rw [clean_bind, clean_all h l]
      rfl

theorem clean_implicits (b : Bindings) (ns : Str) (t : RelationshipType) : ∀ l rels, clean (readImplicits b ns t rels l) = l.foldlM (addImplicit b ns t) rels
  | [], _ => rfl
  | e :: l, rels => by
    rw [readImplicits, List.foldlM_cons, clean_bind, clean_part (loud_implicit b ns t e), (agree_implicit b ns t).val]
    unfold addImplicit
    cases parseImplicit b ns t e with
    | none => rfl
    | some r => exact clean_implicits b ns t l _

/-- The reader returns a document exactly when `Model/RdfParser` gives one, and the same. -/
theorem readRdf_val (env : RdfEnv) (b : Bindings) (g : RdfGraph) : val (readRdf env b g) = parseRdf env b g := by
  unfold readRdf parseRdf
  rw [val_bind, creationInfo_val]
  refine congrArg _ (funext fun ⟨info, b⟩ => ?_)
  dsimp only
  rw [val_bind, val_orRaise]
  simp only [clean_bind, clean_pure, clean_all (agree_package _ _ _ _), clean_all (agree_file _ _ _ _), clean_all (agree_snippet _ _ _ _), clean_all (agree_annotation _ _ _),
    clean_all (agree_relationship _ _ _), clean_implicits, Option.bind_assoc, Option.bind_some, val_pure, Option.bind_eq_bind, Option.pure_def]
  have he : Agree (fun e : RdfNode × RdfNode => readExtracted g info.documentNamespace e.2) (fun e => parseRdfExtracted g info.documentNamespace e.2) :=
    ⟨fun e => (agree_extracted g _).val e.2, fun e => (agree_extracted g _).loud e.2⟩
  simp only [clean_all he]

end Spdx.RdfReport
