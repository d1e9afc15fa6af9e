import Verif.Lemmas.ParserObjects
import Verif.Lemmas.ParseInv
/-
C66: using a parser object again.

`parse_file` makes a new parser for every file.  Whoever makes a parser and calls its `parse` several times gets something else: the theorems
say exactly when a later call still reads what a new parser would read.
-/
namespace Spdx.C66
open Spdx

/-! ### Specification -/

/-- A call that ended neither with a document nor with an `SPDXParsingError`. -/
def Uncaught (r : Py Document) : Prop := ∃ e, r = .error e ∧ ∀ ms, e ≠ .parsing ms

/-! ### A parser of JSON, YAML and XML trees -/

/-- On an object whose loggers in `used` are empty, the computation does what the model without state does. -/
private def Sim {α : Type} (used : LoggerOf → Prop) (x : OnObject α) (p : P α) : Prop := ∀ o : JsonObject, (∀ l, used l → o l = []) →
  (∀ e, p = .error e → (x o).2 = .error e) ∧
  ∀ ms a, p = .ok (ms, a) → (x o).2 = .ok a ∧ (x o).1 .document = o .document ++ ms ∧
    (∀ l, ¬ used l → l ≠ .document → (x o).1 l = o l) ∧ (ms = [] → ∀ l, used l → (x o).1 l = [])

private theorem sim_bind {α β : Type} {u v : LoggerOf → Prop} {x : OnObject α} {p : P α} {f : α → OnObject β} {g : α → P β}
    (h : Sim u x p) (hf : ∀ a, Sim v (f a) (g a)) (hv : ∀ l, v l → ¬ u l ∧ l ≠ .document) (hu : ∀ l, u l → l ≠ .document) :
    Sim (fun l => u l ∨ v l) (x >>= f) (p >>= g) := by
  intro o ho
  have h := h o (fun l hl => ho l (.inl hl))
  have hb : (x >>= f) o = match x o with
    | (o, .error e) => (o, .error e)
    | (o, .ok a) => f a o := rfl
  rw [hb]
  cases p with
  | error e =>
    have := h.1 e rfl
    generalize x o = r at this
    obtain ⟨o', r⟩ := r
    cases this
    exact ⟨fun e' he => by cases he; rfl, fun ms a he => by cases he⟩
  | ok q =>
    obtain ⟨ms, a⟩ := q
    obtain ⟨h1, h2, h3, h4⟩ := h.2 ms a rfl
    generalize x o = r at h1 h2 h3 h4
    obtain ⟨o', r⟩ := r
    cases h1
    dsimp only at h2 h3 h4
    have hf := hf a o' (fun l hl => by
      rw [h3 l (hv l hl).1 (hv l hl).2]; exact ho l (.inr hl))
    have hp : ∀ y, (@Bind.bind P _ α β (Except.ok (ms, a)) g = y) → y = match g a with
      | .error e => .error e
      | .ok (ms', b) => .ok (ms ++ ms', b) := fun y h => h.symm
    constructor
    · intro e he
      have he := hp _ he
      cases hg : g a with
      | error e' => rw [hg] at he; cases he; exact hf.1 _ hg
      | ok q => rw [hg] at he; cases he
    · intro ms' b he
      have he := hp _ he
      cases hg : g a with
      | error e' => rw [hg] at he; cases he
      | ok q =>
        obtain ⟨ms2, b2⟩ := q
        rw [hg] at he; cases he
        obtain ⟨k1, k2, k3, k4⟩ := hf.2 ms2 b hg
        refine ⟨k1, by rw [k2, h2, List.append_assoc], ?_, ?_⟩
        · intro l hl hd
          rw [k3 l (fun h => hl (.inr h)) hd, h3 l (fun h => hl (.inl h)) hd]
        · intro hm l hl
          obtain ⟨e1, e2⟩ := List.append_eq_nil_iff.1 hm
          rcases hl with hl | hl
          · rw [k3 l (fun h => (hv l h).1 hl) (hu l hl)]; exact h4 e1 l hl
          · exact k4 e2 l hl

private theorem sim_pure {α : Type} (a : α) : Sim (fun _ => False) (Pure.pure a : OnObject α) (Pure.pure a) := by
  intro o _
  refine ⟨fun e h => (by cases h), fun ms b h => ?_⟩
  cases h
  exact ⟨rfl, (List.append_nil _).symm, fun _ _ _ => rfl, fun _ _ h => h.elim⟩

private theorem sim_part {α : Type} (x : Py α) : Sim (fun _ => False) (partOn x.onObject) (part x) := by
  intro o _
  unfold partOn part Py.onObject
  cases x with
  | ok a =>
    refine ⟨fun e h => (by cases h), fun ms b h => ?_⟩
    cases h
    exact ⟨rfl, (List.append_nil _).symm, fun _ _ _ => rfl, fun _ _ h => h.elim⟩
  | error e =>
    cases e with
    | parsing ms =>
      refine ⟨fun e h => (by cases h), fun ms b h => ?_⟩
      cases h
      refine ⟨rfl, by simp [JsonObject.log], fun l _ hl => by simp [JsonObject.log, hl], fun _ _ h => h.elim⟩
    | _ => exact ⟨fun e h => by cases h; rfl, fun ms b h => (by cases h)⟩

/-- The exceptions are not `SPDXParsingError`s (these are caught and logged). -/
private def NoParsing {α : Type} (w : W α) : Prop := ∀ ms, w.result ≠ .error (.parsing ms)

private theorem np_pure {α : Type} (a : α) : NoParsing (Pure.pure a : W α) := fun ms h => by cases h
private theorem np_bind {α β : Type} {x : W α} {f : α → W β} (h : NoParsing x) (hf : ∀ a, NoParsing (f a)) : NoParsing (x >>= f) := by
  intro ms e
  obtain ⟨l, r⟩ := x
  cases r with
  | error e' =>
    have e2 : (Except.error e' : Except PyErr β) = .error (.parsing ms) := e
    cases e2
    exact h ms rfl
  | ok a => exact hf a ms e
private theorem np_field {α : Type} (j : Json) (m : Json → Py α) : NoParsing (parseFieldW j m) := by
  intro ms h
  unfold parseFieldW at h
  cases ht : j.truthy with
  | false => simp [ht] at h
  | true =>
    cases hm : m j with
    | ok a => simp [ht, hm] at h
    | error e => cases e <;> simp [ht, hm, PyErr.logged] at h
private theorem np_collect {α : Type} (m : Json → Py α) (l : List Json) : NoParsing (collectW m l) := by
  induction l with
  | nil => intro ms h; cases h
  | cons j js ih =>
    rw [collectW]
    cases m j with
    | ok a => exact np_bind ih fun _ => np_pure _
    | error e =>
      cases e with
      | other m => intro ms h; cases h
      | _ => exact ih
private theorem np_packages (L : LicText) (l : List Json) : NoParsing (collectPackagesW L l) := by
  induction l with
  | nil => intro ms h; cases h
  | cons j js ih =>
    rw [collectPackagesW]
    cases parsePackage L j with
    | ok a =>
      intro ms h
      cases hr : (collectPackagesW L js).result with
      | ok l => simp [hr, Except.map] at h
      | error e => simp [hr, Except.map] at h; exact ih ms (by rw [hr, h])
    | error e =>
      cases e with
      | other m => intro ms h; cases h
      | _ => exact ih
private theorem np_get (j : Json) (k : Str) (d : Json) : NoParsing (pyGetD j k d).liftW := by
  intro ms h; cases j <;> cases h
private theorem np_iter (j : Json) : NoParsing (pyIter j).liftW := by
  intro ms h; cases j <;> cases h
private theorem np_getIter (j : Json) (k : Str) (d : Json) : NoParsing (pyGetD j k d >>= pyIter).liftW := by
  intro ms h
  cases j with
  | obj o => exact np_iter _ ms h
  | _ => cases h
private theorem np_getDistinct (j : Json) (k : Str) (d : Json) : NoParsing (pyGetD j k d >>= deleteDuplicates).liftW := by
  intro ms h
  cases j with
  | obj o =>
    change deleteDuplicates _ = _ at h
    generalize (dictGet o k).getD d = v at h
    unfold deleteDuplicates at h
    cases hi : pyIter v with
    | error e => rw [hi] at h; exact np_iter v ms (by rw [hi]; exact h)
    | ok l =>
      rw [hi] at h
      change (if _ then _ else _) = _ at h
      split at h <;> cases h
  | _ => cases h
private theorem np_annotationsFrom (l : List Json) : NoParsing (annotationsFromW l) := by
  induction l with
  | nil => exact np_pure _
  | cons j js ih =>
    rw [annotationsFromW]
    exact np_bind (np_get _ _ _) fun _ => np_bind (np_get _ _ _) fun _ => np_bind (np_field _ _) fun _ => np_bind ih fun _ => np_pure _
private theorem np_annotations (j : Json) : NoParsing (allAnnotationsW j) := by
  unfold allAnnotationsW
  exact np_bind (np_annotationsFrom _) fun _ => np_bind (np_getIter _ _ _) fun _ => np_bind (np_get _ _ _) fun _ =>
    np_bind (np_collect _ _) fun _ => np_bind (np_getIter _ _ _) fun _ => np_bind (np_annotationsFrom _) fun _ =>
    np_bind (np_getIter _ _ _) fun _ => np_bind (np_annotationsFrom _) fun _ =>
    np_bind (np_getIter _ _ _) fun _ => np_bind (np_annotationsFrom _) fun _ => np_pure _
private theorem np_relationships (j : Json) : NoParsing (allRelationshipsW j) := by
  unfold allRelationshipsW
  exact np_bind (np_get _ _ _) fun _ => np_bind (np_field _ _) fun _ => np_bind (np_getDistinct _ _ _) fun _ => np_bind (np_get _ _ _) fun _ =>
    np_bind (np_field _ _) fun _ => np_bind (np_get _ _ _) fun _ => np_bind (np_field _ _) fun _ => np_pure _
private theorem np_list {α : Type} (m : List Json → W α) (hm : ∀ l, NoParsing (m l)) (j : Json) : NoParsing (listW m j) :=
  np_bind (np_iter j) hm

/-- What is raised if the logger has messages. -/
private def raised {α : Type} (wrap : List PMsg → List PMsg) (p : P α) : Py α :=
  match p with
  | .error e => .error e
  | .ok ([], a) => .ok a
  | .ok (m :: ms, _) => .error (.parsing (wrap (m :: ms)))

private theorem sim_using {α : Type} (l : LoggerOf) (hl : l ≠ .document) (wrap : List PMsg → List PMsg) (hw : ∀ m ms, wrap (m :: ms) ≠ [])
    (w : W α) (hr : NoParsing w) : Sim (· = l) (partOn (usingLogger l wrap w)) (part (raised wrap w.toP)) := by
  intro o ho
  have ho := ho l rfl
  obtain ⟨ms, r⟩ := w
  have hlog : ∀ l', (o.log l ms) l' = if l' = l then ms else o l' := by
    intro l'; unfold JsonObject.log; rw [ho, List.nil_append]
  unfold partOn usingLogger
  dsimp only
  rw [hlog, if_pos rfl]
  cases r with
  | error e =>
    show (∀ e', part (Except.error e) = .error e' → _) ∧ ∀ ms' a, part (Except.error e) = .ok (ms', a) → _
    cases e with
    | parsing ms' =>
      exact absurd rfl (hr ms')
    | _ => exact ⟨fun e h => by cases h; rfl, fun ms b h => (by cases h)⟩
  | ok a =>
    cases ms with
    | nil =>
      refine ⟨fun e h => (by cases h), fun ms2 b h => ?_⟩
      cases h
      refine ⟨rfl, by simp [hlog, hl.symm], fun l' h1 h2 => by simp [hlog, h1], fun _ l' h => by simp [hlog, h]⟩
    | cons m ms =>
      refine ⟨fun e h => (by cases h), fun ms2 b h => ?_⟩
      cases h
      refine ⟨rfl, ?_, ?_, ?_⟩
      · simp [JsonObject.log, hl.symm]
      · intro l' h1 h2; simp [JsonObject.log, h1, h2]
      · intro h; exact absurd h (hw m ms)

private theorem sim_opt {α : Type} (l : LoggerOf) (hl : l ≠ .document) (wrap : List PMsg → List PMsg) (hw : ∀ m ms, wrap (m :: ms) ≠ [])
    (w : W α) (hr : NoParsing w) (j : Json) (f : Json → Py α) (hf : raised wrap w.toP = f j) :
    Sim (· = l) (optPartOn j (usingLogger l wrap w)) (optPart j f) := by
  unfold optPartOn optPart
  cases j.truthy with
  | true => rw [← hf]; exact sim_using l hl wrap hw w hr
  | false =>
    intro o ho
    refine ⟨fun e h => (by cases h), fun ms b h => ?_⟩
    cases h
    exact ⟨rfl, (List.append_nil _).symm, fun _ _ _ => rfl, fun _ l h => ho l h⟩

private theorem raised_list {α : Type} (m : List Json → W α) (m' : List Json → P α) (h : ∀ l, (m l).toP = m' l) (j : Json) :
    raised id (listW m j).toP = (do let l ← pyIter j; (m' l).orRaise) := by
  unfold listW
  rw [W.toP_bind, W.toP_lift]
  cases pyIter j with
  | error e => rfl
  | ok l =>
    show raised id (P.bind (.ok ([], l)) fun a => (m a).toP) = (m' l).orRaise
    rw [← h]
    have key : ∀ x : Except PyErr (List PMsg × α), raised id (match x with
      | .error e => .error e | .ok (ms', b) => .ok ([] ++ ms', b) : Except PyErr (List PMsg × α)) = P.orRaise x := by
      intro x
      cases x with
      | error e => rfl
      | ok x => obtain ⟨ms, a⟩ := x; cases ms <;> rfl
    exact key _

/-- The fields as the model without state reads them. -/
private def fieldsP (L : LicText) (j : Json) : P (Option CreationInfo × Option (List Package) × Option (List File) ×
    Option (List Annotation) × Option (List Snippet) × Option (List Relationship) × Option (List ExtractedLicensingInfo)) := do
  let info ← part (parseCreationInfo j)
  let packages ← optPart (← (pyGet j s%"packages").lift) (parsePackages L)
  let files ← optPart (← (pyGet j s%"files").lift) (parseList (parseFile L))
  let annotations ← optPart j parseAllAnnotations
  let snippets ← optPart (← (pyGet j s%"snippets").lift) (parseList (parseSnippet L))
  let relationships ← optPart j parseAllRelationships
  let extracted ← optPart (← (pyGet j s%"hasExtractedLicensingInfos").lift) (parseList parseExtracted)
  return (info, packages, files, annotations, snippets, relationships, extracted)

private theorem P_lift_bind {α β : Type} (a : α) (f : α → P β) : (Py.lift (.ok a) >>= f) = f a := by
  have key : ∀ x : Except PyErr (List PMsg × β),
      (match x with | .error e => .error e | .ok (ms', b) => .ok ([] ++ ms', b) : Except PyErr (List PMsg × β)) = x := by
    intro x; cases x <;> rfl
  exact key (f a)

private theorem sim_fields (L : LicText) (o : List (Str × Json)) :
    Sim (· ≠ .document) (JsonObject.fields L (.obj o)) (fieldsP L (.obj o)) := by
  have get : ∀ k, pyGet (.obj o) k = .ok ((dictGet o k).getD .null) := fun k => rfl
  have lift : ∀ {α β : Type} (a : α) (f : α → OnObject β), (Py.onObject (.ok a) >>= f) = f a := fun a f => rfl
  unfold JsonObject.fields fieldsP
  simp only [get, lift, P_lift_bind]
  have hid : ∀ (m : PMsg) ms, id (m :: ms) ≠ [] := fun m ms h => by cases h
  have key := sim_bind (sim_part (parseCreationInfo (.obj o))) (fun info =>
    sim_bind (sim_opt .packages (by decide) id hid (listW (collectPackagesW L) ((dictGet o s%"packages").getD .null))
      (np_list _ (np_packages L) _) _ (parsePackages L) (raised_list _ _ (W.toP_collectPackages L) _)) (fun packages =>
    sim_bind (sim_opt .files (by decide) id hid (listW (collectW (parseFile L)) ((dictGet o s%"files").getD .null))
      (np_list _ (np_collect _) _) _ (parseList (parseFile L)) (raised_list _ _ (W.toP_collect _) _)) (fun files =>
    sim_bind (sim_opt .annotations (by decide) (fun ms => [.wrapped s%"annotations" ms]) (fun m ms h => by cases h) (allAnnotationsW (.obj o))
      (np_annotations _) (.obj o) parseAllAnnotations (by
        rw [← W.toP_allAnnotations]
        cases (allAnnotationsW (.obj o)).toP with
        | error e => rfl
        | ok x => obtain ⟨ms, a⟩ := x; cases ms <;> rfl)) (fun annotations =>
    sim_bind (sim_opt .snippets (by decide) id hid (listW (collectW (parseSnippet L)) ((dictGet o s%"snippets").getD .null))
      (np_list _ (np_collect _) _) _ (parseList (parseSnippet L)) (raised_list _ _ (W.toP_collect _) _)) (fun snippets =>
    sim_bind (sim_opt .relationships (by decide) id hid (allRelationshipsW (.obj o))
      (np_relationships _) (.obj o) parseAllRelationships (by
        rw [← W.toP_allRelationships]
        cases (allRelationshipsW (.obj o)).toP with
        | error e => rfl
        | ok x => obtain ⟨ms, a⟩ := x; cases ms <;> rfl)) (fun relationships =>
    sim_bind (sim_opt .extracted (by decide) id hid (listW (collectW parseExtracted) ((dictGet o s%"hasExtractedLicensingInfos").getD .null))
      (np_list _ (np_collect _) _) _ (parseList parseExtracted) (raised_list _ _ (W.toP_collect _) _)) (fun extracted =>
    sim_pure (info, packages, files, annotations, snippets, relationships, extracted))
    (by intro l; cases l <;> simp) (by intro l; cases l <;> simp))
    (by intro l; cases l <;> simp) (by intro l; cases l <;> simp))
    (by intro l; cases l <;> simp) (by intro l; cases l <;> simp))
    (by intro l; cases l <;> simp) (by intro l; cases l <;> simp))
    (by intro l; cases l <;> simp) (by intro l; cases l <;> simp))
    (by intro l; cases l <;> simp) (by intro l; cases l <;> simp))
    (by intro l; cases l <;> simp) (by intro l; cases l <;> simp)
  have hu : (fun l : LoggerOf => l ≠ .document) = (fun l => False ∨ l = .packages ∨ l = .files ∨ l = .annotations ∨ l = .snippets ∨
      l = .relationships ∨ l = .extracted ∨ False) := by
    funext l; cases l <;> simp
  rw [hu]
  exact key

/-- What the last lines of `parse` do with the fields. -/
private def build (x : Option CreationInfo × Option (List Package) × Option (List File) ×
    Option (List Annotation) × Option (List Snippet) × Option (List Relationship) × Option (List ExtractedLicensingInfo)) : Py Document :=
  construct s%"Document"
    (.ok Document.mk ⊛ chkSome s%"creation_info" x.1 ⊛ .ok (x.2.1.getD []) ⊛ .ok (x.2.2.1.getD [])
      ⊛ .ok (x.2.2.2.2.1.getD []) ⊛ .ok (x.2.2.2.1.getD []) ⊛ .ok (x.2.2.2.2.2.1.getD []) ⊛ .ok (x.2.2.2.2.2.2.getD []))

private theorem parseDocument_eq (L : LicText) (j : Json) : parseDocument L j = (fieldsP L j).orRaise >>= build := rfl

private theorem parse_eq (L : LicText) (j : Json) (o : JsonObject) : JsonObject.parse L j o = match JsonObject.fields L j o with
    | (o, .error e) => (o, .error e)
    | (o, .ok x) => if o .document = [] then (o, build x) else (o, .error (.parsing (o .document))) := by
  show OnObject.bind (JsonObject.fields L j) _ o = _
  unfold OnObject.bind
  rcases JsonObject.fields L j o with ⟨o, r⟩
  cases r with
  | error e => rfl
  | ok x =>
    show OnObject.bind (usingLogger .document id ⟨[], .ok ()⟩) (fun _ => (build x).onObject) o = _
    have hl : o.log .document [] = o := by funext l; by_cases h : l = .document <;> simp [JsonObject.log, h]
    unfold OnObject.bind usingLogger
    simp only [hl]
    by_cases h : o .document = [] <;> simp [h, Py.onObject]

private theorem fields_other (L : LicText) (j : Json) (h : ∀ o, j ≠ .obj o) (o : JsonObject) : JsonObject.fields L j o = (o, .error (.other s%"get")) := by
  cases j with
  | obj x => exact absurd rfl (h x)
  | _ => rfl
private theorem document_other (L : LicText) (j : Json) (h : ∀ o, j ≠ .obj o) : parseDocument L j = .error (.other s%"get") := by
  cases j with
  | obj x => exact absurd rfl (h x)
  | _ => rfl

private theorem fields_quiet (L : LicText) (j : Json) : QuietP (fieldsP L j) := by
  unfold fieldsP pyGet
  quiet

private theorem build_ok (L : LicText) (j : Json) (x) (h : fieldsP L j = .ok ([], x)) : ∃ d, build x = .ok d := by
  unfold fieldsP at h
  obtain ⟨info, h1, hr⟩ := pbind_ok_nil.mp h
  obtain ⟨vp, h2, hr⟩ := pbind_ok_nil.mp hr
  obtain ⟨ps, h3, hr⟩ := pbind_ok_nil.mp hr
  obtain ⟨vf, h4, hr⟩ := pbind_ok_nil.mp hr
  obtain ⟨fs, h5, hr⟩ := pbind_ok_nil.mp hr
  obtain ⟨as, h6, hr⟩ := pbind_ok_nil.mp hr
  obtain ⟨vs, h7, hr⟩ := pbind_ok_nil.mp hr
  obtain ⟨ss, h8, hr⟩ := pbind_ok_nil.mp hr
  obtain ⟨rs, h9, hr⟩ := pbind_ok_nil.mp hr
  obtain ⟨ve, h10, hr⟩ := pbind_ok_nil.mp hr
  obtain ⟨es, h11, hr⟩ := pbind_ok_nil.mp hr
  cases hr
  obtain ⟨ci, k1, rfl⟩ := ok_part h1 (ne_creationInfo j)
  exact ⟨_, rfl⟩

/-- What a call on an object with nothing in its loggers gives, and what it leaves. -/
private theorem on_empty (L : LicText) (j : Json) : (JsonObject.parse L j .new).2 = parseDocument L j ∧
    (∀ d, parseDocument L j = .ok d → (JsonObject.parse L j .new).1 = .new) ∧
    (∀ ms, parseDocument L j = .error (.parsing ms) → (JsonObject.parse L j .new).1 .document = ms ∧ ms ≠ []) := by
  by_cases h : ∃ o, j = .obj o
  · obtain ⟨x, rfl⟩ := h
    have h := sim_fields L x .new (fun _ _ => rfl)
    have hq := fields_quiet L (.obj x)
    rw [parse_eq, parseDocument_eq]
    have hb := build_ok L (.obj x)
    generalize JsonObject.fields L (.obj x) .new = r at h
    obtain ⟨o, r⟩ := r
    cases hp : fieldsP L (.obj x) with
    | error e =>
      have h := h.1 e hp
      cases h
      refine ⟨rfl, fun d h => (by cases h), fun ms h => ?_⟩
      cases h
      exact absurd hp (hq ms)
    | ok q =>
      obtain ⟨ms, a⟩ := q
      obtain ⟨h1, h2, -, h4⟩ := h.2 ms a hp
      cases h1
      have h2 : o .document = ms := h2
      cases ms with
      | nil =>
        obtain ⟨d, hd⟩ := hb a hp
        have e : (P.orRaise (.ok ([], a)) >>= build) = .ok d := hd
        rw [e]
        dsimp only
        rw [if_pos h2, hd]
        refine ⟨rfl, fun d _ => ?_, fun ms h => (by cases h)⟩
        funext l
        by_cases hl : l = .document
        · rw [hl]; exact h2
        · exact h4 rfl l hl
      | cons m ms =>
        dsimp only
        rw [if_neg (by rw [h2]; exact List.cons_ne_nil _ _), h2]
        refine ⟨rfl, fun d h => (by cases h), fun ms' h => ?_⟩
        cases h
        exact ⟨h2, List.cons_ne_nil _ _⟩
  · have h : ∀ o, j ≠ .obj o := fun o e => h ⟨o, e⟩
    rw [parse_eq, fields_other L j h, document_other L j h]
    exact ⟨rfl, fun d h => (by cases h), fun ms h => (by cases h)⟩

/-- No computation takes a message out of a logger. -/
private def Grows {α : Type} (x : OnObject α) : Prop := ∀ o l, o l <+: (x o).1 l

private theorem grows_bind {α β : Type} {x : OnObject α} {f : α → OnObject β} (h : Grows x) (hf : ∀ a, Grows (f a)) : Grows (x >>= f) := by
  intro o l
  have hb : (x >>= f) o = match x o with
    | (o, .error e) => (o, .error e)
    | (o, .ok a) => f a o := rfl
  rw [hb]
  have h := h o l
  generalize x o = r at h
  obtain ⟨o', r⟩ := r
  cases r with
  | error e => exact h
  | ok a => exact h.trans (hf a o' l)
private theorem grows_pure {α : Type} (a : α) : Grows (Pure.pure a : OnObject α) := fun _ _ => List.prefix_rfl
private theorem grows_py {α : Type} (x : Py α) : Grows x.onObject := fun _ _ => List.prefix_rfl
private theorem prefix_log (o : JsonObject) (l l' : LoggerOf) (ms : List PMsg) : o l <+: o.log l' ms l := by
  unfold JsonObject.log
  by_cases h : l = l'
  · rw [if_pos h, h]; exact List.prefix_append _ _
  · rw [if_neg h]; exact List.prefix_rfl
private theorem grows_using {α : Type} (l : LoggerOf) (wrap : List PMsg → List PMsg) (w : W α) : Grows (usingLogger l wrap w) := by
  intro o l'
  unfold usingLogger
  have := prefix_log o l' l w.logs
  cases w.result with
  | error e => exact this
  | ok a =>
    dsimp only
    split <;> exact this
private theorem grows_part {α : Type} {x : OnObject α} (h : Grows x) : Grows (partOn x) := by
  intro o l
  unfold partOn
  have h := h o l
  generalize x o = r at h
  obtain ⟨o', r⟩ := r
  cases r with
  | ok a => exact h
  | error e =>
    cases e with
    | parsing ms => exact List.IsPrefix.trans h (prefix_log _ _ _ _)
    | _ => exact h
private theorem grows_opt {α : Type} {x : OnObject α} (h : Grows x) (j : Json) : Grows (optPartOn j x) := by
  unfold optPartOn
  split
  · exact grows_part h
  · exact fun _ _ => List.prefix_rfl
private theorem grows_fields (L : LicText) (j : Json) : Grows (JsonObject.fields L j) := by
  unfold JsonObject.fields
  repeat' first
    | exact grows_py _ | exact grows_pure _ | exact grows_using _ _ _ | refine grows_opt ?_ _ | refine grows_part ?_
    | refine grows_bind ?_ fun _ => ?_

/-- Raises no `SPDXParsingError`. -/
private def QuietO {α : Type} (x : OnObject α) : Prop := ∀ o ms, (x o).2 ≠ .error (.parsing ms)
private theorem quietO_bind {α β : Type} {x : OnObject α} {f : α → OnObject β} (h : QuietO x) (hf : ∀ a, QuietO (f a)) : QuietO (x >>= f) := by
  intro o ms
  have hb : (x >>= f) o = match x o with
    | (o, .error e) => (o, .error e)
    | (o, .ok a) => f a o := rfl
  rw [hb]
  have h := h o ms
  generalize x o = r at h
  obtain ⟨o', r⟩ := r
  cases r with
  | error e => intro e2; cases e2; exact h rfl
  | ok a => exact hf a o' ms
private theorem quietO_pure {α : Type} (a : α) : QuietO (Pure.pure a : OnObject α) := fun _ _ h => by cases h
private theorem quietO_get (j : Json) (k : Str) : QuietO (pyGet j k).onObject := by
  intro o ms h; cases j <;> cases h
private theorem quietO_part {α : Type} (x : OnObject α) : QuietO (partOn x) := by
  intro o ms
  unfold partOn
  generalize x o = r
  obtain ⟨o', r⟩ := r
  cases r with
  | ok a => intro h; cases h
  | error e => cases e <;> (intro h; cases h)
private theorem quietO_opt {α : Type} (x : OnObject α) (j : Json) : QuietO (optPartOn j x) := by
  unfold optPartOn
  split
  · exact quietO_part x
  · intro _ _ h; cases h
private theorem quietO_fields (L : LicText) (j : Json) : QuietO (JsonObject.fields L j) := by
  unfold JsonObject.fields
  repeat' first
    | exact quietO_get _ _ | exact quietO_pure _ | exact quietO_opt _ _ | exact quietO_part _ | refine quietO_bind ?_ fun _ => ?_

/-- A parser that was just made reads what `parseDocument` reads: the model of the earlier claims is the model of the first call. -/
theorem first_call (L : LicText) (j : Json) : (JsonObject.parse L j .new).2 = parseDocument L j := (on_empty L j).1

/-- After a call that returned a document the parser is as new. -/
theorem as_new_after_document (L : LicText) (j : Json) (d : Document) (h : (JsonObject.parse L j .new).2 = .ok d) :
    (JsonObject.parse L j .new).1 = .new := (on_empty L j).2.1 d ((first_call L j).symm.trans h)

/-- Messages are never taken out of a parser. -/
theorem messages_stay (L : LicText) (j : Json) (o : JsonObject) (l : LoggerOf) : o l <+: (JsonObject.parse L j o).1 l := by
  rw [parse_eq]
  have h := grows_fields L j o l
  generalize JsonObject.fields L j o = r at h
  obtain ⟨o', r⟩ := r
  cases r with
  | error e => exact h
  | ok x => dsimp only; split <;> exact h

/-- A parser that holds messages of an earlier call returns no document any more, whatever it is given; and what it reports then begins with
    the messages of the earlier call. -/
theorem old_messages_first (L : LicText) (j : Json) (o : JsonObject) (h : o .document ≠ []) :
    (∀ d, (JsonObject.parse L j o).2 ≠ .ok d) ∧ ∀ ms, (JsonObject.parse L j o).2 = .error (.parsing ms) → o .document <+: ms := by
  rw [parse_eq]
  have hg := grows_fields L j o .document
  have hq := quietO_fields L j o
  generalize JsonObject.fields L j o = r at hg hq
  obtain ⟨o', r⟩ := r
  cases r with
  | error e => exact ⟨fun d h => (by cases h), fun ms h => by cases h; exact absurd rfl (hq ms)⟩
  | ok x =>
    dsimp only at hg ⊢
    have hn : o' .document ≠ [] := by
      intro e; rw [e] at hg; exact h (List.prefix_nil.1 hg)
    rw [if_neg hn]
    exact ⟨fun d h => (by cases h), fun ms h => by cases h; exact hg⟩

private theorem after_dirty (L : LicText) (hist : List Json) (o : JsonObject) (h : o .document ≠ []) : (o.after L hist) .document ≠ [] := by
  induction hist generalizing o with
  | nil => exact h
  | cons j js ih =>
    refine ih _ fun e => ?_
    have hp := messages_stay L j o .document
    rw [e] at hp
    exact h (List.prefix_nil.1 hp)

private theorem after_cases (L : LicText) (hist : List Json) (h : ∀ j ∈ hist, ¬ Uncaught (parseDocument L j)) :
    ((∀ j ∈ hist, ∃ d, parseDocument L j = .ok d) ∧ JsonObject.new.after L hist = .new) ∨
    ((¬ ∀ j ∈ hist, ∃ d, parseDocument L j = .ok d) ∧ (JsonObject.new.after L hist) .document ≠ []) := by
  induction hist with
  | nil => exact .inl ⟨fun j hj => (by cases hj), rfl⟩
  | cons j js ih =>
    have hj := h j (List.mem_cons_self ..)
    have e := on_empty L j
    cases hp : parseDocument L j with
    | ok d =>
      have hn : JsonObject.new.after L (j :: js) = JsonObject.new.after L js := by
        show ((JsonObject.parse L j) .new).1.after L js = _
        rw [e.2.1 d hp]
      rw [hn]
      have all : (∀ j' ∈ j :: js, ∃ d, parseDocument L j' = .ok d) ↔ ∀ j' ∈ js, ∃ d, parseDocument L j' = .ok d :=
        ⟨fun h j' hj' => h j' (List.mem_cons_of_mem _ hj'), fun h j' hj' => by
          rcases List.mem_cons.1 hj' with rfl | hj'
          · exact ⟨d, hp⟩
          · exact h j' hj'⟩
      rw [all]
      exact ih fun j' hj' => h j' (List.mem_cons_of_mem _ hj')
    | error e' =>
      refine .inr ⟨fun h => ?_, ?_⟩
      · obtain ⟨d, hd⟩ := h j (List.mem_cons_self ..)
        rw [hd] at hp; cases hp
      · by_cases hm : ∃ ms, e' = .parsing ms
        · obtain ⟨ms, rfl⟩ := hm
          refine after_dirty L js _ ?_
          rw [(e.2.2 ms hp).1]; exact (e.2.2 ms hp).2
        · exact absurd ⟨e', hp, fun ms h => hm ⟨ms, h⟩⟩ hj

/-- As long as no call ended in an uncaught exception, a later call returns a document exactly if every earlier call did and a new parser
    would; and it is the same document. -/
theorem history_iff (L : LicText) (hist : List Json) (j : Json) (d : Document) (h : ∀ j' ∈ hist, ¬ Uncaught (parseDocument L j')) :
    (JsonObject.parse L j (JsonObject.new.after L hist)).2 = .ok d ↔
      (∀ j' ∈ hist, ∃ d', parseDocument L j' = .ok d') ∧ parseDocument L j = .ok d := by
  rcases after_cases L hist h with ⟨h1, h2⟩ | ⟨h1, h2⟩
  · rw [h2, first_call]; exact ⟨fun h => ⟨h1, h⟩, fun h => h.2⟩
  · exact ⟨fun h => absurd h ((old_messages_first L j _ h2).1 d), fun h => absurd h.1 h1⟩

/-! ### A parser of tag-value texts -/

private theorem tv_run (L : LicText) (s : TvState) (as : List TvAttr) : match TvState.run L s as with
    | .ok s' => TvObject.run L true s as = (s', none)
    | .error e => ∃ s', TvObject.run L true s as = (s', some e) := by
  induction as generalizing s with
  | nil => rfl
  | cons a as ih =>
    rw [TvState.run, TvObject.run]
    cases s.step L a with
    | ok s' => exact ih s'
    | error e => exact ⟨s, rfl⟩

/-- A parser that was just made reads what `parseTagValue` reads. -/
theorem first_call_tagvalue (L : LicText) (text : Str) : (TvObject.parse L text {}).2 = parseTagValue L text := by
  have h := tv_run L {} (attrs (lex text))
  unfold TvObject.parse parseTagValue
  cases hr : TvState.run L {} (attrs (lex text)) with
  | ok s => rw [hr] at h; dsimp only at h ⊢; rw [h]; rfl
  | error e => rw [hr] at h; obtain ⟨s', h⟩ := h; dsimp only; rw [h]

private theorem spent (L : LicText) (text : Str) (o : TvObject) (h : o.infoLogger = false) :
    (o.parse L text).1.infoLogger = false ∧ ∀ d, (o.parse L text).2 ≠ .ok d := by
  unfold TvObject.parse
  rcases TvObject.run L o.infoLogger o.state (attrs (lex text)) with ⟨s, _ | e⟩
  · simp [h]
  · exact ⟨h, fun d h => by cases h⟩

private theorem spent_after (L : LicText) (texts : List Str) (o : TvObject) (h : o.infoLogger = false) : (o.after L texts).infoLogger = false := by
  induction texts generalizing o with
  | nil => exact h
  | cons t ts ih => exact ih _ (spent L t o h).1

private theorem read_to_end (L : LicText) (o : TvObject) (text : Str) (h : (TvObject.run L o.infoLogger o.state (attrs (lex text))).2 = none) :
    (o.parse L text).1.infoLogger = false := by
  unfold TvObject.parse
  generalize TvObject.run L o.infoLogger o.state (attrs (lex text)) = r at h
  obtain ⟨s, e⟩ := r
  cases h
  cases o.infoLogger <;> simp

/-- A tag-value parser gives one document at most: once it has returned one, no later call returns a document, whatever it is given. -/
theorem one_document (L : LicText) (o : TvObject) (text : Str) (later : List Str) (text' : Str) (d d' : Document)
    (h : (o.parse L text).2 = .ok d) : (((o.parse L text).1.after L later).parse L text').2 ≠ .ok d' := by
  refine (spent L text' _ (spent_after L later _ (read_to_end L o text ?_))).2 d'
  unfold TvObject.parse at h
  generalize TvObject.run L o.infoLogger o.state (attrs (lex text)) = r at h
  obtain ⟨s, _ | e⟩ := r
  · rfl
  · cases h

/-- The same after a text in which no attribute made the parser raise: then everything wrong with it was reported at its end. -/
theorem no_document_after_report (L : LicText) (text : Str) (h : ∃ s, TvState.run L {} (attrs (lex text)) = .ok s) (later : List Str)
    (text' : Str) (d : Document) : (((TvObject.parse L text {}).1.after L later).parse L text').2 ≠ .ok d := by
  refine (spent L text' _ (spent_after L later _ (read_to_end L {} text ?_))).2 d
  obtain ⟨s, h⟩ := h
  have hr := tv_run L {} (attrs (lex text))
  rw [h] at hr
  dsimp only at hr
  exact congrArg Prod.snd hr

/-- What an object that has returned a document goes on with: all the elements it has built, and no element it is building. -/
theorem elements_stay (L : LicText) (o : TvObject) (text : Str) (d : Document) (h : (o.parse L text).2 = .ok d) :
    let s := (o.parse L text).1.state
    s.packages.getD [] = d.packages ∧ s.files = d.files ∧ s.snippets = d.snippets ∧ s.annotations = d.annotations ∧
    s.relationships = d.relationships ∧ s.extracted = d.extractedLicensingInfo ∧ s.cls = none ∧ s.log = [] := by
  unfold TvObject.parse at h ⊢
  generalize TvObject.run L o.infoLogger o.state (attrs (lex text)) = r at h
  obtain ⟨s, _ | e⟩ := r
  · dsimp only at h ⊢
    cases hi : o.infoLogger with
    | false => rw [hi] at h; cases h
    | true =>
      rw [hi] at h
      simp only [if_true] at h ⊢
      unfold TvState.result at h
      dsimp only at h
      have hc : s.finish.cls = none := by
        unfold TvState.finish
        cases hc : s.cls with
        | none => exact hc
        | some c => rfl
      generalize (if s.finish.infoLog = [] then [] else [PMsg.wrapped s%"CreationInfo" s.finish.infoLog]) = more at h
      by_cases hn : s.finish.log ++ more ≠ []
      · rw [if_pos hn] at h; cases h
      · rw [if_neg hn] at h
        have hl : s.finish.log = [] := (List.append_eq_nil_iff.1 (Decidable.not_not.1 hn)).1
        split at h
        · cases h; exact ⟨rfl, rfl, rfl, rfl, rfl, rfl, hc, hl⟩
        · cases h
  · cases h

/-! ### Examples and witnesses -/

/-- A tree with these packages. -/
private def tree (packages : List Json) : Json :=
  .obj [(s%"SPDXID", .str s%"SPDXRef-DOCUMENT"), (s%"spdxVersion", .str s%"SPDX-2.3"), (s%"name", .str s%"n"),
    (s%"documentNamespace", .str s%"https://some.uri"), (s%"dataLicense", .str s%"CC0-1.0"),
    (s%"creationInfo", .obj [(s%"created", .str s%"2020-01-01T00:00:00Z"), (s%"creators", .arr [.str s%"Person: p"])]),
    (s%"packages", .arr packages)]

private def pkg : Json := .obj [(s%"name", .str s%"p"), (s%"SPDXID", .str s%"SPDXRef-p"), (s%"downloadLocation", .str s%"NONE")]
private def badRef : Json :=
  .obj [(s%"name", .str s%"q"), (s%"SPDXID", .str s%"SPDXRef-q"), (s%"downloadLocation", .str s%"NONE"), (s%"externalRefs", .arr [.obj []])]
private def noName : Json := .obj [(s%"SPDXID", .str s%"SPDXRef-q"), (s%"downloadLocation", .str s%"NONE")]

private theorem good (L : LicText) : ∃ d, parseDocument L (tree [pkg]) = .ok d := ⟨_, rfl⟩
private theorem faulty (L : LicText) : ∃ ms, parseDocument L (tree [noName]) = .error (.parsing ms) := ⟨_, rfl⟩

/-- Two histories without an uncaught exception: after the first the parser still works, after the second it does not. -/
example (L : LicText) : (∃ d, (JsonObject.parse L (tree [pkg]) (JsonObject.new.after L [tree [pkg], tree []])).2 = .ok d) ∧
    ∀ d, (JsonObject.parse L (tree [pkg]) (JsonObject.new.after L [tree [pkg], tree [noName]])).2 ≠ .ok d := by
  obtain ⟨d, hd⟩ := good L
  obtain ⟨ms, hf⟩ := faulty L
  have g : ∀ j ∈ [tree [pkg], tree []], ∃ d, parseDocument L j = .ok d := by
    intro j hj
    rcases List.mem_cons.1 hj with rfl | hj
    · exact ⟨d, hd⟩
    · rw [List.mem_singleton.1 hj]; exact ⟨_, rfl⟩
  constructor
  · refine ⟨d, (history_iff L _ _ d fun j hj hu => ?_).2 ⟨g, hd⟩⟩
    obtain ⟨d', h⟩ := g j hj
    obtain ⟨e, he, -⟩ := hu
    rw [h] at he; cases he
  · intro d' h
    have := ((history_iff L _ _ d' fun j hj hu => ?_).1 h).1 (tree [noName]) (by simp)
    · obtain ⟨d2, h2⟩ := this
      rw [hf] at h2; cases h2
    · obtain ⟨e, he, hn⟩ := hu
      rcases List.mem_cons.1 hj with rfl | hj
      · rw [hd] at he; cases he
      · rw [List.mem_singleton.1 hj, hf] at he; cases he; exact hn _ rfl

/-- An uncaught exception may leave messages in a logger the document's own logger knows nothing of: the parser then fails on a tree a new
    parser reads, and reports an external reference that is not in it. -/
theorem leftover_messages (L : LicText) : Uncaught (JsonObject.parse L (tree [badRef, .null]) .new).2 ∧
    (JsonObject.new.after L [tree [badRef, .null]]) .document = [] ∧
    (∃ d, parseDocument L (tree [pkg]) = .ok d) ∧
    (JsonObject.parse L (tree [pkg]) (JsonObject.new.after L [tree [badRef, .null]])).2 =
      .error (.parsing [.constructing s%"ExternalPackageRef" [s%"category", s%"reference_type", s%"locator"]]) :=
  ⟨⟨_, rfl, fun ms h => by cases h⟩, rfl, good L, rfl⟩

/-- A tree with these snippets. -/
private def snippetsTree (snippets : List Json) : Json :=
  .obj [(s%"SPDXID", .str s%"SPDXRef-DOCUMENT"), (s%"spdxVersion", .str s%"SPDX-2.3"), (s%"name", .str s%"n"),
    (s%"documentNamespace", .str s%"https://some.uri"), (s%"dataLicense", .str s%"CC0-1.0"),
    (s%"creationInfo", .obj [(s%"created", .str s%"2020-01-01T00:00:00Z"), (s%"creators", .arr [.str s%"Person: p"])]),
    (s%"snippets", .arr snippets)]

/-- The annotations of the snippets are read before the snippets: an unreadable one is reported in later calls, although the call that met it
    ended with an exception at the next snippet. -/
theorem leftover_annotation (L : LicText) :
    let first := snippetsTree [.obj [(s%"SPDXID", .str s%"SPDXRef-s"), (s%"annotations", .arr [.obj []])], .null]
    Uncaught (JsonObject.parse L first .new).2 ∧
    (JsonObject.parse L (tree [pkg]) (JsonObject.new.after L [first])).2 =
      .error (.parsing [.wrapped s%"annotations" [.constructing s%"Annotation" [s%"annotation_type", s%"annotator", s%"annotation_date", s%"annotation_comment"]]]) :=
  ⟨⟨_, rfl, fun ms h => by cases h⟩, rfl⟩

/-- Or none: after this exception the parser is still as new. -/
theorem no_leftover (L : LicText) : Uncaught (JsonObject.parse L (.arr []) .new).2 ∧ JsonObject.new.after L [.arr []] = .new :=
  ⟨⟨_, rfl, fun ms h => by cases h⟩, rfl⟩

private def withoutPackage : Str :=
  s%"SPDXVersion: SPDX-2.3\nDataLicense: CC0-1.0\nSPDXID: SPDXRef-DOCUMENT\nDocumentName: n\nDocumentNamespace: https://some.uri\nCreator: Person: p\nCreated: 2020-01-01T00:00:00Z\n"
private def interrupted : Str := s%"SPDXID: SPDXRef-DOCUMENT\nPackageName: left\nSPDXID: SPDXRef-p\nPackageDownloadLocation: NONE\nRelationship: NONE\n"

private theorem attrs_withoutPackage : attrs (lex withoutPackage) = [.value s%"SPDXVersion" (.line s%"SPDX-2.3"), .value s%"DataLicense" (.line s%"CC0-1.0"),
      .spdxId s%"SPDXRef-DOCUMENT", .value s%"DocumentName" (.line s%"n"), .value s%"DocumentNamespace" (.line s%"https://some.uri"),
      .value s%"Creator" (.person s%"Person: p"), .value s%"Created" (.date s%"2020-01-01T00:00:00Z")] := by decide +kernel
private theorem attrs_interrupted : attrs (lex interrupted) = [.spdxId s%"SPDXRef-DOCUMENT", .value s%"PackageName" (.line s%"left"),
      .spdxId s%"SPDXRef-p", .value s%"PackageDownloadLocation" .none, .bad s%"Relationship"] := by decide +kernel

/-- A text that makes a parser give its one document. -/
example (L : LicText) : ∃ d, (TvObject.parse L withoutPackage {}).2 = .ok d ∧ d.packages = [] := by
  unfold TvObject.parse
  rw [attrs_withoutPackage]
  exact ⟨_, rfl, rfl⟩
example (L : LicText) : ∃ s, TvState.run L {} (attrs (lex withoutPackage)) = .ok s := by
  rw [attrs_withoutPackage]
  exact ⟨_, rfl⟩

/-- What the text that is given up leaves. -/
private def left : TvState where
  info := [(s%"spdx_id", .one (.str s%"SPDXRef-DOCUMENT"))]
  cls := some .package
  elem := [(s%"name", .one (.str s%"left")), (s%"spdx_id", .one (.str s%"SPDXRef-p")), (s%"download_location", .one .none)]

private theorem parse_interrupted (L : LicText) : TvObject.parse L interrupted {} = ({ state := left }, .error (.other s%"KeyError")) := by
  unfold TvObject.parse
  rw [attrs_interrupted]
  rfl

/-- After an uncaught exception a tag-value parser does return a document: this one has a package of the text that was given up, and the
    package has got the identifier that the second text gives to the document. -/
theorem leftover_package (L : LicText) : Uncaught (TvObject.parse L interrupted {}).2 ∧
    ∃ d, (TvObject.parse L withoutPackage (TvObject.after L {} [interrupted])).2 = .ok d ∧
      d.packages.map (fun p => (p.name, p.spdxId)) = [(s%"left", s%"SPDXRef-DOCUMENT")] := by
  have e : TvObject.after L {} [interrupted] = { state := left } := congrArg Prod.fst (parse_interrupted L)
  refine ⟨⟨.other s%"KeyError", congrArg Prod.snd (parse_interrupted L), fun ms h => by cases h⟩, ?_⟩
  rw [e]
  unfold TvObject.parse
  rw [attrs_withoutPackage]
  exact ⟨_, rfl, rfl⟩

private def again : Str := s%"SPDXVersion: SPDX-2.3\nCreator: x\n"
private theorem attrs_again : attrs (lex again) = [.value s%"SPDXVersion" (.line s%"SPDX-2.3"), .bad s%"Creator"] := by decide +kernel
/-- A tag-value parser keeps what it has read, but not its logger: when a second text repeats a field of the creation information, the message
    about it cannot be logged, and this exception hides the fault that a new parser reports. -/
theorem repeated_field_raises (L : LicText) : (∃ ms, parseTagValue L again = .error (.parsing ms)) ∧
    (TvObject.parse L again (TvObject.after L {} [withoutPackage])).2 = .error (.other s%"KeyError") := by
  constructor
  · unfold parseTagValue
    rw [attrs_again]
    exact ⟨_, rfl⟩
  · unfold TvObject.after TvObject.after TvObject.parse
    rw [attrs_withoutPackage, attrs_again]
    rfl

private theorem run_raises (L : LicText) (a : TvAttr) (rest : List TvAttr) (s' t : TvState) : ∀ (before : List TvAttr) (s : TvState),
    TvState.run L s before = .ok t → t.step L a = .ok s' → s'.infoLog.length ≠ t.infoLog.length →
    (TvObject.run L false s (before ++ a :: rest)).2 = some (.other s%"KeyError")
  | [], s, hs, ha, hn => by
    cases hs
    rw [List.nil_append, TvObject.run, ha]
    dsimp only
    rw [if_neg (by simpa using hn)]
  | b :: before, s, hs, ha, hn => by
    rw [TvState.run] at hs
    rw [List.cons_append, TvObject.run]
    cases hb : s.step L b with
    | error e => rw [hb] at hs; cases hs
    | ok s1 =>
      rw [hb] at hs
      dsimp only at hs ⊢
      split
      · exact run_raises L a rest s' t before s1 hs ha hn
      · rfl

/-- Generally: once a parser has read a text to its end, an attribute of a later text that has something to say about the creation
    information makes it raise, whatever comes after it. -/
theorem logging_raises (L : LicText) (o : TvObject) (ho : o.infoLogger = false) (text : Str) (before : List TvAttr) (a : TvAttr) (rest : List TvAttr)
    (ht : attrs (lex text) = before ++ a :: rest) (s s' : TvState) (hs : TvState.run L o.state before = .ok s)
    (ha : s.step L a = .ok s') (hn : s'.infoLog.length ≠ s.infoLog.length) : (o.parse L text).2 = .error (.other s%"KeyError") := by
  have h := run_raises L a rest s' s before o.state hs ha hn
  unfold TvObject.parse
  rw [ho, ht]
  generalize TvObject.run L false o.state (before ++ a :: rest) = r at h
  obtain ⟨r, e⟩ := r
  cases h
  rfl

end Spdx.C66
