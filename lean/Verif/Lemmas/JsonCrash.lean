import Verif.Lemmas.JsonRead
import Verif.Spec.JsonShape
/- When the functions that read a tree raise an exception that is not caught. -/
namespace Spdx.JsonCrash
open Spdx Spdx.Spec
open JsonSays (Obj valueAt Blank Items)
open JsonShape

set_option linter.unusedSimpArgs false

/-- The exceptions no parser function catches. -/
def Other (e : PyErr) : Prop := ∃ m, e = .other m
/-- The exceptions `parse` does not catch. -/
def NotParsing (e : PyErr) : Prop := ∀ ms, e ≠ .parsing ms

/-- The computation with a logger raises exactly if `Q`, and then an exception of this kind. -/
def Says {α : Type} (E : PyErr → Prop) (p : P α) (Q : Prop) : Prop := (Q → ∃ e, E e ∧ p = .error e) ∧ (¬ Q → ∃ ms a, p = .ok (ms, a))
/-- The computation raises an exception of this kind exactly if `Q`. -/
def Raises {α : Type} (E : PyErr → Prop) (x : Py α) (Q : Prop) : Prop := (Q → ∃ e, E e ∧ x = .error e) ∧ (¬ Q → ∀ e, E e → x ≠ .error e)

theorem says_congr {α : Type} {E : PyErr → Prop} {p : P α} {Q R : Prop} (h : Says E p Q) (e : Q ↔ R) : Says E p R := by rwa [← propext e]
theorem raises_congr {α : Type} {E : PyErr → Prop} {p : Py α} {Q R : Prop} (h : Raises E p Q) (e : Q ↔ R) : Raises E p R := by rwa [← propext e]

theorem says_mono {α : Type} {E F : PyErr → Prop} {p : P α} {Q : Prop} (h : Says E p Q) (hE : ∀ e, E e → F e) : Says F p Q :=
  ⟨fun q => by obtain ⟨e, he, h⟩ := h.1 q; exact ⟨e, hE e he, h⟩, h.2⟩

theorem other_notParsing (e : PyErr) (h : Other e) : NotParsing e := by
  obtain ⟨m, rfl⟩ := h
  intro ms h; cases h

theorem says_bind {α β : Type} {E : PyErr → Prop} {p : P α} {f : α → P β} {Q R : Prop} (h : Says E p Q) (hf : ∀ a, Says E (f a) R) :
    Says E (p >>= f) (Q ∨ R) := by
  by_cases q : Q
  · obtain ⟨e, he, hp⟩ := h.1 q
    subst hp
    exact ⟨fun _ => ⟨e, he, rfl⟩, fun n => absurd (.inl q) n⟩
  · obtain ⟨ms, a, hp⟩ := h.2 q
    subst hp
    have hb : ∀ y : Except PyErr (List PMsg × β), y = f a → (@Bind.bind P _ α β (Except.ok (ms, a)) f) = match y with
      | .error e => .error e
      | .ok (ms', b) => .ok (ms ++ ms', b) := fun y h => by rw [h]; rfl
    constructor
    · intro qr
      obtain ⟨e, he, hg⟩ := (hf a).1 (qr.resolve_left q)
      exact ⟨e, he, hb _ hg.symm⟩
    · intro n
      obtain ⟨ms', b, hg⟩ := (hf a).2 (fun r => n (.inr r))
      exact ⟨_, _, hb _ hg.symm⟩

/-- For the second computation it may be assumed that the first one did not raise. -/
theorem says_then {α β : Type} {E : PyErr → Prop} {p : P α} {f : α → P β} {Q R : Prop} (h : Says E p Q) (hf : ¬ Q → ∀ a, Says E (f a) R) :
    Says E (p >>= f) (Q ∨ R) := by
  by_cases q : Q
  · obtain ⟨e, he, hp⟩ := h.1 q
    subst hp
    exact ⟨fun _ => ⟨e, he, rfl⟩, fun n => absurd (.inl q) n⟩
  · exact says_bind h (hf q)

theorem says_pure {α : Type} (E : PyErr → Prop) (a : α) : Says E (pure a : P α) False := ⟨False.elim, fun _ => ⟨[], a, rfl⟩⟩
theorem says_ok {α : Type} (E : PyErr → Prop) (x : List PMsg × α) : Says E (.ok x : P α) False := ⟨False.elim, fun _ => ⟨_, _, rfl⟩⟩
theorem says_lift {α : Type} (E : PyErr → Prop) (a : α) : Says E (Py.lift (.ok a)) False := ⟨False.elim, fun _ => ⟨[], a, rfl⟩⟩

theorem raises_bind {α β : Type} {E : PyErr → Prop} {x : Py α} {f : α → Py β} {Q : Prop} (h : Raises E x Q) (hf : ∀ a, Raises E (f a) False) :
    Raises E (x >>= f) Q := by
  constructor
  · intro q
    obtain ⟨e, he, hx⟩ := h.1 q
    exact ⟨e, he, by rw [hx]; rfl⟩
  · intro n e he hx
    cases x with
    | error e' => cases hx; exact h.2 n e he rfl
    | ok a => exact (hf a).2 id e he hx

theorem raises_construct {α : Type} {E : PyErr → Prop} (hE : ∀ e, E e → NotParsing e) (cls : Str) (c : Check α) : Raises E (construct cls c) False := by
  refine ⟨False.elim, fun _ e he h => ?_⟩
  match c, h with
  | .error fs, h => cases h; exact hE _ he _ rfl

theorem raises_orRaise {α : Type} {E : PyErr → Prop} (hE : ∀ e, E e → NotParsing e) {p : P α} {Q : Prop} (h : Says E p Q) : Raises E p.orRaise Q := by
  constructor
  · intro q
    obtain ⟨e, he, hp⟩ := h.1 q
    exact ⟨e, he, by rw [hp]; rfl⟩
  · intro n e he hx
    obtain ⟨ms, a, hp⟩ := h.2 n
    rw [hp] at hx
    cases ms <;> cases hx
    exact hE _ he _ rfl
theorem raises_orRaiseIn {α : Type} {E : PyErr → Prop} (hE : ∀ e, E e → NotParsing e) {p : P α} {Q : Prop} (w : Str) (h : Says E p Q) :
    Raises E (p.orRaiseIn w) Q := by
  constructor
  · intro q
    obtain ⟨e, he, hp⟩ := h.1 q
    exact ⟨e, he, by rw [hp]; rfl⟩
  · intro n e he hx
    obtain ⟨ms, a, hp⟩ := h.2 n
    rw [hp] at hx
    cases ms <;> cases hx
    exact hE _ he _ rfl

theorem logged_none (e : PyErr) : e.logged = none ↔ Other e := by
  cases e <;> simp [PyErr.logged, Other]

theorem says_field {α : Type} {m : Json → Py α} {v : Json} {Q : Prop} (h : Raises Other (m v) Q) : Says Other (parseField v m) (¬ Blank v ∧ Q) := by
  rw [JsonSays.blank_iff, Decidable.not_not]
  unfold parseField
  cases ht : v.truthy with
  | false => exact ⟨fun h => (by cases h.1), fun _ => ⟨_, _, rfl⟩⟩
  | true =>
    change Says Other (match m v with
        | .ok a => .ok ([], some a)
        | .error e => match e.logged with
          | some ms => .ok (ms, none)
          | none => .error e : Except PyErr (List PMsg × Option α)) _
    constructor
    · intro hq
      obtain ⟨e, he, hx⟩ := h.1 hq.2
      refine ⟨e, he, ?_⟩
      rw [hx]
      dsimp only
      rw [(logged_none e).2 he]
    · intro n
      cases hm : m v with
      | ok a => exact ⟨_, _, rfl⟩
      | error e =>
        dsimp only
        cases hl : e.logged with
        | some ms => exact ⟨_, _, rfl⟩
        | none => exact absurd hm (h.2 (fun q => n ⟨rfl, q⟩) e ((logged_none e).1 hl))

theorem never_field {α : Type} {m : Json → Py α} (h : ∀ v, Raises Other (m v) False) (v : Json) : Says Other (parseField v m) False :=
  says_congr (says_field (h v)) ⟨fun q => q.2, False.elim⟩

theorem lift_bind {α β : Type} (a : α) (f : α → P β) : (Py.lift (.ok a) >>= f) = f a := by
  have key : ∀ x : Except PyErr (List PMsg × β),
      (match x with | .error e => .error e | .ok (ms', b) => .ok ([] ++ ms', b) : Except PyErr (List PMsg × β)) = x := by
    intro x; cases x <;> rfl
  exact key (f a)
theorem ok_bind {α β : Type} (a : α) (f : α → Py β) : ((.ok a : Py α) >>= f) = f a := rfl

theorem says_collect {α : Type} {m : Json → Py α} {Q : Json → Prop} (h : ∀ x, Raises Other (m x) (Q x)) (l : List Json) :
    Says Other (collect m l) (∃ x ∈ l, Q x) := by
  induction l with
  | nil => exact ⟨fun ⟨x, hx, _⟩ => (by cases hx), fun _ => ⟨_, _, rfl⟩⟩
  | cons j js ih =>
    rw [collect]
    cases hm : m j with
    | ok a =>
      have hj : ¬ Q j := fun q => by obtain ⟨e, _, hx⟩ := (h j).1 q; rw [hm] at hx; cases hx
      constructor
      · rintro ⟨x, hx, q⟩
        rcases List.mem_cons.1 hx with rfl | hx
        · exact absurd q hj
        · obtain ⟨e, he, hc⟩ := ih.1 ⟨x, hx, q⟩
          exact ⟨e, he, by dsimp only; rw [hc]⟩
      · intro n
        obtain ⟨ms, a, hc⟩ := ih.2 fun ⟨x, hx, q⟩ => n ⟨x, List.mem_cons_of_mem _ hx, q⟩
        exact ⟨_, _, by dsimp only; rw [hc]⟩
    | error e =>
      dsimp only
      cases hl : e.logged with
      | none =>
        have he := (logged_none e).1 hl
        have hj : Q j := Classical.byContradiction fun q => (h j).2 q e he hm
        exact ⟨fun _ => ⟨e, he, rfl⟩, fun n => absurd ⟨j, List.mem_cons_self .., hj⟩ n⟩
      | some ms =>
        have hj : ¬ Q j := fun q => by
          obtain ⟨e', he', hx⟩ := (h j).1 q
          rw [hm] at hx; cases hx
          rw [(logged_none e).2 he'] at hl; cases hl
        constructor
        · rintro ⟨x, hx, q⟩
          rcases List.mem_cons.1 hx with rfl | hx
          · exact absurd q hj
          · obtain ⟨e, he, hc⟩ := ih.1 ⟨x, hx, q⟩
            exact ⟨e, he, by dsimp only; rw [hc]⟩
        · intro n
          obtain ⟨ms, a, hc⟩ := ih.2 fun ⟨x, hx, q⟩ => n ⟨x, List.mem_cons_of_mem _ hx, q⟩
          exact ⟨_, _, by dsimp only; rw [hc]⟩

/-- Going through the items: `TypeError` if there are none to go through. -/
theorem iter_cases (v : Json) : (∃ l, pyIter v = .ok l ∧ Items v l) ∨ ((∃ m, pyIter v = .error (.type m)) ∧ ¬ HasItems v) := by
  cases h : pyIter v with
  | ok l => exact .inl ⟨l, rfl, JsonSays.iter_iff.1 h⟩
  | error e =>
    refine .inr ⟨?_, fun ⟨l, hl⟩ => ?_⟩
    · cases v <;> cases h <;> exact ⟨_, rfl⟩
    · rw [JsonSays.iter_iff.2 hl] at h; cases h

theorem items_unique {v : Json} {l l' : List Json} (h : Items v l) (h' : Items v l') : l = l' := by
  have := (JsonSays.iter_iff.2 h).symm.trans (JsonSays.iter_iff.2 h')
  cases this; rfl

/-- Some item has the property. -/
def SomeItem (v : Json) (Q : Json → Prop) : Prop := ∃ l, Items v l ∧ ∃ x ∈ l, Q x

theorem raises_iter {α : Type} {g : List Json → Py α} {v : Json} {Q : Json → Prop} (h : ∀ l, Raises Other (g l) (∃ x ∈ l, Q x)) :
    Raises Other (pyIter v >>= g) (SomeItem v Q) := by
  rcases iter_cases v with ⟨l, hl, hi⟩ | ⟨⟨m, hm⟩, hn⟩
  · rw [hl]
    refine raises_congr (h l) ⟨fun q => ⟨l, hi, q⟩, fun ⟨l', hi', q⟩ => ?_⟩
    rwa [items_unique hi hi']
  · rw [hm]
    refine ⟨fun ⟨l, hl, _⟩ => absurd ⟨l, hl⟩ hn, fun _ e ⟨m, he⟩ h => ?_⟩
    subst he; cases h

theorem raises_list {α : Type} {m : Json → Py α} {Q : Json → Prop} (h : ∀ x, Raises Other (m x) (Q x)) (v : Json) :
    Raises Other (parseList m v) (SomeItem v Q) :=
  raises_iter fun l => raises_orRaise other_notParsing (says_collect h l)

/-- A function that never raises such an exception. -/
theorem raises_never {α : Type} {x : Py α} (h : ∀ m, x ≠ .error (.other m)) : Raises Other x False :=
  ⟨False.elim, fun _ e ⟨m, he⟩ => by subst he; exact h m⟩

theorem never_list {α : Type} {m : Json → Py α} (h : ∀ x, Raises Other (m x) False) (v : Json) : Raises Other (parseList m v) False :=
  raises_congr (raises_list h v) ⟨fun ⟨_, _, _, _, q⟩ => q, False.elim⟩

theorem never_withStr {α : Type} {m : Str → Py α} (h : ∀ s e, m s ≠ .error (.other e)) (v : Json) : Raises Other (withStr m v) False :=
  raises_never fun e he => by cases v <;> first | exact h _ e he | cases he
theorem never_date (v : Json) : Raises Other (parseDate v) False :=
  raises_never fun e he => by
    unfold parseDate at he
    split at he
    · split at he <;> cases he
    · cases he
theorem never_actor (v : Json) : Raises Other (parseActorJson v) False :=
  never_withStr (fun s e he => by split at he <;> cases he) v
theorem never_version (v : Json) : Raises Other (parseVersion v) False :=
  never_withStr (fun s e he => by split at he <;> cases he) v
theorem never_enum {α : Type} (w : Str) (f : Str → Option α) (v : Json) : Raises Other (parseEnum w f v) False :=
  raises_never fun e he => by
    unfold parseEnum at he
    split at he
    · split at he <;> cases he
    · cases he
theorem never_license (L : LicText) (v : Json) : Raises Other (parseLicense L v) False :=
  raises_never fun e he => by
    unfold parseLicense at he
    split at he
    · split at he
      · cases he
      · split at he
        · cases he
        · split at he <;> cases he
    · cases he
theorem never_actorOrNoAssertion (v : Json) : Raises Other (parseActorOrNoAssertion v) False :=
  raises_never fun e he => by
    unfold parseActorOrNoAssertion at he
    split at he
    · cases he
    · rename_i j _
      cases ha : parseActorJson j with
      | ok a => rw [ha] at he; cases he
      | error e' => rw [ha] at he; cases he; exact (never_actor j).2 id _ ⟨_, rfl⟩ ha
theorem never_annotationType (v : Json) : Raises Other (parseAnnotationType v) False :=
  raises_never fun e he => by
    unfold parseAnnotationType at he
    split at he
    · split at he <;> cases he
    · split at he <;> cases he

/-- No object -/
def NoObject (v : Json) : Prop := ∀ o, v ≠ .obj o

/-- A function that begins with `.get`: what is left is the case of an object. -/
theorem raises_get {α : Type} {f : Json → Py α} {Q : Obj → Prop} (hn : ∀ v, NoObject v → ∃ m, f v = .error (.other m))
    (ho : ∀ o, Raises Other (f (.obj o)) (Q o)) (v : Json) : Raises Other (f v) (NoObject v ∨ ∃ o, v = .obj o ∧ Q o) := by
  by_cases h : NoObject v
  · obtain ⟨m, hm⟩ := hn v h
    exact ⟨fun _ => ⟨_, ⟨m, rfl⟩, hm⟩, fun n => absurd (.inl h) n⟩
  · obtain ⟨o, rfl⟩ : ∃ o, v = .obj o := Classical.byContradiction fun n => h fun o e => n ⟨o, e⟩
    exact raises_congr (ho o) ⟨fun q => .inr ⟨o, rfl, q⟩, fun q => by
      rcases q with q | ⟨o', e, q⟩
      · exact absurd rfl (q o)
      · cases e; exact q⟩
theorem raises_get' {α : Type} {f : Json → Py α} (hn : ∀ v, NoObject v → ∃ m, f v = .error (.other m))
    (ho : ∀ o, Raises Other (f (.obj o)) False) (v : Json) : Raises Other (f v) (NoObject v) :=
  raises_congr (raises_get hn ho v) ⟨fun h => h.elim id fun ⟨_, _, h⟩ => h.elim, .inl⟩

macro "no_object" : tactic => `(tactic| (intro v h; cases v <;> first | exact ⟨_, rfl⟩ | exact absurd rfl (h _)))

theorem checksum (v : Json) : Raises Other (parseChecksum v) (NoObject v) := by
  refine raises_get' (by no_object) (fun o => ?_) v
  have hc : ∀ a, Raises Other (construct s%"Checksum" (.ok Checksum.mk ⊛ .ok a ⊛ chkStr s%"value" (valueAt o s%"checksumValue"))) False :=
    fun a => raises_construct other_notParsing _ _
  have hp : ∀ {α : Type} (ms : List PMsg), Raises Other (.error (.parsing ms) : Py α) False := fun ms => raises_never fun m h => by cases h
  unfold parseChecksum
  rw [JsonSays.getD_obj]
  generalize (o.lookup s%"algorithm").getD (.str []) = v
  cases v with
  | str s =>
    change Raises Other (match algorithmFromJson s with
      | some a => construct s%"Checksum" (.ok Checksum.mk ⊛ .ok a ⊛ chkStr s%"value" (valueAt o s%"checksumValue"))
      | none => .error (.parsing [.wrapped s%"Checksum" [.invalid s%"ChecksumAlgorithm" (.str (jsonStrToEnumName s))]])) False
    cases algorithmFromJson s with
    | some a => exact hc a
    | none => exact hp _
  | _ => exact hp _

theorem externalRef (v : Json) : Raises Other (parseExternalRef v) (NoObject v) := by
  refine raises_get' (by no_object) (fun o => ?_) v
  unfold parseExternalRef
  simp only [JsonSays.get_obj, JsonSays.getD_obj, lift_bind, ok_bind]
  refine raises_bind (raises_congr (raises_orRaiseIn other_notParsing _
    (says_bind (never_field (never_enum _ _) _) fun _ =>
      says_pure _ _)) (by simp))
    fun a => raises_construct other_notParsing _ _

theorem verificationCode (v : Json) : Raises Other (parseVerificationCode v) (NoObject v) :=
  raises_get' (by no_object) (fun _ => raises_construct other_notParsing _ _) v

theorem extracted (v : Json) : Raises Other (parseExtracted v) (NoObject v) :=
  raises_get' (by no_object) (fun _ => raises_construct other_notParsing _ _) v

theorem relationship (v : Json) : Raises Other (parseRelationship v) (NoObject v) := by
  refine raises_get' (by no_object) (fun o => ?_) v
  unfold parseRelationship
  simp only [JsonSays.get_obj, JsonSays.getD_obj, lift_bind, ok_bind]
  exact raises_bind (raises_congr (raises_orRaiseIn other_notParsing _
    (never_field (never_enum _ _) _)) (by simp))
    fun a => raises_construct other_notParsing _ _

theorem annotation (i v : Json) : Raises Other (parseAnnotation i v) (NoObject v) := by
  refine raises_get' (by no_object) (fun o => ?_) v
  unfold parseAnnotation
  simp only [JsonSays.get_obj, JsonSays.getD_obj, lift_bind, ok_bind]
  exact raises_bind (raises_congr (raises_orRaiseIn other_notParsing _
    (says_bind (never_field (never_annotationType) _) fun _ =>
      says_bind (never_field (never_actor) _) fun _ =>
      says_bind (never_field (never_date) _) fun _ => says_pure _ _)) (by simp))
    fun a => raises_construct other_notParsing _ _

theorem review (i v : Json) : Raises Other (parseReview i v) (NoObject v) := by
  refine raises_get' (by no_object) (fun o => ?_) v
  unfold parseReview
  simp only [JsonSays.get_obj, JsonSays.getD_obj, lift_bind, ok_bind]
  exact raises_bind (raises_congr (raises_orRaiseIn other_notParsing _
    (says_bind (never_field (never_actor) _) fun _ =>
      says_bind (never_field (never_date) _) fun _ => says_pure _ _)) (by simp))
    fun a => raises_construct other_notParsing _ _

theorem someItem_not_blank {v : Json} {Q : Json → Prop} (h : SomeItem v Q) : ¬ Blank v := by
  obtain ⟨l, hl, x, hx, _⟩ := h
  intro hb
  rcases hl with rfl | ⟨s, rfl, rfl⟩ | ⟨o, rfl, rfl⟩ <;> rcases hb with h | h | h | h | h | h <;> cases h <;> cases hx

/-- A field with a list of which some item must not be there. -/
theorem says_listField {α : Type} {m : Json → Py α} {Q : Json → Prop} (h : ∀ v, Raises Other (m v) (SomeItem v Q)) (v : Json) :
    Says Other (parseField v m) (SomeItem v Q) :=
  says_congr (says_field (h v)) ⟨fun q => q.2, fun q => ⟨someItem_not_blank q, q⟩⟩

theorem says_collectFields {α : Type} {m : Json → Py α} {Q : Json → Prop} (h : ∀ x, Raises Other (m x) (Q x)) (l : List Json) :
    Says Other (collectFields m l) (∃ x ∈ l, ¬ Blank x ∧ Q x) := by
  induction l with
  | nil => exact ⟨fun ⟨x, hx, _⟩ => (by cases hx), fun _ => ⟨_, _, rfl⟩⟩
  | cons j js ih =>
    rw [collectFields]
    refine says_congr (says_bind (says_field (h j)) fun _ => says_bind ih fun _ => says_pure _ _) ?_
    constructor
    · rintro (q | ⟨x, hx, q⟩ | q)
      · exact ⟨j, List.mem_cons_self .., q⟩
      · exact ⟨x, List.mem_cons_of_mem _ hx, q⟩
      · exact q.elim
    · rintro ⟨x, hx, q⟩
      rcases List.mem_cons.1 hx with rfl | hx
      · exact .inl q
      · exact .inr (.inl ⟨x, hx, q⟩)

/-- Not an object, and not blank -/
def BadObject (v : Json) : Prop := ¬ Blank v ∧ NoObject v

theorem externalDocumentRef (v : Json) : Raises Other (parseExternalDocumentRef v)
    (NoObject v ∨ ∃ o, v = .obj o ∧ BadObject (valueAt o s%"checksum")) := by
  refine raises_get (by no_object) (fun o => ?_) v
  unfold parseExternalDocumentRef
  simp only [JsonSays.get_obj, JsonSays.getD_obj, lift_bind, ok_bind]
  exact raises_bind (raises_congr (raises_orRaiseIn other_notParsing _
    (says_bind (says_field (checksum _)) fun _ => says_pure _ _)) (by simp [BadObject]))
    fun a => raises_construct other_notParsing _ _

/-- A faulty external document reference -/
def BadRef (v : Json) : Prop := ¬ Blank v ∧ (NoObject v ∨ ∃ o, v = .obj o ∧ BadObject (valueAt o s%"checksum"))

theorem externalDocumentRefs (v : Json) : Raises Other (parseExternalDocumentRefs v) (SomeItem v BadRef) :=
  raises_iter fun l => raises_orRaise other_notParsing (says_collectFields externalDocumentRef l)

theorem externalRefs (v : Json) : Raises Other (parseExternalRefs v) (SomeItem v NoObject) := by
  refine raises_iter fun l => ?_
  have h := says_collect externalRef l
  constructor
  · intro q
    obtain ⟨e, he, hc⟩ := h.1 q
    exact ⟨e, he, by rw [hc]⟩
  · intro n e he
    obtain ⟨ms, a, hc⟩ := h.2 n
    rw [hc]
    intro h; cases h

/-- The fields of a package that must be objects, or lists of them, and are not -/
def BadPackage (o : Obj) : Prop := SomeItem (valueAt o s%"checksums") NoObject ∨ SomeItem (valueAt o s%"externalRefs") NoObject ∨
  BadObject (valueAt o s%"packageVerificationCode")

theorem package (L : LicText) (v : Json) : Raises Other (parsePackage L v) (NoObject v ∨ ∃ o, v = .obj o ∧ BadPackage o) := by
  refine raises_get (by no_object) (fun o => ?_) v
  unfold parsePackage
  simp only [JsonSays.get_obj, JsonSays.getD_obj, lift_bind, ok_bind]
  refine raises_bind (raises_congr (raises_orRaiseIn other_notParsing _
    (says_bind (never_field never_date _) fun _ =>
     says_bind (says_listField (raises_list checksum) _) fun _ =>
     says_bind (says_listField externalRefs _) fun _ =>
     says_bind (never_field (never_license L) _) fun _ =>
     says_bind (never_field (never_license L) _) fun _ =>
     says_bind (never_field (never_list (never_license L)) _) fun _ =>
     says_bind (never_field never_actorOrNoAssertion _) fun _ =>
     says_bind (says_field (verificationCode _)) fun _ =>
     says_bind (never_field (never_enum _ _) _) fun _ =>
     says_bind (never_field never_date _) fun _ =>
     says_bind (never_field never_actorOrNoAssertion _) fun _ =>
     says_bind (never_field never_date _) fun _ => says_pure _ _)) (by simp [BadPackage, BadObject]))
    fun a => raises_construct other_notParsing _ _

theorem says_collectPackages (L : LicText) (l : List Json) :
    Says Other (collectPackages L l) (∃ x ∈ l, NoObject x ∨ ∃ o, x = .obj o ∧ BadPackage o) := by
  induction l with
  | nil => exact ⟨fun ⟨x, hx, _⟩ => (by cases hx), fun _ => ⟨_, _, rfl⟩⟩
  | cons j js ih =>
    rw [collectPackages]
    have h := package L j
    cases hm : parsePackage L j with
    | ok a =>
      have hj : ¬ (NoObject j ∨ ∃ o, j = .obj o ∧ BadPackage o) := fun q => by obtain ⟨e, _, hx⟩ := h.1 q; rw [hm] at hx; cases hx
      constructor
      · rintro ⟨x, hx, q⟩
        rcases List.mem_cons.1 hx with rfl | hx
        · exact absurd q hj
        · obtain ⟨e, he, hc⟩ := ih.1 ⟨x, hx, q⟩
          exact ⟨e, he, by dsimp only; rw [hc]⟩
      · intro n
        obtain ⟨ms, a, hc⟩ := ih.2 fun ⟨x, hx, q⟩ => n ⟨x, List.mem_cons_of_mem _ hx, q⟩
        exact ⟨_, _, by dsimp only; rw [hc]⟩
    | error e =>
      dsimp only
      cases hl : e.logged with
      | none =>
        have he := (logged_none e).1 hl
        have hj := Classical.byContradiction fun q => h.2 q e he hm
        exact ⟨fun _ => ⟨e, he, rfl⟩, fun n => absurd ⟨j, List.mem_cons_self .., hj⟩ n⟩
      | some ms =>
        have hj : ¬ (NoObject j ∨ ∃ o, j = .obj o ∧ BadPackage o) := fun q => by
          obtain ⟨e', he', hx⟩ := h.1 q
          rw [hm] at hx; cases hx
          rw [(logged_none e).2 he'] at hl; cases hl
        constructor
        · rintro ⟨x, hx, q⟩
          rcases List.mem_cons.1 hx with rfl | hx
          · exact absurd q hj
          · obtain ⟨e, he, hc⟩ := ih.1 ⟨x, hx, q⟩
            exact ⟨e, he, by dsimp only; rw [hc]⟩
        · intro n
          obtain ⟨ms, a, hc⟩ := ih.2 fun ⟨x, hx, q⟩ => n ⟨x, List.mem_cons_of_mem _ hx, q⟩
          exact ⟨_, _, by dsimp only; rw [hc]⟩

/-- Raises no such exception. -/
def Never {α : Type} (x : Except PyErr α) : Prop := ∀ m, x ≠ .error (.other m)

theorem never_bind {α β : Type} {x : Py α} {f : α → Py β} (h : Never x) (hf : ∀ a, x = .ok a → Never (f a)) : Never (x >>= f) := by
  intro m hm
  cases x with
  | error e => cases hm; exact h m rfl
  | ok a => exact hf a rfl m hm
theorem never_ok {α : Type} (a : α) : Never (.ok a : Py α) := fun m h => by cases h
theorem never_value {α : Type} (t : Str) : Never (.error (.value t) : Py α) := fun m h => by cases h
theorem never_iter (v : Json) : Never (pyIter v) := fun m h => by cases v <;> cases h
theorem never_in (k : Str) (v : Json) : Never (pyIn k v) := fun m h => by cases v <;> cases h
theorem never_orRaiseIn {α : Type} {p : P α} (w : Str) (h : Never (α := List PMsg × α) p) : Never (p.orRaiseIn w) := by
  intro m hm
  match p, h, hm with
  | .error e, h, hm => cases hm; exact h m rfl
  | .ok ([], a), h, hm => cases hm
  | .ok (_ :: _, a), h, hm => cases hm

theorem never_fileTypes (v : Json) : Raises Other (parseFileTypes v) False := by
  have hc : ∀ l, Never (α := List PMsg × List FileType) (collectFileTypes l) := by
    intro l
    induction l with
    | nil => intro m h; cases h
    | cons j js ih =>
      intro m h
      rw [collectFileTypes] at h
      cases he : fileTypeEntry j with
      | error e =>
        rw [he] at h; cases h
        unfold fileTypeEntry at he
        split at he
        · split at he <;> cases he
        · split at he <;> cases he
      | ok r =>
        rw [he] at h
        cases hj : collectFileTypes js with
        | error e => rw [hj] at h; cases h; exact ih m hj
        | ok x => rw [hj] at h; cases r <;> cases h
  exact raises_never (never_bind (never_iter v) fun l _ => never_orRaiseIn _ (hc l))

theorem file (L : LicText) (v : Json) : Raises Other (parseFile L v)
    (NoObject v ∨ ∃ o, v = .obj o ∧ SomeItem (valueAt o s%"checksums") NoObject) := by
  refine raises_get (by no_object) (fun o => ?_) v
  unfold parseFile
  simp only [JsonSays.get_obj, JsonSays.getD_obj, lift_bind, ok_bind]
  exact raises_bind (raises_congr (raises_orRaiseIn other_notParsing _
    (says_bind (says_listField (raises_list checksum) _) fun _ =>
     says_bind (never_field never_fileTypes _) fun _ =>
     says_bind (never_field (never_license L) _) fun _ =>
     says_bind (never_field (never_list (never_license L)) _) fun _ => says_pure _ _)) (by simp))
    fun a => raises_construct other_notParsing _ _

theorem never_index {k : Str} {v : Json} (h : pyIn k v = .ok true) : Never (pyIndex k v) := by
  intro m hm
  cases v with
  | obj o =>
    have h : (dictGet o k).isSome = true := by injection h
    unfold pyIndex at hm
    dsimp only at hm
    cases hg : dictGet o k with
    | none => rw [hg] at h; cases h
    | some x => rw [hg] at hm; cases hm
  | _ => cases hm

def key : RangeType → Str
  | .BYTE => s%"offset"
  | .LINE => s%"lineNumber"

theorem never_pointerType (p : Json) : Never (pointerType p) := by
  unfold pointerType
  refine never_bind (never_in _ _) fun off _ => ?_
  cases off with
  | true =>
    refine never_bind (never_in _ _) fun line _ => ?_
    cases line with
    | true => exact never_value _
    | false => exact never_ok _
  | false =>
    refine never_bind (never_ok false) fun _ e => ?_
    cases e
    refine never_bind (never_in _ _) fun line _ => ?_
    cases line with
    | true => exact never_ok _
    | false => exact never_value _

theorem pointerType_key {p : Json} {t : RangeType} (h : pointerType p = .ok t) : pyIn (key t) p = .ok true := by
  unfold pointerType at h
  obtain ⟨off, h1, h⟩ := JsonSays.py_bind_iff.1 h
  cases off with
  | true =>
    obtain ⟨line, h2, h⟩ := JsonSays.py_bind_iff.1 h
    cases line with
    | true => cases h
    | false => cases h; exact h1
  | false =>
    obtain ⟨_, e, h⟩ := JsonSays.py_bind_iff.1 h
    cases e
    obtain ⟨line, h2, h⟩ := JsonSays.py_bind_iff.1 h
    cases line with
    | true => cases h; exact h2
    | false => cases h

theorem rangeType_ok {r : Json} {t : RangeType} (h : rangeType r = .ok t) : pyIn s%"startPointer" r = .ok true ∧
    pyIn s%"endPointer" r = .ok true ∧ ∃ a b, pyIndex s%"startPointer" r = .ok a ∧ pyIndex s%"endPointer" r = .ok b ∧
    pointerType a = .ok t ∧ pointerType b = .ok t := by
  unfold rangeType at h
  obtain ⟨x, h1, h⟩ := JsonSays.py_bind_iff.1 h
  cases x with
  | false => cases h
  | true =>
    obtain ⟨y, h2, h⟩ := JsonSays.py_bind_iff.1 h
    cases y with
    | false => cases h
    | true =>
      obtain ⟨a, h3, h⟩ := JsonSays.py_bind_iff.1 h
      obtain ⟨ta, h4, h⟩ := JsonSays.py_bind_iff.1 h
      obtain ⟨b, h5, h⟩ := JsonSays.py_bind_iff.1 h
      obtain ⟨tb, h6, h⟩ := JsonSays.py_bind_iff.1 h
      by_cases e : ta = tb
      · rw [if_neg (by simpa using e)] at h
        cases h
        exact ⟨h1, h2, a, b, h3, h5, h4, e ▸ h6⟩
      · rw [if_pos e] at h; cases h

theorem never_rangeType (r : Json) : Never (rangeType r) := by
  unfold rangeType
  refine never_bind (never_in _ _) fun x hx => ?_
  cases x with
  | false => exact never_value _
  | true =>
    refine never_bind (never_in _ _) fun y hy => ?_
    cases y with
    | false => exact never_value _
    | true =>
      refine never_bind (never_index hx) fun a _ => never_bind (never_pointerType a) fun ta _ =>
        never_bind (never_index hy) fun b _ => never_bind (never_pointerType b) fun tb _ => ?_
      show Never (if _ then _ else _)
      split
      · exact never_value _
      · exact never_ok _

theorem never_range (r : Json) : Never (parseRange r) := by
  unfold parseRange
  refine never_bind (never_rangeType r) fun t ht => ?_
  obtain ⟨hs, he, a, b, ha, hb, hta, htb⟩ := rangeType_ok ht
  refine never_bind ?_ fun _ _ => never_ok _
  unfold startEnd
  rw [ha, hb]
  simp only [ok_bind]
  have ia := never_index (pointerType_key hta)
  have ib := never_index (pointerType_key htb)
  cases t
  · exact never_bind ia fun _ _ => never_bind ib fun _ _ => never_ok _
  · exact never_bind ia fun _ _ => never_bind ib fun _ _ => never_ok _

theorem never_ranges (v : Json) : Raises Other (parseRanges v) False := by
  have hc : ∀ l acc, Never (α := List PMsg × Dict RangeType (Json × Json)) (collectRanges l acc) := by
    intro l
    induction l with
    | nil => intro acc m h; cases h
    | cons r rs ih =>
      intro acc m h
      rw [collectRanges] at h
      cases hr : parseRange r with
      | ok x => rw [hr] at h; exact ih _ m h
      | error e =>
        rw [hr] at h
        cases e with
        | value t =>
          dsimp only at h
          cases hj : collectRanges rs acc with
          | error e => rw [hj] at h; cases h; exact ih acc m hj
          | ok x => rw [hj] at h; cases h
        | other t => exact never_range r t hr
        | _ => cases h
  exact raises_never (never_bind (never_iter v) fun l _ => never_orRaiseIn _ (hc l []))

theorem snippet (L : LicText) (v : Json) : Raises Other (parseSnippet L v) (NoObject v) := by
  refine raises_get' (by no_object) (fun o => ?_) v
  unfold parseSnippet
  simp only [JsonSays.get_obj, JsonSays.getD_obj, lift_bind, ok_bind]
  exact raises_bind (raises_congr (raises_orRaiseIn other_notParsing _
    (says_bind (never_field never_ranges _) fun _ =>
     says_bind (never_field (never_license L) _) fun _ =>
     says_bind (never_field (never_list (never_license L)) _) fun _ => says_pure _ _)) (by simp))
    fun a => raises_construct other_notParsing _ _

/-! ### The document -/

theorem type_notParsing (m : Str) : NotParsing (.type m) := fun ms h => by cases h

/-- What is wrong with the creation information -/
def BadInfo (o : Obj) : Prop := valueAt o s%"creationInfo" ≠ .null ∧
  (NoObject (valueAt o s%"creationInfo") ∨ SomeItem (valueAt o s%"externalDocumentRefs") BadRef)

theorem creationInfo (o : Obj) : Raises NotParsing (parseCreationInfo (.obj o)) (BadInfo o) := by
  unfold parseCreationInfo
  simp only [JsonSays.get_obj, lift_bind, ok_bind]
  unfold BadInfo
  generalize hci : valueAt o s%"creationInfo" = ci
  by_cases hn : ci = .null
  · rw [if_pos hn]
    exact ⟨fun h => absurd hn h.1, fun _ e he h => by cases h; exact he _ rfl⟩
  · rw [if_neg hn]
    by_cases hob : NoObject ci
    · refine ⟨fun _ => ⟨.other s%"get", fun ms h => (by cases h), ?_⟩, fun h => absurd ⟨hn, .inl hob⟩ h⟩
      cases ci with
      | obj i => exact absurd rfl (hob i)
      | _ => rfl
    · obtain ⟨i, rfl⟩ : ∃ i, ci = .obj i := Classical.byContradiction fun n => hob fun i e => n ⟨i, e⟩
      simp only [JsonSays.get_obj, lift_bind, ok_bind]
      refine raises_bind (raises_congr (raises_orRaiseIn (fun _ h => h) _ (says_mono
        (says_bind (never_field (never_list never_actor) _) fun _ =>
         says_bind (never_field never_date _) fun _ =>
         says_bind (says_listField externalDocumentRefs _) fun _ =>
         says_bind (never_field never_version _) fun _ => says_pure _ _) other_notParsing)) ?_)
        fun a => raises_construct (fun _ h => h) _ _
      simp [hob]

/-- Nothing to go through, or an item that must not be there -/
def BadItems (v : Json) (Q : Json → Prop) : Prop := ¬ HasItems v ∨ SomeItem v Q
/-- The same of the value at a key, if the key is there -/
def BadEntries (o : Obj) (k : Str) (Q : Json → Prop) : Prop := ∃ v, o.lookup k = some v ∧ BadItems v Q

theorem raises_items {α : Type} {g : List Json → Py α} {v : Json} {Q : Json → Prop} (h : ∀ l, Raises NotParsing (g l) (∃ x ∈ l, Q x)) :
    Raises NotParsing (pyIter v >>= g) (BadItems v Q) := by
  rcases iter_cases v with ⟨l, hl, hi⟩ | ⟨⟨m, hm⟩, hn⟩
  · rw [hl]
    refine raises_congr (h l) ⟨fun q => .inr ⟨l, hi, q⟩, fun q => ?_⟩
    rcases q with q | ⟨l', hi', q⟩
    · exact absurd ⟨l, hi⟩ q
    · rwa [items_unique hi hi']
  · rw [hm]
    exact ⟨fun _ => ⟨_, type_notParsing m, rfl⟩, fun n => absurd (.inl hn) n⟩

theorem says_part {α : Type} {x : Py α} {Q : Prop} (h : Raises NotParsing x Q) : Says NotParsing (part x) Q := by
  unfold part
  constructor
  · intro q
    obtain ⟨e, he, hx⟩ := h.1 q
    refine ⟨e, he, ?_⟩
    rw [hx]
    cases e with
    | parsing ms => exact absurd rfl (he ms)
    | _ => rfl
  · intro n
    cases x with
    | ok a => exact ⟨_, _, rfl⟩
    | error e =>
      cases e with
      | parsing ms => exact ⟨_, _, rfl⟩
      | type m => exact absurd rfl (h.2 n _ (fun ms h => by cases h))
      | value m => exact absurd rfl (h.2 n _ (fun ms h => by cases h))
      | other m => exact absurd rfl (h.2 n _ (fun ms h => by cases h))

theorem says_optPart {α : Type} {m : Json → Py α} {v : Json} {Q : Prop} (h : Raises NotParsing (m v) Q) :
    Says NotParsing (optPart v m) (¬ Blank v ∧ Q) := by
  rw [JsonSays.blank_iff, Decidable.not_not]
  unfold optPart
  cases v.truthy with
  | false => exact ⟨fun h => (by cases h.1), fun _ => ⟨_, _, rfl⟩⟩
  | true => exact says_congr (says_part h) ⟨fun q => ⟨rfl, q⟩, fun q => q.2⟩

theorem getD_none {o : Obj} {k : Str} (h : o.lookup k = none) (d : Json) : (o.lookup k).getD d = d := by rw [h]; rfl

theorem someItem_getD (o : Obj) (k : Str) (Q : Json → Prop) : SomeItem ((o.lookup k).getD (.arr [])) Q ↔ SomeItem (valueAt o k) Q := by
  unfold valueAt
  cases o.lookup k with
  | some v => exact Iff.rfl
  | none =>
    constructor <;> (rintro ⟨l, hl, x, hx, _⟩; exfalso; revert hx)
    · rcases hl with h | ⟨_, h, _⟩ | ⟨_, h, _⟩ <;> cases h
      exact List.not_mem_nil
    · rcases hl with h | ⟨_, h, _⟩ | ⟨_, h, _⟩ <;> cases h

/-- An element whose annotations are not objects -/
def BadElement (v : Json) : Prop := NoObject v ∨ ∃ o, v = .obj o ∧ SomeItem (valueAt o s%"annotations") NoObject

theorem says_annotationsFrom (l : List Json) : Says Other (annotationsFrom l) (∃ x ∈ l, BadElement x) := by
  induction l with
  | nil => exact ⟨fun ⟨x, hx, _⟩ => (by cases hx), fun _ => ⟨_, _, rfl⟩⟩
  | cons j js ih =>
    by_cases hob : NoObject j
    · refine ⟨fun _ => ⟨.other s%"get", ⟨_, rfl⟩, ?_⟩, fun n => absurd ⟨j, List.mem_cons_self .., .inl hob⟩ n⟩
      cases j with
      | obj i => exact absurd rfl (hob i)
      | _ => rfl
    · obtain ⟨o, rfl⟩ : ∃ o, j = .obj o := Classical.byContradiction fun n => hob fun o e => n ⟨o, e⟩
      rw [annotationsFrom]
      simp only [JsonSays.get_obj, JsonSays.getD_obj, lift_bind]
      refine says_congr (says_bind (says_listField (raises_list (annotation _)) _) fun _ => says_bind ih fun _ => says_pure _ _) ?_
      rw [someItem_getD]
      constructor
      · rintro (q | ⟨x, hx, q⟩ | q)
        · exact ⟨_, List.mem_cons_self .., .inr ⟨o, rfl, q⟩⟩
        · exact ⟨x, List.mem_cons_of_mem _ hx, q⟩
        · exact q.elim
      · rintro ⟨x, hx, q⟩
        rcases List.mem_cons.1 hx with rfl | hx
        · rcases q with q | ⟨o', e, q⟩
          · exact absurd q hob
          · cases e; exact .inl q
        · exact .inr (.inl ⟨x, hx, q⟩)

theorem says_entries {α : Type} {f : List Json → P α} {Q : Json → Prop} {R : Prop} (o : Obj) (k : Str)
    (h : ∀ l, Says NotParsing (f l) ((∃ x ∈ l, Q x) ∨ R)) :
    Says NotParsing ((pyGetD (.obj o) k (.arr []) >>= pyIter).lift >>= f) (BadEntries o k Q ∨ R) := by
  rw [JsonSays.getD_obj]
  cases hk : o.lookup k with
  | none =>
    change Says NotParsing ((Py.lift (.ok [])) >>= f) _
    rw [lift_bind]
    refine says_congr (h []) ⟨fun q => ?_, fun q => ?_⟩
    · rcases q with ⟨x, hx, _⟩ | q
      · cases hx
      · exact .inr q
    · rcases q with ⟨v, hv, _⟩ | q
      · rw [hk] at hv; cases hv
      · exact .inr q
  | some v =>
    change Says NotParsing ((pyIter v).lift >>= f) _
    rcases iter_cases v with ⟨l, hl, hi⟩ | ⟨⟨m, hm⟩, hn⟩
    · rw [hl, lift_bind]
      refine says_congr (h l) ⟨fun q => ?_, fun q => ?_⟩
      · rcases q with q | q
        · exact .inl ⟨v, hk, .inr ⟨l, hi, q⟩⟩
        · exact .inr q
      · rcases q with ⟨v', hv, q⟩ | q
        · rw [hk] at hv; cases hv
          rcases q with q | ⟨l', hi', q⟩
          · exact absurd ⟨l, hi⟩ q
          · rw [items_unique hi hi']; exact .inl q
        · exact .inr q
    · rw [hm]
      exact ⟨fun _ => ⟨_, type_notParsing m, rfl⟩, fun n => absurd (.inl ⟨v, hk, .inl hn⟩) n⟩

theorem allAnnotations (o : Obj) : Raises NotParsing (parseAllAnnotations (.obj o)) (SomeItem (valueAt o s%"annotations") NoObject ∨
    BadEntries o s%"revieweds" NoObject ∨ BadEntries o s%"packages" BadElement ∨ BadEntries o s%"files" BadElement ∨
    BadEntries o s%"snippets" BadElement) := by
  unfold parseAllAnnotations
  refine raises_orRaiseIn (fun _ h => h) _ ?_
  have h1 : Says NotParsing (annotationsFrom [.obj o]) (SomeItem (valueAt o s%"annotations") NoObject) :=
    says_congr (says_mono (says_annotationsFrom [.obj o]) other_notParsing) (by
      constructor
      · rintro ⟨x, hx, q⟩
        rw [List.mem_singleton.1 hx] at q
        rcases q with q | ⟨o', e, q⟩
        · exact absurd rfl (q o)
        · cases e; exact q
      · exact fun q => ⟨_, List.mem_singleton.2 rfl, .inr ⟨o, rfl, q⟩⟩)
  refine says_bind h1 fun _ => says_entries o _ fun l => ?_
  simp only [JsonSays.get_obj, lift_bind]
  refine says_bind (says_mono (says_collect (review _) l) other_notParsing) fun _ => says_entries o _ fun l => ?_
  refine says_bind (says_mono (says_annotationsFrom l) other_notParsing) fun _ => says_entries o _ fun l => ?_
  refine says_bind (says_mono (says_annotationsFrom l) other_notParsing) fun _ => ?_
  refine says_congr (says_entries (R := False) (Q := BadElement) o _ fun l => ?_) (Iff.of_eq (or_false _))
  exact says_bind (says_mono (says_annotationsFrom l) other_notParsing) fun _ => says_pure _ _

/-- Cannot be a key of a dictionary -/
def Unhashable (v : Json) : Prop := (∃ l, v = .arr l) ∨ ∃ o, v = .obj o

theorem says_described {α : Type} {f : List Json → P α} {R : Prop} (o : Obj) (h : ∀ l, Says NotParsing (f l) R) :
    Says NotParsing ((pyGetD (.obj o) s%"documentDescribes" (.arr []) >>= deleteDuplicates).lift >>= f)
      (BadEntries o s%"documentDescribes" Unhashable ∨ R) := by
  rw [JsonSays.getD_obj]
  cases hk : o.lookup s%"documentDescribes" with
  | none =>
    change Says NotParsing ((Py.lift (.ok [])) >>= f) _
    rw [lift_bind]
    refine says_congr (h []) ⟨.inr, fun q => ?_⟩
    rcases q with ⟨v, hv, _⟩ | q
    · rw [hk] at hv; cases hv
    · exact q
  | some v =>
    change Says NotParsing ((deleteDuplicates v).lift >>= f) _
    unfold deleteDuplicates
    rcases iter_cases v with ⟨l, hl, hi⟩ | ⟨⟨m, hm⟩, hn⟩
    · rw [hl, ok_bind]
      by_cases ha : l.all Json.hashable = true
      · rw [if_pos ha, lift_bind]
        refine says_congr (h _) ⟨.inr, fun q => ?_⟩
        rcases q with ⟨v', hv, q⟩ | q
        · rw [hk] at hv; cases hv
          rcases q with q | ⟨l', hi', x, hx, q⟩
          · exact absurd ⟨l, hi⟩ q
          · rw [items_unique hi' hi] at hx
            have := List.all_eq_true.1 ha x hx
            rcases q with ⟨_, rfl⟩ | ⟨_, rfl⟩ <;> cases this
        · exact q
      · rw [if_neg ha]
        refine ⟨fun _ => ⟨_, type_notParsing _, rfl⟩, fun n => absurd (.inl ⟨v, hk, .inr ⟨l, hi, ?_⟩⟩) n⟩
        obtain ⟨x, hx, hh⟩ : ∃ x ∈ l, ¬ x.hashable = true :=
          Classical.byContradiction fun n => ha (List.all_eq_true.2 fun x hx => Classical.byContradiction fun h => n ⟨x, hx, h⟩)
        refine ⟨x, hx, ?_⟩
        cases x with
        | arr l => exact .inl ⟨l, rfl⟩
        | obj o => exact .inr ⟨o, rfl⟩
        | _ => exact absurd rfl hh
    · rw [hm]
      exact ⟨fun _ => ⟨_, type_notParsing m, rfl⟩, fun n => absurd (.inl ⟨v, hk, .inl hn⟩) n⟩

def NeverP {α : Type} (p : P α) : Prop := ∀ m, p ≠ .error (.other m)
theorem never_pok {α : Type} (x : List PMsg × α) : NeverP (.ok x : P α) := fun m h => by cases h
theorem never_pbind {α β : Type} {p : P α} {f : α → P β} (h : NeverP p) (hf : ∀ a, NeverP (f a)) : NeverP (p >>= f) := by
  intro m hm
  cases p with
  | error e => cases hm; exact h m rfl
  | ok x =>
    obtain ⟨ms, a⟩ := x
    have hb : ∀ y : Except PyErr (List PMsg × β), y = f a → (@Bind.bind P _ α β (Except.ok (ms, a)) f) = match y with
      | .error e => .error e
      | .ok (ms', b) => .ok (ms ++ ms', b) := fun y h => by rw [h]; rfl
    cases hy : f a with
    | error e =>
      have := (hb _ hy.symm).symm.trans hm
      cases this
      exact hf a m hy
    | ok y =>
      have := (hb _ hy.symm).symm.trans hm
      cases this
theorem never_lift {α : Type} {x : Py α} (h : Never x) : NeverP x.lift := by
  intro m hm
  cases x with
  | error e => cases hm; exact h m rfl
  | ok a => cases hm
theorem never_duplicates (v : Json) : Never (deleteDuplicates v) := by
  refine never_bind (never_iter v) fun l _ => ?_
  split
  · exact never_ok _
  · intro m h; cases h

theorem never_hasFiles (existing : List Relationship) (v : Json) (h : ¬ SomeItem v NoObject) : Raises Other (parseHasFiles existing v) False := by
  refine raises_never (never_bind (never_iter v) fun l hi => never_orRaiseIn _ ?_)
  have hl : ∀ x ∈ l, ∃ o, x = .obj o := fun x hx => Classical.byContradiction fun n =>
    h ⟨l, JsonSays.iter_iff.1 hi, x, hx, fun o e => n ⟨o, e⟩⟩
  clear h hi
  induction l with
  | nil => intro m h; cases h
  | cons x xs ih =>
    obtain ⟨o, rfl⟩ := hl x (List.mem_cons_self ..)
    have ih := ih fun x hx => hl x (List.mem_cons_of_mem _ hx)
    rw [hasFilesLoop]
    simp only [JsonSays.get_obj, JsonSays.getD_obj, lift_bind, ok_bind]
    exact never_pbind (never_lift (never_duplicates _)) fun files => never_pbind (never_pok _) fun here =>
      never_pbind ih fun r => never_pok _

theorem allRelationships (o : Obj) (hp : ¬ SomeItem (valueAt o s%"packages") NoObject) : Raises NotParsing (parseAllRelationships (.obj o))
    (SomeItem (valueAt o s%"relationships") NoObject ∨ BadEntries o s%"documentDescribes" Unhashable) := by
  unfold parseAllRelationships
  refine raises_orRaise (fun _ h => h) ?_
  simp only [JsonSays.get_obj, JsonSays.getD_obj, lift_bind]
  refine says_bind (says_mono (says_congr (says_listField (raises_list relationship) _) (someItem_getD _ _ _)) other_notParsing) fun _ => ?_
  refine says_congr (says_described (R := False) o fun l => ?_) (Iff.of_eq (or_false _))
  refine says_congr (says_mono (says_bind (says_congr (says_field (raises_never ?_)) (Iff.of_eq (and_false _))) fun _ =>
    says_bind (says_congr (says_field (never_hasFiles _ _ ?_)) (Iff.of_eq (and_false _))) fun _ => says_pure _ _) other_notParsing) (by simp)
  · exact never_orRaiseIn _ fun m h => by cases h
  · rwa [someItem_getD]

end Spdx.JsonCrash
