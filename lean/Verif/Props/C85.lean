import Verif.Spec.Called2
import Verif.Model.Spdx2Classes
import Verif.Lemmas.Called
/-
C85: constructing SPDX 2 objects and assigning to their fields.
-/
namespace Spdx.C85
open Spdx Spec

/-- The tables: every parameter sets the field of its name, and every field is set by a parameter. -/
theorem parameters_are_fields : ∀ c ∈ V2.classes, (c.params.map (·.name)).Nodup ∧ (c.fields.map (·.1)).Nodup ∧
    (∀ n ∈ c.fields.map (·.1), n ∈ c.params.map (·.name)) ∧ (∀ n ∈ c.params.map (·.name), n ∈ c.fields.map (·.1)) := by decide +kernel

/-- The parameters come in the order of the fields. -/
theorem parameters_in_order : ∀ c ∈ V2.classes, c.params.map (·.name) = c.fields.map (·.1) := by decide +kernel

/-- An object is made if and only if the call fits the parameters and every value has a type its field accepts; each field then holds the value
    for it. -/
theorem made_iff (pick : List PyVal → Nat) (c : SClass) (hc : c ∈ V2.classes) (pos : List PyVal) (kw : List (Str × PyVal)) (obj : Dict Str PyVal) :
    c.call pick pos kw = .ok obj ↔ ProperCall c.params pos kw ∧ (∀ f ∈ c.fields, f.2.accepts pick (fieldValue c pos kw f.1) = true) ∧
      obj = c.fields.map fun f => (f.1, fieldValue c pos kw f.1) :=
  Called.made_iff pick c (parameters_are_fields c hc) pos kw obj

/-- Otherwise all fields are named whose values are rejected, in their order. -/
theorem reported_iff (pick : List PyVal → Nat) (c : SClass) (hc : c ∈ V2.classes) (pos : List PyVal) (kw : List (Str × PyVal)) (es : List Str) :
    c.call pick pos kw = .error (.types es) ↔ ProperCall c.params pos kw ∧ es ≠ [] ∧
      es = (c.fields.filter fun f => !f.2.accepts pick (fieldValue c pos kw f.1)).map (·.1) :=
  Called.reported_iff pick c (parameters_are_fields c hc) pos kw es

/-- If only required arguments are missing, exactly these are named. -/
theorem missing_iff (pick : List PyVal → Nat) (c : SClass) (hc : c ∈ V2.classes) (pos : List PyVal) (kw : List (Str × PyVal)) (ns : List Str)
    (h1 : pos.length ≤ c.params.length) (h2 : ∀ k ∈ kw.map (·.1), ∃ i, pos.length ≤ i ∧ (c.params[i]?).map (·.name) = some k)
    (h3 : (kw.map (·.1)).Nodup) : c.call pick pos kw = .error (.missing ns) ↔
      ns ≠ [] ∧ ns = (c.params.filter fun p => (argument c.params pos kw p.name).isNone && p.default.isNone).map (·.name) :=
  Called.missing_iff pick c (parameters_are_fields c hc) pos kw ns h1 h2 h3

/-- Called without any argument, each class names the arguments it cannot do without. -/
theorem without_arguments (pick : List PyVal → Nat) (c : SClass) (hc : c ∈ V2.classes) : ∃ ns, (c.name, ns) ∈ requiredArguments2 ∧
    (ns ≠ [] → c.call pick [] [] = .error (.missing ns)) ∧ (ns = [] → ∀ e, c.call pick [] [] ≠ .error (.missing e)) := by
  have key : ∀ c ∈ V2.classes, (c.name, (c.params.filter fun p => p.default.isNone).map (·.name)) ∈ requiredArguments2 := by decide +kernel
  have hm := fun ns => missing_iff pick c hc [] [] ns (Nat.zero_le _) (by simp) (by simp)
  have ha : ∀ p : SParam, argument c.params [] [] p.name = none := by
    intro p
    unfold argument
    cases c.params.findIdx? (·.name = p.name) <;> rfl
  simp only [ha, Option.isNone_none, Bool.true_and] at hm
  refine ⟨_, key c hc, fun h => (hm _).2 ⟨h, rfl⟩, fun h e he => ?_⟩
  obtain ⟨h1, h2⟩ := (hm e).1 he
  exact h1 (h2.trans h)

/-- Each class has one entry in the table of required arguments. -/
theorem required_once : (requiredArguments2.map (·.1)).Nodup ∧ requiredArguments2.map (·.1) = V2.classes.map (·.name) := by decide +kernel

private theorem signatures : ∀ c ∈ V2.classes, ∀ f ∈ c.fields, Called.keepsPromise c f = true := by decide +kernel

/-- Whoever keeps to the signature of a constructor gets an object: the fields reject no value that the signature allows, and no default. -/
theorem respects_signature (pick : List PyVal → Nat) (c : SClass) (hc : c ∈ V2.classes) (pos : List PyVal) (kw : List (Str × PyVal))
    (h : ProperCall c.params pos kw) (ht : ∀ p ∈ c.params, ∀ v, argument c.params pos kw p.name = some v → C44.HasType p.hint v) :
    c.call pick pos kw = .ok (c.fields.map fun f => (f.1, fieldValue c pos kw f.1)) :=
  Called.respects_signature pick c (parameters_are_fields c hc) (signatures c hc) pos kw h ht

private def usual (c p : Str) : Option PyVal → Bool
  | none => true
  | some .none => !(c = s%"Package" && p = s%"files_analyzed") && !(c = s%"CreationInfo" && p = s%"data_license")
  | some (.bool b) => b && c = s%"Package" && p = s%"files_analyzed"
  | some (.str d) => !(c = s%"Package" && p = s%"files_analyzed") && c = s%"CreationInfo" && p = s%"data_license" && d = s%"CC0-1.0"
  | some _ => false

private theorem default_table : ∀ c ∈ V2.classes, ∀ p ∈ c.params, usual c.name p.name p.default = true := by decide +kernel

/-- The values taken for arguments that are left out. -/
theorem defaults (c : SClass) (hc : c ∈ V2.classes) (p : SParam) (hp : p ∈ c.params) (d : PyVal) (hd : p.default = some d) :
    d = default2 c.name p.name := by
  have h := default_table c hc p hp
  rw [hd] at h
  unfold default2
  cases d <;> simp [usual] at h
  · rw [if_neg (fun e => h.1.elim (absurd e.1) (absurd e.2)), if_neg (fun e => h.2.elim (absurd e.1) (absurd e.2))]
  · rw [if_pos ⟨h.1.2, h.2⟩, h.1.1]
  · rw [if_neg (fun e => h.1.1.1.elim (absurd e.1) (absurd e.2)), if_pos ⟨h.1.1.2, h.1.2⟩, h.2]

private def takesNone : Hint → Bool
  | .optional _ => true
  | .or a b => takesNone a || takesNone b
  | _ => false

private theorem takesNone_iff (pick : List PyVal → Nat) (h : Hint) : h.accepts pick .none = takesNone h := by
  induction h with
  | or a b iha ihb => simp [Hint.accepts, takesNone, iha, ihb]
  | _ => rfl

private def isList : Hint → Bool
  | .list _ => true
  | _ => false

private def isNone : Option PyVal → Bool
  | some .none => true
  | _ => false

private theorem isNone_iff (d : Option PyVal) : isNone d = true ↔ d = some .none := by
  unfold isNone
  split
  · simp
  · rename_i h
    constructor
    · intro e; cases e
    · rintro rfl; exact absurd rfl h

private def noneTaken (c : SClass) (f : Str × Hint) : Bool :=
  match c.filled.find? (·.1 = f.1) with
  | some (_, .list []) => isList f.2
  | some _ => false
  | none => takesNone f.2

private theorem none_table : ∀ c ∈ V2.classes, ∀ p ∈ c.params, ∀ f ∈ c.fields,
    (!decide (f.1 = p.name) || (noneTaken c f == isNone p.default)) = true := by decide +kernel

private theorem filled_table : ∀ c ∈ V2.classes, ∀ f ∈ c.filled, (match f.2 with | .list [] => true | _ => false) = true := by decide +kernel

/-- `None` may be given exactly for the parameters whose default it is; for those with a list it stands for the empty list. -/
theorem none_given (pick : List PyVal → Nat) (c : SClass) (hc : c ∈ V2.classes) (p : SParam) (hp : p ∈ c.params) (h : Hint)
    (hf : (p.name, h) ∈ c.fields) :
    h.accepts pick (if p.name ∈ c.filled.map (·.1) then .list [] else .none) = true ↔ p.default = some .none := by
  have ht := none_table c hc p hp _ hf
  simp only [decide_true, Bool.not_true, Bool.false_or, beq_iff_eq] at ht
  rw [← isNone_iff, ← ht]
  unfold noneTaken
  by_cases hm : p.name ∈ c.filled.map (·.1)
  · rw [if_pos hm]
    obtain ⟨x, hx, e⟩ := List.mem_map.1 hm
    cases hfd : c.filled.find? (·.1 = p.name) with
    | none => exact absurd (List.find?_eq_none.1 hfd x hx) (by simp [e])
    | some y =>
      obtain ⟨k, v⟩ := y
      have hv := filled_table c hc _ (List.mem_of_find?_eq_some hfd)
      dsimp only at hv ⊢
      split at hv
      · have hl : isList h = true ∨ isList h = false := by cases isList h <;> simp
        have ht' := ht
        unfold noneTaken at ht'
        cases h with
        | list h => simp [Hint.accepts, isList]
        | _ =>
          have hk := list_table c hc _ hf
          simp [isList, hm] at hk
      · cases hv
  · rw [if_neg hm, takesNone_iff]
    have : c.filled.find? (·.1 = p.name) = none := List.find?_eq_none.2 fun x hx => by
      simp only [decide_eq_true_eq]
      exact fun e => hm (List.mem_map.2 ⟨x, hx, e⟩)
    rw [this]
where
  list_table : ∀ c ∈ V2.classes, ∀ f ∈ c.fields, (!decide (f.1 ∈ c.filled.map (·.1)) || isList f.2) = true := by decide +kernel

/-! ## Assignments -/

/-- An assignment succeeds if and only if the field accepts the value; a rejected one changes nothing at all. -/
theorem assigned_iff (pick : List PyVal → Nat) (c : SClass) (hc : c ∈ V2.classes) (obj : Dict Str PyVal) (n : Str) (h : Hint)
    (hm : (n, h) ∈ c.fields) (v : PyVal) : ((c.assign pick obj n v).2 = true ↔ h.accepts pick v = true) ∧
      ((c.assign pick obj n v).2 = false → (c.assign pick obj n v).1 = obj) :=
  Called.assigned_iff pick c (parameters_are_fields c hc) obj n h hm v

/-- After any assignments, each field holds the last value assigned to it that it accepts, or what it held before. -/
theorem last_accepted (pick : List PyVal → Nat) (c : SClass) (hc : c ∈ V2.classes) (obj : Dict Str PyVal) (steps : List (Str × PyVal)) (n : Str)
    (h : Hint) (hm : (n, h) ∈ c.fields) : (afterwards pick c obj steps).get? n =
      ((steps.reverse.find? fun s => s.1 = n ∧ h.accepts pick s.2 = true).map (·.2)).or (obj.get? n) :=
  Called.last_accepted pick c (parameters_are_fields c hc) obj steps n h hm

/-- No field of an object ever holds a value it rejects, whatever is assigned to it. -/
theorem always_typed (pick : List PyVal → Nat) (c : SClass) (hc : c ∈ V2.classes) (pos : List PyVal) (kw : List (Str × PyVal))
    (obj : Dict Str PyVal) (hm : c.call pick pos kw = .ok obj) (steps : List (Str × PyVal)) (n : Str) (h : Hint) (hf : (n, h) ∈ c.fields) :
    ∃ v, (afterwards pick c obj steps).get? n = some v ∧ h.accepts pick v = true :=
  Called.always_typed pick c (parameters_are_fields c hc) pos kw obj hm steps n h hf

private theorem lists_reject_none : ∀ c ∈ V2.classes, ∀ f ∈ c.fields, (!decide (f.1 ∈ c.filled.map (·.1)) || !takesNone f.2) = true := by decide +kernel

/-- The values of an object, whatever has been assigned to it, make an equal object if they are given to its class in the order of the
    parameters. -/
theorem copies (pick : List PyVal → Nat) (c : SClass) (hc : c ∈ V2.classes) (pos : List PyVal) (kw : List (Str × PyVal))
    (obj : Dict Str PyVal) (hm : c.call pick pos kw = .ok obj) (steps : List (Str × PyVal)) :
    ∃ copy, c.call pick (valuesOf c (afterwards pick c obj steps)) [] = .ok copy ∧
      ∀ n ∈ c.fields.map (·.1), copy.get? n = (afterwards pick c obj steps).get? n := by
  have hw := parameters_are_fields c hc
  have ho : ∀ f ∈ c.fields, ∃ v, (afterwards pick c obj steps).get? f.1 = some v ∧ f.2.accepts pick v = true :=
    fun f hf => always_typed pick c hc pos kw obj hm steps f.1 f.2 hf
  refine ⟨_, Called.copied pick c hw (fun f hf hl => ?_) _ ho, fun n hn => ?_⟩
  · rw [takesNone_iff]
    simpa [hl] using lists_reject_none c hc f hf
  · obtain ⟨f, hf, rfl⟩ := List.mem_map.1 hn
    obtain ⟨v, e, _⟩ := ho f hf
    rw [e]
    refine Dict.get?_of_mem _ ?_ _ _ (List.mem_map.2 ⟨f, hf, by rw [e]; rfl⟩)
    show ((c.fields.map fun f => (f.1, ((afterwards pick c obj steps).get? f.1).getD .none)).map (·.1)).Nodup
    rw [List.map_map]
    exact hw.2.1

/-- The order in which keyword arguments are given makes no difference: the same object, or the same type errors. -/
theorem keyword_order (pick : List PyVal → Nat) (c : SClass) (hc : c ∈ V2.classes) (pos : List PyVal) (kw kw' : List (Str × PyVal))
    (hn : (kw.map (·.1)).Nodup) (hp : kw.Perm kw') :
    (∀ obj, c.call pick pos kw = .ok obj ↔ c.call pick pos kw' = .ok obj) ∧
    (∀ es, c.call pick pos kw = .error (.types es) ↔ c.call pick pos kw' = .error (.types es)) :=
  Called.keyword_order pick c (parameters_are_fields c hc) pos hn hp

/-- The classes and fields are those of C44, which considers the loop of the constructors alone. -/
theorem same_tables : V2.classes.map (fun c => (c.name, c.fields.map fun f => (f.1, f.2, decide (f.1 ∈ c.filled.map (·.1))))) =
    modelClasses.map fun c => (c.name, c.fields.map fun f => (f.name, f.hint, f.listDefault)) := by decide +kernel

/-! ## Examples -/

private def anyPick : List PyVal → Nat := fun _ => 0

private def id1 : PyVal := .str s%"SPDXRef-p"

-- A package, with arguments by position and by name.
private theorem package_made : ∃ obj, V2.package.call anyPick [id1, .str s%"n"] [(s%"version", .str s%"1"), (s%"download_location", .obj s%"SpdxNone" 0)] = .ok obj ∧
    obj.get? s%"files_analyzed" = some (.bool true) ∧ obj.get? s%"checksums" = some (.list []) ∧ obj.get? s%"version" = some (.str s%"1") ∧
    obj.get? s%"summary" = some .none := ⟨_, rfl, rfl, rfl, rfl, rfl⟩
example : V2.package ∈ V2.classes := by simp [V2.classes]
example : ∃ obj, V2.package.call anyPick [id1, .str s%"n"] [(s%"download_location", .obj s%"SpdxNone" 0), (s%"version", .str s%"1")] = .ok obj := by
  obtain ⟨obj, h, _⟩ := package_made
  exact ⟨obj, ((keyword_order anyPick V2.package (by simp [V2.classes]) _ _ _ (by decide) (.swap _ _ [])).1 obj).1 h⟩
example : V2.package.call anyPick [id1, .int 1] [(s%"download_location", .none), (s%"files_analyzed", .none), (s%"checksums", .none)] =
    .error (.types [s%"name", s%"download_location", s%"files_analyzed"]) := rfl
example : V2.package.call anyPick [] [] = .error (.missing [s%"spdx_id", s%"name", s%"download_location"]) := rfl
example : V2.checksum.call anyPick [.obj s%"ChecksumAlgorithm" 0, .str [], .str []] [] = .error .tooMany := rfl
example : V2.checksum.call anyPick [.obj s%"ChecksumAlgorithm" 0] [(s%"algorithm", .str [])] = .error (.twice s%"algorithm") := rfl
example : ∃ obj, V2.extractedLicensingInfo.call anyPick [] [] = .ok obj := ⟨_, rfl⟩
-- An accepted and a rejected assignment, and a copy.
example : afterwards anyPick V2.checksum [(s%"algorithm", .obj s%"ChecksumAlgorithm" 0), (s%"value", .str s%"a")]
    [(s%"value", .str s%"b"), (s%"algorithm", .str s%"MD5")] = [(s%"algorithm", .obj s%"ChecksumAlgorithm" 0), (s%"value", .str s%"b")] := rfl
example : V2.checksum.call anyPick (valuesOf V2.checksum [(s%"algorithm", .obj s%"ChecksumAlgorithm" 0), (s%"value", .str s%"b")]) [] =
    .ok [(s%"algorithm", .obj s%"ChecksumAlgorithm" 0), (s%"value", .str s%"b")] := rfl

end Spdx.C85
