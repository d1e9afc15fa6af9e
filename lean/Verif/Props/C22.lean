import Verif.Model.JsonReading
/-
C22 – Control characters are removed from JSON text values.
-/
namespace Spdx.C22
open Spdx

/-! ### Specification -/

/-- Backspace and form feed. -/
def isControl (c : Char) : Prop := c = '\x08' ∨ c = '\x0c'

instance (c : Char) : Decidable (isControl c) := by unfold isControl; infer_instance

mutual
/-- Delete the control characters from every text value at any depth; keys, structure and order stay. -/
def strip : Json → Json
  | .str s => .str (s.filter fun c => !decide (isControl c))
  | .arr l => .arr (stripL l)
  | .obj l => .obj (stripO l)
  | .null => .null
  | .bool b => .bool b
  | .num n => .num n
def stripL : List Json → List Json
  | [] => []
  | j :: js => strip j :: stripL js
def stripO : List (Str × Json) → List (Str × Json)
  | [] => []
  | (k, v) :: ps => (k, strip v) :: stripO ps
end

mutual
/-- No object repeats a key. -/
def Distinct : Json → Prop
  | .arr l => DistinctL l
  | .obj l => (l.map (·.1)).Nodup ∧ DistinctO l
  | _ => True
def DistinctL : List Json → Prop
  | [] => True
  | j :: js => Distinct j ∧ DistinctL js
def DistinctO : List (Str × Json) → Prop
  | [] => True
  | (_, v) :: ps => Distinct v ∧ DistinctO ps
end

mutual
/-- No text value at any depth contains a control character. -/
def Clean : Json → Prop
  | .str s => ∀ c ∈ s, ¬ isControl c
  | .arr l => CleanL l
  | .obj l => CleanO l
  | _ => True
def CleanL : List Json → Prop
  | [] => True
  | j :: js => Clean j ∧ CleanL js
def CleanO : List (Str × Json) → Prop
  | [] => True
  | (_, v) :: ps => Clean v ∧ CleanO ps
end

/-! ### Theorems -/

private theorem control_iff (c : Char) : (c.toNat == 8 || c.toNat == 12) = decide (isControl c) := by
  have h : ∀ d : Char, c.toNat = d.toNat ↔ c = d := fun d =>
    ⟨fun h => Char.toNat_inj.1 h, fun h => by rw [h]⟩
  have e1 : c.toNat = 8 ↔ c = '\x08' := h '\x08'
  have e2 : c.toNat = 12 ↔ c = '\x0c' := h '\x0c'
  rw [Bool.eq_iff_iff, decide_eq_true_iff]
  unfold isControl
  simp [e1, e2]

private theorem stripControl_eq (s : Str) : stripControl s = s.filter fun c => !decide (isControl c) := by
  unfold stripControl; congr 1; funext c; rw [control_iff]

private theorem loadPairs_keys (l : List (Str × Json)) : (loadPairs l).map (·.1) = l.map (·.1) := by
  induction l with
  | nil => rfl
  | cons p ps ih => simp [loadPairs, ih]

mutual
private theorem clean_load (j : Json) (h : Distinct j) : cleanValue (loadJson j) = strip j := by
  match j with
  | .null | .bool _ | .num _ => simp [loadJson, cleanValue, strip]
  | .str s => simp [loadJson, cleanValue, strip, stripControl_eq]
  | .arr l => simp only [loadJson, cleanValue, strip]; rw [clean_loadL l h]
  | .obj l =>
    simp only [loadJson, cleanValue, strip]
    rw [Dict.update_fresh _ _ (by rw [loadPairs_keys]; exact h.1) (by simp [Dict.keys]), clean_loadO l h.2]; simp
private theorem clean_loadL (l : List Json) (h : DistinctL l) : cleanValues (loadJsons l) = stripL l := by
  match l with
  | [] => rfl
  | j :: js => simp only [loadJsons, cleanValues, stripL]; rw [clean_load j h.1, clean_loadL js h.2]
private theorem clean_loadO (l : List (Str × Json)) (h : DistinctO l) : loadPairs l = stripO l := by
  match l with
  | [] => rfl
  | (k, v) :: ps => simp only [loadPairs, stripO]; rw [clean_load v h.1, clean_loadO ps h.2]
end

/-- Reading a JSON object deletes the control characters from all text values and changes nothing else. -/
theorem reads_stripped (fields : List (Str × Json)) (h : Distinct (.obj fields)) :
    loadJson (.obj fields) = strip (.obj fields) := by
  have := clean_load (.obj fields) h
  simpa only [loadJson, cleanValue] using this

mutual
private theorem strip_clean (j : Json) : Clean (strip j) := by
  match j with
  | .null | .bool _ | .num _ => simp [strip, Clean]
  | .str s => simp [strip, Clean]
  | .arr l => simp only [strip, Clean]; exact strip_cleanL l
  | .obj l => simp only [strip, Clean]; exact strip_cleanO l
private theorem strip_cleanL (l : List Json) : CleanL (stripL l) := by
  match l with
  | [] => trivial
  | j :: js => exact ⟨strip_clean j, strip_cleanL js⟩
private theorem strip_cleanO (l : List (Str × Json)) : CleanO (stripO l) := by
  match l with
  | [] => trivial
  | (k, v) :: ps => exact ⟨strip_clean v, strip_cleanO ps⟩
end

mutual
private theorem clean_strip (j : Json) (h : Clean j) : strip j = j := by
  match j with
  | .null | .bool _ | .num _ => rfl
  | .str s => simp only [strip, Json.str.injEq, List.filter_eq_self]; intro c hc; simp [h c hc]
  | .arr l => simp only [strip]; rw [clean_stripL l h]
  | .obj l => simp only [strip]; rw [clean_stripO l h]
private theorem clean_stripL (l : List Json) (h : CleanL l) : stripL l = l := by
  match l with
  | [] => rfl
  | j :: js => simp only [stripL]; rw [clean_strip j h.1, clean_stripL js h.2]
private theorem clean_stripO (l : List (Str × Json)) (h : CleanO l) : stripO l = l := by
  match l with
  | [] => rfl
  | (k, v) :: ps => simp only [stripO]; rw [clean_strip v h.1, clean_stripO ps h.2]
end

/-- Afterwards no text value contains one (whether or not keys are repeated, see `result_clean`). -/
theorem result_clean_distinct (fields : List (Str × Json)) (h : Distinct (.obj fields)) : Clean (loadJson (.obj fields)) := by
  rw [reads_stripped fields h]; exact strip_clean _

/-- Documents without control characters are read unchanged. -/
theorem clean_unchanged (fields : List (Str × Json)) (h : Distinct (.obj fields)) (hc : Clean (.obj fields)) :
    loadJson (.obj fields) = .obj fields := by
  rw [reads_stripped fields h, clean_strip _ hc]

private theorem cleanO_iff (l : List (Str × Json)) : CleanO l ↔ ∀ p ∈ l, Clean p.2 := by
  induction l with
  | nil => simp [CleanO]
  | cons p ps ih => obtain ⟨k, v⟩ := p; simp [CleanO, ih]
private theorem cleanO_set (d : Dict Str Json) (k : Str) (v : Json) (hd : CleanO d) (hv : Clean v) : CleanO (d.set k v) := by
  induction d with
  | nil => exact ⟨hv, trivial⟩
  | cons p ps ih =>
    obtain ⟨a, b⟩ := p
    unfold Dict.set
    split
    · exact ⟨hv, hd.2⟩
    · exact ⟨hd.1, ih hd.2⟩
private theorem cleanO_update (d : Dict Str Json) (l : List (Str × Json)) (hd : CleanO d) (hl : CleanO l) : CleanO (d.update l) := by
  unfold Dict.update
  induction l generalizing d with
  | nil => exact hd
  | cons p ps ih => obtain ⟨k, v⟩ := p; exact ih _ (cleanO_set d k v hd hl.1) hl.2

mutual
private theorem loaded (j : Json) : Clean (cleanValue (loadJson j)) := by
  match j with
  | .null | .bool _ | .num _ => simp [loadJson, cleanValue, Clean]
  | .str s => simp [loadJson, cleanValue, Clean, stripControl_eq]
  | .arr l => simp only [loadJson, cleanValue, Clean]; exact loadedL l
  | .obj l => simp only [loadJson, cleanValue, Clean]; exact cleanO_update _ _ trivial (loadedO l)
private theorem loadedL (l : List Json) : CleanL (cleanValues (loadJsons l)) := by
  match l with
  | [] => trivial
  | j :: js => exact ⟨loaded j, loadedL js⟩
private theorem loadedO (l : List (Str × Json)) : CleanO (loadPairs l) := by
  match l with
  | [] => trivial
  | (k, v) :: ps => exact ⟨loaded v, loadedO ps⟩
end

/-- The same for objects with repeated keys. -/
theorem result_clean (fields : List (Str × Json)) : Clean (loadJson (.obj fields)) := by
  simp only [loadJson, Clean]; exact cleanO_update _ _ trivial (loadedO fields)

/-- Of repeated keys the last value counts. -/
theorem last_key_wins (before after : List (Str × Json)) (k : Str) (v : Json) (h : ∀ p ∈ after, p.1 ≠ k) (hv : Distinct v) :
    ∃ l, loadJson (.obj (before ++ (k, v) :: after)) = .obj l ∧ Dict.get? l k = some (strip v) := by
  refine ⟨_, rfl, ?_⟩
  have e : ∀ a b : List (Str × Json), loadPairs (a ++ b) = loadPairs a ++ loadPairs b := by
    intro a b
    induction a with
    | nil => rfl
    | cons p ps ih => simp [loadPairs, ih]
  have hk : ∀ p ∈ loadPairs after, p.1 ≠ k := by
    intro p hp
    have : p.1 ∈ (loadPairs after).map (·.1) := List.mem_map.2 ⟨p, hp, rfl⟩
    rw [loadPairs_keys] at this
    obtain ⟨q, hq, he⟩ := List.mem_map.1 this
    rw [← he]; exact h q hq
  rw [Dict.get?_update, e]
  simp only [loadPairs, List.reverse_append, List.reverse_cons, List.append_assoc, List.find?_append]
  rw [List.find?_eq_none.2 (by simpa using hk)]
  simp [clean_load v hv]

/-- Keys are not cleaned. -/
theorem key_not_cleaned : loadJson (.obj [(s%"a\x08", .null)]) = .obj [(s%"a\x08", .null)] := by decide +kernel

/-! Non-vacuity -/
private def sample : List (Str × Json) :=
  [(s%"a", .str s%"x\x08y"), (s%"b", .arr [.str s%"\x0c", .arr [.str s%"p\x0cq"], .obj [(s%"c", .str s%"\x08z"), (s%"n", .num 8)]])]
example : Distinct (.obj sample) := by simp [sample, Distinct, DistinctO, DistinctL]
example : loadJson (.obj sample) =
    .obj [(s%"a", .str s%"xy"), (s%"b", .arr [.str [], .arr [.str s%"pq"], .obj [(s%"c", .str s%"z"), (s%"n", .num 8)]])] := by
  decide +kernel

end Spdx.C22
