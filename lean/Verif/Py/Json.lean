import Verif.Py.Text
/-
JSON-like trees: what `json.load`, `yaml.safe_load` and `xmltodict.parse` deliver and what the writers hand to
`json.dump` etc.  Floating point numbers do not occur in SPDX documents and are left out.
-/
namespace Spdx

/-- A Python value made of dicts, lists, strings, ints, bools and None. A dict is an association list with distinct keys. -/
inductive Json where
  | null
  | bool (b : Bool)
  | num (i : Int)
  | str (s : Str)
  | arr (l : List Json)
  | obj (l : List (Str × Json))
deriving Repr, Inhabited

mutual
/-- Decidable equality of JSON trees. -/
def Json.decEq : (a b : Json) → Decidable (a = b)
  | .null, .null => isTrue rfl
  | .bool a, .bool b => if h : a = b then isTrue (by rw [h]) else isFalse (by simpa using h)
  | .num a, .num b => if h : a = b then isTrue (by rw [h]) else isFalse (by simpa using h)
  | .str a, .str b => if h : a = b then isTrue (by rw [h]) else isFalse (by simpa using h)
  | .arr a, .arr b => match Json.decEqList a b with
    | isTrue h => isTrue (by rw [h])
    | isFalse h => isFalse (by simpa using h)
  | .obj a, .obj b => match Json.decEqObj a b with
    | isTrue h => isTrue (by rw [h])
    | isFalse h => isFalse (by simpa using h)
  | .null, .bool _ | .null, .num _ | .null, .str _ | .null, .arr _ | .null, .obj _
  | .bool _, .null | .bool _, .num _ | .bool _, .str _ | .bool _, .arr _ | .bool _, .obj _
  | .num _, .null | .num _, .bool _ | .num _, .str _ | .num _, .arr _ | .num _, .obj _
  | .str _, .null | .str _, .bool _ | .str _, .num _ | .str _, .arr _ | .str _, .obj _
  | .arr _, .null | .arr _, .bool _ | .arr _, .num _ | .arr _, .str _ | .arr _, .obj _
  | .obj _, .null | .obj _, .bool _ | .obj _, .num _ | .obj _, .str _ | .obj _, .arr _ => isFalse (by simp)
def Json.decEqList : (a b : List Json) → Decidable (a = b)
  | [], [] => isTrue rfl
  | [], _ :: _ | _ :: _, [] => isFalse (by simp)
  | a :: as, b :: bs => match Json.decEq a b, Json.decEqList as bs with
    | isTrue h, isTrue h' => isTrue (by rw [h, h'])
    | isFalse h, _ => isFalse (by simp [h])
    | _, isFalse h => isFalse (by simp [h])
def Json.decEqObj : (a b : List (Str × Json)) → Decidable (a = b)
  | [], [] => isTrue rfl
  | [], _ :: _ | _ :: _, [] => isFalse (by simp)
  | (k, a) :: as, (k', b) :: bs =>
    if hk : k = k' then
      match Json.decEq a b, Json.decEqObj as bs with
      | isTrue h, isTrue h' => isTrue (by rw [hk, h, h'])
      | isFalse h, _ => isFalse (by simp [h])
      | _, isFalse h => isFalse (by simp [h])
    else isFalse (by simp [hk])
end

instance : DecidableEq Json := Json.decEq

/-- Python truthiness of such a value (`if value:`). -/
def Json.truthy : Json → Bool
  | .null => false
  | .bool b => b
  | .num i => i ≠ 0
  | .str s => !s.isEmpty
  | .arr l => !l.isEmpty
  | .obj l => !l.isEmpty

/-- `d.get(key)` on an association list: the value, or `none` when the key is missing. -/
def dictGet (l : List (Str × α)) (k : Str) : Option α := List.lookup k l

end Spdx
