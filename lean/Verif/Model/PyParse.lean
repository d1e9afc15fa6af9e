import Verif.Py.Json
import Verif.Model.DocumentUtils
/-
The machinery shared by the parsers of JSON-like trees: Python exceptions, loggers, untyped access and run-time type checks.
spdx/parser/error.py, spdx/parser/logger.py, spdx/parser/parsing_functions.py, spdx/parser/jsonlikedict/dict_parsing_functions.py,
common/typing/type_checks.py
-/
namespace Spdx

/-- A message collected while parsing. -/
inductive PMsg where
  /-- a message with a fixed text -/
  | text (s : Str)
  /-- `f"Invalid {what}: {value}"` -/
  | invalid (what : Str) (value : Json)
  /-- `f"Error while parsing {what}: {inner}"` -/
  | wrapped (what : Str) (inner : List PMsg)
  /-- `f"Error while constructing {cls}: [...]"`: one message for each of the fields, of which only the name is kept here -/
  | constructing (cls : Str) (fields : List Str)
  /-- `f"{m}. Line: {line}"` (only in `Model/TagValueMessages`) -/
  | atLine (line : Nat) (m : PMsg)
deriving Repr, Inhabited

mutual
/-- Decidable equality of messages. -/
def PMsg.decEq : (a b : PMsg) → Decidable (a = b)
  | .text a, .text b => if h : a = b then isTrue (by rw [h]) else isFalse (by simpa using h)
  | .invalid a x, .invalid b y =>
    if h : a = b then if h' : x = y then isTrue (by rw [h, h']) else isFalse (by simp [h']) else isFalse (by simp [h])
  | .wrapped a x, .wrapped b y =>
    if h : a = b then match PMsg.decEqList x y with
      | isTrue h' => isTrue (by rw [h, h'])
      | isFalse h' => isFalse (by simp [h'])
    else isFalse (by simp [h])
  | .constructing a x, .constructing b y =>
    if h : a = b then if h' : x = y then isTrue (by rw [h, h']) else isFalse (by simp [h']) else isFalse (by simp [h])
  | .atLine a x, .atLine b y =>
    if h : a = b then match PMsg.decEq x y with
      | isTrue h' => isTrue (by rw [h, h'])
      | isFalse h' => isFalse (by simp [h'])
    else isFalse (by simp [h])
  | .text _, .invalid .. | .text _, .wrapped .. | .text _, .constructing .. | .text _, .atLine ..
  | .invalid .., .text _ | .invalid .., .wrapped .. | .invalid .., .constructing .. | .invalid .., .atLine ..
  | .wrapped .., .text _ | .wrapped .., .invalid .. | .wrapped .., .constructing .. | .wrapped .., .atLine ..
  | .constructing .., .text _ | .constructing .., .invalid .. | .constructing .., .wrapped .. | .constructing .., .atLine ..
  | .atLine .., .text _ | .atLine .., .invalid .. | .atLine .., .wrapped .. | .atLine .., .constructing .. => isFalse (by simp)
def PMsg.decEqList : (a b : List PMsg) → Decidable (a = b)
  | [], [] => isTrue rfl
  | [], _ :: _ | _ :: _, [] => isFalse (by simp)
  | a :: as, b :: bs => match PMsg.decEq a b, PMsg.decEqList as bs with
    | isTrue h, isTrue h' => isTrue (by rw [h, h'])
    | isFalse h, _ => isFalse (by simp [h])
    | _, isFalse h => isFalse (by simp [h])
end
instance : DecidableEq PMsg := PMsg.decEq

/-- The exceptions that occur. -/
inductive PyErr where
  /-- `SPDXParsingError` with its messages (spdx/parser/error.py) -/
  | parsing (msgs : List PMsg)
  /-- `TypeError` -/
  | type (m : Str)
  /-- `ValueError` -/
  | value (m : Str)
  /-- `AttributeError`, `KeyError` and others that the parser functions do not catch -/
  | other (m : Str)
deriving Repr, DecidableEq

/-- A Python computation that may raise. -/
abbrev Py (α : Type) := Except PyErr α

/-- What `except SPDXParsingError … except (TypeError, ValueError)` adds to the logger; `none`: not caught
    (dict_parsing_functions.py L32-35, L45-48). -/
def PyErr.logged : PyErr → Option (List PMsg)
  | .parsing ms => some ms
  | .type m => some [.text m]
  | .value m => some [.text m]
  | .other _ => none

/-- A computation with a logger (spdx/parser/logger.py): it may raise, or return its messages in order and a value. -/
def P (α : Type) := Except PyErr (List PMsg × α)

instance [DecidableEq α] : DecidableEq (P α) := inferInstanceAs (DecidableEq (Except _ _))

def P.pure (a : α) : P α := .ok ([], a)

def P.bind (x : P α) (f : α → P β) : P β :=
  match x with
  | .error e => .error e
  | .ok (ms, a) => match f a with
    | .error e => .error e
    | .ok (ms', b) => .ok (ms ++ ms', b)

instance : Monad P where
  pure := P.pure
  bind := P.bind

/-- A computation that logs nothing. -/
def Py.lift (x : Py α) : P α :=
  match x with
  | .ok a => .ok ([], a)
  | .error e => .error e

/-- `raise_parsing_error_if_logger_has_messages(logger)` (parsing_functions.py L21-26) and then the value -/
def P.orRaise (p : P α) : Py α :=
  match p with
  | .error e => .error e
  | .ok ([], a) => .ok a
  | .ok (m :: ms, _) => .error (.parsing (m :: ms))

/-- `raise_parsing_error_if_logger_has_messages(logger, what)` -/
def P.orRaiseIn (what : Str) (p : P α) : Py α :=
  match p with
  | .error e => .error e
  | .ok ([], a) => .ok a
  | .ok (m :: ms, _) => .error (.parsing [.wrapped what (m :: ms)])

/-- `d.get(key, default)`; `AttributeError` when `d` is no dict -/
def pyGetD (d : Json) (k : Str) (dflt : Json) : Py Json :=
  match d with
  | .obj l => .ok ((dictGet l k).getD dflt)
  | _ => .error (.other s%"get")

/-- `d.get(key)` -/
def pyGet (d : Json) (k : Str) : Py Json := pyGetD d k .null

/-- The items of `for x in value`. -/
def pyIter : Json → Py (List Json)
  | .arr l => .ok l
  | .str s => .ok (s.map fun c => .str [c])
  | .obj l => .ok (l.map fun kv => .str kv.1)
  | _ => .error (.type s%"not iterable")

/-- `key in value` for a text key -/
def pyIn (k : Str) : Json → Py Bool
  | .obj l => .ok (dictGet l k).isSome
  | .arr l => .ok (l.contains (.str k))
  | .str s => .ok (isInfix k s)
  | _ => .error (.type s%"not iterable")

/-- `value[key]` for a text key -/
def pyIndex (k : Str) : Json → Py Json
  | .obj l => match dictGet l k with
    | some v => .ok v
    | none => .error (.other s%"KeyError")
  | _ => .error (.type s%"not subscriptable")

/-- dict_parsing_functions.py L18-36 `parse_field_or_log_error`; `none` is the default -/
def parseField (j : Json) (m : Json → Py α) : P (Option α) :=
  if j.truthy then
    match m j with
    | .ok a => .ok ([], some a)
    | .error e => match e.logged with
      | some ms => .ok (ms, none)
      | none => .error e
  else .ok ([], none)

/-- dict_parsing_functions.py L39-49 `append_parsed_field_or_log_error`, for all items of a list in turn -/
def collect (m : Json → Py α) : List Json → P (List α)
  | [] => .ok ([], [])
  | j :: js =>
    match m j with
    | .ok a => match collect m js with
      | .ok (ms, as) => .ok (ms, a :: as)
      | .error e => .error e
    | .error e => match e.logged with
      | some ms' => match collect m js with
        | .ok (ms, as) => .ok (ms' ++ ms, as)
        | .error e => .error e
      | none => .error e

/-- dict_parsing_functions.py L68-77 `parse_list_of_elements` -/
def parseList (m : Json → Py α) (j : Json) : Py (List α) := do
  let l ← pyIter j
  (collect m l).orRaise

/-- dict_parsing_functions.py L52-58 `parse_field_or_no_assertion_or_none` -/
def parseSpecial (j : Json) : OrSpecial Json :=
  if j = .str s%"NOASSERTION" then .noAssertion
  else if j = .str s%"NONE" then .none
  else .val j

/-- dict_parsing_functions.py L61-65 `parse_field_or_no_assertion` -/
def parseNoAssertion (j : Json) : OrNoAssertion Json :=
  if j = .str s%"NOASSERTION" then .noAssertion else .val j

/-- Dict keys that are equal although they are different values: `True == 1`. -/
def pyKey : Json → Json
  | .bool b => .num (if b then 1 else 0)
  | j => j

/-- Lists and dicts cannot be dict keys. -/
def Json.hashable : Json → Bool
  | .arr _ | .obj _ => false
  | _ => true

/-- dict_parsing_functions.py L80-82 `delete_duplicates_from_list` -/
def deleteDuplicates (j : Json) : Py (List Json) := do
  let l ← pyIter j
  if l.all Json.hashable then .ok (dedup (fun a b => pyKey a = pyKey b) l) else .error (.type s%"unhashable type")

/-- The outcome of `check_types_and_set_values` (common/typing/type_checks.py L11-31): the object, or the fields whose setter raised
    `TypeError`, in order. -/
def Check (α : Type) := Except (List Str) α

/-- All the fields are checked, whether or not an earlier one failed. -/
def Check.ap (f : Check (α → β)) (a : Check α) : Check β :=
  match f, a with
  | .ok f, .ok a => .ok (f a)
  | .ok _, .error e => .error e
  | .error e, .ok _ => .error e
  | .error e, .error e' => .error (e ++ e')

@[inherit_doc] infixl:60 " ⊛ " => Check.ap

/-- parsing_functions.py L11-18 `construct_or_raise_parsing_error` -/
def construct (cls : Str) (c : Check α) : Py α :=
  match c with
  | .ok a => .ok a
  | .error fs => .error (.parsing [.constructing cls fs])

/-! The setters' checks (`beartype`), by type hint.  `beartype` looks at one item of a list only, chosen at random; the model
checks them all, so that it reports an error where the program may or may not. -/

def chkStr (fld : Str) : Json → Check Str
  | .str s => .ok s
  | _ => .error [fld]

def chkOptStr (fld : Str) : Json → Check (Option Str)
  | .null => .ok none
  | .str s => .ok (some s)
  | _ => .error [fld]

def chkBool (fld : Str) : Json → Check Bool
  | .bool b => .ok b
  | _ => .error [fld]

/-- The texts of a list all of whose items are texts. -/
def allStrs : List Json → Option (List Str)
  | [] => some []
  | .str s :: l => (allStrs l).map (s :: ·)
  | _ :: _ => none

/-- `List[str]`, where `None` was replaced by the empty list before -/
def chkStrList (fld : Str) : Json → Check (List Str)
  | .null => .ok []
  | .arr l => match allStrs l with
    | some ss => .ok ss
    | none => .error [fld]
  | _ => .error [fld]

/-- a required value that is `None` or has the right type -/
def chkSome (fld : Str) : Option α → Check α
  | some a => .ok a
  | none => .error [fld]

/-- a list (with `None` replaced by the empty list before) whose items are `None` or have the right type -/
def chkAll (fld : Str) : Option (List (Option α)) → Check (List α)
  | none => .ok []
  | some l => match l.mapM id with
    | some as => .ok as
    | none => .error [fld]

/-- `Optional[Union[str, SpdxNoAssertion, SpdxNone]]` -/
def chkOptSpecial (fld : Str) : OrSpecial Json → Check (Option (OrSpecial Str))
  | .noAssertion => .ok (some .noAssertion)
  | .none => .ok (some .none)
  | .val .null => .ok none
  | .val (.str s) => .ok (some (.val s))
  | .val _ => .error [fld]

/-- `Union[str, SpdxNoAssertion, SpdxNone]` -/
def chkSpecial (fld : Str) : OrSpecial Json → Check (OrSpecial Str)
  | .noAssertion => .ok .noAssertion
  | .none => .ok .none
  | .val (.str s) => .ok (.val s)
  | .val _ => .error [fld]

/-- `Optional[Union[str, SpdxNoAssertion]]` -/
def chkOptNoAssertion (fld : Str) : OrNoAssertion Json → Check (Option (OrNoAssertion Str))
  | .noAssertion => .ok (some .noAssertion)
  | .val .null => .ok none
  | .val (.str s) => .ok (some (.val s))
  | .val _ => .error [fld]

/-- `int` (a `bool` is one) -/
def pyInt? : Json → Option Int
  | .num i => some i
  | .bool b => some (if b then 1 else 0)
  | _ => none

/-- `Optional[Tuple[int, int]]` -/
def chkOptRange (fld : Str) : Option (Json × Json) → Check (Option (Int × Int))
  | none => .ok none
  | some (a, b) => match pyInt? a, pyInt? b with
    | some a, some b => .ok (some (a, b))
    | _, _ => .error [fld]

/-- `Tuple[int, int]` -/
def chkRange (fld : Str) : Option (Json × Json) → Check (Int × Int)
  | none => .error [fld]
  | some (a, b) => match pyInt? a, pyInt? b with
    | some a, some b => .ok (a, b)
    | _, _ => .error [fld]

end Spdx
