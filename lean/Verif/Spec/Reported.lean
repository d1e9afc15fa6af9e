import Verif.Model.PyParse
/- What it means that parsing reports a message. -/
namespace Spdx

/-- The message is in the list, possibly inside the text of a message about a larger part. -/
inductive Mentioned (m : PMsg) : List PMsg → Prop where
  | here {ms} : m ∈ ms → Mentioned m ms
  | inside {w inner ms} : PMsg.wrapped w inner ∈ ms → Mentioned m inner → Mentioned m ms

/-- Parsing does not return a value, and when it ends with a parsing error the message is mentioned in it.  (It can also end with an
    exception that the parser does not catch.) -/
def Reports (r : Py α) (m : PMsg) : Prop :=
  match r with
  | .ok _ => False
  | .error (.parsing ms) => Mentioned m ms
  | .error _ => True

/-- An entry fails, and the message is in what is logged about it where parsing, type and value errors are logged.  (When another
    exception is raised nothing is logged: it goes on to the caller.) -/
def Faulty (r : Py α) (m : PMsg) : Prop := ∃ e, r = .error e ∧ ∀ ms, e.logged = some ms → Mentioned m ms

/-- The object has the field. -/
def HasField (j : Json) (key : Str) (v : Json) : Prop := ∃ fields, j = .obj fields ∧ dictGet fields key = some v

/-- The object has a list under the key, with the entry in it. -/
def HasEntry (j : Json) (key : Str) (e : Json) : Prop := ∃ l, HasField j key (.arr l) ∧ e ∈ l

end Spdx
