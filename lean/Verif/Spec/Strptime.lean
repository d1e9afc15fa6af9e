import Verif.Spec.PyRe
import Verif.Model.DateTime
/-
What Python's `datetime.strptime` does (Lib/_strptime.py): the format is turned into a regular expression, which must match the whole text;
the groups are read by `int`; the constructor of `datetime` checks the values.  A description of a library; nothing in the model uses it.
-/
namespace Spdx.Spec

/-- `TimeRE.__init__`: the patterns of the directives.  (Only the directives that stand for one number.) -/
def timeDirective : Char → Option Str
  | 'd' => some s%r"(?P<d>3[0-1]|[1-2]\d|0[1-9]|[1-9]| [1-9])"
  | 'H' => some s%r"(?P<H>2[0-3]|[0-1]\d|\d)"
  | 'm' => some s%r"(?P<m>1[0-2]|0[1-9]|[1-9])"
  | 'M' => some s%r"(?P<M>[0-5]\d|\d)"
  | 'S' => some s%r"(?P<S>6[0-1]|[0-5]\d|\d)"
  | 'Y' => some s%r"(?P<Y>\d\d\d\d)"
  | _ => none

/-- `TimeRE.pattern`: directives are replaced, characters with a meaning in patterns are escaped.  (White space, for which `\s+` is put,
    does not occur in the formats concerned: `none`.) -/
def timePattern : Str → Option Str
  | '%' :: c :: r => (timeDirective c).bind fun d => (timePattern r).map (d ++ ·)
  | c :: r =>
    if c = '%' ∨ isPySpace c then none
    else (timePattern r).map ((if c ∈ s%r"\.^$*+?(){}[]|" then ['\\', c] else [c]) ++ ·)
  | [] => some []

/-- `datetime(year, month, day, hour, minute, second)`; `none` is the `ValueError`. -/
def datetimeOf (y m d h mi s : Int) : Option DateTime :=
  let t : DateTime := { year := y.toNat, month := m.toNat, day := d.toNat, hour := h.toNat, minute := mi.toNat, second := s.toNat }
  if 0 ≤ y ∧ 0 ≤ m ∧ 0 ≤ d ∧ 0 ≤ h ∧ 0 ≤ mi ∧ 0 ≤ s ∧ t.Valid then some t else none

/-- `datetime.strptime(s, format)` for a format with all of `%Y %m %d %H %M %S`; `none` is the `ValueError`: the text does not match, or not all
    of it does ("unconverted data remains"), or there is no such date. -/
def strptime (format s : Str) : Option DateTime :=
  (timePattern format).bind fun text => (parsePattern text).bind fun p => (p.1.first { ignoreCase := true } s).bind fun found =>
    if found.rest = [] then do
      let field := fun (name : Char) => (p.2.lookup [name]).bind fun n => (found.group n).bind pyIntText
      let y ← field 'Y'
      let m ← field 'm'
      let d ← field 'd'
      let h ← field 'H'
      let mi ← field 'M'
      let s ← field 'S'
      datetimeOf y m d h mi s
    else none

end Spdx.Spec
