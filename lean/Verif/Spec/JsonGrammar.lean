import Verif.Model.JsonText
/-
The grammar of JSON texts (RFC 8259), as a relation between values and texts; in addition to the RFC `NaN`, `Infinity` and `-Infinity`
are numbers, as in Python.  Uses only the type `Raw` of the model.
-/
namespace Spdx.Spec.JsonGrammar
open Spdx

/-- RFC 8259, section 2: white space -/
def Ws (w : Str) : Prop := ∀ c ∈ w, c = ' ' ∨ c = '\t' ∨ c = '\n' ∨ c = '\r'

/-- Decimal digits. -/
def Digits (s : Str) : Prop := s ≠ [] ∧ ∀ c ∈ s, c ∈ ['0', '1', '2', '3', '4', '5', '6', '7', '8', '9']

/-- section 6: int = zero / ( digit1-9 *DIGIT ) -/
def IntPart (s : Str) : Prop := Digits s ∧ (s = ['0'] ∨ s.head? ≠ some '0')

/-- The number written by decimal digits, the last being the lowest. -/
inductive Denotes : Str → Nat → Prop
  | nil : Denotes [] 0
  | snoc {s n} (c : Char) (d : Nat) : Denotes s n → (c, d) ∈
      [('0', 0), ('1', 1), ('2', 2), ('3', 3), ('4', 4), ('5', 5), ('6', 6), ('7', 7), ('8', 8), ('9', 9)] → Denotes (s ++ [c]) (10 * n + d)

/-- Whole numbers. -/
inductive WholeNumber : Int → Str → Prop
  | pos {s n} : IntPart s → Denotes s n → WholeNumber (Int.ofNat n) s
  | neg {s n} : IntPart s → Denotes s n → WholeNumber (- Int.ofNat n) ('-' :: s)

/-- frac = decimal-point 1*DIGIT, or nothing -/
def Frac (s : Str) : Prop := s = [] ∨ ∃ t, s = '.' :: t ∧ Digits t

/-- exp = e [ minus / plus ] 1*DIGIT, or nothing -/
def Exp (s : Str) : Prop :=
  s = [] ∨ ∃ e sign t, s = e :: (sign ++ t) ∧ (e = 'e' ∨ e = 'E') ∧ (sign = [] ∨ sign = ['+'] ∨ sign = ['-']) ∧ Digits t

/-- Numbers with a fraction or an exponent, and Python's three constants. -/
def FloatNumber (s : Str) : Prop :=
  s ∈ [s%"NaN", s%"Infinity", s%"-Infinity"] ∨
  ∃ minus i f e, s = minus ++ i ++ f ++ e ∧ (minus = [] ∨ minus = ['-']) ∧ IntPart i ∧ Frac f ∧ Exp e ∧ (f ≠ [] ∨ e ≠ [])

/-- Hexadecimal digits and their values. -/
def hexDigits : List (Char × Nat) :=
  [('0', 0), ('1', 1), ('2', 2), ('3', 3), ('4', 4), ('5', 5), ('6', 6), ('7', 7), ('8', 8), ('9', 9),
   ('a', 10), ('b', 11), ('c', 12), ('d', 13), ('e', 14), ('f', 15), ('A', 10), ('B', 11), ('C', 12), ('D', 13), ('E', 14), ('F', 15)]

/-- section 7: the escapes of one letter -/
def letterEscapes : List (Char × Nat) :=
  [('"', 0x22), ('\\', 0x5C), ('/', 0x2F), ('b', 0x8), ('f', 0xC), ('n', 0xA), ('r', 0xD), ('t', 0x9)]

/-- section 7: the characters of a string; `\uXXXX` is a 16-bit unit -/
inductive Chars : List Nat → Str → Prop
  | nil : Chars [] []
  | plain {us t} (c : Char) : 0x20 ≤ c.toNat → c ≠ '"' → c ≠ '\\' → Chars us t → Chars (c.toNat :: us) (c :: t)
  | letter {us t} (c : Char) (n : Nat) : (c, n) ∈ letterEscapes → Chars us t → Chars (n :: us) ('\\' :: c :: t)
  | unit {us t} (a b c d : Char) (i j k l : Nat) : (a, i) ∈ hexDigits → (b, j) ∈ hexDigits → (c, k) ∈ hexDigits → (d, l) ∈ hexDigits →
      Chars us t → Chars ((((i * 16 + j) * 16 + k) * 16 + l) :: us) ('\\' :: 'u' :: a :: b :: c :: d :: t)

/-- UTF-16: a high surrogate followed by a low one stands for one code point. -/
def joined : List Nat → List Nat
  | [] => []
  | [n] => [n]
  | h :: l :: r =>
    if 0xD800 ≤ h ∧ h < 0xDC00 ∧ 0xDC00 ≤ l ∧ l < 0xE000 then (0x10000 + (h - 0xD800) * 0x400 + (l - 0xDC00)) :: joined r
    else h :: joined (l :: r)

/-- A string and its text, with the quotation marks. -/
def StringText (s : List Nat) (t : Str) : Prop := ∃ us body, Chars us body ∧ s = joined us ∧ t = '"' :: (body ++ ['"'])

mutual
/-- section 3: a value and its text -/
inductive Value : Raw → Str → Prop
  | null : Value .null s%"null"
  | true : Value (.bool true) s%"true"
  | false : Value (.bool false) s%"false"
  | whole {i t} : WholeNumber i t → Value (.num i) t
  | float {t} : FloatNumber t → Value (.float t) t
  | string {s t} : StringText s t → Value (.str s) t
  | emptyArray {w} : Ws w → Value (.arr []) ('[' :: (w ++ [']']))
  | array {l t} : Elements l t → Value (.arr l) ('[' :: (t ++ [']']))
  | emptyObject {w} : Ws w → Value (.obj []) ('{' :: (w ++ ['}']))
  | object {l t} : Members l t → Value (.obj l) ('{' :: (t ++ ['}']))
/-- section 5: values separated by commas -/
inductive Elements : List Raw → Str → Prop
  | one {v t w w'} : Ws w → Value v t → Ws w' → Elements [v] (w ++ (t ++ w'))
  | cons {v t w w' l u} : Ws w → Value v t → Ws w' → Elements l u → Elements (v :: l) (w ++ (t ++ (w' ++ ',' :: u)))
/-- section 4: names and values separated by commas -/
inductive Members : List (List Nat × Raw) → Str → Prop
  | one {k v n t w₁ w₂ w₃ w₄} : Ws w₁ → StringText k n → Ws w₂ → Ws w₃ → Value v t → Ws w₄ →
      Members [(k, v)] (w₁ ++ (n ++ (w₂ ++ ':' :: (w₃ ++ (t ++ w₄)))))
  | cons {k v n t w₁ w₂ w₃ w₄ l u} : Ws w₁ → StringText k n → Ws w₂ → Ws w₃ → Value v t → Ws w₄ → Members l u →
      Members ((k, v) :: l) (w₁ ++ (n ++ (w₂ ++ ':' :: (w₃ ++ (t ++ (w₄ ++ ',' :: u))))))
end

/-- section 2: JSON-text = ws value ws -/
def JsonText (v : Raw) (s : Str) : Prop := ∃ w t w', Ws w ∧ Value v t ∧ Ws w' ∧ s = w ++ (t ++ w')

end Spdx.Spec.JsonGrammar
