import Verif.Model.Data
/- What the code takes from outside: third-party libraries and Python's character tables.  Theorems quantify over it. -/
namespace Spdx

/-- External functions used by the validators. Every theorem about validation holds for all of them. -/
structure Ext where
  /-- `\w` in Unicode patterns -/
  isWord : Char → Bool
  /-- `uritools.isabsuri` -/
  isAbsUri : Str → Bool
  /-- `uritools.isuri` -/
  isUri : Str → Bool
  /-- `uritools.urisplit(uri).scheme is not None` -/
  uriHasScheme : Str → Bool
  /-- `spdx_licensing.validate(expression).invalid_symbols` -/
  licInvalidSymbols : LicExpr → List Str
  /-- The message of the `ExpressionParseError` raised by `spdx_licensing.parse(str(e), validate=True, strict=True)`, if one is
      raised. -/
  licStrictParseError : LicExpr → Option Str
  /-- `==` on license expressions (which ignores the order and repetition of the arguments of AND and OR) -/
  licEq : LicExpr → LicExpr → Bool

end Spdx
