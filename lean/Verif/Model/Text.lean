import Mathlib.Data.Nat.Digits.Defs

/-!
# Text

Strings are lists of characters.  `dec` and `decPad` are Rust's formatting of unsigned numbers with
`{}` and `{:0k}`.
-/

namespace Verif

abbrev Text := List Char

/-- `format!("{}", n)` for an unsigned number. -/
def dec (n : Nat) : Text := if n = 0 then ['0'] else ((Nat.digits 10 n).map Nat.digitChar).reverse

/-- `format!("{:0k}", n)` for an unsigned number: at least `k` characters, filled with zeros. -/
def decPad (k n : Nat) : Text := List.replicate (k - (dec n).length) '0' ++ dec n

end Verif
