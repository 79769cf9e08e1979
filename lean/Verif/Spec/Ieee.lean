import Verif.Model.Float
import Mathlib.Analysis.Real.Sqrt

/-!
# IEEE 754 binary floating point, by bit patterns

An independent statement of what a binary interchange format is (IEEE 754-2019, 3.4) and of what
`roundTiesToEven` is (4.3.1), in terms of sign, exponent field and fraction field only.  Nothing here mentions the
rounding of the model (`rhe`, `rndq`, `rnd`, `sqrtQ`); `Verif/Conformance/Ieee.lean` proves that the model's rounding is
the one described here.
-/

namespace Verif.Ieee

open Verif

/-- The three fields of a datum. -/
structure Pattern where
  sign : Bool
  exponent : Nat
  fraction : Nat

/-- The fields fit into `w` and `t` bits. -/
def Pattern.ok (w t : Nat) (a : Pattern) : Prop := a.exponent < 2 ^ w ∧ a.fraction < 2 ^ t

/-- The exponent bias. -/
def bias (w : Nat) : Int := 2 ^ (w - 1) - 1

/-- The number denoted by finite fields, without the sign (3.4: `2^(1-bias) * (0 + 2^-t * T)` for subnormals,
`2^(E-bias) * (1 + 2^-t * T)` otherwise). -/
def Pattern.magnitude (w t : Nat) (a : Pattern) : Rat :=
  if a.exponent = 0 then (2 : Rat) ^ (1 - bias w) * (a.fraction / 2 ^ t)
  else (2 : Rat) ^ ((a.exponent : Int) - bias w) * (1 + a.fraction / 2 ^ t)

/-- The datum denoted by the fields (3.4). -/
def Pattern.value (w t : Nat) (a : Pattern) : Fl :=
  if a.exponent = 2 ^ w - 1 then
    if a.fraction = 0 then (if a.sign then .ninf else .pinf) else .nan
  else .fin (if a.sign then -a.magnitude w t else a.magnitude w t)

/-- The magnitude from which on every result is rounded to an infinity: `2^emax * (2 - 2^(1-p) / 2)`, where
`emax = bias` and `p = t + 1` (4.3.1). -/
noncomputable def threshold (w t : Nat) : Real := 2 ^ bias w * (2 - 2 ^ (-(t : Int)) / 2)

/-- `x` is the exact result `r` rounded to nearest, ties to even (4.3.1): an infinity from the threshold on; otherwise
a finite datum as near to `r` as any other, with an even least significant digit if another is equally near. -/
def RoundsTo (w t : Nat) (r : Real) : Fl → Prop
  | .nan => False
  | .pinf => threshold w t ≤ r
  | .ninf => r ≤ -threshold w t
  | .fin v => |r| < threshold w t ∧ ∃ a : Pattern, a.ok w t ∧ a.value w t = .fin v ∧
      (∀ (b : Pattern) (u : Rat), b.ok w t → b.value w t = .fin u → |r - v| ≤ |r - u|) ∧
      (∀ (b : Pattern) (u : Rat), b.ok w t → b.value w t = .fin u → u ≠ v → |r - u| = |r - v| → a.fraction % 2 = 0)

/-- The parameters of the model for `w` exponent bits and `t` fraction bits. -/
def fmt (w t : Nat) : Fmt := ⟨t + 1, 1 - bias w - t, bias w + 1⟩

end Verif.Ieee
