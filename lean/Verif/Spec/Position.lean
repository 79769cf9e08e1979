import Verif.Model.Float
import Mathlib.Algebra.Order.Field.Rat
import Mathlib.Data.Rat.Cast.Defs

/-!
# Where the data points of a regular grid lie

A regular grid message states the positions of its first and its last point and the number of points along each axis
(GRIB2 grid definition template 3.0).  The points are evenly spaced, so the spacing is the distance from the first to the
last point divided by the number of *intervals*.
-/

namespace Verif.Spec

/-- The distance between neighbouring points. -/
def spacing (first last : Rat) (n : Nat) : Rat := (last - first) / ((n : Rat) - 1)

/-- The coordinate of point number `k`. -/
def pointAt (first last : Rat) (n k : Nat) : Rat := first + k * spacing first last n

/-- `p` is close to point `k`: within a twentieth of the spacing. -/
def CloseTo (first last : Rat) (n k : Nat) (p : Rat) : Prop :=
  |p - pointAt first last n k| ≤ spacing first last n / 20

end Verif.Spec
