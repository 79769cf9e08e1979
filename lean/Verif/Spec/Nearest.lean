import Mathlib.Analysis.Real.Sqrt

/-!
# Specification: the regular grid of the MeteoSwiss charts and the nearest point

Independent of the model: exact numbers only.
-/

namespace Verif.Spec

/-- The centre of a cell of the regular grid: 1851 columns from 0.81 degrees west, 847 rows from 42.03 degrees north,
cells of a hundredth of a degree.  Latitude first. -/
def chartCell (x y : Nat) : Rat × Rat := (4203 / 100 + ((y : Rat) + 1 / 2) / 100, -81 / 100 + ((x : Rat) + 1 / 2) / 100)

/-- The distance of two positions, in degrees. -/
noncomputable def degrees (p q : Rat × Rat) : Real := Real.sqrt (((p.1 - q.1) ^ 2 + (p.2 - q.2) ^ 2 : Rat) : Real)

/-- What is shown in a cell, given the positions of the points: nothing if all points are at least 0.0099 degrees
away from the centre of the cell, or a point that is at most 0.0101 degrees away, and at most 0.0002 degrees further
than any other. -/
def Shows (position : Nat → Option (Rat × Rat)) (n x y : Nat) : Option Nat → Prop
  | none => ∀ k q, k < n → position k = some q → (99 / 10000 : Rat) < degrees q (chartCell x y)
  | some i => i < n ∧ ∃ p, position i = some p ∧ degrees p (chartCell x y) < (101 / 10000 : Rat) ∧
      ∀ k q, k < n → position k = some q → degrees p (chartCell x y) < degrees q (chartCell x y) + (2 / 10000 : Rat)

end Verif.Spec
