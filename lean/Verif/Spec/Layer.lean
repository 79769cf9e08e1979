import Verif.Model.Geo

/-!
# What a filled grid holds, independently of the lookup functions
-/

namespace Verif.Spec

variable {T : Type}

/-- A grid with `w` columns and `h` rows that holds a value for each cell. -/
structure Filled (g : LatLonValueGrid T) (w h : Nat) : Prop where
  dims : g.grid.dimensions = (w, h)
  small : w * h ≤ 2 ^ 64
  length : g.values.length = w * h

/-- The value of cell (x,y) of a grid with `w` columns: nothing where the missing value is stored. -/
def cell [GridValue T] (g : LatLonValueGrid T) (w x y : Nat) : Option T :=
  match g.values[y * w + x]? with
  | some v => if GridValue.eq v g.missingValue then none else some v
  | none => none

/-- Two extents are the same: equal numbers, none of them NaN. -/
def SameExtent (a b : LatLonExtent) : Prop :=
  a = b ∧ a.minCoord.lat ≠ .nan ∧ a.minCoord.lon ≠ .nan ∧ a.maxCoord.lat ≠ .nan ∧ a.maxCoord.lon ≠ .nan

end Verif.Spec
