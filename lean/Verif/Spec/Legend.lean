import Verif.Model.Float
import Verif.Model.Imaging

/-!
# Legends: colour classes of a value, independently of the code
-/

namespace Verif.Spec

/-- A legend: the class boundaries, increasing, and the colours of the classes, one more. -/
structure Legend where
  bounds : List Fl
  colors : List Color

/-- The boundaries are numbers in increasing order and there is a colour for each class. -/
structure Legend.WF (l : Legend) : Prop where
  sorted : l.bounds.Pairwise fun a b => Fl.lt a b = true
  numbers : ∀ b ∈ l.bounds, b ≠ .nan
  colors : l.colors.length = l.bounds.length + 1

/-- Value `v` is in class `i`: at least the boundary below and less than the boundary above it. -/
def Legend.InClass (l : Legend) (v : Fl) (i : Nat) : Prop :=
  i ≤ l.bounds.length ∧ (∀ j b, j < i → l.bounds[j]? = some b → Fl.le b v = true) ∧
    ∀ j b, i ≤ j → l.bounds[j]? = some b → Fl.lt v b = true

/-- Precipitation in mm per hour. -/
def rainLegend : Legend where
  bounds := [lit (1 / 10), .fin 1, .fin 2, .fin 4, .fin 6, .fin 10, .fin 20, .fin 40, .fin 60]
  colors := [⟨0, 0, 0, 0⟩, ⟨0, 192, 255, 127⟩, ⟨0, 0, 255, 191⟩, ⟨0, 127, 0, 191⟩, ⟨0, 255, 0, 191⟩,
    ⟨255, 255, 0, 191⟩, ⟨255, 191, 0, 191⟩, ⟨255, 128, 0, 191⟩, ⟨255, 0, 0, 191⟩, ⟨163, 73, 164, 191⟩]

/-- Cloud cover as a fraction: opacity of white. -/
def cloudLegend : Legend where
  bounds := [lit (5 / 100), lit (4 / 10), .fin (1 / 2), lit (6 / 10), lit (7 / 10), lit (8 / 10), lit (9 / 10)]
  colors := [⟨0, 0, 0, 127⟩, ⟨255, 255, 255, 127⟩, ⟨255, 255, 255, 159⟩, ⟨255, 255, 255, 191⟩, ⟨255, 255, 255, 207⟩,
    ⟨255, 255, 255, 223⟩, ⟨255, 255, 255, 239⟩, ⟨255, 255, 255, 255⟩]

/-- Wind speed in knots. -/
def windKnots : List Rat := [5, 10, 15, 20, 25, 30, 40, 50]

def windColors : List Color :=
  [⟨0, 127, 0, 255⟩, ⟨0, 255, 0, 255⟩, ⟨255, 255, 0, 255⟩, ⟨255, 191, 0, 255⟩, ⟨255, 128, 0, 255⟩,
    ⟨255, 0, 0, 255⟩, ⟨163, 73, 164, 255⟩, ⟨99, 112, 247, 255⟩, ⟨0, 0, 255, 255⟩]

/-- Temperature: the colours of the classes below -16 degrees Celsius, of two degrees each up to 38, and
above. -/
def tempColors : List Color :=
  [⟨255, 66, 255, 127⟩, ⟨255, 109, 255, 127⟩, ⟨255, 153, 255, 127⟩, ⟨255, 204, 255, 127⟩, ⟨255, 255, 255, 127⟩,
    ⟨219, 235, 250, 127⟩, ⟨0, 212, 245, 127⟩, ⟨148, 189, 240, 127⟩, ⟨115, 166, 235, 127⟩, ⟨222, 230, 153, 127⟩,
    ⟨166, 212, 115, 127⟩, ⟨107, 191, 77, 127⟩, ⟨51, 171, 38, 127⟩, ⟨0, 153, 0, 127⟩, ⟨51, 179, 0, 127⟩,
    ⟨102, 204, 0, 127⟩, ⟨153, 230, 0, 127⟩, ⟨204, 255, 0, 127⟩, ⟨255, 255, 0, 127⟩, ⟨255, 204, 0, 127⟩,
    ⟨255, 153, 0, 127⟩, ⟨255, 102, 0, 127⟩, ⟨255, 51, 0, 127⟩, ⟨255, 0, 0, 127⟩, ⟨255, 0, 255, 127⟩,
    ⟨255, 64, 255, 127⟩, ⟨255, 128, 255, 127⟩, ⟨255, 191, 255, 127⟩, ⟨255, 255, 255, 127⟩]

/-- The class of a temperature: 0 below -16, then one more for each two degrees, at most 28. -/
def tempClass (celsius : Rat) : Nat := (min 28 (⌊(celsius + 18) / 2⌋)).toNat

end Verif.Spec
