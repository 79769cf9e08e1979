import Verif.Model.Imaging

/-!
# What a picture shows

The observable content of a picture buffer: the colour at column `x`, row `y`, counted from the top
left corner.
-/

namespace Verif

/-- The colour stored at byte position `i`. -/
def colorAt (l : List UInt8) (i : Nat) : Option Color :=
  match l[i]?, l[i + 1]?, l[i + 2]?, l[i + 3]? with
  | some r, some g, some b, some a => some ⟨r, g, b, a⟩
  | _, _, _, _ => none

/-- The colour of a pixel of a picture, four bytes per pixel, row after row. -/
def pixelOf (bytes : List UInt8) (width height x y : Nat) : Option Color :=
  if x < width ∧ y < height then colorAt bytes (4 * (width * y + x)) else none

def Drawable.pixel (d : Drawable) (x y : Nat) : Option Color := pixelOf d.colorValues d.width d.height x y
def Image.pixel (i : Image) (x y : Nat) : Option Color := pixelOf i.pixelValues i.width i.height x y

/-- A complete picture buffer of a size that 32-bit numbers can address. -/
def Drawable.WF (d : Drawable) : Prop :=
  d.colorValues.length = 4 * (d.width * d.height) ∧ 4 * (d.width * d.height) < 2 ^ 32
def Image.WF (i : Image) : Prop :=
  i.pixelValues.length = 4 * (i.width * i.height) ∧ 4 * (i.width * i.height) < 2 ^ 32

/-- Neighbouring pixels (sharing an edge or a corner). -/
def Neighbours (p q : Int × Int) : Prop := |p.1 - q.1| ≤ 1 ∧ |p.2 - q.2| ≤ 1 ∧ p ≠ q

/-- A pixel off the straight line from `(x0, y0)` to `(x1, y1)` by at most one pixel, measured along the
axis in which the line extends less. -/
def Near (x0 y0 x1 y1 : Int) (p : Int × Int) : Prop :=
  |(p.2 - y0) * (x1 - x0) - (p.1 - x0) * (y1 - y0)| ≤ max |x1 - x0| |y1 - y0|

end Verif
