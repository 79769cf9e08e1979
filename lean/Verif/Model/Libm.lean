import Verif.Model.Float

/-!
# The transcendental functions

Rust leaves the precision of `tan`, `cos`, `ln`, `sinh`, `atan`, `exp` unspecified, so they are a
parameter of the model; theorems hold for every choice of them, or for every choice that is close to
the real functions where this is an explicit hypothesis.
-/

namespace Verif

structure Libm where
  tan : Fl → Fl
  cos : Fl → Fl
  ln : Fl → Fl
  sinh : Fl → Fl
  atan : Fl → Fl

/-- `std::f32::consts::PI` = 3.14159265358979323846264338327950288. -/
def pi32 : Fl := .fin (13176795 / 2 ^ 22)

/-- `f32::to_radians`: `self * (consts::PI / 180.0)`, the constant being evaluated in binary32. -/
def toRadians32 (v : Fl) : Fl := Fl.mul f32 v (Fl.div f32 pi32 (.fin 180))

/-- `f32::to_degrees`: `self * 57.2957795130823208767981548141051703_f32`. -/
def toDegrees32 (v : Fl) : Fl := Fl.mul f32 v (lit (572957795130823208767981548141051703 / 10 ^ 34))

end Verif
