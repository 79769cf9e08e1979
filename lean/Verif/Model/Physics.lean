import Verif.Model.Float

/-!
# Model of `src/physics/`
-/

namespace Verif.Physics

/-- `FEET_PER_M` (`src/physics/length.rs` 4). -/
def feetPerM : Fl := lit (328084 / 100000)
/-- `Length::from_meters_to_feet` (`src/physics/length.rs` 8-10). -/
def metersToFeet (m : Fl) : Fl := Fl.mul f32 m feetPerM
/-- `Length::from_feet_to_meters` (`src/physics/length.rs` 13-15). -/
def feetToMeters (ft : Fl) : Fl := Fl.div f32 ft feetPerM

/-- `KNOTS_PER_MPS` (`src/physics/speed.rs` 4). -/
def knotsPerMps : Fl := lit (194384 / 100000)
/-- `Speed::from_mps_to_knots` (`src/physics/speed.rs` 8-10). -/
def mpsToKnots (v : Fl) : Fl := Fl.mul f32 v knotsPerMps
/-- `Speed::from_knots_to_mps` (`src/physics/speed.rs` 13-15). -/
def knotsToMps (v : Fl) : Fl := Fl.div f32 v knotsPerMps

/-- `ZERO_CELSIUS_IN_KELVIN` (`src/physics/temperature.rs` 4). -/
def zeroCelsiusInKelvin : Fl := lit (27315 / 100)
/-- `Temperature::from_kelvin_to_celsius` (`src/physics/temperature.rs` 8-10). -/
def kelvinToCelsius (k : Fl) : Fl := Fl.sub f32 k zeroCelsiusInKelvin
/-- `Temperature::from_celsius_to_kelvin` (`src/physics/temperature.rs` 12-14). -/
def celsiusToKelvin (c : Fl) : Fl := Fl.add f32 c zeroCelsiusInKelvin

end Verif.Physics
