import Verif.Model.Imaging
import Verif.Model.Layer
import Verif.Model.Physics

/-!
# Model of the colour scales of `src/meteo_chart/forecast_renderer/`
-/

namespace Verif.Colors

/-- A scale: thresholds with the colour of the values below them, and the colour of all others.  The
`if value < t1 { c1 } else if value < t2 { c2 } ... else { c }` chains of the code. -/
def chain : List (Fl × Color) → Color → Fl → Color
  | [], c, _ => c
  | (t, c1) :: l, c, v => if Fl.lt v t then c1 else chain l c v

/-- `get_rain_color` (`src/meteo_chart/forecast_renderer/cloud_precip_chart_renderer.rs` 72-94). -/
def rainColor : Fl → Color :=
  chain [(lit (1 / 10), ⟨0, 0, 0, 0⟩), (.fin 1, ⟨0, 192, 255, 127⟩), (.fin 2, ⟨0, 0, 255, 191⟩),
    (.fin 4, ⟨0, 127, 0, 191⟩), (.fin 6, ⟨0, 255, 0, 191⟩), (.fin 10, ⟨255, 255, 0, 191⟩),
    (.fin 20, ⟨255, 191, 0, 191⟩), (.fin 40, ⟨255, 128, 0, 191⟩), (.fin 60, ⟨255, 0, 0, 191⟩)]
    ⟨163, 73, 164, 191⟩

/-- `get_cloud_color` (`src/meteo_chart/forecast_renderer/cloud_precip_chart_renderer.rs` 97-130). -/
def cloudColor : Fl → Color :=
  chain [(lit (5 / 100), ⟨0, 0, 0, 127⟩), (lit (1 / 10), ⟨255, 255, 255, 127⟩),
    (lit (2 / 10), ⟨255, 255, 255, 127⟩), (lit (3 / 10), ⟨255, 255, 255, 127⟩),
    (lit (4 / 10), ⟨255, 255, 255, 127⟩), (lit (5 / 10), ⟨255, 255, 255, 159⟩),
    (lit (6 / 10), ⟨255, 255, 255, 191⟩), (lit (7 / 10), ⟨255, 255, 255, 207⟩),
    (lit (8 / 10), ⟨255, 255, 255, 223⟩), (lit (9 / 10), ⟨255, 255, 255, 239⟩)] ⟨255, 255, 255, 255⟩

/-- A colour channel of `color_fn` (`src/meteo_chart/forecast_renderer/cloud_precip_chart_renderer.rs`
57-59), in `u32` arithmetic; `as u8` keeps the low eight bits. -/
def mixChannel (rc ra cc ca : UInt8) : Res UInt8 := do
  let a ← ckU32 (rc.toNat * ra.toNat)
  let b ← ckU32 (cc.toNat * ca.toNat)
  let r ← subU32 255 ra.toNat
  let d ← ckU32 (b * r)
  let s ← ckU32 (a / 255 + d / 255 / 255)
  .ok (UInt8.ofNat (s % 256))

/-- The alpha channel (`src/meteo_chart/forecast_renderer/cloud_precip_chart_renderer.rs` 60). -/
def mixAlpha (ra ca : UInt8) : Res UInt8 := do
  let r ← subU32 255 ra.toNat
  let d ← ckU32 (ca.toNat * r)
  let s ← ckU32 (ra.toNat + d / 255)
  .ok (UInt8.ofNat (s % 256))

/-- `color_fn` (`src/meteo_chart/forecast_renderer/cloud_precip_chart_renderer.rs` 49-69). -/
def cloudPrecipColor (v : Fl × Fl) : Res Color :=
  if Fl.feq v.1 (.fin 0) && Fl.feq v.2 (.fin 0) then .ok ⟨0, 0, 0, 127⟩
  else
    let c := cloudColor v.1
    let r := rainColor v.2
    (mixChannel r.r r.a c.r c.a).bind fun x => (mixChannel r.g r.a c.g c.a).bind fun y =>
      (mixChannel r.b r.a c.b c.a).bind fun z => (mixAlpha r.a c.a).bind fun a => .ok ⟨x, y, z, a⟩

/-- `color_fn` (`src/meteo_chart/forecast_renderer/temp_2m_chart_renderer.rs` 50-115). -/
def tempColor (k : Fl) : Color :=
  chain [(.fin (-16), ⟨255, 66, 255, 127⟩), (.fin (-14), ⟨255, 109, 255, 127⟩),
    (.fin (-12), ⟨255, 153, 255, 127⟩), (.fin (-10), ⟨255, 204, 255, 127⟩),
    (.fin (-8), ⟨255, 255, 255, 127⟩), (.fin (-6), ⟨219, 235, 250, 127⟩), (.fin (-4), ⟨0, 212, 245, 127⟩),
    (.fin (-2), ⟨148, 189, 240, 127⟩), (.fin 0, ⟨115, 166, 235, 127⟩), (.fin 2, ⟨222, 230, 153, 127⟩),
    (.fin 4, ⟨166, 212, 115, 127⟩), (.fin 6, ⟨107, 191, 77, 127⟩), (.fin 8, ⟨51, 171, 38, 127⟩),
    (.fin 10, ⟨0, 153, 0, 127⟩), (.fin 12, ⟨51, 179, 0, 127⟩), (.fin 14, ⟨102, 204, 0, 127⟩),
    (.fin 16, ⟨153, 230, 0, 127⟩), (.fin 18, ⟨204, 255, 0, 127⟩), (.fin 20, ⟨255, 255, 0, 127⟩),
    (.fin 22, ⟨255, 204, 0, 127⟩), (.fin 24, ⟨255, 153, 0, 127⟩), (.fin 26, ⟨255, 102, 0, 127⟩),
    (.fin 28, ⟨255, 51, 0, 127⟩), (.fin 30, ⟨255, 0, 0, 127⟩), (.fin 32, ⟨255, 0, 255, 127⟩),
    (.fin 34, ⟨255, 64, 255, 127⟩), (.fin 36, ⟨255, 128, 255, 127⟩), (.fin 38, ⟨255, 191, 255, 127⟩)]
    ⟨255, 255, 255, 127⟩ (Physics.kelvinToCelsius k)

/-- `KNOTS_TO_MPS` (`src/meteo_chart/forecast_renderer/wind_10m_chart_renderer.rs` 14). -/
def knotsToMps : Fl := lit (514444 / 1000000)

/-- A threshold of `n` knots in metres per second. -/
def kt (n : Rat) : Fl := Fl.mul f32 (.fin n) knotsToMps

/-- `color_fn` (`src/meteo_chart/forecast_renderer/wind_10m_chart_renderer.rs` 52-74). -/
def windColor : Fl → Color :=
  chain [(kt 5, ⟨0, 127, 0, 255⟩), (kt 10, ⟨0, 255, 0, 255⟩), (kt 15, ⟨255, 255, 0, 255⟩),
    (kt 20, ⟨255, 191, 0, 255⟩), (kt 25, ⟨255, 128, 0, 255⟩), (kt 30, ⟨255, 0, 0, 255⟩),
    (kt 40, ⟨163, 73, 164, 255⟩), (kt 50, ⟨99, 112, 247, 255⟩)] ⟨0, 0, 255, 255⟩

end Verif.Colors
