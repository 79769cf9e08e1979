import Verif.Model.Layer
import Verif.Model.Physics

/-!
# Model of `src/metobin/`

The contents of the meteobin files, as lists of bytes.  Writing the files is not modelled here; note
that `create_meteobin_file` of four kinds ignores errors of `write_all`.
-/

namespace Verif.Metobin

/-- `NONE_BIN_VALUE`, `MISSING_VALUE`. -/
def none8 : UInt8 := 255

/-- `x as u8`. -/
def asU8 (x : Fl) : UInt8 := UInt8.ofNat (Fl.toU8 x)

/-- `x.min(254.0).max(0.0) as u8`. -/
def clamp254 (x : Fl) : UInt8 := asU8 (Fl.fmax (Fl.fmin x (.fin 254)) (.fin 0))

/-- The loops `for y in 0..dim.1 { for x in 0..dim.0 { out_values.push(..) } }` common to all kinds;
`f x y` are the bytes pushed for a cell. -/
def forCells (w h : Nat) (f : Nat → Nat → Res (List UInt8)) : Res (List UInt8) :=
  Res.foldl (fun out y => Res.foldl (fun out x => (f x y).bind fun b => .ok (out ++ b)) out (List.range w)) []
    (List.range h)

/-! ## Temperature -/

/-- `calc_temp_value` (`src/metobin/temp_metobin.rs` 52-57). -/
def tempByte : Option Fl → UInt8
  | some v => asU8 (Fl.add f32 (Fl.round (Fl.mul f32 (Physics.kelvinToCelsius v) (.fin 2))) (.fin 128))
  | none => none8

/-- `create_bin_values` (`src/metobin/temp_metobin.rs` 36-49). -/
def tempBin (l : TempLayer) : Res (List UInt8) :=
  forCells l.temp.dims.1 l.temp.dims.2 fun x y => (l.getTempByXY x y).bind fun t => .ok [tempByte t]

/-! ## Precipitation -/

/-- `calc_precip_value` (`src/metobin/precip_metobin.rs` 52-63). -/
def precipByte : Option (Fl × Fl) → UInt8
  | some v =>
    if Fl.ge v.2 (lit (2 / 10)) && Fl.lt v.2 (.fin (1 / 2)) then 1
    else asU8 (Fl.round (Fl.mul f32 v.2 (.fin 2)))
  | none => none8

/-- `create_bin_values` (`src/metobin/precip_metobin.rs` 36-49). -/
def precipBin (l : CloudPrecipLayer) : Res (List UInt8) :=
  forCells l.dims.1 l.dims.2 fun x y => (l.getCloudAndPrecipByXY x y).bind fun v => .ok [precipByte v]

/-! ## Wind -/

/-- `calc_speed_kt_value` (`src/metobin/wind_metobin.rs` 63-65). -/
def speedByte (v : Fl) : UInt8 := clamp254 (Fl.round (Fl.add f32 (Physics.mpsToKnots v) (.fin 128)))

/-- `calc_gust_kt_value` (`src/metobin/wind_metobin.rs` 68-73). -/
def gustByte : Option Fl → UInt8
  | none => none8
  | some v => clamp254 (Fl.round (Physics.mpsToKnots v))

/-- The three bytes of a cell (`src/metobin/wind_metobin.rs` 44-55). -/
def windBytes (wind : Option (Fl × Fl)) (gust : Option Fl) : List UInt8 :=
  match wind with
  | some v => [speedByte v.1, speedByte v.2, gustByte gust]
  | none => [none8, none8, none8]

/-- `create_bin_values` (`src/metobin/wind_metobin.rs` 37-60). -/
def windBin (l : WindLayer) : Res (List UInt8) :=
  forCells l.dims.1 l.dims.2 fun x y =>
    (l.getWindByXY x y).bind fun w => (l.getGustsByXY x y).bind fun g => .ok (windBytes w g)

/-! ## Weather -/

/-- `calc_ww_value_from_clct` (`src/metobin/weather_metobin.rs` 76-88).  The thresholds are quotients of
binary32 numbers. -/
def wwFromClct : Option Fl → Option Weather
  | none => none
  | some v =>
    if Fl.le v (Fl.div f32 (.fin (25 / 4)) (.fin 100)) then some .clearSky
    else if Fl.le v (Fl.div f32 (.fin (175 / 4)) (.fin 100)) then some .mainlyClearSky
    else if Fl.le v (Fl.div f32 (.fin (325 / 4)) (.fin 100)) then some .partlyCloudy
    else some .overcast

/-- The byte derived from cloud cover (`src/metobin/weather_metobin.rs` 66-70). -/
def clctByte (clct : Option Fl) : UInt8 :=
  match wwFromClct clct with
  | some w => w.toValue
  | none => none8

/-- `calc_ww_value` (`src/metobin/weather_metobin.rs` 58-73). -/
def wwByte (ww : Option Weather) (clct : Option Fl) : UInt8 :=
  match ww with
  | some w => if w.toValue > 4 then w.toValue else clctByte clct
  | none => clctByte clct

/-- `calc_ceiling_100ft_value` (`src/metobin/weather_metobin.rs` 91-97). -/
def ceilingByte : Option Fl → UInt8
  | none => none8
  | some v =>
    if Fl.ge (Fl.round (Fl.div f32 (Physics.metersToFeet v) (.fin 200))) (.fin 255) then none8
    else clamp254 (Fl.round (Fl.div f32 (Physics.metersToFeet v) (.fin 200)))

/-- `create_bin_values` (`src/metobin/weather_metobin.rs` 38-55). -/
def weatherBin (l : WeatherLayer) : Res (List UInt8) :=
  forCells l.dims.1 l.dims.2 fun x y =>
    (l.getWwByXY x y).bind fun ww => (l.clct.getValueByXY x y).bind fun clct =>
      (l.ceiling.getValueByXY x y).bind fun c => .ok [wwByte ww clct, ceilingByte c]

/-! ## Vertical cross sections -/

/-- The bytes of the levels of a cell (`src/metobin/vertical_cloud_metobin.rs` 48-62). -/
def forLevels (n : Nat) (f : Nat → Res (List UInt8)) : Res (List UInt8) :=
  Res.foldl (fun out level => (f level).bind fun b => .ok (out ++ b)) [] (List.range n)

/-- `create_bin_values` (`src/metobin/vertical_cloud_metobin.rs` 43-67). -/
def verticalCloudBin (l : VerticalCloudLayer) : Res (List UInt8) := do
  let (dx, dy, n) ← l.dims
  forCells dx dy fun x y => forLevels n fun level =>
    (l.getHhl x y level).bind fun a => (l.getClc x y level).bind fun b =>
      .ok [unwrapOr a none8, unwrapOr b none8]

/-- The two bytes of the wind components (`src/metobin/vertical_wind_metobin.rs` 56-63). -/
def uvBytes : Option (UInt8 × UInt8) → List UInt8
  | some p => [p.1, p.2]
  | none => [none8, none8]

/-- `create_bin_values` (`src/metobin/vertical_wind_metobin.rs` 43-69). -/
def verticalWindBin (l : VerticalWindLayer) : Res (List UInt8) := do
  let (dx, dy, n) ← l.dims
  forCells dx dy fun x y => forLevels n fun level =>
    (l.getHhl x y level).bind fun a => (l.getUV x y level).bind fun b =>
      .ok (unwrapOr a none8 :: uvBytes b)

end Verif.Metobin
