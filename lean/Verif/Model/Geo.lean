import Verif.Model.Res
import Verif.Model.Float

/-!
# Model of `src/geo/common/` and of the regular grids of `src/geo/grid/`
-/

namespace Verif

/-- `src/geo/common/lat_lon.rs` 1-5: a position in degrees. -/
structure LatLon where
  lat : Fl
  lon : Fl
  deriving DecidableEq, Repr

namespace LatLon

/-- One coordinate of `LatLon::new` (`src/geo/common/lat_lon.rs` 32-47; the code treats `lat`
(lines 33-35, 39-41) and `lon` (lines 36-38, 42-44) identically, with the constants
`MIN_LON = -180`, `MAX_LON = 180` of lines 10-11 in the case of `lon`). -/
def normalise (v : Fl) : Fl :=
  let v := if Fl.ge v (.fin 360) || Fl.lt v (.fin (-180)) then Fl.remEuclid f32 v (.fin 360) else v
  if Fl.ge v (.fin 180) then Fl.sub f32 v (.fin 360) else v

/-- `LatLon::new` (`src/geo/common/lat_lon.rs` 32-47). -/
def new (lat lon : Fl) : LatLon := ⟨normalise lat, normalise lon⟩

/-- `LatLon::MIN_COORD` (`src/geo/common/lat_lon.rs` 8-18). -/
def minCoord : LatLon := ⟨.fin (-90), .fin (-180)⟩
/-- `LatLon::MAX_COORD` (`src/geo/common/lat_lon.rs` 8-22). -/
def maxCoord : LatLon := ⟨.fin 90, .fin 180⟩
/-- `LatLon::MIN_MERCATOR_COORD` (`src/geo/common/lat_lon.rs` 10-26). -/
def minMercatorCoord : LatLon := ⟨lit (-85051129 / 1000000), .fin (-180)⟩
/-- `LatLon::MAX_MERCATOR_COORD` (`src/geo/common/lat_lon.rs` 10-30). -/
def maxMercatorCoord : LatLon := ⟨lit (85051129 / 1000000), .fin 180⟩

/-- `LatLon::calc_euclidean_dist_squared` (`src/geo/common/lat_lon.rs` 60-66). -/
def calcEuclideanDistSquared (self other : LatLon) : Fl :=
  let latDiff := Fl.sub f32 self.lat other.lat
  let lonDiff := Fl.sub f32 self.lon other.lon
  Fl.add f32 (Fl.mul f32 latDiff latDiff) (Fl.mul f32 lonDiff lonDiff)

/-- `PartialEq for LatLon` (`src/geo/common/lat_lon.rs` 69-73). -/
def eq (a b : LatLon) : Bool := Fl.feq a.lat b.lat && Fl.feq a.lon b.lon

end LatLon

/-- `src/geo/common/lat_lon_extent.rs` 3-7. -/
structure LatLonExtent where
  minCoord : LatLon
  maxCoord : LatLon
  deriving DecidableEq, Repr

namespace LatLonExtent

/-- `LatLonExtent::MAX_EXTENT` (`src/geo/common/lat_lon_extent.rs` 10-13). -/
def maxExtent : LatLonExtent := ⟨LatLon.minCoord, LatLon.maxCoord⟩
/-- `LatLonExtent::MERCATOR_EXTENT` (`src/geo/common/lat_lon_extent.rs` 14-17). -/
def mercatorExtent : LatLonExtent := ⟨LatLon.minMercatorCoord, LatLon.maxMercatorCoord⟩

/-- `LatLonExtent::new` (`src/geo/common/lat_lon_extent.rs` 19-31): panics on reversed corners. -/
def new (minCoord maxCoord : LatLon) : Res LatLonExtent :=
  if Fl.gt minCoord.lat maxCoord.lat || Fl.gt minCoord.lon maxCoord.lon then .panic
  else .ok ⟨minCoord, maxCoord⟩

/-- `calc_midpoint` (`src/geo/common/lat_lon_extent.rs` 40-45). -/
def calcMidpoint (e : LatLonExtent) : LatLon :=
  ⟨Fl.div f32 (Fl.add f32 e.minCoord.lat e.maxCoord.lat) (.fin 2),
   Fl.div f32 (Fl.add f32 e.minCoord.lon e.maxCoord.lon) (.fin 2)⟩

/-- `is_inside` (`src/geo/common/lat_lon_extent.rs` 47-52). -/
def isInside (e : LatLonExtent) (p : LatLon) : Bool :=
  Fl.ge p.lat e.minCoord.lat && Fl.lt p.lat e.maxCoord.lat
    && Fl.ge p.lon e.minCoord.lon && Fl.lt p.lon e.maxCoord.lon

/-- The four running bounds of `calc_min_bounding_extent`. -/
structure Bounds where
  minLat : Fl
  maxLat : Fl
  minLon : Fl
  maxLon : Fl

/-- The body of the loop (`src/geo/common/lat_lon_extent.rs` 61-72). -/
def Bounds.step (b : Bounds) (c : LatLon) : Bounds :=
  { minLat := if Fl.lt c.lat b.minLat then c.lat else b.minLat
    maxLat := if Fl.gt c.lat b.maxLat then c.lat else b.maxLat
    minLon := if Fl.lt c.lon b.minLon then c.lon else b.minLon
    maxLon := if Fl.gt c.lon b.maxLon then c.lon else b.maxLon }

/-- `calc_min_bounding_extent` (`src/geo/common/lat_lon_extent.rs` 54-76). -/
def calcMinBoundingExtent (coordinates : List LatLon) : Res LatLonExtent :=
  let b := coordinates.foldl Bounds.step ⟨.fin 90, .fin (-90), .fin 180, .fin (-180)⟩
  new (LatLon.new b.minLat b.minLon) (LatLon.new b.maxLat b.maxLon)

/-- `PartialEq for LatLonExtent` (`src/geo/common/lat_lon_extent.rs` 79-83). -/
def eq (a b : LatLonExtent) : Bool := LatLon.eq a.minCoord b.minCoord && LatLon.eq a.maxCoord b.maxCoord

end LatLonExtent

/-- `src/geo/grid/lat_lon_grid.rs` 5-11. -/
structure LatLonGrid where
  /-- (number of columns, number of rows) -/
  dimensions : Nat × Nat
  extent : LatLonExtent
  latInc : Fl
  lonInc : Fl
  deriving DecidableEq, Repr

namespace LatLonGrid

/-- `LatLonGrid::new` (`src/geo/grid/lat_lon_grid.rs` 14-26). -/
def new (dimensions : Nat × Nat) (extent : LatLonExtent) : LatLonGrid :=
  { dimensions, extent
    latInc := Fl.div f32 (Fl.sub f32 extent.maxCoord.lat extent.minCoord.lat)
      (Fl.ofNat f32 dimensions.2)
    lonInc := Fl.div f32 (Fl.sub f32 extent.maxCoord.lon extent.minCoord.lon)
      (Fl.ofNat f32 dimensions.1) }

/-- `get_index_by_x_y` (`src/geo/grid/lat_lon_grid.rs` 36-44); the arithmetic of line 41 panics on
overflow of `usize`. -/
def getIndexByXY (g : LatLonGrid) (x y : Nat) : Res (Option Nat) :=
  if x ≥ g.dimensions.1 || y ≥ g.dimensions.2 then .ok none
  else if x + y * g.dimensions.1 ≥ 2 ^ 64 then .panic
  else .ok (some (x + y * g.dimensions.1))

/-- `get_x_y_by_lat_lon` (`src/geo/grid/lat_lon_grid.rs` 46-55). -/
def getXYByLatLon (g : LatLonGrid) (pos : LatLon) : Option (Fl × Fl) :=
  if !g.extent.isInside pos then none
  else
    some (Fl.div f32 (Fl.sub f32 pos.lon g.extent.minCoord.lon) g.lonInc,
      Fl.div f32 (Fl.sub f32 pos.lat g.extent.minCoord.lat) g.latInc)

/-- `get_lat_lon_by_x_y` (`src/geo/grid/lat_lon_grid.rs` 57-66). -/
def getLatLonByXY (g : LatLonGrid) (x y : Fl) : Option LatLon :=
  if Fl.lt x (.fin 0) || Fl.ge x (Fl.ofNat f32 g.dimensions.1)
    || Fl.lt y (.fin 0) || Fl.ge y (Fl.ofNat f32 g.dimensions.2) then none
  else
    let lat := Fl.add f32 g.extent.minCoord.lat (Fl.mul f32 y g.latInc)
    let lon := Fl.add f32 g.extent.minCoord.lon (Fl.mul f32 x g.lonInc)
    some (LatLon.new lat lon)

end LatLonGrid

/-- `trait GridValueType` (`src/geo/grid/grid_value_type.rs` 4-10) together with its `PartialEq`. -/
class GridValue (T : Type) where
  zero : T
  scale : T → Fl → T
  add : T → T → T
  /-- `==` of `PartialEq` -/
  eq : T → T → Bool

/-- `f32::clamp(lo, hi)`: `if x < lo { lo } else if x > hi { hi } else { x }`. -/
def Fl.clamp (x lo hi : Fl) : Fl :=
  let x := if Fl.lt x lo then lo else x
  if Fl.gt x hi then hi else x

/-- `<u8 as GridValueType>::scale` (`src/geo/grid/grid_value_type.rs` 19-28). -/
def scaleU8 (v : UInt8) (factor : Fl) : UInt8 :=
  let val := Fl.mul f32 (Fl.ofNat f32 v.toNat) factor
  let val := if val.isNan then .fin 0 else Fl.clamp val (.fin 0) (.fin 255)
  UInt8.ofNat (Fl.toU8 (Fl.round val))

/-- `<u8 as GridValueType>::add` (`src/geo/grid/grid_value_type.rs` 31-38). -/
def addU8 (a b : UInt8) : UInt8 :=
  let sum := a.toNat + b.toNat
  if sum > 255 then 255 else UInt8.ofNat sum

/-- `impl GridValueType for u8` (`src/geo/grid/grid_value_type.rs` 13-39). -/
instance : GridValue UInt8 where
  zero := 0
  scale := scaleU8
  add := addU8
  eq := fun a b => a == b

/-- `impl GridValueType for f32` (`src/geo/grid/grid_value_type.rs` 42-56). -/
instance : GridValue Fl where
  zero := .fin 0
  scale := Fl.mul f32
  add := Fl.add f32
  eq := Fl.feq

/-- `src/geo/grid/lat_lon_value_grid.rs` 7-12. -/
structure LatLonValueGrid (T : Type) where
  grid : LatLonGrid
  values : List T
  missingValue : T

namespace LatLonValueGrid
variable {T : Type}

/-- `LatLonValueGrid::new` (`src/geo/grid/lat_lon_value_grid.rs` 16-25). -/
def new (values : List T) (missingValue : T) (dimensions : Nat × Nat) (extent : LatLonExtent) :
    LatLonValueGrid T :=
  ⟨LatLonGrid.new dimensions extent, values, missingValue⟩

/-- `get_grid_dimensions` (`src/geo/grid/lat_lon_value_grid.rs` 33-35). -/
def dims (g : LatLonValueGrid T) : Nat × Nat := g.grid.dimensions

/-- `get_value_by_xy` (`src/geo/grid/lat_lon_value_grid.rs` 53-62). -/
def getValueByXY [GridValue T] (g : LatLonValueGrid T) (x y : Nat) : Res (Option T) := do
  match ← g.grid.getIndexByXY x y with
  | none => .ok none
  | some idx =>
    let value ← Res.index g.values idx
    .ok (if !GridValue.eq value g.missingValue then some value else none)

/-- `get_value_by_lat_lon` (`src/geo/grid/lat_lon_value_grid.rs` 65-72). -/
def getValueByLatLon [GridValue T] (g : LatLonValueGrid T) (pos : LatLon) : Res (Option T) :=
  match g.grid.getXYByLatLon pos with
  | none => .ok none
  | some (x0, y0) => g.getValueByXY (Fl.toUSize (Fl.round x0)) (Fl.toUSize (Fl.round y0))

/-- `interpolate_value` (`src/geo/grid/lat_lon_value_grid_interpolator.rs` 47-62). -/
def interpolateValue [GridValue T] (value1 : Option T) (weight1 : Fl) (value2 : Option T)
    (weight2 : Fl) : Option T :=
  match value1, value2 with
  | some v1, some v2 => some (GridValue.add (GridValue.scale v1 weight1) (GridValue.scale v2 weight2))
  | _, _ => none

/-- `LatLonValueGridInterpolator::interpolate`
(`src/geo/grid/lat_lon_value_grid_interpolator.rs` 10-44). -/
def interpolate [GridValue T] (g : LatLonValueGrid T) (pos : LatLon) : Res (Option T) :=
  match g.grid.getXYByLatLon pos with
  | none => .ok none
  | some (x, y) =>
    let xf := Fl.floor x
    let yf := Fl.floor y
    let xc := Fl.ceil x
    let yc := Fl.ceil y
    if Fl.lt xc (.fin 0) || Fl.lt yc (.fin 0)
      || Fl.ge xf (Fl.ofNat f32 g.dims.1) || Fl.ge yf (Fl.ofNat f32 g.dims.2) then .ok none
    else if Fl.toUSize xf = Fl.toUSize xc ∨ Fl.toUSize yf = Fl.toUSize yc then
      g.getValueByXY (Fl.toUSize xf) (Fl.toUSize yf)
    else do
      let tl ← g.getValueByXY (Fl.toUSize xf) (Fl.toUSize yf)
      let tr ← g.getValueByXY (Fl.toUSize xc) (Fl.toUSize yf)
      let bl ← g.getValueByXY (Fl.toUSize xf) (Fl.toUSize yc)
      let br ← g.getValueByXY (Fl.toUSize xc) (Fl.toUSize yc)
      let t := interpolateValue tl (Fl.sub f32 xc x) tr (Fl.sub f32 x xf)
      let b := interpolateValue bl (Fl.sub f32 xc x) br (Fl.sub f32 x xf)
      .ok (interpolateValue t (Fl.sub f32 yc y) b (Fl.sub f32 y yf))

end LatLonValueGrid
end Verif
