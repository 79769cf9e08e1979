import Verif.Model.Geo
import Verif.Model.Decode

/-!
# Model of the unstructured grids of `src/geo/grid/` and of their converters

Vectors are lists.  Memory exhaustion is not modelled; multiplication overflow of `usize` is.
-/

namespace Verif

/-- `src/geo/grid/coord_dist.rs` 4-7. -/
structure CoordDist where
  coordIndex : Nat
  coordDistSquared : Fl
  deriving DecidableEq, Repr

/-- `src/geo/grid/unstructured_grid.rs` 7-12. -/
structure UnstructuredGrid where
  latLonGrid : LatLonGrid
  coordinates : List LatLon
  coordDistMap : List (Option CoordDist)

/-- `calc_min_max_xy_for_coord` (`src/geo/grid/unstructured_grid.rs` 102-130, identical to
`src/geo/grid/unstructured_grid1.rs` 95-123).  The subtractions of lines 124-125 panic on a grid
without columns or rows. -/
def calcMinMaxXY (g : LatLonGrid) (coord : LatLon) (maxDist : Fl) :
    Res ((Nat × Nat) × (Nat × Nat)) :=
  let minPos := LatLon.new (Fl.sub f32 coord.lat maxDist) (Fl.sub f32 coord.lon maxDist)
  let maxPos := LatLon.new (Fl.add f32 coord.lat maxDist) (Fl.add f32 coord.lon maxDist)
  let minXY := match g.getXYByLatLon minPos with
    | some (x, y) => (Fl.toUSize x, Fl.toUSize y)
    | none => (0, 0)
  match g.getXYByLatLon maxPos with
  | some (x, y) => .ok (minXY, (Fl.toUSize x, Fl.toUSize y))
  | none =>
    if g.dimensions.1 = 0 ∨ g.dimensions.2 = 0 then .panic
    else .ok (minXY, (g.dimensions.1 - 1, g.dimensions.2 - 1))

/-- The test of `src/geo/grid/unstructured_grid.rs` 54-57, 62-68: is the coordinate outside the extent
enlarged by the maximum distance? -/
def skipCoord (e : LatLonExtent) (coord : LatLon) (maxDist : Fl) : Bool :=
  Fl.lt coord.lat (Fl.sub f32 e.minCoord.lat maxDist)
    || Fl.gt coord.lat (Fl.add f32 e.maxCoord.lat maxDist)
    || Fl.lt coord.lon (Fl.sub f32 e.minCoord.lon maxDist)
    || Fl.gt coord.lon (Fl.add f32 e.maxCoord.lon maxDist)

/-- The position used for cell `(x, y)`: `get_lat_lon_by_x_y(x as f32 + 0.5, y as f32 + 0.5)`
(`src/geo/grid/unstructured_grid.rs` 77-79). -/
def cellCentre (g : LatLonGrid) (x y : Nat) : Option LatLon :=
  g.getLatLonByXY (Fl.add f32 (Fl.ofNat f32 x) (.fin (1 / 2))) (Fl.add f32 (Fl.ofNat f32 y) (.fin (1 / 2)))

namespace UnstructuredGrid

/-- `UnstructuredGrid::new` (`src/geo/grid/unstructured_grid.rs` 16-29). -/
def new (dims : Nat × Nat) (ext : LatLonExtent) (coordinates : List LatLon) : Res UnstructuredGrid :=
  if dims.1 * dims.2 ≥ 2 ^ 64 then .panic
  else .ok ⟨LatLonGrid.new dims ext, coordinates, List.replicate (dims.1 * dims.2) none⟩

/-- `get_coord_dist` (`src/geo/grid/unstructured_grid.rs` 47-51). -/
def getCoordDist (g : UnstructuredGrid) (x y : Nat) : Res (Option CoordDist) := do
  match ← g.latLonGrid.getIndexByXY x y with
  | none => .ok none
  | some idx => Res.index g.coordDistMap idx

/-- The distance a new coordinate has to beat (`src/geo/grid/unstructured_grid.rs` 88-91). -/
def currentDist (cur : Option CoordDist) (maxD2 : Fl) : Fl :=
  match cur with
  | some cd => cd.coordDistSquared
  | none => maxD2

/-- The body of the inner loop (`src/geo/grid/unstructured_grid.rs` 73-96) for coordinate number `i`
and cell `(x, y)`. -/
def updateCell (g : LatLonGrid) (maxD2 : Fl) (i : Nat) (coord : LatLon)
    (map : List (Option CoordDist)) (x y : Nat) : Res (List (Option CoordDist)) := do
  match ← g.getIndexByXY x y with
  | none => .ok map
  | some idx =>
    match cellCentre g x y with
    | none => .ok map
    | some latLon =>
      let d := LatLon.calcEuclideanDistSquared coord latLon
      if Fl.gt d maxD2 then .ok map
      else do
        let cur ← Res.index map idx
        if Fl.gt d (currentDist cur maxD2) then .ok map
        else .ok (map.set idx (some ⟨i, d⟩))

/-- The body of the loop over the coordinates (`src/geo/grid/unstructured_grid.rs` 60-99). -/
def insertCoord (g : LatLonGrid) (maxDist maxD2 : Fl) (map : List (Option CoordDist))
    (ic : Nat × LatLon) : Res (List (Option CoordDist)) :=
  if skipCoord g.extent ic.2 maxDist then .ok map
  else do
    let (minXY, maxXY) ← calcMinMaxXY g ic.2 maxDist
    Res.foldl (fun map x =>
        Res.foldl (fun map y => updateCell g maxD2 ic.1 ic.2 map x y) map (rangeIncl minXY.2 maxXY.2))
      map (rangeIncl minXY.1 maxXY.1)

/-- `calc_coord_dist_lookup_map` (`src/geo/grid/unstructured_grid.rs` 53-100). -/
def calcCoordDistLookupMap (g : UnstructuredGrid) (maxDist : Fl) : Res UnstructuredGrid := do
  let maxD2 := Fl.mul f32 maxDist maxDist
  let map ← Res.foldl (insertCoord g.latLonGrid maxDist maxD2) g.coordDistMap
    (g.coordinates.zipIdx.map fun p => (p.2, p.1))
  .ok { g with coordDistMap := map }

end UnstructuredGrid

/-- `src/geo/grid/unstructured_value_grid.rs` 8-12. -/
structure UnstructuredValueGrid (T : Type) where
  grid : UnstructuredGrid
  values : List T
  missingValue : T

namespace UnstructuredValueGrid
variable {T : Type}

/-- `get_value_by_xy` (`src/geo/grid/unstructured_value_grid.rs` 50-63). -/
def getValueByXY (g : UnstructuredValueGrid T) (x y : Nat) : Res (Option T) := do
  match ← g.grid.getCoordDist x y with
  | none => .ok none
  | some cd => .ok (g.values[cd.coordIndex]?)

/-- `get_value_by_lat_lon` (`src/geo/grid/unstructured_value_grid.rs` 66-73). -/
def getValueByLatLon (g : UnstructuredValueGrid T) (pos : LatLon) : Res (Option T) :=
  match g.grid.latLonGrid.getXYByLatLon pos with
  | none => .ok none
  | some (x0, y0) => g.getValueByXY (Fl.toUSize (Fl.round x0)) (Fl.toUSize (Fl.round y0))

/-- `create_regular_grid` (`src/geo/grid/unstructured_value_grid.rs` 76-88). -/
def createRegularGrid (g : UnstructuredValueGrid T) : Res (LatLonValueGrid T) :=
  let dims := g.grid.latLonGrid.dimensions
  if dims.1 * dims.2 ≥ 2 ^ 64 then .panic
  else do
    let values ← Res.mapM (fun i => do
        let v ← g.getValueByXY (i % dims.1) (i / dims.1)
        .ok (v.getD g.missingValue)) (List.range (dims.1 * dims.2))
    .ok (LatLonValueGrid.new values g.missingValue dims g.grid.latLonGrid.extent)

end UnstructuredValueGrid

/-- `src/geo/grid/coord_dist_triple.rs` 3-6; always three slots. -/
abbrev CoordDistTriple := List (Option CoordDist)

namespace CoordDistTriple

/-- `CoordDistTriple::new` (`src/geo/grid/coord_dist_triple.rs` 11-15). -/
def new : CoordDistTriple := List.replicate 3 none

/-- The loop of `add_coord_dist` (`src/geo/grid/coord_dist_triple.rs` 30-40) from slot number `i` on:
`highest` and `idx` are the two mutable variables. -/
def scan (highest : Fl) (idx : Option Nat) (i : Nat) : List (Option CoordDist) → Option Nat
  | [] => idx
  | none :: _ => some i
  | some cd :: rest =>
    if Fl.gt cd.coordDistSquared highest then scan cd.coordDistSquared (some i) (i + 1) rest
    else scan highest idx (i + 1) rest

/-- `add_coord_dist` (`src/geo/grid/coord_dist_triple.rs` 25-47). -/
def addCoordDist (t : CoordDistTriple) (cd : CoordDist) : CoordDistTriple :=
  match scan cd.coordDistSquared none 0 t with
  | some idx => t.set idx (some cd)
  | none => t

/-- `get_coord_dists` (`src/geo/grid/coord_dist_triple.rs` 49-54). -/
def getCoordDists (t : CoordDistTriple) : List CoordDist := t.filterMap id

end CoordDistTriple

/-- `src/geo/grid/unstructured_grid1.rs` 8-13. -/
structure UnstructuredGrid1 where
  latLonGrid : LatLonGrid
  coordinates : List LatLon
  coordDistLookupMap : List CoordDistTriple

namespace UnstructuredGrid1

/-- `UnstructuredGrid1::new` (`src/geo/grid/unstructured_grid1.rs` 17-30). -/
def new (dims : Nat × Nat) (ext : LatLonExtent) (coordinates : List LatLon) : Res UnstructuredGrid1 :=
  if dims.1 * dims.2 ≥ 2 ^ 64 then .panic
  else .ok ⟨LatLonGrid.new dims ext, coordinates, List.replicate (dims.1 * dims.2) CoordDistTriple.new⟩

/-- `get_coord_dist_triple` (`src/geo/grid/unstructured_grid1.rs` 48-51). -/
def getCoordDistTriple (g : UnstructuredGrid1) (x y : Nat) : Res (Option CoordDistTriple) := do
  match ← g.latLonGrid.getIndexByXY x y with
  | none => .ok none
  | some idx => do
    let t ← Res.index g.coordDistLookupMap idx
    .ok (some t)

/-- The body of the inner loop (`src/geo/grid/unstructured_grid1.rs` 73-89). -/
def updateCell (g : LatLonGrid) (maxD2 : Fl) (i : Nat) (coord : LatLon)
    (map : List CoordDistTriple) (x y : Nat) : Res (List CoordDistTriple) := do
  match ← g.getIndexByXY x y with
  | none => .ok map
  | some idx =>
    match cellCentre g x y with
    | none => .ok map
    | some latLon =>
      let d := LatLon.calcEuclideanDistSquared coord latLon
      if Fl.gt d maxD2 then .ok map
      else do
        let cur ← Res.index map idx
        .ok (map.set idx (cur.addCoordDist ⟨i, d⟩))

/-- The body of the loop over the coordinates (`src/geo/grid/unstructured_grid1.rs` 60-92). -/
def insertCoord (g : LatLonGrid) (maxDist maxD2 : Fl) (map : List CoordDistTriple)
    (ic : Nat × LatLon) : Res (List CoordDistTriple) :=
  if skipCoord g.extent ic.2 maxDist then .ok map
  else do
    let (minXY, maxXY) ← calcMinMaxXY g ic.2 maxDist
    Res.foldl (fun map x =>
        Res.foldl (fun map y => updateCell g maxD2 ic.1 ic.2 map x y) map (rangeIncl minXY.2 maxXY.2))
      map (rangeIncl minXY.1 maxXY.1)

/-- `calc_coord_dist_lookup_map` (`src/geo/grid/unstructured_grid1.rs` 53-93). -/
def calcCoordDistLookupMap (g : UnstructuredGrid1) (maxDist : Fl) : Res UnstructuredGrid1 := do
  let maxD2 := Fl.mul f32 maxDist maxDist
  let map ← Res.foldl (insertCoord g.latLonGrid maxDist maxD2) g.coordDistLookupMap
    (g.coordinates.zipIdx.map fun p => (p.2, p.1))
  .ok { g with coordDistLookupMap := map }

end UnstructuredGrid1

/-- The `Sum` bound of `trait GridValueType` (`src/geo/grid/grid_value_type.rs` 4): the standard
library's `Sum` of the type. -/
class GridSum (T : Type) where
  sum : List T → Res T

/-- `u8: Sum`: overflow panics in a build with overflow checks. -/
instance : GridSum UInt8 where
  sum := Res.foldl (fun a b => if a.toNat + b.toNat > 255 then .panic else .ok (a + b)) 0

/-- `f32: Sum`. -/
instance : GridSum Fl where
  sum := Res.foldl (fun a b => .ok (Fl.add f32 a b)) (.fin 0)

/-- `src/geo/grid/unstructured_value_grid1.rs` 8-12. -/
structure UnstructuredValueGrid1 (T : Type) where
  grid : UnstructuredGrid1
  values : List T
  missingValue : T

namespace UnstructuredValueGrid1
variable {T : Type} [GridValue T] [GridSum T]

/-- The distance sum (`src/geo/grid/unstructured_value_grid1.rs` 53). -/
def distSum (cds : List CoordDist) : Fl :=
  (cds.map fun cd => Fl.sqrt f32 cd.coordDistSquared).foldl (Fl.add f32) (.fin 0)

/-- The closure of `src/geo/grid/unstructured_value_grid1.rs` 57-67. -/
def weighted (values : List T) (missing : T) (sum : Fl) (cd : CoordDist) : Option T :=
  match values[cd.coordIndex]? with
  | some v =>
    if GridValue.eq v missing then none
    else some (GridValue.scale v (Fl.div f32 (Fl.sqrt f32 cd.coordDistSquared) sum))
  | none => none

/-- `get_value_by_xy` (`src/geo/grid/unstructured_value_grid1.rs` 45-71). -/
def getValueByXY (g : UnstructuredValueGrid1 T) (x y : Nat) : Res (Option T) := do
  match ← g.grid.getCoordDistTriple x y with
  | none => .ok none
  | some t =>
    let cds := t.getCoordDists
    if cds.isEmpty then .ok none
    else do
      let v ← GridSum.sum (cds.filterMap (weighted g.values g.missingValue (distSum cds)))
      .ok (some v)

/-- `create_regular_grid` (`src/geo/grid/unstructured_value_grid1.rs` 84-96). -/
def createRegularGrid (g : UnstructuredValueGrid1 T) : Res (LatLonValueGrid T) :=
  let dims := g.grid.latLonGrid.dimensions
  if dims.1 * dims.2 ≥ 2 ^ 64 then .panic
  else do
    let values ← Res.mapM (fun i => do
        let v ← g.getValueByXY (i % dims.1) (i / dims.1)
        .ok (v.getD g.missingValue)) (List.range (dims.1 * dims.2))
    .ok (LatLonValueGrid.new values g.missingValue dims g.grid.latLonGrid.extent)

end UnstructuredValueGrid1

namespace Grib2

/-- `UnstructuredGridConverter::create` (`src/grib2/converter/unstructured_grid_converter.rs` 14-37). -/
def createUnstructured {T : Type} (doc : Document) (transform : Fl → T) (missing : T)
    (coordinates : List LatLon) (dims : Nat × Nat) (ext : LatLonExtent) (maxDist : Fl) :
    Res (UnstructuredValueGrid T) := do
  let values ← calculateDataPoints doc missing transform
  if coordinates.length ≠ values.length then .err
  else do
    let grid ← UnstructuredGrid.new dims ext coordinates
    let grid ← grid.calcCoordDistLookupMap maxDist
    .ok ⟨grid, values, missing⟩

/-- `get_lat_lon_values_from_grib_doc` (`src/grib2/converter/grib2_to_grid_converter.rs` 8-34). -/
def getLatLonValues (latDoc lonDoc : Document) : Res (List LatLon) := do
  let lats ← calculateDataPoints latDoc (.fin 255) id
  let lons ← calculateDataPoints lonDoc (.fin 255) id
  if lats.length ≠ lons.length then .err
  else if lons.length ≠ lats.length then .err
  else .ok (List.zipWith LatLon.new lats lons)

/-- The conversion of one message on a given unstructured grid
(`src/grib2/converter/file_to_grid_converter.rs` 79-83, 105-109). -/
def convertUnstructured {T : Type} (missing : T) (transform : Fl → T) (grid : UnstructuredGrid)
    (doc : Document) : Res (LatLonValueGrid T) := do
  let values ← calculateDataPoints doc missing transform
  let g ← UnstructuredValueGrid.createRegularGrid ⟨grid, values, missing⟩
  .ok g

/-- `filter_doc_indexes` (`src/grib2/converter/file_to_grid_converter.rs` 95-100); the range is
`(start, end)`, both included. -/
def filterDocs (docs : List Document) (range : Option (Nat × Nat)) : List Document :=
  match range with
  | some (lo, hi) =>
    docs.zipIdx.filterMap fun p => if lo ≤ p.2 ∧ p.2 ≤ hi then some p.1 else none
  | none => docs

/-- `read_multi_unstructured_grids_from_file_and_transform`
(`src/grib2/converter/file_to_grid_converter.rs` 87-114) after the file has been read. -/
def convertMulti {T : Type} (docs : List Document) (missing : T) (transform : Fl → T)
    (grid : UnstructuredGrid) (range : Option (Nat × Nat)) : Res (List (LatLonValueGrid T)) :=
  Res.mapM (convertUnstructured missing transform grid) (filterDocs docs range)

end Grib2
end Verif
