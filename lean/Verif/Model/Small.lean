import Verif.Model.Unstructured
import Verif.Model.NetCdf

/-!
# Small accessors

Functions that the program offers besides those used by the other parts of the model: single entries of a triple of
distances, the value of a three-neighbour grid at a position, the values of a NetCDF attribute by kind.
-/

namespace Verif

/-- `as_array` (`src/geo/common/lat_lon.rs` 56-58). -/
def LatLon.asArray (p : LatLon) : List Fl := [p.lat, p.lon]

/-- `get_coord_dist` (`src/geo/grid/coord_dist_triple.rs` 17-23). -/
def CoordDistTriple.getCoordDist (t : CoordDistTriple) (i : Nat) : Option CoordDist :=
  if i < 3 then (t[i]?).join else none

/-- `get_value_by_lat_lon` (`src/geo/grid/unstructured_value_grid1.rs` 74-81). -/
def UnstructuredValueGrid1.getValueByLatLon {T : Type} [GridValue T] [GridSum T] (g : UnstructuredValueGrid1 T)
    (pos : LatLon) : Res (Option T) :=
  match g.grid.latLonGrid.getXYByLatLon pos with
  | none => .ok none
  | some (x0, y0) => g.getValueByXY (Fl.toUSize (Fl.round x0)) (Fl.toUSize (Fl.round y0))

namespace NetCdf.Values

/-- `get_bytes` (`src/netcdf/common/netcdf_values.rs` 15-20). -/
def getBytes : Values → Res (List UInt8)
  | .bytes v => .ok v
  | _ => .panic

/-- `get_chars` (`src/netcdf/common/netcdf_values.rs` 23-28); a character is a code point below 256
(`src/netcdf/common/netcdf_values_reader.rs` 38-49), kept as a byte. -/
def getChars : Values → Res (List UInt8)
  | .chars v => .ok v
  | _ => .panic

/-- `get_shorts` (`src/netcdf/common/netcdf_values.rs` 31-36). -/
def getShorts : Values → Res (List Int)
  | .shorts v => .ok v
  | _ => .panic

/-- `get_ints` (`src/netcdf/common/netcdf_values.rs` 39-44). -/
def getInts : Values → Res (List Int)
  | .ints v => .ok v
  | _ => .panic

/-- `get_floats` (`src/netcdf/common/netcdf_values.rs` 47-52). -/
def getFloats : Values → Res (List Fl)
  | .floats v => .ok v
  | _ => .panic

end NetCdf.Values

end Verif
