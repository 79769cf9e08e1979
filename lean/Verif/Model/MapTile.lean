import Verif.Model.Geo
import Verif.Model.Imaging
import Verif.Model.Libm
import Verif.Model.Text

/-!
# Model of `src/map_tile/` and of the tile files
-/

namespace Verif

/-- `src/map_tile/map_tile_coord.rs` 6-11. -/
structure MapTileCoord where
  x : Nat
  y : Nat
  zoom : Nat
  deriving DecidableEq, Repr

/-- `2_u32.pow(zoom) as f32`: the power overflows from zoom level 32 on. -/
def zoomPow (zoom : Nat) : Res Fl := (ckU32 (2 ^ zoom)).bind fun n => .ok (Fl.ofNat f32 n)

namespace MapTileCoord

/-- `TILE_SIZE_PX` (`src/map_tile/map_tile_coord.rs` 15). -/
def tileSizePx : Nat := 256

/-- The column of `from_position` (`src/map_tile/map_tile_coord.rs` 20). -/
def column (lon pow : Fl) : Nat :=
  Fl.toU32 (Fl.floor (Fl.mul f32 (Fl.div f32 (Fl.add f32 lon (.fin 180)) (.fin 360)) pow))

/-- The row of `from_position` (`src/map_tile/map_tile_coord.rs` 21). -/
def row (m : Libm) (lat pow : Fl) : Nat :=
  let s := Fl.add f32 (m.tan (toRadians32 lat)) (Fl.div f32 (.fin 1) (m.cos (toRadians32 lat)))
  Fl.toU32 (Fl.floor (Fl.mul f32 (Fl.div f32 (Fl.sub f32 (.fin 1) (Fl.div f32 (m.ln s) pi32)) (.fin 2)) pow))

/-- `from_position` (`src/map_tile/map_tile_coord.rs` 18-24). -/
def fromPosition (m : Libm) (pos : LatLon) (zoom : Nat) : Res MapTileCoord :=
  (zoomPow zoom).bind fun pow => .ok ⟨column pos.lon pow, row m pos.lat pow, zoom⟩

/-- The longitude of `to_position` (`src/map_tile/map_tile_coord.rs` 29). -/
def longitude (x : Nat) (n : Fl) : Fl :=
  Fl.sub f32 (Fl.mul f32 (Fl.div f32 (Fl.ofNat f32 x) n) (.fin 360)) (.fin 180)

/-- The latitude of `to_position` (`src/map_tile/map_tile_coord.rs` 30). -/
def latitude (m : Libm) (y : Nat) (n : Fl) : Fl :=
  toDegrees32 (m.atan (m.sinh (Fl.mul f32 pi32
    (Fl.sub f32 (.fin 1) (Fl.div f32 (Fl.mul f32 (.fin 2) (Fl.ofNat f32 y)) n)))))

/-- `to_position` (`src/map_tile/map_tile_coord.rs` 27-33). -/
def toPosition (m : Libm) (t : MapTileCoord) : Res LatLon :=
  (zoomPow t.zoom).bind fun n => .ok ⟨latitude m t.y n, longitude t.x n⟩

end MapTileCoord

namespace MapTileRenderer

open MapTileCoord

/-- The position of column or row `k` of a tile (`src/map_tile/map_tile_renderer.rs` 65-66, 69, 71). -/
def pixelPos (start stop : Fl) (k : Nat) : Fl :=
  Fl.add f32 start (Fl.mul f32 (Fl.ofNat f32 k)
    (Fl.div f32 (Fl.sub f32 stop start) (Fl.ofNat f32 tileSizePx)))

/-- One pixel of `create_single_tile` (`src/map_tile/map_tile_renderer.rs` 71-80). -/
def tileCell {T : Type} (valueFn : LatLon → Res (Option T)) (colorFn : T → Color) (start stop : LatLon)
    (i : Nat) (d : Drawable) (j : Nat) : Res Drawable := do
  match ← valueFn (LatLon.new (pixelPos start.lat stop.lat i) (pixelPos start.lon stop.lon j)) with
  | some v => d.drawPoint j i (colorFn v)
  | none => .ok d

/-- `create_single_tile` (`src/map_tile/map_tile_renderer.rs` 52-85).  Looking up a value may panic. -/
def createSingleTile {T : Type} (m : Libm) (valueFn : LatLon → Res (Option T)) (t : MapTileCoord)
    (colorFn : T → Color) : Res Drawable := do
  let d ← Drawable.createEmpty tileSizePx tileSizePx
  let start ← toPosition m t
  let x1 ← ckU32 (t.x + 1)
  let y1 ← ckU32 (t.y + 1)
  let stop ← toPosition m ⟨x1, y1, t.zoom⟩
  Res.foldl (fun d i => Res.foldl (tileCell valueFn colorFn start stop i) d (List.range tileSizePx)) d
    (List.range tileSizePx)

/-- A call of the save function: the picture and the tile it belongs to. -/
structure Saved where
  tile : MapTileCoord
  picture : Drawable
  deriving DecidableEq

/-- How a piece of work ends: normally, with an error, or unwinding a panic. -/
inductive Outcome where
  | done
  | failed
  | panicked
  deriving DecidableEq

/-- `unwrap()` turns an error into a panic (`src/map_tile/map_tile_renderer.rs` 42). -/
def unwrapRes {α : Type} : Res α → Res α
  | .err => .panic
  | r => r

/-- A parallel loop (`into_par_iter().for_each`) over jobs that compute a picture and save it:
the jobs run in any order, interleaved in any way.  If no job panics all are run; if one panics
the loop panics, and any of the other jobs may or may not have run.  The trace lists the calls of the save
function in the order in which they happen. -/
inductive ParFor (work : MapTileCoord → Res Drawable) (jobs : List MapTileCoord) : List Saved → Outcome → Prop
  | done (order : List MapTileCoord) (trace : List Saved) (perm : order.Perm jobs)
      (h : List.Forall₂ (fun t s => s.tile = t ∧ work t = .ok s.picture) order trace) :
      ParFor work jobs trace .done
  | panicked (order rest : List MapTileCoord) (bad : MapTileCoord) (trace : List Saved)
      (perm : (order ++ bad :: rest).Perm jobs) (hbad : work bad = .panic)
      (h : List.Forall₂ (fun t s => s.tile = t ∧ work t = .ok s.picture) order trace) :
      ParFor work jobs trace .panicked

/-- Pieces of work one after another; the first that does not end normally ends everything. -/
inductive Seq {α : Type} : List (List α → Outcome → Prop) → List α → Outcome → Prop
  | nil : Seq [] [] .done
  | cons {w ws tr tr' o} (h : w tr .done) (t : Seq ws tr' o) : Seq (w :: ws) (tr ++ tr') o
  | stop {w ws tr o} (h : w tr o) (ho : o ≠ .done) : Seq (w :: ws) tr o

/-- The tile range of one zoom level (`src/map_tile/map_tile_renderer.rs` 26-33): columns first to last,
rows first to last. -/
def tileRange (m : Libm) (e : LatLonExtent) (zoom : Nat) : Res ((Nat × Nat) × (Nat × Nat)) := do
  let tl ← fromPosition m ⟨e.minCoord.lat, e.maxCoord.lon⟩ zoom
  let br ← fromPosition m ⟨e.maxCoord.lat, e.minCoord.lon⟩ zoom
  .ok ((min tl.x br.x, max tl.x br.x), (min tl.y br.y, max tl.y br.y))

/-- One column of tiles, rendered in parallel (`src/map_tile/map_tile_renderer.rs` 38-44). -/
def runColumn {T : Type} (m : Libm) (valueFn : LatLon → Res (Option T)) (colorFn : T → Color)
    (zoom : Nat) (ys : Nat × Nat) (x : Nat) : List Saved → Outcome → Prop :=
  ParFor (fun t => unwrapRes (createSingleTile m valueFn t colorFn))
    ((rangeIncl ys.1 ys.2).map fun y => ⟨x, y, zoom⟩)

/-- One zoom level (`src/map_tile/map_tile_renderer.rs` 30-45). -/
def runZoom {T : Type} (m : Libm) (e : LatLonExtent) (valueFn : LatLon → Res (Option T))
    (colorFn : T → Color) (zoom : Nat) (trace : List Saved) (o : Outcome) : Prop :=
  match tileRange m e zoom with
  | .ok (xs, ys) => Seq ((rangeIncl xs.1 xs.2).map (runColumn m valueFn colorFn zoom ys)) trace o
  | .err => trace = [] ∧ o = .failed
  | .panic => trace = [] ∧ o = .panicked

/-- `create_all_tiles` (`src/map_tile/map_tile_renderer.rs` 15-49) as a relation between the input and
the possible traces of calls of the save function. -/
def runAllTiles {T : Type} (m : Libm) (e : LatLonExtent) (zooms : Nat × Nat)
    (valueFn : LatLon → Res (Option T)) (colorFn : T → Color) : List Saved → Outcome → Prop :=
  Seq ((rangeIncl zooms.1 zooms.2).map (runZoom m e valueFn colorFn))

end MapTileRenderer

/-- The file of a tile below an output path
(`src/meteo_chart/forecast_renderer/map_tile_file_helper.rs` 20-28). -/
def tilePath (outputPath : Text) (t : MapTileCoord) : Text :=
  outputPath ++ dec t.zoom ++ ['/'] ++ dec t.x ++ ['/'] ++ dec t.y ++ ['.', 'p', 'n', 'g']

/-- The files of a directory tree: content by path. -/
abbrev Files := Text → Option Drawable

/-- Writing the pictures of a trace of calls of the save function in their order
(`src/meteo_chart/forecast_renderer/map_tile_file_helper.rs` 26-29; a failure to write is ignored by the
code and not modelled). -/
def writeTiles (outputPath : Text) (fs : Files) (trace : List MapTileRenderer.Saved) : Files :=
  trace.foldl (fun fs s p => if p = tilePath outputPath s.tile then some s.picture else fs p) fs

end Verif
