import Verif.Model.Grib2
import Verif.Model.Geo

/-!
# Model of the decoding of GRIB2 data values and of the GRIB2-to-grid converters

`src/grib2/document/grib2_document.rs`, `src/grib2/converter/*.rs`.
-/

namespace Verif.Grib2

open Verif

/-- `bitmap[i / 8] & (0x80 >> (i % 8)) > 0` (`src/grib2/document/grib2_document.rs` 56); indexing
panics when the bitmap is too short. -/
def bitmapBit (bitmap : List UInt8) (i : Nat) : Res Bool := do
  let b ← Res.index bitmap (i / 8)
  .ok (decide (0 < (b &&& ((0x80 : UInt8) >>> (UInt8.ofNat (i % 8)))).toNat))

/-- The condition `bitmap.is_empty() || (bitmap[..] & .. > 0)`
(`src/grib2/document/grib2_document.rs` 56). -/
def pointPresent (bitmap : List UInt8) (i : Nat) : Res Bool :=
  if bitmap.isEmpty then .ok true else bitmapBit bitmap i

/-- The loop of `calculate_data_points` (`src/grib2/document/grib2_document.rs` 53-65): `n` points
remain, `i` is the index of the next point and `j` the index of the next packed value. -/
def decodeLoop {T : Type} (bitmap : List UInt8) (raw : List Nat) (value : Nat → T) (missing : T) :
    (n i j : Nat) → Res (List T)
  | 0, _, _ => .ok []
  | n + 1, i, j => do
    let present ← pointPresent bitmap i
    if present then do
      let x ← Res.index raw j
      let rest ← decodeLoop bitmap raw value missing n (i + 1) (j + 1)
      .ok (value x :: rest)
    else do
      let rest ← decodeLoop bitmap raw value missing n (i + 1) j
      .ok (missing :: rest)

/-- The simple packing formula (`src/grib2/document/grib2_document.rs` 37-40, 57-58):
`(reference + raw as f32 * 2f32.powi(E)) / 10f32.powi(D)`. -/
def unpackValue (t : DataTemplate5_0) (raw : Nat) : Fl :=
  Fl.div f32
    (Fl.add f32 t.referenceValue (Fl.mul f32 (Fl.ofNat f32 raw) (Fl.powi f32 (.fin 2) t.binaryScale)))
    (Fl.powi f32 (.fin 10) t.decimalScale)

/-- `Grib2Document::calculate_data_points` (`src/grib2/document/grib2_document.rs` 30-68). -/
def calculateDataPoints {T : Type} (doc : Document) (missing : T) (transform : Fl → T) :
    Res (List T) :=
  match doc.section5.template with
  | .simplePacking t =>
    let raw := doc.section7.dataPoints
    let n := doc.section3.numberOfDatapoints
    if raw.isEmpty then .ok (List.replicate n missing)
    else
      decodeLoop doc.section6.bitmap raw (fun x => transform (unpackValue t x)) missing n 0 0
  | _ => .err

/-- `get_dimensions_and_extent` (`src/grib2/converter/regular_grid_converter.rs` 37-53). -/
def getDimensionsAndExtent (doc : Document) : Res ((Nat × Nat) × LatLonExtent) :=
  match doc.section3.template with
  | .latitudeLongitude t => do
    let ext ← LatLonExtent.new (LatLon.new t.firstLat t.firstLon) (LatLon.new t.lastLat t.lastLon)
    .ok ((t.pointsAlongParallel, t.pointsAlongMeridian), ext)
  | _ => .err

/-- `RegularGridConverter::create_and_transform`
(`src/grib2/converter/regular_grid_converter.rs` 18-33). -/
def createRegularGrid {T : Type} (doc : Document) (missing : T) (transform : Fl → T) :
    Res (LatLonValueGrid T) := do
  let values ← calculateDataPoints doc missing transform
  let (dims, ext) ← getDimensionsAndExtent doc
  .ok (LatLonValueGrid.new values missing dims ext)

end Verif.Grib2
