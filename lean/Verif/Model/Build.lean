import Verif.Model.Request

/-!
# Builds with and without overflow checks

The other model files describe a build with overflow checks (`cargo build`, `cargo run`, `cargo test`).  The
`Dockerfile` (line 10) builds with `cargo build --release`, where integer arithmetic wraps around.  Here the
parts of the program whose arithmetic can overflow are parameters (`Build`), the functions that lead to them are
repeated over a build, and `Build.release` is the build without checks.  That the other arithmetic of the program
(cell indexes, pixel indexes, mixing of colours, the step before the first one of a model) cannot overflow is proved in
`Props/Release.lean` and `Props/Colors.lean`.  Functions of the library that the program does not call (pictures
larger than tiles, averages of bytes) are treated at the end, as far as they draw.
-/

namespace Verif

/-- `a - b` on `u32` without overflow check. -/
def wrapSub32 (a b : Nat) : Nat := (a + 2 ^ 32 - b) % 2 ^ 32

/-- `a - b` on `usize` (64 bits) without overflow check. -/
def wrapSub64 (a b : Nat) : Nat := if b ≤ a then a - b else a + 2 ^ 64 - b

namespace Grib2.Release

open Rd

/-- `read_n_bytes` (`src/grib2/common/byte_reader.rs` 9-14) for sizes that may be absurd: a vector of more than
`isize::MAX` bytes panics ("capacity overflow"). -/
def bytesAlloc (n : Nat) : Rd (List UInt8) := if n ≥ 2 ^ 63 then crash else bytes n

/-- `src/grib2/section1/section1_reader.rs` 17-44; line 41 subtracts in `usize`. -/
def readSection1 : Rd Section1 := do
  let length ← u32
  let sectionNumber ← u8
  let center ← u16
  let subcenter ← u16
  let masterTableVersion ← u8
  let localTableVersion ← u8
  let significance ← u8
  let refTime ← readRefTime
  let status ← u8
  let dataType ← u8
  if sectionNumber ≠ 1 then fail
  else
    let _ ← bytesAlloc (wrapSub64 length 21)
    pure { length, center, subcenter, masterTableVersion, localTableVersion,
           refTimeSignificance := refTimeSignificanceOfCode significance, refTime,
           productionStatus := productionStatusOfCode status,
           processedDataType := processedDataTypeOfCode dataType }

/-- `src/grib2/section2/section2_reader.rs` 13-24; line 21 subtracts in `usize`. -/
def readSection2 : Rd Section2 := do
  let length ← u32
  let sectionNumber ← u8
  if sectionNumber ≠ 2 then fail
  else
    let _ ← bytesAlloc (wrapSub64 length 5)
    pure { length }

/-- `src/grib2/section4/section4_reader.rs` 15-33; line 21 subtracts in `u32`. -/
def readSection4 : Rd Section4 := do
  let length ← u32
  let sectionNumber ← u8
  let coordinateValuesCount ← u16
  let tplNumber ← u16
  let template ← readProductTemplate tplNumber (wrapSub32 length 9)
  let words ← times u32 coordinateValuesCount
  if sectionNumber ≠ 4 then fail
  else pure { length, coordinateValues := words.map f32OfBits, template }

/-- `src/grib2/section5/section5_reader.rs` 13-28; line 19 subtracts in `u32`. -/
def readSection5 : Rd Section5 := do
  let length ← u32
  let sectionNumber ← u8
  let dataPoints ← u32
  let tplNumber ← u16
  let template ← readDataTemplate tplNumber (wrapSub32 length 11)
  if sectionNumber ≠ 5 then fail
  else pure { length, dataPoints, template }

/-- `src/grib2/section6/section6_reader.rs` 13-27; line 17 subtracts in `u32`. -/
def readSection6 : Rd Section6 := do
  let length ← u32
  let sectionNumber ← u8
  let bitmapIndicator ← u8
  let bitmap ← bytes (wrapSub32 length 6)
  if sectionNumber ≠ 6 then fail
  else pure { length, bitmapIndicator, bitmap }

/-- `src/grib2/section7/section7_reader.rs` 12-33; line 15 subtracts in `u32`. -/
def readSection7 : Rd Section7 := do
  let length ← u32
  let sectionNumber ← u8
  let dataPoints ← times u16 (wrapSub32 length 5 / 2)
  if sectionNumber ≠ 7 then fail
  else pure { length, dataPoints }

/-- `src/grib2/document/grib2_document_reader.rs` 39-62. -/
def readSingleDoc : Rd Document := do
  let section0 ← readSection0
  let section1 ← readSection1
  let section2 ← readSection2
  let section3 ← readSection3
  let section4 ← readSection4
  let section5 ← readSection5
  let section6 ← readSection6
  let section7 ← readSection7
  readSection8
  pure { section0, section1, section2, section3, section4, section5, section6, section7 }

end Grib2.Release

/-- The parts of the program whose arithmetic can overflow: reading a GRIB2 message, the tile after a tile
(`src/map_tile/map_tile_renderer.rs` 62-63), the hour of a horizon, and the step before a step. -/
structure Build where
  readDoc : Rd Grib2.Document
  succU32 : Nat → Res Nat
  getStep : Horizon → Res UInt8
  predUsize : Nat → Res Nat

namespace Build

/-- The build with overflow checks. -/
def checked : Build where
  readDoc := Grib2.readSingleDoc
  succU32 n := ckU32 (n + 1)
  getStep := Horizon.getStep
  predUsize n := if n = 0 then .panic else .ok (n - 1)

/-- The build without overflow checks (`Dockerfile` 10). -/
def release : Build where
  readDoc := Grib2.Release.readSingleDoc
  succU32 n := .ok ((n + 1) % 2 ^ 32)
  getStep h := .ok (h.days * 24 + h.hours)
  predUsize n := .ok (wrapSub64 n 1)

variable (b : Build)

/-! ## Reading files -/

/-- The loop of `src/grib2/document/grib2_document_reader.rs` 21-29, see `Grib2.multiLoop`. -/
def multiLoop : Nat → List UInt8 → Res (List Grib2.Document)
  | 0, _ => .ok []
  | fuel + 1, s =>
    match b.readDoc s with
    | .ok (d, s') =>
      match multiLoop fuel s' with
      | .ok ds => .ok (d :: ds)
      | .err => .err
      | .panic => .panic
    | .err => .ok []
    | .panic => .panic

/-- `src/grib2/document/grib2_document_reader.rs` 18-36, see `Grib2.readMultiDoc`. -/
def readMultiDoc (s : List UInt8) : Res (List Grib2.Document) :=
  match b.multiLoop (s.length + 1) s with
  | .ok [] => .err
  | .ok ds => .ok ds
  | .err => .err
  | .panic => .panic

/-- See `World.readSingle`. -/
def readSingle (w : World) (name : Text) : Res Grib2.Document := do
  let s ← w.stream name
  let r ← b.readDoc s
  .ok r.1

/-- See `World.readMulti`. -/
def readMulti (w : World) (name : Text) : Res (List Grib2.Document) := do
  let s ← w.stream name
  b.readMultiDoc s

/-- See `World.readRectangular`. -/
def readRectangular {T : Type} (w : World) (name : Text) (missing : T) (transform : Fl → T) :
    Res (LatLonValueGrid T) := do
  let doc ← b.readSingle w name
  Grib2.createRegularGrid doc missing transform

/-- See `World.readUnstructured`. -/
def readUnstructured {T : Type} (w : World) (name : Text) (missing : T) (transform : Fl → T) (grid : UnstructuredGrid) :
    Res (LatLonValueGrid T) := do
  let doc ← b.readSingle w name
  Grib2.convertUnstructured missing transform grid doc

/-- See `World.readMultiUnstructured`. -/
def readMultiUnstructured {T : Type} (w : World) (name : Text) (missing : T) (transform : Fl → T)
    (grid : UnstructuredGrid) (range : Option (Nat × Nat)) : Res (List (LatLonValueGrid T)) := do
  let docs ← b.readMulti w name
  Grib2.convertMulti docs missing transform grid range

/-! ## Steps -/

/-- The key by which steps are sorted. -/
def sortKey (s : SwissSearch.Step) : Nat :=
  match b.getStep s.horizon with
  | .ok k => k.toNat
  | _ => 0

/-- See `SwissSearch.sortSteps`. -/
def sortSteps (steps : List SwissSearch.Step) : Res (List SwissSearch.Step) :=
  if 2 ≤ steps.length ∧ steps.any (fun s => b.getStep s.horizon == .panic) then .panic
  else .ok (steps.insertionSort fun x y => b.sortKey x ≤ b.sortKey y)

/-- See `SwissSearch.findFiles`. -/
def findFiles (features : List SwissSearch.Feature) : Res (List SwissSearch.Step) := do
  let steps ← Res.mapM SwissSearch.createStep features
  b.sortSteps steps

/-- See `cloudPrecipSteps`. -/
def cloudPrecipSteps (step : RunStep) (clct totPrec : List RunStep) : Res (RunStep × RunStep × RunStep) := do
  let c ← Res.unwrapResult (getStepByNr clct step.nr)
  let n ← b.predUsize step.nr
  let p0 ← Res.unwrapResult (getStepByNr totPrec n)
  let p1 ← Res.unwrapResult (getStepByNr totPrec step.nr)
  .ok (c, p0, p1)

/-! ## Tiles -/

open MapTileRenderer MapTileCoord

/-- See `MapTileRenderer.createSingleTile`. -/
def createSingleTile {T : Type} (m : Libm) (valueFn : LatLon → Res (Option T)) (t : MapTileCoord)
    (colorFn : T → Color) : Res Drawable := do
  let d ← Drawable.createEmpty tileSizePx tileSizePx
  let start ← toPosition m t
  let x1 ← b.succU32 t.x
  let y1 ← b.succU32 t.y
  let stop ← toPosition m ⟨x1, y1, t.zoom⟩
  Res.foldl (fun d i => Res.foldl (tileCell valueFn colorFn start stop i) d (List.range tileSizePx)) d
    (List.range tileSizePx)

/-- See `MapTileRenderer.runColumn`. -/
def runColumn {T : Type} (m : Libm) (valueFn : LatLon → Res (Option T)) (colorFn : T → Color)
    (zoom : Nat) (ys : Nat × Nat) (x : Nat) : List Saved → Outcome → Prop :=
  ParFor (fun t => unwrapRes (b.createSingleTile m valueFn t colorFn))
    ((rangeIncl ys.1 ys.2).map fun y => ⟨x, y, zoom⟩)

/-- See `MapTileRenderer.runZoom`. -/
def runZoom {T : Type} (m : Libm) (e : LatLonExtent) (valueFn : LatLon → Res (Option T))
    (colorFn : T → Color) (zoom : Nat) (trace : List Saved) (o : Outcome) : Prop :=
  match tileRange m e zoom with
  | .ok (xs, ys) => Seq ((rangeIncl xs.1 xs.2).map (b.runColumn m valueFn colorFn zoom ys)) trace o
  | .err => trace = [] ∧ o = .failed
  | .panic => trace = [] ∧ o = .panicked

/-- See `MapTileRenderer.runAllTiles`. -/
def runAllTiles {T : Type} (m : Libm) (e : LatLonExtent) (zooms : Nat × Nat)
    (valueFn : LatLon → Res (Option T)) (colorFn : T → Color) : List Saved → Outcome → Prop :=
  Seq ((rangeIncl zooms.1 zooms.2).map (b.runZoom m e valueFn colorFn))

/-! ## Rendering -/

/-- See `Verif.runChart`. -/
def runChart (m : Libm) (run : Run) (step : Nat) : Option Chart → List Write → Outcome → Prop
  | none, tr, o => tr = [] ∧ o = .done
  | some c, tr, o => ∃ saved, tr = tileWrites run step c.layer saved ∧
      b.runAllTiles m c.extent run.model.zoomRange c.color id saved o

/-- See `Verif.RunJob`. -/
inductive RunJob (m : Libm) (run : Run) (dirs : Text → Bool) (step : Nat) (job : Job) : List Write → Outcome → Prop
  | panicked {tr : List Write} (h : b.runChart m run step job.chart tr .panicked) :
      RunJob m run dirs step job tr .panicked
  | bins {tr : List Write} {o : Outcome} (h : b.runChart m run step job.chart tr o) (ho : o ≠ .panicked) :
      RunJob m run dirs step job (writeBins run step dirs tr job.bins).1 (writeBins run step dirs tr job.bins).2

/-- See `Verif.runStep`. -/
def runStep (m : Libm) (run : Run) (dirs : Text → Bool) (filter : List Nat) (read : RunStep → Res Layers)
    (s : RunStep) (tr : List Write) (o : Outcome) : Prop :=
  if selected filter s then
    match read s with
    | .ok l => b.RunJob m run dirs s.nr l.job tr o
    | .err => tr = [] ∧ o = .failed
    | .panic => tr = [] ∧ o = .panicked
  else tr = [] ∧ o = .done

/-- See `Verif.renderSteps`. -/
def renderSteps (m : Libm) (run : Run) (dirs : Text → Bool) (steps : List RunStep) (filter : List Nat)
    (read : RunStep → Res Layers) : List Write → Outcome → Prop :=
  ParTry (b.runStep m run dirs filter read) steps

/-! ## DWD -/

namespace Dwd

open Verif.Dwd (SingleVar LevelVar fileUrl findLatestRun)

/-- See `Dwd.readGrid`. -/
def readGrid (w : World) (run : Run) (x : SingleVar) (step : RunStep) : Res (LatLonValueGrid Fl) := do
  let url ← fileUrl run (.single x step.nr)
  b.readRectangular w url missingF32 id

/-- See `Dwd.readTemp`. -/
def readTemp (w : World) (run : Run) (step : RunStep) : Res TempLayer := do
  let g ← readGrid b w run .t2m step
  .ok ⟨g⟩

/-- See `Dwd.readWind`. -/
def readWind (w : World) (run : Run) (step : RunStep) : Res WindLayer := do
  let u ← readGrid b w run .u10m step
  let v ← readGrid b w run .v10m step
  let gusts ← readGrid b w run .vmax10m step
  WindLayer.new u v (some gusts)

/-- See `Dwd.readCloudPrecip`. -/
def readCloudPrecip (w : World) (run : Run) (clct totPrec : List RunStep) (step : RunStep) :
    Res CloudPrecipLayer := do
  let (c, p0, p1) ← b.cloudPrecipSteps step clct totPrec
  let clct ← readGrid b w run .clctMod c
  let prec0 ← readGrid b w run .totPrec p0
  let prec1 ← readGrid b w run .totPrec p1
  CloudPrecipLayer.new clct prec0 prec1

/-- See `Dwd.readWeather`. -/
def readWeather (w : World) (run : Run) (step : RunStep) : Res WeatherLayer := do
  let clct ← readGrid b w run .clctMod step
  let ceiling ← readGrid b w run .ceiling step
  let ww ← readGrid b w run .ww step
  WeatherLayer.new clct ceiling (some ww)

/-- See `Dwd.readClc`. -/
def readClc (w : World) (run : Run) (step : RunStep) (levels : Nat × Nat) : Res (List (LatLonValueGrid UInt8)) :=
  Res.mapM (fun level => do
    let url ← fileUrl run (.level .clc step.nr level)
    b.readRectangular w url 0 clcByte) (rangeIncl levels.1 levels.2)

/-- See `Dwd.readUV`. -/
def readUV (w : World) (run : Run) (x : LevelVar) (step : RunStep) (levels : Nat × Nat) :
    Res (List (LatLonValueGrid UInt8)) :=
  Res.mapM (fun level => do
    let url ← fileUrl run (.level x step.nr level)
    b.readRectangular w url 255 uvByte) (rangeIncl levels.1 levels.2)

/-- See `Dwd.readHhl`. -/
def readHhl (w : World) (run : Run) (levels : Nat × Nat) : Res (List (LatLonValueGrid UInt8)) :=
  Res.mapM (fun level => do
    let url ← fileUrl run (.hhl level)
    b.readRectangular w url 0 hhlByte) (rangeIncl levels.1 levels.2)

/-- See `Dwd.cloudPrecipLayers`. -/
def cloudPrecipLayers (w : World) (run : Run) (clct totPrec : List RunStep) (step : RunStep) : Res Layers := do
  let l ← readCloudPrecip b w run clct totPrec step
  let ww ← readWeather b w run step
  .ok (.cloudPrecip l ww)

/-- See `Dwd.windLayers`. -/
def windLayers (w : World) (run : Run) (step : RunStep) : Res Layers := do
  let l ← readWind b w run step
  .ok (.wind l)

/-- See `Dwd.tempLayers`. -/
def tempLayers (w : World) (run : Run) (step : RunStep) : Res Layers := do
  let l ← readTemp b w run step
  .ok (.temp l)

/-- See `Dwd.verticalCloudLayers`. -/
def verticalCloudLayers (w : World) (run : Run) (levels : Nat × Nat) (hhl : List (LatLonValueGrid UInt8))
    (step : RunStep) : Res Layers := do
  let clc ← readClc b w run step levels
  let l ← VerticalCloudLayer.new hhl clc
  .ok (.verticalCloud l)

/-- See `Dwd.verticalWindLayers`. -/
def verticalWindLayers (w : World) (run : Run) (levels : Nat × Nat) (hhl : List (LatLonValueGrid UInt8))
    (step : RunStep) : Res Layers := do
  let u ← readUV b w run .u step levels
  let v ← readUV b w run .v step levels
  let l ← VerticalWindLayer.new hhl u v
  .ok (.verticalWind l)

/-- See `Dwd.renderRun`. -/
def renderRun (m : Libm) (w : World) (dirs : Text → Bool) (vars : List Text) (filter : List Nat) (run : Run) : Effect :=
  Seq [Effect.when (variableChosen vars .cloudPrecip)
      (Effect.need run.model.forecastDiffSteps fun totPrec =>
        b.renderSteps m run dirs run.model.forecastSteps filter
          (cloudPrecipLayers b w run run.model.forecastSteps totPrec)),
    Effect.when (variableChosen vars .wind10m)
      (b.renderSteps m run dirs run.model.forecastSteps filter (windLayers b w run)),
    Effect.when (variableChosen vars .temp2m)
      (b.renderSteps m run dirs run.model.forecastSteps filter (tempLayers b w run)),
    Effect.when (vars.isEmpty || vars.contains LayerType.verticalCloud.name || vars.contains LayerType.verticalWind.name)
      (Effect.need (readHhl b w run run.model.verticalLevels) fun hhl =>
        Seq [Effect.when (variableChosen vars .verticalCloud)
            (b.renderSteps m run dirs run.model.forecastSteps filter
              (verticalCloudLayers b w run run.model.verticalLevels hhl)),
          Effect.when (variableChosen vars .verticalWind)
            (b.renderSteps m run dirs run.model.forecastSteps filter
              (verticalWindLayers b w run run.model.verticalLevels hhl))])]

/-- See `Dwd.renderLatest`. -/
def renderLatest (m : Libm) (w : World) (dirs : Text → Bool) (today now : Date) (available : Text → Bool)
    (model : FcModel) (vars : List Text) (filter : List Nat) : Effect :=
  Effect.need (findLatestRun model today now available) (renderRun b m w dirs vars filter)

end Dwd

/-! ## MeteoSwiss -/

namespace Swiss

open Verif.Swiss (Service Calendar Variable findAsset horConstId vertConstId forecastRun levels gridDims gridExtent
  maxDist)

/-- See `Swiss.readGrid`. -/
def readGrid (w : World) (grid : UnstructuredGrid) (transform : Fl → Fl) (step : RunStep) : Res (LatLonValueGrid Fl) :=
  b.readUnstructured w step.url missingF32 transform grid

/-- See `Swiss.readTemp`. -/
def readTemp (w : World) (grid : UnstructuredGrid) (t2m : List RunStep) (step : RunStep) : Res TempLayer := do
  let s ← Res.unwrapResult (getStepByNr t2m step.nr)
  let g ← readGrid b w grid id s
  .ok ⟨g⟩

/-- See `Swiss.readWind`. -/
def readWind (w : World) (grid : UnstructuredGrid) (u10m v10m vmax10m : List RunStep) (step : RunStep) :
    Res WindLayer := do
  let us ← getStepByNr u10m step.nr
  let vs ← getStepByNr v10m step.nr
  let gs ← getStepByNr vmax10m step.nr
  let u ← readGrid b w grid id us
  let v ← readGrid b w grid id vs
  let gusts ← readGrid b w grid id gs
  WindLayer.new u v (some gusts)

/-- See `Swiss.readCloudPrecip`. -/
def readCloudPrecip (w : World) (grid : UnstructuredGrid) (clct totPrec : List RunStep) (step : RunStep) :
    Res CloudPrecipLayer := do
  let (c, p0, p1) ← b.cloudPrecipSteps step clct totPrec
  let clct ← readGrid b w grid clctFraction c
  let prec0 ← readGrid b w grid id p0
  let prec1 ← readGrid b w grid id p1
  CloudPrecipLayer.new clct prec0 prec1

/-- See `Swiss.readWeather`. -/
def readWeather (w : World) (grid : UnstructuredGrid) (clct ceiling : List RunStep) (step : RunStep) :
    Res WeatherLayer := do
  let cs ← Res.unwrapResult (getStepByNr clct step.nr)
  let es ← Res.unwrapResult (getStepByNr ceiling step.nr)
  let clct ← readGrid b w grid clctFraction cs
  let ceiling ← readGrid b w grid id es
  WeatherLayer.new clct ceiling none

/-- See `Swiss.readHhl`. -/
def readHhl (w : World) (grid : UnstructuredGrid) (url : Text) : Res (List (LatLonValueGrid UInt8)) :=
  b.readMultiUnstructured w url 0 hhlByte grid (some levels)

/-- See `Swiss.readVerticalCloud`. -/
def readVerticalCloud (w : World) (grid : UnstructuredGrid) (hhl : List (LatLonValueGrid UInt8)) (clc : List RunStep)
    (step : RunStep) : Res VerticalCloudLayer := do
  let s ← Res.unwrapResult (getStepByNr clc step.nr)
  let grids ← b.readMultiUnstructured w s.url 0 clcByte grid (some levels)
  VerticalCloudLayer.new hhl grids

/-- See `Swiss.readVerticalWind`. -/
def readVerticalWind (w : World) (grid : UnstructuredGrid) (hhl : List (LatLonValueGrid UInt8)) (u v : List RunStep)
    (step : RunStep) : Res VerticalWindLayer := do
  let us ← Res.unwrapResult (getStepByNr u step.nr)
  let vs ← Res.unwrapResult (getStepByNr v step.nr)
  let ug ← b.readMultiUnstructured w us.url 255 uvByte grid (some levels)
  let vg ← b.readMultiUnstructured w vs.url 255 uvByte grid (some levels)
  VerticalWindLayer.new hhl ug vg

/-- See `Swiss.readHorConst`. -/
def readHorConst (w : World) (url : Text) : Res UnstructuredGrid := do
  let docs ← b.readMulti w url
  let clat ← Res.index docs 4
  let clon ← Res.index docs 3
  let ext ← gridExtent
  let coordinates ← Grib2.getLatLonValues clat clon
  let g ← UnstructuredGrid.new gridDims ext coordinates
  g.calcCoordDistLookupMap maxDist

/-- See `Swiss.steps`. -/
def steps (s : Service) (t : Instant) (x : Variable) (skipFirst : Bool) : Res (List RunStep) := do
  let features ← s.search x t
  let files ← b.findFiles features
  .ok (SwissSearch.runSteps files skipFirst)

/-- See `Swiss.renderCloudPrecip`. -/
def renderCloudPrecip (m : Libm) (w : World) (s : Service) (cal : Calendar) (dirs : Text → Bool) (filter : List Nat)
    (grid : UnstructuredGrid) (t : Instant) : Effect :=
  Effect.need (forecastRun cal t) fun run =>
  Effect.need (steps b s t .clct true) fun clct =>
  Effect.need (steps b s t .totPrec false) fun totPrec =>
  Effect.need (steps b s t .ceiling false) fun ceiling =>
    b.renderSteps m run dirs clct filter fun step => do
      let l ← readCloudPrecip b w grid clct totPrec step
      let ww ← readWeather b w grid clct ceiling step
      .ok (.cloudPrecip l ww)

/-- See `Swiss.renderWind`. -/
def renderWind (m : Libm) (w : World) (s : Service) (cal : Calendar) (dirs : Text → Bool) (filter : List Nat)
    (grid : UnstructuredGrid) (t : Instant) : Effect :=
  Effect.need (forecastRun cal t) fun run =>
  Effect.need (steps b s t .u10m false) fun u10m =>
  Effect.need (steps b s t .v10m false) fun v10m =>
  Effect.need (steps b s t .vmax10m false) fun vmax10m =>
    b.renderSteps m run dirs u10m filter fun step => do
      let l ← readWind b w grid u10m v10m vmax10m step
      .ok (.wind l)

/-- See `Swiss.renderTemp`. -/
def renderTemp (m : Libm) (w : World) (s : Service) (cal : Calendar) (dirs : Text → Bool) (filter : List Nat)
    (grid : UnstructuredGrid) (t : Instant) : Effect :=
  Effect.need (forecastRun cal t) fun run =>
  Effect.need (steps b s t .t2m false) fun t2m =>
    b.renderSteps m run dirs t2m filter fun step => do
      let l ← readTemp b w grid t2m step
      .ok (.temp l)

/-- See `Swiss.renderVerticalCloud`. -/
def renderVerticalCloud (m : Libm) (w : World) (s : Service) (cal : Calendar) (dirs : Text → Bool) (filter : List Nat)
    (grid : UnstructuredGrid) (t : Instant) (hhl : List (LatLonValueGrid UInt8)) : Effect :=
  Effect.need (forecastRun cal t) fun run =>
  Effect.need (steps b s t .clc false) fun clc =>
    b.renderSteps m run dirs clc filter fun step => do
      let l ← readVerticalCloud b w grid hhl clc step
      .ok (.verticalCloud l)

/-- See `Swiss.renderVerticalWind`. -/
def renderVerticalWind (m : Libm) (w : World) (s : Service) (cal : Calendar) (dirs : Text → Bool) (filter : List Nat)
    (grid : UnstructuredGrid) (t : Instant) (hhl : List (LatLonValueGrid UInt8)) : Effect :=
  Effect.need (forecastRun cal t) fun run =>
  Effect.need (steps b s t .u false) fun u =>
  Effect.need (steps b s t .v false) fun v =>
    b.renderSteps m run dirs u filter fun step => do
      let l ← readVerticalWind b w grid hhl u v step
      .ok (.verticalWind l)

/-- See `Swiss.renderRun`. -/
def renderRun (m : Libm) (w : World) (s : Service) (cal : Calendar) (dirs : Text → Bool) (vars : List Text)
    (filter : List Nat) (grid : UnstructuredGrid) (vertUrl : Text) (t : Instant) : Effect :=
  Seq [Effect.when (variableChosen vars .cloudPrecip) (renderCloudPrecip b m w s cal dirs filter grid t),
    Effect.when (variableChosen vars .wind10m) (renderWind b m w s cal dirs filter grid t),
    Effect.when (variableChosen vars .temp2m) (renderTemp b m w s cal dirs filter grid t),
    Effect.when (vars.isEmpty || vars.contains LayerType.verticalCloud.name || vars.contains LayerType.verticalWind.name)
      (Effect.need (readHhl b w grid vertUrl) fun hhl =>
        Seq [Effect.when (variableChosen vars .verticalCloud) (renderVerticalCloud b m w s cal dirs filter grid t hhl),
          Effect.when (variableChosen vars .verticalWind) (renderVerticalWind b m w s cal dirs filter grid t hhl)])]

/-- See `Swiss.renderLatest`. -/
def renderLatest (m : Libm) (w : World) (s : Service) (cal : Calendar) (dirs : Text → Bool) (vars : List Text)
    (filter : List Nat) : Effect :=
  Effect.need s.assets fun assets =>
  Effect.need (Res.unwrap (findAsset assets horConstId)) fun hor =>
  Effect.need (readHorConst b w hor.href) fun grid =>
  Effect.need (Res.unwrap (findAsset assets vertConstId)) fun vert =>
  Effect.need s.refTimes fun refTimes =>
  Effect.need (SwissSearch.findLatest cal.parse refTimes) fun t =>
    renderRun b m w s cal dirs vars filter grid vert.href t

end Swiss

/-- `main` (`src/main.rs` 27-57) of a build. -/
def mainEffect (e : Environment) (model : Text) (vars : List Text) (filter : List Nat) : Effect :=
  if model = "icon-ch1".toList then Swiss.renderLatest b e.libm e.world e.service e.calendar e.dirs vars filter
  else if model = "icon-d2".toList then
    Dwd.renderLatest b e.libm e.world e.dirs e.today e.now e.available .iconD2 vars filter
  else if model = "icon-eu".toList then
    Dwd.renderLatest b e.libm e.world e.dirs e.today e.now e.available .iconEu vars filter
  else fun tr o => tr = [] ∧ o = .done

end Build

/-! ## Pictures -/

namespace Drawable.Release

/-- `((y * width + x) * NUM_COLOR_VALUES) as usize` on `u32` without overflow check (`src/imaging/drawable.rs` 64). -/
def pixelIndex (width x y : Nat) : Nat := ((y * width % 2 ^ 32 + x) % 2 ^ 32 * 4) % 2 ^ 32

/-- `create_empty` without overflow check (`src/imaging/drawable.rs` 36-46). -/
def createEmpty (width height : Nat) : Res Drawable :=
  if width = 0 ∨ height = 0 then .err
  else .ok ⟨List.replicate ((width * height % 2 ^ 32 * 4) % 2 ^ 32) 0, width, height⟩

/-- `draw_point` without overflow check (`src/imaging/drawable.rs` 59-70). -/
def drawPoint (d : Drawable) (x y : Nat) (c : Color) : Res Drawable :=
  if x ≥ d.width ∨ y ≥ d.height then .panic
  else do
    let idx := pixelIndex d.width x y
    let l ← setByte d.colorValues idx c.r
    let l ← setByte l (idx + 1) c.g
    let l ← setByte l (idx + 2) c.b
    let l ← setByte l (idx + 3) c.a
    .ok { d with colorValues := l }

end Drawable.Release

end Verif
