import Verif.Model.Res
import Verif.Model.Float

/-!
# Model of `src/imaging/` and of the chart renderer

Pictures are byte buffers with four bytes (red, green, blue, alpha) per pixel, row after row, top row
first, as `image::save_buffer` and `into_rgba8` define them.  Writing and reading picture files
(`safe_image`, `load_img`) is not modelled.
-/

namespace Verif

/-- A colour, `[u8; 4]`. -/
structure Color where
  r : UInt8
  g : UInt8
  b : UInt8
  a : UInt8
  deriving DecidableEq, Repr

/-- `COLOR_TRANSPARENT` (`src/imaging/mod.rs` 6). -/
def Color.transparent : Color := ⟨0, 0, 0, 0⟩

/-- The result of an arithmetic operation on `u32`. -/
def ckU32 (n : Nat) : Res Nat := if n < 2 ^ 32 then .ok n else .panic

/-- The result of a subtraction on `u32`. -/
def subU32 (a b : Nat) : Res Nat := if b ≤ a then .ok (a - b) else .panic

/-- The result of an arithmetic operation on `i64`. -/
def ckI64 (n : Int) : Res Int := if -(2 ^ 63) ≤ n ∧ n < 2 ^ 63 then .ok n else .panic

/-- `n as u32` for an `i64`: wraps around. -/
def asU32 (n : Int) : Nat := (n % 2 ^ 32).toNat

/-- `((y * width + x) * NUM_COLOR_VALUES) as usize` (`src/imaging/drawable.rs` 64,
`src/imaging/image.rs` 38). -/
def pixelIndex (width x y : Nat) : Res Nat := do
  let a ← ckU32 (y * width)
  let b ← ckU32 (a + x)
  ckU32 (b * 4)

/-- `src/imaging/drawable.rs` 8-12. -/
structure Drawable where
  colorValues : List UInt8
  width : Nat
  height : Nat
  deriving DecidableEq, Repr

/-- Assignment to an element of a vector. -/
def setByte (l : List UInt8) (i : Nat) (v : UInt8) : Res (List UInt8) :=
  if i < l.length then .ok (l.set i v) else .panic

namespace Drawable

/-- `create_empty` (`src/imaging/drawable.rs` 36-46). -/
def createEmpty (width height : Nat) : Res Drawable :=
  if width = 0 ∨ height = 0 then .err
  else do
    let a ← ckU32 (width * height)
    let n ← ckU32 (a * 4)
    .ok ⟨List.replicate n 0, width, height⟩

/-- `draw_point` (`src/imaging/drawable.rs` 59-70). -/
def drawPoint (d : Drawable) (x y : Nat) (c : Color) : Res Drawable :=
  if x ≥ d.width ∨ y ≥ d.height then .panic
  else do
    let idx ← pixelIndex d.width x y
    let l ← setByte d.colorValues idx c.r
    let l ← setByte l (idx + 1) c.g
    let l ← setByte l (idx + 2) c.b
    let l ← setByte l (idx + 3) c.a
    .ok { d with colorValues := l }

/-- The inner loop of `create_with_data` (`src/imaging/drawable.rs` 24-28). -/
def drawRow (height y : Nat) (d : Drawable) (row : List Color) : Res Drawable :=
  Res.foldl (fun d p => do
    let a ← subU32 height y
    let b ← subU32 a 1
    d.drawPoint p.2 b p.1) d row.zipIdx

/-- `create_with_data` (`src/imaging/drawable.rs` 19-33).  The counters `x`, `y` are `u32`; they cannot
overflow before `draw_point` or the subtraction panics. -/
def createWithData (width height : Nat) (rows : List (List Color)) : Res Drawable := do
  let d ← createEmpty width height
  Res.foldl (fun d p => drawRow height p.2 d p.1) d rows.zipIdx

/-- The loop variables of `draw_line`. -/
structure LineState where
  x : Int
  y : Int
  err : Int

/-- The conditional step in x (`src/imaging/drawable.rs` 91-94). -/
def stepX (dx dy sx err2 : Int) (s : LineState) : Res LineState :=
  if err2 > -dx then do
    let e ← ckI64 (s.err - dy)
    let x ← ckI64 (s.x + sx)
    .ok ⟨x, s.y, e⟩
  else .ok s

/-- The conditional step in y (`src/imaging/drawable.rs` 95-98). -/
def stepY (dx dy sy err2 : Int) (s : LineState) : Res LineState :=
  if err2 < dy then do
    let e ← ckI64 (s.err + dx)
    let y ← ckI64 (s.y + sy)
    .ok ⟨s.x, y, e⟩
  else .ok s

/-- The loop of `draw_line` (`src/imaging/drawable.rs` 83-99).  `none`: the loop is still running after
the given number of rounds. -/
def lineLoop (dx dy sx sy x1 y1 : Int) (c : Color) : Nat → Drawable → LineState → Option (Res Drawable)
  | 0, _, _ => none
  | n + 1, d, s =>
    match d.drawPoint (asU32 s.x) (asU32 s.y) c with
    | .ok d =>
      if s.x = x1 ∧ s.y = y1 then some (.ok d)
      else
        match (do
          let err2 ← ckI64 (2 * s.err)
          let s ← stepX dx dy sx err2 s
          stepY dx dy sy err2 s) with
        | .ok s => lineLoop dx dy sx sy x1 y1 c n d s
        | .err => some .err
        | .panic => some .panic
    | .err => some .err
    | .panic => some .panic

/-- `draw_line` (`src/imaging/drawable.rs` 73-100), run for at most `rounds` rounds of its loop.
Integer division truncates towards zero. -/
def drawLine (rounds : Nat) (d : Drawable) (x0 y0 x1 y1 : Int) (c : Color) : Option (Res Drawable) :=
  match ckI64 (if x0 > x1 then x0 - x1 else x1 - x0), ckI64 (if y0 > y1 then y0 - y1 else y1 - y0) with
  | .ok dx, .ok dy =>
    let sx := if x0 < x1 then 1 else -1
    let sy := if y0 < y1 then 1 else -1
    let err := Int.tdiv (if dx > dy then dx else -dy) 2
    lineLoop dx dy sx sy x1 y1 c rounds d ⟨x0, y0, err⟩
  | _, _ => some .panic

end Drawable

/-- `src/imaging/image.rs` 5-9. -/
structure Image where
  pixelValues : List UInt8
  width : Nat
  height : Nat
  deriving DecidableEq, Repr

namespace Image

/-- `get_pixel_color` (`src/imaging/image.rs` 33-46). -/
def getPixelColor (i : Image) (x y : Nat) : Res Color :=
  if x ≥ i.width ∨ y ≥ i.height then .ok Color.transparent
  else do
    let idx ← pixelIndex i.width x y
    let r ← Res.index i.pixelValues idx
    let g ← Res.index i.pixelValues (idx + 1)
    let b ← Res.index i.pixelValues (idx + 2)
    let a ← Res.index i.pixelValues (idx + 3)
    .ok ⟨r, g, b, a⟩

/-- One channel of `interpolate_color` (`src/imaging/image.rs` 82-85). -/
def interpolateChannel (c1 : UInt8) (weight1 : Fl) (c2 : UInt8) (weight2 : Fl) : UInt8 :=
  UInt8.ofNat (Fl.toU8 (Fl.add f32 (Fl.mul f32 (Fl.ofNat f32 c1.toNat) weight1)
    (Fl.mul f32 (Fl.ofNat f32 c2.toNat) weight2)))

/-- `interpolate_color` (`src/imaging/image.rs` 80-87). -/
def interpolateColor (c1 : Color) (weight1 : Fl) (c2 : Color) (weight2 : Fl) : Color :=
  ⟨interpolateChannel c1.r weight1 c2.r weight2, interpolateChannel c1.g weight1 c2.g weight2,
   interpolateChannel c1.b weight1 c2.b weight2, interpolateChannel c1.a weight1 c2.a weight2⟩

/-- `interpolate_pixel_color` (`src/imaging/image.rs` 49-77). -/
def interpolatePixelColor (i : Image) (x y : Fl) : Res Color :=
  let xf := Fl.floor x
  let yf := Fl.floor y
  let xc := Fl.ceil x
  let yc := Fl.ceil y
  if Fl.lt xc (.fin 0) || Fl.lt yc (.fin 0) || Fl.ge xf (Fl.ofNat f32 i.width)
    || Fl.ge yf (Fl.ofNat f32 i.height) then .ok Color.transparent
  else if Fl.toU32 xf = Fl.toU32 xc ∨ Fl.toU32 yf = Fl.toU32 yc then
    i.getPixelColor (Fl.toU32 xf) (Fl.toU32 yf)
  else do
    let tl ← i.getPixelColor (Fl.toU32 xf) (Fl.toU32 yf)
    let tr ← i.getPixelColor (Fl.toU32 xc) (Fl.toU32 yf)
    let bl ← i.getPixelColor (Fl.toU32 xf) (Fl.toU32 yc)
    let br ← i.getPixelColor (Fl.toU32 xc) (Fl.toU32 yc)
    let t := interpolateColor tl (Fl.sub f32 xc x) tr (Fl.sub f32 x xf)
    let b := interpolateColor bl (Fl.sub f32 xc x) br (Fl.sub f32 x xf)
    .ok (interpolateColor t (Fl.sub f32 yc y) b (Fl.sub f32 y yf))

end Image

/-- One pixel of the chart renderer (`src/meteo_chart/forecast_renderer/single_chart_renderer.rs`
19-26).  Looking up a value may panic. -/
def renderCell {T : Type} (height : Nat) (valueFn : Nat → Nat → Res (Option T)) (colorFn : T → Color)
    (i : Nat) (d : Drawable) (j : Nat) : Res Drawable := do
  match ← valueFn j i with
  | some v =>
    let a ← subU32 height i
    let b ← subU32 a 1
    d.drawPoint j b (colorFn v)
  | none => .ok d

/-- `SingleChartRenderer::render` (`src/meteo_chart/forecast_renderer/single_chart_renderer.rs` 9-31). -/
def renderChart {T : Type} (width height : Nat) (valueFn : Nat → Nat → Res (Option T))
    (colorFn : T → Color) : Res Drawable := do
  let d ← Drawable.createEmpty width height
  Res.foldl (fun d i => Res.foldl (renderCell height valueFn colorFn i) d (List.range width)) d
    (List.range height)

end Verif
