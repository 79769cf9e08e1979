import Verif.Props.Convert
import Verif.Props.LayerBytes
import Verif.Props.Program

/-!
# C89, C93-C97: from the published messages to the files written
-/

namespace Verif.Props

open Verif MapTileRenderer Dwd
open Verif.Spec (Filled cell)
open Verif.Spec.Grib2 (Msg encode F32Word)
open Verif.Spec.Decode (present rank)

/-! ## Published fields -/

/-- The server delivers, for a request, a file that unpacks to the encoding of a message (and perhaps more). -/
structure Publishes (w : World) (run : Run) (r : Req) (msg : Msg) : Prop where
  ok : msg.ok
  known : msg.product.known ∨ msg.coordinates = []
  there : ∃ url body rest, fileUrl run r = .ok url ∧ w.download url = some body ∧ w.bunzip body = encode msg ++ rest

/-- The message holds values for a regular grid of `ni` columns and `nj` rows, packed with a reference value and scale
factors in the usual range. -/
structure Field (msg : Msg) (ni nj : Nat) : Prop where
  grid : ∃ g, msg.grid = .latLon g ∧ g.ni = ni ∧ g.nj = nj
  packing : ∃ ref r E D bits typ, msg.packing = .simple ref E D bits typ ∧ ref.value = .fin r ∧ |r| ≤ 2 ^ 80 ∧
    -126 ≤ E ∧ E ≤ 60 ∧ -10 ≤ D ∧ D ≤ 10
  points : msg.numberOfPoints = ni * nj
  data : msg.data ≠ []

/-- The number that the message gives for point `i` according to the standard: nothing where the bitmap has a 0,
`(R + X * 2^E) / 10^D` for the packed number `X` elsewhere. -/
def physical (msg : Msg) (i : Nat) : Option Rat :=
  match msg.packing with
  | .simple ref E D _ _ =>
    match ref.value with
    | .fin r =>
      if present msg.bitmap i then
        (msg.data[rank msg.bitmap i]?).map fun x : Nat => (r + (x : Rat) * (2 : Rat) ^ E) / (10 : Rat) ^ D
      else none
    | _ => none
  | _ => none

/-- Reading a published field gives a filled grid with the missing value where the bitmap has a 0, and elsewhere
the transformed unpacked number. -/
theorem packed_of_field {T : Type} {w : World} {run : Run} (hm : IsDwd run.model) {r : Req} {msg : Msg} {ni nj : Nat}
    (hp : Publishes w run r msg) (hf : Field msg ni nj) {missing : T} {f : Fl → T} {G : LatLonValueGrid T}
    (h : Res.bind (fileUrl run r) (fun url => w.readRectangular url missing f) = .ok G) {ref : F32Word} {E D : Int}
    {bits : Nat} {typ : Grib2.OriginalFieldType} (hpk : msg.packing = .simple ref E D bits typ) :
    Filled G ni nj ∧ G.missingValue = missing ∧ ∀ x y, x < ni → y < nj →
      (present msg.bitmap (y * ni + x) = false → G.values[y * ni + x]? = some missing) ∧
      (present msg.bitmap (y * ni + x) = true → ∃ X, msg.data[rank msg.bitmap (y * ni + x)]? = some X ∧ X < 2 ^ 16 ∧
        G.values[y * ni + x]? = some (f (Grib2.unpackValue ⟨ref.value, E, D, bits, typ⟩ X))) := by
  obtain ⟨url, body, rest, hu, hd, hz⟩ := hp.there
  obtain ⟨url', hu', h1, h2⟩ := C52_download hm r
  rw [hu] at hu'
  cases hu'
  rw [hu] at h
  change w.readRectangular url missing f = .ok G at h
  unfold World.readRectangular World.readSingle World.stream at h
  simp only [h1, h2, hd, if_true] at h
  change (do let doc ← (do let r ← Grib2.readSingleDoc (w.bunzip body); Res.ok r.1); Grib2.createRegularGrid doc missing f)
    = Res.ok G at h
  rw [hz, C01_round_trip msg hp.ok hp.known rest] at h
  change Grib2.createRegularGrid msg.doc missing f = .ok G at h
  obtain ⟨g, hg, rfl, rfl⟩ := hf.grid
  obtain ⟨t, ht, t1, t2⟩ : ∃ t, msg.doc.section3.template = .latitudeLongitude t ∧ t.pointsAlongParallel = g.ni ∧
      t.pointsAlongMeridian = g.nj := by
    refine ⟨_, show Spec.Grib2.gridDoc msg.grid = _ by rw [hg]; rfl, rfl, rfl⟩
  have ht5 : msg.doc.section5.template = .simplePacking ⟨ref.value, E, D, bits, typ⟩ := by
    show Spec.Grib2.packingDoc msg.packing = _
    rw [hpk]; rfl
  obtain ⟨g1, _, g3, g4⟩ := C13_shape msg.doc t ht missing f G h
  rw [t1, t2] at g1
  obtain ⟨l1, l2⟩ := C06_bitmap msg.doc _ missing f G.values ht5 hf.data g4
  have hn : msg.doc.section3.numberOfDatapoints = g.ni * g.nj := hf.points
  have hsmall : msg.numberOfPoints < 2 ^ 32 := by
    obtain ⟨_, _, _, _, _, _, _, _, _, _, _, _, _, _, _, h, _⟩ := hp.ok
    exact h
  have hx16 : ∀ v ∈ msg.data, v < 2 ^ 16 := by
    obtain ⟨_, _, _, _, _, _, _, _, _, _, _, _, _, _, _, _, _, _, _, _, _, _, _, _, _, _, _, h, _⟩ := hp.ok
    exact h
  refine ⟨⟨g1, by rw [← hf.points]; omega, l1.trans hn⟩, g3, ?_⟩
  intro x y hx hy
  have hi : y * g.ni + x < msg.doc.section3.numberOfDatapoints := by
    rw [hn]
    calc y * g.ni + x < y * g.ni + g.ni := by omega
      _ = (y + 1) * g.ni := by ring
      _ ≤ g.nj * g.ni := Nat.mul_le_mul_right _ hy
      _ = g.ni * g.nj := by ring
  obtain ⟨p1, p2⟩ := l2 _ hi
  refine ⟨p2, fun hpr => ?_⟩
  obtain ⟨X, hX, hv⟩ := p1 hpr
  exact ⟨X, hX, hx16 X (List.mem_of_getElem? hX), hv⟩

/-- The number that a message with simple packing gives for a point. -/
theorem physical_eq {msg : Msg} {ref : F32Word} {E D : Int} {bits : Nat} {typ : Grib2.OriginalFieldType}
    (hpk : msg.packing = .simple ref E D bits typ) {r : Rat} (hr : ref.value = .fin r) (i : Nat) :
    physical msg i = if present msg.bitmap i then
        (msg.data[rank msg.bitmap i]?).map fun x : Nat => (r + (x : Rat) * (2 : Rat) ^ E) / (10 : Rat) ^ D
      else none := by
  unfold physical
  rw [hpk]
  simp only [hr]

/-- The same with the number that the message encodes, up to rounding. -/
theorem grid_of_field {T : Type} {w : World} {run : Run} (hm : IsDwd run.model) {r : Req} {msg : Msg} {ni nj : Nat}
    (hp : Publishes w run r msg) (hf : Field msg ni nj) {missing : T} {f : Fl → T} {G : LatLonValueGrid T}
    (h : Res.bind (fileUrl run r) (fun url => w.readRectangular url missing f) = .ok G) :
    Filled G ni nj ∧ G.missingValue = missing ∧ ∀ x y, x < ni → y < nj →
      (physical msg (y * ni + x) = none → G.values[y * ni + x]? = some missing) ∧
      ∀ q, physical msg (y * ni + x) = some q →
        ∃ v : Rat, |v - q| ≤ |q| / 2 ^ 22 + 1 / 2 ^ 110 ∧ G.values[y * ni + x]? = some (f (.fin v)) := by
  obtain ⟨ref, r, E, D, bits, typ, hpk, hr, hrb, e1, e2, d1, d2⟩ := hf.packing
  obtain ⟨g1, g2, g3⟩ := packed_of_field hm hp hf h hpk
  refine ⟨g1, g2, fun x y hx hy => ?_⟩
  obtain ⟨p2, p1⟩ := g3 x y hx hy
  rw [physical_eq hpk hr]
  cases hpr : present msg.bitmap (y * ni + x) with
  | false => exact ⟨fun _ => p2 hpr, fun q hq => by simp at hq⟩
  | true =>
    obtain ⟨X, hX, hX16, hv⟩ := p1 hpr
    rw [hX]
    refine ⟨fun hq => by simp at hq, fun q hq => ?_⟩
    simp only [if_true, Option.map_some, Option.some.injEq] at hq
    obtain ⟨v, v1, v2⟩ := C07_formula ⟨ref.value, E, D, bits, typ⟩ r hr hrb ⟨e1, e2⟩ ⟨d1, d2⟩ X hX16
    simp only at v2
    rw [hq] at v2
    exact ⟨v, v2, by rw [hv, v1]⟩

/-- The cells of a grid of binary32 numbers read with the missing value -1. -/
theorem cell_of_field {w : World} {run : Run} (hm : IsDwd run.model) {r : SingleVar} {n : Nat} {msg : Msg} {ni nj : Nat}
    (hp : Publishes w run (.single r n) msg) (hf : Field msg ni nj) {G : LatLonValueGrid Fl}
    (h : dwdGrid w run r n = .ok G) :
    Holds G ni nj (fun x y => physical msg (y * ni + x)) := by
  obtain ⟨h1, h2, h3⟩ := grid_of_field hm hp hf h
  refine ⟨h1, fun x y hx hy => ?_⟩
  obtain ⟨a, b⟩ := h3 x y hx hy
  unfold cell
  rw [h2]
  constructor
  · intro hq
    rw [a hq]
    rfl
  · intro q hq
    obtain ⟨v, v1, v2⟩ := b q hq
    refine ⟨v, v1, ?_⟩
    rw [v2]
    show (if Fl.feq (.fin v) (.fin (-1)) = true then _ else _) = _
    simp only [id, Fl.feq, decide_eq_true_eq]

/-- The bytes that a successful run leaves in a meteobin file. -/
theorem bin_of_run {m : Libm} {w : World} {dirs : Text → Bool} {vars : List Text} {filter : List Nat} {run : Run}
    (hn : '/' ∉ run.name) {tr : List Write} (h : Dwd.renderRun m w dirs vars filter run tr .done) {v : LayerType}
    (hv : ChosenVar vars v) (hw : v ≠ .weather) {s : RunStep} (hs : s ∈ run.model.forecastSteps)
    (hc : Chosen filter s) :
    ∃ l, dwdLayers w run v s.nr = .ok l ∧ CanDraw m run.model.zoomRange l ∧
      ∀ (before : Tree) (out : Output) (c : Content), FileOf m run.model.zoomRange l out c →
        before.write tr (out.path run s.nr) = some c := by
  obtain ⟨l, hl, hd⟩ := ((succeeds_dwd m w dirs vars filter run).only tr h).1 v hv hw s hs hc
  exact ⟨l, hl, hd, fun before out c hf =>
    (C87_dwd_files m w dirs vars filter run hn tr h before _).1 c ⟨v, hv, s, hs, hc, l, hl, out, hf, rfl⟩⟩

/-! ## C89: temperature -/

/-- C89: if a DWD run is rendered successfully with temperature and step selected, and the server published a
field of temperatures, then the meteobin file has one byte for each grid point, in the order of the points in the
message: 255 where the bitmap has a 0, and else, from -63.99 to 62.99 degrees Celsius, a byte that gives the
temperature of the message to within a quarter of a degree (plus 0.002). -/
theorem C89_temperature (m : Libm) (w : World) (dirs : Text → Bool) (vars : List Text) (filter : List Nat) (run : Run)
    (hm : IsDwd run.model) (hn : '/' ∉ run.name) (tr : List Write)
    (h : Dwd.renderRun m w dirs vars filter run tr .done) (hv : ChosenVar vars .temp2m) (s : RunStep)
    (hs : s ∈ run.model.forecastSteps) (hc : Chosen filter s) (msg : Msg) (ni nj : Nat)
    (hp : Publishes w run (.single .t2m s.nr) msg) (hf : Field msg ni nj) (before : Tree) :
    ∃ bytes, before.write tr (binPath run s.nr .temp2m) = some (.bytes bytes) ∧ bytes.length = ni * nj ∧
      ∀ x y, x < ni → y < nj → ∃ b : UInt8, bytes[y * ni + x]? = some b ∧
        (physical msg (y * ni + x) = none → b = 255) ∧
        ∀ k, physical msg (y * ni + x) = some k → -6399 / 100 ≤ k - 27315 / 100 → k - 27315 / 100 ≤ 6299 / 100 →
          b ≠ 255 ∧ |((b.toNat : Rat) - 128) / 2 - (k - 27315 / 100)| ≤ 1 / 4 + 2 / 1000 := by
  obtain ⟨l, hl, _, hfile⟩ := bin_of_run hn h hv (by simp) hs hc
  simp only [dwdLayers, Res.bind_eq_ok, Res.ok.injEq] at hl
  obtain ⟨G, hG, rfl⟩ := hl
  obtain ⟨bytes, b1, b2, b3⟩ := temp_bytes (cell_of_field hm hp hf hG)
  exact ⟨bytes, hfile before (.bin .temp2m) _ (.temp b1), b2, b3⟩

/-! ## C93: precipitation -/

/-- C93: likewise for precipitation: the meteobin file of hour n has one byte for each grid point, which gives the
difference of the totals published for the hours n and n-1 (both up to 1000 mm, the difference from 0 to 126 mm) to
within a quarter of a millimetre (plus 0.002); from 0.201 to 0.499 mm the byte is 1. -/
theorem C93_precipitation (m : Libm) (w : World) (dirs : Text → Bool) (vars : List Text) (filter : List Nat) (run : Run)
    (hm : IsDwd run.model) (hn : '/' ∉ run.name) (tr : List Write)
    (h : Dwd.renderRun m w dirs vars filter run tr .done) (hv : ChosenVar vars .cloudPrecip) (s : RunStep)
    (hs : s ∈ run.model.forecastSteps) (hc : Chosen filter s) (clct total0 total1 : Msg) (ni nj : Nat)
    (hpc : Publishes w run (.single .clctMod s.nr) clct) (hfc : Field clct ni nj)
    (hp0 : Publishes w run (.single .totPrec (s.nr - 1)) total0) (hf0 : Field total0 ni nj)
    (hp1 : Publishes w run (.single .totPrec s.nr) total1) (hf1 : Field total1 ni nj) (before : Tree) :
    ∃ bytes, before.write tr (binPath run s.nr .precip) = some (.bytes bytes) ∧ bytes.length = ni * nj ∧
      ∀ x y, x < ni → y < nj → ∀ t0 t1, physical total0 (y * ni + x) = some t0 → physical total1 (y * ni + x) = some t1 →
        0 ≤ t0 → t1 ≤ 1000 → t0 ≤ t1 → t1 - t0 ≤ 126 → ∃ b : UInt8, bytes[y * ni + x]? = some b ∧ b ≠ 255 ∧
          (201 / 1000 ≤ t1 - t0 → t1 - t0 ≤ 499 / 1000 → b = 1) ∧
          (t1 - t0 ≤ 199 / 1000 ∨ 501 / 1000 ≤ t1 - t0 → |(b.toNat : Rat) / 2 - (t1 - t0)| ≤ 1 / 4 + 2 / 1000) := by
  obtain ⟨l, hl, _, hfile⟩ := bin_of_run hn h hv (by simp) hs hc
  simp only [dwdLayers, Res.bind_eq_ok, Res.ok.injEq] at hl
  obtain ⟨C, hC, P0, hP0, P1, hP1, L, hL, _, _, _, _, _, _, W, _, rfl⟩ := hl
  obtain rfl := cloudPrecip_new hL
  obtain ⟨bytes, b1, b2, b3⟩ := precip_bytes (cell_of_field hm hpc hfc hC).1 (cell_of_field hm hp0 hf0 hP0)
    (cell_of_field hm hp1 hf1 hP1)
  exact ⟨bytes, hfile before (.bin .precip) _ (.precip b1), b2, b3⟩

/-! ## C94: wind -/

/-- C94, the part that holds: the wind file has three bytes for each grid point.  If both components are published
(up to 60 m/s), neither of them within 0.001 of -1 m/s, the first two bytes give them in knots above -128 to within half
a knot (plus 0.02); a published gust (from 0 to 130 m/s) is given by the third byte to within half a knot.  All
three are 255 where a component is missing.  Missing: components of -1 m/s (see the counterexample). -/
theorem C94_wind_partial (m : Libm) (w : World) (dirs : Text → Bool) (vars : List Text) (filter : List Nat) (run : Run)
    (hm : IsDwd run.model) (hn : '/' ∉ run.name) (tr : List Write)
    (h : Dwd.renderRun m w dirs vars filter run tr .done) (hv : ChosenVar vars .wind10m) (s : RunStep)
    (hs : s ∈ run.model.forecastSteps) (hc : Chosen filter s) (mu mv mg : Msg) (ni nj : Nat)
    (hpu : Publishes w run (.single .u10m s.nr) mu) (hfu : Field mu ni nj)
    (hpv : Publishes w run (.single .v10m s.nr) mv) (hfv : Field mv ni nj)
    (hpg : Publishes w run (.single .vmax10m s.nr) mg) (hfg : Field mg ni nj) (before : Tree) :
    ∃ bytes, before.write tr (binPath run s.nr .wind10m) = some (.bytes bytes) ∧ bytes.length = ni * nj * 3 ∧
      ∀ x y, x < ni → y < nj → ∃ bu bv bg : UInt8, bytes[(y * ni + x) * 3]? = some bu ∧
        bytes[(y * ni + x) * 3 + 1]? = some bv ∧ bytes[(y * ni + x) * 3 + 2]? = some bg ∧
        ((physical mu (y * ni + x) = none ∨ physical mv (y * ni + x) = none) → bu = 255 ∧ bv = 255 ∧ bg = 255) ∧
        ∀ u v, physical mu (y * ni + x) = some u → physical mv (y * ni + x) = some v → |u| ≤ 60 → |v| ≤ 60 →
          1 / 1000 < |u + 1| → 1 / 1000 < |v + 1| →
          bu ≠ 255 ∧ |(bu.toNat : Rat) - 128 - u * (194384 / 100000)| ≤ 1 / 2 + 2 / 100 ∧
          bv ≠ 255 ∧ |(bv.toNat : Rat) - 128 - v * (194384 / 100000)| ≤ 1 / 2 + 2 / 100 ∧
          (physical mg (y * ni + x) = none → bg = 255) ∧
          ∀ g, physical mg (y * ni + x) = some g → 0 ≤ g → g ≤ 130 →
            bg ≠ 255 ∧ |(bg.toNat : Rat) - g * (194384 / 100000)| ≤ 1 / 2 + 2 / 100 := by
  obtain ⟨l, hl, _, hfile⟩ := bin_of_run hn h hv (by simp) hs hc
  simp only [dwdLayers, Res.bind_eq_ok, Res.ok.injEq] at hl
  obtain ⟨U, hU, V, hV, G, hG, L, hL, rfl⟩ := hl
  obtain rfl := wind_new hL
  obtain ⟨bytes, b1, b2, b3⟩ := wind_bytes (cell_of_field hm hpu hfu hU) (cell_of_field hm hpv hfv hV)
    (cell_of_field hm hpg hfg hG)
  exact ⟨bytes, hfile before (.bin .wind10m) _ (.wind b1), b2, b3⟩

/-! ## C95-C97: vertical layers -/

theorem rangeIncl_get {a b i : Nat} (h : i < b + 1 - a) : (rangeIncl a b)[i]? = some (a + i) := by
  unfold rangeIncl
  rw [List.getElem?_range' h]
  simp

/-- The grids of the levels. -/
theorem levels_of_fields {w : World} {run : Run} (hm : IsDwd run.model) {r : Nat → Req} {msgs : Nat → Msg} {ni nj : Nat}
    {a b : Nat} (hp : ∀ k, a ≤ k → k ≤ b → Publishes w run (r k) (msgs k) ∧ Field (msgs k) ni nj) {missing : UInt8}
    {f : Fl → UInt8} {gs : List (LatLonValueGrid UInt8)}
    (h : Res.mapM (fun k => Res.bind (fileUrl run (r k)) fun url => w.readRectangular url missing f) (rangeIncl a b)
      = .ok gs) :
    LevelsHold gs missing f (b + 1 - a) ni nj (fun k x y => physical (msgs (a + k)) (y * ni + x)) := by
  rw [Res.mapM_ok_iff] at h
  have hlen : gs.length = b + 1 - a := by rw [← h.length_eq]; simp [rangeIncl]
  have hget : ∀ i G, gs[i]? = some G →
      Res.bind (fileUrl run (r (a + i))) (fun url => w.readRectangular url missing f) = .ok G ∧ a + i ≤ b := by
    intro i G hi
    have hlt : i < gs.length := by
      by_contra hge
      rw [List.getElem?_eq_none (by omega)] at hi
      cases hi
    have hlt' : i < (rangeIncl a b).length := by rw [h.length_eq]; exact hlt
    have e1 := List.getElem?_eq_getElem hlt'
    rw [rangeIncl_get (by omega)] at e1
    have e2 := List.getElem?_eq_getElem hlt
    rw [hi] at e2
    have := List.Forall₂.get h hlt' hlt
    simp only [List.get_eq_getElem, ← Option.some.inj e1, ← Option.some.inj e2] at this
    exact ⟨this, by omega⟩
  refine ⟨hlen, fun k hk => ?_⟩
  have hlt : k < gs.length := by omega
  obtain ⟨h1, h2⟩ := hget k _ (List.getElem?_eq_getElem hlt)
  obtain ⟨p, q⟩ := hp (a + k) (by omega) h2
  obtain ⟨g1, g2, g3⟩ := grid_of_field hm p q h1
  refine ⟨gs[k], List.getElem?_eq_getElem hlt, g1, ?_⟩
  intro x y hx hy
  obtain ⟨c1, c2⟩ := g3 x y hx hy
  unfold cell
  rw [g2]
  constructor
  · intro hq
    rw [c1 hq]
    simp [GridValue.eq]
  · intro q hq
    obtain ⟨v, v1, v2⟩ := c2 q hq
    refine ⟨v, v1, ?_⟩
    rw [v2]
    simp [GridValue.eq]

/-- C95, C96, the parts that hold: the file of vertical clouds has, for each grid point and each of the levels from
the top, a byte for the height and a byte for the cloud cover, 255 where the level file has no value.  A published
cloud cover of 1.001 to 254 percent is given by a byte below it by less than 1 percent (plus 0.001), a published height
of 100.1 to 25499 feet by a byte below it by less than 100 feet (plus 0.1).  Missing from the full claims: less
cloud and lower or higher levels, which are written as 255 like missing values (the last clauses for heights and
covers, C95_counterexample, C96_counterexample). -/
theorem C95_clouds_partial (m : Libm) (w : World) (dirs : Text → Bool) (vars : List Text) (filter : List Nat) (run : Run)
    (hm : IsDwd run.model) (hn : '/' ∉ run.name) (tr : List Write)
    (h : Dwd.renderRun m w dirs vars filter run tr .done) (hv : ChosenVar vars .verticalCloud) (s : RunStep)
    (hs : s ∈ run.model.forecastSteps) (hc : Chosen filter s) (heights covers : Nat → Msg) (ni nj a b : Nat)
    (hab : run.model.verticalLevels = (a, b))
    (hph : ∀ k, a ≤ k → k ≤ b → Publishes w run (.hhl k) (heights k) ∧ Field (heights k) ni nj)
    (hpc : ∀ k, a ≤ k → k ≤ b → Publishes w run (.level .clc s.nr k) (covers k) ∧ Field (covers k) ni nj)
    (before : Tree) :
    ∃ bytes, before.write tr (binPath run s.nr .verticalClouds) = some (.bytes bytes) ∧
      bytes.length = ni * nj * ((b + 1 - a) * 2) ∧
      ∀ x y k, x < ni → y < nj → a ≤ k → k ≤ b → ∃ bh bc : UInt8,
        bytes[((y * ni + x) * (b + 1 - a) + (k - a)) * 2]? = some bh ∧
        bytes[((y * ni + x) * (b + 1 - a) + (k - a)) * 2 + 1]? = some bc ∧
        (physical (heights k) (y * ni + x) = none → bh = 255) ∧
        (physical (covers k) (y * ni + x) = none → bc = 255) ∧
        (∀ q, physical (heights k) (y * ni + x) = some q →
          (1001 / 10 ≤ q * (328084 / 100000) → q * (328084 / 100000) ≤ 25499 → bh ≠ 255 ∧
            q * (328084 / 100000) - 100 - 1 / 10 ≤ bh.toNat * 100 ∧
            (bh.toNat : Rat) * 100 ≤ q * (328084 / 100000) + 1 / 10) ∧
          (0 ≤ q → q * (328084 / 100000) ≤ 999 / 10 ∨ 25501 ≤ q * (328084 / 100000) → q ≤ 100000 → bh = 255)) ∧
        ∀ q, physical (covers k) (y * ni + x) = some q →
          (1001 / 1000 ≤ q → q ≤ 254 → bc ≠ 255 ∧ q - 1 - 1 / 1000 ≤ bc.toNat ∧ (bc.toNat : Rat) ≤ q + 1 / 1000) ∧
          (0 ≤ q → q ≤ 999 / 1000 → bc = 255) := by
  obtain ⟨l, hl, _, hfile⟩ := bin_of_run hn h hv (by simp) hs hc
  simp only [dwdLayers, Res.bind_eq_ok, Res.ok.injEq] at hl
  obtain ⟨H, hH, C, hC, L, hL, rfl⟩ := hl
  rw [hab] at hH hC
  obtain rfl := verticalCloud_new hL
  have hle : a ≤ b := by
    rcases hm with e | e <;> rw [e] at hab <;> cases hab <;> decide
  obtain ⟨bytes, b1, b2, b3⟩ := cloud_bytes (by omega) (levels_of_fields (r := fun k => .hhl k) hm hph hH)
    (levels_of_fields (r := fun k => .level .clc s.nr k) hm hpc hC)
  refine ⟨bytes, hfile before (.bin .verticalClouds) _ (.verticalCloud b1), b2, ?_⟩
  intro x y k hx hy k1 k2
  have := b3 x y (k - a) hx hy (by omega)
  simpa only [show a + (k - a) = k by omega] using this

/-- C96, the part that holds: the heights in the file of vertical clouds, 255 where a height is not known; a height of
100.1 to 25499 feet is given to less than 100 feet.  Missing: levels below 100 feet and above 25500 feet, which
are written as 255 (C96_counterexample). -/
theorem C96_heights_partial (m : Libm) (w : World) (dirs : Text → Bool) (vars : List Text) (filter : List Nat) (run : Run)
    (hm : IsDwd run.model) (hn : '/' ∉ run.name) (tr : List Write)
    (h : Dwd.renderRun m w dirs vars filter run tr .done) (hv : ChosenVar vars .verticalCloud) (s : RunStep)
    (hs : s ∈ run.model.forecastSteps) (hc : Chosen filter s) (heights covers : Nat → Msg) (ni nj a b : Nat)
    (hab : run.model.verticalLevels = (a, b))
    (hph : ∀ k, a ≤ k → k ≤ b → Publishes w run (.hhl k) (heights k) ∧ Field (heights k) ni nj)
    (hpc : ∀ k, a ≤ k → k ≤ b → Publishes w run (.level .clc s.nr k) (covers k) ∧ Field (covers k) ni nj)
    (before : Tree) :
    ∃ bytes, before.write tr (binPath run s.nr .verticalClouds) = some (.bytes bytes) ∧
      ∀ x y k, x < ni → y < nj → a ≤ k → k ≤ b → ∃ bh : UInt8,
        bytes[((y * ni + x) * (b + 1 - a) + (k - a)) * 2]? = some bh ∧
        (physical (heights k) (y * ni + x) = none → bh = 255) ∧
        ∀ q, physical (heights k) (y * ni + x) = some q → 1001 / 10 ≤ q * (328084 / 100000) →
          q * (328084 / 100000) ≤ 25499 → bh ≠ 255 ∧
            q * (328084 / 100000) - 100 - 1 / 10 ≤ bh.toNat * 100 ∧
            (bh.toNat : Rat) * 100 ≤ q * (328084 / 100000) + 1 / 10 := by
  obtain ⟨bytes, h1, _, h2⟩ := C95_clouds_partial m w dirs vars filter run hm hn tr h hv s hs hc heights covers ni nj a b
    hab hph hpc before
  refine ⟨bytes, h1, fun x y k hx hy k1 k2 => ?_⟩
  obtain ⟨bh, _, e1, _, e3, _, e5, _⟩ := h2 x y k hx hy k1 k2
  exact ⟨bh, e1, e3, fun q hq => (e5 q hq).1⟩

/-- C97: the file of vertical wind has, for each grid point and each of the levels from the top, a byte for the height
and two bytes for the components of the wind.  The latter are 255 exactly where one of the components is missing, and
otherwise give the components (up to 60 m/s) in knots above -128 to within half a knot (plus 0.02).  Heights
are as for clouds. -/
theorem C97_wind (m : Libm) (w : World) (dirs : Text → Bool) (vars : List Text) (filter : List Nat) (run : Run)
    (hm : IsDwd run.model) (hn : '/' ∉ run.name) (tr : List Write)
    (h : Dwd.renderRun m w dirs vars filter run tr .done) (hv : ChosenVar vars .verticalWind) (s : RunStep)
    (hs : s ∈ run.model.forecastSteps) (hc : Chosen filter s) (heights us vs : Nat → Msg) (ni nj a b : Nat)
    (hab : run.model.verticalLevels = (a, b))
    (hph : ∀ k, a ≤ k → k ≤ b → Publishes w run (.hhl k) (heights k) ∧ Field (heights k) ni nj)
    (hpu : ∀ k, a ≤ k → k ≤ b → Publishes w run (.level .u s.nr k) (us k) ∧ Field (us k) ni nj)
    (hpv : ∀ k, a ≤ k → k ≤ b → Publishes w run (.level .v s.nr k) (vs k) ∧ Field (vs k) ni nj)
    (before : Tree) :
    ∃ bytes, before.write tr (binPath run s.nr .verticalWind) = some (.bytes bytes) ∧
      bytes.length = ni * nj * ((b + 1 - a) * 3) ∧
      ∀ x y k, x < ni → y < nj → a ≤ k → k ≤ b → ∃ bh bu bv : UInt8,
        bytes[((y * ni + x) * (b + 1 - a) + (k - a)) * 3]? = some bh ∧
        bytes[((y * ni + x) * (b + 1 - a) + (k - a)) * 3 + 1]? = some bu ∧
        bytes[((y * ni + x) * (b + 1 - a) + (k - a)) * 3 + 2]? = some bv ∧
        (physical (heights k) (y * ni + x) = none → bh = 255) ∧
        (∀ q, physical (heights k) (y * ni + x) = some q → 1001 / 10 ≤ q * (328084 / 100000) →
          q * (328084 / 100000) ≤ 25499 → bh ≠ 255 ∧ q * (328084 / 100000) - 100 - 1 / 10 ≤ bh.toNat * 100 ∧
            (bh.toNat : Rat) * 100 ≤ q * (328084 / 100000) + 1 / 10) ∧
        (bu = 255 ↔ physical (us k) (y * ni + x) = none ∨ physical (vs k) (y * ni + x) = none) ∧
        (bv = 255 ↔ physical (us k) (y * ni + x) = none ∨ physical (vs k) (y * ni + x) = none) ∧
        ∀ u v, physical (us k) (y * ni + x) = some u → physical (vs k) (y * ni + x) = some v →
          (|u| ≤ 60 → |(bu.toNat : Rat) - 128 - u * (194384 / 100000)| ≤ 1 / 2 + 2 / 100) ∧
          (|v| ≤ 60 → |(bv.toNat : Rat) - 128 - v * (194384 / 100000)| ≤ 1 / 2 + 2 / 100) := by
  obtain ⟨l, hl, _, hfile⟩ := bin_of_run hn h hv (by simp) hs hc
  simp only [dwdLayers, Res.bind_eq_ok, Res.ok.injEq] at hl
  obtain ⟨H, hH, U, hU, V, hV, L, hL, rfl⟩ := hl
  rw [hab] at hH hU hV
  obtain rfl := verticalWind_new hL
  have hle : a ≤ b := by
    rcases hm with e | e <;> rw [e] at hab <;> cases hab <;> decide
  obtain ⟨bytes, b1, b2, b3⟩ := verticalWind_bytes (by omega) (levels_of_fields (r := fun k => .hhl k) hm hph hH)
    (levels_of_fields (r := fun k => .level .u s.nr k) hm hpu hU)
    (levels_of_fields (r := fun k => .level .v s.nr k) hm hpv hV)
  refine ⟨bytes, hfile before (.bin .verticalWind) _ (.verticalWind b1), b2, ?_⟩
  intro x y k hx hy k1 k2
  have := b3 x y (k - a) hx hy (by omega)
  simpa only [show a + (k - a) = k by omega] using this

end Verif.Props
