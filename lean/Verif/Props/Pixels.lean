import Verif.Props.LocalitySwiss
import Verif.Props.SwissTiles

/-!
# C175: each pixel of a map tile shows the same points of every field, in colours that are the same everywhere
-/

namespace Verif.Props

open Verif MapTileRenderer MapTileCoord Dwd Colors
open Verif.Spec (Filled cell)
open Verif.Spec.Grib2 (Msg encode)

/-! ## Specification -/

/-- The message is on a grid of `ni` by `nj` points from `first` to `last`. -/
def Corners (msg : Msg) (first last : LatLon) (ni nj : Nat) : Prop :=
  ∃ t, msg.doc.section3.template = .latitudeLongitude t ∧ t.pointsAlongParallel = ni ∧ t.pointsAlongMeridian = nj ∧
    LatLon.new t.firstLat t.firstLon = first ∧ LatLon.new t.lastLat t.lastLon = last

/-- The colour of a number, nothing where there is none. -/
def shade (colour : Fl → Color) : Option Fl → Color
  | some v => colour v
  | none => Color.transparent

/-- The colour of a pair of numbers, nothing where one is missing. -/
def shade2 (colour : Fl → Fl → Color) : Option Fl → Option Fl → Color
  | some u, some v => colour u v
  | _, _ => Color.transparent

/-- A call for a DWD model ended successfully, with the variable and the step chosen. -/
structure DwdCall (m : Libm) (v : LayerType) (e : Environment) (run : Run) (s : RunStep) (tr : List Write) : Prop where
  libm : e.libm = m
  dwd : IsDwd run.model
  today : run.date = e.today
  newest : Newest e.available run.model e.today run.name
  step : s ∈ run.model.forecastSteps
  call : ∃ vars filter, ChosenVar vars v ∧ Chosen filter s ∧ mainEffect e (dwdName run.model) vars filter tr .done

/-- A run of MeteoSwiss with the points `lat`, `lon` was rendered successfully, with the variable and the step chosen. -/
structure SwissCall (m : Libm) (v : LayerType) (lat lon : Msg) (n : Nat) (w : World) (s : Swiss.Service) (vertUrl : Text)
    (t : Instant) (run : Run) (nr : Nat) (tr : List Write) : Prop where
  call : ∃ cal dirs vars filter hor grid steps st, Swiss.forecastRun cal t = .ok run ∧
    Swiss.readHorConst w hor = .ok grid ∧ Constants w hor lat lon n ∧ ChosenVar vars v ∧ swissSteps s t v = .ok steps ∧
    st ∈ steps ∧ st.nr = nr ∧ Chosen filter st ∧ Swiss.renderRun m w s cal dirs vars filter grid vertUrl t tr .done

/-! ## Positions of pixels -/

/-- The position of pixel (j,i) of a tile. -/
theorem pixel_position (m : Libm) : ∃ pos : MapTileCoord → Nat → Nat → LatLon, ∀ (t : MapTileCoord), t.zoom ≤ 31 →
    ∀ (color : LatLon → Res (Option Color)) (v : LatLon → Option Color), (∀ p, color p = .ok (v p)) → ∀ d,
    createSingleTile m color t id = .ok d → d.width = 256 ∧ d.height = 256 ∧ ∀ i j, i < 256 → j < 256 →
      d.pixel j i = some ((v (pos t i j)).getD Color.transparent) := by
  classical
  refine ⟨fun t i j => match toPosition m t, toPosition m ⟨t.x + 1, t.y + 1, t.zoom⟩ with
    | .ok start, .ok stop => LatLon.new
          (Fl.add f32 start.lat (Fl.mul f32 (Fl.ofNat f32 i) (Fl.div f32 (Fl.sub f32 stop.lat start.lat) (.fin 256))))
          (Fl.add f32 start.lon (Fl.mul f32 (Fl.ofNat f32 j) (Fl.div f32 (Fl.sub f32 stop.lon start.lon) (.fin 256))))
    | _, _ => ⟨.nan, .nan⟩, fun t hz color v hv d hd => ?_⟩
  obtain ⟨hx, hy⟩ := tile_small hd
  obtain ⟨start, stop, d', e1, e2, e3, -, w1, w2, w3⟩ := C33_tile m t hz hx hy color v hv id
  rw [hd] at e3
  cases e3
  refine ⟨w1, w2, fun i j hi hj => ?_⟩
  rw [w3 i j hi hj]
  simp only [e1, e2]
  generalize v _ = o
  cases o <;> rfl

/-! ## Points at positions -/

/-- The number of a point, if there is such a point. -/
def pointNr (ni nj x y : Nat) : Option Nat := if x < ni ∧ y < nj then some (y * ni + x) else none

/-- The point whose value is taken for a position. -/
def nearest (g : LatLonGrid) (ni nj : Nat) (p : LatLon) : Option Nat :=
  match g.getXYByLatLon p with
  | none => none
  | some (x, y) => pointNr ni nj (Fl.toUSize (Fl.round x)) (Fl.toUSize (Fl.round y))

theorem pointNr_lt {ni nj x y k : Nat} (h : pointNr ni nj x y = some k) : k < ni * nj := by
  unfold pointNr at h
  split at h
  next hxy =>
    cases h
    have : (y + 1) * ni ≤ nj * ni := Nat.mul_le_mul_right _ hxy.2
    rw [Nat.add_mul] at this
    rw [Nat.mul_comm ni nj]
    omega
  next => cases h

theorem nearest_lt {g : LatLonGrid} {ni nj k : Nat} {p : LatLon} (h : nearest g ni nj p = some k) : k < ni * nj := by
  unfold nearest at h
  split at h
  · cases h
  · exact pointNr_lt h

/-- A grid whose cells hold the numbers `V` of the points. -/
def HoldsAt (G : LatLonValueGrid Fl) (ni nj : Nat) (V : Nat → Option Fl) : Prop :=
  Filled G ni nj ∧ ∀ x y, x < ni → y < nj → cell G ni x y = V (y * ni + x)

theorem HoldsAt.xy {G : LatLonValueGrid Fl} {ni nj : Nat} {V : Nat → Option Fl} (h : HoldsAt G ni nj V) (x y : Nat) :
    G.getValueByXY x y = .ok ((pointNr ni nj x y).bind V) := by
  unfold pointNr
  split
  next hxy => rw [h.1.get hxy.1 hxy.2, h.2 x y hxy.1 hxy.2]; rfl
  next hxy => exact (C19_lookup G ni nj h.1.dims h.1.small h.1.length _ _).2 hxy

theorem HoldsAt.position {G : LatLonValueGrid Fl} {g : LatLonGrid} {ni nj : Nat} {V : Nat → Option Fl}
    (h : HoldsAt G ni nj V) (hg : G.grid = g) (p : LatLon) : G.getValueByLatLon p = .ok ((nearest g ni nj p).bind V) := by
  subst hg
  unfold LatLonValueGrid.getValueByLatLon nearest
  cases G.grid.getXYByLatLon p with
  | none => rfl
  | some q => exact h.xy _ _

/-- The points between which is interpolated. -/
def around (g : LatLonGrid) (ni nj : Nat) (p : LatLon) : List Nat :=
  match g.getXYByLatLon p with
  | none => []
  | some (x, y) => [pointNr ni nj (Fl.toUSize (Fl.floor x)) (Fl.toUSize (Fl.floor y)),
      pointNr ni nj (Fl.toUSize (Fl.ceil x)) (Fl.toUSize (Fl.floor y)),
      pointNr ni nj (Fl.toUSize (Fl.floor x)) (Fl.toUSize (Fl.ceil y)),
      pointNr ni nj (Fl.toUSize (Fl.ceil x)) (Fl.toUSize (Fl.ceil y))].filterMap id

theorem around_length (g : LatLonGrid) (ni nj : Nat) (p : LatLon) : (around g ni nj p).length ≤ 4 := by
  unfold around
  split
  · simp
  · exact List.length_filterMap_le _ _

theorem around_lt {g : LatLonGrid} {ni nj k : Nat} {p : LatLon} (h : k ∈ around g ni nj p) : k < ni * nj := by
  unfold around at h
  split at h
  · cases h
  · obtain ⟨o, ho, hk⟩ := List.mem_filterMap.mp h
    simp only [id] at hk
    subst hk
    simp only [List.mem_cons, List.not_mem_nil, or_false] at ho
    rcases ho with h | h | h | h <;> exact pointNr_lt h.symm

/-- Interpolation between numbers of points. -/
def mixture (g : LatLonGrid) (ni nj : Nat) (p : LatLon) (V : Nat → Option Fl) : Option Fl :=
  match g.getXYByLatLon p with
  | none => none
  | some (x, y) =>
    let xf := Fl.floor x
    let yf := Fl.floor y
    let xc := Fl.ceil x
    let yc := Fl.ceil y
    let v := fun a b => (pointNr ni nj (Fl.toUSize a) (Fl.toUSize b)).bind V
    if Fl.lt xc (.fin 0) || Fl.lt yc (.fin 0)
      || Fl.ge xf (Fl.ofNat f32 ni) || Fl.ge yf (Fl.ofNat f32 nj) then none
    else if Fl.toUSize xf = Fl.toUSize xc ∨ Fl.toUSize yf = Fl.toUSize yc then v xf yf
    else LatLonValueGrid.interpolateValue
      (LatLonValueGrid.interpolateValue (v xf yf) (Fl.sub f32 xc x) (v xc yf) (Fl.sub f32 x xf)) (Fl.sub f32 yc y)
      (LatLonValueGrid.interpolateValue (v xf yc) (Fl.sub f32 xc x) (v xc yc) (Fl.sub f32 x xf)) (Fl.sub f32 y yf)

theorem HoldsAt.interpolate {G : LatLonValueGrid Fl} {g : LatLonGrid} {ni nj : Nat} {V : Nat → Option Fl}
    (h : HoldsAt G ni nj V) (hg : G.grid = g) (p : LatLon) : G.interpolate p = .ok (mixture g ni nj p V) := by
  subst hg
  unfold LatLonValueGrid.interpolate mixture
  cases G.grid.getXYByLatLon p with
  | none => rfl
  | some q =>
    simp only [LatLonValueGrid.dims, h.1.dims, h.xy]
    split
    · rfl
    · split <;> rfl

theorem mixture_congr {g : LatLonGrid} {ni nj : Nat} {p : LatLon} {V V' : Nat → Option Fl}
    (h : ∀ k ∈ around g ni nj p, V k = V' k) : mixture g ni nj p V = mixture g ni nj p V' := by
  unfold mixture
  unfold around at h
  cases hq : g.getXYByLatLon p with
  | none => rfl
  | some q =>
    rw [hq] at h
    have key : ∀ o ∈ [pointNr ni nj (Fl.toUSize (Fl.floor q.1)) (Fl.toUSize (Fl.floor q.2)),
        pointNr ni nj (Fl.toUSize (Fl.ceil q.1)) (Fl.toUSize (Fl.floor q.2)),
        pointNr ni nj (Fl.toUSize (Fl.floor q.1)) (Fl.toUSize (Fl.ceil q.2)),
        pointNr ni nj (Fl.toUSize (Fl.ceil q.1)) (Fl.toUSize (Fl.ceil q.2))], o.bind V = o.bind V' := by
      intro o ho
      cases o with
      | none => rfl
      | some k => exact h k (List.mem_filterMap.mpr ⟨some k, ho, rfl⟩)
    simp only [List.mem_cons, List.not_mem_nil, or_false, forall_eq_or_imp, forall_eq] at key
    obtain ⟨k1, k2, k3, k4⟩ := key
    simp only [k1, k2, k3, k4]

/-- A list of numbers as a function. -/
def given (ks : List Nat) (vs : List (Option Fl)) (k : Nat) : Option Fl := ((ks.zip vs).lookup k).join

theorem given_map {ks : List Nat} {V : Nat → Option Fl} {k : Nat} (h : k ∈ ks) : given ks (ks.map V) k = V k := by
  unfold given
  induction ks with
  | nil => cases h
  | cons a l ih =>
    rw [List.map_cons, List.zip_cons_cons, List.lookup_cons]
    by_cases hk : k = a
    · subst hk; simp
    · rw [show (k == a) = false by simpa using hk]
      exact ih (by simpa [hk] using h)

/-! ## Charts -/

theorem temp_at {G : LatLonValueGrid Fl} {g : LatLonGrid} {ni nj : Nat} {V : Nat → Option Fl} (h : HoldsAt G ni nj V)
    (hg : G.grid = g) (p : LatLon) :
    (tempChart ⟨G⟩).color p = .ok (((nearest g ni nj p).bind V).map Colors.tempColor) := by
  unfold tempChart TempLayer.getTempByLatLon
  simp only
  rw [h.position hg]
  generalize (nearest g ni nj p).bind V = o
  cases o <;> rfl

theorem wind_at {U W : LatLonValueGrid Fl} {gusts : Option (LatLonValueGrid Fl)} {g : LatLonGrid} {ni nj : Nat}
    {V V' : Nat → Option Fl} (h : HoldsAt U ni nj V) (hg : U.grid = g) (h' : HoldsAt W ni nj V') (hg' : W.grid = g)
    (p : LatLon) : (windChart ⟨U, W, gusts⟩).color p = .ok
      ((bothOf ((nearest g ni nj p).bind V) ((nearest g ni nj p).bind V')).map fun q => Colors.windColor (windSpeed q.1 q.2)) := by
  unfold windChart WindLayer.getSpeedByLatLon WindLayer.getWindByLatLon
  simp only
  rw [h.position hg, h'.position hg']
  generalize (nearest g ni nj p).bind V = o
  generalize (nearest g ni nj p).bind V' = o'
  cases o <;> cases o' <;> rfl

/-- The colour of clouds and precipitation. -/
def cloudShade (c p0 p1 : Option Fl) : Color :=
  match cloudPrecipColor (unwrapOr c (.fin 0), Fl.sub f32 (unwrapOr p1 (.fin 0)) (unwrapOr p0 (.fin 0))) with
  | .ok px => px
  | _ => Color.transparent

theorem cloud_at {C P0 P1 : LatLonValueGrid Fl} {g : LatLonGrid} {ni nj : Nat} {V V0 V1 : Nat → Option Fl}
    (h : HoldsAt C ni nj V) (hg : C.grid = g) (h0 : HoldsAt P0 ni nj V0) (hg0 : P0.grid = g) (h1 : HoldsAt P1 ni nj V1)
    (hg1 : P1.grid = g) (p : LatLon) : (cloudPrecipChart ⟨C, P0, P1⟩).color p = .ok
      (some (cloudShade (mixture g ni nj p V) (mixture g ni nj p V0) (mixture g ni nj p V1))) := by
  obtain ⟨px, e, hpx⟩ := cloud_color (l := ⟨C, P0, P1⟩) (h.interpolate hg p) (h0.interpolate hg0 p) (h1.interpolate hg1 p)
  rw [e]
  unfold cloudShade
  rw [hpx]

/-! ## Fields -/

theorem Corners.grid {T : Type} {msg : Msg} {first last : LatLon} {ni nj : Nat} (hg : Corners msg first last ni nj)
    {missing : T} {f : Fl → T} {G : LatLonValueGrid T} (h : Grib2.createRegularGrid msg.doc missing f = .ok G) :
    G.grid = LatLonGrid.new (ni, nj) ⟨first, last⟩ := by
  obtain ⟨t, ht, rfl, rfl, h1, h2⟩ := hg
  unfold Grib2.createRegularGrid Grib2.getDimensionsAndExtent at h
  rw [ht] at h
  simp only [Res.bind_eq_ok] at h
  obtain ⟨vs, hvs, ⟨dims, ext⟩, ⟨ext', hext, he⟩, hg'⟩ := h
  simp only [Res.ok.injEq, Prod.mk.injEq] at he hg'
  obtain ⟨rfl, rfl⟩ := he
  subst hg'
  have := (C16_new _ _).2.1 _ hext
  subst this
  rw [h1, h2]
  rfl

theorem dwd_holds {w : World} {run : Run} (hm : IsDwd run.model) {v : SingleVar} {n : Nat} {msg : Msg} {ni nj : Nat}
    {first last : LatLon} (hp : Publishes w run (.single v n) msg) (hf : Field msg ni nj)
    (hc : Corners msg first last ni nj) {G : LatLonValueGrid Fl} (h : dwdGrid w run v n = .ok G) :
    HoldsAt G ni nj (fun k => num (unpacked msg k)) ∧ G.grid = LatLonGrid.new (ni, nj) ⟨first, last⟩ :=
  ⟨cell_of_packed hm hp hf num_eq h, hc.grid (source_of_field hm hp h)⟩

/-- Numbers of the points of MeteoSwiss that the cells show. -/
def swissPoint (grid : UnstructuredGrid) (k : Nat) : Option Nat := pointOf grid (k % 1851) (k / 1851)

theorem swiss_holds {w : World} {s : Swiss.Service} {vertUrl : Text} {t : Instant} {grid : UnstructuredGrid}
    {lat lon msg : Msg} {n k : Nat} (hg : Placed grid lat lon n) {x : Swiss.Variable} {steps : List RunStep}
    (hs : Swiss.steps s t x (x = .clct) = .ok steps) (hr : Recorded w s vertUrl t (.of x k 0) msg) (hf : PointField msg n)
    {f : Fl → Fl} {st : RunStep} (hst : getStepByNr steps k = .ok st) {G : LatLonValueGrid Fl}
    (h : Swiss.readGrid w grid f st = .ok G) :
    HoldsAt G 1851 847 (fun k => kept (.fin (-1)) f ((swissPoint grid k).bind (unpacked msg))) ∧ G.grid = swissGrid := by
  obtain ⟨h1, h2⟩ := cell_of_record hg hs hr hf hst h
  refine ⟨⟨h1, fun x y hx hy => ?_⟩, ?_⟩
  · rw [h2 x y hx hy]
    simp only [swissPoint, unpackedAt]
    rw [show (y * 1851 + x) % 1851 = x by omega, show (y * 1851 + x) / 1851 = y by omega]
  · obtain ⟨steps', st', msgs, h1, h2, h3, h4, h5⟩ := hr
    rw [hs] at h1
    cases h1
    rw [getStep_of_mem (steps_numbered hs) h2 h3] at hst
    cases hst
    obtain ⟨more, rfl⟩ : ∃ more, msgs = msg :: more := by
      cases msgs with
      | nil => simp at h5
      | cons a l => exact ⟨l, by simp at h5; rw [h5]⟩
    exact read_grid hg h4 h

theorem swissPoint_lt {grid : UnstructuredGrid} {lat lon : Msg} {n : Nat} (hg : Placed grid lat lon n) {k i : Nat}
    (hk : k < 1851 * 847) (h : swissPoint grid k = some i) : i < n := by
  have := hg.shows (k % 1851) (k / 1851) (Nat.mod_lt _ (by norm_num)) (by omega)
  unfold swissPoint at h
  rw [h] at this
  exact this.1

/-- The points of MeteoSwiss determine the table of cells. -/
theorem swiss_table (lat lon : Msg) (n : Nat) : ∃ point : Nat → Option Nat,
    (∀ k i, k < 1851 * 847 → point k = some i → i < n) ∧ ∀ w hor grid,
    Constants w hor lat lon n → Swiss.readHorConst w hor = .ok grid → swissPoint grid = point := by
  by_cases h : ∃ w hor grid, Constants w hor lat lon n ∧ Swiss.readHorConst w hor = .ok grid
  · obtain ⟨w, hor, grid, h1, h2⟩ := h
    exact ⟨swissPoint grid, fun k i hk hi => swissPoint_lt (placed h1 h2) hk hi,
      fun w' hor' grid' h1' h2' => by rw [constants_grid h1 h1' h2 h2']⟩
  · exact ⟨fun _ => none, fun _ _ _ h => (by cases h), fun w hor grid h1 h2 => absurd ⟨w, hor, grid, h1, h2⟩ h⟩

theorem swiss_nearest {point : Nat → Option Nat} {n : Nat} (h : ∀ k i, k < 1851 * 847 → point k = some i → i < n)
    {p : LatLon} {i : Nat} (hi : (nearest swissGrid 1851 847 p).bind point = some i) : i < n := by
  obtain ⟨k, hk, hi⟩ := Option.bind_eq_some_iff.mp hi
  exact h k i (nearest_lt hk) hi

/-! ## C175 -/

/-- The colour of a published temperature. -/
def tempShade (v : Fl) : Color := if GridValue.eq v (.fin (-1)) then Color.transparent else Colors.tempColor v

/-- The colour of the published components of the wind. -/
def windShade (u v : Fl) : Color :=
  if GridValue.eq u (.fin (-1)) || GridValue.eq v (.fin (-1)) then Color.transparent else Colors.windColor (windSpeed u v)

theorem temp_shade (o : Option Fl) : ((num o).map Colors.tempColor).getD Color.transparent = shade tempShade o := by
  cases o with
  | none => rfl
  | some v =>
    simp only [num, kept, Option.bind_some, id, shade, tempShade]
    split <;> rfl

theorem wind_shade (a b : Option Fl) : ((bothOf (num a) (num b)).map fun q => Colors.windColor (windSpeed q.1 q.2)).getD
    Color.transparent = shade2 windShade a b := by
  cases a with
  | none => rfl
  | some u =>
    cases b with
    | none =>
      simp only [num, kept, Option.bind_some, id, shade2]
      split <;> rfl
    | some v =>
      simp only [num, kept, Option.bind_some, id, shade2, windShade]
      cases GridValue.eq u (Fl.fin (-1)) <;> cases GridValue.eq v (Fl.fin (-1)) <;> rfl

theorem bind_kept {f : Fl → Fl} (o : Option Nat) (V : Nat → Option Fl) :
    (o.bind fun k => kept (.fin (-1)) f (V k)) = kept (.fin (-1)) f (o.bind V) := by
  cases o <;> rfl

theorem zoom31 (model : FcModel) {t : MapTileCoord} (h : t.zoom ≤ model.zoomRange.2) : t.zoom ≤ 31 :=
  (h.trans (zoom_small model)).trans (by norm_num)

/-- C175, temperature: there is one table of colours, for all models, runs, hours, zoom levels and places, and for each grid
of points a fixed choice of the point for each pixel, such that after every successful call each pixel of each tile has the
colour of the number published for its point, and nothing where there is no point or no number.  For MeteoSwiss, the choice
is fixed by the published coordinates of the points. -/
theorem C175_temperature : ∃ colour : Fl → Color,
    (∀ (m : Libm) (first last : LatLon) (ni nj : Nat), ∃ point : MapTileCoord → Nat → Nat → Option Nat,
      (∀ t i j k, point t i j = some k → k < ni * nj) ∧
      ∀ e run s tr, DwdCall m .temp2m e run s tr → ∀ msg, Publishes e.world run (.single .t2m s.nr) msg → Field msg ni nj →
        Corners msg first last ni nj → ∀ (before : Tree) (t : MapTileCoord), Needed m ⟨first, last⟩ run.model.zoomRange t →
        ∃ d, before.write tr (tilePath (outputPath run s.nr .temp2m) t) = some (.picture d) ∧
          d.width = 256 ∧ d.height = 256 ∧ ∀ i j, i < 256 → j < 256 →
            d.pixel j i = some (shade colour ((point t i j).bind (unpacked msg)))) ∧
    ∀ (m : Libm) (lat lon : Msg) (n : Nat), ∃ point : MapTileCoord → Nat → Nat → Option Nat,
      (∀ t i j k, point t i j = some k → k < n) ∧
      ∀ w s vertUrl time run nr tr, SwissCall m .temp2m lat lon n w s vertUrl time run nr tr →
        ∀ msg, Recorded w s vertUrl time (.of .t2m nr 0) msg → PointField msg n → ∀ (before : Tree) (t : MapTileCoord),
        Needed m swissGrid.extent run.model.zoomRange t →
        ∃ d, before.write tr (tilePath (outputPath run nr .temp2m) t) = some (.picture d) ∧
          d.width = 256 ∧ d.height = 256 ∧ ∀ i j, i < 256 → j < 256 →
            d.pixel j i = some (shade colour ((point t i j).bind (unpacked msg))) := by
  refine ⟨tempShade, fun m first last ni nj => ?_, fun m lat lon n => ?_⟩
  · obtain ⟨pos, hpos⟩ := pixel_position m
    refine ⟨fun t i j => nearest (LatLonGrid.new (ni, nj) ⟨first, last⟩) ni nj (pos t i j), fun t i j k h => nearest_lt h, ?_⟩
    rintro e ⟨model, date, name⟩ s tr ⟨rfl, hd, rfl, hn, hs, vars, filter, hv, hc, h⟩ msg hp hf hcor before t ht
    rw [C154_run e model hd name hn] at h
    obtain ⟨l, hl, hdraw, hfile⟩ := bin_of_run (newestName_no_slash hn.1) h hv (by simp) hs hc
    simp only [dwdLayers, Res.bind_eq_ok, Res.ok.injEq] at hl
    obtain ⟨G, hG, rfl⟩ := hl
    obtain ⟨hH, eg⟩ := dwd_holds hd hp hf hcor hG
    have ht' : Needed e.libm G.grid.extent model.zoomRange t := by rw [eg]; exact ht
    obtain ⟨d, hd'⟩ := hdraw.1 t ht'
    obtain ⟨w1, w2, w3⟩ := hpos t (zoom31 model ht.2.1) _ _ (temp_at hH eg) d hd'
    refine ⟨d, hfile before (.tempTile t) _ (.tempTile ht' hd'), w1, w2, fun i j hi hj => ?_⟩
    rw [w3 i j hi hj, bind_kept, temp_shade]
  · obtain ⟨pos, hpos⟩ := pixel_position m
    obtain ⟨point, hlt, hpoint⟩ := swiss_table lat lon n
    refine ⟨fun t i j => (nearest swissGrid 1851 847 (pos t i j)).bind point, fun t i j k h => swiss_nearest hlt h, ?_⟩
    rintro w s vertUrl time run nr tr ⟨cal, dirs, vars, filter, hor, grid, steps, st, hrun, hg, hk, hv, hs, hst, rfl, hc, h⟩
      msg hp hf before t ht
    obtain ⟨run', l, e, hl, hdraw, hfile⟩ := bin_of_swiss h hv (by simp) hs hst hc
    rw [hrun] at e
    cases e
    simp only [swissLayers, Res.bind_eq_ok, Res.ok.injEq] at hl
    obtain ⟨ss, hss, L, hL, rfl⟩ := hl
    unfold Swiss.readTemp at hL
    obtain ⟨st', h1, hL⟩ := bind_ok' hL
    obtain ⟨G, hG, hL⟩ := bind_ok' hL
    cases hL
    obtain ⟨hH, eg⟩ := swiss_holds (placed hk hg) (by simpa using hss) hp hf (unwrapResult_ok h1) hG
    rw [hpoint w hor grid hk hg] at hH
    have ht' : Needed m G.grid.extent run.model.zoomRange t := by rw [eg]; exact ht
    obtain ⟨d, hd'⟩ := hdraw.1 t ht'
    obtain ⟨w1, w2, w3⟩ := hpos t (zoom31 run.model ht.2.1) _ _ (temp_at hH eg) d hd'
    refine ⟨d, hfile before (.tempTile t) _ (.tempTile ht' hd'), w1, w2, fun i j hi hj => ?_⟩
    rw [w3 i j hi hj, bind_kept, temp_shade, Option.bind_assoc]

/-- C175, wind: likewise with the two components of the wind. -/
theorem C175_wind : ∃ colour : Fl → Fl → Color,
    (∀ (m : Libm) (first last : LatLon) (ni nj : Nat), ∃ point : MapTileCoord → Nat → Nat → Option Nat,
      (∀ t i j k, point t i j = some k → k < ni * nj) ∧
      ∀ e run s tr, DwdCall m .wind10m e run s tr → ∀ mu mv, Publishes e.world run (.single .u10m s.nr) mu →
        Publishes e.world run (.single .v10m s.nr) mv → Field mu ni nj → Field mv ni nj → Corners mu first last ni nj →
        Corners mv first last ni nj → ∀ (before : Tree) (t : MapTileCoord), Needed m ⟨first, last⟩ run.model.zoomRange t →
        ∃ d, before.write tr (tilePath (outputPath run s.nr .wind10m) t) = some (.picture d) ∧
          d.width = 256 ∧ d.height = 256 ∧ ∀ i j, i < 256 → j < 256 →
            d.pixel j i = some (shade2 colour ((point t i j).bind (unpacked mu)) ((point t i j).bind (unpacked mv)))) ∧
    ∀ (m : Libm) (lat lon : Msg) (n : Nat), ∃ point : MapTileCoord → Nat → Nat → Option Nat,
      (∀ t i j k, point t i j = some k → k < n) ∧
      ∀ w s vertUrl time run nr tr, SwissCall m .wind10m lat lon n w s vertUrl time run nr tr →
        ∀ mu mv, Recorded w s vertUrl time (.of .u10m nr 0) mu → Recorded w s vertUrl time (.of .v10m nr 0) mv →
        PointField mu n → PointField mv n → ∀ (before : Tree) (t : MapTileCoord),
        Needed m swissGrid.extent run.model.zoomRange t →
        ∃ d, before.write tr (tilePath (outputPath run nr .wind10m) t) = some (.picture d) ∧
          d.width = 256 ∧ d.height = 256 ∧ ∀ i j, i < 256 → j < 256 →
            d.pixel j i = some (shade2 colour ((point t i j).bind (unpacked mu)) ((point t i j).bind (unpacked mv))) := by
  refine ⟨windShade, fun m first last ni nj => ?_, fun m lat lon n => ?_⟩
  · obtain ⟨pos, hpos⟩ := pixel_position m
    refine ⟨fun t i j => nearest (LatLonGrid.new (ni, nj) ⟨first, last⟩) ni nj (pos t i j), fun t i j k h => nearest_lt h, ?_⟩
    rintro e ⟨model, date, name⟩ s tr ⟨rfl, hd, rfl, hn, hs, vars, filter, hv, hc, h⟩ mu mv hpu hpv hfu hfv hcu hcv before t ht
    rw [C154_run e model hd name hn] at h
    obtain ⟨l, hl, hdraw, hfile⟩ := bin_of_run (newestName_no_slash hn.1) h hv (by simp) hs hc
    simp only [dwdLayers, Res.bind_eq_ok, Res.ok.injEq] at hl
    obtain ⟨U, hU, V, hV, G, hG, L, hL, rfl⟩ := hl
    obtain rfl := wind_new hL
    obtain ⟨hH, eg⟩ := dwd_holds hd hpu hfu hcu hU
    obtain ⟨hH', eg'⟩ := dwd_holds hd hpv hfv hcv hV
    have ht' : Needed e.libm U.grid.extent model.zoomRange t := by rw [eg]; exact ht
    obtain ⟨d, hd'⟩ := hdraw.1 t ht'
    obtain ⟨w1, w2, w3⟩ := hpos t (zoom31 model ht.2.1) _ _ (wind_at hH eg hH' eg') d hd'
    refine ⟨d, hfile before (.windTile t) _ (.windTile ht' hd'), w1, w2, fun i j hi hj => ?_⟩
    rw [w3 i j hi hj, bind_kept, bind_kept, wind_shade]
  · obtain ⟨pos, hpos⟩ := pixel_position m
    obtain ⟨point, hlt, hpoint⟩ := swiss_table lat lon n
    refine ⟨fun t i j => (nearest swissGrid 1851 847 (pos t i j)).bind point, fun t i j k h => swiss_nearest hlt h, ?_⟩
    rintro w s vertUrl time run nr tr ⟨cal, dirs, vars, filter, hor, grid, steps, st, hrun, hg, hk, hv, hs, hst, rfl, hc, h⟩
      mu mv hpu hpv hfu hfv before t ht
    obtain ⟨run', l, e, hl, hdraw, hfile⟩ := bin_of_swiss h hv (by simp) hs hst hc
    rw [hrun] at e
    cases e
    simp only [swissLayers, Res.bind_eq_ok, Res.ok.injEq] at hl
    obtain ⟨us, hus, vs, hvs, gs, hgs, L, hL, rfl⟩ := hl
    unfold Swiss.readWind at hL
    obtain ⟨u, s1, hL⟩ := bind_ok' hL
    obtain ⟨v, s2, hL⟩ := bind_ok' hL
    obtain ⟨g, s3, hL⟩ := bind_ok' hL
    obtain ⟨U, hU, hL⟩ := bind_ok' hL
    obtain ⟨V, hV, hL⟩ := bind_ok' hL
    obtain ⟨G, hG, hL⟩ := bind_ok' hL
    obtain rfl := wind_new hL
    obtain ⟨hH, eg⟩ := swiss_holds (placed hk hg) (by simpa using hus) hpu hfu s1 hU
    obtain ⟨hH', eg'⟩ := swiss_holds (placed hk hg) (by simpa using hvs) hpv hfv s2 hV
    rw [hpoint w hor grid hk hg] at hH hH'
    have ht' : Needed m U.grid.extent run.model.zoomRange t := by rw [eg]; exact ht
    obtain ⟨d, hd'⟩ := hdraw.1 t ht'
    obtain ⟨w1, w2, w3⟩ := hpos t (zoom31 run.model ht.2.1) _ _ (wind_at hH eg hH' eg') d hd'
    refine ⟨d, hfile before (.windTile t) _ (.windTile ht' hd'), w1, w2, fun i j hi hj => ?_⟩
    rw [w3 i j hi hj, bind_kept, bind_kept, wind_shade, Option.bind_assoc, Option.bind_assoc]

theorem mixture_given (g : LatLonGrid) (ni nj : Nat) (p : LatLon) (f : Fl → Fl) (U : Nat → Option Fl) :
    mixture g ni nj p (fun k => kept (.fin (-1)) f (U k)) =
      mixture g ni nj p (fun k => kept (.fin (-1)) f (given (around g ni nj p) ((around g ni nj p).map U) k)) :=
  mixture_congr fun k hk => by rw [given_map hk]

/-- C175, clouds and precipitation: for each grid of points there is a fixed choice of at most four points for each pixel and
a fixed table of colours for each pixel, such that after every successful call each pixel of each tile has the colour for the
numbers published for its points: the cloud cover and the two totals of precipitation. -/
theorem C175_cloud_precip :
    (∀ (m : Libm) (first last : LatLon) (ni nj : Nat), ∃ (points : MapTileCoord → Nat → Nat → List Nat)
      (colour : MapTileCoord → Nat → Nat → List (Option Fl) → List (Option Fl) → List (Option Fl) → Color),
      (∀ t i j, (points t i j).length ≤ 4 ∧ ∀ k ∈ points t i j, k < ni * nj) ∧
      ∀ e run s tr, DwdCall m .cloudPrecip e run s tr → ∀ clct total0 total1,
        Publishes e.world run (.single .clctMod s.nr) clct → Publishes e.world run (.single .totPrec (s.nr - 1)) total0 →
        Publishes e.world run (.single .totPrec s.nr) total1 → Field clct ni nj → Field total0 ni nj → Field total1 ni nj →
        Corners clct first last ni nj → Corners total0 first last ni nj → Corners total1 first last ni nj →
        ∀ (before : Tree) (t : MapTileCoord), Needed m ⟨first, last⟩ run.model.zoomRange t →
        ∃ d, before.write tr (tilePath (outputPath run s.nr .cloudPrecip) t) = some (.picture d) ∧
          d.width = 256 ∧ d.height = 256 ∧ ∀ i j, i < 256 → j < 256 →
            d.pixel j i = some (colour t i j ((points t i j).map (unpacked clct)) ((points t i j).map (unpacked total0))
              ((points t i j).map (unpacked total1)))) ∧
    ∀ (m : Libm) (lat lon : Msg) (n : Nat), ∃ (points : MapTileCoord → Nat → Nat → List (Option Nat))
      (colour : MapTileCoord → Nat → Nat → List (Option Fl) → List (Option Fl) → List (Option Fl) → Color),
      (∀ t i j, (points t i j).length ≤ 4 ∧ ∀ k, some k ∈ points t i j → k < n) ∧
      ∀ w s vertUrl time run nr tr, SwissCall m .cloudPrecip lat lon n w s vertUrl time run nr tr →
        ∀ clct total0 total1, Recorded w s vertUrl time (.of .clct nr 0) clct →
        Recorded w s vertUrl time (.of .totPrec (nr - 1) 0) total0 → Recorded w s vertUrl time (.of .totPrec nr 0) total1 →
        PointField clct n → PointField total0 n → PointField total1 n → ∀ (before : Tree) (t : MapTileCoord),
        Needed m swissGrid.extent run.model.zoomRange t →
        ∃ d, before.write tr (tilePath (outputPath run nr .cloudPrecip) t) = some (.picture d) ∧
          d.width = 256 ∧ d.height = 256 ∧ ∀ i j, i < 256 → j < 256 →
            d.pixel j i = some (colour t i j ((points t i j).map fun o => o.bind (unpacked clct))
              ((points t i j).map fun o => o.bind (unpacked total0)) ((points t i j).map fun o => o.bind (unpacked total1))) := by
  refine ⟨fun m first last ni nj => ?_, fun m lat lon n => ?_⟩
  · obtain ⟨pos, hpos⟩ := pixel_position m
    generalize hgr : LatLonGrid.new (ni, nj) ⟨first, last⟩ = gr
    refine ⟨fun t i j => around gr ni nj (pos t i j), fun t i j a b c => cloudShade
      (mixture gr ni nj (pos t i j) fun k => num (given (around gr ni nj (pos t i j)) a k))
      (mixture gr ni nj (pos t i j) fun k => num (given (around gr ni nj (pos t i j)) b k))
      (mixture gr ni nj (pos t i j) fun k => num (given (around gr ni nj (pos t i j)) c k)),
      fun t i j => ⟨around_length _ _ _ _, fun k h => around_lt h⟩, ?_⟩
    rintro e ⟨model, date, name⟩ s tr ⟨rfl, hd, rfl, hn, hs, vars, filter, hv, hc, h⟩ clct total0 total1 hp hp0 hp1 hf hf0 hf1
      hco hco0 hco1 before t ht
    rw [C154_run e model hd name hn] at h
    obtain ⟨l, hl, hdraw, hfile⟩ := bin_of_run (newestName_no_slash hn.1) h hv (by simp) hs hc
    simp only [dwdLayers, Res.bind_eq_ok, Res.ok.injEq] at hl
    obtain ⟨C, hC, P0, hP0, P1, hP1, L, hL, _, _, _, _, _, _, W, _, rfl⟩ := hl
    obtain rfl := cloudPrecip_new hL
    obtain ⟨hH, eg⟩ := dwd_holds hd hp hf hco hC
    obtain ⟨hH0, eg0⟩ := dwd_holds hd hp0 hf0 hco0 hP0
    obtain ⟨hH1, eg1⟩ := dwd_holds hd hp1 hf1 hco1 hP1
    have ht' : Needed e.libm C.grid.extent model.zoomRange t := by rw [eg]; exact ht
    rw [hgr] at eg eg0 eg1
    obtain ⟨d, hd'⟩ := hdraw.1 t ht'
    obtain ⟨w1, w2, w3⟩ := hpos t (zoom31 model ht.2.1) _ _ (cloud_at hH eg hH0 eg0 hH1 eg1) d hd'
    refine ⟨d, hfile before (.cloudPrecipTile t) _ (.cloudPrecipTile ht' hd'), w1, w2, fun i j hi hj => ?_⟩
    rw [w3 i j hi hj, mixture_given, mixture_given (U := unpacked total0), mixture_given (U := unpacked total1)]
    rfl
  · obtain ⟨pos, hpos⟩ := pixel_position m
    obtain ⟨point, hlt, hpoint⟩ := swiss_table lat lon n
    refine ⟨fun t i j => (around swissGrid 1851 847 (pos t i j)).map point, fun t i j a b c => cloudShade
      (mixture swissGrid 1851 847 (pos t i j) fun k => kept (.fin (-1)) clctFraction
        (given (around swissGrid 1851 847 (pos t i j)) a k))
      (mixture swissGrid 1851 847 (pos t i j) fun k => num (given (around swissGrid 1851 847 (pos t i j)) b k))
      (mixture swissGrid 1851 847 (pos t i j) fun k => num (given (around swissGrid 1851 847 (pos t i j)) c k)),
      fun t i j => ⟨by rw [List.length_map]; exact around_length _ _ _ _, fun i h => ?_⟩, ?_⟩
    · obtain ⟨k, hk, hi⟩ := List.mem_map.mp h
      exact hlt k i (around_lt hk) hi
    rintro w s vertUrl time run nr tr ⟨cal, dirs, vars, filter, hor, grid, steps, st, hrun, hg, hk, hv, hs, hst, rfl, hc, h⟩
      clct total0 total1 hp hp0 hp1 hf hf0 hf1 before t ht
    obtain ⟨run', l, e, hl, hdraw, hfile⟩ := bin_of_swiss (v := .cloudPrecip) h hv (by simp) hs hst hc
    rw [hrun] at e
    cases e
    simp only [swissLayers, Res.bind_eq_ok, Res.ok.injEq] at hl
    obtain ⟨cs, hcs, ps, hps, es, hes, L, hL, W, hW, rfl⟩ := hl
    unfold Swiss.readCloudPrecip at hL
    obtain ⟨⟨c, p0, p1⟩, h1, hL⟩ := bind_ok' hL
    obtain ⟨C, hC, hL⟩ := bind_ok' hL
    obtain ⟨P0, hP0, hL⟩ := bind_ok' hL
    obtain ⟨P1, hP1, hL⟩ := bind_ok' hL
    obtain rfl := cloudPrecip_new hL
    obtain ⟨s1, s2, s3⟩ : getStepByNr cs st.nr = .ok c ∧ getStepByNr ps (st.nr - 1) = .ok p0 ∧
        getStepByNr ps st.nr = .ok p1 := by
      unfold cloudPrecipSteps at h1
      obtain ⟨c', e1, h1⟩ := bind_ok' h1
      split at h1
      · cases h1
      · obtain ⟨p0', e2, h1⟩ := bind_ok' h1
        obtain ⟨p1', e3, h1⟩ := bind_ok' h1
        cases h1
        exact ⟨unwrapResult_ok e1, unwrapResult_ok e2, unwrapResult_ok e3⟩
    obtain ⟨hH, eg⟩ := swiss_holds (placed hk hg) (by simpa using hcs) hp hf s1 hC
    obtain ⟨hH0, eg0⟩ := swiss_holds (placed hk hg) (by simpa using hps) hp0 hf0 s2 hP0
    obtain ⟨hH1, eg1⟩ := swiss_holds (placed hk hg) (by simpa using hps) hp1 hf1 s3 hP1
    rw [hpoint w hor grid hk hg] at hH hH0 hH1
    have ht' : Needed m C.grid.extent run.model.zoomRange t := by rw [eg]; exact ht
    obtain ⟨d, hd'⟩ := hdraw.1 t ht'
    obtain ⟨w1, w2, w3⟩ := hpos t (zoom31 run.model ht.2.1) _ _ (cloud_at hH eg hH0 eg0 hH1 eg1) d hd'
    refine ⟨d, hfile before (.cloudPrecipTile t) _ (.cloudPrecipTile ht' hd'), w1, w2, fun i j hi hj => ?_⟩
    rw [w3 i j hi hj, mixture_given (U := fun k => (point k).bind (unpacked clct)),
      mixture_given (U := fun k => (point k).bind (unpacked total0)),
      mixture_given (U := fun k => (point k).bind (unpacked total1))]
    simp only [List.map_map, Function.comp_def, Option.getD_some]

end Verif.Props
