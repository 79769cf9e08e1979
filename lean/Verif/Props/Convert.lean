import Verif.Props.Geo
import Verif.Props.Decode
import Verif.Lemmas.Res

/-!
# Properties C13, C14, C25, C61, C64: converting messages to grids
-/

namespace Verif.Props

open Verif Verif.Grib2

variable {T : Type}

/-! ## C13 -/

/-- **C13.** Converting a message with a regular lat/lon template: the grid has the template's numbers
of columns and rows, the extent spanned by the first and the last grid point, the given missing value,
and the decoded data points in order. -/
theorem C13_shape (doc : Document) (t : GridTemplate3_0)
    (ht : doc.section3.template = .latitudeLongitude t) (missing : T) (transform : Fl → T)
    (g : LatLonValueGrid T) (h : createRegularGrid doc missing transform = .ok g) :
    g.grid.dimensions = (t.pointsAlongParallel, t.pointsAlongMeridian) ∧
    g.grid.extent = ⟨LatLon.new t.firstLat t.firstLon, LatLon.new t.lastLat t.lastLon⟩ ∧
    g.missingValue = missing ∧ calculateDataPoints doc missing transform = .ok g.values := by
  unfold createRegularGrid getDimensionsAndExtent at h
  rw [ht] at h
  simp only [Res.bind_eq_ok] at h
  obtain ⟨vs, hvs, ⟨dims, ext⟩, ⟨ext', hext, he⟩, hg⟩ := h
  simp only [Res.ok.injEq, Prod.mk.injEq] at he hg
  obtain ⟨rfl, rfl⟩ := he
  subst hg
  have := (C16_new _ _).2.1 _ hext
  subst this
  exact ⟨rfl, rfl, rfl, hvs⟩

/-- **C13.** Looking up cell (x,y) of the converted grid gives data point number y*width+x (or nothing
if this point carries the missing value), provided the message has width*height points. -/
theorem C13_cells [GridValue T] (doc : Document) (t : GridTemplate3_0) (p : DataTemplate5_0)
    (ht : doc.section3.template = .latitudeLongitude t) (hp : doc.section5.template = .simplePacking p)
    (hraw : doc.section7.dataPoints ≠ [])
    (hn : doc.section3.numberOfDatapoints = t.pointsAlongParallel * t.pointsAlongMeridian)
    (hs : doc.section3.numberOfDatapoints < 2 ^ 32) (missing : T) (transform : Fl → T)
    (g : LatLonValueGrid T) (h : createRegularGrid doc missing transform = .ok g) (x y : Nat) :
    (x < t.pointsAlongParallel ∧ y < t.pointsAlongMeridian →
      ∃ v, g.values[y * t.pointsAlongParallel + x]? = some v ∧
        g.getValueByXY x y = .ok (if GridValue.eq v missing then none else some v)) ∧
    (¬ (x < t.pointsAlongParallel ∧ y < t.pointsAlongMeridian) → g.getValueByXY x y = .ok none) := by
  obtain ⟨h1, -, h3, h4⟩ := C13_shape doc t ht missing transform g h
  have hl := (C06_bitmap doc p missing transform g.values hp hraw h4).1
  have := C19_lookup g t.pointsAlongParallel t.pointsAlongMeridian h1 (by omega) (by omega) x y
  rw [h3] at this
  exact this

/-- **C13.** The conversion succeeds when the data decodes and the last grid point is not south or west
of the first. -/
theorem C13_defined (doc : Document) (t : GridTemplate3_0)
    (ht : doc.section3.template = .latitudeLongitude t) (missing : T) (transform : Fl → T) (vs : List T)
    (hd : calculateDataPoints doc missing transform = .ok vs)
    (h1 : Fl.lt (LatLon.normalise t.lastLat) (LatLon.normalise t.firstLat) = false)
    (h2 : Fl.lt (LatLon.normalise t.lastLon) (LatLon.normalise t.firstLon) = false) :
    ∃ g, createRegularGrid doc missing transform = .ok g := by
  unfold createRegularGrid getDimensionsAndExtent
  rw [hd, ht]
  have : LatLonExtent.new (LatLon.new t.firstLat t.firstLon) (LatLon.new t.lastLat t.lastLon) =
      .ok ⟨LatLon.new t.firstLat t.firstLon, LatLon.new t.lastLat t.lastLon⟩ := by
    unfold LatLonExtent.new Fl.gt LatLon.new
    simp only [h1, h2, Bool.or_self, Bool.false_eq_true, if_false]
  simp only [this, Res.bind_ok]
  exact ⟨_, rfl⟩

/-- **C13.** A message with any other grid template is never converted. -/
theorem C13_other_template (doc : Document) (ht : ∀ t, doc.section3.template ≠ .latitudeLongitude t)
    (missing : T) (transform : Fl → T) (vs : List T)
    (hd : calculateDataPoints doc missing transform = .ok vs) :
    createRegularGrid doc missing transform = .err := by
  unfold createRegularGrid getDimensionsAndExtent
  rw [hd]
  cases h : doc.section3.template with
  | latitudeLongitude t => exact absurd h (ht t)
  | unstructuredGrid t => rfl
  | missing => rfl
  | unknown c => rfl

example : ∃ g, createRegularGrid demoMsg.doc (.fin (-1)) id = .ok g ∧ g.getValueByXY 1 1 =
    .ok (some (.fin (rndq f32 (10001 / 10)))) := by
  obtain ⟨g, hg⟩ := C13_defined demoMsg.doc
    (match demoMsg.doc.section3.template with
      | .latitudeLongitude t => t
      | _ => ⟨.missing, ⟨0, 0⟩, ⟨0, 0⟩, ⟨0, 0⟩, 0, 0, 0, 0, .nan, .nan, ⟨false, false, false⟩, .nan, .nan,
        .nan, .nan, ⟨false, false, false, false, false, false, false, false⟩⟩)
    (by decide +kernel) (.fin (-1)) id
    [.fin (rndq f32 (1 / 10)), .fin (-1), .fin (rndq f32 (2 / 10)), .fin (rndq f32 (10001 / 10))]
    (by decide +kernel) (by decide +kernel) (by decide +kernel)
  refine ⟨g, hg, ?_⟩
  have : (createRegularGrid demoMsg.doc (.fin (-1)) id).bind (fun g => g.getValueByXY 1 1) =
      .ok (some (.fin (rndq f32 (10001 / 10)))) := by decide +kernel
  rw [hg] at this
  exact this

/-! ## C61 -/

/-- The demonstration message with its two rows scanned from north to south. -/
def northSouthMsg : Spec.Grib2.Msg :=
  { demoMsg with
    grid := .latLon { shape := .sphericalRadius6371229, radius := ⟨0, 0⟩, major := ⟨0, 0⟩
                      minor := ⟨0, 0⟩, ni := 2, nj := 2, basicAngle := 0, subdivision := 0
                      la1 := 45000000, lo1 := 5000000, resolution := 48, la2 := 43000000
                      lo2 := 7000000, di := 1000000, dj := 1000000, scanning := 0 } }

/-- **C61 is false for the code**: a well-formed message whose grid is scanned from north to south
crashes the conversion. -/
theorem C61_counterexample : ∃ m : Spec.Grib2.Msg,
    readSingleDoc (Spec.Grib2.encode m) = .ok (m.doc, []) ∧
    (∃ vs, calculateDataPoints m.doc (Fl.fin (-1)) id = .ok vs) ∧
    createRegularGrid m.doc (Fl.fin (-1)) id = .panic :=
  ⟨northSouthMsg, by decide +kernel,
    ⟨[.fin (rndq f32 (1 / 10)), .fin (-1), .fin (rndq f32 (2 / 10)), .fin (rndq f32 (10001 / 10))],
      by decide +kernel⟩, by
    have h : (createRegularGrid northSouthMsg.doc (Fl.fin (-1)) id).bind (fun g => .ok g.values) =
      .panic := by decide +kernel
    cases hg : createRegularGrid northSouthMsg.doc (Fl.fin (-1)) id with
    | ok g => rw [hg] at h; cases h
    | err => rw [hg] at h; cases h
    | panic => rfl⟩

/-- **C61.** In fact every message whose first grid point lies north of its last one crashes it. -/
theorem C61_always (doc : Document) (t : GridTemplate3_0)
    (ht : doc.section3.template = .latitudeLongitude t) (missing : T) (transform : Fl → T) (vs : List T)
    (hd : calculateDataPoints doc missing transform = .ok vs) (a b : Rat) (ha : t.firstLat = .fin a)
    (hb : t.lastLat = .fin b) (h1 : -180 ≤ b) (h2 : b < a) (h3 : a < 180) :
    createRegularGrid doc missing transform = .panic := by
  unfold createRegularGrid getDimensionsAndExtent
  rw [hd, ht]
  simp only [Res.bind_ok]
  have : LatLonExtent.new (LatLon.new t.firstLat t.firstLon) (LatLon.new t.lastLat t.lastLon) = .panic := by
    apply (C16_new _ _).1.2
    left
    unfold LatLon.new
    rw [ha, hb, normalise_id (by linarith) h3, normalise_id h1 (by linarith)]
    simpa [Fl.lt] using h2
  rw [this]
  rfl

/-! ## C64 -/

/-- The demonstration message claiming 3 columns and 2 rows for its 4 points. -/
def shortMsg : Spec.Grib2.Msg :=
  { demoMsg with
    grid := .latLon { shape := .sphericalRadius6371229, radius := ⟨0, 0⟩, major := ⟨0, 0⟩
                      minor := ⟨0, 0⟩, ni := 3, nj := 2, basicAngle := 0, subdivision := 0
                      la1 := 43000000, lo1 := 5000000, resolution := 48, la2 := 45000000
                      lo2 := 7000000, di := 1000000, dj := 1000000, scanning := 64 } }

/-- **C64 is false for the code**: a message whose number of points is not columns times rows is
converted without error, and looking up a cell of the result crashes. -/
theorem C64_counterexample : ∃ (m : Spec.Grib2.Msg) (g : LatLonValueGrid Fl),
    readSingleDoc (Spec.Grib2.encode m) = .ok (m.doc, []) ∧
    createRegularGrid m.doc (Fl.fin (-1)) id = .ok g ∧ g.getValueByXY 2 1 = .panic := by
  have h : (createRegularGrid shortMsg.doc (Fl.fin (-1)) id).bind (fun g => g.getValueByXY 2 1) =
      .panic := by decide +kernel
  cases hg : createRegularGrid shortMsg.doc (Fl.fin (-1)) id with
  | ok g =>
    rw [hg] at h
    exact ⟨shortMsg, g, by decide +kernel, hg, h⟩
  | err => rw [hg] at h; cases h
  | panic =>
    exfalso
    have h' : (createRegularGrid shortMsg.doc (Fl.fin (-1)) id).bind (fun g => .ok g.values.length) =
      .ok 4 := by decide +kernel
    rw [hg] at h'
    cases h'

/-! ## C14 -/

/-- **C14.** An index range selects exactly the documents whose index lies in the inclusive range, in
order. -/
theorem C14_selection (docs : List Document) (lo hi : Nat) :
    filterDocs docs (some (lo, hi)) = (docs.take (hi + 1)).drop lo ∧ filterDocs docs none = docs := by
  refine ⟨?_, rfl⟩
  have key : ∀ (docs : List Document) (k : Nat),
      (docs.zipIdx k).filterMap (fun p => if lo ≤ p.2 ∧ p.2 ≤ hi then some p.1 else none) =
        (docs.take (hi + 1 - k)).drop (lo - k) := by
    intro docs
    induction docs with
    | nil => intro k; simp
    | cons d ds ih =>
      intro k
      rw [List.zipIdx_cons, List.filterMap_cons]
      simp only
      by_cases h1 : k ≤ hi
      · rw [show hi + 1 - k = (hi + 1 - (k + 1)) + 1 by omega, List.take_succ_cons]
        by_cases h2 : lo ≤ k
        · rw [if_pos ⟨h2, h1⟩]
          simp only
          rw [ih (k + 1), show lo - k = 0 by omega, show lo - (k + 1) = 0 by omega]
          rfl
        · rw [if_neg (by omega)]
          simp only
          rw [ih (k + 1), show lo - k = (lo - (k + 1)) + 1 by omega, List.drop_succ_cons]
      · rw [if_neg (by omega)]
        simp only
        rw [ih (k + 1), show hi + 1 - k = 0 by omega, show hi + 1 - (k + 1) = 0 by omega]
        simp
  have := key docs 0
  simpa [filterDocs] using this

/-- **C14.** The read succeeds exactly when every selected document converts, and then the k-th
grid is the conversion of the k-th selected document. -/
theorem C14_result (docs : List Document) (lo hi : Nat) (missing : T) (transform : Fl → T)
    (grid : UnstructuredGrid) (gs : List (LatLonValueGrid T)) :
    convertMulti docs missing transform grid (some (lo, hi)) = .ok gs ↔
      gs.length = min docs.length (hi + 1) - lo ∧
      ∀ k g, gs[k]? = some g → ∃ d, docs[lo + k]? = some d ∧
        convertUnstructured missing transform grid d = .ok g := by
  unfold convertMulti
  rw [Res.mapM_ok_iff, (C14_selection docs lo hi).1, List.forall₂_iff_get]
  simp only [List.length_drop, List.length_take, List.get_eq_getElem, List.getElem_drop,
    List.getElem_take]
  constructor
  · rintro ⟨h1, h2⟩
    refine ⟨by omega, fun k g hk => ?_⟩
    obtain ⟨hk', rfl⟩ := List.getElem?_eq_some_iff.1 hk
    have hlt : lo + k < docs.length := by omega
    exact ⟨docs[lo + k], List.getElem?_eq_getElem hlt, h2 k (by omega) hk'⟩
  · rintro ⟨h1, h2⟩
    refine ⟨by omega, fun k hk hk' => ?_⟩
    obtain ⟨d, hd, hc⟩ := h2 k gs[k] (List.getElem?_eq_getElem hk')
    obtain ⟨hd', rfl⟩ := List.getElem?_eq_some_iff.1 hd
    exact hc

/-- **C14.** One selected document that cannot be converted makes the whole read fail. -/
theorem C14_failure (docs : List Document) (lo hi k : Nat) (missing : T) (transform : Fl → T)
    (grid : UnstructuredGrid) (d : Document) (hd : docs[k]? = some d) (h1 : lo ≤ k) (h2 : k ≤ hi)
    (hf : ∀ g, convertUnstructured missing transform grid d ≠ .ok g) (gs : List (LatLonValueGrid T)) :
    convertMulti docs missing transform grid (some (lo, hi)) ≠ .ok gs := by
  intro h
  obtain ⟨hl, hk⟩ := (C14_result docs lo hi missing transform grid gs).1 h
  obtain ⟨hlt, -⟩ := List.getElem?_eq_some_iff.1 hd
  have hlt' : k - lo < gs.length := by omega
  obtain ⟨d', hd', hc⟩ := hk (k - lo) gs[k - lo] (List.getElem?_eq_getElem hlt')
  rw [show lo + (k - lo) = k by omega, hd] at hd'
  simp only [Option.some.injEq] at hd'
  subst hd'
  exact hf _ hc

/-! ## C25 -/

/-- The assignment map has one entry per cell of the grid. -/
def UnstructuredGrid.WellSized (g : UnstructuredGrid) : Prop :=
  g.coordDistMap.length = g.latLonGrid.dimensions.1 * g.latLonGrid.dimensions.2 ∧
    g.latLonGrid.dimensions.1 * g.latLonGrid.dimensions.2 < 2 ^ 64

/-- **C25.** Converting unstructured values to a regular grid keeps dimensions, extent and missing
value, gives exactly width*height values, and cell (x,y) holds the value of the coordinate assigned to
the cell, or the missing value if there is none. -/
theorem C25_regrid (g : UnstructuredValueGrid T) (hs : UnstructuredGrid.WellSized g.grid) :
    ∃ r, g.createRegularGrid = .ok r ∧ r.grid.dimensions = g.grid.latLonGrid.dimensions ∧
      r.grid.extent = g.grid.latLonGrid.extent ∧ r.missingValue = g.missingValue ∧
      r.values.length = g.grid.latLonGrid.dimensions.1 * g.grid.latLonGrid.dimensions.2 ∧
      ∀ x y, x < g.grid.latLonGrid.dimensions.1 → y < g.grid.latLonGrid.dimensions.2 →
        ∃ cd, g.grid.coordDistMap[y * g.grid.latLonGrid.dimensions.1 + x]? = some cd ∧
          r.values[y * g.grid.latLonGrid.dimensions.1 + x]? =
            some (match cd with
              | none => g.missingValue
              | some c => g.values.getD c.coordIndex g.missingValue) := by
  obtain ⟨⟨grid, coords, map⟩, values, missing⟩ := g
  obtain ⟨hlen, hsz⟩ := hs
  obtain ⟨⟨w, h⟩, ext, latInc, lonInc⟩ := grid
  simp only at hlen hsz ⊢
  set f : Nat → T := fun i => match (map.getD i none) with
    | none => missing
    | some c => values.getD c.coordIndex missing with hf
  have hcell : ∀ i ∈ List.range (w * h), (do
        let v ← UnstructuredValueGrid.getValueByXY
          (⟨⟨⟨(w, h), ext, latInc, lonInc⟩, coords, map⟩, values, missing⟩ : UnstructuredValueGrid T)
          (i % w) (i / w)
        Res.ok (v.getD missing)) = .ok (f i) := by
    intro i hi
    rw [List.mem_range] at hi
    have hw : 0 < w := by
      rcases Nat.eq_zero_or_pos w with h0 | h0
      · subst h0; simp at hi
      · exact h0
    have hx : i % w < w := Nat.mod_lt _ hw
    have hy : i / w < h := by
      rw [Nat.div_lt_iff_lt_mul hw]; rwa [Nat.mul_comm] at hi
    have hi' : i % w + i / w * w = i := by rw [Nat.mul_comm]; exact Nat.mod_add_div i w
    have hidx : LatLonGrid.getIndexByXY ⟨(w, h), ext, latInc, lonInc⟩ (i % w) (i / w) = .ok (some i) := by
      unfold LatLonGrid.getIndexByXY
      simp only
      rw [if_neg (by simp; omega), hi', if_neg (by omega)]
    have hmap : i < map.length := by omega
    unfold UnstructuredValueGrid.getValueByXY UnstructuredGrid.getCoordDist
    simp only [hidx, Res.bind_ok, Res.index_ok hmap]
    have hg : map.getD i none = map[i] := by simp [List.getD, hmap]
    rw [hf]
    simp only [hg]
    cases map[i] with
    | none => rfl
    | some c => simp [List.getD]
  have hm := Res.mapM_total f _ (List.range (w * h)) hcell
  refine ⟨LatLonValueGrid.new ((List.range (w * h)).map f) missing (w, h) ext, ?_, rfl, rfl, rfl, ?_, ?_⟩
  · unfold UnstructuredValueGrid.createRegularGrid
    simp only
    rw [if_neg (by omega)]
    exact (congrArg (fun r => Res.bind r _) hm).trans rfl
  · simp [LatLonValueGrid.new]
  · intro x y hx hy
    have hlt : y * w + x < w * h := by
      have : (y + 1) * w ≤ h * w := Nat.mul_le_mul_right _ hy
      rw [Nat.add_mul, Nat.one_mul] at this
      rw [Nat.mul_comm w h]; omega
    have hmap : y * w + x < map.length := by omega
    refine ⟨map[y * w + x], List.getElem?_eq_getElem hmap, ?_⟩
    rw [LatLonValueGrid.new]
    simp only [List.getElem?_map, List.getElem?_range hlt, Option.map_some]
    rw [hf]
    simp only
    rw [show map.getD (y * w + x) none = map[y * w + x] by simp [List.getD, hmap]]

end Verif.Props
