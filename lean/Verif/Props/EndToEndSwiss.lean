import Verif.Lemmas.SwissGrid
import Verif.Props.EndToEnd
import Verif.Props.ProgramSwiss
import Verif.Props.Window

/-!
# C98-C102: MeteoSwiss, from the published messages to the files written
-/

namespace Verif.Props

open Verif MapTileRenderer
open Verif.Spec (Filled cell Shows degrees chartCell)
open Verif.Spec.Grib2 (Msg encode)
open Verif.Spec.Decode (present rank)

/-! ## Published fields -/

/-- The file of that name (downloaded, if the name is a URL) holds these messages one after the other, and perhaps
something that is not a message at the end. -/
structure Delivers (w : World) (url : Text) (msgs : List Msg) : Prop where
  ok : ∀ msg ∈ msgs, msg.ok ∧ (msg.product.known ∨ msg.coordinates = [])
  there : ∃ rest, w.stream url = .ok (msgs.flatMap encode ++ rest) ∧ Grib2.readSingleDoc rest = .err

/-- The message holds values for `n` points, packed with a reference value and scale factors in the usual range. -/
structure PointField (msg : Msg) (n : Nat) : Prop where
  packing : ∃ ref r E D bits typ, msg.packing = .simple ref E D bits typ ∧ ref.value = .fin r ∧ |r| ≤ 2 ^ 80 ∧
    -126 ≤ E ∧ E ≤ 60 ∧ -10 ≤ D ∧ D ≤ 10
  points : msg.numberOfPoints = n
  data : msg.data ≠ []

/-- The position of a point according to the messages with latitudes and longitudes. -/
def position (lat lon : Msg) (i : Nat) : Option (Rat × Rat) :=
  match physical lat i, physical lon i with
  | some a, some b => some (a, b)
  | _, _ => none

/-- The values read from a field. -/
theorem values_of_field {T : Type} {msg : Msg} {n : Nat} (hok : msg.ok) (hf : PointField msg n) {missing : T} {f : Fl → T}
    {vs : List T} (h : Grib2.calculateDataPoints msg.doc missing f = .ok vs) :
    vs.length = n ∧ ∀ i, i < n → (physical msg i = none → vs[i]? = some missing) ∧
      ∀ q, physical msg i = some q →
        ∃ v : Rat, |v - q| ≤ |q| / 2 ^ 22 + 1 / 2 ^ 110 ∧ vs[i]? = some (f (.fin v)) := by
  obtain ⟨ref, r, E, D, bits, typ, hpk, hr, hrb, e1, e2, d1, d2⟩ := hf.packing
  have ht5 : msg.doc.section5.template = .simplePacking ⟨ref.value, E, D, bits, typ⟩ := by
    show Spec.Grib2.packingDoc msg.packing = _
    rw [hpk]; rfl
  obtain ⟨l1, l2⟩ := C06_bitmap msg.doc _ missing f vs ht5 hf.data h
  have hn : msg.doc.section3.numberOfDatapoints = n := hf.points
  rw [hn] at l1 l2
  have hx16 : ∀ v ∈ msg.data, v < 2 ^ 16 := by
    obtain ⟨_, _, _, _, _, _, _, _, _, _, _, _, _, _, _, _, _, _, _, _, _, _, _, _, _, _, _, h, _⟩ := hok
    exact h
  refine ⟨l1, fun i hi => ?_⟩
  obtain ⟨p1, p2⟩ := l2 i hi
  change (present msg.bitmap i = true → ∃ X, msg.data[rank msg.bitmap i]? = some X ∧ _) at p1
  change present msg.bitmap i = false → _ at p2
  have hphys : physical msg i = if present msg.bitmap i then
        (msg.data[rank msg.bitmap i]?).map fun x : Nat => (r + (x : Rat) * (2 : Rat) ^ E) / (10 : Rat) ^ D
      else none := by
    unfold physical
    rw [hpk]
    simp only [hr]
  rw [hphys]
  cases hpr : present msg.bitmap i with
  | false => exact ⟨fun _ => p2 hpr, fun q hq => by simp at hq⟩
  | true =>
    obtain ⟨X, hX, hv⟩ := p1 hpr
    rw [hX]
    refine ⟨fun hq => by simp at hq, fun q hq => ?_⟩
    simp only [if_true, Option.map_some, Option.some.injEq] at hq
    obtain ⟨v, v1, v2⟩ := C07_formula ⟨ref.value, E, D, bits, typ⟩ r hr hrb ⟨e1, e2⟩ ⟨d1, d2⟩ X
      (hx16 X (List.mem_of_getElem? hX))
    simp only at v2
    rw [hq] at v2
    exact ⟨v, v2, by rw [hv, v1]⟩

theorem Delivers.read {w : World} {url : Text} {msgs : List Msg} (h : Delivers w url msgs) (hne : msgs ≠ []) :
    w.readMulti url = .ok (msgs.map Msg.doc) := by
  obtain ⟨rest, h1, h2⟩ := h.there
  unfold World.readMulti
  rw [h1, Res.bind_ok, C02_multi msgs hne h.ok rest h2]

theorem Delivers.readFirst {w : World} {url : Text} {msg : Msg} {msgs : List Msg} (h : Delivers w url (msg :: msgs)) :
    w.readSingle url = .ok msg.doc := by
  obtain ⟨rest, h1, h2⟩ := h.there
  obtain ⟨h3, h4⟩ := h.ok msg (by simp)
  unfold World.readSingle
  rw [h1, Res.bind_ok, List.flatMap_cons, List.append_assoc, C01_round_trip msg h3 h4, Res.bind_ok]

/-! ## The grid -/

theorem swiss_extent : Swiss.gridExtent =
    .ok (finExtent (1377239 / 32768) (-13589545 / 16777216) (101 / 2) (4639949 / 262144)) := by decide +kernel

theorem swiss_maxDist : Swiss.maxDist = .fin (5368709 / 536870912) := by decide +kernel

theorem swiss_reasonable :
    Reasonable (1377239 / 32768) (-13589545 / 16777216) (101 / 2) (4639949 / 262144) (1851, 847) := by
  refine ⟨⟨?_, ?_, ?_, ?_⟩, ⟨?_, ?_, ?_, ?_⟩⟩ <;> norm_num

/-- The regular grid of the MeteoSwiss charts. -/
def swissGrid : LatLonGrid :=
  LatLonGrid.new (1851, 847) (finExtent (1377239 / 32768) (-13589545 / 16777216) (101 / 2) (4639949 / 262144))

theorem swiss_incs : swissGrid.latInc = .fin (2684355 / 268435456) ∧ swissGrid.lonInc = .fin (5368709 / 536870912) := by
  decide +kernel

/-- The computed centre of a cell is within a hundred-thousandth of a degree of the exact one. -/
theorem swiss_centre {x y : Nat} (hx : x < 1851) (hy : y < 847) {a b : Rat}
    (h : cellCentre swissGrid x y = some ⟨.fin a, .fin b⟩) :
    |a - (chartCell x y).1| ≤ 1 / 100000 ∧ |b - (chartCell x y).2| ≤ 1 / 100000 := by
  obtain ⟨i, j, a', b', -, -, -, -, -, -, -, -, hc, -, -, a0, a1, b0, b1, -, -⟩ :=
    centre_defined swiss_reasonable (x := x) (y := y) hx hy
  change cellCentre swissGrid x y = _ at hc
  have hx' : (x : Rat) + 1 ≤ 1851 := by exact_mod_cast hx
  have hy' : (y : Rat) + 1 ≤ 847 := by exact_mod_cast hy
  have hx0 : (0 : Rat) ≤ x := by positivity
  have hy0 : (0 : Rat) ≤ y := by positivity
  have my : |((y : Rat) + 1 / 2) * (2684355 / 268435456)| ≤ 9 := by rw [abs_le]; constructor <;> linarith
  have mx : |((x : Rat) + 1 / 2) * (5368709 / 536870912)| ≤ 19 := by rw [abs_le]; constructor <;> linarith
  obtain ⟨p, hp, _, ep⟩ := rnd32_err_le my (by norm_num)
  obtain ⟨q, hq, _, eq⟩ := rnd32_err_le mx (by norm_num)
  have ep := abs_le.mp ep
  have eq := abs_le.mp eq
  have sy : |(1377239 / 32768 : Rat) + p| ≤ 51 := by rw [abs_le]; constructor <;> linarith [ep.1, ep.2]
  have sx : |(-13589545 / 16777216 : Rat) + q| ≤ 19 := by rw [abs_le]; constructor <;> linarith [eq.1, eq.2]
  obtain ⟨s, hs, _, es⟩ := rnd32_err_le sy (by norm_num)
  obtain ⟨t, ht, _, et⟩ := rnd32_err_le sx (by norm_num)
  have es := abs_le.mp es
  have et := abs_le.mp et
  have hval : cellCentre swissGrid x y = some ⟨.fin s, .fin t⟩ := by
    unfold cellCentre LatLonGrid.getLatLonByXY
    rw [half_exact (hx.le.trans (by norm_num)), half_exact (hy.le.trans (by norm_num))]
    have hd : swissGrid.dimensions = (1851, 847) := rfl
    rw [hd, lt_zero_half, lt_zero_half, ge_half hx (by norm_num), ge_half hy (by norm_num), swiss_incs.1, swiss_incs.2]
    change some (LatLon.new (Fl.add f32 (.fin (1377239 / 32768)) (Fl.mul f32 (.fin ((y : Rat) + 1 / 2)) (.fin (2684355 / 268435456))))
      (Fl.add f32 (.fin (-13589545 / 16777216)) (Fl.mul f32 (.fin ((x : Rat) + 1 / 2)) (.fin (5368709 / 536870912))))) = _
    rw [Fl.mul_fin, Fl.mul_fin, hp, hq, Fl.add_fin, Fl.add_fin, hs, ht]
    unfold LatLon.new
    rw [normalise_id (by linarith [ep.1, ep.2, es.1, es.2]) (by linarith [ep.1, ep.2, es.1, es.2]),
      normalise_id (by linarith [eq.1, eq.2, et.1, et.2]) (by linarith [eq.1, eq.2, et.1, et.2])]
  rw [hval] at h
  simp only [Option.some.injEq, LatLon.mk.injEq, Fl.fin.injEq] at h
  obtain ⟨rfl, rfl⟩ := h
  unfold chartCell
  simp only
  constructor <;> rw [abs_le] <;> constructor <;> linarith [ep.1, ep.2, es.1, es.2, eq.1, eq.2, et.1, et.2]

/-- The points as the program places them: those with a missing coordinate far away. -/
theorem swiss_points {lat lon : Msg} {n : Nat} (ol : lat.ok) (on : lon.ok) (fl : PointField lat n) (fn : PointField lon n)
    (hlat : ∀ i q, i < n → physical lat i = some q → |q| ≤ 90) (hlon : ∀ i q, i < n → physical lon i = some q → |q| ≤ 178)
    {coords : List LatLon} (h : Grib2.getLatLonValues lat.doc lon.doc = .ok coords) :
    ∃ pts : List (Rat × Rat), pts.length = n ∧ coords = pts.map (fun c => ⟨.fin c.1, .fin c.2⟩) ∧
      (∀ c ∈ pts, |c.1| ≤ 106 ∧ |c.2| ≤ 17801 / 100) ∧
      ∀ i c, pts[i]? = some c → (position lat lon i = none → c.1 = -105 ∨ c.2 = -105) ∧
        ∀ q, position lat lon i = some q → |c.1 - q.1| ≤ 1 / 20000 ∧ |c.2 - q.2| ≤ 1 / 20000 := by
  unfold Grib2.getLatLonValues at h
  obtain ⟨lats, h1, h⟩ := bind_ok' h
  obtain ⟨lons, h2, h⟩ := bind_ok' h
  obtain ⟨l1, v1⟩ := values_of_field ol fl h1
  obtain ⟨l2, v2⟩ := values_of_field on fn h2
  rw [if_neg (by omega), if_neg (by omega)] at h
  cases h
  have missing : LatLon.normalise (.fin 255) = .fin (-105) := by decide +kernel
  have one : ∀ {msg : Msg} {vs : List Fl} {i : Nat} (B : Rat), B ≤ 178 → (∀ q, physical msg i = some q → |q| ≤ B) →
      ((physical msg i = none → vs[i]? = some (.fin 255)) ∧ ∀ q, physical msg i = some q →
        ∃ v : Rat, |v - q| ≤ |q| / 2 ^ 22 + 1 / 2 ^ 110 ∧ vs[i]? = some (id (.fin v))) →
      ∃ c : Rat, (vs[i]?).map LatLon.normalise = some (.fin c) ∧ (physical msg i = none → c = -105) ∧
        (|c| ≤ B + 1 / 100 ∨ c = -105) ∧ ∀ q, physical msg i = some q → |c - q| ≤ 1 / 20000 := by
    intro msg vs i B hB hq h
    cases hp : physical msg i with
    | none =>
      refine ⟨-105, ?_, fun _ => rfl, .inr rfl, by simp⟩
      rw [h.1 hp, Option.map_some, missing]
    | some q =>
      obtain ⟨v, v1, v2⟩ := h.2 q hp
      have hq := hq q hp
      have v1 := v1.trans (show _ ≤ (1 / 20000 : Rat) by linarith)
      have v1' := abs_le.mp v1
      have hq' := abs_le.mp hq
      refine ⟨v, ?_, by simp, .inl ?_, ?_⟩
      · rw [v2, Option.map_some]
        exact congrArg some (normalise_id (by linarith [v1'.1, hq'.1]) (by linarith [v1'.2, hq'.2]))
      · rw [abs_le]; constructor <;> linarith [v1'.1, v1'.2, hq'.1, hq'.2]
      · rintro _ ⟨⟩
        exact v1
  have each : ∀ i : Fin n, ∃ c : Rat × Rat, (List.zipWith LatLon.new lats lons)[(i : Nat)]? = some ⟨.fin c.1, .fin c.2⟩ ∧
      (|c.1| ≤ 106 ∧ |c.2| ≤ 17801 / 100) ∧ (position lat lon i = none → c.1 = -105 ∨ c.2 = -105) ∧
        ∀ q, position lat lon i = some q → |c.1 - q.1| ≤ 1 / 20000 ∧ |c.2 - q.2| ≤ 1 / 20000 := by
    intro i
    obtain ⟨a, a1, a2, a3, a4⟩ := one 90 (by norm_num) (hlat i · i.2) (v1 i i.2)
    obtain ⟨b, b1, b2, b3, b4⟩ := one 178 (by norm_num) (hlon i · i.2) (v2 i i.2)
    refine ⟨(a, b), ?_, ⟨?_, ?_⟩, ?_, ?_⟩
    · rw [Option.map_eq_some_iff] at a1 b1
      obtain ⟨a', e1, e2⟩ := a1
      obtain ⟨b', e3, e4⟩ := b1
      rw [List.getElem?_zipWith, e1, e3]
      simp only [LatLon.new, e2, e4]
    · rcases a3 with h | h
      · exact h.trans (by norm_num)
      · simp only [h]; norm_num
    · rcases b3 with h | h
      · exact h.trans (by norm_num)
      · simp only [h]; norm_num
    · unfold position
      cases hp : physical lat i with
      | none => exact fun _ => .inl (a2 hp)
      | some q =>
        cases hp' : physical lon i with
        | none => exact fun _ => .inr (b2 hp')
        | some q' => simp
    · unfold position
      cases hp : physical lat i with
      | none => simp
      | some q =>
        cases hp' : physical lon i with
        | none => simp
        | some q' =>
          rintro _ ⟨⟩
          exact ⟨a4 q hp, b4 q' hp'⟩
  choose pt hpt using each
  refine ⟨List.ofFn pt, by simp, ?_, ?_, ?_⟩
  · apply List.ext_getElem?
    intro i
    rw [List.getElem?_map, List.getElem?_ofFn]
    by_cases hi : i < n
    · rw [dif_pos hi, (hpt ⟨i, hi⟩).1]
      rfl
    · rw [dif_neg hi, List.getElem?_eq_none (by simp; omega)]
      rfl
  · intro c hc
    obtain ⟨i, rfl⟩ := (List.mem_ofFn' _ _).mp hc
    exact (hpt i).2.1
  · intro i c hc
    rw [List.getElem?_ofFn] at hc
    split at hc
    · next hi =>
      cases hc
      exact (hpt ⟨i, hi⟩).2.2
    · cases hc

/-- The grid read from the constants: each cell is assigned the point that is to be shown there. -/
theorem swiss_grid {w : World} {url : Text} {msgs : List Msg} {lat lon : Msg} {n : Nat} {grid : UnstructuredGrid}
    (hd : Delivers w url msgs) (h4 : msgs[4]? = some lat) (h3 : msgs[3]? = some lon) (fl : PointField lat n)
    (fn : PointField lon n) (hlat : ∀ i q, i < n → physical lat i = some q → |q| ≤ 90)
    (hlon : ∀ i q, i < n → physical lon i = some q → |q| ≤ 178) (h : Swiss.readHorConst w url = .ok grid) :
    UnstructuredGrid.WellSized grid ∧ grid.latLonGrid = swissGrid ∧ ∀ x y, x < 1851 → y < 847 →
      ∃ o, grid.coordDistMap[y * 1851 + x]? = some o ∧ Shows (position lat lon) n x y (o.map CoordDist.coordIndex) := by
  unfold Swiss.readHorConst at h
  have hne : msgs ≠ [] := by rintro rfl; simp at h4
  rw [hd.read hne, Res.bind_ok] at h
  obtain ⟨c, hc, h⟩ := bind_ok' h
  obtain ⟨c', hc', h⟩ := bind_ok' h
  have ec : c = lat.doc := by
    simp only [Res.index, List.getElem?_map, h4, Option.map_some, Res.ok.injEq] at hc
    exact hc.symm
  have ec' : c' = lon.doc := by
    simp only [Res.index, List.getElem?_map, h3, Option.map_some, Res.ok.injEq] at hc'
    exact hc'.symm
  subst ec ec'
  rw [swiss_extent, Res.bind_ok] at h
  obtain ⟨coords, hcs, h⟩ := bind_ok' h
  obtain ⟨g0, hg0, hmapped⟩ := bind_ok' h
  obtain ⟨pts, hlen, rfl, hbound, hpos⟩ := swiss_points (hd.ok lat (List.mem_of_getElem? h4)).1
    (hd.ok lon (List.mem_of_getElem? h3)).1 fl fn hlat hlon hcs
  rw [swiss_maxDist] at hmapped
  obtain ⟨g0', g', e0, e1, hg, -, hws, -⟩ := C23_nearest 1851 847 (by decide) (by decide) (by decide)
    (finExtent (1377239 / 32768) (-13589545 / 16777216) (101 / 2) (4639949 / 262144))
    (pts.map fun c => ⟨.fin c.1, .fin c.2⟩) (by
      intro c hm
      obtain ⟨c', -, rfl⟩ := List.mem_map.1 hm
      exact ⟨_, _, rfl⟩) (.fin (5368709 / 536870912)) (by rw [Fl.mul_fin]; exact rnd_ne_nan _ _)
  obtain ⟨g0'', g'', e0', e1', hcell⟩ := C23_nearest_geometric swiss_reasonable pts (d := 5368709 / 536870912)
    (by norm_num) (by norm_num) (by
      intro c hm
      obtain ⟨b1, b2⟩ := hbound c hm
      have b1 := abs_le.mp b1
      have b2 := abs_le.mp b2
      refine ⟨?_, ?_, ?_, ?_⟩ <;> linarith [b1.1, b1.2, b2.1, b2.2])
  rw [e0] at e0'
  cases e0'
  rw [e1] at e1'
  cases e1'
  have : Swiss.gridDims = (1851, 847) := rfl
  rw [this, e0] at hg0
  cases hg0
  rw [e1] at hmapped
  cases hmapped
  refine ⟨hws, hg, fun x y hx hy => ?_⟩
  obtain ⟨a, b, hcen, -, -, o, ho, hnone, hsome⟩ := hcell x y hx hy
  rw [hg] at hcen
  obtain ⟨ca, cb⟩ := swiss_centre hx hy hcen
  have hmap : grid.coordDistMap[y * 1851 + x]? = some o := by
    unfold UnstructuredGrid.getCoordDist LatLonGrid.getIndexByXY at ho
    have hdim : grid.latLonGrid.dimensions = (1851, 847) := by rw [hg]; rfl
    rw [hdim] at ho
    simp only at ho
    rw [if_neg (by simp; omega), if_neg (by omega), Res.bind_ok] at ho
    rw [show y * 1851 + x = x + y * 1851 by ring]
    change Res.index grid.coordDistMap (x + y * 1851) = .ok o at ho
    unfold Res.index at ho
    cases hv : grid.coordDistMap[x + y * 1851]? with
    | some v => rw [hv] at ho; cases ho; rfl
    | none => rw [hv] at ho; cases ho
  refine ⟨o, hmap, ?_⟩
  have hd2 : Fl.mul f32 (.fin (5368709 / 536870912)) (.fin (5368709 / 536870912)) = .fin (13743895 / 137438953472) := by
    decide +kernel
  rw [hd2] at hnone hsome
  have hlt : ∀ {k : Nat}, k < n → ∃ c, pts[k]? = some c := fun hk => ⟨_, List.getElem?_eq_getElem (by omega)⟩
  have ca' := abs_le.mp ca
  have cb' := abs_le.mp cb
  have hx' : (x : Rat) + 1 ≤ 1851 := by exact_mod_cast hx
  have hy' : (y : Rat) + 1 ≤ 847 := by exact_mod_cast hy
  have hx0 : (0 : Rat) ≤ x := by positivity
  have hy0 : (0 : Rat) ≤ y := by positivity
  have ab : 42 ≤ a ∧ a ≤ 51 ∧ -1 ≤ b ∧ b ≤ 18 := by
    unfold chartCell at ca' cb'
    simp only at ca' cb'
    refine ⟨?_, ?_, ?_, ?_⟩ <;> linarith [ca'.1, ca'.2, cb'.1, cb'.2]
  have hdist : ∀ c ∈ pts, ∃ D : Rat, LatLon.calcEuclideanDistSquared ⟨.fin c.1, .fin c.2⟩ ⟨.fin a, .fin b⟩ = .fin D ∧
      |Real.sqrt D - degrees c (a, b)| ≤ 1 / 2 ^ 21 * degrees c (a, b) + 1 / 2 ^ 60 := by
    intro c hm
    obtain ⟨b1, b2⟩ := hbound c hm
    have b1 := abs_le.mp b1
    have b2 := abs_le.mp b2
    refine dist_close (q := (a, b)) ?_ ?_ <;> simp only [abs_le] <;> constructor <;>
      linarith [b1.1, b1.2, b2.1, b2.2, ab.1, ab.2.1, ab.2.2.1, ab.2.2.2]
  have root : (9999 / 1000000 : Real) < Real.sqrt ((13743895 / 137438953472 : Rat) : Real) ∧
      Real.sqrt ((13743895 / 137438953472 : Rat) : Real) ≤ 10000 / 1000000 := by
    constructor
    · apply Real.lt_sqrt_of_sq_lt
      norm_num
    · rw [Real.sqrt_le_left (by norm_num)]
      norm_num
  have moved : ∀ {c q : Rat × Rat}, |c.1 - q.1| ≤ 1 / 20000 ∧ |c.2 - q.2| ≤ 1 / 20000 →
      degrees c (a, b) ≤ degrees q (chartCell x y) + 9 / 100000 ∧
      degrees q (chartCell x y) ≤ degrees c (a, b) + 9 / 100000 := by
    intro c q hcq
    have m1 := degrees_moved (q := (a, b)) hcq.1 hcq.2 ca cb
    have m2 := degrees_moved (q := chartCell x y) (q' := (a, b)) (p := q) (p' := c) (e := 1 / 20000) (f := 1 / 100000)
      (by rw [abs_sub_comm]; exact hcq.1) (by rw [abs_sub_comm]; exact hcq.2) (by rw [abs_sub_comm]; exact ca)
      (by rw [abs_sub_comm]; exact cb)
    norm_num at m1 m2 ⊢
    exact ⟨m1, m2⟩
  cases o with
  | none =>
    intro k q hk hq
    obtain ⟨c, hc⟩ := hlt hk
    have hmem := List.mem_of_getElem? hc
    have hgt := hnone.mp rfl c hmem
    obtain ⟨D, hD, eD⟩ := hdist c hmem
    rw [hD] at hgt
    have hDgt : (13743895 / 137438953472 : Rat) < D := by simpa [Fl.gt, Fl.lt] using hgt
    have hr : Real.sqrt ((13743895 / 137438953472 : Rat) : Real) ≤ Real.sqrt D :=
      Real.sqrt_le_sqrt (by exact_mod_cast hDgt.le)
    have eD := abs_le.mp eD
    have m := (moved ((hpos k c hc).2 q hq)).1
    have := degrees_nonneg c (a, b)
    push_cast
    linarith [eD.1, eD.2, root.1]
  | some cd =>
    obtain ⟨c, hc, e, hle, hbest⟩ := hsome cd rfl
    have hmem := List.mem_of_getElem? hc
    obtain ⟨D, hD, eD⟩ := hdist c hmem
    rw [e, hD] at hle hbest
    have hDle : D ≤ (13743895 / 137438953472 : Rat) := by simpa [Fl.le] using hle
    have hr : Real.sqrt D ≤ Real.sqrt ((13743895 / 137438953472 : Rat) : Real) :=
      Real.sqrt_le_sqrt (by exact_mod_cast hDle)
    have eD := abs_le.mp eD
    have hdeg : degrees c (a, b) ≤ 100001 / 10000000 := by linarith [eD.1, root.2, degrees_nonneg c (a, b)]
    have hi : cd.coordIndex < n := by
      by_contra hge
      rw [List.getElem?_eq_none (by omega)] at hc
      cases hc
    refine ⟨hi, ?_⟩
    cases hp : position lat lon cd.coordIndex with
    | none =>
      exfalso
      have hfar := (hpos _ c hc).1 hp
      have : (1 : Real) ≤ degrees c (a, b) := by
        unfold degrees
        apply Real.le_sqrt_of_sq_le
        have : (1 : Rat) ≤ (c.1 - a) ^ 2 + (c.2 - b) ^ 2 := by
          rcases hfar with hf | hf
          · rw [hf]
            nlinarith [sq_nonneg (c.2 - b), ab.1]
          · rw [hf]
            nlinarith [sq_nonneg (c.1 - a), ab.2.2.1]
        have := (Rat.cast_le (K := Real)).mpr this
        push_cast at this ⊢
        linarith
      linarith
    | some p =>
      obtain ⟨m1, m2⟩ := moved ((hpos _ c hc).2 p hp)
      refine ⟨p, rfl, ?_, ?_⟩
      · push_cast
        linarith
      · intro k q hk hq
        obtain ⟨c', hc'⟩ := hlt hk
        have hmem' := List.mem_of_getElem? hc'
        obtain ⟨D', hD', eD'⟩ := hdist c' hmem'
        have hle' := (hbest k c' hc').1
        rw [hD'] at hle'
        have hDD : D ≤ D' := by simpa [Fl.le] using hle'
        have hr' : Real.sqrt D ≤ Real.sqrt D' := Real.sqrt_le_sqrt (by exact_mod_cast hDD)
        have eD' := abs_le.mp eD'
        obtain ⟨m3, m4⟩ := moved ((hpos _ c' hc').2 q hq)
        push_cast
        rcases le_or_gt (degrees c' (a, b)) 1 with h1 | h1
        · linarith [eD.1, eD'.2]
        · linarith

/-! ## Regular grids -/

/-- The point that a cell of the grid shows. -/
def pointOf (grid : UnstructuredGrid) (x y : Nat) : Option Nat :=
  (grid.coordDistMap[y * 1851 + x]?).join.map CoordDist.coordIndex

/-- The grid of the MeteoSwiss charts for points with these positions. -/
structure Placed (grid : UnstructuredGrid) (lat lon : Msg) (n : Nat) : Prop where
  sized : UnstructuredGrid.WellSized grid
  regular : grid.latLonGrid = swissGrid
  shows : ∀ x y, x < 1851 → y < 847 → Shows (position lat lon) n x y (pointOf grid x y)
  mapped : ∀ x y, x < 1851 → y < 847 → ∃ o, grid.coordDistMap[y * 1851 + x]? = some o

/-- The file of horizontal constants has latitudes and longitudes of `n` points as its fifth and fourth message, with
possible latitudes and not within two degrees of the date line. -/
structure Constants (w : World) (url : Text) (lat lon : Msg) (n : Nat) : Prop where
  there : ∃ msgs, Delivers w url msgs ∧ msgs[4]? = some lat ∧ msgs[3]? = some lon
  latField : PointField lat n
  lonField : PointField lon n
  lats : ∀ i q, i < n → physical lat i = some q → |q| ≤ 90
  lons : ∀ i q, i < n → physical lon i = some q → |q| ≤ 178

theorem placed {w : World} {url : Text} {lat lon : Msg} {n : Nat} {grid : UnstructuredGrid}
    (hc : Constants w url lat lon n) (h : Swiss.readHorConst w url = .ok grid) : Placed grid lat lon n := by
  obtain ⟨msgs, hd, h4, h3⟩ := hc.there
  obtain ⟨h1, h2, h3⟩ := swiss_grid hd h4 h3 hc.latField hc.lonField hc.lats hc.lons h
  refine ⟨h1, h2, fun x y hx hy => ?_, fun x y hx hy => (h3 x y hx hy).imp fun _ h => h.1⟩
  obtain ⟨o, ho, hs⟩ := h3 x y hx hy
  unfold pointOf
  rw [ho]
  exact hs

/-- The number shown in a cell. -/
def shown (grid : UnstructuredGrid) (msg : Msg) (x y : Nat) : Option Rat := (pointOf grid x y).bind (physical msg)

theorem converted {T : Type} {grid : UnstructuredGrid} {lat lon msg : Msg} {n : Nat} (hg : Placed grid lat lon n)
    (hok : msg.ok) (hf : PointField msg n) {missing : T} {f : Fl → T} {G : LatLonValueGrid T}
    (h : Grib2.convertUnstructured missing f grid msg.doc = .ok G) :
    Filled G 1851 847 ∧ G.missingValue = missing ∧ ∀ x y, x < 1851 → y < 847 →
      (shown grid msg x y = none → G.values[y * 1851 + x]? = some missing) ∧
      ∀ q, shown grid msg x y = some q →
        ∃ v : Rat, |v - q| ≤ |q| / 2 ^ 22 + 1 / 2 ^ 110 ∧ G.values[y * 1851 + x]? = some (f (.fin v)) := by
  unfold Grib2.convertUnstructured at h
  obtain ⟨vs, hvs, h⟩ := bind_ok' h
  obtain ⟨G', hG, h⟩ := bind_ok' h
  cases h
  obtain ⟨hl, hv⟩ := values_of_field hok hf hvs
  have hdim : grid.latLonGrid.dimensions = (1851, 847) := by rw [hg.regular]; rfl
  obtain ⟨r, e, r1, -, r3, r4, r5⟩ := C25_regrid (⟨grid, vs, missing⟩ : UnstructuredValueGrid T) hg.sized
  rw [e] at hG
  cases hG
  simp only [hdim] at r1 r4 r5
  refine ⟨⟨r1, by norm_num, r4⟩, r3, fun x y hx hy => ?_⟩
  obtain ⟨o, ho, hval⟩ := r5 x y hx hy
  have hsh := hg.shows x y hx hy
  have hpt : pointOf grid x y = o.map CoordDist.coordIndex := by unfold pointOf; rw [ho]; rfl
  unfold shown
  rw [hpt] at hsh ⊢
  cases o with
  | none => exact ⟨fun _ => hval, fun q hq => by simp at hq⟩
  | some cd =>
    have hi : cd.coordIndex < n := hsh.1
    obtain ⟨v1, v2⟩ := hv _ hi
    simp only [Option.map_some, Option.bind_some]
    simp only at hval
    rw [hval]
    refine ⟨fun hq => ?_, fun q hq => ?_⟩
    · rw [List.getD_eq_getElem?_getD, v1 hq]; rfl
    · obtain ⟨v, a, b⟩ := v2 q hq
      exact ⟨v, a, by rw [List.getD_eq_getElem?_getD, b]; rfl⟩

/-- A single level field. -/
theorem holds_of_file {w : World} {grid : UnstructuredGrid} {lat lon msg : Msg} {n : Nat} (hg : Placed grid lat lon n)
    {st : RunStep} {rest : List Msg} (hd : Delivers w st.url (msg :: rest)) (hf : PointField msg n)
    {G : LatLonValueGrid Fl} (h : Swiss.readGrid w grid id st = .ok G) : Holds G 1851 847 (shown grid msg) := by
  unfold Swiss.readGrid World.readUnstructured at h
  rw [hd.readFirst, Res.bind_ok] at h
  obtain ⟨h1, h2, h3⟩ := converted hg (hd.ok msg (by simp)).1 hf h
  refine ⟨h1, fun x y hx hy => ?_⟩
  obtain ⟨a, b⟩ := h3 x y hx hy
  unfold cell
  rw [h2]
  constructor
  · intro hq
    rw [a hq]
    rfl
  · intro q hq
    obtain ⟨v, v1, v2⟩ := b q hq
    refine ⟨v, v1, ?_⟩
    rw [v2]
    show (if Fl.feq (.fin v) (.fin (-1)) = true then _ else _) = _
    simp only [id, Fl.feq, decide_eq_true_eq]

theorem filled_of_file {w : World} {grid : UnstructuredGrid} {lat lon msg : Msg} {n : Nat} (hg : Placed grid lat lon n)
    {st : RunStep} {rest : List Msg} (hd : Delivers w st.url (msg :: rest)) (hf : PointField msg n) {f : Fl → Fl}
    {G : LatLonValueGrid Fl} (h : Swiss.readGrid w grid f st = .ok G) : Filled G 1851 847 := by
  unfold Swiss.readGrid World.readUnstructured at h
  rw [hd.readFirst, Res.bind_ok] at h
  exact (converted hg (hd.ok msg (by simp)).1 hf h).1

/-- Fields on levels: the messages 32 to 80 of the file. -/
theorem levels_of_file {w : World} {grid : UnstructuredGrid} {lat lon : Msg} {n : Nat} (hg : Placed grid lat lon n)
    {url : Text} {msgs : List Msg} (hd : Delivers w url msgs) (hlen : 80 ≤ msgs.length)
    (hf : ∀ k msg, 31 ≤ k → k ≤ 79 → msgs[k]? = some msg → PointField msg n) {missing : UInt8} {f : Fl → UInt8}
    {gs : List (LatLonValueGrid UInt8)} (h : w.readMultiUnstructured url missing f grid (some Swiss.levels) = .ok gs) :
    LevelsHold gs missing f 49 1851 847 fun k x y => (msgs[31 + k]?).bind fun msg => shown grid msg x y := by
  unfold World.readMultiUnstructured at h
  rw [hd.read (by rintro rfl; simp at hlen), Res.bind_ok] at h
  change Grib2.convertMulti _ _ _ _ (some (31, 79)) = _ at h
  obtain ⟨h1, h2⟩ := (C14_result _ _ _ _ _ _ _).mp h
  rw [List.length_map] at h1
  refine ⟨by omega, fun k hk => ?_⟩
  have hlt : k < gs.length := by omega
  refine ⟨gs[k], List.getElem?_eq_getElem hlt, ?_⟩
  obtain ⟨d, hdoc, hc⟩ := h2 k _ (List.getElem?_eq_getElem hlt)
  rw [List.getElem?_map, Option.map_eq_some_iff] at hdoc
  obtain ⟨msg, hm, rfl⟩ := hdoc
  obtain ⟨c1, c2, c3⟩ := converted hg (hd.ok msg (List.mem_of_getElem? hm)).1 (hf _ msg (by omega) (by omega) hm) hc
  refine ⟨c1, fun x y hx hy => ?_⟩
  simp only [hm, Option.bind_some]
  obtain ⟨a, b⟩ := c3 x y hx hy
  unfold cell
  rw [c2]
  constructor
  · intro hq
    rw [a hq]
    simp [GridValue.eq]
  · intro q hq
    obtain ⟨v, v1, v2⟩ := b q hq
    refine ⟨v, v1, ?_⟩
    rw [v2]
    simp [GridValue.eq]

/-! ## Runs -/

/-- The bytes that a successful run leaves in a meteobin file. -/
theorem bin_of_swiss {m : Libm} {w : World} {s : Swiss.Service} {cal : Swiss.Calendar} {dirs : Text → Bool}
    {vars : List Text} {filter : List Nat} {grid : UnstructuredGrid} {vertUrl : Text} {t : Instant} {tr : List Write}
    (h : Swiss.renderRun m w s cal dirs vars filter grid vertUrl t tr .done) {v : LayerType} (hv : ChosenVar vars v)
    (hw : v ≠ .weather) {steps : List RunStep} (hs : swissSteps s t v = .ok steps) {st : RunStep} (hst : st ∈ steps)
    (hc : Chosen filter st) :
    ∃ run l, Swiss.forecastRun cal t = .ok run ∧ swissLayers w s grid vertUrl t v st = .ok l ∧
      CanDraw m run.model.zoomRange l ∧
      ∀ (before : Tree) (out : Output) (c : Content), FileOf m run.model.zoomRange l out c →
        before.write tr (out.path run st.nr) = some c := by
  obtain ⟨run, steps', e1, e2, h3⟩ := C90_swiss m w s cal dirs vars filter grid vertUrl t tr h v hv hw
  rw [hs] at e2
  cases e2
  obtain ⟨l, hl, hd⟩ := h3 st hst hc
  exact ⟨run, l, e1, hl, hd, fun before out c hf =>
    (C87_swiss_files m w s cal dirs vars filter grid vertUrl t tr h before _).1 c
      ⟨v, hv, run, steps, e1, hs, st, hst, hc, l, hl, out, hf, rfl⟩⟩

theorem steps_numbered {s : Swiss.Service} {t : Instant} {x : Swiss.Variable} {skip : Bool} {steps : List RunStep}
    (h : Swiss.steps s t x skip = .ok steps) : Numbered steps := by
  unfold Swiss.steps at h
  obtain ⟨_, _, h⟩ := bind_ok' h
  obtain ⟨files, _, h⟩ := bind_ok' h
  cases h
  exact C53_swiss_numbered files skip

theorem getStep_of_mem {steps : List RunStep} (hn : Numbered steps) {st : RunStep} (h : st ∈ steps) {k : Nat}
    (hk : st.nr = k) : getStepByNr steps k = .ok st := by
  subst hk
  unfold getStepByNr
  cases hf : steps.find? (fun s => s.nr == st.nr) with
  | none =>
    rw [List.find?_eq_none] at hf
    exact absurd (hf st h) (by simp)
  | some st' =>
    have h1 := List.mem_of_find?_eq_some hf
    have h2 := List.find?_some hf
    simp only [beq_iff_eq] at h2
    rw [hn st' h1 st h h2]
    rfl

/-- C98: if a MeteoSwiss run is rendered successfully with temperature and step selected, the file of constants has
positions and the file of the step has temperatures, then the meteobin file has one byte for each cell of the chart:
255 if no point is near or the temperature there is missing, and else, from -63.99 to 62.99 degrees Celsius, a byte
that gives the temperature of the nearest point to within a quarter of a degree (plus 0.002). -/
theorem C98_temperature (m : Libm) (w : World) (s : Swiss.Service) (cal : Swiss.Calendar) (dirs : Text → Bool)
    (vars : List Text) (filter : List Nat) (hor vertUrl : Text) (grid : UnstructuredGrid) (t : Instant) (tr : List Write)
    (h : Swiss.renderRun m w s cal dirs vars filter grid vertUrl t tr .done)
    (hg : Swiss.readHorConst w hor = .ok grid) (lat lon : Msg) (n : Nat) (hk : Constants w hor lat lon n)
    (hv : ChosenVar vars .temp2m) (steps : List RunStep) (hs : Swiss.steps s t .t2m false = .ok steps)
    (st : RunStep) (hst : st ∈ steps) (hc : Chosen filter st)
    (msg : Msg) (more : List Msg) (hd : Delivers w st.url (msg :: more)) (hf : PointField msg n) (before : Tree) :
    ∃ run bytes, Swiss.forecastRun cal t = .ok run ∧
      before.write tr (binPath run st.nr .temp2m) = some (.bytes bytes) ∧ bytes.length = 1851 * 847 ∧
      ∀ x y, x < 1851 → y < 847 → ∃ (o : Option Nat) (b : UInt8), Shows (position lat lon) n x y o ∧
        bytes[y * 1851 + x]? = some b ∧ (o.bind (physical msg) = none → b = 255) ∧
        ∀ k, o.bind (physical msg) = some k → -6399 / 100 ≤ k - 27315 / 100 → k - 27315 / 100 ≤ 6299 / 100 →
          b ≠ 255 ∧ |((b.toNat : Rat) - 128) / 2 - (k - 27315 / 100)| ≤ 1 / 4 + 2 / 1000 := by
  obtain ⟨run, l, e1, hl, _, hfile⟩ := bin_of_swiss h hv (by simp) hs hst hc
  simp only [swissLayers, hs, Res.bind_ok, Res.bind_eq_ok, Res.ok.injEq] at hl
  obtain ⟨L, hL, rfl⟩ := hl
  unfold Swiss.readTemp at hL
  rw [getStep_of_mem (steps_numbered hs) hst rfl] at hL
  obtain ⟨G, hG, hL⟩ := bind_ok' (r := Swiss.readGrid w grid id st) hL
  cases hL
  have hp := placed hk hg
  obtain ⟨bytes, b1, b2, b3⟩ := temp_bytes (holds_of_file hp hd hf hG)
  refine ⟨run, bytes, e1, hfile before (.bin .temp2m) _ (.temp b1), b2, fun x y hx hy => ?_⟩
  obtain ⟨b, c⟩ := b3 x y hx hy
  exact ⟨_, b, hp.shows x y hx hy, c⟩

/-- C99: likewise for precipitation: the byte of a cell gives the difference of the totals of the steps n and n-1 at
the nearest point. -/
theorem C99_precipitation (m : Libm) (w : World) (s : Swiss.Service) (cal : Swiss.Calendar) (dirs : Text → Bool)
    (vars : List Text) (filter : List Nat) (hor vertUrl : Text) (grid : UnstructuredGrid) (t : Instant) (tr : List Write)
    (h : Swiss.renderRun m w s cal dirs vars filter grid vertUrl t tr .done)
    (hg : Swiss.readHorConst w hor = .ok grid) (lat lon : Msg) (n : Nat) (hk : Constants w hor lat lon n)
    (hv : ChosenVar vars .cloudPrecip) (steps totals : List RunStep) (hs : Swiss.steps s t .clct true = .ok steps)
    (hs' : Swiss.steps s t .totPrec false = .ok totals) (st st0 st1 : RunStep) (hst : st ∈ steps)
    (h0 : st0 ∈ totals) (h1 : st1 ∈ totals) (e0 : st0.nr + 1 = st.nr) (e1 : st1.nr = st.nr) (hc : Chosen filter st)
    (clct total0 total1 : Msg) (more more0 more1 : List Msg)
    (hd : Delivers w st.url (clct :: more)) (hf : PointField clct n)
    (hd0 : Delivers w st0.url (total0 :: more0)) (hf0 : PointField total0 n)
    (hd1 : Delivers w st1.url (total1 :: more1)) (hf1 : PointField total1 n) (before : Tree) :
    ∃ run bytes, Swiss.forecastRun cal t = .ok run ∧
      before.write tr (binPath run st.nr .precip) = some (.bytes bytes) ∧ bytes.length = 1851 * 847 ∧
      ∀ x y, x < 1851 → y < 847 → ∃ o : Option Nat, Shows (position lat lon) n x y o ∧
        ∀ t0 t1, o.bind (physical total0) = some t0 → o.bind (physical total1) = some t1 →
        0 ≤ t0 → t1 ≤ 1000 → t0 ≤ t1 → t1 - t0 ≤ 126 → ∃ b : UInt8, bytes[y * 1851 + x]? = some b ∧ b ≠ 255 ∧
          (201 / 1000 ≤ t1 - t0 → t1 - t0 ≤ 499 / 1000 → b = 1) ∧
          (t1 - t0 ≤ 199 / 1000 ∨ 501 / 1000 ≤ t1 - t0 → |(b.toNat : Rat) / 2 - (t1 - t0)| ≤ 1 / 4 + 2 / 1000) := by
  obtain ⟨run, l, e, hl, _, hfile⟩ := bin_of_swiss h hv (by simp) hs hst hc
  simp only [swissLayers, hs, hs', Res.bind_ok, Res.bind_eq_ok, Res.ok.injEq] at hl
  obtain ⟨_, _, L, hL, _, _, rfl⟩ := hl
  unfold Swiss.readCloudPrecip at hL
  rw [cloudPrecipSteps_ok (by omega) (getStep_of_mem (steps_numbered hs) hst rfl)
    (getStep_of_mem (steps_numbered hs') h0 (by omega)) (getStep_of_mem (steps_numbered hs') h1 e1), Res.bind_ok] at hL
  obtain ⟨C, hC, hL⟩ := bind_ok' hL
  obtain ⟨P0, hP0, hL⟩ := bind_ok' hL
  obtain ⟨P1, hP1, hL⟩ := bind_ok' hL
  obtain rfl := cloudPrecip_new hL
  have hp := placed hk hg
  obtain ⟨bytes, b1, b2, b3⟩ := precip_bytes (filled_of_file hp hd hf hC) (holds_of_file hp hd0 hf0 hP0)
    (holds_of_file hp hd1 hf1 hP1)
  refine ⟨run, bytes, e, hfile before (.bin .precip) _ (.precip b1), b2, fun x y hx hy => ?_⟩
  exact ⟨_, hp.shows x y hx hy, b3 x y hx hy⟩

/-- C100, the part that holds: likewise for wind: three bytes for each cell give the components of the wind and the
gusts at the nearest point.  Missing: components of -1 m/s, which are taken for missing values as for the other
models (C94_counterexample). -/
theorem C100_wind_partial (m : Libm) (w : World) (s : Swiss.Service) (cal : Swiss.Calendar) (dirs : Text → Bool)
    (vars : List Text) (filter : List Nat) (hor vertUrl : Text) (grid : UnstructuredGrid) (t : Instant) (tr : List Write)
    (h : Swiss.renderRun m w s cal dirs vars filter grid vertUrl t tr .done)
    (hg : Swiss.readHorConst w hor = .ok grid) (lat lon : Msg) (n : Nat) (hk : Constants w hor lat lon n)
    (hv : ChosenVar vars .wind10m) (us vs gs : List RunStep) (hu : Swiss.steps s t .u10m false = .ok us)
    (hvs : Swiss.steps s t .v10m false = .ok vs) (hgs : Swiss.steps s t .vmax10m false = .ok gs)
    (st stv stg : RunStep) (hst : st ∈ us) (hstv : stv ∈ vs) (hstg : stg ∈ gs) (ev : stv.nr = st.nr) (eg : stg.nr = st.nr)
    (hc : Chosen filter st) (mu mv mg : Msg) (more more' more'' : List Msg)
    (hdu : Delivers w st.url (mu :: more)) (hfu : PointField mu n)
    (hdv : Delivers w stv.url (mv :: more')) (hfv : PointField mv n)
    (hdg : Delivers w stg.url (mg :: more'')) (hfg : PointField mg n) (before : Tree) :
    ∃ run bytes, Swiss.forecastRun cal t = .ok run ∧
      before.write tr (binPath run st.nr .wind10m) = some (.bytes bytes) ∧ bytes.length = 1851 * 847 * 3 ∧
      ∀ x y, x < 1851 → y < 847 → ∃ (o : Option Nat) (bu bv bg : UInt8), Shows (position lat lon) n x y o ∧
        bytes[(y * 1851 + x) * 3]? = some bu ∧ bytes[(y * 1851 + x) * 3 + 1]? = some bv ∧
        bytes[(y * 1851 + x) * 3 + 2]? = some bg ∧
        ((o.bind (physical mu) = none ∨ o.bind (physical mv) = none) → bu = 255 ∧ bv = 255 ∧ bg = 255) ∧
        ∀ u v, o.bind (physical mu) = some u → o.bind (physical mv) = some v → |u| ≤ 60 → |v| ≤ 60 →
          1 / 1000 < |u + 1| → 1 / 1000 < |v + 1| →
          bu ≠ 255 ∧ |(bu.toNat : Rat) - 128 - u * (194384 / 100000)| ≤ 1 / 2 + 2 / 100 ∧
          bv ≠ 255 ∧ |(bv.toNat : Rat) - 128 - v * (194384 / 100000)| ≤ 1 / 2 + 2 / 100 ∧
          (o.bind (physical mg) = none → bg = 255) ∧
          ∀ g, o.bind (physical mg) = some g → 0 ≤ g → g ≤ 130 →
            bg ≠ 255 ∧ |(bg.toNat : Rat) - g * (194384 / 100000)| ≤ 1 / 2 + 2 / 100 := by
  obtain ⟨run, l, e, hl, _, hfile⟩ := bin_of_swiss h hv (by simp) hu hst hc
  simp only [swissLayers, hu, hvs, hgs, Res.bind_ok, Res.bind_eq_ok, Res.ok.injEq] at hl
  obtain ⟨L, hL, rfl⟩ := hl
  unfold Swiss.readWind at hL
  rw [getStep_of_mem (steps_numbered hu) hst rfl, getStep_of_mem (steps_numbered hvs) hstv ev,
    getStep_of_mem (steps_numbered hgs) hstg eg] at hL
  simp only [Res.bind_ok] at hL
  obtain ⟨U, hU, hL⟩ := bind_ok' hL
  obtain ⟨V, hV, hL⟩ := bind_ok' hL
  obtain ⟨G, hG, hL⟩ := bind_ok' hL
  obtain rfl := wind_new hL
  have hp := placed hk hg
  obtain ⟨bytes, b1, b2, b3⟩ := wind_bytes (holds_of_file hp hdu hfu hU) (holds_of_file hp hdv hfv hV)
    (holds_of_file hp hdg hfg hG)
  refine ⟨run, bytes, e, hfile before (.bin .wind10m) _ (.wind b1), b2, fun x y hx hy => ?_⟩
  obtain ⟨bu, bv, bg, c⟩ := b3 x y hx hy
  exact ⟨_, bu, bv, bg, hp.shows x y hx hy, c⟩

/-- C101, the part that holds: the file of vertical clouds has, for each cell and each of the 49 levels, a byte for the
height and a byte for the cloud cover at the nearest point; level `k` is message number `31 + k` (from 0) of the two
files.  Missing: covers below 1 percent and heights below 100 or above 25500 feet, which are written as 255 (the last
clauses). -/
theorem C101_clouds_partial (m : Libm) (w : World) (s : Swiss.Service) (cal : Swiss.Calendar) (dirs : Text → Bool)
    (vars : List Text) (filter : List Nat) (hor vertUrl : Text) (grid : UnstructuredGrid) (t : Instant) (tr : List Write)
    (h : Swiss.renderRun m w s cal dirs vars filter grid vertUrl t tr .done)
    (hg : Swiss.readHorConst w hor = .ok grid) (lat lon : Msg) (n : Nat) (hk : Constants w hor lat lon n)
    (hv : ChosenVar vars .verticalCloud) (steps : List RunStep) (hs : Swiss.steps s t .clc false = .ok steps)
    (st : RunStep) (hst : st ∈ steps) (hc : Chosen filter st) (heights covers : List Msg)
    (hdh : Delivers w vertUrl heights) (hlh : 80 ≤ heights.length)
    (hfh : ∀ k msg, 31 ≤ k → k ≤ 79 → heights[k]? = some msg → PointField msg n)
    (hdc : Delivers w st.url covers) (hlc : 80 ≤ covers.length)
    (hfc : ∀ k msg, 31 ≤ k → k ≤ 79 → covers[k]? = some msg → PointField msg n) (before : Tree) :
    ∃ run bytes, Swiss.forecastRun cal t = .ok run ∧
      before.write tr (binPath run st.nr .verticalClouds) = some (.bytes bytes) ∧
      bytes.length = 1851 * 847 * (49 * 2) ∧
      ∀ x y, x < 1851 → y < 847 → ∃ o : Option Nat, Shows (position lat lon) n x y o ∧
        ∀ k height cover, k < 49 → heights[31 + k]? = some height → covers[31 + k]? = some cover → ∃ bh bc : UInt8,
        bytes[((y * 1851 + x) * 49 + k) * 2]? = some bh ∧ bytes[((y * 1851 + x) * 49 + k) * 2 + 1]? = some bc ∧
        (o.bind (physical height) = none → bh = 255) ∧ (o.bind (physical cover) = none → bc = 255) ∧
        (∀ q, o.bind (physical height) = some q →
          (1001 / 10 ≤ q * (328084 / 100000) → q * (328084 / 100000) ≤ 25499 → bh ≠ 255 ∧
            q * (328084 / 100000) - 100 - 1 / 10 ≤ bh.toNat * 100 ∧
            (bh.toNat : Rat) * 100 ≤ q * (328084 / 100000) + 1 / 10) ∧
          (0 ≤ q → q * (328084 / 100000) ≤ 999 / 10 ∨ 25501 ≤ q * (328084 / 100000) → q ≤ 100000 → bh = 255)) ∧
        ∀ q, o.bind (physical cover) = some q →
          (1001 / 1000 ≤ q → q ≤ 254 → bc ≠ 255 ∧ q - 1 - 1 / 1000 ≤ bc.toNat ∧ (bc.toNat : Rat) ≤ q + 1 / 1000) ∧
          (0 ≤ q → q ≤ 999 / 1000 → bc = 255) := by
  obtain ⟨run, l, e, hl, _, hfile⟩ := bin_of_swiss h hv (by simp) hs hst hc
  simp only [swissLayers, hs, Res.bind_ok, Res.bind_eq_ok, Res.ok.injEq] at hl
  obtain ⟨H, hH, L, hL, rfl⟩ := hl
  unfold Swiss.readVerticalCloud at hL
  rw [getStep_of_mem (steps_numbered hs) hst rfl] at hL
  obtain ⟨C, hC, hL⟩ := bind_ok' (r := w.readMultiUnstructured st.url 0 clcByte grid (some Swiss.levels)) hL
  obtain rfl := verticalCloud_new hL
  have hp := placed hk hg
  obtain ⟨bytes, b1, b2, b3⟩ := cloud_bytes (by norm_num) (levels_of_file hp hdh hlh hfh hH)
    (levels_of_file hp hdc hlc hfc hC)
  refine ⟨run, bytes, e, hfile before (.bin .verticalClouds) _ (.verticalCloud b1), b2, fun x y hx hy => ?_⟩
  refine ⟨_, hp.shows x y hx hy, fun k height cover hk e1 e2 => ?_⟩
  have := b3 x y k hx hy hk
  simp only [e1, e2, Option.bind_some] at this
  exact this

/-- C102: the file of vertical wind has, for each cell and each of the 49 levels, a byte for the height and two for the
components of the wind at the nearest point. -/
theorem C102_wind (m : Libm) (w : World) (s : Swiss.Service) (cal : Swiss.Calendar) (dirs : Text → Bool)
    (vars : List Text) (filter : List Nat) (hor vertUrl : Text) (grid : UnstructuredGrid) (t : Instant) (tr : List Write)
    (h : Swiss.renderRun m w s cal dirs vars filter grid vertUrl t tr .done)
    (hg : Swiss.readHorConst w hor = .ok grid) (lat lon : Msg) (n : Nat) (hk : Constants w hor lat lon n)
    (hv : ChosenVar vars .verticalWind) (us vs : List RunStep) (hus : Swiss.steps s t .u false = .ok us)
    (hvs : Swiss.steps s t .v false = .ok vs) (st stv : RunStep) (hst : st ∈ us) (hstv : stv ∈ vs)
    (ev : stv.nr = st.nr) (hc : Chosen filter st) (heights mus mvs : List Msg)
    (hdh : Delivers w vertUrl heights) (hlh : 80 ≤ heights.length)
    (hfh : ∀ k msg, 31 ≤ k → k ≤ 79 → heights[k]? = some msg → PointField msg n)
    (hdu : Delivers w st.url mus) (hlu : 80 ≤ mus.length)
    (hfu : ∀ k msg, 31 ≤ k → k ≤ 79 → mus[k]? = some msg → PointField msg n)
    (hdv : Delivers w stv.url mvs) (hlv : 80 ≤ mvs.length)
    (hfv : ∀ k msg, 31 ≤ k → k ≤ 79 → mvs[k]? = some msg → PointField msg n) (before : Tree) :
    ∃ run bytes, Swiss.forecastRun cal t = .ok run ∧
      before.write tr (binPath run st.nr .verticalWind) = some (.bytes bytes) ∧
      bytes.length = 1851 * 847 * (49 * 3) ∧
      ∀ x y, x < 1851 → y < 847 → ∃ o : Option Nat, Shows (position lat lon) n x y o ∧
        ∀ k height mu mv, k < 49 → heights[31 + k]? = some height → mus[31 + k]? = some mu → mvs[31 + k]? = some mv →
        ∃ bh bu bv : UInt8, bytes[((y * 1851 + x) * 49 + k) * 3]? = some bh ∧
        bytes[((y * 1851 + x) * 49 + k) * 3 + 1]? = some bu ∧ bytes[((y * 1851 + x) * 49 + k) * 3 + 2]? = some bv ∧
        (o.bind (physical height) = none → bh = 255) ∧
        (∀ q, o.bind (physical height) = some q → 1001 / 10 ≤ q * (328084 / 100000) →
          q * (328084 / 100000) ≤ 25499 → bh ≠ 255 ∧ q * (328084 / 100000) - 100 - 1 / 10 ≤ bh.toNat * 100 ∧
            (bh.toNat : Rat) * 100 ≤ q * (328084 / 100000) + 1 / 10) ∧
        (bu = 255 ↔ o.bind (physical mu) = none ∨ o.bind (physical mv) = none) ∧
        (bv = 255 ↔ o.bind (physical mu) = none ∨ o.bind (physical mv) = none) ∧
        ∀ u v, o.bind (physical mu) = some u → o.bind (physical mv) = some v →
          (|u| ≤ 60 → |(bu.toNat : Rat) - 128 - u * (194384 / 100000)| ≤ 1 / 2 + 2 / 100) ∧
          (|v| ≤ 60 → |(bv.toNat : Rat) - 128 - v * (194384 / 100000)| ≤ 1 / 2 + 2 / 100) := by
  obtain ⟨run, l, e, hl, _, hfile⟩ := bin_of_swiss h hv (by simp) hus hst hc
  simp only [swissLayers, hus, hvs, Res.bind_ok, Res.bind_eq_ok, Res.ok.injEq] at hl
  obtain ⟨H, hH, L, hL, rfl⟩ := hl
  unfold Swiss.readVerticalWind at hL
  rw [getStep_of_mem (steps_numbered hus) hst rfl, getStep_of_mem (steps_numbered hvs) hstv ev] at hL
  obtain ⟨U, hU, hL⟩ := bind_ok' (r := w.readMultiUnstructured st.url 255 uvByte grid (some Swiss.levels)) hL
  obtain ⟨V, hV, hL⟩ := bind_ok' hL
  obtain rfl := verticalWind_new hL
  have hp := placed hk hg
  obtain ⟨bytes, b1, b2, b3⟩ := verticalWind_bytes (by norm_num) (levels_of_file hp hdh hlh hfh hH)
    (levels_of_file hp hdu hlu hfu hU) (levels_of_file hp hdv hlv hfv hV)
  refine ⟨run, bytes, e, hfile before (.bin .verticalWind) _ (.verticalWind b1), b2, fun x y hx hy => ?_⟩
  refine ⟨_, hp.shows x y hx hy, fun k height mu mv hk e1 e2 e3 => ?_⟩
  have := b3 x y k hx hy hk
  simp only [e1, e2, e3, Option.bind_some] at this
  exact this

end Verif.Props
