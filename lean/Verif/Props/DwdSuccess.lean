import Verif.Props.EndToEndDemo
import Verif.Props.Rows

/-!
# C105: a DWD run that is published completely is rendered
-/

namespace Verif.Props

open Verif MapTileRenderer Dwd
open Verif.Spec (Filled cell AccurateRow exists_accurateRow)
open Verif.Spec.Grib2 (Msg encode angleValue)
open Verif.Spec.Decode (rank present bitmapCovers)

/-! ## What is published -/

/-- An area, in millionths of a degree; west of Greenwich is negative. -/
structure Area where
  south : Nat
  north : Nat
  west : Int
  east : Int

/-- The area is on the northern hemisphere, up to 75 degrees, and does not reach the date line. -/
structure Area.Valid (a : Area) : Prop where
  lat : a.south ≤ a.north
  top : a.north ≤ 75000000
  left : -180000000 ≤ a.west
  lon : a.west ≤ a.east
  right : a.east ≤ 179900000

/-- Longitudes of messages count from 0 to 360 degrees. -/
def eastward (lon : Int) : Nat := (lon % 360000000).toNat

/-- The message holds values for all points of a regular grid of the area, and none of the values is lacking in the
data section. -/
structure FullArea (msg : Msg) (a : Area) (ni nj : Nat) : Prop extends Field msg ni nj where
  corners : ∀ g, msg.grid = .latLon g →
    g.la1 = a.south ∧ g.la2 = a.north ∧ g.lo1 = eastward a.west ∧ g.lo2 = eastward a.east
  covered : bitmapCovers msg.bitmap (ni * nj)
  enough : rank msg.bitmap (ni * nj) ≤ msg.data.length

/-- The message holds known weather codes, packed without scaling. -/
def Codes (msg : Msg) : Prop :=
  (∃ ref bits typ, msg.packing = .simple ref 0 0 bits typ) ∧
  ∀ i q, physical msg i = some q → ∃ c ∈ knownCodes, q = (c.toNat : Rat)

/-- A file is published that holds a field for the area (weather codes, if it is for the weather). -/
def AreaPublished (w : World) (run : Run) (a : Area) (ni nj : Nat) (r : Req) : Prop :=
  ∃ msg, Publishes w run r msg ∧ FullArea msg a ni nj ∧ ∀ n, r = .single .ww n → Codes msg

/-! ## Corners -/

/-- The float of an angle. -/
def degreesOf (n : Nat) : Rat := rndq f32 (rndq f32 n / 1000000)

theorem micro_rep : Rep f32 (360000000 : Rat) :=
  ⟨1406250, 8, by norm_num [pow2_eq], by decide, by decide⟩

theorem angleValue_eq {n : Nat} (h : n ≤ 360000000) : angleValue n = .fin (degreesOf n) := by
  unfold angleValue degreesOf
  have h1 : (n : Rat) ≤ 360000000 := by exact_mod_cast h
  have h2 := rndq_le_rep prec32 micro_rep h1
  have h0 := rndq_nonneg (F := f32) (q := (n : Rat)) (by positivity)
  refine rnd_fin prec32 micro_rep (by decide +kernel) ?_
  rw [abs_of_nonneg (by positivity), div_le_iff₀ (by norm_num)]
  linarith

theorem degreesOf_mono {n n' : Nat} (h : n ≤ n') : degreesOf n ≤ degreesOf n' := by
  have h1 : (n : Rat) ≤ n' := by exact_mod_cast h
  have := rndq_mono (F := f32) prec32 h1
  exact rndq_mono prec32 (by linarith)

theorem degreesOf_nonneg (n : Nat) : 0 ≤ degreesOf n :=
  rndq_nonneg (div_nonneg (rndq_nonneg (by positivity)) (by norm_num))

theorem degreesOf_values : degreesOf 75000000 = 75 ∧ degreesOf 179900000 ≤ 17991 / 100 ∧ degreesOf 180000000 = 180 ∧
    degreesOf 360000000 = 360 := by decide +kernel

theorem degreesOf_rep (n : Nat) : Rep f32 (degreesOf n) := rep_rndq _ _

/-- What is made of a latitude. -/
theorem latitude_value {n : Nat} (h : n ≤ 75000000) : LatLon.normalise (angleValue n) = .fin (degreesOf n) ∧
    0 ≤ degreesOf n ∧ degreesOf n ≤ 75 := by
  have h1 := degreesOf_mono h
  rw [degreesOf_values.1] at h1
  have h0 := degreesOf_nonneg n
  rw [angleValue_eq (by omega)]
  exact ⟨normalise_id (by linarith) (by linarith), h0, h1⟩

/-- What is made of a longitude. -/
theorem longitude_value {x : Int} (h0 : -180000000 ≤ x) (h1 : x ≤ 179900000) :
    ∃ v : Rat, LatLon.normalise (angleValue (eastward x)) = .fin v ∧ v < 180 ∧
      (0 ≤ x ∧ v = degreesOf (eastward x) ∨
        x < 0 ∧ (degreesOf (eastward x) = 360 ∧ v = 0 ∨ degreesOf (eastward x) < 360 ∧ v = degreesOf (eastward x) - 360)) := by
  obtain ⟨-, d1, d2, d3⟩ := degreesOf_values
  rw [angleValue_eq (by unfold eastward; omega)]
  obtain ⟨v, k, e1, e2, e3, e4⟩ := normalise_spec (degreesOf_rep (eastward x))
  refine ⟨v, e1, e4, ?_⟩
  have hd := degreesOf_nonneg (eastward x)
  rcases lt_or_ge x 0 with hx | hx
  · have a := degreesOf_mono (show 180000000 ≤ eastward x by unfold eastward; omega)
    have b := degreesOf_mono (show eastward x ≤ 360000000 by unfold eastward; omega)
    rw [d2] at a
    rw [d3] at b
    refine .inr ⟨hx, ?_⟩
    have k1 : (k : Rat) < 2 := by linarith
    have k2 : (0 : Rat) < k := by linarith
    have k1 : k < 2 := by exact_mod_cast k1
    have k2 : 0 < k := by exact_mod_cast k2
    obtain rfl : k = 1 := by omega
    rcases b.lt_or_eq with b | b
    · exact .inr ⟨b, by push_cast at e2; linarith⟩
    · exact .inl ⟨b, by push_cast at e2; linarith⟩
  · have b := degreesOf_mono (show eastward x ≤ 179900000 by unfold eastward; omega)
    refine .inl ⟨hx, ?_⟩
    have k1 : (k : Rat) < 1 := by linarith
    have k2 : (-1 : Rat) < k := by linarith
    have k1 : k < 1 := by exact_mod_cast k1
    have k2 : -1 < k := by exact_mod_cast k2
    obtain rfl : k = 0 := by omega
    push_cast at e2
    linarith

/-- The extent that is made of the corners. -/
def Area.extent (a : Area) : LatLonExtent :=
  ⟨LatLon.new (angleValue a.south) (angleValue (eastward a.west)), LatLon.new (angleValue a.north) (angleValue (eastward a.east))⟩

theorem Area.Valid.corners {a : Area} (h : a.Valid) : ∃ s n w e : Rat,
    a.extent = ⟨⟨.fin s, .fin w⟩, ⟨.fin n, .fin e⟩⟩ ∧ 0 ≤ s ∧ s ≤ n ∧ n ≤ 75 ∧ w ≤ e ∧ e < 180 := by
  obtain ⟨s1, s2, -⟩ := latitude_value (h.lat.trans h.top)
  obtain ⟨n1, -, n3⟩ := latitude_value h.top
  obtain ⟨w, w1, -, w3⟩ := longitude_value h.left (h.lon.trans h.right)
  obtain ⟨e, e1, e2, e3⟩ := longitude_value (h.left.trans h.lon) h.right
  refine ⟨_, _, w, e, ?_, s2, degreesOf_mono h.lat, n3, ?_, e2⟩
  · unfold Area.extent LatLon.new
    rw [s1, n1, w1, e1]
  have hlon := h.lon
  have hw := degreesOf_nonneg (eastward a.west)
  have he := degreesOf_nonneg (eastward a.east)
  rcases w3 with ⟨w3, rfl⟩ | ⟨w3, w4⟩ <;> rcases e3 with ⟨e3, rfl⟩ | ⟨e3, e4⟩
  · exact degreesOf_mono (by unfold eastward; have := h.right; omega)
  · omega
  · rcases w4 with ⟨_, rfl⟩ | ⟨_, rfl⟩ <;> linarith
  · have hm := degreesOf_mono (show eastward a.west ≤ eastward a.east by unfold eastward; have := h.left; omega)
    rcases w4 with ⟨_, rfl⟩ | ⟨_, rfl⟩ <;> rcases e4 with ⟨_, rfl⟩ | ⟨_, rfl⟩ <;> linarith

/-! ## Reading -/

/-- Grids of the area. -/
structure OnArea {T : Type} (G : LatLonValueGrid T) (a : Area) (ni nj : Nat) : Prop where
  filled : Filled G ni nj
  extent : G.grid.extent = a.extent

theorem OnArea.fit {S T : Type} {A : LatLonValueGrid S} {B : LatLonValueGrid T} {a : Area} {ni nj : Nat} (h : a.Valid)
    (ha : OnArea A a ni nj) (hb : OnArea B a ni nj) : Fit A B := by
  obtain ⟨s, n, w, e, he, -⟩ := h.corners
  refine ⟨ha.filled.dims.trans hb.filled.dims.symm, ha.extent.trans hb.extent.symm, ?_, ?_, ?_, ?_⟩ <;>
    rw [ha.extent, he] <;> simp

theorem OnArea.inRange {T : Type} {A : LatLonValueGrid T} {a : Area} {ni nj : Nat} (h : a.Valid)
    (ha : OnArea A a ni nj) {m : Libm} (hm : AccurateRow m) {model : FcModel} (hd : IsDwd model) :
    InRange m A.grid.extent model.zoomRange := by
  obtain ⟨s, n, w, e, he, h1, h2, h3, h4, h5⟩ := h.corners
  rw [ha.extent, he]
  refine inRange_north hm (by rcases hd with rfl | rfl <;> decide) ?_ ?_ rfl rfl h1 (h2.trans h3) (h1.trans h2) h3
  · simp only [Fl.le, decide_eq_true_eq]; linarith
  · simp only [Fl.le, decide_eq_true_eq]; linarith

theorem area_read {T : Type} {w : World} {run : Run} (hm : IsDwd run.model) {r : Req} {msg : Msg} {a : Area} {ni nj : Nat}
    (ha : a.Valid) (hp : Publishes w run r msg) (hf : FullArea msg a ni nj) (missing : T) (f : Fl → T) :
    ∃ G, Res.bind (fileUrl run r) (fun url => w.readRectangular url missing f) = .ok G ∧ OnArea G a ni nj := by
  obtain ⟨url, body, rest, hu, hd, hz⟩ := hp.there
  obtain ⟨url', hu', h1, h2⟩ := C52_download hm r
  rw [hu] at hu'
  cases hu'
  obtain ⟨g, hg, g1, g2⟩ := hf.grid
  obtain ⟨c1, c2, c3, c4⟩ := hf.corners g hg
  obtain ⟨ref, r', E, D, bits, typ, hpk, -⟩ := hf.packing
  have ht5 : msg.doc.section5.template = .simplePacking ⟨ref.value, E, D, bits, typ⟩ := by
    show Spec.Grib2.packingDoc msg.packing = _
    rw [hpk]; rfl
  obtain ⟨vs, hvs⟩ := (C08_safe_iff msg.doc _ missing f ht5 hf.data).1 (by
    have hn : msg.doc.section3.numberOfDatapoints = ni * nj := hf.points
    rw [hn]
    exact ⟨hf.covered, hf.enough⟩)
  obtain ⟨t, ht, t1, t2, t3, t4⟩ : ∃ t, msg.doc.section3.template = .latitudeLongitude t ∧
      t.firstLat = angleValue g.la1 ∧ t.firstLon = angleValue g.lo1 ∧ t.lastLat = angleValue g.la2 ∧
      t.lastLon = angleValue g.lo2 :=
    ⟨_, show Spec.Grib2.gridDoc msg.grid = _ by rw [hg]; rfl, rfl, rfl, rfl, rfl⟩
  rw [c1] at t1
  rw [c3] at t2
  rw [c2] at t3
  rw [c4] at t4
  obtain ⟨s, n, wq, e, he, h3, h4, h5, h6, h7⟩ := ha.corners
  unfold Area.extent LatLon.new at he
  simp only [LatLonExtent.mk.injEq, LatLon.mk.injEq] at he
  obtain ⟨⟨x1, x2⟩, x3, x4⟩ := he
  obtain ⟨G, hG⟩ := C13_defined msg.doc t ht missing f vs hvs
    (by rw [t1, t3, x1, x3]; simp only [Fl.lt, decide_eq_false_iff_not, not_lt]; exact h4)
    (by rw [t2, t4, x2, x4]; simp only [Fl.lt, decide_eq_false_iff_not, not_lt]; exact h6)
  have key : Res.bind (fileUrl run r) (fun url => w.readRectangular url missing f) = .ok G := by
    rw [hu]
    show w.readRectangular url missing f = .ok G
    unfold World.readRectangular World.readSingle World.stream
    simp only [h1, h2, hd, if_true]
    show (do let doc ← (do let r ← Grib2.readSingleDoc (w.bunzip body); Res.ok r.1); Grib2.createRegularGrid doc missing f) = _
    rw [hz, C01_round_trip msg hp.ok hp.known rest, Res.bind_ok, Res.bind_ok]
    exact hG
  refine ⟨G, key, (grid_of_field hm hp hf.toField key).1, ?_⟩
  rw [(C13_shape msg.doc t ht missing f G hG).2.1, t1, t2, t3, t4]
  rfl

theorem area_levels {w : World} {run : Run} (hm : IsDwd run.model) {r : Nat → Req} {a : Area} {ni nj : Nat} (ha : a.Valid)
    {lo hi : Nat} (hp : ∀ k, lo ≤ k → k ≤ hi → AreaPublished w run a ni nj (r k)) (missing : UInt8) (f : Fl → UInt8) :
    ∃ gs, Res.mapM (fun k => Res.bind (fileUrl run (r k)) fun url => w.readRectangular url missing f) (rangeIncl lo hi)
      = .ok gs ∧ gs.length = hi + 1 - lo ∧ ∀ g ∈ gs, Filled g ni nj := by
  have h : ∀ k ∈ rangeIncl lo hi,
      ∃ G, Res.bind (fileUrl run (r k)) (fun url => w.readRectangular url missing f) = .ok G ∧ Filled G ni nj := by
    intro k hk
    obtain ⟨h1, h2⟩ : lo ≤ k ∧ k ≤ hi := by
      unfold rangeIncl at hk
      simp only [List.mem_range'] at hk
      obtain ⟨i, hi', rfl⟩ := hk
      omega
    obtain ⟨msg, p1, p2, -⟩ := hp k h1 h2
    obtain ⟨G, e, o⟩ := area_read hm ha p1 p2 missing f
    exact ⟨G, e, o.filled⟩
  have hl : (rangeIncl lo hi).length = hi + 1 - lo := by simp [rangeIncl]
  rw [← hl]
  clear hl hp
  revert h
  induction rangeIncl lo hi with
  | nil => exact fun _ => ⟨[], rfl, rfl, by simp⟩
  | cons k l ih =>
    intro h
    obtain ⟨gs, e, e1, e2⟩ := ih fun k hk => h k (List.mem_cons_of_mem _ hk)
    obtain ⟨G, g1, g2⟩ := h k List.mem_cons_self
    refine ⟨G :: gs, ?_, by simp [e1], ?_⟩
    · unfold Res.mapM
      rw [g1, Res.bind_ok, e, Res.bind_ok]
    · intro g hg
      rcases List.mem_cons.mp hg with rfl | hg
      · exact g2
      · exact e2 g hg

/-! ## Weather codes -/

theorem unpack_exact {ref : Fl} {r : Rat} (hr : ref = .fin r) {X : Nat} (hX : X < 2 ^ 16) {c : Nat} (hc : c < 2 ^ 16)
    (h : r + X = c) (bits : Nat) (typ : Grib2.OriginalFieldType) : Grib2.unpackValue ⟨ref, 0, 0, bits, typ⟩ X = .fin c := by
  have small : ∀ n : Nat, n < 2 ^ 16 → rnd f32 (n : Rat) = .fin n := by
    intro n hn
    refine rnd_exact prec32 (rep_nat (by decide) (hn.le.trans (by decide))) ?_
    have h1 : (n : Rat) < 2 ^ 16 := by exact_mod_cast hn
    have h2 : (2 ^ 16 : Rat) < pow2 f32.emax := by decide +kernel
    rw [abs_of_nonneg (by positivity)]
    linarith
  have p1 : Fl.powi f32 (.fin 2) 0 = .fin 1 := by decide +kernel
  have p2 : Fl.powi f32 (.fin 10) 0 = .fin 1 := by decide +kernel
  unfold Grib2.unpackValue
  simp only [p1, p2, hr]
  have e1 : Fl.ofNat f32 X = .fin X := small X hX
  have e2 : Fl.mul f32 (.fin (X : Rat)) (.fin 1) = .fin X := by
    show rnd f32 (X * 1) = _
    rw [mul_one]; exact small X hX
  have e3 : Fl.add f32 (.fin r) (.fin (X : Rat)) = .fin c := by
    show rnd f32 (r + X) = _
    rw [h]; exact small c hc
  rw [e1, e2, e3, Fl.div_fin _ _ (by norm_num), div_one]
  exact small c hc

/-- The cells of a grid of weather codes: none where the code is missing, else the code. -/
theorem codes_exact {w : World} {run : Run} (hm : IsDwd run.model) {n : Nat} {msg : Msg} {ni nj : Nat}
    (hp : Publishes w run (.single .ww n) msg) (hf : Field msg ni nj) (hc : Codes msg) {G : LatLonValueGrid Fl}
    (h : dwdGrid w run .ww n = .ok G) :
    Filled G ni nj ∧ ∀ x y, x < ni → y < nj → (physical msg (y * ni + x) = none → cell G ni x y = none) ∧
      ∀ c : UInt8, physical msg (y * ni + x) = some (c.toNat : Rat) → cell G ni x y = some (.fin (c.toNat : Rat)) := by
  obtain ⟨⟨ref, bits, typ, hpk⟩, -⟩ := hc
  obtain ⟨ref', r, E, D, bits', typ', hpk', hr, -⟩ := hf.packing
  rw [hpk] at hpk'
  cases hpk'
  obtain ⟨g1, g2, g3⟩ := packed_of_field hm hp hf h hpk
  refine ⟨g1, fun x y hx hy => ?_⟩
  obtain ⟨a, b⟩ := g3 x y hx hy
  unfold cell
  rw [g2]
  have hph := physical_eq hpk hr (y * ni + x)
  cases hpr : present msg.bitmap (y * ni + x) with
  | false =>
    rw [a hpr, hph, hpr]
    exact ⟨fun _ => rfl, fun c hq => by simp at hq⟩
  | true =>
    obtain ⟨X, hX, hX16, hval⟩ := b hpr
    rw [hpr, hX] at hph
    simp only [if_true, Option.map_some, zpow_zero, mul_one, div_one] at hph
    rw [hph]
    refine ⟨fun hq => by simp at hq, fun c hq => ?_⟩
    have hc : c.toNat < 2 ^ 16 := c.toNat_lt.trans (by norm_num)
    rw [hval, unpack_exact hr hX16 hc (Option.some.inj hq)]
    have : ¬ ((c.toNat : Rat) = -1) := by
      have : (0 : Rat) ≤ c.toNat := by positivity
      intro e; linarith
    show (if Fl.feq (.fin (c.toNat : Rat)) (.fin (-1)) = true then _ else _) = _
    simp only [id, Fl.feq, decide_eq_true_eq, if_neg this]

theorem byte_of_code (c : UInt8) : UInt8.ofNat (Fl.toU8 (.fin (c.toNat : Rat))) = c := by
  have : Fl.toU8 (.fin (c.toNat : Rat)) = c.toNat := by
    have : ∀ n : Fin 256, Fl.toU8 (.fin ((n : Nat) : Rat)) = n := by decide +kernel
    exact this ⟨c.toNat, c.toNat_lt⟩
  rw [this, UInt8.ofNat_toNat]

/-- Weather codes are read exactly. -/
theorem codes_cells {w : World} {run : Run} (hm : IsDwd run.model) {n : Nat} {msg : Msg} {ni nj : Nat}
    (hp : Publishes w run (.single .ww n) msg) (hf : Field msg ni nj) (hc : Codes msg) {G : LatLonValueGrid Fl}
    (h : dwdGrid w run .ww n = .ok G) (x y : Nat) (hx : x < ni) (hy : y < nj) (v : Fl) (hv : cell G ni x y = some v) :
    UInt8.ofNat (Fl.toU8 v) ∈ knownCodes := by
  obtain ⟨e1, e2⟩ := (codes_exact hm hp hf hc h).2 x y hx hy
  cases hq : physical msg (y * ni + x) with
  | none => rw [e1 hq] at hv; cases hv
  | some q =>
    obtain ⟨c, hck, rfl⟩ := hc.2 _ _ hq
    rw [e2 c hq] at hv
    cases hv
    rw [byte_of_code]
    exact hck

/-! ## The run -/

/-- C105: if, for every variable and step that is selected, every file needed is published with a field of one area
and grid (and the weather with known codes), then rendering the run succeeds, under every schedule. -/
theorem C105_run (m : Libm) (hm : AccurateRow m) (w : World) (dirs : Text → Bool) (vars : List Text) (filter : List Nat)
    (run : Run) (hd : IsDwd run.model) (a : Area) (ha : a.Valid) (ni nj : Nat)
    (hp : ∀ v, ChosenVar vars v → ∀ s ∈ run.model.forecastSteps, Chosen filter s → ∀ r, Uses run.model v s.nr r →
      AreaPublished w run a ni nj r)
    (hh : ChosenVar vars .verticalCloud ∨ ChosenVar vars .verticalWind → ∀ k, run.model.verticalLevels.1 ≤ k →
      k ≤ run.model.verticalLevels.2 → AreaPublished w run a ni nj (.hhl k)) :
    (∃ tr, Dwd.renderRun m w dirs vars filter run tr .done) ∧
    ∀ tr o, Dwd.renderRun m w dirs vars filter run tr o → o = .done := by
  have h31 : run.model.zoomRange.2 ≤ 31 := by rcases hd with h | h <;> rw [h] <;> decide
  have hlev : 0 < run.model.verticalLevels.2 + 1 - run.model.verticalLevels.1 := by
    rcases hd with h | h <;> rw [h] <;> decide
  have single : ∀ {x : SingleVar} {n : Nat}, AreaPublished w run a ni nj (.single x n) →
      ∃ G, dwdGrid w run x n = .ok G ∧ OnArea G a ni nj := by
    rintro x n ⟨msg, p1, p2, -⟩
    exact area_read hd ha p1 p2 missingF32 id
  have hhl : ∀ h : (∀ k, run.model.verticalLevels.1 ≤ k → k ≤ run.model.verticalLevels.2 →
      AreaPublished w run a ni nj (.hhl k)), ∃ gs, readHhl w run run.model.verticalLevels = .ok gs ∧
        gs.length = run.model.verticalLevels.2 + 1 - run.model.verticalLevels.1 ∧ ∀ g ∈ gs, Filled g ni nj :=
    fun h => area_levels hd ha h _ _
  have ok := C90_dwd_iff m w dirs vars filter run
  simp only at ok
  suffices hok : _ by exact ⟨ok.1.mpr hok, ok.2 hok⟩
  refine ⟨fun v hv hw s hs hc => ?_, fun h => (hhl (hh h)).imp fun _ h => h.1⟩
  have hu := hp v hv s hs hc
  cases v with
  | cloudPrecip =>
    obtain ⟨C, c1, c2⟩ := single (hu (.single .clctMod s.nr) (by simp [Uses]))
    obtain ⟨P0, p1, p2⟩ := single (hu (.single .totPrec (s.nr - 1)) (by simp [Uses]))
    obtain ⟨P1, q1, q2⟩ := single (hu (.single .totPrec s.nr) (by simp [Uses]))
    obtain ⟨E, e1, e2⟩ := single (hu (.single .ceiling s.nr) (by simp [Uses]))
    obtain ⟨msg, w1, w2, w3⟩ := hu (.single .ww s.nr) (by simp [Uses])
    obtain ⟨W, x1, x2⟩ := single ⟨msg, w1, w2, w3⟩
    simp only [dwdLayers, c1, p1, q1, e1, x1, Res.bind_ok]
    rw [(C43_cloud_precip _ _ _).1.mpr ⟨c2.fit ha p2, p2.fit ha q2⟩, Res.bind_ok,
      (C43_weather_partial _ _ _).1.mpr (c2.fit ha e2), Res.bind_ok]
    refine ⟨_, rfl, C86_cloud_precip _ h31 c2.filled p2.filled q2.filled (c2.inRange ha hm hd) c2.filled e2.filled
      (by rintro g ⟨⟩; exact x2.filled) ?_⟩
    rintro g ⟨⟩ x y v hx hy hv
    exact codes_cells hd w1 w2.toField (w3 _ rfl) x1 x y hx hy v hv
  | wind10m =>
    obtain ⟨U, u1, u2⟩ := single (hu (.single .u10m s.nr) (by simp [Uses]))
    obtain ⟨V, v1, v2⟩ := single (hu (.single .v10m s.nr) (by simp [Uses]))
    obtain ⟨G, g1, g2⟩ := single (hu (.single .vmax10m s.nr) (by simp [Uses]))
    simp only [dwdLayers, u1, v1, g1, Res.bind_ok]
    rw [(C43_wind _ _ _).1.mpr ⟨u2.fit ha v2, by rintro g ⟨⟩; exact g2.fit ha u2⟩, Res.bind_ok]
    exact ⟨_, rfl, C86_wind _ h31 u2.filled v2.filled (by rintro g ⟨⟩; exact g2.filled) (u2.inRange ha hm hd)⟩
  | temp2m =>
    obtain ⟨T, t1, t2⟩ := single (hu (.single .t2m s.nr) rfl)
    simp only [dwdLayers, t1, Res.bind_ok]
    exact ⟨_, rfl, C86_temp _ h31 t2.filled (t2.inRange ha hm hd)⟩
  | verticalCloud =>
    obtain ⟨H, h1, h2, h3⟩ := hhl (hh (.inl hv))
    obtain ⟨C, c1, c2, c3⟩ := area_levels hd ha (r := fun k => .level .clc s.nr k)
      (fun k k1 k2 => hu _ ⟨k, k1, k2, .inr rfl⟩) 0 clcByte
    have c1 : readClc w run ⟨s.nr, []⟩ run.model.verticalLevels = .ok C := c1
    simp only [dwdLayers, h1, c1, Res.bind_ok]
    have : VerticalCloudLayer.new H C = .ok ⟨H, C⟩ := by
      unfold VerticalCloudLayer.new
      simp [h2, c2, hlev.ne']
    rw [this, Res.bind_ok]
    exact ⟨_, rfl, C86_vertical_clouds _ _ hlev h2 c2 h3 c3⟩
  | verticalWind =>
    obtain ⟨H, h1, h2, h3⟩ := hhl (hh (.inr hv))
    obtain ⟨U, u1, u2, u3⟩ := area_levels hd ha (r := fun k => .level .u s.nr k)
      (fun k k1 k2 => hu _ ⟨k, k1, k2, .inr (.inl rfl)⟩) 255 uvByte
    obtain ⟨V, v1, v2, v3⟩ := area_levels hd ha (r := fun k => .level .v s.nr k)
      (fun k k1 k2 => hu _ ⟨k, k1, k2, .inr (.inr rfl)⟩) 255 uvByte
    have u1 : readUV w run .u ⟨s.nr, []⟩ run.model.verticalLevels = .ok U := u1
    have v1 : readUV w run .v ⟨s.nr, []⟩ run.model.verticalLevels = .ok V := v1
    simp only [dwdLayers, h1, u1, v1, Res.bind_ok]
    have : VerticalWindLayer.new H U V = .ok ⟨H, U, V⟩ := by
      unfold VerticalWindLayer.new
      simp [h2, u2, v2, hlev.ne']
    rw [this, Res.bind_ok]
    exact ⟨_, rfl, C86_vertical_wind _ _ hlev h2 u2 v2 h3 u3 v3⟩
  | weather => exact absurd rfl hw

/-- The name of a model on the command line. -/
def dwdName : FcModel → Text
  | .iconD2 => "icon-d2".toList
  | _ => "icon-eu".toList

/-- C105: the program, called for a model of DWD of which a run of today is found, then succeeds. -/
theorem C105_main (e : Environment) (hm : AccurateRow e.libm) (vars : List Text) (filter : List Nat) (model : FcModel)
    (hd : IsDwd model) (name : Text) (hn : Newest e.available model e.today name) (a : Area) (ha : a.Valid) (ni nj : Nat)
    (hp : ∀ v, ChosenVar vars v → ∀ s ∈ model.forecastSteps, Chosen filter s → ∀ r, Uses model v s.nr r →
      AreaPublished e.world ⟨model, e.today, name⟩ a ni nj r)
    (hh : ChosenVar vars .verticalCloud ∨ ChosenVar vars .verticalWind → ∀ k, model.verticalLevels.1 ≤ k →
      k ≤ model.verticalLevels.2 → AreaPublished e.world ⟨model, e.today, name⟩ a ni nj (.hhl k)) :
    (∃ tr, mainEffect e (dwdName model) vars filter tr .done) ∧
    ∀ tr o, mainEffect e (dwdName model) vars filter tr o → o = .done := by
  have hrun := C51_newest hd e.available e.today e.now hn
  have h := C105_run e.libm hm e.world e.dirs vars filter ⟨model, e.today, name⟩ hd a ha ni nj hp hh
  have heq : mainEffect e (dwdName model) vars filter =
      Dwd.renderRun e.libm e.world e.dirs vars filter ⟨model, e.today, name⟩ := by
    rcases hd with rfl | rfl
    · show mainEffect e "icon-d2".toList vars filter = _
      unfold mainEffect
      rw [if_neg (by decide), if_pos rfl]
      unfold Dwd.renderLatest
      rw [hrun]
      rfl
    · show mainEffect e "icon-eu".toList vars filter = _
      unfold mainEffect
      rw [if_neg (by decide), if_neg (by decide), if_pos rfl]
      unfold Dwd.renderLatest
      rw [hrun]
      rfl
  rw [heq]
  exact h

/-! ## The hypotheses can be met -/

/-- The area of the demonstration messages. -/
def demoArea : Area := ⟨43000000, 45000000, 5000000, 7000000⟩

theorem demoArea_valid : demoArea.Valid := by constructor <;> decide

theorem weatherMsg_area : FullArea weatherMsg demoArea 2 2 :=
  ⟨weatherMsg_field, by rintro g ⟨⟩; exact ⟨rfl, rfl, rfl, rfl⟩, .inr (by decide), by decide⟩

theorem weatherMsg_codes : Codes weatherMsg := by
  refine ⟨⟨_, _, _, rfl⟩, fun i q h => ?_⟩
  rw [physical_eq (r := 0) rfl (by decide +kernel)] at h
  split at h
  · obtain ⟨x, hx, rfl⟩ := Option.map_eq_some_iff.mp h
    have hx := List.mem_of_getElem? hx
    have hx : x ∈ [0, 3, 61] := hx
    simp only [List.mem_cons, List.not_mem_nil, or_false] at hx
    rcases hx with rfl | rfl | rfl
    · exact ⟨0, by decide, by decide +kernel⟩
    · exact ⟨3, by decide, by decide +kernel⟩
    · exact ⟨61, by decide, by decide +kernel⟩
  · cases h

/-- A server that delivers the demonstration message for every file: both models succeed for every selection. -/
example (m : Libm) (hm : AccurateRow m) (dirs : Text → Bool) (vars : List Text) (filter : List Nat) (model : FcModel)
    (hd : IsDwd model) (service : Swiss.Service) (cal : Swiss.Calendar) (today : Date) :
    ∃ tr, mainEffect ⟨m, constWorld weatherMsg, service, cal, dirs, today, today, fun _ => true⟩ (dwdName model) vars filter
      tr .done := by
  have hp : ∀ r, AreaPublished (constWorld weatherMsg) ⟨model, today, "21".toList⟩ demoArea 2 2 r := fun r =>
    ⟨weatherMsg, constWorld_publishes weatherMsg_ok trivial hd r, weatherMsg_area, fun _ _ => weatherMsg_codes⟩
  refine (C105_main _ hm vars filter model hd "21".toList ?_ demoArea demoArea_valid 2 2 (fun _ _ _ _ _ r _ => hp r)
    fun _ k _ _ => hp _).1
  refine ⟨by decide +kernel, ?_, ?_⟩
  · intro r hr
    obtain ⟨url, hu, -⟩ := C52_download (run := ⟨model, today, "21".toList⟩) hd r
    exact ⟨url, hu, rfl⟩
  · have : ∀ n ∈ runNames, ¬ valueOf "21".toList < valueOf n := by decide +kernel
    exact fun n hn h => absurd h (this n hn)

/-- The area of ICON-D2: 43.18 to 58.08 degrees north, 3.94 degrees west to 20.34 degrees east. -/
example : (⟨43180000, 58080000, -3940000, 20340000⟩ : Area).Valid := by constructor <;> decide

end Verif.Props
