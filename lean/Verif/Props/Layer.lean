import Verif.Lemmas.Sqrt
import Verif.Lemmas.Metobin
import Verif.Props.Metobin

/-!
# Properties C41, C43 and C44: weather codes, consistency of layers, wind speed
-/

namespace Verif.Props

open Verif
open Verif.Spec (Filled cell SameExtent)

/-! ## C41 -/

/-- The codes of WMO table 4677 that are used. -/
def knownCodes : List UInt8 :=
  [0, 1, 2, 3, 45, 48, 51, 53, 55, 56, 57, 61, 63, 65, 66, 67, 71, 73, 75, 77, 80, 81, 82, 85, 86, 95, 96, 99]

/-- **C41, the part that holds**: a code is interpreted iff it is one of the 28 known codes, and
converting the interpretation back gives the code; every interpretation has a code and is found by it.
Missing: for all other codes the conversion panics (see below). -/
theorem C41_round_trip_partial :
    (∀ (c : UInt8) (w : Weather), Weather.fromValue c = .ok w ↔ c = w.toValue) ∧
    (∀ c : UInt8, (∃ w, Weather.fromValue c = .ok w) ↔ c ∈ knownCodes) := by
  have back : ∀ w : Weather, Weather.fromValue w.toValue = .ok w := by intro w; cases w <;> rfl
  have there : ∀ (c : UInt8) (w : Weather), Weather.fromValue c = .ok w → c = w.toValue := by
    have fin : ∀ n : Fin 256, ∀ w, Weather.fromValue (UInt8.ofNat n) = .ok w → UInt8.ofNat n = w.toValue := by
      intro n w h
      have : ∀ n : Fin 256, ∀ w, Weather.fromValue (UInt8.ofNat n) = .ok w → UInt8.ofNat n = w.toValue := by
        intro n
        have tab : ∀ n : Fin 256, (match Weather.fromValue (UInt8.ofNat n) with
            | .ok w => decide (UInt8.ofNat n = w.toValue)
            | _ => true) = true := by decide +kernel
        intro w hw
        have := tab n
        rw [hw] at this
        exact of_decide_eq_true this
      exact this n w h
    intro c w h
    have := fin ⟨c.toNat, c.toNat_lt⟩ w (by simpa using h)
    simpa using this
  refine ⟨fun c w => ⟨there c w, fun h => h ▸ back w⟩, fun c => ⟨?_, ?_⟩⟩
  · rintro ⟨w, h⟩
    rw [there c w h]
    cases w <;> decide
  · intro h
    simp only [knownCodes, List.mem_cons, List.not_mem_nil, or_false] at h
    rcases h with h | h | h | h | h | h | h | h | h | h | h | h | h | h | h | h | h | h | h | h | h | h | h | h | h | h | h | h <;>
      subst h <;> exact ⟨_, rfl⟩

/-- The second half of C41 is false: every unknown code panics, for instance 4, and with it the writing of
a weather file with such a cell. -/
theorem C41_counterexample : (∀ c : UInt8, c ∉ knownCodes → Weather.fromValue c = .panic) ∧ (4 : UInt8) ∉ knownCodes ∧
    Metobin.weatherBin ⟨rowGrid [.fin 1] (.fin (-1)), rowGrid [.fin 1] (.fin (-1)), some (rowGrid [.fin 4] (.fin (-1)))⟩
      = .panic := by
  refine ⟨?_, by decide, by decide +kernel⟩
  intro c hc
  cases h : Weather.fromValue c with
  | ok w => exact absurd (C41_round_trip_partial.2 c |>.mp ⟨w, h⟩) hc
  | panic => rfl
  | err =>
    exfalso
    have tab : ∀ n : Fin 256, Weather.fromValue (UInt8.ofNat n) ≠ .err := by decide +kernel
    exact tab ⟨c.toNat, c.toNat_lt⟩ (by simpa using h)

/-! ## C43 -/

theorem feq_iff {a b : Fl} : Fl.feq a b = true ↔ a = b ∧ a ≠ .nan := by
  cases a <;> cases b <;> simp [Fl.feq]

theorem extentEq_iff {a b : LatLonExtent} : LatLonExtent.eq a b = true ↔ SameExtent a b := by
  unfold LatLonExtent.eq LatLon.eq SameExtent
  obtain ⟨⟨a1, a2⟩, ⟨a3, a4⟩⟩ := a
  obtain ⟨⟨b1, b2⟩, ⟨b3, b4⟩⟩ := b
  simp only [Bool.and_eq_true, feq_iff, LatLonExtent.mk.injEq, LatLon.mk.injEq]
  tauto

theorem sameDims_iff {S T : Type} {a : LatLonValueGrid S} {b : LatLonValueGrid T} :
    sameDims a b = true ↔ a.grid.dimensions = b.grid.dimensions := by
  unfold sameDims; rw [beq_iff_eq]; rfl

/-- Two grids fit: the same dimensions and the same extent. -/
def Fit {S T : Type} (a : LatLonValueGrid S) (b : LatLonValueGrid T) : Prop :=
  a.grid.dimensions = b.grid.dimensions ∧ SameExtent a.grid.extent b.grid.extent

/-- **C43, clouds and precipitation.**  The layer is created iff all grids have the same dimensions and
extents, and then holds the given grids; otherwise an error is returned (never a panic). -/
theorem C43_cloud_precip (c p0 p1 : LatLonValueGrid Fl) :
    (CloudPrecipLayer.new c p0 p1 = .ok ⟨c, p0, p1⟩ ↔ Fit c p0 ∧ Fit p0 p1) ∧
    (CloudPrecipLayer.new c p0 p1 = .err ↔ ¬ (Fit c p0 ∧ Fit p0 p1)) := by
  have key : CloudPrecipLayer.new c p0 p1 = if (sameDims c p0 && sameDims p0 p1 && sameExtent c p0 && sameExtent p0 p1) = true
      then .ok ⟨c, p0, p1⟩ else .err := by
    unfold CloudPrecipLayer.new
    cases sameDims c p0 <;> cases sameDims p0 p1 <;> cases sameExtent c p0 <;> cases sameExtent p0 p1 <;> rfl
  have iff : (sameDims c p0 && sameDims p0 p1 && sameExtent c p0 && sameExtent p0 p1) = true ↔ Fit c p0 ∧ Fit p0 p1 := by
    unfold Fit sameExtent
    simp only [Bool.and_eq_true, sameDims_iff, extentEq_iff]
    tauto
  rw [key]
  by_cases h : Fit c p0 ∧ Fit p0 p1
  · rw [if_pos (iff.mpr h)]; simp [h]
  · rw [if_neg (fun hh => h (iff.mp hh))]; simp [h]

/-- **C43, wind.** -/
theorem C43_wind (u v : LatLonValueGrid Fl) (g : Option (LatLonValueGrid Fl)) :
    (WindLayer.new u v g = .ok ⟨u, v, g⟩ ↔ Fit u v ∧ ∀ g', g = some g' → Fit g' u) ∧
    (WindLayer.new u v g = .err ↔ ¬ (Fit u v ∧ ∀ g', g = some g' → Fit g' u)) := by
  have key : WindLayer.new u v g = if (sameDims u v && sameExtent u v && WindLayer.gustsFit u g) = true
      then .ok ⟨u, v, g⟩ else .err := by
    unfold WindLayer.new
    cases sameDims u v <;> cases sameExtent u v <;> cases WindLayer.gustsFit u g <;> rfl
  have iff : (sameDims u v && sameExtent u v && WindLayer.gustsFit u g) = true ↔
      Fit u v ∧ ∀ g', g = some g' → Fit g' u := by
    unfold Fit
    cases g with
    | none =>
      simp only [WindLayer.gustsFit, sameExtent, Bool.and_eq_true, sameDims_iff, extentEq_iff]
      simp
    | some g =>
      simp only [WindLayer.gustsFit, sameExtent, Bool.and_eq_true, sameDims_iff, extentEq_iff, Option.some.injEq, forall_eq']
  rw [key]
  by_cases h : Fit u v ∧ ∀ g', g = some g' → Fit g' u
  · rw [if_pos (iff.mpr h)]; exact ⟨⟨fun _ => h, fun _ => rfl⟩, ⟨fun hh => (by simp at hh), fun hh => absurd h hh⟩⟩
  · rw [if_neg (fun hh => h (iff.mp hh))]; exact ⟨⟨fun hh => (by simp at hh), fun hh => absurd hh h⟩, ⟨fun _ => h, fun _ => rfl⟩⟩

/-- **C43, weather, the part that holds**: cloud cover and ceiling are checked.  Missing: the weather
grid. -/
theorem C43_weather_partial (c e : LatLonValueGrid Fl) (ww : Option (LatLonValueGrid Fl)) :
    (WeatherLayer.new c e ww = .ok ⟨c, e, ww⟩ ↔ Fit c e) ∧ (WeatherLayer.new c e ww = .err ↔ ¬ Fit c e) := by
  have key : WeatherLayer.new c e ww = if (sameDims c e && sameExtent c e) = true then .ok ⟨c, e, ww⟩ else .err := by
    unfold WeatherLayer.new
    cases sameDims c e <;> cases sameExtent c e <;> rfl
  have iff : (sameDims c e && sameExtent c e) = true ↔ Fit c e := by
    unfold Fit sameExtent
    simp only [Bool.and_eq_true, sameDims_iff, extentEq_iff]
  rw [key]
  by_cases h : Fit c e
  · rw [if_pos (iff.mpr h)]; simp [h]
  · rw [if_neg (fun hh => h (iff.mp hh))]; simp [h]

/-- C43 is false for the weather grid: a layer is created with a weather grid of another size and extent,
and the file then has wrong weather: the weather of another place at (0,0), none at (1,0). -/
theorem C43_counterexample : ∃ (c e ww : LatLonValueGrid Fl) (l : WeatherLayer), Filled c 2 1 ∧ Filled e 2 1 ∧ Filled ww 1 1 ∧
    c.grid.extent = LatLonExtent.maxExtent ∧ ww.grid.extent = ⟨⟨.fin 40, .fin 0⟩, ⟨.fin 50, .fin 10⟩⟩ ∧
    WeatherLayer.new c e (some ww) = .ok l ∧ Metobin.weatherBin l = .ok [61, 0, 3, 0] :=
  ⟨rowGrid [.fin 1, .fin 1] (.fin (-1)), rowGrid [.fin 1, .fin 1] (.fin (-1)),
    LatLonValueGrid.new [.fin 61] (.fin (-1)) (1, 1) ⟨⟨.fin 40, .fin 0⟩, ⟨.fin 50, .fin 10⟩⟩, _,
    rowGrid_filled _ _ (by decide), rowGrid_filled _ _ (by decide), ⟨rfl, by decide, rfl⟩, rfl, rfl, rfl, by decide +kernel⟩

example : Fit (rowGrid [Fl.fin 1, .fin 2] (.fin 0)) (rowGrid [Fl.fin 3, .fin 4] (.fin 9)) := by
  refine ⟨rfl, rfl, ?_, ?_, ?_, ?_⟩ <;> decide +kernel

/-! ## C44 -/

/-- **C44.** At a cell, the pair of components, the speed and the speed with direction are present exactly
when both components are. -/
theorem C44_presence {l : WindLayer} {w h : Nat} (hz : Filled l.zonal w h) (hm : Filled l.meridional w h)
    (dir : Fl → Fl → Fl) {x y : Nat} (hx : x < w) (hy : y < h) :
    (∀ e n, cell l.zonal w x y = some e → cell l.meridional w x y = some n →
      l.getWindByXY x y = .ok (some (e, n)) ∧ l.getSpeedByXY x y = .ok (some (windSpeed e n)) ∧
      l.getSpeedDirByXY dir x y = .ok (some (windSpeed e n, dir e n))) ∧
    ((cell l.zonal w x y = none ∨ cell l.meridional w x y = none) →
      l.getWindByXY x y = .ok none ∧ l.getSpeedByXY x y = .ok none ∧ l.getSpeedDirByXY dir x y = .ok none) := by
  have hw : l.getWindByXY x y = .ok (bothOf (cell l.zonal w x y) (cell l.meridional w x y)) := by
    unfold WindLayer.getWindByXY
    rw [hz.get hx hy, hm.get hx hy]; rfl
  unfold WindLayer.getSpeedByXY WindLayer.getSpeedDirByXY
  rw [hw]
  constructor
  · intro e n he hn
    rw [he, hn]
    exact ⟨rfl, rfl, rfl⟩
  · rintro (h | h)
    · rw [h]; exact ⟨rfl, rfl, rfl⟩
    · rw [h]
      cases cell l.zonal w x y <;> exact ⟨rfl, rfl, rfl⟩

/-- **C44.** The same at a position, where the components are looked up at the nearest cell. -/
theorem C44_presence_position (l : WindLayer) (p : LatLon) (e n : Option Fl) (he : l.zonal.getValueByLatLon p = .ok e)
    (hn : l.meridional.getValueByLatLon p = .ok n) :
    (∀ a b, e = some a → n = some b →
      l.getWindByLatLon p = .ok (some (a, b)) ∧ l.getSpeedByLatLon p = .ok (some (windSpeed a b))) ∧
    ((e = none ∨ n = none) → l.getWindByLatLon p = .ok none ∧ l.getSpeedByLatLon p = .ok none) := by
  have hw : l.getWindByLatLon p = .ok (bothOf e n) := by
    unfold WindLayer.getWindByLatLon
    rw [he, hn]; rfl
  unfold WindLayer.getSpeedByLatLon
  rw [hw]
  constructor
  · rintro a b rfl rfl; exact ⟨rfl, rfl⟩
  · rintro (rfl | rfl)
    · exact ⟨rfl, rfl⟩
    · cases e <;> exact ⟨rfl, rfl⟩

/-- **C44.** The speed is the length of the wind vector up to a relative error of `2^-21` and a tiny
absolute error, hence not negative and not below either component but for this error. -/
theorem C44_speed {e n : Rat} (he : |e| ≤ 2 ^ 60) (hn : |n| ≤ 2 ^ 60) :
    ∃ v : Rat, windSpeed (.fin e) (.fin n) = .fin v ∧ 0 ≤ v ∧
      |(v : Real) - Real.sqrt ((e : Real) ^ 2 + (n : Real) ^ 2)| ≤ Real.sqrt ((e : Real) ^ 2 + (n : Real) ^ 2) / 2 ^ 21 + 1 / 2 ^ 70 ∧
      (|e| : Rat) * (1 - 1 / 2 ^ 21) - 1 / 2 ^ 70 ≤ v ∧ (|n| : Rat) * (1 - 1 / 2 ^ 21) - 1 / 2 ^ 70 ≤ v := by
  have sq : ∀ a : Rat, |a| ≤ 2 ^ 60 → a * a ≤ 2 ^ 120 := by
    intro a ha
    have := mul_le_mul ha ha (abs_nonneg a) (by norm_num)
    rw [abs_mul_abs_self] at this
    refine this.trans (by norm_num)
  have he2 := sq e he
  have hn2 := sq n hn
  have he0 := mul_self_nonneg e
  have hn0 := mul_self_nonneg n
  obtain ⟨a, ha, ha', ea⟩ := rnd32_err (q := e * e) (by rw [abs_of_nonneg he0]; exact he2.trans (by norm_num))
  obtain ⟨b, hb, hb', eb⟩ := rnd32_err (q := n * n) (by rw [abs_of_nonneg hn0]; exact hn2.trans (by norm_num))
  have a0 : 0 ≤ a := by rw [ha']; exact rndq_nonneg he0
  have b0 : 0 ≤ b := by rw [hb']; exact rndq_nonneg hn0
  rw [abs_of_nonneg he0] at ea
  rw [abs_of_nonneg hn0] at eb
  have ea' := abs_le.mp ea
  have eb' := abs_le.mp eb
  have t1 : (1 : Rat) / 2 ^ 150 ≤ 1 := by norm_num
  have aT : a ≤ 2 ^ 121 := by
    have : e * e / 2 ^ 24 ≤ 2 ^ 120 / 2 ^ 24 := by gcongr
    have : (2 : Rat) ^ 120 + 2 ^ 120 / 2 ^ 24 + 1 ≤ 2 ^ 121 := by norm_num
    linarith [ea'.2]
  have bT : b ≤ 2 ^ 121 := by
    have : n * n / 2 ^ 24 ≤ 2 ^ 120 / 2 ^ 24 := by gcongr
    have : (2 : Rat) ^ 120 + 2 ^ 120 / 2 ^ 24 + 1 ≤ 2 ^ 121 := by norm_num
    linarith [eb'.2]
  obtain ⟨s, hs, hs', es⟩ := rnd32_err (q := a + b) (by
    rw [abs_of_nonneg (by linarith)]
    have : (2 : Rat) ^ 121 + 2 ^ 121 ≤ 2 ^ 127 := by norm_num
    linarith)
  have s0 : 0 ≤ s := by rw [hs']; exact rndq_nonneg (by linarith)
  rw [abs_of_nonneg (by linarith : 0 ≤ a + b)] at es
  have es' := abs_le.mp es
  have sT : s ≤ 2 ^ 126 := by
    have : (a + b) / 2 ^ 24 ≤ a + b := by
      apply div_le_self (by linarith); norm_num
    have : (2 : Rat) ^ 121 + 2 ^ 121 + (2 ^ 121 + 2 ^ 121) + 1 ≤ 2 ^ 126 := by norm_num
    linarith [es'.2]
  obtain ⟨v, hv, v0, ev⟩ := sqrt32_err s0 sT
  have e1 : windSpeed (.fin e) (.fin n) = .fin v := by
    unfold windSpeed
    rw [Fl.mul_fin, Fl.mul_fin, ha, hb, Fl.add_fin, hs, hv]
  -- the error of the sum of squares
  have hS : 0 ≤ e * e + n * n := by linarith
  have sum : |s - (e * e + n * n)| ≤ 3 / 2 ^ 24 * (e * e + n * n) + (1 / 2 ^ 72) ^ 2 := by
    have k1 : (a + b) / 2 ^ 24 ≤ ((e * e + n * n) + (e * e + n * n) / 2 ^ 24 + 2 / 2 ^ 150) / 2 ^ 24 := by
      apply div_le_div_of_nonneg_right _ (by positivity)
      linarith [ea'.2, eb'.2]
    have k2 : ((e * e + n * n) + (e * e + n * n) / 2 ^ 24 + 2 / 2 ^ 150) / 2 ^ 24 + (e * e + n * n) / 2 ^ 24 + 3 / 2 ^ 150
        ≤ 3 / 2 ^ 24 * (e * e + n * n) + (1 / 2 ^ 72) ^ 2 := by
      generalize e * e + n * n = S at hS
      have c : (2 / 2 ^ 150 / 2 ^ 24 + 3 / 2 ^ 150 : Rat) ≤ (1 / 2 ^ 72) ^ 2 := by norm_num
      have e : (S + S / 2 ^ 24 + 2 / 2 ^ 150) / 2 ^ 24 + S / 2 ^ 24 + 3 / 2 ^ 150
        = S * (2 / 2 ^ 24 + 1 / 2 ^ 48) + (2 / 2 ^ 150 / 2 ^ 24 + 3 / 2 ^ 150 : Rat) := by ring
      have k : S * (2 / 2 ^ 24 + 1 / 2 ^ 48) ≤ S * (3 / 2 ^ 24) := by
        apply mul_le_mul_of_nonneg_left _ hS; norm_num
      rw [e]; linarith
    have split : (e * e + n * n) / 2 ^ 24 = e * e / 2 ^ 24 + n * n / 2 ^ 24 := by ring
    have c3 : (3 : Rat) / 2 ^ 150 = 1 / 2 ^ 150 + 1 / 2 ^ 150 + 1 / 2 ^ 150 := by norm_num
    rw [abs_le]
    constructor <;> linarith [ea'.1, ea'.2, eb'.1, eb'.2, es'.1, es'.2]
  have sumR : |(s : Real) - ((e : Real) ^ 2 + (n : Real) ^ 2)| ≤ 3 / 2 ^ 24 * ((e : Real) ^ 2 + (n : Real) ^ 2) + (1 / 2 ^ 72) ^ 2 := by
    have := (Rat.cast_le (K := Real)).mpr sum
    push_cast at this
    rw [pow_two (e : Real), pow_two (n : Real)]
    exact this
  have close := sqrt_close (by positivity) (by norm_num) (by norm_num) (by positivity) sumR
  set T := Real.sqrt ((e : Real) ^ 2 + (n : Real) ^ 2) with hT
  have T0 : 0 ≤ T := Real.sqrt_nonneg _
  have close' := abs_le.mp close
  have evb : |(v : Real) - T| ≤ T / 2 ^ 21 + 1 / 2 ^ 70 := by
    have ev' := abs_le.mp ev
    have k : Real.sqrt s / 2 ^ 24 ≤ (T + (3 / 2 ^ 24 * T + 1 / 2 ^ 72)) / 2 ^ 24 := by
      apply div_le_div_of_nonneg_right _ (by positivity)
      linarith [close'.2]
    have c : (1 : Real) / 2 ^ 72 / 2 ^ 24 + 1 / 2 ^ 148 + 1 / 2 ^ 72 ≤ 1 / 2 ^ 70 := by norm_num
    have k2 : (T + (3 / 2 ^ 24 * T + 1 / 2 ^ 72)) / 2 ^ 24 + 3 / 2 ^ 24 * T ≤ T / 2 ^ 21 + 1 / 2 ^ 72 / 2 ^ 24 := by
      have e : (T + (3 / 2 ^ 24 * T + 1 / 2 ^ 72)) / 2 ^ 24 + 3 / 2 ^ 24 * T = T * (4 / 2 ^ 24 + 3 / 2 ^ 48) + 1 / 2 ^ 72 / 2 ^ 24 := by ring
      have : T * (4 / 2 ^ 24 + 3 / 2 ^ 48) ≤ T * (1 / 2 ^ 21) := by
        apply mul_le_mul_of_nonneg_left _ T0; norm_num
      rw [e]; linarith
    rw [abs_le]
    constructor <;> linarith [ev'.1, ev'.2, close'.1, close'.2]
  have evb' := abs_le.mp evb
  have low : ∀ c : Rat, ((|c| : Rat) : Real) ≤ T → (|c| : Rat) * (1 - 1 / 2 ^ 21) - 1 / 2 ^ 70 ≤ v := by
    intro c hc
    rw [← Rat.cast_le (K := Real)]
    push_cast
    push_cast at hc
    have : |(c : Real)| * (1 - 1 / 2 ^ 21) ≤ T * (1 - 1 / 2 ^ 21) := mul_le_mul_of_nonneg_right hc (by norm_num)
    have e : T * (1 - 1 / 2 ^ 21) = T - T / 2 ^ 21 := by ring
    linarith [evb'.1]
  refine ⟨v, e1, v0, evb, low e ?_, low n ?_⟩
  · push_cast
    apply Real.abs_le_sqrt
    nlinarith [sq_nonneg (n : Real)]
  · push_cast
    apply Real.abs_le_sqrt
    nlinarith [sq_nonneg (e : Real)]

/-- **C44.** A speed is never negative: whatever the components, it is NaN or at least zero. -/
theorem C44_nonneg (e n : Fl) : windSpeed e n = .nan ∨ Fl.le (.fin 0) (windSpeed e n) = true := by
  unfold windSpeed
  cases h : Fl.add f32 (Fl.mul f32 e e) (Fl.mul f32 n n) with
  | nan => left; rfl
  | ninf => left; rfl
  | pinf => right; rfl
  | fin q =>
    unfold Fl.sqrt
    by_cases hq : q < 0
    · left; simp only [hq, if_true]
    · right
      simp only [hq, if_false]
      obtain ⟨w, hw, w0, -⟩ := sqrtQ_eq f32 (not_lt.mp hq)
      rw [hw]
      exact Fl.fin_le_rnd prec32 ⟨rep_zero f32, by simpa using pow2_pos f32.emax⟩ w0

example : windSpeed (.fin 3) (.fin (-4)) = .fin 5 := by decide +kernel

example : (⟨rowGrid [.fin 3, .fin (-1)] (.fin (-1)), rowGrid [.fin (-4), .fin 4] (.fin (-1)), none⟩ : WindLayer).getSpeedByXY 0 0
    = .ok (some (.fin 5)) := by decide +kernel

end Verif.Props
