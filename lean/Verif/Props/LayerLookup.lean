import Verif.Model.LayerLookup
import Verif.Props.Layer
import Verif.Props.Dwd
import Verif.Lemmas.MapTile
import Verif.Lemmas.Mercator
import Mathlib.Analysis.SpecialFunctions.Complex.Arg

/-!
# C133 - C135: lookups by position, wind directions, the description of the models
-/

namespace Verif.Props

open Verif
open Verif.Spec (Filled cell SameExtent)

/-! ## C133 -/

/-- A grid made by its constructor. -/
def Made {T : Type} (g : LatLonValueGrid T) : Prop := ∃ vs mv d e, g = LatLonValueGrid.new vs mv d e

/-- What a lookup by column and row gives at a cell, and nothing if there is no cell. -/
def atCell {A : Type} (c : Option (Nat × Nat)) (look : Nat → Nat → Res (Option A)) : Res (Option A) :=
  match c with
  | none => .ok none
  | some (x, y) => look x y

/-- The cell of a position. -/
def cellOf (g : LatLonGrid) (p : LatLon) : Option (Nat × Nat) :=
  (g.getXYByLatLon p).map fun c => (Fl.toUSize (Fl.round c.1), Fl.toUSize (Fl.round c.2))

theorem byLatLon {T : Type} [GridValue T] (g : LatLonValueGrid T) (p : LatLon) :
    g.getValueByLatLon p = atCell (cellOf g.grid p) g.getValueByXY := by
  unfold LatLonValueGrid.getValueByLatLon cellOf atCell
  cases g.grid.getXYByLatLon p <;> rfl

theorem Made.grid {S T : Type} {a : LatLonValueGrid S} {b : LatLonValueGrid T} (ha : Made a) (hb : Made b) (h : Fit a b) :
    a.grid = b.grid := by
  obtain ⟨_, _, d, e, rfl⟩ := ha
  obtain ⟨_, _, d', e', rfl⟩ := hb
  obtain ⟨h1, h2, -⟩ := h
  show LatLonGrid.new d e = LatLonGrid.new d' e'
  have h1 : d = d' := h1
  have h2 : e = e' := h2
  rw [h1, h2]

/-- C133: whatever is looked up at a position in grids that fit is the value of one and the same cell, whichever values
the grids hold. -/
theorem C133_grids {S T : Type} [GridValue S] [GridValue T] (a : LatLonValueGrid S) (b : LatLonValueGrid T) (ha : Made a)
    (hb : Made b) (h : Fit a b) (p : LatLon) :
    ∃ c, a.getValueByLatLon p = atCell c a.getValueByXY ∧ b.getValueByLatLon p = atCell c b.getValueByXY :=
  ⟨cellOf a.grid p, byLatLon a p, by rw [ha.grid hb h]; exact byLatLon b p⟩

/-- C133: the wind components, the speed and the gusts at a position are those of one cell. -/
theorem C133_wind (u v : LatLonValueGrid Fl) (g : Option (LatLonValueGrid Fl)) (l : WindLayer) (hu : Made u) (hv : Made v)
    (hg : ∀ g', g = some g' → Made g') (h : WindLayer.new u v g = .ok l) (p : LatLon) :
    ∃ c, l.getWindByLatLon p = atCell c l.getWindByXY ∧ l.getSpeedByLatLon p = atCell c l.getSpeedByXY ∧
      l.getGustsByLatLon p = atCell c l.getGustsByXY := by
  have hl : l = ⟨u, v, g⟩ := by
    unfold WindLayer.new at h
    split at h
    · cases h
    · split at h
      · cases h
      · split at h
        · cases h
        · cases h; rfl
  subst hl
  obtain ⟨f1, f2⟩ := (C43_wind u v g).1.mp h
  have e1 := hu.grid hv f1
  refine ⟨cellOf u.grid p, ?_⟩
  have w : (⟨u, v, g⟩ : WindLayer).getWindByLatLon p = atCell (cellOf u.grid p) (⟨u, v, g⟩ : WindLayer).getWindByXY := by
    unfold WindLayer.getWindByLatLon
    dsimp only
    rw [byLatLon u, byLatLon v, ← e1]
    cases cellOf u.grid p <;> rfl
  refine ⟨w, ?_, ?_⟩
  · unfold WindLayer.getSpeedByLatLon
    rw [w]
    cases cellOf u.grid p <;> rfl
  · unfold WindLayer.getGustsByLatLon
    cases g with
    | none => cases cellOf u.grid p <;> rfl
    | some g =>
      dsimp only
      rw [byLatLon g, (hg g rfl).grid hu (f2 g rfl)]
      cases cellOf u.grid p <;> rfl

/-- C133, the part that holds for the weather: cloud cover and ceiling at a position are those of one cell; the weather
too if its grid fits, which the constructor does not check. -/
theorem C133_weather_partial (c e : LatLonValueGrid Fl) (ww : Option (LatLonValueGrid Fl)) (l : WeatherLayer) (hc : Made c)
    (he : Made e) (hw : ∀ w, ww = some w → Made w) (h : WeatherLayer.new c e ww = .ok l) (p : LatLon) :
    ∃ d, l.getClctByLatLon p = atCell d l.getClctByXY ∧ l.getCeilingByLatLon p = atCell d l.getCeilingByXY ∧
      ((∀ w, ww = some w → Fit w c) → l.getWwByLatLon p = atCell d l.getWwByXY) := by
  have hl : l = ⟨c, e, ww⟩ := by
    unfold WeatherLayer.new at h
    split at h
    · cases h
    · split at h
      · cases h
      · cases h; rfl
  subst hl
  have f1 := (C43_weather_partial c e ww).1.mp h
  refine ⟨cellOf c.grid p, byLatLon c p, ?_, ?_⟩
  · unfold WeatherLayer.getCeilingByLatLon
    dsimp only
    rw [byLatLon e, hc.grid he f1]
    rfl
  · intro f2
    unfold WeatherLayer.getWwByLatLon
    cases ww with
    | none => cases cellOf c.grid p <;> rfl
    | some w =>
      dsimp only
      rw [byLatLon w, (hw w rfl).grid hc (f2 w rfl)]
      cases cellOf c.grid p <;> rfl

/-- Two clouds and two ceilings over the whole earth. -/
def twoCells (a b : Rat) : LatLonValueGrid Fl := LatLonValueGrid.new [.fin a, .fin b] (.fin (-1)) (2, 1) LatLonExtent.maxExtent

/-- A weather grid of two cells in the west. -/
def westWeather : LatLonValueGrid Fl :=
  LatLonValueGrid.new [.fin 61, .fin 95] (.fin (-1)) (2, 1) ⟨⟨.fin (-44), .fin (-97)⟩, ⟨.fin (-34), .fin (-87)⟩⟩

/-- C133 is false for the weather: at 41 degrees south and 92 degrees west, the cloud cover is that of the first cell
and the weather is that of the second. -/
theorem C133_counterexample_weather : ∃ l, WeatherLayer.new (twoCells 10 20) (twoCells 30 40) (some westWeather) = .ok l ∧
    l.getClctByLatLon ⟨.fin (-41), .fin (-92)⟩ = .ok (some (.fin 10)) ∧
    l.getWwByLatLon ⟨.fin (-41), .fin (-92)⟩ = .ok (some .thunderstormSlightOrModerate) ∧
    ∀ d, ¬ (l.getClctByLatLon ⟨.fin (-41), .fin (-92)⟩ = atCell d l.getClctByXY ∧
      l.getWwByLatLon ⟨.fin (-41), .fin (-92)⟩ = atCell d l.getWwByXY) := by
  refine ⟨⟨twoCells 10 20, twoCells 30 40, some westWeather⟩, rfl, by decide +kernel, by decide +kernel, ?_⟩
  have e1 : (⟨twoCells 10 20, twoCells 30 40, some westWeather⟩ : WeatherLayer).getClctByLatLon ⟨.fin (-41), .fin (-92)⟩ =
      .ok (some (.fin 10)) := by decide +kernel
  have e2 : (⟨twoCells 10 20, twoCells 30 40, some westWeather⟩ : WeatherLayer).getWwByLatLon ⟨.fin (-41), .fin (-92)⟩ =
      .ok (some .thunderstormSlightOrModerate) := by decide +kernel
  rw [e1, e2]
  rintro (_ | ⟨x, y⟩) ⟨h1, h2⟩
  · cases h1
  · have h1 : _ = LatLonValueGrid.getValueByXY (twoCells 10 20) x y := h1
    have hxy : x < 2 ∧ y < 1 := by
      by_contra hn
      have : (twoCells 10 20).getValueByXY x y = .ok none := by
        have i : (twoCells 10 20).grid.getIndexByXY x y = .ok none := by
          unfold LatLonGrid.getIndexByXY
          rw [if_pos]
          have d : (twoCells 10 20).grid.dimensions = (2, 1) := rfl
          rw [d]
          simp only [ge_iff_le, Bool.or_eq_true, decide_eq_true_eq]
          omega
        unfold LatLonValueGrid.getValueByXY
        rw [i]
        rfl
      rw [this] at h1
      cases h1
    obtain ⟨hx, hy⟩ := hxy
    have : y = 0 := by omega
    subst this
    interval_cases x
    · exact absurd h2 (by decide +kernel)
    · exact absurd h1 (by decide +kernel)

example : Made (twoCells 1 2) ∧ Fit (twoCells 1 2) (twoCells 3 4) ∧
    ∃ l, WindLayer.new (twoCells 3 4) (twoCells 4 3) (some (twoCells 7 9)) = .ok l ∧
      l.getWindByLatLon ⟨.fin (-41), .fin (-92)⟩ = .ok (some (.fin 3, .fin 4)) ∧
      l.getSpeedByLatLon ⟨.fin (-41), .fin (-92)⟩ = .ok (some (.fin 5)) ∧
      l.getGustsByLatLon ⟨.fin (-41), .fin (-92)⟩ = .ok (some (.fin 7)) := by
  refine ⟨⟨_, _, _, _, rfl⟩, ⟨rfl, rfl, ?_, ?_, ?_, ?_⟩, ⟨twoCells 3 4, twoCells 4 3, some (twoCells 7 9)⟩, rfl, ?_, ?_, ?_⟩ <;>
    decide +kernel

/-! ## C134 -/

/-- `atan2` gives an angle of the vector, from east over north, within 2^-20. -/
def AccurateAtan2 (atan2 : Fl → Fl → Fl) : Prop :=
  ∀ e n : Rat, ∃ (q : Rat) (θ : ℝ), atan2 (.fin n) (.fin e) = .fin q ∧ |(q : ℝ) - θ| ≤ 1 / 2 ^ 20 ∧ |θ| ≤ Real.pi ∧
    (e : ℝ) = Real.sqrt ((e : ℝ) ^ 2 + (n : ℝ) ^ 2) * Real.cos θ ∧ (n : ℝ) = Real.sqrt ((e : ℝ) ^ 2 + (n : ℝ) ^ 2) * Real.sin θ

/-- There are such functions. -/
theorem exists_accurateAtan2 : ∃ atan2, AccurateAtan2 atan2 := by
  have key : ∀ e n : Rat, ∃ (q : Rat) (θ : ℝ), |(q : ℝ) - θ| ≤ 1 / 2 ^ 20 ∧ |θ| ≤ Real.pi ∧
      (e : ℝ) = Real.sqrt ((e : ℝ) ^ 2 + (n : ℝ) ^ 2) * Real.cos θ ∧
      (n : ℝ) = Real.sqrt ((e : ℝ) ^ 2 + (n : ℝ) ^ 2) * Real.sin θ := by
    intro e n
    obtain ⟨q, hq⟩ := exists_rat_near (Complex.arg ⟨e, n⟩) (show (0 : ℝ) < 1 / 2 ^ 20 by positivity)
    have hn : ‖(⟨e, n⟩ : ℂ)‖ = Real.sqrt ((e : ℝ) ^ 2 + (n : ℝ) ^ 2) := by
      rw [Complex.norm_def, Complex.normSq_mk]; congr 1; ring
    refine ⟨q, Complex.arg ⟨e, n⟩, by rw [abs_sub_comm]; exact hq.le, Complex.abs_arg_le_pi _, ?_, ?_⟩
    · rw [← hn, Complex.norm_mul_cos_arg]
    · rw [← hn, Complex.norm_mul_sin_arg]
  refine ⟨fun n e => match n, e with
    | .fin n, .fin e => .fin (key e n).choose
    | _, _ => .nan, fun e n => ?_⟩
  obtain ⟨θ, h⟩ := (key e n).choose_spec
  exact ⟨_, θ, rfl, h⟩

/-- The direction in degrees is an angle of the vector, within 2^-19 radians. -/
theorem windDir_near {atan2 : Fl → Fl → Fl} (ha : AccurateAtan2 atan2) (e n : Rat) : ∃ (d : Rat) (θ : ℝ),
    windDir atan2 (.fin e) (.fin n) = .fin d ∧ |(d : ℝ)| ≤ 180 + 1 / 1000 ∧ |(d : ℝ) * (Real.pi / 180) - θ| ≤ 1 / 2 ^ 19 ∧
    (e : ℝ) = Real.sqrt ((e : ℝ) ^ 2 + (n : ℝ) ^ 2) * Real.cos θ ∧ (n : ℝ) = Real.sqrt ((e : ℝ) ^ 2 + (n : ℝ) ^ 2) * Real.sin θ := by
  obtain ⟨q, θ, hq, eq, hθ, h1, h2⟩ := ha e n
  unfold windDir toDegrees32
  rw [hq, deg32]
  have p1 := Real.pi_gt_d6
  have p2 := Real.pi_lt_d6
  have hq4 : |(q : ℝ)| ≤ 3.1416 := by
    have := abs_sub_abs_le_abs_sub (q : ℝ) θ
    have : (1 : ℝ) / 2 ^ 20 ≤ 0.000001 := by norm_num
    linarith
  have hq4' : |q| ≤ 3.1416 := by
    have : ((|q| : Rat) : ℝ) ≤ ((3.1416 : Rat) : ℝ) := by rw [Rat.cast_abs]; push_cast; exact hq4
    exact_mod_cast this
  have hb : |q * (15019745 / 262144)| ≤ 181 := by
    rw [abs_mul, abs_of_nonneg (show (0 : Rat) ≤ 15019745 / 262144 by norm_num)]
    nlinarith [abs_nonneg q]
  obtain ⟨d, hd, -, ed⟩ := rnd32_err_le hb (by norm_num)
  have ed' : |(d : ℝ) - q * (15019745 / 262144)| ≤ 1 / 10 ^ 5 * 1.1 := by
    have := (Rat.cast_le (K := ℝ)).mpr (ed.trans (show _ ≤ (1 / 10 ^ 5 * 1.1 : Rat) by norm_num))
    push_cast at this
    exact this
  refine ⟨d, θ, hd, ?_, ?_, h1, h2⟩
  · have t1 := abs_sub_abs_le_abs_sub (d : ℝ) (q * (15019745 / 262144))
    have t2 : |(q : ℝ) * (15019745 / 262144)| ≤ 180.0005 := by
      rw [abs_mul, abs_of_nonneg (show (0 : ℝ) ≤ 15019745 / 262144 by norm_num)]
      nlinarith [abs_nonneg (q : ℝ)]
    linarith
  · have e1 : (d : ℝ) * (Real.pi / 180) - θ = (d - q * (15019745 / 262144)) * (Real.pi / 180) +
        (q * ((15019745 / 262144) * (Real.pi / 180) - 1) + (q - θ)) := by ring
    have t1 : |((d : ℝ) - q * (15019745 / 262144)) * (Real.pi / 180)| ≤ 2 / 10 ^ 7 := by
      rw [abs_mul, abs_of_pos (show 0 < Real.pi / 180 by positivity)]
      have : Real.pi / 180 ≤ 0.01746 := by linarith
      calc _ ≤ (1 / 10 ^ 5 * 1.1 : ℝ) * 0.01746 := mul_le_mul ed' this (by positivity) (by norm_num)
        _ ≤ _ := by norm_num
    have t2 : |(q : ℝ) * ((15019745 / 262144) * (Real.pi / 180) - 1)| ≤ 5 / 10 ^ 7 := by
      have p3 := Real.pi_gt_d20
      have p4 := Real.pi_lt_d20
      rw [abs_mul]
      have : |(15019745 / 262144 : ℝ) * (Real.pi / 180) - 1| ≤ 1 / 10 ^ 7 := by
        rw [abs_le]; constructor <;> norm_num at * <;> linarith
      calc _ ≤ (3.1416 : ℝ) * (1 / 10 ^ 7) := mul_le_mul hq4 this (abs_nonneg _) (by norm_num)
        _ ≤ _ := by norm_num
    rw [e1]
    refine (abs_add_le _ _).trans ?_
    have := abs_add_le ((q : ℝ) * ((15019745 / 262144) * (Real.pi / 180) - 1)) (q - θ)
    norm_num at *
    linarith

/-- C134: speed and direction at a cell give the wind vector back: east is speed times cosine, north is speed times
sine of the direction, up to rounding; the direction is from -180 to 180 degrees. -/
theorem C134_polar {atan2 : Fl → Fl → Fl} (ha : AccurateAtan2 atan2) {l : WindLayer} {w h : Nat} (hz : Filled l.zonal w h)
    (hm : Filled l.meridional w h) {x y : Nat} (hx : x < w) (hy : y < h) {e n : Rat} (he : |e| ≤ 2 ^ 60) (hn : |n| ≤ 2 ^ 60)
    (ce : cell l.zonal w x y = some (.fin e)) (cn : cell l.meridional w x y = some (.fin n)) :
    ∃ s d : Rat, l.getSpeedDirByXY (windDir atan2) x y = .ok (some (.fin s, .fin d)) ∧ 0 ≤ s ∧
      |(d : ℝ)| ≤ 180 + 1 / 1000 ∧
      |(s : ℝ) * Real.cos (d * (Real.pi / 180)) - e| ≤ Real.sqrt ((e : ℝ) ^ 2 + (n : ℝ) ^ 2) / 2 ^ 18 + 1 / 2 ^ 70 ∧
      |(s : ℝ) * Real.sin (d * (Real.pi / 180)) - n| ≤ Real.sqrt ((e : ℝ) ^ 2 + (n : ℝ) ^ 2) / 2 ^ 18 + 1 / 2 ^ 70 := by
  obtain ⟨s, hs, s0, es, -⟩ := C44_speed he hn
  obtain ⟨d, θ, hd, bd, ed, h1, h2⟩ := windDir_near ha e n
  refine ⟨s, d, ?_, s0, bd, ?_⟩
  · rw [((C44_presence hz hm (windDir atan2) hx hy).1 _ _ ce cn).2.2, hs, hd]
  set r := Real.sqrt ((e : ℝ) ^ 2 + (n : ℝ) ^ 2) with hr
  have r0 : 0 ≤ r := Real.sqrt_nonneg _
  have lip : ∀ (f : ℝ → ℝ) (v : ℝ), |f (d * (Real.pi / 180))| ≤ 1 → |f (d * (Real.pi / 180)) - f θ| ≤ |d * (Real.pi / 180) - θ| →
      v = r * f θ → |(s : ℝ) * f (d * (Real.pi / 180)) - v| ≤ r / 2 ^ 18 + 1 / 2 ^ 70 := by
    intro f v hf hl hv
    have e1 : (s : ℝ) * f (d * (Real.pi / 180)) - v = (s - r) * f (d * (Real.pi / 180)) + r * (f (d * (Real.pi / 180)) - f θ) := by
      rw [hv]; ring
    rw [e1]
    refine (abs_add_le _ _).trans ?_
    rw [abs_mul, abs_mul, abs_of_nonneg r0]
    have t1 : |(s : ℝ) - r| * |f (d * (Real.pi / 180))| ≤ r / 2 ^ 21 + 1 / 2 ^ 70 := by
      calc _ ≤ (r / 2 ^ 21 + 1 / 2 ^ 70) * 1 := mul_le_mul es hf (abs_nonneg _) (by positivity)
        _ = _ := by ring
    have t2 : r * |f (d * (Real.pi / 180)) - f θ| ≤ r * (1 / 2 ^ 19) := mul_le_mul_of_nonneg_left (hl.trans ed) r0
    have : r / 2 ^ 21 + r * (1 / 2 ^ 19) ≤ r / 2 ^ 18 := by
      have : r / 2 ^ 18 - (r / 2 ^ 21 + r * (1 / 2 ^ 19)) = r * (3 / 2 ^ 21) := by ring
      have : 0 ≤ r * (3 / 2 ^ 21) := by positivity
      linarith
    linarith
  exact ⟨lip Real.cos e (Real.abs_cos_le_one _) (Real.abs_cos_sub_cos_le _ _) h1,
    lip Real.sin n (Real.abs_sin_le_one _) (Real.abs_sin_sub_sin_le _ _) h2⟩

/-- A westerly and a south-easterly wind. -/
example : ∃ atan2, AccurateAtan2 atan2 ∧ ∃ s d : Rat,
    (⟨twoCells 3 (-2), twoCells 0 2, none⟩ : WindLayer).getSpeedDirByXY (windDir atan2) 1 0 = .ok (some (.fin s, .fin d)) ∧
    |(s : ℝ) * Real.cos (d * (Real.pi / 180)) - (-2 : Rat)| ≤
      Real.sqrt (((-2 : Rat) : ℝ) ^ 2 + ((2 : Rat) : ℝ) ^ 2) / 2 ^ 18 + 1 / 2 ^ 70 := by
  obtain ⟨a, ha⟩ := exists_accurateAtan2
  have f : ∀ x y, Filled (twoCells x y) 2 1 := fun x y => ⟨rfl, by norm_num, rfl⟩
  obtain ⟨s, d, h1, -, -, h2, -⟩ := C134_polar (l := ⟨twoCells 3 (-2), twoCells 0 2, none⟩) ha (f _ _) (f _ _) (x := 1) (y := 0)
    (by norm_num) (by norm_num) (e := -2) (n := 2) (by norm_num) (by norm_num) (by decide +kernel) (by decide +kernel)
  exact ⟨a, ha, s, d, h1, h2⟩

/-! ## C135 -/

/-- The model that is described. -/
def described : DwdModelType → FcModel
  | .iconD2 => .iconD2
  | .iconEu => .iconEu
  | .icon => .iconGlobal

/-- The names of the run hours. -/
def hourNames (hours : List Nat) : List Text := hours.map (decPad 2)

/-- C135, the part that holds: the description is of the model asked for and has its name; the steps that are rendered are
those of the description from hour 2 on, and one more; the runs that are looked for contain all described ones. -/
theorem C135_described_partial (t : DwdModelType) :
    (DwdModelConfig.get t).model = t ∧ t.getName = (described t).name ∧
    (∀ nr, (∃ s ∈ (described t).forecastSteps, s.nr = nr) ↔
      nr ∈ (DwdModelConfig.get t).stepHours ∧ 2 ≤ nr ∨ nr = (described t).stepRange.2) ∧
    (∀ name ∈ hourNames (DwdModelConfig.get t).runHoursUtc, name ∈ Dwd.runNamesReversed) ∧
    (t = .iconD2 → ∀ name, name ∈ hourNames (DwdModelConfig.get t).runHoursUtc ↔ name ∈ Dwd.runNamesReversed) := by
  have steps : ∀ nr, (∃ s ∈ (described t).forecastSteps, s.nr = nr) ↔
      (described t).stepRange.1 ≤ nr ∧ nr ≤ (described t).stepRange.2 := by
    intro nr
    unfold FcModel.forecastSteps
    constructor
    · rintro ⟨s, hs, rfl⟩
      obtain ⟨n, hn, rfl⟩ := List.mem_map.mp hs
      exact MapTileRenderer.mem_rangeIncl.mp hn
    · intro h
      exact ⟨⟨nr, []⟩, List.mem_map.mpr ⟨nr, MapTileRenderer.mem_rangeIncl.mpr h, rfl⟩, rfl⟩
  refine ⟨by cases t <;> rfl, by cases t <;> rfl, fun nr => ?_, ?_, ?_⟩
  · rw [steps]
    cases t <;> simp only [described, FcModel.stepRange, DwdModelConfig.get, List.mem_range] <;> omega
  · cases t <;> decide +kernel
  · rintro rfl name
    have : hourNames (DwdModelConfig.get .iconD2).runHoursUtc = Dwd.runNamesReversed.reverse := by decide +kernel
    rw [this, List.mem_reverse]

/-- C135 is false: the last step that is rendered is not among the described ones, for any model. -/
theorem C135_counterexample_steps (t : DwdModelType) : ∃ s ∈ (described t).forecastSteps,
    s.nr ∉ (DwdModelConfig.get t).stepHours := by
  cases t
  · exact ⟨⟨48, []⟩, by decide +kernel, by decide +kernel⟩
  · exact ⟨⟨78, []⟩, by decide +kernel, by decide +kernel⟩
  · exact ⟨⟨78, []⟩, by decide +kernel, by decide +kernel⟩

/-- C135 is false: runs of ICON-EU are looked for at hours that are not described. -/
theorem C135_counterexample_runs : "03".toList ∈ Dwd.runNamesReversed ∧
    "03".toList ∉ hourNames (DwdModelConfig.get .iconEu).runHoursUtc := by
  constructor <;> decide +kernel

end Verif.Props
