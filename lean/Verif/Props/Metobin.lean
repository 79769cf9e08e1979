import Verif.Lemmas.Metobin
import Verif.Props.Physics
import Mathlib.Algebra.Order.Group.MinMax

/-!
# Properties C37 - C40 and C42: the contents of the meteobin files
-/

namespace Verif.Props

open Verif Verif.Metobin Verif.Physics
open Verif.Spec (Filled cell)

/-! ## C37: temperature -/

theorem tempByte_acc {k : Rat} (h1 : -64 ≤ k - 27315 / 100) (h2 : k - 27315 / 100 ≤ 63) :
    (tempByte (some (.fin k))).toNat ≤ 254 ∧
    |(((tempByte (some (.fin k))).toNat : Rat) - 128) / 2 - (k - 27315 / 100)| ≤ 1 / 4 + 1 / 1000 := by
  obtain ⟨c, hc, ec, -⟩ := (C57_temperature (q := k) (by rw [abs_le]; constructor <;> linarith)).1
  have ec' := abs_le.mp ec
  norm_num at ec'
  have c1 : |c * 2| ≤ 130 := by rw [abs_le]; constructor <;> linarith [ec'.1, ec'.2]
  obtain ⟨d, hd, -, ed⟩ := rnd32_err_le c1 (by norm_num)
  have ed' := abs_le.mp (ed.trans (show _ ≤ (1 / 10000 : Rat) by norm_num))
  have er := abs_le.mp (Fl.roundAway_err d)
  set r := Fl.roundAway d with hr
  have r1 : -128 ≤ r := by
    have : (-129 : Rat) < r := by linarith [er.1, ed'.1, ec'.1]
    have : -129 < r := by exact_mod_cast this
    omega
  have r2 : r ≤ 126 := by
    have : (r : Rat) < 127 := by linarith [er.2, ed'.2, ec'.2]
    have : r < 127 := by exact_mod_cast this
    omega
  have e : tempByte (some (.fin k)) = asU8 (.fin ((r + 128 : Int) : Rat)) := by
    unfold tempByte
    simp only
    rw [hc, Fl.mul_fin, hd]
    show asU8 (Fl.add f32 (Fl.fin (Fl.roundAway d : Rat)) _) = _
    rw [← hr, Fl.add_fin, show (r : Rat) + 128 = ((r + 128 : Int) : Rat) by push_cast; ring,
      rnd32_int (by rw [abs_le]; constructor <;> omega)]
  have hb := asU8_int (n := r + 128)
  rw [max_eq_right (by omega), min_eq_right (by omega), ← e] at hb
  have hb' : ((tempByte (some (.fin k))).toNat : Rat) = r + 128 := by exact_mod_cast hb
  refine ⟨by omega, ?_⟩
  rw [hb', abs_le]
  constructor <;> linarith [er.1, er.2, ed'.1, ed'.2, ec'.1, ec'.2]

/-- **C37.** The temperature file has one byte for each cell, row by row; missing cells are written as
255; a temperature `k` (in kelvin) between -64 and 63 degrees Celsius is written as a byte `b` below 255
with `(b-128)/2` within a quarter degree, plus rounding errors below a thousandth, of the temperature in
Celsius. -/
theorem C37_file {l : TempLayer} {w h : Nat} (hl : Filled l.temp w h) :
    ∃ bytes, tempBin l = .ok bytes ∧ bytes.length = w * h ∧
      ∀ x y, x < w → y < h → ∃ b : UInt8, bytes[y * w + x]? = some b ∧
        (cell l.temp w x y = none → b = 255) ∧
        ∀ k : Rat, cell l.temp w x y = some (.fin k) → -64 ≤ k - 27315 / 100 → k - 27315 / 100 ≤ 63 →
          b ≠ 255 ∧ |((b.toNat : Rat) - 128) / 2 - (k - 27315 / 100)| ≤ 1 / 4 + 1 / 1000 := by
  obtain ⟨bytes, h1, h2, h3⟩ := forCells_layout (w := w) (h := h) (k := 1)
    (f := fun x y => (l.getTempByXY x y).bind fun t => .ok [tempByte t])
    (fun x y => [tempByte (cell l.temp w x y)])
    (fun x y hx hy => by unfold TempLayer.getTempByXY; rw [hl.get hx hy]; rfl) (fun _ _ _ _ => rfl)
  refine ⟨bytes, ?_, by rw [h2]; ring, ?_⟩
  · unfold tempBin; rw [hl.dims']; exact h1
  · intro x y hx hy
    have := h3 x y 0 hx hy (by norm_num)
    rw [Nat.mul_one, Nat.add_zero] at this
    refine ⟨tempByte (cell l.temp w x y), by rw [this]; rfl, ?_, ?_⟩
    · intro hc; rw [hc]; rfl
    · intro k hk k1 k2
      rw [hk]
      obtain ⟨b1, b2⟩ := tempByte_acc k1 k2
      refine ⟨?_, b2⟩
      intro h255
      rw [h255] at b1
      exact absurd b1 (by decide)

/-- **C37.** The written bytes are ordered like the temperatures, whatever they are. -/
theorem C37_monotone {a b : Fl} (h : Fl.le a b = true) : tempByte (some a) ≤ tempByte (some b) := by
  have h1 := (C57_monotone h).2.2.2.2.1
  exact asU8_mono (Fl.le_add_right prec32 (Fl.round_mono (Fl.le_mul_right prec32 (by norm_num) h1)))

/-- A grid of one row. -/
def rowGrid {T : Type} (values : List T) (missing : T) : LatLonValueGrid T :=
  LatLonValueGrid.new values missing (values.length, 1) LatLonExtent.maxExtent

theorem rowGrid_filled {T : Type} (values : List T) (missing : T) (h : values.length ≤ 2 ^ 64) :
    Filled (rowGrid values missing) values.length 1 := ⟨rfl, by omega, by simp [rowGrid, LatLonValueGrid.new]⟩

/-- The last clause of C37 is false: a cell of 340 K (66.85 degrees Celsius) is written as 255, like a
missing cell. -/
theorem C37_counterexample : ∃ l : TempLayer, Filled l.temp 2 1 ∧ cell l.temp 2 0 0 = some (.fin 340) ∧
    cell l.temp 2 1 0 = none ∧ tempBin l = .ok [255, 255] :=
  ⟨⟨rowGrid [.fin 340, .fin (-1)] (.fin (-1))⟩, rowGrid_filled _ _ (by decide), by decide +kernel,
    by decide +kernel, by decide +kernel⟩

example : Filled (rowGrid [Fl.fin 280, .fin (-1), .fin (1095 / 4)] (.fin (-1))) 3 1 ∧
    tempBin ⟨rowGrid [.fin 280, .fin (-1), .fin (1095 / 4)] (.fin (-1))⟩ = .ok [142, 255, 129] :=
  ⟨rowGrid_filled _ _ (by decide), by decide +kernel⟩

/-! ## C38: precipitation -/

theorem lit02 : lit (2 / 10) = .fin (13421773 / 67108864) := by decide +kernel

theorem precipByte_mono {c d a b : Fl} (h : Fl.le a b = true) : precipByte (some (c, a)) ≤ precipByte (some (d, b)) := by
  have step : asU8 (Fl.round (Fl.mul f32 a (.fin 2))) ≤ asU8 (Fl.round (Fl.mul f32 b (.fin 2))) :=
    asU8_mono (Fl.round_mono (Fl.le_mul_right prec32 (by norm_num) h))
  have one : ∀ {v : Fl}, Fl.le (.fin (1 / 2)) v = true → 1 ≤ asU8 (Fl.round (Fl.mul f32 v (.fin 2))) := by
    intro v hv
    have := asU8_mono (Fl.round_mono (Fl.le_mul_right prec32 (c := 2) (by norm_num) hv))
    exact UInt8.le_trans (show 1 ≤ asU8 (Fl.round (Fl.mul f32 (.fin (1 / 2)) (.fin 2))) by decide +kernel) this
  have two : ∀ {v : Fl}, Fl.le v (.fin (1 / 2)) = true → asU8 (Fl.round (Fl.mul f32 v (.fin 2))) ≤ 1 := by
    intro v hv
    have := asU8_mono (Fl.round_mono (Fl.le_mul_right prec32 (c := 2) (by norm_num) hv))
    exact UInt8.le_trans this (show asU8 (Fl.round (Fl.mul f32 (.fin (1 / 2)) (.fin 2))) ≤ 1 by decide +kernel)
  have ha := Fl.ne_nan_of_le_left h
  have hb := Fl.ne_nan_of_le_right h
  unfold precipByte
  simp only [lit02, Fl.ge]
  by_cases ca : (Fl.le (.fin (13421773 / 67108864)) a && Fl.lt a (.fin (1 / 2))) = true
  · rw [if_pos ca]
    by_cases cb : (Fl.le (.fin (13421773 / 67108864)) b && Fl.lt b (.fin (1 / 2))) = true
    · rw [if_pos cb]; exact UInt8.le_refl 1
    · rw [if_neg cb]
      rw [Bool.and_eq_true] at ca
      have hb1 := Fl.le_trans ca.1 h
      rw [hb1, Bool.true_and, Bool.not_eq_true, Fl.not_lt hb (by simp)] at cb
      exact one cb
  · rw [if_neg ca]
    by_cases cb : (Fl.le (.fin (13421773 / 67108864)) b && Fl.lt b (.fin (1 / 2))) = true
    · rw [if_pos cb]
      rw [Bool.and_eq_true] at cb
      exact two (Fl.le_trans h (Fl.le_of_lt cb.2))
    · rw [if_neg cb]; exact step

theorem precipByte_acc {c : Fl} {a : Rat} (h0 : -(1 / 5) ≤ a) (h1 : a ≤ 127) :
    (precipByte (some (c, .fin a))).toNat ≤ 254 ∧
    ((13421773 / 67108864 ≤ a ∧ a < 1 / 2) → precipByte (some (c, .fin a)) = 1) ∧
    (¬ (13421773 / 67108864 ≤ a ∧ a < 1 / 2) →
      |((precipByte (some (c, .fin a))).toNat : Rat) / 2 - a| ≤ 1 / 4 + 1 / 1000) := by
  have hiff : (Fl.ge (.fin a) (lit (2 / 10)) && Fl.lt (.fin a) (.fin (1 / 2))) = true ↔
      (13421773 / 67108864 ≤ a ∧ a < 1 / 2) := by
    rw [lit02, Bool.and_eq_true]; unfold Fl.ge; rw [Fl.le_fin, Fl.lt_fin]
  unfold precipByte
  simp only
  by_cases hc : (13421773 / 67108864 ≤ a ∧ a < 1 / 2)
  · rw [if_pos (hiff.mpr hc)]
    exact ⟨by decide, fun _ => rfl, fun h => absurd hc h⟩
  · rw [if_neg (fun h => hc (hiff.mp h))]
    have a2 : |a * 2| ≤ 254 := by rw [abs_le]; constructor <;> linarith
    obtain ⟨d, hd, -, ed⟩ := rnd32_err_le a2 (by norm_num)
    have ed' := abs_le.mp (ed.trans (show _ ≤ (1 / 10000 : Rat) by norm_num))
    have er := abs_le.mp (Fl.roundAway_err d)
    set r := Fl.roundAway d with hr
    have r1 : 0 ≤ r := by
      have : (-1 : Rat) < r := by linarith [er.1, ed'.1]
      have : -1 < r := by exact_mod_cast this
      omega
    have r2 : r ≤ 254 := by
      have : (r : Rat) < 255 := by linarith [er.2, ed'.2]
      have : r < 255 := by exact_mod_cast this
      omega
    rw [Fl.mul_fin, hd]
    have e : Fl.round (.fin d) = .fin (r : Rat) := by rw [hr]; rfl
    rw [e]
    have hb := asU8_int (n := r)
    rw [max_eq_right (by omega), min_eq_right (by omega)] at hb
    have hb' : ((asU8 (.fin (r : Rat))).toNat : Rat) = r := by exact_mod_cast hb
    refine ⟨by omega, fun h => absurd h hc, fun _ => ?_⟩
    rw [hb', abs_le]
    constructor <;> linarith [er.1, er.2, ed'.1, ed'.2]

/-- **C38, the part that holds**: one byte for each cell, row by row, ordered like the amounts (whatever
they are); an amount from 0.2 (the binary32 number) to 0.5 mm is written as 1, other amounts from -0.2 to
127 mm as the nearest half millimetre.  The amount is the difference of the sums at the end and the start
of the interval.  Missing: cells where a value is missing (see the counterexample). -/
theorem C38_file_partial {l : CloudPrecipLayer} {w h : Nat} (hc : Filled l.cloud w h) (h0 : Filled l.precip0 w h)
    (h1 : Filled l.precip1 w h) :
    ∃ bytes, precipBin l = .ok bytes ∧ bytes.length = w * h ∧
      (∀ x y, x < w → y < h → ∀ p0 p1, cell l.precip0 w x y = some p0 → cell l.precip1 w x y = some p1 →
        ∃ b : UInt8, bytes[y * w + x]? = some b ∧ ∀ a : Rat, Fl.sub f32 p1 p0 = .fin a → -(1 / 5) ≤ a → a ≤ 127 →
          b ≠ 255 ∧ ((13421773 / 67108864 ≤ a ∧ a < 1 / 2) → b = 1) ∧
          (¬ (13421773 / 67108864 ≤ a ∧ a < 1 / 2) → |(b.toNat : Rat) / 2 - a| ≤ 1 / 4 + 1 / 1000)) ∧
      (∀ x y x' y', x < w → y < h → x' < w → y' < h → ∀ p0 p1 q0 q1, cell l.precip0 w x y = some p0 →
        cell l.precip1 w x y = some p1 → cell l.precip0 w x' y' = some q0 → cell l.precip1 w x' y' = some q1 →
        Fl.le (Fl.sub f32 p1 p0) (Fl.sub f32 q1 q0) = true →
        ∃ b b' : UInt8, bytes[y * w + x]? = some b ∧ bytes[y' * w + x']? = some b' ∧ b ≤ b') := by
  obtain ⟨bytes, g1, g2, g3⟩ := forCells_layout (w := w) (h := h) (k := 1)
    (f := fun x y => (l.getCloudAndPrecipByXY x y).bind fun v => .ok [precipByte v])
    (fun x y => [precipByte (some (unwrapOr (cell l.cloud w x y) (.fin 0),
      Fl.sub f32 (unwrapOr (cell l.precip1 w x y) (.fin 0)) (unwrapOr (cell l.precip0 w x y) (.fin 0))))])
    (fun x y hx hy => by
      unfold CloudPrecipLayer.getCloudAndPrecipByXY
      rw [hc.get hx hy, h0.get hx hy, h1.get hx hy]; rfl) (fun _ _ _ _ => rfl)
  have byte : ∀ x y, x < w → y < h → ∀ p0 p1, cell l.precip0 w x y = some p0 → cell l.precip1 w x y = some p1 →
      bytes[y * w + x]? = some (precipByte (some (unwrapOr (cell l.cloud w x y) (.fin 0), Fl.sub f32 p1 p0))) := by
    intro x y hx hy p0 p1 e0 e1
    have := g3 x y 0 hx hy (by norm_num)
    rw [Nat.mul_one, Nat.add_zero, e0, e1] at this
    exact this
  refine ⟨bytes, ?_, by rw [g2]; ring, ?_, ?_⟩
  · unfold precipBin CloudPrecipLayer.dims; rw [hc.dims']; exact g1
  · intro x y hx hy p0 p1 e0 e1
    refine ⟨_, byte x y hx hy p0 p1 e0 e1, ?_⟩
    intro a ha a0 a1
    rw [ha]
    obtain ⟨b1, b2, b3⟩ := precipByte_acc (c := unwrapOr (cell l.cloud w x y) (.fin 0)) a0 a1
    refine ⟨?_, b2, b3⟩
    intro h255
    rw [h255] at b1
    exact absurd b1 (by decide)
  · intro x y x' y' hx hy hx' hy' p0 p1 q0 q1 e0 e1 f0 f1 hle
    exact ⟨_, _, byte x y hx hy p0 p1 e0 e1, byte x' y' hx' hy' q0 q1 f0 f1, precipByte_mono hle⟩

/-- C38 is false: a cell where all values are missing is written as 0, not as 255, and a cell of 130 mm as
255. -/
theorem C38_counterexample : ∃ l : CloudPrecipLayer, Filled l.cloud 2 1 ∧ Filled l.precip0 2 1 ∧
    Filled l.precip1 2 1 ∧ cell l.cloud 2 0 0 = none ∧ cell l.precip0 2 0 0 = none ∧
    cell l.precip1 2 0 0 = none ∧ cell l.precip0 2 1 0 = some (.fin 0) ∧
    cell l.precip1 2 1 0 = some (.fin 130) ∧ precipBin l = .ok [0, 255] :=
  ⟨⟨rowGrid [.fin (-1), .fin 1] (.fin (-1)), rowGrid [.fin (-1), .fin 0] (.fin (-1)),
      rowGrid [.fin (-1), .fin 130] (.fin (-1))⟩, rowGrid_filled _ _ (by decide), rowGrid_filled _ _ (by decide),
    rowGrid_filled _ _ (by decide), by decide +kernel, by decide +kernel, by decide +kernel, by decide +kernel,
    by decide +kernel, by decide +kernel⟩

example : precipBin ⟨rowGrid [.fin 1, .fin 1, .fin 1] (.fin (-1)), rowGrid [.fin 1, .fin 1, .fin 1] (.fin (-1)),
    rowGrid [.fin (5 / 4), .fin 8, .fin (9 / 8)] (.fin (-1))⟩ = .ok [1, 14, 0] := by decide +kernel

/-! ## C39: wind -/

theorem clampQ_lip (a b : Rat) : |max 0 (min 254 a) - max 0 (min 254 b)| ≤ |a - b| := by
  have h1 := abs_max_sub_max_le_max 0 (min 254 a) 0 (min 254 b)
  rw [sub_self, abs_zero, max_eq_right (abs_nonneg (min 254 a - min 254 b))] at h1
  have h2 := abs_min_sub_min_le_max 254 a 254 b
  rw [sub_self, abs_zero, max_eq_right (abs_nonneg (a - b))] at h2
  exact h1.trans h2

theorem speedByte_acc {q : Rat} (hq : |q| ≤ 1000) :
    |((speedByte (.fin q)).toNat : Rat) - max 0 (min 254 (q * (194384 / 100000) + 128))| ≤ 1 / 2 + 1 / 100 := by
  obtain ⟨v, hv, ev⟩ := (C57_scale_accuracy (q := q) (hq.trans (by norm_num))).2
  have hq' := abs_le.mp hq
  have ev' := abs_le.mp (ev.trans (show |q| / 2 ^ 21 + 1 / 2 ^ 150 ≤ 1 / 1000 by
    have : |q| / 2 ^ 21 ≤ 1000 / 2 ^ 21 := by gcongr
    refine (add_le_add_left this _).trans ?_
    norm_num))
  have s1 : |v + 128| ≤ 3000 := by rw [abs_le]; constructor <;> linarith [hq'.1, hq'.2, ev'.1, ev'.2]
  obtain ⟨d, hd, -, ed⟩ := rnd32_err_le s1 (by norm_num)
  have ed' := abs_le.mp (ed.trans (show _ ≤ (1 / 1000 : Rat) by norm_num))
  have er := abs_le.mp (Fl.roundAway_err d)
  have e : speedByte (.fin q) = clamp254 (.fin (Fl.roundAway d : Rat)) := by
    unfold speedByte
    rw [hv, Fl.add_fin, hd]; rfl
  set r := Fl.roundAway d
  have hb := clamp254_int r
  rw [← e] at hb
  have hb' : ((speedByte (.fin q)).toNat : Rat) = max 0 (min 254 (r : Rat)) := by
    have : (((speedByte (.fin q)).toNat : Int) : Rat) = ((max 0 (min 254 r) : Int) : Rat) := by rw [hb]
    push_cast at this
    exact this
  rw [hb']
  refine (clampQ_lip _ _).trans ?_
  rw [abs_le]
  constructor <;> linarith [er.1, er.2, ed'.1, ed'.2, ev'.1, ev'.2]

theorem gustByte_acc {q : Rat} (hq : |q| ≤ 1000) :
    |((gustByte (some (.fin q))).toNat : Rat) - max 0 (min 254 (q * (194384 / 100000)))| ≤ 1 / 2 + 1 / 100 := by
  obtain ⟨v, hv, ev⟩ := (C57_scale_accuracy (q := q) (hq.trans (by norm_num))).2
  have ev' := abs_le.mp (ev.trans (show |q| / 2 ^ 21 + 1 / 2 ^ 150 ≤ 1 / 1000 by
    have : |q| / 2 ^ 21 ≤ 1000 / 2 ^ 21 := by gcongr
    refine (add_le_add_left this _).trans ?_
    norm_num))
  have er := abs_le.mp (Fl.roundAway_err v)
  have e : gustByte (some (.fin q)) = clamp254 (.fin (Fl.roundAway v : Rat)) := by
    unfold gustByte
    simp only
    rw [hv]; rfl
  set r := Fl.roundAway v
  have hb := clamp254_int r
  rw [← e] at hb
  have hb' : ((gustByte (some (.fin q))).toNat : Rat) = max 0 (min 254 (r : Rat)) := by
    have : (((gustByte (some (.fin q))).toNat : Int) : Rat) = ((max 0 (min 254 r) : Int) : Rat) := by rw [hb]
    push_cast at this
    exact this
  rw [hb']
  refine (clampQ_lip _ _).trans ?_
  rw [abs_le]
  constructor <;> linarith [er.1, er.2, ev'.1, ev'.2]

theorem speedByte_mono {a b : Fl} (h : Fl.le a b = true) : speedByte a ≤ speedByte b :=
  clamp254_mono (Fl.round_mono (Fl.le_add_right prec32 (C57_monotone h).2.2.1))

theorem gustByte_mono {a b : Fl} (h : Fl.le a b = true) : gustByte (some a) ≤ gustByte (some b) :=
  clamp254_mono (Fl.round_mono (C57_monotone h).2.2.1)

/-- The gust of a cell, where the layer has gusts. -/
def gustCell (l : WindLayer) (w x y : Nat) : Option Fl :=
  match l.gusts with
  | some g => cell g w x y
  | none => none

/-- **C39.** The wind file has three bytes for each cell, row by row: the eastward and northward
components and the gust.  A present value `v` in m/s is written as `v` in knots (plus 128 for the
components), clamped to 0..254 and rounded: for values up to 1000 m/s the byte is within half a knot plus a
hundredth.  Bytes are ordered like the values (whatever they are).  Byte 255 occurs exactly for missing
values: both component bytes and the gust byte if a component is missing, the gust byte if the gust is
missing. -/
theorem C39_file {l : WindLayer} {w h : Nat} (hz : Filled l.zonal w h) (hm : Filled l.meridional w h)
    (hg : ∀ g, l.gusts = some g → Filled g w h) :
    ∃ bytes, windBin l = .ok bytes ∧ bytes.length = w * h * 3 ∧
      ∀ x y, x < w → y < h → ∃ be bn bg : UInt8, bytes[(y * w + x) * 3]? = some be ∧
        bytes[(y * w + x) * 3 + 1]? = some bn ∧ bytes[(y * w + x) * 3 + 2]? = some bg ∧
        (be = 255 ↔ (cell l.zonal w x y = none ∨ cell l.meridional w x y = none)) ∧
        (bn = 255 ↔ (cell l.zonal w x y = none ∨ cell l.meridional w x y = none)) ∧
        (bg = 255 ↔ (cell l.zonal w x y = none ∨ cell l.meridional w x y = none ∨ gustCell l w x y = none)) ∧
        ∀ e n, cell l.zonal w x y = some e → cell l.meridional w x y = some n →
          be = speedByte e ∧ bn = speedByte n ∧ bg = gustByte (gustCell l w x y) := by
  have gust : ∀ x y, x < w → y < h → l.getGustsByXY x y = .ok (gustCell l w x y) := by
    intro x y hx hy
    unfold WindLayer.getGustsByXY gustCell
    cases hgu : l.gusts with
    | none => rfl
    | some g => exact (hg g hgu).get hx hy
  obtain ⟨bytes, g1, g2, g3⟩ := forCells_layout (w := w) (h := h) (k := 3)
    (f := fun x y => (l.getWindByXY x y).bind fun w => (l.getGustsByXY x y).bind fun g => .ok (windBytes w g))
    (fun x y => windBytes (bothOf (cell l.zonal w x y) (cell l.meridional w x y)) (gustCell l w x y))
    (fun x y hx hy => by
      unfold WindLayer.getWindByXY
      rw [hz.get hx hy, hm.get hx hy, gust x y hx hy]; rfl)
    (fun x y _ _ => by unfold windBytes; split <;> rfl)
  refine ⟨bytes, ?_, g2, ?_⟩
  · unfold windBin WindLayer.dims; rw [hz.dims']; exact g1
  · intro x y hx hy
    have b0 := g3 x y 0 hx hy (by norm_num)
    have b1 := g3 x y 1 hx hy (by norm_num)
    have b2 := g3 x y 2 hx hy (by norm_num)
    rw [Nat.add_zero] at b0
    cases he : cell l.zonal w x y with
    | none =>
      rw [he] at b0 b1 b2
      exact ⟨255, 255, 255, b0, b1, b2, by simp, by simp, by simp, by simp⟩
    | some e =>
      cases hn : cell l.meridional w x y with
      | none =>
        rw [he, hn] at b0 b1 b2
        exact ⟨255, 255, 255, b0, b1, b2, by simp, by simp, by simp, by simp⟩
      | some n =>
        rw [he, hn] at b0 b1 b2
        refine ⟨_, _, _, b0, b1, b2, ?_, ?_, ?_, ?_⟩
        · simp only [reduceCtorEq, or_self, iff_false]; exact ne255_of_le (clamp254_le _)
        · simp only [reduceCtorEq, or_self, iff_false]; exact ne255_of_le (clamp254_le _)
        · simp only [reduceCtorEq, false_or]
          cases hgu : gustCell l w x y with
          | none => simp [gustByte, none8]
          | some g => simp only [reduceCtorEq, iff_false]; exact ne255_of_le (clamp254_le _)
        · intro e' n' h1 h2
          cases h1; cases h2
          exact ⟨rfl, rfl, rfl⟩

/-- **C39.** The bytes are the nearest knot, clamped, and ordered like the values. -/
theorem C39_encoding :
    (∀ q : Rat, |q| ≤ 1000 →
      |((speedByte (.fin q)).toNat : Rat) - max 0 (min 254 (q * (194384 / 100000) + 128))| ≤ 1 / 2 + 1 / 100 ∧
      |((gustByte (some (.fin q))).toNat : Rat) - max 0 (min 254 (q * (194384 / 100000)))| ≤ 1 / 2 + 1 / 100) ∧
    (∀ a b : Fl, Fl.le a b = true → speedByte a ≤ speedByte b ∧ gustByte (some a) ≤ gustByte (some b)) ∧
    (∀ a : Fl, speedByte a ≠ 255 ∧ gustByte (some a) ≠ 255) :=
  ⟨fun _ h => ⟨speedByte_acc h, gustByte_acc h⟩, fun _ _ h => ⟨speedByte_mono h, gustByte_mono h⟩,
    fun _ => ⟨ne255_of_le (clamp254_le _), ne255_of_le (clamp254_le _)⟩⟩

example : windBin ⟨rowGrid [.fin (-5), .fin 10, .fin (-1), .nan] (.fin (-1)),
    rowGrid [.fin 4, .fin 200, .fin 4, .pinf] (.fin (-1)),
    some (rowGrid [.fin 20, .fin (-1), .fin 4, .ninf] (.fin (-1)))⟩
    = .ok [118, 136, 39, 147, 254, 255, 255, 255, 255, 254, 254, 0] := by decide +kernel

/-! ## C40: weather -/

theorem div625 : Fl.div f32 (.fin (25 / 4)) (.fin 100) = .fin (1 / 16) := by decide +kernel
theorem div4375 : Fl.div f32 (.fin (175 / 4)) (.fin 100) = .fin (7 / 16) := by decide +kernel
theorem div8125 : Fl.div f32 (.fin (325 / 4)) (.fin 100) = .fin (13 / 16) := by decide +kernel

/-- The class of a cloud cover (a fraction) in eighths rounded: clear below half an eighth, then mainly
clear up to 3.5, partly cloudy up to 6.5 eighths, overcast above; NaN counts as overcast. -/
def coverClass (v : Fl) : Nat :=
  if Fl.le v (.fin (1 / 16)) then 0
  else if Fl.le v (.fin (7 / 16)) then 1
  else if Fl.le v (.fin (13 / 16)) then 2
  else 3

/-- The weather byte a reader expects: the code if there is one above 4, else the class of the cloud
cover, else 255. -/
def expectedWw (code : Option Nat) (cover : Option Fl) : Nat :=
  match code, cover with
  | some c, some v => if c > 4 then c else coverClass v
  | some c, none => if c > 4 then c else 255
  | none, some v => coverClass v
  | none, none => 255

theorem clctByte_some (v : Fl) : (clctByte (some v)).toNat = coverClass v := by
  unfold clctByte wwFromClct coverClass
  simp only [div625, div4375, div8125]
  by_cases h1 : Fl.le v (.fin (1 / 16)) = true
  · simp only [h1, if_true]; rfl
  · simp only [h1]
    by_cases h2 : Fl.le v (.fin (7 / 16)) = true
    · simp only [h2, if_true]; rfl
    · simp only [h2]
      by_cases h3 : Fl.le v (.fin (13 / 16)) = true
      · simp only [h3, if_true]; rfl
      · simp only [h3]; rfl

theorem coverClass_le (v : Fl) : coverClass v ≤ 3 := by unfold coverClass; split_ifs <;> omega

theorem wwByte_eq (ww : Option Weather) (clct : Option Fl) :
    (wwByte ww clct).toNat = expectedWw (ww.map fun w => w.toValue.toNat) clct := by
  have hgt : ∀ w : Weather, (w.toValue > 4) ↔ w.toValue.toNat > 4 := fun w => UInt8.lt_iff_toNat_lt
  unfold wwByte expectedWw
  cases ww with
  | none =>
    cases clct with
    | none => rfl
    | some v => exact clctByte_some v
  | some w =>
    simp only [Option.map_some]
    by_cases h : w.toValue > 4
    · cases clct <;> simp only [if_pos h, if_pos ((hgt w).mp h)]
    · cases clct with
      | none => simp only [if_neg h, if_neg (fun hh => h ((hgt w).mpr hh))]; rfl
      | some v => simp only [if_neg h, if_neg (fun hh => h ((hgt w).mpr hh))]; exact clctByte_some v

theorem expectedWw_255 (ww : Option Weather) (clct : Option Fl) :
    expectedWw (ww.map fun w => w.toValue.toNat) clct = 255 ↔
      clct = none ∧ ∀ w, ww = some w → w.toValue.toNat ≤ 4 := by
  have hne : ∀ w : Weather, w.toValue.toNat ≠ 255 := by intro w; cases w <;> decide
  unfold expectedWw
  cases ww with
  | none =>
    cases clct with
    | none => simp
    | some v => have := coverClass_le v; simp; omega
  | some w =>
    simp only [Option.map_some]
    cases clct with
    | none =>
      by_cases h : w.toValue.toNat > 4
      · simp only [if_pos h]; simp [hne w]; omega
      · simp only [if_neg h]; simp; omega
    | some v =>
      have := coverClass_le v
      by_cases h : w.toValue.toNat > 4
      · simp only [if_pos h]; simp [hne w]
      · simp only [if_neg h]; simp; omega

theorem ceilingByte_acc {q : Rat} (h0 : -9 / 10 ≤ q) (hq : q ≤ 100000) :
    (q * (328084 / 100000) ≤ 50899 → (ceilingByte (some (.fin q))).toNat ≤ 254 ∧
      |((ceilingByte (some (.fin q))).toNat : Rat) * 200 - q * (328084 / 100000)| ≤ 100 + 1 / 5) ∧
    (50901 ≤ q * (328084 / 100000) → ceilingByte (some (.fin q)) = 255) := by
  obtain ⟨f, hf, ef⟩ := (C57_scale_accuracy (q := q) (by rw [abs_le]; constructor <;> linarith)).1
  have hq' : |q| ≤ 100000 := by rw [abs_le]; constructor <;> linarith
  have ef' := abs_le.mp (ef.trans (show |q| / 2 ^ 21 + 1 / 2 ^ 150 ≤ 1 / 10 by
    have : |q| / 2 ^ 21 ≤ 100000 / 2 ^ 21 := by gcongr
    refine (add_le_add_left this _).trans ?_
    norm_num))
  have s1 : |f / 200| ≤ 2000 := by rw [abs_le]; constructor <;> linarith [ef'.1, ef'.2]
  obtain ⟨v, hv, -, ev⟩ := rnd32_err_le s1 (by norm_num)
  have ev' := abs_le.mp (ev.trans (show _ ≤ (2 / 10000 : Rat) by norm_num))
  have hv' : |v - q * (328084 / 100000) / 200| ≤ 1 / 1000 := by
    rw [abs_le]; constructor <;> linarith [ef'.1, ef'.2, ev'.1, ev'.2]
  have er := abs_le.mp (Fl.roundAway_err v)
  have hvv := abs_le.mp hv'
  set r := Fl.roundAway v with hr
  have r0 : 0 ≤ r := by
    have : (-1 : Rat) < r := by linarith [er.1, hvv.1]
    have : -1 < r := by exact_mod_cast this
    omega
  have e : Fl.round (Fl.div f32 (metersToFeet (.fin q)) (.fin 200)) = .fin (r : Rat) := by
    rw [hf, Fl.div_fin f32 f (by norm_num), hv]; rfl
  have hge : Fl.ge (.fin (r : Rat)) (.fin 255) = true ↔ r ≥ 255 := by
    unfold Fl.ge; rw [Fl.le_fin]; exact_mod_cast Iff.rfl
  unfold ceilingByte
  simp only [e]
  constructor
  · intro hlow
    have h : ¬ r ≥ 255 := by
      intro h
      have : (255 : Rat) ≤ r := by exact_mod_cast h
      linarith [er.2, hvv.2]
    rw [if_neg (fun hh => h (hge.mp hh))]
    have hb := clamp254_int r
    rw [max_eq_right (by omega), min_eq_right (by omega)] at hb
    have hb' : ((clamp254 (.fin (r : Rat))).toNat : Rat) = r := by exact_mod_cast hb
    refine ⟨by omega, ?_⟩
    rw [hb', abs_le]
    constructor <;> linarith [er.1, er.2, hvv.1, hvv.2]
  · intro hhigh
    have h : r ≥ 255 := by
      have : (254 : Rat) < r := by linarith [er.1, hvv.1]
      have : 254 < r := by exact_mod_cast this
      omega
    rw [if_pos (hge.mpr h)]; rfl

theorem ceilingByte_none : ceilingByte none = 255 := rfl

/-- The weather of a cell, where the layer has a weather grid. -/
def wwCell (l : WeatherLayer) (w x y : Nat) : Option Fl :=
  match l.ww with
  | some g => cell g w x y
  | none => none

/-- **C40.** If the weather grid has known codes only (others panic, see C41), the weather file has two
bytes for each cell, row by row.  The first is the weather code where there is one above 4, otherwise the
class of the cloud cover (0..3), and 255 exactly where neither is known.  The second is 255 where the
ceiling is missing; a ceiling of `q` meters is written in units of 200 feet, off by at most half a unit
(plus a fifth of a foot) up to 50899 feet, and as 255 above 50901 feet (up to 100 km). -/
theorem C40_file {l : WeatherLayer} {w h : Nat} (hc : Filled l.clct w h) (he : Filled l.ceiling w h)
    (hg : ∀ g, l.ww = some g → Filled g w h) (code : Nat → Nat → Option Weather)
    (hcode : ∀ x y, x < w → y < h → WeatherLayer.interpret (wwCell l w x y) = .ok (code x y)) :
    ∃ bytes, weatherBin l = .ok bytes ∧ bytes.length = w * h * 2 ∧
      ∀ x y, x < w → y < h → ∃ bw bc : UInt8, bytes[(y * w + x) * 2]? = some bw ∧
        bytes[(y * w + x) * 2 + 1]? = some bc ∧
        bw.toNat = expectedWw ((code x y).map fun w => w.toValue.toNat) (cell l.clct w x y) ∧
        (bw = 255 ↔ cell l.clct w x y = none ∧ ∀ c, code x y = some c → c.toValue.toNat ≤ 4) ∧
        (cell l.ceiling w x y = none → bc = 255) ∧
        ∀ q : Rat, cell l.ceiling w x y = some (.fin q) → -9 / 10 ≤ q → q ≤ 100000 →
          (q * (328084 / 100000) ≤ 50899 → bc.toNat ≤ 254 ∧
            |(bc.toNat : Rat) * 200 - q * (328084 / 100000)| ≤ 100 + 1 / 5) ∧
          (50901 ≤ q * (328084 / 100000) → bc = 255) := by
  have hww : ∀ x y, x < w → y < h → l.getWwByXY x y = .ok (code x y) := by
    intro x y hx hy
    have := hcode x y hx hy
    unfold wwCell at this
    unfold WeatherLayer.getWwByXY
    cases hw : l.ww with
    | none => rw [hw] at this; exact this
    | some g =>
      rw [hw] at this
      simp only
      rw [(hg g hw).get hx hy]; exact this
  obtain ⟨bytes, g1, g2, g3⟩ := forCells_layout (w := w) (h := h) (k := 2)
    (f := fun x y => (l.getWwByXY x y).bind fun ww => (l.clct.getValueByXY x y).bind fun clct =>
      (l.ceiling.getValueByXY x y).bind fun c => .ok [wwByte ww clct, ceilingByte c])
    (fun x y => [wwByte (code x y) (cell l.clct w x y), ceilingByte (cell l.ceiling w x y)])
    (fun x y hx hy => by
      rw [hww x y hx hy, hc.get hx hy, he.get hx hy]; rfl)
    (fun x y _ _ => rfl)
  refine ⟨bytes, ?_, g2, ?_⟩
  · unfold weatherBin WeatherLayer.dims; rw [hc.dims']; exact g1
  · intro x y hx hy
    have b0 := g3 x y 0 hx hy (by norm_num)
    have b1 := g3 x y 1 hx hy (by norm_num)
    rw [Nat.add_zero] at b0
    refine ⟨_, _, b0, b1, wwByte_eq _ _, ?_, ?_, ?_⟩
    · rw [← expectedWw_255, ← wwByte_eq]
      rw [← UInt8.toNat_inj]; rfl
    · intro hn; rw [hn]; rfl
    · intro q hq h0 h1
      rw [hq]
      exact ceilingByte_acc h0 h1

example : weatherBin ⟨rowGrid [.fin (1 / 2), .fin (1 / 2), .fin (-1), .fin 1] (.fin (-1)),
    rowGrid [.fin 1000, .fin (-1), .fin 16000, .nan] (.fin (-1)),
    some (rowGrid [.fin 61, .fin 3, .fin 2, .fin (-1)] (.fin (-1)))⟩
    = .ok [61, 16, 2, 255, 255, 255, 3, 254] := by decide +kernel

/-! ## C42: vertical cross sections -/

theorem Res.index_some {α : Type} {l : List α} {i : Nat} {a : α} (h : l[i]? = some a) : Res.index l i = .ok a := by
  unfold Res.index; rw [h]

/-- **C42, clouds.**  For all levels of a layer of filled grids of the same size the file holds, for each
cell row by row and each level in turn, the height byte and the cloud cover byte of this cell and level,
255 where missing. -/
theorem C42_clouds {l : VerticalCloudLayer} {w h n : Nat} (hn : 0 < n) (hh : l.hhl.length = n) (hc : l.clc.length = n)
    (fh : ∀ g ∈ l.hhl, Filled g w h) (fc : ∀ g ∈ l.clc, Filled g w h) :
    ∃ bytes, verticalCloudBin l = .ok bytes ∧ bytes.length = w * h * (n * 2) ∧
      ∀ x y level gh gc, x < w → y < h → l.hhl[level]? = some gh → l.clc[level]? = some gc →
        bytes[((y * w + x) * n + level) * 2]? = some ((cell gh w x y).getD 255) ∧
        bytes[((y * w + x) * n + level) * 2 + 1]? = some ((cell gc w x y).getD 255) := by
  have dims : l.dims = .ok (w, h, n) := by
    have h0 : 0 < l.clc.length := by omega
    unfold VerticalCloudLayer.dims
    rw [List.getElem?_eq_getElem h0]
    show Res.ok ((l.clc[0]).dims.1, (l.clc[0]).dims.2, l.clc.length) = _
    rw [(fc _ (List.getElem_mem h0)).dims', hc]
  have byLevel : ∀ x y, x < w → y < h → ∃ bytes, (forLevels n fun level =>
      (l.getHhl x y level).bind fun a => (l.getClc x y level).bind fun b =>
        .ok [unwrapOr a none8, unwrapOr b none8]) = .ok bytes ∧ bytes.length = n * 2 ∧
      ∀ level gh gc, l.hhl[level]? = some gh → l.clc[level]? = some gc →
        bytes[level * 2]? = some ((cell gh w x y).getD 255) ∧
        bytes[level * 2 + 1]? = some ((cell gc w x y).getD 255) := by
    intro x y hx hy
    obtain ⟨bytes, h1, h2, h3⟩ := forLevels_layout (n := n) (k := 2)
      (f := fun level => (l.getHhl x y level).bind fun a => (l.getClc x y level).bind fun b =>
        .ok [unwrapOr a none8, unwrapOr b none8])
      (fun level => [(((l.hhl[level]?).bind fun g => cell g w x y)).getD 255,
        (((l.clc[level]?).bind fun g => cell g w x y)).getD 255])
      (fun i hi => by
        have e1 := List.getElem?_eq_getElem (l := l.hhl) (i := i) (by omega)
        have e2 := List.getElem?_eq_getElem (l := l.clc) (i := i) (by omega)
        unfold VerticalCloudLayer.getHhl VerticalCloudLayer.getClc
        rw [Res.index_some e1, Res.index_some e2, e1, e2]
        show Res.bind ((l.hhl[i]).getValueByXY x y) _ = _
        rw [(fh _ (List.getElem_mem (by omega))).get hx hy]
        show Res.bind ((l.clc[i]).getValueByXY x y) _ = _
        rw [(fc _ (List.getElem_mem (by omega))).get hx hy]
        simp only [Option.bind_some]
        cases cell l.hhl[i] w x y <;> cases cell l.clc[i] w x y <;> rfl)
      (fun _ _ => rfl)
    refine ⟨bytes, h1, h2, ?_⟩
    intro level gh gc e1 e2
    have hlt : level < n := by
      have := List.getElem?_eq_some_iff.mp e1
      obtain ⟨hl, -⟩ := this
      omega
    have b0 := h3 level 0 hlt (by norm_num)
    have b1 := h3 level 1 hlt (by norm_num)
    rw [Nat.add_zero] at b0
    rw [e1, e2] at b0 b1
    exact ⟨b0, b1⟩
  choose! b hb1 hb2 hb3 using byLevel
  obtain ⟨bytes, g1, g2, g3⟩ := forCells_layout (w := w) (h := h) (k := n * 2) b hb1 hb2
  refine ⟨bytes, ?_, g2, ?_⟩
  · unfold verticalCloudBin
    rw [dims]
    exact g1
  · intro x y level gh gc hx hy e1 e2
    have hlt : level < n := by
      have := List.getElem?_eq_some_iff.mp e1
      obtain ⟨hl, -⟩ := this
      omega
    obtain ⟨c1, c2⟩ := hb3 x y hx hy level gh gc e1 e2
    have i1 := g3 x y (level * 2) hx hy (by omega)
    have i2 := g3 x y (level * 2 + 1) hx hy (by omega)
    rw [c1] at i1
    rw [c2] at i2
    rw [← i1, ← i2]
    constructor <;> congr 1 <;> ring

/-- **C42, wind.**  The same for the three bytes height, eastward and northward wind; both wind bytes are
255 if one component is missing. -/
theorem C42_wind {l : VerticalWindLayer} {w h n : Nat} (hn : 0 < n) (hh : l.hhl.length = n) (hu : l.u.length = n)
    (hv : l.v.length = n) (fh : ∀ g ∈ l.hhl, Filled g w h) (fu : ∀ g ∈ l.u, Filled g w h)
    (fv : ∀ g ∈ l.v, Filled g w h) :
    ∃ bytes, verticalWindBin l = .ok bytes ∧ bytes.length = w * h * (n * 3) ∧
      ∀ x y level gh gu gv, x < w → y < h → l.hhl[level]? = some gh → l.u[level]? = some gu →
        l.v[level]? = some gv →
        bytes[((y * w + x) * n + level) * 3]? = some ((cell gh w x y).getD 255) ∧
        (∀ u v, cell gu w x y = some u → cell gv w x y = some v →
          bytes[((y * w + x) * n + level) * 3 + 1]? = some u ∧
          bytes[((y * w + x) * n + level) * 3 + 2]? = some v) ∧
        ((cell gu w x y = none ∨ cell gv w x y = none) →
          bytes[((y * w + x) * n + level) * 3 + 1]? = some 255 ∧
          bytes[((y * w + x) * n + level) * 3 + 2]? = some 255) := by
  have dims : l.dims = .ok (w, h, n) := by
    have h0 : 0 < l.u.length := by omega
    unfold VerticalWindLayer.dims
    rw [List.getElem?_eq_getElem h0]
    show Res.ok ((l.u[0]).dims.1, (l.u[0]).dims.2, l.u.length) = _
    rw [(fu _ (List.getElem_mem h0)).dims', hu]
  have byLevel : ∀ x y, x < w → y < h → ∃ bytes, (forLevels n fun level =>
      (l.getHhl x y level).bind fun a => (l.getUV x y level).bind fun b =>
        .ok (unwrapOr a none8 :: uvBytes b)) = .ok bytes ∧ bytes.length = n * 3 ∧
      ∀ level gh gu gv, l.hhl[level]? = some gh → l.u[level]? = some gu → l.v[level]? = some gv → ∀ i, i < 3 →
        bytes[level * 3 + i]? = ((cell gh w x y).getD 255 :: uvBytes (bothOf (cell gu w x y) (cell gv w x y)))[i]? := by
    intro x y hx hy
    obtain ⟨bytes, h1, h2, h3⟩ := forLevels_layout (n := n) (k := 3)
      (f := fun level => (l.getHhl x y level).bind fun a => (l.getUV x y level).bind fun b =>
        .ok (unwrapOr a none8 :: uvBytes b))
      (fun level => (((l.hhl[level]?).bind fun g => cell g w x y)).getD 255 ::
        uvBytes (bothOf ((l.u[level]?).bind fun g => cell g w x y) ((l.v[level]?).bind fun g => cell g w x y)))
      (fun i hi => by
        have e1 := List.getElem?_eq_getElem (l := l.hhl) (i := i) (by omega)
        have e2 := List.getElem?_eq_getElem (l := l.u) (i := i) (by omega)
        have e3 := List.getElem?_eq_getElem (l := l.v) (i := i) (by omega)
        unfold VerticalWindLayer.getHhl VerticalWindLayer.getUV
        rw [Res.index_some e1, Res.index_some e2, Res.index_some e3, e1, e2, e3]
        show Res.bind ((l.hhl[i]).getValueByXY x y) _ = _
        rw [(fh _ (List.getElem_mem (by omega))).get hx hy]
        show Res.bind (Res.bind ((l.u[i]).getValueByXY x y) _) _ = _
        rw [(fu _ (List.getElem_mem (by omega))).get hx hy]
        show Res.bind (Res.bind ((l.v[i]).getValueByXY x y) _) _ = _
        rw [(fv _ (List.getElem_mem (by omega))).get hx hy]
        simp only [Option.bind_some]
        cases cell l.hhl[i] w x y <;> rfl)
      (fun _ _ => by
        simp only [List.length_cons]
        unfold uvBytes
        split <;> rfl)
    refine ⟨bytes, h1, h2, ?_⟩
    intro level gh gu gv e1 e2 e3 i hi
    have hlt : level < n := by
      have := List.getElem?_eq_some_iff.mp e1
      obtain ⟨hl, -⟩ := this
      omega
    have b0 := h3 level i hlt hi
    rw [e1, e2, e3] at b0
    exact b0
  choose! b hb1 hb2 hb3 using byLevel
  obtain ⟨bytes, g1, g2, g3⟩ := forCells_layout (w := w) (h := h) (k := n * 3) b hb1 hb2
  refine ⟨bytes, ?_, g2, ?_⟩
  · unfold verticalWindBin
    rw [dims]
    exact g1
  · intro x y level gh gu gv hx hy e1 e2 e3
    have hlt : level < n := by
      have := List.getElem?_eq_some_iff.mp e1
      obtain ⟨hl, -⟩ := this
      omega
    have at' : ∀ i, i < 3 → bytes[((y * w + x) * n + level) * 3 + i]? =
        ((cell gh w x y).getD 255 :: uvBytes (bothOf (cell gu w x y) (cell gv w x y)))[i]? := by
      intro i hi
      have i1 := g3 x y (level * 3 + i) hx hy (by omega)
      rw [hb3 x y hx hy level gh gu gv e1 e2 e3 i hi] at i1
      rw [← i1]
      congr 1; ring
    have a0 := at' 0 (by norm_num)
    have a1 := at' 1 (by norm_num)
    have a2 := at' 2 (by norm_num)
    rw [Nat.add_zero] at a0
    refine ⟨a0, ?_, ?_⟩
    · intro u v hu hv
      rw [hu, hv] at a1 a2
      exact ⟨a1, a2⟩
    · intro hnone
      rcases hnone with hx | hx
      · rw [hx] at a1 a2
        exact ⟨a1, a2⟩
      · rw [hx] at a1 a2
        cases hcu : cell gu w x y <;> rw [hcu] at a1 a2 <;> exact ⟨a1, a2⟩

example : verticalCloudBin ⟨[rowGrid [10, 11] 255, rowGrid [20, 255] 255], [rowGrid [50, 60] 255, rowGrid [70, 80] 255]⟩
    = .ok [10, 50, 20, 70, 11, 60, 255, 80] := by decide +kernel

example : verticalWindBin ⟨[rowGrid [10, 11] 255, rowGrid [20, 255] 255], [rowGrid [50, 60] 255, rowGrid [70, 80] 255],
      [rowGrid [51, 61] 255, rowGrid [255, 81] 255]⟩
    = .ok [10, 50, 51, 20, 255, 255, 11, 60, 61, 255, 80, 81] := by decide +kernel

end Verif.Props
