import Verif.Props.Geo
import Verif.Lemmas.FloatErr
import Mathlib.Tactic.IntervalCases

/-!
# Properties C21, C22: bilinear interpolation
-/

namespace Verif.Props

open Verif

variable {T : Type} [GridValue T]

/-- A finite extent (the only kind `LatLonExtent::new(LatLon::new(..), LatLon::new(..))` gives from
finite numbers). -/
def finExtent (s w n e : Rat) : LatLonExtent := ⟨⟨.fin s, .fin w⟩, ⟨.fin n, .fin e⟩⟩

theorem nonneg_div {a b : Fl} (ha : Fl.le (.fin 0) a = true) (hb : Fl.le (.fin 0) b = true) :
    Fl.div f32 a b = .nan ∨ Fl.le (.fin 0) (Fl.div f32 a b) = true := by
  cases a with
  | nan => simp [Fl.le] at ha
  | ninf => simp [Fl.le] at ha
  | pinf =>
    cases b with
    | nan => simp [Fl.le] at hb
    | ninf => simp [Fl.le] at hb
    | pinf => left; rfl
    | fin q =>
      right
      simp only [Fl.le_fin] at hb
      simp [Fl.div, Fl.le, not_lt.mpr hb]
  | fin p =>
    simp only [Fl.le_fin] at ha
    cases b with
    | nan => simp [Fl.le] at hb
    | ninf => simp [Fl.le] at hb
    | pinf => right; simp [Fl.div, Fl.le]
    | fin q =>
      simp only [Fl.le_fin] at hb
      by_cases hq : q = 0
      · subst hq
        by_cases hp : p = 0
        · left; subst hp; simp [Fl.div, Fl.infSign]
        · right
          have : 0 < p := lt_of_le_of_ne ha (Ne.symm hp)
          simp [Fl.div, Fl.infSign, this, Fl.le]
      · right
        rw [Fl.div_fin _ _ hq]
        have := Fl.rnd_mono prec32 (show (0 : Rat) ≤ p / q by positivity)
        rwa [rnd_zero] at this

/-- Fractional coordinates of a position inside the extent are never negative. -/
theorem getXY_nonneg (dims : Nat × Nat) (s w n e : Rat) (pos : LatLon) (fx fy : Fl)
    (h : (LatLonGrid.new dims (finExtent s w n e)).getXYByLatLon pos = some (fx, fy)) :
    (fx = .nan ∨ Fl.le (.fin 0) fx = true) ∧ (fy = .nan ∨ Fl.le (.fin 0) fy = true) := by
  unfold LatLonGrid.getXYByLatLon at h
  split at h
  · simp at h
  rename_i hin
  simp only [Bool.not_eq_true', Bool.not_eq_false] at hin
  obtain ⟨lat, lon⟩ := pos
  simp only [LatLonGrid.new, finExtent, LatLonExtent.isInside, Bool.and_eq_true, Fl.ge] at hin
  obtain ⟨⟨⟨i1, i2⟩, i3⟩, i4⟩ := hin
  obtain ⟨lat, rfl, a1, a2⟩ := Fl.fin_of_between i1 (Fl.le_of_lt i2)
  obtain ⟨lon, rfl, b1, b2⟩ := Fl.fin_of_between i3 (Fl.le_of_lt i4)
  simp only [Option.some.injEq, Prod.mk.injEq, LatLonGrid.new, finExtent] at h
  obtain ⟨rfl, rfl⟩ := h
  have sub0 : ∀ p q : Rat, q ≤ p → Fl.le (.fin 0) (Fl.sub f32 (.fin p) (.fin q)) = true := by
    intro p q hpq
    rw [Fl.sub_fin]
    have := Fl.rnd_mono prec32 (show (0 : Rat) ≤ p - q by linarith)
    rwa [rnd_zero] at this
  have nat0 : ∀ k : Nat, Fl.le (.fin 0) (Fl.ofNat f32 k) = true := by
    intro k
    have := Fl.rnd_mono prec32 (show (0 : Rat) ≤ k by positivity)
    rwa [rnd_zero] at this
  have inc : ∀ (p q : Rat) (k : Nat), q ≤ p → ∀ r : Fl, Fl.le (.fin 0) r = true →
      Fl.div f32 r (Fl.div f32 (Fl.sub f32 (.fin p) (.fin q)) (Fl.ofNat f32 k)) = .nan ∨
      Fl.le (.fin 0) (Fl.div f32 r (Fl.div f32 (Fl.sub f32 (.fin p) (.fin q)) (Fl.ofNat f32 k))) = true := by
    intro p q k hpq r hr
    rcases nonneg_div (sub0 p q hpq) (nat0 k) with h | h
    · left; rw [h]; cases r <;> rfl
    · exact nonneg_div hr h
  exact ⟨inc e w dims.1 (by linarith) _ (sub0 lon w b1), inc n s dims.2 (by linarith) _ (sub0 lat s a1)⟩

/-- **C21**: nothing outside the extent. -/
theorem C21_outside (g : LatLonValueGrid T) (p : LatLon) (h : g.grid.extent.isInside p = false) :
    g.interpolate p = .ok none := by
  unfold LatLonValueGrid.interpolate LatLonGrid.getXYByLatLon
  simp [h]

theorem floor_usize {q : Rat} (h1 : q < 2 ^ 63) :
    Fl.toUSize (Fl.floor (.fin q)) = ⌊q⌋.toNat := by
  have : ⌊q⌋ < 2 ^ 63 := by
    rw [Int.floor_lt]; push_cast; exact h1
  simp only [Fl.floor, Fl.toUSize, Fl.toUInt, Int.floor_intCast]
  omega

theorem ceil_usize {q : Rat} (h1 : q < 2 ^ 63) :
    Fl.toUSize (Fl.ceil (.fin q)) = ⌈q⌉.toNat := by
  have : ⌈q⌉ ≤ 2 ^ 63 := by
    rw [Int.ceil_le]; push_cast; exact h1.le
  simp only [Fl.ceil, Fl.toUSize, Fl.toUInt, Int.floor_intCast]
  omega

/-- The interpolation result in terms of the rational fractional coordinates: `x`, `y` are the floors;
cells outside the grid count as missing. -/
theorem interpolate_eq (g : LatLonValueGrid T) (w h : Nat) (hd : g.grid.dimensions = (w, h))
    (hs : w * h ≤ 2 ^ 64) (hv : g.values.length = w * h) (hw : w ≤ 2 ^ 24) (hh : h ≤ 2 ^ 24)
    (p : LatLon) (fx fy : Rat)
    (hp : g.grid.getXYByLatLon p = some (.fin fx, .fin fy)) (hx0 : 0 ≤ fx) (hy0 : 0 ≤ fy)
    (hx1 : fx < 2 ^ 63) (hy1 : fy < 2 ^ 63) :
    g.interpolate p =
      if (fx = ⌊fx⌋) ∨ (fy = ⌊fy⌋) then g.getValueByXY ⌊fx⌋.toNat ⌊fy⌋.toNat
      else (do
        let tl ← g.getValueByXY ⌊fx⌋.toNat ⌊fy⌋.toNat
        let tr ← g.getValueByXY (⌊fx⌋.toNat + 1) ⌊fy⌋.toNat
        let bl ← g.getValueByXY ⌊fx⌋.toNat (⌊fy⌋.toNat + 1)
        let br ← g.getValueByXY (⌊fx⌋.toNat + 1) (⌊fy⌋.toNat + 1)
        let a := Fl.sub f32 (.fin (⌊fx⌋ + 1)) (.fin fx)
        let b := Fl.sub f32 (.fin fx) (.fin ⌊fx⌋)
        let c := Fl.sub f32 (.fin (⌊fy⌋ + 1)) (.fin fy)
        let d := Fl.sub f32 (.fin fy) (.fin ⌊fy⌋)
        .ok (LatLonValueGrid.interpolateValue (LatLonValueGrid.interpolateValue tl a tr b) c
              (LatLonValueGrid.interpolateValue bl a br b) d)) := by
  have fx0 : 0 ≤ ⌊fx⌋ := Int.floor_nonneg.mpr hx0
  have fy0 : 0 ≤ ⌊fy⌋ := Int.floor_nonneg.mpr hy0
  have cx0 : 0 ≤ ⌈fx⌉ := Int.ceil_nonneg hx0
  have cy0 : 0 ≤ ⌈fy⌉ := Int.ceil_nonneg hy0
  unfold LatLonValueGrid.interpolate
  rw [hp]
  simp only
  rw [floor_usize hx1, floor_usize hy1, ceil_usize hx1, ceil_usize hy1]
  have hcx : ∀ q : Rat, 0 ≤ q → ((⌊q⌋.toNat = ⌈q⌉.toNat) ↔ q = ⌊q⌋) := by
    intro q hq
    have e0 := Int.floor_nonneg.mpr hq
    have e1 := Int.ceil_nonneg hq
    constructor
    · intro h
      have h' : ⌊q⌋ = ⌈q⌉ := by omega
      exact _root_.le_antisymm (by rw [h']; exact Int.le_ceil q) (Int.floor_le q)
    · intro h
      have : ⌈q⌉ = ⌊q⌋ := by
        conv_lhs => rw [h]
        exact Int.ceil_intCast _
      rw [this]
  have hce : ∀ q : Rat, q ≠ ⌊q⌋ → ⌈q⌉ = ⌊q⌋ + 1 := by
    intro q hq
    rw [Int.ceil_eq_iff]
    push_cast
    exact ⟨by
      have := lt_of_le_of_ne (Int.floor_le q) (Ne.symm hq)
      linarith, (Int.lt_floor_add_one q).le⟩
  have hdims : g.dims = (w, h) := hd
  rw [hdims]
  have hgw : Fl.ofNat f32 w = .fin w := rnd32_nat hw
  have hgh : Fl.ofNat f32 h = .fin h := rnd32_nat hh
  simp only [hgw, hgh]
  have g1 : Fl.lt (Fl.ceil (.fin fx)) (.fin 0) = false := by
    simp only [Fl.ceil, Fl.lt, decide_eq_false_iff_not, not_lt]; exact_mod_cast cx0
  have g2 : Fl.lt (Fl.ceil (.fin fy)) (.fin 0) = false := by
    simp only [Fl.ceil, Fl.lt, decide_eq_false_iff_not, not_lt]; exact_mod_cast cy0
  have nx : Fl.ge (Fl.floor (.fin fx)) (.fin (w : Rat)) = decide (w ≤ ⌊fx⌋.toNat) := by
    simp only [Fl.ge, Fl.floor, Fl.le]
    rw [decide_eq_decide]
    constructor
    · intro h
      have : (w : Int) ≤ ⌊fx⌋ := by exact_mod_cast h
      omega
    · intro h
      have : (w : Int) ≤ ⌊fx⌋ := by omega
      exact_mod_cast this
  have ny : Fl.ge (Fl.floor (.fin fy)) (.fin (h : Rat)) = decide (h ≤ ⌊fy⌋.toNat) := by
    simp only [Fl.ge, Fl.floor, Fl.le]
    rw [decide_eq_decide]
    constructor
    · intro h'
      have : (h : Int) ≤ ⌊fy⌋ := by exact_mod_cast h'
      omega
    · intro h'
      have : (h : Int) ≤ ⌊fy⌋ := by omega
      exact_mod_cast this
  simp only [g1, g2, nx, ny, Bool.false_or]
  have out : ∀ x y, ¬ (x < w ∧ y < h) → g.getValueByXY x y = .ok none :=
    fun x y => (C19_lookup g w h hd hs hv x y).2
  have tot : ∀ x y, ∃ o, g.getValueByXY x y = .ok o := by
    intro x y
    by_cases hxy : x < w ∧ y < h
    · obtain ⟨v, -, e⟩ := (C19_lookup g w h hd hs hv x y).1 hxy
      exact ⟨_, e⟩
    · exact ⟨_, out x y hxy⟩
  have hif : (⌊fx⌋.toNat = ⌈fx⌉.toNat ∨ ⌊fy⌋.toNat = ⌈fy⌉.toNat) ↔ (fx = ⌊fx⌋ ∨ fy = ⌊fy⌋) := by
    rw [hcx fx hx0, hcx fy hy0]
  by_cases hg : (decide (w ≤ ⌊fx⌋.toNat) || decide (h ≤ ⌊fy⌋.toNat)) = true
  · rw [if_pos hg]
    simp only [Bool.or_eq_true, decide_eq_true_eq] at hg
    have o1 := out ⌊fx⌋.toNat ⌊fy⌋.toNat (by omega)
    obtain ⟨o2, h2⟩ := tot (⌊fx⌋.toNat + 1) ⌊fy⌋.toNat
    obtain ⟨o3, h3⟩ := tot ⌊fx⌋.toNat (⌊fy⌋.toNat + 1)
    obtain ⟨o4, h4⟩ := tot (⌊fx⌋.toNat + 1) (⌊fy⌋.toNat + 1)
    rw [o1, h2, h3, h4]
    split
    · rfl
    · rfl
  · rw [if_neg hg]
    by_cases hl : fx = ⌊fx⌋ ∨ fy = ⌊fy⌋
    · rw [if_pos (hif.2 hl), if_pos hl]
    · rw [if_neg (fun hc => hl (hif.1 hc)), if_neg hl]
      rw [not_or] at hl
      have ex := hce fx hl.1
      have ey := hce fy hl.2
      have tx : ⌈fx⌉.toNat = ⌊fx⌋.toNat + 1 := by omega
      have ty : ⌈fy⌉.toNat = ⌊fy⌋.toNat + 1 := by omega
      rw [tx, ty]
      have cx : Fl.ceil (.fin fx) = .fin (⌊fx⌋ + 1) := by
        simp only [Fl.ceil, ex]; push_cast; rfl
      have cy : Fl.ceil (.fin fy) = .fin (⌊fy⌋ + 1) := by
        simp only [Fl.ceil, ey]; push_cast; rfl
      rw [cx, cy]
      rfl

/-- **C21.** Interpolation at a position that is not on a grid line gives nothing when one of the four
surrounding cells is missing or outside the grid, and something otherwise. -/
theorem C21_missing (g : LatLonValueGrid T) (w h : Nat) (hd : g.grid.dimensions = (w, h))
    (hs : w * h ≤ 2 ^ 64) (hv : g.values.length = w * h) (hw : w ≤ 2 ^ 24) (hh : h ≤ 2 ^ 24)
    (p : LatLon) (fx fy : Rat)
    (hp : g.grid.getXYByLatLon p = some (.fin fx, .fin fy)) (hx0 : 0 ≤ fx) (hy0 : 0 ≤ fy)
    (hx1 : fx < 2 ^ 63) (hy1 : fy < 2 ^ 63) (nx : fx ≠ ⌊fx⌋) (ny : fy ≠ ⌊fy⌋) :
    (g.interpolate p = .ok none ↔
      ∃ dx dy, dx < 2 ∧ dy < 2 ∧ g.getValueByXY (⌊fx⌋.toNat + dx) (⌊fy⌋.toNat + dy) = .ok none) ∧
    (∃ o, g.interpolate p = .ok o) := by
  rw [interpolate_eq g w h hd hs hv hw hh p fx fy hp hx0 hy0 hx1 hy1]
  rw [if_neg (by rintro (h | h); exacts [nx h, ny h])]
  have tot : ∀ x y, ∃ o, g.getValueByXY x y = .ok o := by
    intro x y
    by_cases hxy : x < w ∧ y < h
    · obtain ⟨v, -, e⟩ := (C19_lookup g w h hd hs hv x y).1 hxy
      exact ⟨_, e⟩
    · exact ⟨_, (C19_lookup g w h hd hs hv x y).2 hxy⟩
  obtain ⟨o1, h1⟩ := tot ⌊fx⌋.toNat ⌊fy⌋.toNat
  obtain ⟨o2, h2⟩ := tot (⌊fx⌋.toNat + 1) ⌊fy⌋.toNat
  obtain ⟨o3, h3⟩ := tot ⌊fx⌋.toNat (⌊fy⌋.toNat + 1)
  obtain ⟨o4, h4⟩ := tot (⌊fx⌋.toNat + 1) (⌊fy⌋.toNat + 1)
  rw [h1, h2, h3, h4]
  simp only [Res.bind_ok]
  refine ⟨?_, _, rfl⟩
  rw [Res.ok.injEq]
  constructor
  · intro hn
    cases o1 with
    | none => exact ⟨0, 0, by omega, by omega, h1⟩
    | some v1 =>
      cases o2 with
      | none => exact ⟨1, 0, by omega, by omega, h2⟩
      | some v2 =>
        cases o3 with
        | none => exact ⟨0, 1, by omega, by omega, h3⟩
        | some v3 =>
          cases o4 with
          | none => exact ⟨1, 1, by omega, by omega, h4⟩
          | some v4 => simp [LatLonValueGrid.interpolateValue] at hn
  · rintro ⟨dx, dy, hdx, hdy, he⟩
    have hdx' : dx = 0 ∨ dx = 1 := by omega
    have hdy' : dy = 0 ∨ dy = 1 := by omega
    rcases hdx' with rfl | rfl <;> rcases hdy' with rfl | rfl
    · rw [Nat.add_zero, Nat.add_zero, h1, Res.ok.injEq] at he
      subst he; rfl
    · rw [Nat.add_zero, h3, Res.ok.injEq] at he
      subst he
      cases o1 <;> cases o2 <;> rfl
    · rw [Nat.add_zero ⌊fy⌋.toNat, h2, Res.ok.injEq] at he
      subst he
      cases o1 <;> cases o3 <;> cases o4 <;> rfl
    · rw [h4, Res.ok.injEq] at he
      subst he
      cases o1 <;> cases o2 <;> cases o3 <;> rfl

/-- **C21.** At a position whose fractional coordinates are integers the interpolated value is exactly
the stored cell value. -/
theorem C21_node (g : LatLonValueGrid T) (w h : Nat) (hd : g.grid.dimensions = (w, h))
    (hs : w * h ≤ 2 ^ 64) (hv : g.values.length = w * h) (hw : w ≤ 2 ^ 24) (hh : h ≤ 2 ^ 24)
    (p : LatLon) (x y : Nat) (hp : g.grid.getXYByLatLon p = some (.fin x, .fin y))
    (hx : x < w) (hy : y < h) :
    ∃ v, g.values[y * w + x]? = some v ∧
      g.interpolate p = .ok (if GridValue.eq v g.missingValue then none else some v) := by
  obtain ⟨v, hv1, hv2⟩ := (C19_lookup g w h hd hs hv x y).1 ⟨hx, hy⟩
  refine ⟨v, hv1, ?_⟩
  have hxq : (x : Rat) < 2 ^ 63 := by
    have : x < 2 ^ 63 := by omega
    exact_mod_cast this
  have hyq : (y : Rat) < 2 ^ 63 := by
    have : y < 2 ^ 63 := by omega
    exact_mod_cast this
  rw [interpolate_eq g w h hd hs hv hw hh p x y hp (by positivity) (by positivity) hxq hyq]
  rw [if_pos (Or.inl (by simp))]
  simpa using hv2

/-- A 2 x 2 grid of binary32 numbers over 0..2 N, 0..2 E, with corner values 0, 10 / 20, 40. -/
def interpGrid : LatLonValueGrid Fl :=
  LatLonValueGrid.new [.fin 0, .fin 10, .fin 20, .fin 40] (.fin (-1)) (2, 2) (finExtent 0 0 2 2)

example : interpGrid.interpolate ⟨.fin (1 / 2), .fin (1 / 2)⟩ = .ok (some (.fin (35 / 2))) := by
  decide +kernel
example : interpGrid.interpolate ⟨.fin 1, .fin 1⟩ = .ok (some (.fin 40)) := by
  obtain ⟨v, h1, h2⟩ := C21_node interpGrid 2 2 rfl (by norm_num) rfl (by norm_num) (by norm_num)
    ⟨.fin 1, .fin 1⟩ 1 1 (by decide +kernel) (by norm_num) (by norm_num)
  rw [h2]
  have : v = .fin 40 := by simpa [interpGrid, LatLonValueGrid.new] using h1.symm
  subst this
  decide +kernel
/-- Between the last column and the right edge there is no right neighbour, hence no value. -/
example : interpGrid.interpolate ⟨.fin (1 / 2), .fin (3 / 2)⟩ = .ok none :=
  ((C21_missing interpGrid 2 2 rfl (by norm_num) rfl (by norm_num) (by norm_num)
    ⟨.fin (1 / 2), .fin (3 / 2)⟩ (3 / 2) (1 / 2) (by decide +kernel) (by norm_num) (by norm_num)
    (by norm_num) (by norm_num) (by norm_num [Int.floor_eq_iff]) (by norm_num)).1).2
    ⟨1, 0, by decide, by decide, by decide +kernel⟩

/-! ## C22 -/

/-- **C22, grid lines: false for the code.** On a grid line (here the left edge, halfway between the
values 0 and 20) the value is not the linear interpolation along the line but the value of the lower
corner. -/
theorem C22_grid_line_counterexample : ¬ ∀ (g : LatLonValueGrid Fl) (p : LatLon) (y : Nat)
    (a b : Rat), g.grid.getXYByLatLon p = some (.fin 0, .fin (y + 1 / 2)) →
    g.getValueByXY 0 y = .ok (some (.fin a)) → g.getValueByXY 0 (y + 1) = .ok (some (.fin b)) →
    ∃ v, g.interpolate p = .ok (some (.fin v)) ∧ |v - (a + b) / 2| ≤ 1 := by
  intro h
  obtain ⟨v, h1, h2⟩ := h interpGrid ⟨.fin (1 / 2), .fin 0⟩ 0 0 20 (by decide +kernel)
    (by decide +kernel) (by decide +kernel)
  have e : interpGrid.interpolate ⟨.fin (1 / 2), .fin 0⟩ = .ok (some (.fin 0)) := by decide +kernel
  rw [e] at h1
  simp only [Res.ok.injEq, Option.some.injEq, Fl.fin.injEq] at h1
  subst h1
  norm_num [abs_le] at h2

/-- The two weights of one axis: `1 - s` and `s` up to rounding, for `s` the fractional part. -/
theorem weights (q : Rat) : ∃ a b : Rat,
    Fl.sub f32 (.fin (⌊q⌋ + 1)) (.fin q) = .fin a ∧ Fl.sub f32 (.fin q) (.fin ⌊q⌋) = .fin b ∧
    |a - (1 - Int.fract q)| ≤ 1 / 2 ^ 23 ∧ |b - Int.fract q| ≤ 1 / 2 ^ 23 := by
  have f0 := Int.fract_nonneg q
  have f1 := (Int.fract_lt_one q).le
  have e1 : (⌊q⌋ : Rat) + 1 - q = 1 - Int.fract q := by rw [Int.fract]; ring
  have e2 : q - (⌊q⌋ : Rat) = Int.fract q := rfl
  rw [Fl.sub_fin, Fl.sub_fin, e1, e2]
  obtain ⟨a, ha, -, ha'⟩ := rnd32_err_le (q := 1 - Int.fract q) (B := 1)
    (by rw [abs_le]; constructor <;> linarith) (by norm_num)
  obtain ⟨b, hb, -, hb'⟩ := rnd32_err_le (q := Int.fract q) (B := 1)
    (by rw [abs_le]; constructor <;> linarith) (by norm_num)
  have : (1 : Rat) / 2 ^ 24 + 1 / 2 ^ 150 ≤ 1 / 2 ^ 23 := by norm_num
  exact ⟨a, b, ha, hb, ha'.trans this, hb'.trans this⟩

/-- One interpolation step is the linear blend up to rounding. -/
theorem blend {x y p q s B : Rat} (hx : |x| ≤ B) (hy : |y| ≤ B) (hB : B ≤ 2 ^ 120)
    (s0 : 0 ≤ s) (s1 : s ≤ 1) (hp : |p - (1 - s)| ≤ 1 / 2 ^ 23) (hq : |q - s| ≤ 1 / 2 ^ 23) :
    ∃ v : Rat, GridValue.add (GridValue.scale (Fl.fin x) (.fin p)) (GridValue.scale (Fl.fin y) (.fin q))
        = Fl.fin v ∧ |v - ((1 - s) * x + s * y)| ≤ B / 2 ^ 20 + 1 / 2 ^ 146 := by
  have hB0 : 0 ≤ B := (abs_nonneg x).trans hx
  have p2 : |p| ≤ 2 := by
    rw [abs_le] at hp ⊢
    constructor <;> linarith [hp.1, hp.2, show (1 : Rat) / 2 ^ 23 ≤ 1 by norm_num]
  have q2 : |q| ≤ 2 := by
    rw [abs_le] at hq ⊢
    constructor <;> linarith [hq.1, hq.2, show (1 : Rat) / 2 ^ 23 ≤ 1 by norm_num]
  have xp : |x * p| ≤ B * 2 := by rw [abs_mul]; exact mul_le_mul hx p2 (abs_nonneg _) hB0
  have yq : |y * q| ≤ B * 2 := by rw [abs_mul]; exact mul_le_mul hy q2 (abs_nonneg _) hB0
  have hB2 : B * 2 ≤ 2 ^ 127 := by linarith [show (2 : Rat) ^ 120 * 2 ≤ 2 ^ 127 by norm_num]
  obtain ⟨v1, h1, -, e1⟩ := rnd32_err_le xp hB2
  obtain ⟨v2, h2, -, e2⟩ := rnd32_err_le yq hB2
  have ex : |x * p - (1 - s) * x| ≤ B * (1 / 2 ^ 23) := by
    rw [show x * p - (1 - s) * x = x * (p - (1 - s)) by ring, abs_mul]
    exact mul_le_mul hx hp (abs_nonneg _) hB0
  have ey : |y * q - s * y| ≤ B * (1 / 2 ^ 23) := by
    rw [show y * q - s * y = y * (q - s) by ring, abs_mul]
    exact mul_le_mul hy hq (abs_nonneg _) hB0
  rw [abs_le] at xp yq e1 e2 ex ey
  have η : (1 : Rat) / 2 ^ 150 ≤ 1 := by norm_num
  have big : (2 : Rat) ^ 120 * 5 + 2 ≤ 2 ^ 127 := by norm_num
  have hs : |v1 + v2| ≤ B * 5 + 2 / 2 ^ 150 := by
    rw [abs_le]
    constructor <;> linarith [xp.1, xp.2, yq.1, yq.2, e1.1, e1.2, e2.1, e2.2]
  obtain ⟨v, h3, -, e3⟩ := rnd32_err_le hs (by linarith)
  refine ⟨v, ?_, ?_⟩
  · show Fl.add f32 (Fl.mul f32 (.fin x) (.fin p)) (Fl.mul f32 (.fin y) (.fin q)) = .fin v
    rw [Fl.mul_fin, Fl.mul_fin, h1, h2, Fl.add_fin, h3]
  · rw [abs_le] at e3 ⊢
    constructor <;> linarith [e1.1, e1.2, e2.1, e2.2, ex.1, ex.2, ey.1, ey.2, e3.1, e3.2]

/-- **C22.** Off the grid lines, the interpolated value of finite corner values is the bilinear blend
of the four corners with the fractional parts of the position as weights, up to binary32 rounding
(relative to the largest corner magnitude `B`). -/
theorem C22_bilinear (g : LatLonValueGrid Fl) (w h : Nat) (hd : g.grid.dimensions = (w, h))
    (hs : w * h ≤ 2 ^ 64) (hv : g.values.length = w * h) (hw : w ≤ 2 ^ 24) (hh : h ≤ 2 ^ 24)
    (p : LatLon) (fx fy : Rat)
    (hp : g.grid.getXYByLatLon p = some (.fin fx, .fin fy)) (hx0 : 0 ≤ fx) (hy0 : 0 ≤ fy)
    (hx1 : fx < 2 ^ 63) (hy1 : fy < 2 ^ 63) (nx : fx ≠ ⌊fx⌋) (ny : fy ≠ ⌊fy⌋)
    (tl tr bl br B : Rat) (b1 : |tl| ≤ B) (b2 : |tr| ≤ B) (b3 : |bl| ≤ B) (b4 : |br| ≤ B)
    (hB : B ≤ 2 ^ 110)
    (h1 : g.getValueByXY ⌊fx⌋.toNat ⌊fy⌋.toNat = .ok (some (.fin tl)))
    (h2 : g.getValueByXY (⌊fx⌋.toNat + 1) ⌊fy⌋.toNat = .ok (some (.fin tr)))
    (h3 : g.getValueByXY ⌊fx⌋.toNat (⌊fy⌋.toNat + 1) = .ok (some (.fin bl)))
    (h4 : g.getValueByXY (⌊fx⌋.toNat + 1) (⌊fy⌋.toNat + 1) = .ok (some (.fin br))) :
    ∃ v : Rat, g.interpolate p = .ok (some (.fin v)) ∧
      |v - ((1 - Int.fract fy) * ((1 - Int.fract fx) * tl + Int.fract fx * tr)
            + Int.fract fy * ((1 - Int.fract fx) * bl + Int.fract fx * br))|
        ≤ B / 2 ^ 18 + 1 / 2 ^ 140 := by
  rw [interpolate_eq g w h hd hs hv hw hh p fx fy hp hx0 hy0 hx1 hy1]
  rw [if_neg (by rintro (h | h); exacts [nx h, ny h]), h1, h2, h3, h4]
  simp only [Res.bind_ok, LatLonValueGrid.interpolateValue]
  obtain ⟨a, b, ea, eb, ha, hb⟩ := weights fx
  obtain ⟨c, d, ec, ed, hc, hd'⟩ := weights fy
  rw [ea, eb, ec, ed]
  have s0 := Int.fract_nonneg fx
  have s1 := (Int.fract_lt_one fx).le
  have t0 := Int.fract_nonneg fy
  have t1 := (Int.fract_lt_one fy).le
  set s := Int.fract fx
  set t := Int.fract fy
  have hB0 : 0 ≤ B := (abs_nonneg _).trans b1
  obtain ⟨v1, e1, r1⟩ := blend b1 b2 (hB.trans (by norm_num)) s0 s1 ha hb
  obtain ⟨v2, e2, r2⟩ := blend b3 b4 (hB.trans (by norm_num)) s0 s1 ha hb
  rw [e1, e2]
  have cvx : ∀ x y : Rat, |x| ≤ B → |y| ≤ B → |(1 - s) * x + s * y| ≤ B := by
    intro x y hx hy
    rw [abs_le] at hx hy ⊢
    constructor <;> nlinarith [hx.1, hx.2, hy.1, hy.2]
  have c1 := cvx tl tr b1 b2
  have c2 := cvx bl br b3 b4
  set m1 := (1 - s) * tl + s * tr
  set m2 := (1 - s) * bl + s * br
  have hv1 : |v1| ≤ B * 2 + 1 := by
    rw [abs_le] at r1 c1 ⊢
    have : (1 : Rat) / 2 ^ 146 ≤ 1 := by norm_num
    constructor <;> linarith [r1.1, r1.2, c1.1, c1.2]
  have hv1' : |v1| ≤ B * (1 + 1 / 2 ^ 20) + 1 / 2 ^ 146 := by
    rw [abs_le] at r1 c1 ⊢
    constructor <;> linarith [r1.1, r1.2, c1.1, c1.2]
  have hv2' : |v2| ≤ B * (1 + 1 / 2 ^ 20) + 1 / 2 ^ 146 := by
    rw [abs_le] at r2 c2 ⊢
    constructor <;> linarith [r2.1, r2.2, c2.1, c2.2]
  obtain ⟨v, e3, r3⟩ := blend hv1' hv2' (by
    have : (2 : Rat) ^ 110 * (1 + 1 / 2 ^ 20) + 1 / 2 ^ 146 ≤ 2 ^ 120 := by norm_num
    linarith) t0 t1 hc hd'
  rw [e3]
  refine ⟨v, rfl, ?_⟩
  have hm : |(1 - t) * v1 + t * v2 - ((1 - t) * m1 + t * m2)| ≤ B / 2 ^ 20 + 1 / 2 ^ 146 := by
    rw [abs_le] at r1 r2 ⊢
    constructor <;> nlinarith [r1.1, r1.2, r2.1, r2.2]
  rw [abs_le] at hm r3 ⊢
  constructor <;> linarith [hm.1, hm.2, r3.1, r3.2]

/-- **C22.** Consequently the interpolated value lies between the smallest and the largest of the
four corner values, up to rounding. -/
theorem C22_between (g : LatLonValueGrid Fl) (w h : Nat) (hd : g.grid.dimensions = (w, h))
    (hs : w * h ≤ 2 ^ 64) (hv : g.values.length = w * h) (hw : w ≤ 2 ^ 24) (hh : h ≤ 2 ^ 24)
    (p : LatLon) (fx fy : Rat)
    (hp : g.grid.getXYByLatLon p = some (.fin fx, .fin fy)) (hx0 : 0 ≤ fx) (hy0 : 0 ≤ fy)
    (hx1 : fx < 2 ^ 63) (hy1 : fy < 2 ^ 63) (nx : fx ≠ ⌊fx⌋) (ny : fy ≠ ⌊fy⌋)
    (c : Nat → Nat → Rat) (lo hi : Rat) (hlo : -2 ^ 110 ≤ lo) (hhi : hi ≤ 2 ^ 110)
    (hc : ∀ dx dy, dx < 2 → dy < 2 →
      g.getValueByXY (⌊fx⌋.toNat + dx) (⌊fy⌋.toNat + dy) = .ok (some (.fin (c dx dy))) ∧
        lo ≤ c dx dy ∧ c dx dy ≤ hi) :
    ∃ v : Rat, g.interpolate p = .ok (some (.fin v)) ∧
      lo - (max (-lo) hi / 2 ^ 18 + 1 / 2 ^ 140) ≤ v ∧
      v ≤ hi + (max (-lo) hi / 2 ^ 18 + 1 / 2 ^ 140) := by
  obtain ⟨e00, l00, u00⟩ := hc 0 0 (by omega) (by omega)
  obtain ⟨e10, l10, u10⟩ := hc 1 0 (by omega) (by omega)
  obtain ⟨e01, l01, u01⟩ := hc 0 1 (by omega) (by omega)
  obtain ⟨e11, l11, u11⟩ := hc 1 1 (by omega) (by omega)
  have hb : ∀ z : Rat, lo ≤ z → z ≤ hi → |z| ≤ max (-lo) hi := by
    intro z h1 h2
    rw [abs_le]
    exact ⟨by linarith [le_max_left (-lo) hi], h2.trans (le_max_right _ _)⟩
  obtain ⟨v, h1, h2⟩ := C22_bilinear g w h hd hs hv hw hh p fx fy hp hx0 hy0 hx1 hy1 nx ny
    (c 0 0) (c 1 0) (c 0 1) (c 1 1) (max (-lo) hi) (hb _ l00 u00) (hb _ l10 u10) (hb _ l01 u01)
    (hb _ l11 u11) (max_le (by linarith) hhi) e00 e10 e01 e11
  refine ⟨v, h1, ?_⟩
  have s0 := Int.fract_nonneg fx
  have s1 := (Int.fract_lt_one fx).le
  have t0 := Int.fract_nonneg fy
  have t1 := (Int.fract_lt_one fy).le
  have m1l : lo ≤ (1 - Int.fract fx) * c 0 0 + Int.fract fx * c 1 0 := by nlinarith
  have m1u : (1 - Int.fract fx) * c 0 0 + Int.fract fx * c 1 0 ≤ hi := by nlinarith
  have m2l : lo ≤ (1 - Int.fract fx) * c 0 1 + Int.fract fx * c 1 1 := by nlinarith
  have m2u : (1 - Int.fract fx) * c 0 1 + Int.fract fx * c 1 1 ≤ hi := by nlinarith
  set m1 := (1 - Int.fract fx) * c 0 0 + Int.fract fx * c 1 0
  set m2 := (1 - Int.fract fx) * c 0 1 + Int.fract fx * c 1 1
  have ml : lo ≤ (1 - Int.fract fy) * m1 + Int.fract fy * m2 := by nlinarith
  have mu : (1 - Int.fract fy) * m1 + Int.fract fy * m2 ≤ hi := by nlinarith
  rw [abs_le] at h2
  constructor <;> linarith [h2.1, h2.2]

example : ∃ v : Rat, interpGrid.interpolate ⟨.fin (1 / 2), .fin (3 / 4)⟩ = .ok (some (.fin v)) ∧
    -1 ≤ v ∧ v ≤ 41 := by
  obtain ⟨v, h1, h2, h3⟩ := C22_between interpGrid 2 2 rfl (by norm_num) rfl (by norm_num)
    (by norm_num) ⟨.fin (1 / 2), .fin (3 / 4)⟩ (3 / 4) (1 / 2) (by decide +kernel) (by norm_num)
    (by norm_num) (by norm_num) (by norm_num) (by norm_num) (by norm_num)
    (fun x y => [0, 10, 20, 40].getD (2 * y + x) 0) 0 40 (by norm_num) (by norm_num)
    (by
      intro dx dy h1 h2
      interval_cases dx <;> interval_cases dy <;> refine ⟨by decide +kernel, ?_, ?_⟩ <;>
        norm_num [List.getD])
  refine ⟨v, h1, ?_, ?_⟩
  · refine le_trans ?_ h2; norm_num
  · refine le_trans h3 ?_; norm_num

end Verif.Props
