import Verif.Lemmas.Window
import Verif.Props.Nearest

/-!
# Properties C24, C62 and the geometric form of C23: search windows and cell positions
-/

namespace Verif.Props

open Verif

/-- A target grid of reasonable resolution: within -180..180 degrees on both axes, at least one cell
and cells at least 2^-10 degrees wide.  (The grids of the program are 1/50 degree or coarser.) -/
def Reasonable (s w n e : Rat) (dims : Nat × Nat) : Prop := Axis s n dims.2 ∧ Axis w e dims.1

theorem lt_zero_half (x : Nat) : Fl.lt (.fin ((x : Rat) + 1 / 2)) (.fin 0) = false := by
  have : (0 : Rat) ≤ x := by positivity
  simp only [Fl.lt, decide_eq_false_iff_not, not_lt]; linarith

theorem ge_half {x n : Nat} (hx : x < n) (hn : n ≤ 2 ^ 19) :
    Fl.ge (.fin ((x : Rat) + 1 / 2)) (Fl.ofNat f32 n) = false := by
  rw [show Fl.ofNat f32 n = .fin n from rnd32_nat (hn.trans (by norm_num))]
  have : (x : Rat) + 1 ≤ n := by exact_mod_cast hx
  simp only [Fl.ge, Fl.le, decide_eq_false_iff_not, not_le]; linarith

/-- The centre of every cell of a reasonable grid is defined and lies within 2^-14 degrees of the
exact centre. -/
theorem centre_defined {s w n e : Rat} {dims : Nat × Nat} (h : Reasonable s w n e dims) {x y : Nat}
    (hx : x < dims.1) (hy : y < dims.2) :
    ∃ i j a b : Rat, (LatLonGrid.new dims (finExtent s w n e)).latInc = .fin j ∧
      (LatLonGrid.new dims (finExtent s w n e)).lonInc = .fin i ∧
      1 / 1025 ≤ i ∧ dims.1 * i ≤ e - w + 1 / 4096 ∧ i ≤ 1000 ∧
      1 / 1025 ≤ j ∧ dims.2 * j ≤ n - s + 1 / 4096 ∧ j ≤ 1000 ∧
      cellCentre (LatLonGrid.new dims (finExtent s w n e)) x y = some ⟨.fin a, .fin b⟩ ∧
      |a - (s + (y + 1 / 2) * j)| ≤ 1 / 2 ^ 14 ∧ |b - (w + (x + 1 / 2) * i)| ≤ 1 / 2 ^ 14 ∧
      -180 ≤ a ∧ a < 180 ∧ -180 ≤ b ∧ b < 180 ∧
      e - w - 1 / 4096 ≤ dims.1 * i ∧ n - s - 1 / 4096 ≤ dims.2 * j := by
  obtain ⟨hlat, hlon⟩ := h
  obtain ⟨j, hj, j1, j2, j4, j3⟩ := hlat.inc
  obtain ⟨i, hi, i1, i2, i4, i3⟩ := hlon.inc
  have hx' : (x : Rat) + 1 ≤ dims.1 := by exact_mod_cast hx
  have hy' : (y : Rat) + 1 ≤ dims.2 := by exact_mod_cast hy
  have hx0 : (0 : Rat) ≤ x := by positivity
  have hy0 : (0 : Rat) ≤ y := by positivity
  obtain ⟨a, ha, ea, -, a1, -, a2⟩ := hlat.position j1 j2 (y := (y : Rat) + 1 / 2) (by linarith) (by linarith)
  obtain ⟨b, hb, eb, -, b1, -, b2⟩ := hlon.position i1 i2 (y := (x : Rat) + 1 / 2) (by linarith) (by linarith)
  have a3 : -180 ≤ a := le_trans hlat.lo_ge (a2 (by linarith))
  have b3 : -180 ≤ b := le_trans hlon.lo_ge (b2 (by linarith))
  refine ⟨i, j, a, b, hj, hi, i1, i2, i3, j1, j2, j3, ?_, ea, eb, a3, a1, b3, b1, i4, j4⟩
  unfold cellCentre LatLonGrid.getLatLonByXY
  rw [half_exact (hx.le.trans hlon.n_le), half_exact (hy.le.trans hlat.n_le)]
  have hd : (LatLonGrid.new dims (finExtent s w n e)).dimensions = dims := rfl
  rw [hd, lt_zero_half, lt_zero_half, ge_half hx hlon.n_le, ge_half hy hlat.n_le]
  have hl : (LatLonGrid.new dims (finExtent s w n e)).latInc = .fin j := hj
  have hl' : (LatLonGrid.new dims (finExtent s w n e)).lonInc = .fin i := hi
  rw [hl, hl']
  change some (LatLon.new (Fl.add f32 (.fin s) (Fl.mul f32 (.fin ((y : Rat) + 1 / 2)) (.fin j)))
    (Fl.add f32 (.fin w) (Fl.mul f32 (.fin ((x : Rat) + 1 / 2)) (.fin i)))) = _
  rw [ha, hb]
  unfold LatLon.new
  rw [normalise_id a3 a1, normalise_id b3 b1]

/-- The window contains the cell as soon as both coordinate differences are within the distance up to
a relative slack of 2^-20. -/
theorem covers_of_close {s w n e : Rat} {dims : Nat × Nat} (h : Reasonable s w n e dims) {x y : Nat}
    (hx : x < dims.1) (hy : y < dims.2) {a b : Rat}
    (hcen : cellCentre (LatLonGrid.new dims (finExtent s w n e)) x y = some ⟨.fin a, .fin b⟩)
    {p q d : Rat} (d0 : 0 ≤ d) (d1 : d ≤ 16)
    (p0 : -180 ≤ p - d) (p1 : p + d ≤ 179) (q0 : -180 ≤ q - d) (q1 : q + d ≤ 179)
    (hpa : |p - a| ≤ d * (1 + 1 / 2 ^ 20)) (hqb : |q - b| ≤ d * (1 + 1 / 2 ^ 20)) :
    Covers (LatLonGrid.new dims (finExtent s w n e)) (.fin d) ⟨.fin p, .fin q⟩ x y := by
  obtain ⟨i, j, a', b', hj, hi, i1, i2, i3, j1, j2, j3, hcen', ea, eb, -⟩ := centre_defined h hx hy
  rw [hcen] at hcen'
  simp only [Option.some.injEq, LatLon.mk.injEq, Fl.fin.injEq] at hcen'
  obtain ⟨rfl, rfl⟩ := hcen'
  obtain ⟨hlat, hlon⟩ := h
  obtain ⟨k1, k2, ⟨a0, ha0, ha1, ha2, ta, hta, ta'⟩, ⟨a9, ha9, ha8, ha7, ua, hua, ua'⟩⟩ :=
    hlat.window j1 j2 j3 hy ea d0 d1 p0 p1 hpa
  obtain ⟨m1, m2, ⟨b0, hb0, hb1, hb2, tb, htb, tb'⟩, ⟨b9, hb9, hb8, hb7, ub, hub, ub'⟩⟩ :=
    hlon.window i1 i2 i3 hx eb d0 d1 q0 q1 hqb
  constructor
  · unfold skipCoord
    change (Fl.lt (.fin p) (Fl.sub f32 (.fin s) (.fin d)) || Fl.gt (.fin p) (Fl.add f32 (.fin n) (.fin d))
      || Fl.lt (.fin q) (Fl.sub f32 (.fin w) (.fin d)) || Fl.gt (.fin q) (Fl.add f32 (.fin e) (.fin d))) = false
    rw [k1, k2, m1, m2]; rfl
  · have hmin : ∀ v, (LatLonGrid.new dims (finExtent s w n e)).getXYByLatLon
        (LatLon.new (Fl.sub f32 (.fin p) (.fin d)) (Fl.sub f32 (.fin q) (.fin d))) = some v →
        v = (.fin tb, .fin ta) := by
      intro v hv
      rw [ha0, hb0, LatLon.new, normalise_id ha1 ha2, normalise_id hb1 hb2] at hv
      unfold LatLonGrid.getXYByLatLon at hv
      rw [hj, hi] at hv
      change (if _ then none else some (Fl.div f32 (Fl.sub f32 (.fin b0) (.fin w)) (.fin i),
        Fl.div f32 (Fl.sub f32 (.fin a0) (.fin s)) (.fin j))) = some v at hv
      rw [htb, hta] at hv
      split at hv
      · cases hv
      · exact (Option.some.inj hv).symm
    have hmax : ∀ v, (LatLonGrid.new dims (finExtent s w n e)).getXYByLatLon
        (LatLon.new (Fl.add f32 (.fin p) (.fin d)) (Fl.add f32 (.fin q) (.fin d))) = some v →
        v = (.fin ub, .fin ua) := by
      intro v hv
      rw [ha9, hb9, LatLon.new, normalise_id ha8 ha7, normalise_id hb8 hb7] at hv
      unfold LatLonGrid.getXYByLatLon at hv
      rw [hj, hi] at hv
      change (if _ then none else some (Fl.div f32 (Fl.sub f32 (.fin b9) (.fin w)) (.fin i),
        Fl.div f32 (Fl.sub f32 (.fin a9) (.fin s)) (.fin j))) = some v at hv
      rw [hub, hua] at hv
      split at hv
      · cases hv
      · exact (Option.some.inj hv).symm
    have hd : (LatLonGrid.new dims (finExtent s w n e)).dimensions = dims := rfl
    unfold calcMinMaxXY
    simp only
    generalize (LatLonGrid.new dims (finExtent s w n e)).getXYByLatLon
        (LatLon.new (Fl.sub f32 (.fin p) (.fin d)) (Fl.sub f32 (.fin q) (.fin d))) = vmin at hmin ⊢
    generalize (LatLonGrid.new dims (finExtent s w n e)).getXYByLatLon
        (LatLon.new (Fl.add f32 (.fin p) (.fin d)) (Fl.add f32 (.fin q) (.fin d))) = vmax at hmax ⊢
    have fin : ∀ mn : Nat × Nat, mn.1 ≤ x → mn.2 ≤ y → ∃ mn' mx : Nat × Nat,
        (match vmax with
          | some (x, y) => Res.ok (mn, (Fl.toUSize x, Fl.toUSize y))
          | none => if dims.1 = 0 ∨ dims.2 = 0 then .panic else .ok (mn, (dims.1 - 1, dims.2 - 1))) =
          .ok (mn', mx) ∧ mn'.1 ≤ x ∧ x ≤ mx.1 ∧ mn'.2 ≤ y ∧ y ≤ mx.2 := by
      intro mn e1 e2
      cases vmax with
      | none =>
        simp only
        rw [if_neg (by omega)]
        exact ⟨_, _, rfl, e1, by simp only; omega, e2, by simp only; omega⟩
      | some v =>
        have := hmax v rfl
        subst this
        exact ⟨_, _, rfl, e1, ub', e2, ua'⟩
    cases vmin with
    | none => exact fin (0, 0) (Nat.zero_le _) (Nat.zero_le _)
    | some v =>
      have := hmin v rfl
      subst this
      exact fin _ tb' ta'

/-- Both coordinate differences of a position that the program accepts as near enough. -/
theorem close_of_near {p q a b d : Rat} (hp : |p - a| ≤ 1000) (hq : |q - b| ≤ 1000)
    (d0 : 1 / 2 ^ 10 ≤ d) (d1 : d ≤ 16)
    (hnear : Fl.gt (LatLon.calcEuclideanDistSquared ⟨.fin p, .fin q⟩ ⟨.fin a, .fin b⟩)
      (Fl.mul f32 (.fin d) (.fin d)) = false) :
    |p - a| ≤ d * (1 + 1 / 2 ^ 20) ∧ |q - b| ≤ d * (1 + 1 / 2 ^ 20) := by
  have sq : ∀ v : Rat, |v| ≤ 1000 → ∃ u, rnd f32 v = .fin u ∧ ∃ U, rnd f32 (u * u) = .fin U ∧
      U = rndq f32 (u * u) ∧ 0 ≤ U ∧ U ≤ 2000000 ∧ Rep f32 U := by
    intro v hv
    obtain ⟨u, hu, -, eu⟩ := rnd32_err_le hv (by norm_num)
    have hub : |u| ≤ 1001 := by
      have h1 : |u| ≤ |u - v| + |v| := by simpa using abs_add_le (u - v) v
      have : (1000 : Rat) / 2 ^ 24 + 1 / 2 ^ 150 ≤ 1 := by norm_num
      linarith
    have huu : |u * u| ≤ 1001 * 1001 := by
      rw [abs_mul]; exact mul_le_mul hub hub (abs_nonneg u) (by norm_num)
    obtain ⟨U, hU, hU', eU⟩ := rnd32_err_le huu (by norm_num)
    refine ⟨u, hu, U, hU, hU', by rw [hU']; exact rndq_nonneg (mul_self_nonneg u), ?_, by
      rw [hU']; exact rep_rndq _ _⟩
    have h3 := (abs_le.1 huu).2
    have h4 := (abs_le.1 eU).2
    have : (1001 : Rat) * 1001 / 2 ^ 24 + 1 / 2 ^ 150 ≤ 1 := by norm_num
    linarith
  obtain ⟨u, hu, U, hU, hU', U0, U1, Ur⟩ := sq _ hp
  obtain ⟨v, hv, V, hV, hV', V0, V1, Vr⟩ := sq _ hq
  obtain ⟨S, hS, hS', -⟩ := rnd32_err (q := U + V) (by
    rw [abs_of_nonneg (by linarith)]; linarith [show (4000000 : Rat) ≤ 2 ^ 127 by norm_num])
  obtain ⟨D, hD, hD', -⟩ := rnd32_err (q := d * d) (by
    have : d * d ≤ 16 * 16 := mul_le_mul d1 d1 (le_trans (by norm_num) d0) (by norm_num)
    rw [abs_of_nonneg (mul_self_nonneg d)]
    linarith [show (256 : Rat) ≤ 2 ^ 127 by norm_num])
  unfold LatLon.calcEuclideanDistSquared at hnear
  simp only [Fl.sub_fin, hu, hv, Fl.mul_fin, hU, hV, Fl.add_fin, hS, hD] at hnear
  simp only [Fl.gt, Fl.lt, decide_eq_false_iff_not, not_lt] at hnear
  have hUS : U ≤ S := by rw [hS']; exact rep_le_rndq prec32 Ur (by linarith)
  have hVS : V ≤ S := by rw [hS']; exact rep_le_rndq prec32 Vr (by linarith)
  rw [hD'] at hnear
  exact ⟨near_axis hp d0 d1 hu (by rw [← hU']; exact hUS) hnear,
    near_axis hq d0 d1 hv (by rw [← hV']; exact hVS) hnear⟩

/-- **C24, partial** (full statement: for *every* coordinate; see the counterexample below for what is
missing, the neighbourhood of the date line).  On a grid of reasonable resolution, every cell whose
centre is within the maximum distance of a coordinate — by the program's own distance test, or by the
exact distance — is visited for that coordinate, provided the coordinate keeps the maximum distance
from -180 and from 179 degrees. -/
theorem C24_window_partial {s w n e : Rat} {dims : Nat × Nat} (h : Reasonable s w n e dims) {x y : Nat}
    (hx : x < dims.1) (hy : y < dims.2) {p q d : Rat} (d0 : 1 / 2 ^ 10 ≤ d) (d1 : d ≤ 16)
    (p0 : -180 ≤ p - d) (p1 : p + d ≤ 179) (q0 : -180 ≤ q - d) (q1 : q + d ≤ 179) :
    ∃ a b : Rat, cellCentre (LatLonGrid.new dims (finExtent s w n e)) x y = some ⟨.fin a, .fin b⟩ ∧
    (Fl.gt (LatLon.calcEuclideanDistSquared ⟨.fin p, .fin q⟩ ⟨.fin a, .fin b⟩)
        (Fl.mul f32 (.fin d) (.fin d)) = false ∨ (p - a) ^ 2 + (q - b) ^ 2 ≤ d ^ 2 →
      Covers (LatLonGrid.new dims (finExtent s w n e)) (.fin d) ⟨.fin p, .fin q⟩ x y) := by
  obtain ⟨i, j, a, b, -, -, -, -, -, -, -, -, hcen, -, -, a0, a1, b0, b1, -, -⟩ := centre_defined h hx hy
  refine ⟨a, b, hcen, fun hnear => ?_⟩
  have dpos : 0 ≤ d := le_trans (by norm_num) d0
  rcases hnear with hnear | hnear
  · obtain ⟨h1, h2⟩ := close_of_near (p := p) (q := q) (a := a) (b := b)
      (by rw [abs_le]; constructor <;> linarith) (by rw [abs_le]; constructor <;> linarith) d0 d1 hnear
    exact covers_of_close h hx hy hcen dpos d1 p0 p1 q0 q1 h1 h2
  · have hd' : d ≤ d * (1 + 1 / 2 ^ 20) := by
      have : 0 ≤ d * (1 / 2 ^ 20) := by positivity
      linarith
    have h1 : |p - a| ≤ d := abs_le_of_sq_le_sq (by nlinarith [sq_nonneg (q - b)]) dpos
    have h2 : |q - b| ≤ d := abs_le_of_sq_le_sq (by nlinarith [sq_nonneg (p - a)]) dpos
    exact covers_of_close h hx hy hcen dpos d1 p0 p1 q0 q1 (h1.trans hd') (h2.trans hd')

/-- The 8 x 4 grid over the whole earth. -/
def earthGrid : LatLonGrid := LatLonGrid.new (8, 4) (finExtent (-90) (-180) 90 180)

/-- **C24 is false at the date line**: the coordinate (22.5 N, 157.5 W) coincides with the centre of
cell (0, 2), yet with a maximum distance of 30 degrees its search window is empty, since the western
edge wraps around to 172.5 E. -/
theorem C24_counterexample :
    cellCentre earthGrid 0 2 = some ⟨.fin (45 / 2), .fin (-315 / 2)⟩ ∧
    LatLon.calcEuclideanDistSquared ⟨.fin (45 / 2), .fin (-315 / 2)⟩ ⟨.fin (45 / 2), .fin (-315 / 2)⟩ = .fin 0 ∧
    ∀ x y, ¬ Covers earthGrid (.fin 30) ⟨.fin (45 / 2), .fin (-315 / 2)⟩ x y := by
  refine ⟨by decide +kernel, by decide +kernel, ?_⟩
  rintro x y ⟨-, mn, mx, h, h1, h2, -, -⟩
  have hw : calcMinMaxXY earthGrid ⟨.fin (45 / 2), .fin (-315 / 2)⟩ (.fin 30) = .ok ((7, 1), (1, 3)) := by
    decide +kernel
  rw [hw] at h
  simp only [Res.ok.injEq, Prod.mk.injEq] at h
  obtain ⟨rfl, rfl⟩ := h
  simp only at h1 h2
  omega

/-- The same at the surface: that cell of the finished lookup map stays empty. -/
theorem C24_counterexample_map :
    (UnstructuredGrid.new (8, 4) (finExtent (-90) (-180) 90 180) [⟨.fin (45 / 2), .fin (-315 / 2)⟩]).bind
      (fun g => (g.calcCoordDistLookupMap (.fin 30)).bind (fun g => .ok g.coordDistMap)) =
    .ok (List.replicate 32 none) := by decide +kernel

/-- **C23, geometric form.** For a grid of reasonable resolution and coordinates that keep the maximum
distance from the date line: after building the lookup map every cell holds the nearest of *all*
coordinates (the last among equally near ones) if that is within the maximum distance of the cell
centre, and nothing otherwise. -/
theorem C23_nearest_geometric {s w n e : Rat} {W H : Nat} (hr : Reasonable s w n e (W, H))
    (coords : List (Rat × Rat)) {d : Rat} (d0 : 1 / 2 ^ 10 ≤ d) (d1 : d ≤ 16)
    (hc : ∀ c ∈ coords, -180 ≤ c.1 - d ∧ c.1 + d ≤ 179 ∧ -180 ≤ c.2 - d ∧ c.2 + d ≤ 179) :
    ∃ g0 g, UnstructuredGrid.new (W, H) (finExtent s w n e)
        (coords.map fun c => ⟨.fin c.1, .fin c.2⟩) = .ok g0 ∧
      g0.calcCoordDistLookupMap (.fin d) = .ok g ∧
      ∀ x y, x < W → y < H → ∃ a b : Rat, cellCentre g.latLonGrid x y = some ⟨.fin a, .fin b⟩ ∧
        |a - (s + (y + 1 / 2) * ((n - s) / H))| ≤ 1 / 2 ^ 11 ∧
        |b - (w + (x + 1 / 2) * ((e - w) / W))| ≤ 1 / 2 ^ 11 ∧
        ∃ o, g.getCoordDist x y = .ok o ∧
        (o = none ↔ ∀ c ∈ coords, Fl.gt
          (LatLon.calcEuclideanDistSquared ⟨.fin c.1, .fin c.2⟩ ⟨.fin a, .fin b⟩)
          (Fl.mul f32 (.fin d) (.fin d)) = true) ∧
        (∀ cd, o = some cd → ∃ c, coords[cd.coordIndex]? = some c ∧
          cd.coordDistSquared = LatLon.calcEuclideanDistSquared ⟨.fin c.1, .fin c.2⟩ ⟨.fin a, .fin b⟩ ∧
          Fl.le cd.coordDistSquared (Fl.mul f32 (.fin d) (.fin d)) = true ∧
          ∀ (k : Nat) c', coords[k]? = some c' →
            Fl.le cd.coordDistSquared
              (LatLon.calcEuclideanDistSquared ⟨.fin c'.1, .fin c'.2⟩ ⟨.fin a, .fin b⟩) = true ∧
            (LatLon.calcEuclideanDistSquared ⟨.fin c'.1, .fin c'.2⟩ ⟨.fin a, .fin b⟩ = cd.coordDistSquared →
              k ≤ cd.coordIndex)) := by
  have hmax : Fl.mul f32 (.fin d) (.fin d) ≠ .nan := by rw [Fl.mul_fin]; exact rnd_ne_nan _ _
  have hW := hr.2.n_le
  have hH := hr.1.n_le
  have hW0 : W ≠ 0 := hr.2.pos.ne'
  have hH0 : H ≠ 0 := hr.1.pos.ne'
  simp only at hW hH
  have hsz : W * H < 2 ^ 64 := lt_of_le_of_lt (Nat.mul_le_mul hW hH) (by norm_num)
  obtain ⟨g0, g, e0, e1, hg, -, -, hcell⟩ := C23_nearest W H hW0 hH0 hsz (finExtent s w n e)
    (coords.map fun c => ⟨.fin c.1, .fin c.2⟩) (by
      intro c hm
      obtain ⟨c', -, rfl⟩ := List.mem_map.1 hm
      exact ⟨_, _, rfl⟩) (.fin d) hmax
  refine ⟨g0, g, e0, e1, fun x y hx hy => ?_⟩
  obtain ⟨i, j, a, b, -, -, -, i2, -, -, j2, -, hcen, ea, eb, a0, a1, b0, b1, i4, j4⟩ :=
    centre_defined hr (x := x) (y := y) hx hy
  have hcov : ∀ c ∈ coords, Fl.gt (LatLon.calcEuclideanDistSquared ⟨.fin c.1, .fin c.2⟩ ⟨.fin a, .fin b⟩)
      (Fl.mul f32 (.fin d) (.fin d)) = false →
      Covers g.latLonGrid (.fin d) ⟨.fin c.1, .fin c.2⟩ x y := by
    intro c hm hn
    obtain ⟨p0, p1, q0, q1⟩ := hc c hm
    obtain ⟨a', b', hcen', hcov⟩ := C24_window_partial hr (x := x) (y := y) hx hy d0 d1 p0 p1 q0 q1
    rw [hcen] at hcen'
    simp only [Option.some.injEq, LatLon.mk.injEq, Fl.fin.injEq] at hcen'
    obtain ⟨rfl, rfl⟩ := hcen'
    rw [hg]
    exact hcov (Or.inl hn)
  have accuracy : ∀ (k N : Nat) (v i D lo : Rat), k < N → N * i ≤ D + 1 / 4096 → D - 1 / 4096 ≤ N * i →
      |v - (lo + (k + 1 / 2) * i)| ≤ 1 / 2 ^ 14 → |v - (lo + (k + 1 / 2) * (D / N))| ≤ 1 / 2 ^ 11 := by
    intro k N v i D lo hk h1 h2 h3
    have hN : (0 : Rat) < N := by exact_mod_cast (Nat.zero_le k).trans_lt hk
    have hk' : (k : Rat) + 1 ≤ N := by exact_mod_cast hk
    have hk0 : (0 : Rat) ≤ k := by positivity
    have e : (k + 1 / 2 : Rat) * i - (k + 1 / 2) * (D / N) = (k + 1 / 2) / N * (N * i - D) := by field_simp
    have f0 : 0 ≤ ((k : Rat) + 1 / 2) / N := by positivity
    have f1 : ((k : Rat) + 1 / 2) / N ≤ 1 := by rw [div_le_one hN]; linarith
    have h4 : |(k + 1 / 2 : Rat) * i - (k + 1 / 2) * (D / N)| ≤ 1 * (1 / 4096) := by
      rw [e, abs_mul, abs_of_nonneg f0]
      refine mul_le_mul f1 ?_ (abs_nonneg _) (by norm_num)
      rw [abs_le]; constructor <;> linarith
    have : (1 : Rat) / 2 ^ 14 + 1 * (1 / 4096) ≤ 1 / 2 ^ 11 := by norm_num
    rw [abs_le] at h3 h4 ⊢
    constructor <;> linarith [h3.1, h3.2, h4.1, h4.2]
  refine ⟨a, b, by rw [hg]; exact hcen, accuracy _ _ _ _ _ _ hy j2 j4 ea,
    accuracy _ _ _ _ _ _ hx i2 i4 eb, ?_⟩
  obtain ⟨o, ho, hnone, hsome⟩ := hcell x y hx hy a b (by rw [hg]; exact hcen)
  refine ⟨o, ho, ?_, ?_⟩
  · rw [hnone]
    constructor
    · intro hall c hm
      by_contra hlt
      rw [Bool.not_eq_true] at hlt
      obtain ⟨k, hk⟩ := List.getElem?_of_mem hm
      have := hall k ⟨.fin c.1, .fin c.2⟩ (by rw [List.getElem?_map, hk]; rfl) (hcov c hm hlt)
      rw [this] at hlt; cases hlt
    · intro hall k c hk _
      rw [List.getElem?_map, Option.map_eq_some_iff] at hk
      obtain ⟨c', hk', rfl⟩ := hk
      exact hall c' (List.mem_of_getElem? hk')
  · intro cd hcd
    obtain ⟨c, hk, -, hdist, hle, hbest⟩ := hsome cd hcd
    rw [List.getElem?_map, Option.map_eq_some_iff] at hk
    obtain ⟨c', hk', rfl⟩ := hk
    refine ⟨c', hk', hdist, hle, ?_⟩
    intro k c2 hk2
    have hget : (coords.map fun c => (⟨.fin c.1, .fin c.2⟩ : LatLon))[k]? = some ⟨.fin c2.1, .fin c2.2⟩ := by
      rw [List.getElem?_map, hk2]; rfl
    by_cases hfar : Fl.gt (LatLon.calcEuclideanDistSquared ⟨.fin c2.1, .fin c2.2⟩ ⟨.fin a, .fin b⟩)
        (Fl.mul f32 (.fin d) (.fin d)) = true
    · have hlt := Fl.le_lt_trans hle hfar
      refine ⟨Fl.le_of_lt hlt, fun he => ?_⟩
      rw [he, Fl.lt_irrefl] at hlt
      cases hlt
    · rw [Bool.not_eq_true] at hfar
      exact hbest k _ hget (hcov c2 (List.mem_of_getElem? hk2) hfar) hfar

/-- The hypotheses are met by the coordinates of the concrete grid. -/
example : Reasonable 0 0 4 8 (2, 1) ∧ ∀ c ∈ [((2 : Rat), (1 : Rat)), (2, 3), (40, 40), (1, 6)],
    -180 ≤ c.1 - 3 / 2 ∧ c.1 + 3 / 2 ≤ 179 ∧ -180 ≤ c.2 - 3 / 2 ∧ c.2 + 3 / 2 ≤ 179 := by
  refine ⟨⟨⟨?_, ?_, ?_, ?_⟩, ⟨?_, ?_, ?_, ?_⟩⟩, by decide +kernel⟩ <;> norm_num

/-- The grid of the ICON-CH1 charts of the program is reasonable as well (1/50 degree). -/
example : Reasonable 45 5 48 (21 / 2) (275, 150) := by
  refine ⟨⟨?_, ?_, ?_, ?_⟩, ⟨?_, ?_, ?_, ?_⟩⟩ <;> norm_num

/-! ## C62 -/

/-- **C62.** Converting a cell of a reasonable grid to its position and looking that position up again
gives the value of that very cell. -/
theorem C62_cell_round_trip {T : Type} [GridValue T] {s w n e : Rat} {dims : Nat × Nat}
    (h : Reasonable s w n e dims) (hs : IsFl f32 (.fin s)) (hw : IsFl f32 (.fin w))
    (values : List T) (missing : T) {x y : Nat} (hx : x < dims.1) (hy : y < dims.2) :
    ∃ p, (LatLonValueGrid.new values missing dims (finExtent s w n e)).grid.getLatLonByXY
        (Fl.ofNat f32 x) (Fl.ofNat f32 y) = some p ∧
      (LatLonValueGrid.new values missing dims (finExtent s w n e)).getValueByLatLon p =
        (LatLonValueGrid.new values missing dims (finExtent s w n e)).getValueByXY x y := by
  obtain ⟨hlat, hlon⟩ := h
  obtain ⟨j, hj, j1, j2, -, j3⟩ := hlat.inc
  obtain ⟨i, hi, i1, i2, -, i3⟩ := hlon.inc
  have hx' : (x : Rat) + 1 ≤ dims.1 := by exact_mod_cast hx
  have hy' : (y : Rat) + 1 ≤ dims.2 := by exact_mod_cast hy
  have hx0 : (0 : Rat) ≤ x := by positivity
  have hy0 : (0 : Rat) ≤ y := by positivity
  obtain ⟨a, ha, ea, a4, a1, a2, -⟩ := hlat.position j1 j2 (y := (y : Rat)) hy0 (by linarith)
  obtain ⟨b, hb, eb, b4, b1, b2, -⟩ := hlon.position i1 i2 (y := (x : Rat)) hx0 (by linarith)
  have a3 := a2 hs
  have b3 := b2 hw
  have a5 : -180 ≤ a := le_trans hlat.lo_ge a3
  have b5 : -180 ≤ b := le_trans hlon.lo_ge b3
  have ox : ∀ {k m : Nat}, k ≤ m → m ≤ 2 ^ 19 → Fl.ofNat f32 k = .fin k := fun hk hm =>
    rnd32_nat ((hk.trans hm).trans (by norm_num))
  have hd : (LatLonGrid.new dims (finExtent s w n e)).dimensions = dims := rfl
  have hl : (LatLonGrid.new dims (finExtent s w n e)).latInc = .fin j := hj
  have hl' : (LatLonGrid.new dims (finExtent s w n e)).lonInc = .fin i := hi
  refine ⟨⟨.fin a, .fin b⟩, ?_, ?_⟩
  · change (LatLonGrid.new dims (finExtent s w n e)).getLatLonByXY _ _ = _
    unfold LatLonGrid.getLatLonByXY
    rw [hd, ox hx.le hlon.n_le, ox hy.le hlat.n_le, ox le_rfl hlon.n_le, ox le_rfl hlat.n_le, hl, hl']
    rw [if_neg (by
      simp only [Fl.lt, Fl.ge, Fl.le, Bool.or_eq_true, decide_eq_true_eq, not_or, not_lt, not_le]
      exact ⟨⟨⟨hx0, by linarith⟩, hy0⟩, by linarith⟩)]
    change some (LatLon.new (Fl.add f32 (.fin s) (Fl.mul f32 (.fin (y : Rat)) (.fin j)))
      (Fl.add f32 (.fin w) (Fl.mul f32 (.fin (x : Rat)) (.fin i)))) = _
    rw [ha, hb]
    unfold LatLon.new
    rw [normalise_id a5 a1, normalise_id b5 b1]
  · have hround : ∀ {lo hi' i c : Rat} {N k : Nat}, Axis lo hi' N → 1 / 1025 ≤ i → i ≤ 1000 → k < N →
        |c - (lo + k * i)| ≤ 1 / 2 ^ 14 → -180 ≤ c → c < 180 →
        Fl.toUSize (Fl.round (Fl.div f32 (Fl.sub f32 (.fin c) (.fin lo)) (.fin i))) = k := by
      intro lo hi' i c N k hax i1 i3 hk ec c0 c1
      obtain ⟨t, ht, et, -⟩ := hax.fraction i1 i3 (a := c) (by linarith) (by linarith)
      have hipos : 0 < i := lt_of_lt_of_le (by norm_num) i1
      rw [ht]
      have h1 : |t - k| < 1 / 2 := by
        have h2 : |t - k| * i < 1 / 2 * i := by
          rw [← abs_of_pos hipos, ← abs_mul, abs_of_pos hipos]
          have : (1 : Rat) / 2 ^ 14 + 1 / 2 ^ 14 < 1 / 2 * (1 / 1025) := by norm_num
          rw [abs_le] at et ec
          rw [abs_lt]
          constructor <;> linarith [et.1, et.2, ec.1, ec.2]
        exact lt_of_mul_lt_mul_right h2 hipos.le
      have hk64 : k ≤ 2 ^ 64 - 1 := by have := hax.n_le; omega
      have hr : Fl.round (.fin t) = .fin k := by
        have h2 := Fl.roundAway_err t
        rw [abs_le] at h2
        rw [abs_lt] at h1
        have h3 : (Fl.roundAway t : Rat) < ((k : Int) : Rat) + 1 := by push_cast; linarith [h1.1, h1.2, h2.1, h2.2]
        have h4 : ((k : Int) : Rat) - 1 < (Fl.roundAway t : Rat) := by push_cast; linarith [h1.1, h1.2, h2.1, h2.2]
        have h5 : Fl.roundAway t < (k : Int) + 1 := by exact_mod_cast h3
        have h6 : (k : Int) - 1 < Fl.roundAway t := by exact_mod_cast h4
        have h7 : Fl.roundAway t = k := by omega
        change Fl.fin (Fl.roundAway t : Rat) = _
        rw [h7]; simp
      rw [hr]
      exact Fl.toUInt_nat hk64
    have hin : (LatLonGrid.new dims (finExtent s w n e)).extent.isInside ⟨.fin a, .fin b⟩ = true := by
      change (Fl.ge (.fin a) (.fin s) && Fl.lt (.fin a) (.fin n) && Fl.ge (.fin b) (.fin w)
        && Fl.lt (.fin b) (.fin e)) = true
      simp only [Fl.ge, Fl.le, Fl.lt, Bool.and_eq_true, decide_eq_true_eq]
      exact ⟨⟨⟨a3, a4⟩, b3⟩, b4⟩
    have hxy : (LatLonGrid.new dims (finExtent s w n e)).getXYByLatLon ⟨.fin a, .fin b⟩ =
        some (Fl.div f32 (Fl.sub f32 (.fin b) (.fin w)) (.fin i),
          Fl.div f32 (Fl.sub f32 (.fin a) (.fin s)) (.fin j)) := by
      unfold LatLonGrid.getXYByLatLon
      rw [hin, hl, hl']
      rfl
    unfold LatLonValueGrid.getValueByLatLon
    change (match (LatLonGrid.new dims (finExtent s w n e)).getXYByLatLon ⟨.fin a, .fin b⟩ with
      | none => Res.ok none
      | some (x0, y0) => (LatLonValueGrid.new values missing dims (finExtent s w n e)).getValueByXY
          (Fl.toUSize (Fl.round x0)) (Fl.toUSize (Fl.round y0))) = _
    rw [hxy]
    simp only
    rw [hround hlon i1 i3 hx eb b5 b1, hround hlat j1 j3 hy ea a5 a1]

/-- The hypotheses hold for a 1/50 degree grid; the last cell of it. -/
example : ∃ p, (LatLonValueGrid.new ([] : List UInt8) 255 (275, 150) (finExtent 45 5 48 (21 / 2))).grid.getLatLonByXY
    (Fl.ofNat f32 274) (Fl.ofNat f32 149) = some p := by
  obtain ⟨p, hp, -⟩ := C62_cell_round_trip (T := UInt8) (s := 45) (w := 5) (n := 48) (e := 21 / 2)
    (dims := (275, 150)) (by refine ⟨⟨?_, ?_, ?_, ?_⟩, ⟨?_, ?_, ?_, ?_⟩⟩ <;> norm_num)
    (by
      have := isFl_rnd f32 45
      rwa [show rnd f32 45 = .fin 45 by decide +kernel] at this)
    (by
      have := isFl_rnd f32 5
      rwa [show rnd f32 5 = .fin 5 by decide +kernel] at this) [] 255 (x := 274) (y := 149)
    (by decide) (by decide)
  exact ⟨p, hp⟩

end Verif.Props
