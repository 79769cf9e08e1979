import Verif.Props.Nearest
import Verif.Props.Imaging
import Verif.Props.MapTile
import Verif.Props.Dwd

/-!
# Properties C64, C73, C76, C83: what holds where the full property fails
-/

namespace Verif.Props

open Verif Verif.Grib2 Verif.MapTileRenderer Verif.MapTileCoord

/-! ## C64 -/

/-- **C64, the opposite always holds.**  Every message of a regular grid (first point not north or east of the last) whose data
decode is converted, whatever the number of its points.  If there are too few of them, looking up the last cell of the
result crashes; if there are too many, the cells show the first ones. -/
theorem C64_always {T : Type} [GridValue T] (doc : Document) (t : GridTemplate3_0)
    (ht : doc.section3.template = .latitudeLongitude t) (missing : T) (transform : Fl → T) (vs : List T)
    (hd : calculateDataPoints doc missing transform = .ok vs)
    (h1 : Fl.lt (LatLon.normalise t.lastLat) (LatLon.normalise t.firstLat) = false)
    (h2 : Fl.lt (LatLon.normalise t.lastLon) (LatLon.normalise t.firstLon) = false)
    (hw : 0 < t.pointsAlongParallel) (hh : 0 < t.pointsAlongMeridian)
    (hs : t.pointsAlongParallel * t.pointsAlongMeridian < 2 ^ 64) :
    ∃ g, createRegularGrid doc missing transform = .ok g ∧
      (vs.length < t.pointsAlongParallel * t.pointsAlongMeridian →
        g.getValueByXY (t.pointsAlongParallel - 1) (t.pointsAlongMeridian - 1) = .panic) ∧
      (t.pointsAlongParallel * t.pointsAlongMeridian ≤ vs.length →
        ∀ x y, x < t.pointsAlongParallel → y < t.pointsAlongMeridian →
          ∃ v, vs[y * t.pointsAlongParallel + x]? = some v ∧
            g.getValueByXY x y = .ok (if GridValue.eq v missing then none else some v)) := by
  obtain ⟨g, hg⟩ := C13_defined doc t ht missing transform vs hd h1 h2
  obtain ⟨e1, -, e3, e4⟩ := C13_shape doc t ht missing transform g hg
  rw [hd] at e4
  simp only [Res.ok.injEq] at e4
  refine ⟨g, hg, ?_, ?_⟩
  · intro hlt
    have hx : t.pointsAlongParallel - 1 < t.pointsAlongParallel := by omega
    have hy : t.pointsAlongMeridian - 1 < t.pointsAlongMeridian := by omega
    have hi := getIndex_in e1 hs.le hx hy
    have hlast : t.pointsAlongParallel - 1 + (t.pointsAlongMeridian - 1) * t.pointsAlongParallel =
        t.pointsAlongParallel * t.pointsAlongMeridian - 1 := by
      obtain ⟨a, ha⟩ : ∃ a, t.pointsAlongParallel = a + 1 := ⟨_, (Nat.sub_add_cancel hw).symm⟩
      obtain ⟨b, hb⟩ : ∃ b, t.pointsAlongMeridian = b + 1 := ⟨_, (Nat.sub_add_cancel hh).symm⟩
      rw [ha, hb]
      simp only [Nat.add_sub_cancel]
      have : (a + 1) * (b + 1) = a + b * (a + 1) + 1 := by ring
      omega
    unfold LatLonValueGrid.getValueByXY
    simp only [hi, Res.bind_ok]
    unfold Res.index
    rw [← e4, List.getElem?_eq_none (by omega)]
    rfl
  · intro hle x y hx hy
    have hi := getIndex_in e1 hs.le hx hy
    have hlt : x + y * t.pointsAlongParallel < g.values.length := by
      rw [← e4]; exact lt_of_lt_of_le (idx_lt hx hy) hle
    refine ⟨g.values[x + y * t.pointsAlongParallel], by rw [e4, Nat.add_comm]; exact List.getElem?_eq_getElem hlt, ?_⟩
    unfold LatLonValueGrid.getValueByXY
    simp only [hi, Res.bind_ok, Res.index_ok hlt, e3]
    cases GridValue.eq g.values[x + y * t.pointsAlongParallel] missing <;> rfl

/-! ## C73 -/

/-- **C73, left and upper side.**  Less than a pixel to the left of a picture the pixels of its first column are returned
unchanged, without fading. -/
theorem C73_left {i : Image} (hi : i.WF) (hw : i.width ≤ 2 ^ 24) (hh : i.height ≤ 2 ^ 24) (hw0 : 0 < i.width) {x y : Rat}
    (x0 : -1 < x) (x1 : x < 0) (y0 : 0 ≤ y) (y1 : y < i.height) :
    i.interpolatePixelColor (.fin x) (.fin y) = .ok ((i.pixel 0 ⌊y⌋.toNat).getD Color.transparent) := by
  have hw' : Fl.ofNat f32 i.width = .fin i.width := rnd32_nat hw
  have hh' : Fl.ofNat f32 i.height = .fin i.height := rnd32_nat hh
  have fx : ⌊x⌋ = -1 := by rw [Int.floor_eq_iff]; push_cast; constructor <;> linarith
  have cx : ⌈x⌉ = 0 := by rw [Int.ceil_eq_iff]; push_cast; constructor <;> linarith
  have c0' : (0 : Rat) ≤ (⌈y⌉ : Rat) := by exact_mod_cast Int.ceil_nonneg y0
  have f0 : 0 ≤ ⌊y⌋ := Int.floor_nonneg.mpr y0
  have f1 : (⌊y⌋ : Rat) < i.height := lt_of_le_of_lt (Int.floor_le y) y1
  have f1' : ⌊y⌋ < i.height := by exact_mod_cast f1
  have hwq : (0 : Rat) < i.width := by exact_mod_cast hw0
  unfold Image.interpolatePixelColor
  simp only [hw', hh']
  have n1 : Fl.lt (Fl.ceil (.fin x)) (.fin 0) = false := by simp [Fl.ceil, Fl.lt, cx]
  have n2 : Fl.lt (Fl.ceil (.fin y)) (.fin 0) = false := by
    simp only [Fl.ceil, Fl.lt, decide_eq_false_iff_not, not_lt]; exact c0'
  have n3 : Fl.ge (Fl.floor (.fin x)) (.fin i.width) = false := by
    simp only [Fl.floor, Fl.ge, Fl.le, decide_eq_false_iff_not, not_le, fx]; push_cast; linarith
  have n4 : Fl.ge (Fl.floor (.fin y)) (.fin i.height) = false := by
    simp only [Fl.floor, Fl.ge, Fl.le, decide_eq_false_iff_not, not_le]; exact f1
  have u1 : Fl.toU32 (Fl.floor (.fin x)) = 0 := by
    simp only [Fl.floor, fx]; decide +kernel
  have u2 : Fl.toU32 (Fl.ceil (.fin x)) = 0 := by
    simp only [Fl.ceil, cx]; decide +kernel
  have u3 : Fl.toU32 (Fl.floor (.fin y)) = ⌊y⌋.toNat := by
    simp only [Fl.toU32, Fl.floor, Fl.toUInt, Int.floor_intCast]
    omega
  rw [n1, n2, n3, n4, u1, u2, u3]
  simp only [Bool.or_self, Bool.false_eq_true, if_false, true_or, if_true]
  exact getPixelColor_eq hi _ _

/-- The alpha channel of a colour blended with a transparent one on the side of the larger weight. -/
theorem half_transparent {a : Rat} (h0 : 1 / 2 ≤ a) (h1 : a ≤ 1) (c : UInt8) :
    (Image.interpolateChannel c (rnd f32 (1 - a)) 0 (rnd f32 a)).toNat ≤ 127 := by
  have b1 : c.toNat ≤ 255 := by have := c.toNat_lt; omega
  have fl : ∀ {m e : Int}, |m| ≤ 2 ^ 24 → -149 ≤ e → |(m : Rat) * pow2 e| < pow2 128 → IsFl f32 (.fin ((m : Rat) * pow2 e)) :=
    fun h1 h2 h3 => ⟨⟨_, _, rfl, h1, h2⟩, h3⟩
  have half : IsFl f32 (.fin (1 / 2)) := by
    have := fl (m := 1) (e := -1) (by decide) (by decide) (by decide +kernel)
    rwa [show ((1 : Int) : Rat) * pow2 (-1) = 1 / 2 by decide +kernel] at this
  have one : IsFl f32 (.fin 1) := by
    have := fl (m := 1) (e := 0) (by decide) (by decide) (by decide +kernel)
    rwa [show ((1 : Int) : Rat) * pow2 0 = 1 by decide +kernel] at this
  have zero : IsFl f32 (.fin 0) := ⟨rep_zero _, by decide +kernel⟩
  have top : IsFl f32 (.fin (255 / 2)) := by
    have := fl (m := 255) (e := -1) (by decide) (by decide) (by decide +kernel)
    rwa [show ((255 : Int) : Rat) * pow2 (-1) = 255 / 2 by decide +kernel] at this
  obtain ⟨p, ep, p0, p1⟩ := rnd32_between (q := 1 - a) zero half (by linarith) (by linarith)
  obtain ⟨q, eq, q0, q1⟩ := rnd32_between (q := a) zero one (by linarith) (by linarith)
  have hc : (c.toNat : Rat) ≤ 255 := by exact_mod_cast b1
  have hc0 : (0 : Rat) ≤ c.toNat := by positivity
  obtain ⟨r, er, r0, r1⟩ := rnd32_between (q := c.toNat * p) zero top (by positivity) (by nlinarith)
  have hrF : IsFl f32 (.fin r) := by rw [← er]; exact isFl_rnd _ _
  unfold Image.interpolateChannel
  rw [show Fl.ofNat f32 c.toNat = .fin c.toNat from rnd32_nat (b1.trans (by norm_num)),
    show Fl.ofNat f32 (0 : UInt8).toNat = .fin 0 by decide +kernel, ep, eq, Fl.mul_fin, Fl.mul_fin, zero_mul, rnd_zero, er,
    Fl.add_fin, add_zero, isFl_exact prec32 hrF]
  have hfl : ⌊r⌋ ≤ 127 := by
    have : ⌊r⌋ < 128 := Int.floor_lt.2 (by push_cast; linarith)
    omega
  have hfl0 : 0 ≤ ⌊r⌋ := Int.floor_nonneg.2 r0
  have : Fl.toU8 (.fin r) = ⌊r⌋.toNat := by
    simp only [Fl.toU8, Fl.toUInt]; omega
  rw [this, UInt8.toNat_ofNat']
  omega

/-- **C73, right side.**  Half a pixel and more to the right of the last pixel of a row, between two rows, at most half of
the opacity is left: unlike on the left side, the picture fades out. -/
theorem C73_right {i : Image} (hi : i.WF) (hw : i.width ≤ 2 ^ 24) (hh : i.height ≤ 2 ^ 24) {x y : Rat}
    (x0 : (i.width : Rat) - 1 / 2 ≤ x) (x1 : x < i.width) (y0 : 0 ≤ y) (y1 : y < i.height) (hy : (⌊y⌋ : Rat) ≠ y) (hw1 : 1 ≤ i.width) :
    ∃ c, i.interpolatePixelColor (.fin x) (.fin y) = .ok c ∧ c.a.toNat ≤ 127 := by
  have hw' : Fl.ofNat f32 i.width = .fin i.width := rnd32_nat hw
  have hh' : Fl.ofNat f32 i.height = .fin i.height := rnd32_nat hh
  have hwq : (1 : Rat) ≤ i.width := by exact_mod_cast hw1
  have fx : ⌊x⌋ = (i.width : Int) - 1 := by rw [Int.floor_eq_iff]; push_cast; constructor <;> linarith
  have cx : ⌈x⌉ = (i.width : Int) := by rw [Int.ceil_eq_iff]; push_cast; constructor <;> linarith
  have hfy : (⌊y⌋ : Rat) < y := lt_of_le_of_ne (Int.floor_le y) hy
  have cy : ⌈y⌉ = ⌊y⌋ + 1 := by
    rw [Int.ceil_eq_iff]; push_cast
    exact ⟨by linarith, (Int.lt_floor_add_one y).le⟩
  have f0 : 0 ≤ ⌊y⌋ := Int.floor_nonneg.mpr y0
  have f1 : (⌊y⌋ : Rat) < i.height := lt_of_le_of_lt (Int.floor_le y) y1
  have f1' : ⌊y⌋ < i.height := by exact_mod_cast f1
  unfold Image.interpolatePixelColor
  simp only [hw', hh', getPixelColor_eq hi, Res.bind_ok]
  have n1 : Fl.lt (Fl.ceil (.fin x)) (.fin 0) = false := by
    simp only [Fl.ceil, Fl.lt, cx, decide_eq_false_iff_not, not_lt]; push_cast; linarith
  have n2 : Fl.lt (Fl.ceil (.fin y)) (.fin 0) = false := by
    simp only [Fl.ceil, Fl.lt, decide_eq_false_iff_not, not_lt]; exact_mod_cast Int.ceil_nonneg y0
  have n3 : Fl.ge (Fl.floor (.fin x)) (.fin i.width) = false := by
    simp only [Fl.floor, Fl.ge, Fl.le, decide_eq_false_iff_not, not_le, fx]; push_cast; linarith
  have n4 : Fl.ge (Fl.floor (.fin y)) (.fin i.height) = false := by
    simp only [Fl.floor, Fl.ge, Fl.le, decide_eq_false_iff_not, not_le]; exact f1
  have u1 : Fl.toU32 (Fl.floor (.fin x)) = i.width - 1 := by
    simp only [Fl.toU32, Fl.floor, Fl.toUInt, Int.floor_intCast, fx]; omega
  have u2 : Fl.toU32 (Fl.ceil (.fin x)) = i.width := by
    simp only [Fl.toU32, Fl.ceil, Fl.toUInt, Int.floor_intCast, cx]; omega
  have u3 : Fl.toU32 (Fl.floor (.fin y)) = ⌊y⌋.toNat := by
    simp only [Fl.toU32, Fl.floor, Fl.toUInt, Int.floor_intCast]; omega
  have u4 : Fl.toU32 (Fl.ceil (.fin y)) = ⌊y⌋.toNat + 1 := by
    simp only [Fl.toU32, Fl.ceil, Fl.toUInt, Int.floor_intCast, cy]; omega
  have out : ∀ k, i.pixel i.width k = none := by
    intro k
    unfold Image.pixel pixelOf
    rw [if_neg (by omega)]
  rw [n1, n2, n3, n4, u1, u2, u3, u4]
  simp only [Bool.or_self, Bool.false_eq_true, if_false]
  rw [if_neg (by omega)]
  refine ⟨_, rfl, ?_⟩
  simp only [out, Option.getD_none, Image.interpolateColor, Color.transparent]
  have wx1 : Fl.sub f32 (Fl.ceil (.fin x)) (.fin x) = rnd f32 (1 - (x - ((i.width : Rat) - 1))) := by
    simp only [Fl.ceil, cx, Fl.sub_fin]; congr 1; push_cast; ring
  have wx2 : Fl.sub f32 (.fin x) (Fl.floor (.fin x)) = rnd f32 (x - ((i.width : Rat) - 1)) := by
    simp only [Fl.floor, fx, Fl.sub_fin]; congr 1; push_cast; ring
  have wy1 : Fl.sub f32 (Fl.ceil (.fin y)) (.fin y) = rnd f32 (1 - (y - ⌊y⌋)) := by
    simp only [Fl.ceil, cy, Fl.sub_fin]; congr 1; push_cast; ring
  have wy2 : Fl.sub f32 (.fin y) (Fl.floor (.fin y)) = rnd f32 (y - ⌊y⌋) := by
    simp only [Fl.floor, Fl.sub_fin]
  rw [wx1, wx2, wy1, wy2]
  refine (channel_bounds (a := y - ⌊y⌋) (by linarith) (by linarith [Int.lt_floor_add_one y]) _ _).1.trans (max_le ?_ ?_)
  · exact half_transparent (by linarith) (by linarith) _
  · exact half_transparent (by linarith) (by linarith) _

example : img2.WF ∧ img2.width ≤ 2 ^ 24 ∧ img2.height ≤ 2 ^ 24 ∧ (img2.width : Rat) - 1 / 2 ≤ 7 / 4 ∧ (⌊(1 / 2 : Rat)⌋ : Rat) ≠ 1 / 2 ∧
    1 ≤ img2.width := by
  refine ⟨⟨rfl, by decide⟩, by decide, by decide, ?_, ?_, by decide⟩
  · norm_num [img2]
  · norm_num

/-! ## C76 -/

/-- **C76, partial** (full statement: for every extent; missing is the last 2^-14 of a degree before 180 degrees east, where it
is false).  An area that ends at least 2^-14 degrees before 180 degrees east only gets tiles with a column below
2^zoom, at every zoom level up to 31, in all runs, even those that fail. -/
theorem C76_partial {T : Type} (m : Libm) (e : LatLonExtent) {w : Rat} (hmin : e.minCoord.lon = .fin w) {E : Rat}
    (hmax : e.maxCoord.lon = .fin E) (h1 : w ≤ 180 - 1 / 2 ^ 14) (h2 : E ≤ 180 - 1 / 2 ^ 14) (zooms : Nat × Nat)
    (valueFn : LatLon → Res (Option T)) (colorFn : T → Color) (trace : List MapTileRenderer.Saved)
    (o : MapTileRenderer.Outcome) (h : MapTileRenderer.runAllTiles m e zooms valueFn colorFn trace o) :
    ∀ s ∈ trace, s.tile.x < 2 ^ s.tile.zoom := by
  intro s hs
  have hsub := (does_all m e zooms valueFn colorFn).sub trace o h
  have hm : s.tile ∈ MapTileRenderer.allTiles m e zooms := hsub.subset (List.mem_map_of_mem hs)
  rw [mem_allTiles] at hm
  obtain ⟨-, -, xs, ys, hr, hx1, hx2, -⟩ := hm
  generalize s.tile.zoom = z at hr ⊢
  have hz : z ≤ 31 := by
    by_contra hc
    unfold MapTileRenderer.tileRange MapTileCoord.fromPosition at hr
    rw [zoomPow_panic (by omega)] at hr
    cases hr
  have col : ∀ l : Rat, l ≤ 180 - 1 / 2 ^ 14 → MapTileCoord.column (.fin l) (.fin (2 ^ z)) < 2 ^ z := by
    intro l hl
    have hmono : MapTileCoord.column (.fin l) (.fin (2 ^ z)) ≤ MapTileCoord.column (.fin (180 - 1 / 2 ^ 14)) (.fin (2 ^ z)) :=
      column_mono (by positivity) (by rw [Fl.le_fin]; exact hl)
    refine lt_of_le_of_lt hmono ?_
    unfold MapTileCoord.column
    have e1 : Fl.div f32 (Fl.add f32 (.fin (180 - 1 / 2 ^ 14)) (.fin 180)) (.fin 360) = .fin (1 - 3 / 2 ^ 24) := by
      decide +kernel
    rw [e1, Fl.mul_fin]
    have hrep : IsFl f32 (.fin ((1 - 3 / 2 ^ 24) * 2 ^ z : Rat)) := by
      refine ⟨⟨2 ^ 24 - 3, (z : Int) - 24, ?_, by decide, by show (-149 : Int) ≤ _; omega⟩, ?_⟩
      · rw [pow2_sub, pow2_nat, show pow2 24 = 2 ^ 24 by decide +kernel]; push_cast; ring
      · rw [abs_of_nonneg (by positivity)]
        have : (2 : Rat) ^ z ≤ 2 ^ 31 := pow_le_pow_right₀ (by norm_num) hz
        rw [show pow2 f32.emax = 2 ^ 128 by decide +kernel]
        calc ((1 - 3 / 2 ^ 24) * 2 ^ z : Rat) ≤ 1 * 2 ^ 31 := by gcongr; norm_num
          _ < 2 ^ 128 := by norm_num
    rw [isFl_exact prec32 hrep]
    have hfl : ⌊((1 - 3 / 2 ^ 24) * 2 ^ z : Rat)⌋ < (2 ^ z : Int) := by
      rw [Int.floor_lt]
      push_cast
      have : (0 : Rat) < 2 ^ z := by positivity
      nlinarith
    have hz2 : (0 : Int) < 2 ^ z := by positivity
    simp only [Fl.floor, Fl.toU32, Fl.toUInt, Int.floor_intCast]
    have : ((2 ^ z : Nat) : Int) = 2 ^ z := by push_cast; rfl
    omega
  unfold MapTileRenderer.tileRange MapTileCoord.fromPosition at hr
  rw [zoomPow_eq hz] at hr
  simp only at hr
  have hr' : ∀ {a b : (Nat × Nat) × (Nat × Nat)}, Res.ok a = Res.ok b → a = b := fun h => by cases h; rfl
  have := hr' hr
  rw [Prod.mk.injEq] at this
  obtain ⟨rfl, -⟩ := this
  simp only at hx2
  rw [hmin, hmax] at hx2
  exact lt_of_le_of_lt hx2 (max_lt (col E h2) (col w h1))

end Verif.Props

namespace Verif.Dwd

/-! ## C83 -/

/-- The server publishes the steps of a variable in order: with a step of a variable, all the steps before are there. -/
def InOrder (available : Text → Bool) (run : Run) : Prop :=
  ∀ (v : SingleVar) (s s' : Nat) (url url' : Text), s ≤ s' → fileUrl run (.single v s) = .ok url →
    fileUrl run (.single v s') = .ok url' → available url' = true → available url = true

/-- **C83, partial** (full statement: all files; missing are the files per level and the level heights, for which it is false).
If the files of each variable are published in the order of the steps, then a run of today that was found has the
single-level files of all variables and steps. -/
theorem C83_partial {m : FcModel} (h : IsDwd m) (available : Text → Bool) (today now : Date) (hn : now.yesterday ≠ today) (run : Run)
    (hrun : findLatestRun m today now available = .ok run) (hd : run.date = today) (ho : InOrder available run) (v : SingleVar)
    (step : Nat) (hs : step ≤ lastHour m) : ∃ url, fileUrl run (.single v step) = .ok url ∧ available url = true := by
  rcases C51_cases h available today now with ⟨name, hnew, e⟩ | ⟨-, e⟩
  · rw [hrun] at e
    simp only [Res.ok.injEq] at e
    subst e
    obtain ⟨url', h1, h2⟩ := hnew.2.1 (.single v (lastHour m)) (by cases v <;> simp [probes])
    obtain ⟨url, hu, -⟩ := C52_download (run := ⟨m, today, name⟩) h (.single v step)
    exact ⟨url, hu, ho v step _ url url' hs hu h1 h2⟩
  · rw [hrun] at e
    simp only [Res.ok.injEq] at e
    subst e
    exact absurd hd hn

example : (⟨2025, 8, 5⟩ : Date).yesterday ≠ ⟨2025, 8, 5⟩ ∧ InOrder (fun _ => true) ⟨.iconD2, ⟨2025, 8, 5⟩, "21".toList⟩ ∧
    findLatestRun .iconD2 ⟨2025, 8, 5⟩ ⟨2025, 8, 5⟩ (fun _ => true) = .ok ⟨.iconD2, ⟨2025, 8, 5⟩, "21".toList⟩ :=
  ⟨by decide +kernel, fun _ _ _ _ _ _ _ _ _ => rfl, by decide +kernel⟩

end Verif.Dwd
