import Verif.Model.Small
import Verif.Props.Weights
import Verif.Lemmas.FloatErr

/-!
# C155 - C157: values at positions of unstructured grids, averages of three neighbours, and the middle of an area
-/

namespace Verif.Props

open Verif

/-! ## C155: the regular grid answers as the unstructured one -/

section
variable {T : Type}

/-- What is seen of a value if those equal to the missing value count as absent. -/
def withoutMissing [GridValue T] (missing : T) (o : Option T) : Option T :=
  o.filter fun v => !GridValue.eq v missing

theorem regular_cell {f : Nat → Nat → Res (Option T)} {w h : Nat} {missing : T} {values : List T}
    (hv : Res.mapM (fun i => do
        let v ← f (i % w) (i / w)
        Res.ok (v.getD missing)) (List.range (w * h)) = .ok values) {x y : Nat} (hx : x < w) (hy : y < h) :
    ∃ o, f x y = .ok o ∧ values[x + y * w]? = some (o.getD missing) := by
  have hf := (Res.mapM_ok_iff _ _ _).mp hv
  have hlt : x + y * w < w * h := by
    have : (y + 1) * w ≤ h * w := Nat.mul_le_mul_right _ hy
    rw [Nat.add_mul, Nat.one_mul] at this
    rw [Nat.mul_comm w h]; omega
  have hlen := hf.length_eq
  rw [List.length_range] at hlen
  have hget := List.forall₂_iff_get.mp hf
  have h1 := hget.2 (x + y * w) (by simpa using hlt) (by omega)
  simp only [List.get_eq_getElem, List.getElem_range] at h1
  have hw : 0 < w := by omega
  rw [Nat.add_mul_mod_self_right, Nat.mod_eq_of_lt hx, Nat.add_mul_div_right _ _ hw, Nat.div_eq_of_lt hx, Nat.zero_add] at h1
  obtain ⟨o, e1, e2⟩ := Res.bind_eq_ok.mp h1
  refine ⟨o, e1, ?_⟩
  rw [List.getElem?_eq_getElem (by omega)]
  exact congrArg some (Res.ok.inj e2).symm

theorem regular_value [GridValue T] {f : Nat → Nat → Res (Option T)} {w h : Nat} {missing : T} {values : List T}
    {ext : LatLonExtent} (hm : GridValue.eq missing missing = true)
    (hv : Res.mapM (fun i => do
        let v ← f (i % w) (i / w)
        Res.ok (v.getD missing)) (List.range (w * h)) = .ok values)
    (hsz : w * h < 2 ^ 64) (hout : ∀ x y, ¬ (x < w ∧ y < h) → f x y = .ok none) (x y : Nat) :
    ∃ o, f x y = .ok o ∧ (LatLonValueGrid.new values missing (w, h) ext).getValueByXY x y = .ok (withoutMissing missing o) := by
  by_cases hxy : x < w ∧ y < h
  · obtain ⟨o, h1, h2⟩ := regular_cell hv hxy.1 hxy.2
    refine ⟨o, h1, ?_⟩
    have hlt : x + y * w < w * h := by
      have : (y + 1) * w ≤ h * w := Nat.mul_le_mul_right _ hxy.2
      rw [Nat.add_mul, Nat.one_mul] at this
      rw [Nat.mul_comm w h]; omega
    have hidx : (LatLonGrid.new (w, h) ext).getIndexByXY x y = .ok (some (x + y * w)) := by
      unfold LatLonGrid.getIndexByXY
      show (if (x ≥ w || y ≥ h) = true then _ else _) = _
      rw [if_neg (by simp; omega)]
      exact if_neg (by show ¬ x + y * w ≥ 2 ^ 64; omega)
    unfold LatLonValueGrid.getValueByXY
    show (Res.bind ((LatLonGrid.new (w, h) ext).getIndexByXY x y) _) = _
    rw [hidx]
    show (Res.bind (Res.index values (x + y * w)) fun v => Res.ok (if (!GridValue.eq v missing) = true then some v else none)) = _
    unfold Res.index
    rw [h2]
    show Res.ok _ = Res.ok _
    cases o with
    | none => simp [withoutMissing, hm]
    | some v =>
      simp only [Option.getD_some, withoutMissing, Option.filter_some]
  · refine ⟨none, hout x y hxy, ?_⟩
    have hidx : (LatLonGrid.new (w, h) ext).getIndexByXY x y = .ok none := by
      unfold LatLonGrid.getIndexByXY
      exact if_pos (by simp; show w ≤ x ∨ h ≤ y; omega)
    unfold LatLonValueGrid.getValueByXY
    show (Res.bind ((LatLonGrid.new (w, h) ext).getIndexByXY x y) _) = _
    rw [hidx]
    rfl

/-- C155: at every position, the regular grid made of an unstructured one gives the value that the unstructured one gives,
except that values equal to the missing value become absent.  Missing for the full property: the unstructured grid gives
such values as if they were data (`C155_counterexample`). -/
theorem C155_nearest_partial [GridValue T] (g : UnstructuredValueGrid T) (hs : UnstructuredGrid.WellSized g.grid)
    (hg : g.grid.latLonGrid = LatLonGrid.new g.grid.latLonGrid.dimensions g.grid.latLonGrid.extent)
    (hm : GridValue.eq g.missingValue g.missingValue = true) :
    ∃ r, g.createRegularGrid = .ok r ∧ ∀ pos, ∃ o, g.getValueByLatLon pos = .ok o ∧
      r.getValueByLatLon pos = .ok (withoutMissing g.missingValue o) := by
  obtain ⟨r, hr, -⟩ := C25_regrid g hs
  refine ⟨r, hr, fun pos => ?_⟩
  unfold UnstructuredValueGrid.createRegularGrid at hr
  simp only at hr
  rw [if_neg (by have := hs.2; omega)] at hr
  obtain ⟨values, hv, hr⟩ := Res.bind_eq_ok.mp hr
  cases hr
  have e1 : (LatLonValueGrid.new values g.missingValue g.grid.latLonGrid.dimensions g.grid.latLonGrid.extent).grid =
      g.grid.latLonGrid := hg.symm
  unfold UnstructuredValueGrid.getValueByLatLon LatLonValueGrid.getValueByLatLon
  rw [e1]
  cases g.grid.latLonGrid.getXYByLatLon pos with
  | none => exact ⟨none, rfl, rfl⟩
  | some p =>
    refine regular_value hm hv hs.2 (fun x y hxy => ?_) _ _
    have hidx : g.grid.latLonGrid.getIndexByXY x y = .ok none := by
      unfold LatLonGrid.getIndexByXY
      exact if_pos (by simp; omega)
    unfold UnstructuredValueGrid.getValueByXY UnstructuredGrid.getCoordDist
    rw [hidx]
    rfl

/-- C155 for the grid that averages three neighbours: the same wherever the regular grid can be made. -/
theorem C155_three_partial [GridValue T] [GridSum T] (g : UnstructuredValueGrid1 T)
    (hg : g.grid.latLonGrid = LatLonGrid.new g.grid.latLonGrid.dimensions g.grid.latLonGrid.extent)
    (hm : GridValue.eq g.missingValue g.missingValue = true) (r : LatLonValueGrid T) (hr : g.createRegularGrid = .ok r)
    (pos : LatLon) : ∃ o, g.getValueByLatLon pos = .ok o ∧
      r.getValueByLatLon pos = .ok (withoutMissing g.missingValue o) := by
  unfold UnstructuredValueGrid1.createRegularGrid at hr
  simp only at hr
  split at hr
  · cases hr
  rename_i hsz
  obtain ⟨values, hv, hr⟩ := Res.bind_eq_ok.mp hr
  cases hr
  have e1 : (LatLonValueGrid.new values g.missingValue g.grid.latLonGrid.dimensions g.grid.latLonGrid.extent).grid =
      g.grid.latLonGrid := hg.symm
  unfold UnstructuredValueGrid1.getValueByLatLon LatLonValueGrid.getValueByLatLon
  rw [e1]
  cases g.grid.latLonGrid.getXYByLatLon pos with
  | none => exact ⟨none, rfl, rfl⟩
  | some p =>
    refine regular_value hm hv (by omega) (fun x y hxy => ?_) _ _
    have hidx : g.grid.latLonGrid.getIndexByXY x y = .ok none := by
      unfold LatLonGrid.getIndexByXY
      exact if_pos (by simp; omega)
    unfold UnstructuredValueGrid1.getValueByXY UnstructuredGrid1.getCoordDistTriple
    rw [hidx]
    rfl

end

/-- C155 fails: at a position whose point has no data, the unstructured grid gives the missing value as a value, and the
regular grid gives none. -/
theorem C155_counterexample : ∃ (grid : UnstructuredGrid) (r : LatLonValueGrid UInt8),
    demoLookup = .ok grid ∧ (⟨grid, [10, 255, 30, 40], 255⟩ : UnstructuredValueGrid UInt8).createRegularGrid = .ok r ∧
    (⟨grid, [10, 255, 30, 40], 255⟩ : UnstructuredValueGrid UInt8).getValueByLatLon ⟨.fin 1, .fin 1⟩ = .ok (some 255) ∧
    r.getValueByLatLon ⟨.fin 1, .fin 1⟩ = .ok none ∧
    (⟨grid, [10, 255, 30, 40], 255⟩ : UnstructuredValueGrid UInt8).getValueByLatLon ⟨.fin 1, .fin 5⟩ = .ok (some 40) ∧
    r.getValueByLatLon ⟨.fin 1, .fin 5⟩ = .ok (some 40) := by
  have h1 : demoLookup.bind (fun g => (⟨g, [10, 255, 30, 40], 255⟩ : UnstructuredValueGrid UInt8).createRegularGrid.bind
      fun r => .ok (((⟨g, [10, 255, 30, 40], 255⟩ : UnstructuredValueGrid UInt8).getValueByLatLon ⟨.fin 1, .fin 1⟩,
        r.getValueByLatLon ⟨.fin 1, .fin 1⟩),
        ((⟨g, [10, 255, 30, 40], 255⟩ : UnstructuredValueGrid UInt8).getValueByLatLon ⟨.fin 1, .fin 5⟩,
        r.getValueByLatLon ⟨.fin 1, .fin 5⟩))) =
      .ok ((.ok (some 255), .ok none), (.ok (some 40), .ok (some 40))) := by decide +kernel
  cases hg : demoLookup with
  | ok g =>
    rw [hg] at h1
    cases hr : (⟨g, [10, 255, 30, 40], 255⟩ : UnstructuredValueGrid UInt8).createRegularGrid with
    | ok r =>
      simp only [Res.bind, hr, Res.ok.injEq, Prod.mk.injEq] at h1
      exact ⟨g, r, rfl, hr, h1.1.1, h1.1.2, h1.2.1, h1.2.2⟩
    | err => simp [Res.bind, hr] at h1
    | panic => simp [Res.bind, hr] at h1
  | err => rw [hg] at h1; cases h1
  | panic => rw [hg] at h1; cases h1

/-- The conditions of C155 hold for it. -/
example (g : UnstructuredGrid) (h : demoLookup = .ok g) : UnstructuredGrid.WellSized g ∧
    g.latLonGrid = LatLonGrid.new g.latLonGrid.dimensions g.latLonGrid.extent := by
  unfold demoLookup at h
  obtain ⟨g0, g', h1, h2, h3, -, h4, -⟩ := C23_nearest 2 1 (by decide) (by decide) (by decide)
    (finExtent 0 0 4 8) demoCoords (by
      intro c hc
      simp only [demoCoords, List.mem_cons, List.not_mem_nil, or_false] at hc
      rcases hc with rfl | rfl | rfl | rfl <;> exact ⟨_, _, rfl⟩) (.fin (3 / 2)) (by decide +kernel)
  rw [h1] at h
  have h : g0.calcCoordDistLookupMap (.fin (3 / 2)) = .ok g := h
  rw [h2] at h
  cases h
  exact ⟨h4, by rw [h3]; rfl⟩

/-! ## C156: averages with neighbours that have no value -/

theorem sum_fl (l : List Fl) : GridSum.sum l = .ok (l.foldl (Fl.add f32) (.fin 0)) := by
  show Res.foldl (fun a b => Res.ok (Fl.add f32 a b)) (Fl.fin 0) l = _
  generalize Fl.fin 0 = a
  induction l generalizing a with
  | nil => rfl
  | cons b l ih => exact ih (Fl.add f32 a b)

theorem fold_err {B : Rat} (hB : 1 / 2 ^ 100 ≤ B) (hB' : B ≤ 2 ^ 100) (l : List Rat) (k : Nat) (p s : Rat)
    (hk : k + l.length ≤ 4) (hs : |s - p| ≤ k * (2 * B / 2 ^ 24 + 1 / 2 ^ 150)) (hp : |p| + (l.map abs).sum ≤ B) :
    ∃ r, (l.map Fl.fin).foldl (Fl.add f32) (.fin s) = .fin r ∧
      |r - (p + l.sum)| ≤ (k + l.length : Nat) * (2 * B / 2 ^ 24 + 1 / 2 ^ 150) := by
  induction l generalizing k p s with
  | nil => exact ⟨s, rfl, by simpa using hs⟩
  | cons x l ih =>
    have he : (0 : Rat) ≤ 2 * B / 2 ^ 24 + 1 / 2 ^ 150 := by positivity
    have hk4 : (k : Rat) ≤ 3 := by
      have : k ≤ 3 := by simp at hk; omega
      exact_mod_cast this
    simp only [List.map_cons, List.sum_cons] at hp
    have hpx : |p + x| ≤ B := by
      have : 0 ≤ (l.map abs).sum := List.sum_nonneg (by simp)
      have := abs_add_le p x
      linarith
    have h3 : |s - p| ≤ B := by
      have : (k : Rat) * (2 * B / 2 ^ 24 + 1 / 2 ^ 150) ≤ 3 * (2 * B / 2 ^ 24 + 1 / 2 ^ 150) := by gcongr
      have h4 : (1 : Rat) / 2 ^ 150 ≤ B / 2 ^ 24 := by
        have : (1 : Rat) / 2 ^ 100 / 2 ^ 24 ≤ B / 2 ^ 24 := by gcongr
        have h5 : (1 : Rat) / 2 ^ 150 ≤ 1 / 2 ^ 100 / 2 ^ 24 := by norm_num
        linarith
      have : 3 * (2 * B / 2 ^ 24 + B / 2 ^ 24) ≤ B := by
        have : 0 ≤ B := by linarith [show (0 : Rat) ≤ 1 / 2 ^ 100 by norm_num]
        linarith
      linarith
    have hsx : |s + x| ≤ 2 * B := by
      have : s + x = (s - p) + (p + x) := by ring
      rw [this]
      exact (abs_add_le _ _).trans (by linarith)
    obtain ⟨v, e1, -, e3⟩ := rnd32_err_le hsx (by
      calc 2 * B ≤ 2 * 2 ^ 100 := by linarith
        _ ≤ 2 ^ 127 := by norm_num)
    obtain ⟨r, r1, r2⟩ := ih (k + 1) (p + x) v (by simp at hk; omega) (by
      have : v - (p + x) = (v - (s + x)) + (s - p) := by ring
      rw [this]
      push_cast
      refine (abs_add_le _ _).trans ?_
      linarith) (by
      have := abs_add_le p x
      linarith)
    refine ⟨r, ?_, ?_⟩
    · simp only [List.map_cons, List.foldl_cons, Fl.add_fin, e1]
      exact r1
    · rw [List.sum_cons, List.length_cons, ← add_assoc p x]
      have : ((k + (l.length + 1) : Nat) : Rat) = ((k + 1 + l.length : Nat) : Rat) := by congr 1; omega
      rw [this]
      exact r2

theorem sum_err {B : Rat} (hB : 1 / 2 ^ 100 ≤ B) (hB' : B ≤ 2 ^ 100) (l : List Rat) (hk : l.length ≤ 4)
    (hp : (l.map abs).sum ≤ B) :
    ∃ r, (l.map Fl.fin).foldl (Fl.add f32) (.fin 0) = .fin r ∧
      |r - l.sum| ≤ 4 * (2 * B / 2 ^ 24 + 1 / 2 ^ 150) := by
  obtain ⟨r, r1, r2⟩ := fold_err hB hB' l 0 0 0 (by omega) (by simp) (by simpa using hp)
  refine ⟨r, r1, ?_⟩
  rw [zero_add, zero_add] at r2
  refine r2.trans ?_
  have : (0 : Rat) ≤ 2 * B / 2 ^ 24 + 1 / 2 ^ 150 := by
    have : 0 ≤ B := by linarith [show (0 : Rat) ≤ 1 / 2 ^ 100 by norm_num]
    positivity
  have : ((l.length : Nat) : Rat) ≤ 4 := by exact_mod_cast hk
  gcongr

/-- What the three-neighbour grid knows at a coordinate: nothing if there is no value or it is the missing one. -/
def known (g : UnstructuredValueGrid1 Fl) (cd : CoordDist) : Option Fl :=
  withoutMissing g.missingValue g.values[cd.coordIndex]?

/-- C156, what happens instead: the cell shows the average over all of the neighbours kept, weighted by the distances, in
which those without value count as zero. -/
theorem C156_missing_as_zero (g : UnstructuredValueGrid1 Fl) (x y : Nat) (t : CoordDistTriple)
    (ht : g.grid.getCoordDistTriple x y = .ok (some t)) (hlen : t.getCoordDists.length ≤ 3) (dist val : CoordDist → Rat)
    (hd : ∀ cd ∈ t.getCoordDists, Fl.sqrt f32 cd.coordDistSquared = .fin (dist cd) ∧ 0 ≤ dist cd)
    (hD : 1 / 2 ^ 60 ≤ (t.getCoordDists.map dist).sum) (hD' : (t.getCoordDists.map dist).sum ≤ 2 ^ 60) (V : Rat)
    (hV : 1 / 2 ^ 60 ≤ V) (hV' : V ≤ 2 ^ 60)
    (hv : ∀ cd ∈ t.getCoordDists, (known g cd = some (.fin (val cd)) ∧ |val cd| ≤ V) ∨ (known g cd = none ∧ val cd = 0)) :
    ∃ r, g.getValueByXY x y = .ok (some (.fin r)) ∧
      |r - (t.getCoordDists.map fun cd => val cd * dist cd).sum / (t.getCoordDists.map dist).sum| ≤ V / 2 ^ 16 := by
  generalize hcds : t.getCoordDists = cds at *
  set A := (cds.map dist).sum with hA
  have hApos : 0 < A := lt_of_lt_of_le (by norm_num) hD
  have hVpos : 0 < V := lt_of_lt_of_le (by norm_num) hV
  have hne : cds ≠ [] := by rintro rfl; simp [hA] at hApos
  -- the sum of the distances
  have habs : ((cds.map dist).map abs).sum = A := by
    rw [List.map_map, hA]
    congr 1
    exact List.map_congr_left fun cd h => abs_of_nonneg (hd cd h).2
  obtain ⟨S, hS, eS⟩ := sum_err (B := A) (by linarith [show (1 : Rat) / 2 ^ 100 ≤ 1 / 2 ^ 60 by norm_num])
    (by linarith [show (2 : Rat) ^ 60 ≤ 2 ^ 100 by norm_num]) (cds.map dist) (by rw [List.length_map]; omega) habs.le
  have hsum : UnstructuredValueGrid1.distSum cds = .fin S := by
    unfold UnstructuredValueGrid1.distSum
    rw [← hS]
    congr 1
    rw [List.map_map]
    exact List.map_congr_left fun cd h => (hd cd h).1
  rw [← hA] at eS
  have hSA : |S - A| ≤ A / 2 ^ 20 := by
    refine eS.trans ?_
    have : (1 : Rat) / 2 ^ 150 ≤ A / 2 ^ 24 := by
      have : (1 : Rat) / 2 ^ 60 / 2 ^ 24 ≤ A / 2 ^ 24 := by gcongr
      have h5 : (1 : Rat) / 2 ^ 150 ≤ 1 / 2 ^ 60 / 2 ^ 24 := by norm_num
      linarith
    linarith
  obtain ⟨hS1, hS2⟩ := abs_le.mp hSA
  have hSpos : 0 < S := by linarith
  -- one neighbour
  have hw : ∀ cd ∈ cds, ∃ c : Rat, known g cd ≠ none →
      UnstructuredValueGrid1.weighted g.values g.missingValue (.fin S) cd = some (.fin c) ∧
      |c - val cd * dist cd / A| ≤ 2 * V / 2 ^ 20 := by
    intro cd h
    obtain ⟨d1, d2⟩ := hd cd h
    rcases hv cd h with ⟨v0, v2⟩ | ⟨v0, v2⟩
    swap
    · exact ⟨0, fun h => (h v0).elim⟩
    obtain ⟨v1, v3⟩ : g.values[cd.coordIndex]? = some (.fin (val cd)) ∧ Fl.feq (.fin (val cd)) g.missingValue = false := by
      unfold known withoutMissing at v0
      rw [Option.filter_eq_some_iff] at v0
      refine ⟨v0.1, ?_⟩
      have := v0.2
      rw [Bool.not_eq_true'] at this
      exact this
    have hdA : dist cd ≤ A := by
      rw [hA]
      exact List.single_le_sum (by
        intro z hz
        obtain ⟨c', h', rfl⟩ := List.mem_map.mp hz
        exact (hd c' h').2) _ (List.mem_map_of_mem h)
    have q1 : |dist cd / S| ≤ 2 := by
      rw [abs_of_nonneg (by positivity), div_le_iff₀ hSpos]
      linarith
    obtain ⟨w, w1, -, w2⟩ := rnd32_err_le q1 (by norm_num)
    have q2 : |dist cd / S - dist cd / A| ≤ 11 / 10 / 2 ^ 20 := by
      have : dist cd / S - dist cd / A = dist cd / A * ((A - S) / S) := by
        field_simp
      rw [this, abs_mul]
      have a1 : |dist cd / A| ≤ 1 := by
        rw [abs_of_nonneg (by positivity), div_le_one hApos]
        exact hdA
      have a2 : |(A - S) / S| ≤ 11 / 10 / 2 ^ 20 := by
        rw [abs_div, abs_of_pos hSpos, div_le_iff₀ hSpos, abs_sub_comm]
        refine hSA.trans ?_
        linarith
      have := mul_le_mul a1 a2 (abs_nonneg _) zero_le_one
      linarith
    have q3 : |w - dist cd / A| ≤ 13 / 10 / 2 ^ 20 := by
      have : w - dist cd / A = (w - dist cd / S) + (dist cd / S - dist cd / A) := by ring
      rw [this]
      refine (abs_add_le _ _).trans ?_
      have : (2 : Rat) / 2 ^ 24 + 1 / 2 ^ 150 ≤ 2 / 10 / 2 ^ 20 := by norm_num
      linarith
    have q4 : |val cd * w| ≤ 2 * V := by
      rw [abs_mul]
      have : |w| ≤ 2 := by
        have a1 : |dist cd / A| ≤ 1 := by
          rw [abs_of_nonneg (by positivity), div_le_one hApos]
          exact hdA
        have : w = (w - dist cd / A) + dist cd / A := by ring
        rw [this]
        refine (abs_add_le _ _).trans ?_
        linarith [show (13 : Rat) / 10 / 2 ^ 20 ≤ 1 by norm_num]
      calc _ ≤ V * 2 := by gcongr
        _ = _ := by ring
    obtain ⟨c, c1, -, c2⟩ := rnd32_err_le q4 (by
      calc 2 * V ≤ 2 * 2 ^ 60 := by linarith
        _ ≤ 2 ^ 127 := by norm_num)
    refine ⟨c, fun _ => ⟨?_, ?_⟩⟩
    · unfold UnstructuredValueGrid1.weighted
      rw [v1]
      simp only
      have v3' : GridValue.eq (Fl.fin (val cd)) g.missingValue = false := v3
      rw [v3', if_neg (by simp), d1, Fl.div_fin _ _ hSpos.ne', w1]
      show some (Fl.mul f32 (.fin (val cd)) (.fin w)) = _
      rw [Fl.mul_fin, c1]
    · have : c - val cd * dist cd / A = (c - val cd * w) + val cd * (w - dist cd / A) := by ring
      rw [this]
      refine (abs_add_le _ _).trans ?_
      have h1 : |val cd * (w - dist cd / A)| ≤ V * (13 / 10 / 2 ^ 20) := by
        rw [abs_mul]; gcongr
      have h2 : (1 : Rat) / 2 ^ 150 ≤ V / 2 ^ 24 := by
        have : (1 : Rat) / 2 ^ 60 / 2 ^ 24 ≤ V / 2 ^ 24 := by gcongr
        have h5 : (1 : Rat) / 2 ^ 150 ≤ 1 / 2 ^ 60 / 2 ^ 24 := by norm_num
        linarith
      linarith
  choose! c hc using hw
  -- the neighbours with a value
  obtain ⟨ps, hps⟩ : ∃ ps, ps = cds.filter fun cd => (known g cd).isSome := ⟨_, rfl⟩
  have hmem : ∀ cd ∈ ps, cd ∈ cds ∧ known g cd ≠ none := by
    intro cd h
    rw [hps, List.mem_filter] at h
    exact ⟨h.1, fun e => by rw [e] at h; simp at h⟩
  have hplen : ps.length ≤ 3 := by
    rw [hps]
    exact (List.length_filter_le _ _).trans hlen
  have hc1 : ∀ cd ∈ ps, UnstructuredValueGrid1.weighted g.values g.missingValue (.fin S) cd = some (.fin (c cd)) :=
    fun cd h => (hc cd (hmem cd h).1 (hmem cd h).2).1
  have hc2 : ∀ cd ∈ ps, |c cd - val cd * dist cd / A| ≤ 2 * V / 2 ^ 20 :=
    fun cd h => (hc cd (hmem cd h).1 (hmem cd h).2).2
  have hnone : ∀ cd, known g cd = none → UnstructuredValueGrid1.weighted g.values g.missingValue (.fin S) cd = none := by
    intro cd h
    unfold known withoutMissing at h
    unfold UnstructuredValueGrid1.weighted
    cases hx : g.values[cd.coordIndex]? with
    | none => rfl
    | some v =>
      rw [hx, Option.filter_some] at h
      simp only
      rw [if_pos]
      by_contra h'
      rw [if_pos (by simpa using h')] at h
      cases h
  have hall : ∀ l : List CoordDist, (∀ cd ∈ l, cd ∈ cds) →
      l.filterMap (UnstructuredValueGrid1.weighted g.values g.missingValue (.fin S)) =
        ((l.filter fun cd => (known g cd).isSome).map c).map Fl.fin ∧
      ((l.filter fun cd => (known g cd).isSome).map fun cd => val cd * dist cd).sum =
        (l.map fun cd => val cd * dist cd).sum := by
    intro l hl
    induction l with
    | nil => exact ⟨rfl, rfl⟩
    | cons a l ih =>
      obtain ⟨i1, i2⟩ := ih fun cd h => hl cd (by simp [h])
      rw [List.filterMap_cons, List.filter_cons]
      cases hk : known g a with
      | none =>
        have : val a = 0 := by
          rcases hv a (hl a (by simp)) with h | h
          · rw [hk] at h; cases h.1
          · exact h.2
        rw [hnone a hk, if_neg (by simp)]
        refine ⟨i1, ?_⟩
        rw [i2, List.map_cons, List.sum_cons, this]
        ring
      | some v =>
        rw [(hc a (hl a (by simp)) (by rw [hk]; simp)).1, if_pos (by simp)]
        simp only [List.map_cons, List.sum_cons]
        exact ⟨by rw [i1], by rw [i2]⟩
  obtain ⟨hfm, hsv⟩ := hall cds fun _ h => h
  rw [← hps] at hfm hsv
  have term : ∀ cd ∈ ps, |val cd * dist cd / A| ≤ V := by
    intro cd h
    obtain ⟨h, hk⟩ := hmem cd h
    have hdA : dist cd ≤ A := by
      rw [hA]
      exact List.single_le_sum (by
        intro z hz
        obtain ⟨c', h', rfl⟩ := List.mem_map.mp hz
        exact (hd c' h').2) _ (List.mem_map_of_mem h)
    rw [mul_div_assoc, abs_mul, abs_of_nonneg (div_nonneg (hd cd h).2 hApos.le)]
    have : dist cd / A ≤ 1 := (div_le_one hApos).mpr hdA
    calc |val cd| * (dist cd / A) ≤ V * 1 := by
          have : |val cd| ≤ V := by
            rcases hv cd h with h | h
            · exact h.2
            · exact (hk h.1).elim
          have := div_nonneg (hd cd h).2 hApos.le
          gcongr
      _ = V := mul_one V
  have bound : ∀ (l : List CoordDist) (f : CoordDist → Rat) (b : Rat), (∀ cd ∈ l, |f cd| ≤ b) →
      ((l.map f).map abs).sum ≤ l.length * b := by
    intro l f b h
    induction l with
    | nil => simp
    | cons a l ih =>
      have := ih fun cd h' => h cd (by simp [h'])
      have := h a (by simp)
      simp only [List.map_cons, List.sum_cons, List.length_cons]
      push_cast
      linarith
  have hlen3 : (ps.length : Rat) ≤ 3 := by exact_mod_cast hplen
  obtain ⟨r, r1, r2⟩ := sum_err (B := 4 * V) (by linarith [show (1 : Rat) / 2 ^ 100 ≤ 1 / 2 ^ 60 by norm_num])
    (by calc 4 * V ≤ 4 * 2 ^ 60 := by linarith
          _ ≤ 2 ^ 100 := by norm_num) (ps.map c) (by rw [List.length_map]; omega) (by
      refine (bound ps c (V + 2 * V / 2 ^ 20) fun cd h => ?_).trans ?_
      · have : c cd = (c cd - val cd * dist cd / A) + val cd * dist cd / A := by ring
        rw [this]
        refine (abs_add_le _ _).trans ?_
        linarith [hc2 cd h, term cd h]
      · calc (ps.length : Rat) * (V + 2 * V / 2 ^ 20) ≤ 3 * (V + 2 * V / 2 ^ 20) := by
              have : 0 ≤ V + 2 * V / 2 ^ 20 := by positivity
              gcongr
          _ ≤ 4 * V := by linarith)
  refine ⟨r, ?_, ?_⟩
  · unfold UnstructuredValueGrid1.getValueByXY
    rw [ht]
    simp only [Res.bind_ok, hcds, hsum, hfm]
    rw [if_neg (by simpa using hne), sum_fl, r1]
    rfl
  · have hdiff : ∀ l : List CoordDist, (∀ cd ∈ l, cd ∈ ps) →
        |(l.map c).sum - (l.map fun cd => val cd * dist cd).sum / A| ≤ l.length * (2 * V / 2 ^ 20) := by
      intro l hl
      induction l with
      | nil => simp
      | cons a l ih =>
        have h1 := ih fun cd h => hl cd (by simp [h])
        have h2 := hc2 a (hl a (by simp))
        simp only [List.map_cons, List.sum_cons, List.length_cons]
        have : c a + (l.map c).sum - (val a * dist a + (l.map fun cd => val cd * dist cd).sum) / A =
            (c a - val a * dist a / A) + ((l.map c).sum - (l.map fun cd => val cd * dist cd).sum / A) := by ring
        rw [this]
        push_cast
        refine (abs_add_le _ _).trans ?_
        linarith
    have h1 := hdiff ps fun _ h => h
    rw [hsv] at h1
    have h2 : (ps.length : Rat) * (2 * V / 2 ^ 20) ≤ 3 * (2 * V / 2 ^ 20) := by gcongr
    have h3 : r - (cds.map fun cd => val cd * dist cd).sum / A =
        (r - (ps.map c).sum) + ((ps.map c).sum - (cds.map fun cd => val cd * dist cd).sum / A) := by ring
    rw [h3]
    refine (abs_add_le _ _).trans ?_
    have h4 : (1 : Rat) / 2 ^ 150 ≤ V / 2 ^ 24 := by
      have : (1 : Rat) / 2 ^ 60 / 2 ^ 24 ≤ V / 2 ^ 24 := by gcongr
      have h5 : (1 : Rat) / 2 ^ 150 ≤ 1 / 2 ^ 60 / 2 ^ 24 := by norm_num
      linarith
    linarith

/-- C156: if all of the neighbours kept for a cell have a value, the cell shows the average of the values weighted by the
distances, up to a small error.  Missing for the full property: neighbours without value should be left out of the average,
and a cell without any value should show none (`C156_missing_as_zero`, `C156_none_always`, `C156_counterexample`). -/
theorem C156_average_partial (g : UnstructuredValueGrid1 Fl) (x y : Nat) (t : CoordDistTriple)
    (ht : g.grid.getCoordDistTriple x y = .ok (some t)) (hlen : t.getCoordDists.length ≤ 3) (dist val : CoordDist → Rat)
    (hd : ∀ cd ∈ t.getCoordDists, Fl.sqrt f32 cd.coordDistSquared = .fin (dist cd) ∧ 0 ≤ dist cd)
    (hD : 1 / 2 ^ 60 ≤ (t.getCoordDists.map dist).sum) (hD' : (t.getCoordDists.map dist).sum ≤ 2 ^ 60) (V : Rat)
    (hV : 1 / 2 ^ 60 ≤ V) (hV' : V ≤ 2 ^ 60)
    (hv : ∀ cd ∈ t.getCoordDists, known g cd = some (.fin (val cd)) ∧ |val cd| ≤ V) :
    ∃ r, g.getValueByXY x y = .ok (some (.fin r)) ∧
      |r - (t.getCoordDists.map fun cd => val cd * dist cd).sum / (t.getCoordDists.map dist).sum| ≤ V / 2 ^ 16 :=
  C156_missing_as_zero g x y t ht hlen dist val hd hD hD' V hV hV' fun cd h => .inl (hv cd h)

/-- C156, what happens instead: a cell whose neighbours all have no value shows zero. -/
theorem C156_none_always (g : UnstructuredValueGrid1 Fl) (x y : Nat) (t : CoordDistTriple)
    (ht : g.grid.getCoordDistTriple x y = .ok (some t)) (hne : t.getCoordDists ≠ [])
    (hv : ∀ cd ∈ t.getCoordDists, known g cd = none) : g.getValueByXY x y = .ok (some (.fin 0)) := by
  unfold UnstructuredValueGrid1.getValueByXY
  rw [ht]
  simp only [Res.bind_ok]
  rw [if_neg (by simpa using hne)]
  have : t.getCoordDists.filterMap (UnstructuredValueGrid1.weighted g.values g.missingValue
      (UnstructuredValueGrid1.distSum t.getCoordDists)) = [] := by
    rw [List.filterMap_eq_nil_iff]
    intro cd h
    have h := hv cd h
    unfold known withoutMissing at h
    unfold UnstructuredValueGrid1.weighted
    cases hx : g.values[cd.coordIndex]? with
    | none => rfl
    | some v =>
      rw [hx, Option.filter_some] at h
      simp only
      rw [if_pos]
      by_contra h'
      rw [if_pos (by simpa using h')] at h
      cases h
  rw [this]
  rfl

/-- C156 fails: of two coordinates as far from the centre of the cell, one has the value 10 and the other none: the cell shows
5.  If neither has a value, the cell shows 0. -/
theorem C156_counterexample :
    threeNeighbours [⟨.fin 3, .fin 4⟩, ⟨.fin 5, .fin 4⟩] [Fl.fin 10, .fin (-1)] (.fin (-1)) = .ok (some (.fin 5)) ∧
    threeNeighbours [⟨.fin 3, .fin 4⟩, ⟨.fin 5, .fin 4⟩] [Fl.fin (-1), .fin (-1)] (.fin (-1)) = .ok (some (.fin 0)) := by
  decide +kernel

/-- The conditions of C156 hold for a cell with coordinates at the distances 1 and 3, of which the second has no value. -/
example : ∃ (g : UnstructuredValueGrid1 Fl) (t : CoordDistTriple) (near far : CoordDist),
    g.grid.getCoordDistTriple 0 0 = .ok (some t) ∧ t.getCoordDists = [near, far] ∧
    Fl.sqrt f32 near.coordDistSquared = .fin 1 ∧ Fl.sqrt f32 far.coordDistSquared = .fin 3 ∧
    known g near = some (.fin 10) ∧ known g far = none ∧ g.getValueByXY 0 0 = .ok (some (.fin (10 / 4))) :=
  ⟨⟨⟨LatLonGrid.new (1, 1) (finExtent 0 0 8 8), [⟨.fin 3, .fin 4⟩, ⟨.fin 7, .fin 4⟩],
      [[some ⟨0, .fin 1⟩, some ⟨1, .fin 9⟩, none]]⟩, [.fin 10, .fin (-1)], .fin (-1)⟩,
    [some ⟨0, .fin 1⟩, some ⟨1, .fin 9⟩, none], ⟨0, .fin 1⟩, ⟨1, .fin 9⟩, by decide +kernel, rfl, by decide +kernel,
    by decide +kernel, by decide +kernel, by decide +kernel, by decide +kernel⟩

/-! ## C157: the middle of an area -/

theorem isFl_double {q : Rat} (h : IsFl f32 (.fin q)) (hq : |q| ≤ 2 ^ 126) : IsFl f32 (.fin (2 * q)) := by
  refine ⟨?_, ?_⟩
  · obtain ⟨m, e, h1, h2, h3⟩ := h.1
    refine ⟨m, e + 1, ?_, h2, by omega⟩
    rw [h1, pow2_eq, pow2_eq, zpow_add₀ (by norm_num)]
    ring
  · rw [abs_mul]
    have : |(2 : Rat)| * |q| ≤ 2 * 2 ^ 126 := by
      rw [abs_of_pos (by norm_num : (0 : Rat) < 2)]
      gcongr
    exact lt_of_le_of_lt this (by decide +kernel)

theorem mid_between {a b : Rat} (ha : IsFl f32 (.fin a)) (hb : IsFl f32 (.fin b)) (hab : a ≤ b) (h1 : |a| ≤ 2 ^ 126)
    (h2 : |b| ≤ 2 ^ 126) : ∃ m, Fl.div f32 (Fl.add f32 (.fin a) (.fin b)) (.fin 2) = .fin m ∧ a ≤ m ∧ m ≤ b ∧
      |m - (a + b) / 2| ≤ max |a| |b| / 2 ^ 23 + 1 / 2 ^ 149 := by
  obtain ⟨s, s1, s2, s3⟩ := rnd32_between (q := a + b) (isFl_double ha h1) (isFl_double hb h2) (by linarith) (by linarith)
  obtain ⟨m, m1, m2, m3⟩ := rnd32_between (q := s / 2) ha hb (by linarith) (by linarith)
  refine ⟨m, ?_, m2, m3, ?_⟩
  · rw [Fl.add_fin, s1, Fl.div_fin _ _ (by norm_num), m1]
  · have hM : 0 ≤ max |a| |b| := (abs_nonneg a).trans (le_max_left _ _)
    have ab : |a + b| ≤ 2 * max |a| |b| := by
      have := abs_add_le a b
      have := le_max_left |a| |b|
      have := le_max_right |a| |b|
      linarith
    have hb126 : max |a| |b| ≤ 2 ^ 126 := max_le h1 h2
    have big : 2 * max |a| |b| ≤ 2 ^ 127 := by
      calc 2 * max |a| |b| ≤ 2 * 2 ^ 126 := by linarith
        _ = 2 ^ 127 := by norm_num
    obtain ⟨v, e1, -, e2⟩ := rnd32_err_le ab big
    rw [s1] at e1; cases e1
    have s4 : |s / 2| ≤ max |a| |b| := by
      rw [abs_le]
      have := abs_le.mp (le_max_left |a| |b|)
      have := abs_le.mp (le_max_right |a| |b|)
      constructor <;> linarith
    obtain ⟨v, e3, -, e4⟩ := rnd32_err_le s4 (by linarith [show (0 : Rat) ≤ 2 ^ 126 by norm_num])
    rw [m1] at e3; cases e3
    have : m - (a + b) / 2 = (m - s / 2) + (s - (a + b)) / 2 := by ring
    rw [this]
    refine (abs_add_le _ _).trans ?_
    rw [abs_div, abs_of_pos (by norm_num : (0 : Rat) < 2)]
    linarith

/-- C157: the middle of an area of finite coordinates lies between its corners, in latitude and longitude, and differs from
the exact middle only by rounding. -/
theorem C157_midpoint (a b c d : Rat) (hf : ∀ q ∈ [a, b, c, d], IsFl f32 (.fin q) ∧ |q| ≤ 2 ^ 126) (e : LatLonExtent)
    (he : LatLonExtent.new ⟨.fin a, .fin b⟩ ⟨.fin c, .fin d⟩ = .ok e) :
    ∃ lat lon, e.calcMidpoint = ⟨.fin lat, .fin lon⟩ ∧ a ≤ lat ∧ lat ≤ c ∧ b ≤ lon ∧ lon ≤ d ∧
      |lat - (a + c) / 2| ≤ max |a| |c| / 2 ^ 23 + 1 / 2 ^ 149 ∧
      |lon - (b + d) / 2| ≤ max |b| |d| / 2 ^ 23 + 1 / 2 ^ 149 := by
  simp only [List.forall_mem_cons] at hf
  obtain ⟨ha, hb, hc, hd, -⟩ := hf
  unfold LatLonExtent.new at he
  split at he
  · cases he
  rename_i h
  cases he
  simp only [Fl.gt, Fl.lt, Bool.or_eq_true, decide_eq_true_eq, not_or, not_lt] at h
  obtain ⟨m, m1, m2, m3, m4⟩ := mid_between ha.1 hc.1 h.1 ha.2 hc.2
  obtain ⟨n, n1, n2, n3, n4⟩ := mid_between hb.1 hd.1 h.2 hb.2 hd.2
  exact ⟨m, n, by unfold LatLonExtent.calcMidpoint; rw [m1, n1], m2, m3, n2, n3, m4, n4⟩

/-- The area of the demonstration grid: the middle is (2, 4). -/
example : (finExtent 0 0 4 8).calcMidpoint = ⟨.fin 2, .fin 4⟩ ∧
    LatLonExtent.new ⟨.fin 0, .fin 0⟩ ⟨.fin 4, .fin 8⟩ = .ok (finExtent 0 0 4 8) := by decide +kernel
example : ∀ q ∈ [(0 : Rat), 0, 4, 8], IsFl f32 (.fin q) ∧ |q| ≤ 2 ^ 126 := by
  intro q hq
  have : ∃ n : Nat, q = n ∧ n ≤ 8 := by
    simp only [List.mem_cons, List.not_mem_nil, or_false] at hq
    rcases hq with rfl | rfl | rfl | rfl
    exacts [⟨0, by norm_num, by omega⟩, ⟨0, by norm_num, by omega⟩, ⟨4, by norm_num, by omega⟩, ⟨8, by norm_num, by omega⟩]
  obtain ⟨n, rfl, hn⟩ := this
  have hq8 : |(n : Rat)| ≤ 8 := by
    rw [abs_of_nonneg (by positivity)]
    exact_mod_cast hn
  refine ⟨⟨rep_nat (by decide) (by have : 8 ≤ 2 ^ f32.prec := by decide
                                   omega), lt_of_le_of_lt hq8 (by decide +kernel)⟩, hq8.trans (by norm_num)⟩

/-- The middle can be the far corner, so that it is not inside of the area. -/
theorem C157_not_inside : ∃ e, LatLonExtent.new ⟨.fin (1 + 1 / 2 ^ 23), .fin 0⟩ ⟨.fin (1 + 2 / 2 ^ 23), .fin 8⟩ = .ok e ∧
    e.isInside e.calcMidpoint = false :=
  ⟨⟨⟨.fin (1 + 1 / 2 ^ 23), .fin 0⟩, ⟨.fin (1 + 2 / 2 ^ 23), .fin 8⟩⟩, by decide +kernel, by decide +kernel⟩

end Verif.Props
