import Verif.Props.Window

/-!
# Property C116: messages on unstructured grids and their coordinates
-/

namespace Verif.Props

open Verif Verif.Grib2

/-- **C116.** Reading coordinates from a message of latitudes and one of longitudes: it succeeds exactly if both decode and have the
same number of points, and coordinate number k then has the k-th latitude and the k-th longitude (brought into the usual range). -/
theorem C116_coordinates (latDoc lonDoc : Document) (lats lons : List Fl)
    (h1 : calculateDataPoints latDoc (.fin 255) id = .ok lats) (h2 : calculateDataPoints lonDoc (.fin 255) id = .ok lons) :
    (lats.length ≠ lons.length → getLatLonValues latDoc lonDoc = .err) ∧
    (lats.length = lons.length → ∃ cs, getLatLonValues latDoc lonDoc = .ok cs ∧ cs.length = lats.length ∧
      ∀ (k : Nat) (a o : Fl), lats[k]? = some a → lons[k]? = some o →
        ∃ c, cs[k]? = some c ∧ c.lat = LatLon.normalise a ∧ c.lon = LatLon.normalise o) := by
  unfold getLatLonValues
  simp only [h1, h2, Res.bind_ok]
  constructor
  · intro h; rw [if_pos h]
  · intro h
    rw [if_neg (by omega), if_neg (by omega)]
    refine ⟨_, rfl, by simp [h], ?_⟩
    intro k a o ha ho
    refine ⟨LatLon.new a o, ?_, rfl, rfl⟩
    rw [List.getElem?_zipWith, ha, ho]

/-- **C116.** A message whose number of points differs from the number of coordinates is rejected. -/
theorem C116_rejected {T : Type} (doc : Document) (transform : Fl → T) (missing : T) (coordinates : List LatLon) (dims : Nat × Nat)
    (ext : LatLonExtent) (maxDist : Fl) (vs : List T) (hd : calculateDataPoints doc missing transform = .ok vs)
    (hl : coordinates.length ≠ vs.length) : createUnstructured doc transform missing coordinates dims ext maxDist = .err := by
  unfold createUnstructured
  rw [hd]
  simp only [Res.bind_ok]
  rw [if_pos hl]

/-- **C116.** A message with as many points as there are coordinates is converted to a grid that shows in every cell the value of
the nearest coordinate (the last one of equally near ones), or nothing if all are farther than the maximum distance. -/
theorem C116_nearest {T : Type} (doc : Document) (transform : Fl → T) (missing : T) {s w n e : Rat} {W H : Nat}
    (hr : Reasonable s w n e (W, H)) (coords : List (Rat × Rat)) {d : Rat} (d0 : 1 / 2 ^ 10 ≤ d) (d1 : d ≤ 16)
    (hc : ∀ c ∈ coords, -180 ≤ c.1 - d ∧ c.1 + d ≤ 179 ∧ -180 ≤ c.2 - d ∧ c.2 + d ≤ 179)
    (vs : List T) (hd : calculateDataPoints doc missing transform = .ok vs) (hl : coords.length = vs.length) :
    ∃ g, createUnstructured doc transform missing (coords.map fun c => ⟨.fin c.1, .fin c.2⟩) (W, H) (finExtent s w n e) (.fin d) = .ok g ∧
      ∀ x y, x < W → y < H → ∃ a b : Rat, |a - (s + (y + 1 / 2) * ((n - s) / H))| ≤ 1 / 2 ^ 11 ∧
        |b - (w + (x + 1 / 2) * ((e - w) / W))| ≤ 1 / 2 ^ 11 ∧
        ((g.getValueByXY x y = .ok none ∧ ∀ c ∈ coords, Fl.gt
            (LatLon.calcEuclideanDistSquared ⟨.fin c.1, .fin c.2⟩ ⟨.fin a, .fin b⟩) (Fl.mul f32 (.fin d) (.fin d)) = true) ∨
         ∃ (k : Nat) (c : Rat × Rat) (v : T), coords[k]? = some c ∧ vs[k]? = some v ∧ g.getValueByXY x y = .ok (some v) ∧
          ∀ (k' : Nat) c', coords[k']? = some c' →
            Fl.le (LatLon.calcEuclideanDistSquared ⟨.fin c.1, .fin c.2⟩ ⟨.fin a, .fin b⟩)
              (LatLon.calcEuclideanDistSquared ⟨.fin c'.1, .fin c'.2⟩ ⟨.fin a, .fin b⟩) = true ∧
            (LatLon.calcEuclideanDistSquared ⟨.fin c'.1, .fin c'.2⟩ ⟨.fin a, .fin b⟩ =
              LatLon.calcEuclideanDistSquared ⟨.fin c.1, .fin c.2⟩ ⟨.fin a, .fin b⟩ → k' ≤ k)) := by
  obtain ⟨g0, g, e0, e1, hcell⟩ := C23_nearest_geometric hr coords d0 d1 hc
  refine ⟨⟨g, vs, missing⟩, ?_, ?_⟩
  · unfold createUnstructured
    rw [hd]
    simp only [Res.bind_ok]
    rw [if_neg (by rw [List.length_map]; omega), e0]
    simp only [Res.bind_ok, e1]
  · intro x y hx hy
    obtain ⟨a, b, -, ha, hb, o, ho, hnone, hsome⟩ := hcell x y hx hy
    refine ⟨a, b, ha, hb, ?_⟩
    unfold UnstructuredValueGrid.getValueByXY
    simp only [ho, Res.bind_ok]
    cases o with
    | none => exact Or.inl ⟨rfl, hnone.1 rfl⟩
    | some cd =>
      right
      obtain ⟨c, hk, hdist, -, hbest⟩ := hsome cd rfl
      have hlt : cd.coordIndex < coords.length := (List.getElem?_eq_some_iff.1 hk).1
      have hv : vs[cd.coordIndex]? = some (vs[cd.coordIndex]'(by omega)) := List.getElem?_eq_getElem (by omega)
      refine ⟨cd.coordIndex, c, _, hk, hv, by simp only [hv], ?_⟩
      rw [← hdist]
      exact hbest

/-- The demonstration message (four points), spread over four coordinates. -/
example : ∃ g, createUnstructured demoMsg.doc id (.fin (-1))
      ([(1, 1), (3, 3), (3, 1), (1, 3)].map fun c : Rat × Rat => ⟨.fin c.1, .fin c.2⟩) (2, 2) (finExtent 0 0 4 4) (.fin 1) = .ok g ∧
    g.getValueByXY 0 1 = .ok (some (.fin (rndq f32 (2 / 10)))) := by
  have h : (createUnstructured demoMsg.doc id (.fin (-1))
      ([(1, 1), (3, 3), (3, 1), (1, 3)].map fun c : Rat × Rat => ⟨.fin c.1, .fin c.2⟩) (2, 2) (finExtent 0 0 4 4) (.fin 1)).bind
      (fun g => g.getValueByXY 0 1) = .ok (some (.fin (rndq f32 (2 / 10)))) := by decide +kernel
  cases hg : createUnstructured demoMsg.doc id (.fin (-1))
      ([(1, 1), (3, 3), (3, 1), (1, 3)].map fun c : Rat × Rat => ⟨.fin c.1, .fin c.2⟩) (2, 2) (finExtent 0 0 4 4) (.fin 1) with
  | ok g => rw [hg] at h; exact ⟨g, rfl, h⟩
  | err => rw [hg] at h; cases h
  | panic => rw [hg] at h; cases h

end Verif.Props
