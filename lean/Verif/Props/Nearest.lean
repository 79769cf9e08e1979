import Verif.Lemmas.Unstructured
import Verif.Lemmas.FloatErr
import Verif.Props.Convert
import Verif.Props.Interp

/-!
# Properties C23, C26, C27, C63, C65: assigning coordinates to the cells of a grid
-/

namespace Verif.Props

open Verif

/-! ## C23 -/

open Classical in
theorem near_fold (g : LatLonGrid) (maxDist maxD2 : Fl) (x y : Nat) (p : LatLon)
    (hp : cellCentre g x y = some p) (ics : List (Nat × LatLon))
    (hsort : ics.Pairwise (fun a b => a.1 < b.1))
    (hnan : ∀ ic ∈ ics, LatLon.calcEuclideanDistSquared ic.2 p ≠ .nan) (hmax : maxD2 ≠ .nan) :
    match ics.foldl (fun s ic => if Covers g maxDist ic.2 x y then nearStep g maxD2 ic.1 ic.2 x y s else s)
      none with
    | none => ∀ ic ∈ ics, Covers g maxDist ic.2 x y →
        Fl.gt (LatLon.calcEuclideanDistSquared ic.2 p) maxD2 = true
    | some cd => ∃ ic ∈ ics, ic.1 = cd.coordIndex ∧ Covers g maxDist ic.2 x y ∧
        cd.coordDistSquared = LatLon.calcEuclideanDistSquared ic.2 p ∧
        Fl.le cd.coordDistSquared maxD2 = true ∧
        ∀ ic' ∈ ics, Covers g maxDist ic'.2 x y →
          Fl.gt (LatLon.calcEuclideanDistSquared ic'.2 p) maxD2 = false →
          Fl.le cd.coordDistSquared (LatLon.calcEuclideanDistSquared ic'.2 p) = true ∧
          (LatLon.calcEuclideanDistSquared ic'.2 p = cd.coordDistSquared → ic'.1 ≤ cd.coordIndex) := by
  induction ics using List.reverseRecOn with
  | nil => simp
  | append_singleton ics ic ih =>
    rw [List.pairwise_append] at hsort
    obtain ⟨hs1, -, hs2⟩ := hsort
    have ih := ih hs1 (fun ic h => hnan ic (List.mem_append_left _ h))
    rw [List.foldl_append, List.foldl_cons, List.foldl_nil]
    have hd := hnan ic (by simp)
    generalize ics.foldl (fun s ic => if Covers g maxDist ic.2 x y then
      nearStep g maxD2 ic.1 ic.2 x y s else s) none = s at ih ⊢
    by_cases hcov : Covers g maxDist ic.2 x y
    · rw [if_pos hcov]
      unfold nearStep
      rw [hp]
      simp only
      by_cases h1 : Fl.gt (LatLon.calcEuclideanDistSquared ic.2 p) maxD2 = true
      · rw [if_pos h1]
        cases s with
        | none =>
          simp only at ih ⊢
          intro ic' hm hc'
          rcases List.mem_append.1 hm with hm | hm
          · exact ih ic' hm hc'
          · rw [List.mem_singleton] at hm; subst hm; exact h1
        | some cd =>
          simp only at ih ⊢
          obtain ⟨ic0, m0, i0, c0, e0, l0, b0⟩ := ih
          refine ⟨ic0, List.mem_append_left _ m0, i0, c0, e0, l0, ?_⟩
          intro ic' hm hc' hle
          rcases List.mem_append.1 hm with hm | hm
          · exact b0 ic' hm hc' hle
          · rw [List.mem_singleton] at hm; subst hm; rw [h1] at hle; cases hle
      · rw [if_neg h1]
        have h1' : Fl.le (LatLon.calcEuclideanDistSquared ic.2 p) maxD2 = true := by
          have := (Fl.not_lt hmax hd).1 (by simpa [Fl.gt] using h1)
          exact this
        cases s with
        | none =>
          simp only at ih ⊢
          rw [show UnstructuredGrid.currentDist none maxD2 = maxD2 from rfl]
          rw [if_neg h1]
          refine ⟨ic, by simp, rfl, hcov, rfl, h1', ?_⟩
          intro ic' hm hc' hle
          rcases List.mem_append.1 hm with hm | hm
          · have := ih ic' hm hc'; rw [this] at hle; cases hle
          · rw [List.mem_singleton] at hm; subst hm
            exact ⟨Fl.le_refl hd, fun _ => Nat.le_refl _⟩
        | some cd =>
          simp only at ih ⊢
          rw [show UnstructuredGrid.currentDist (some cd) maxD2 = cd.coordDistSquared from rfl]
          obtain ⟨ic0, m0, i0, c0, e0, l0, b0⟩ := ih
          have hcd : cd.coordDistSquared ≠ .nan := by rw [e0]; exact hnan ic0 (List.mem_append_left _ m0)
          by_cases h2 : Fl.gt (LatLon.calcEuclideanDistSquared ic.2 p) cd.coordDistSquared = true
          · rw [if_pos h2]
            refine ⟨ic0, List.mem_append_left _ m0, i0, c0, e0, l0, ?_⟩
            intro ic' hm hc' hle
            rcases List.mem_append.1 hm with hm | hm
            · exact b0 ic' hm hc' hle
            · rw [List.mem_singleton] at hm; subst hm
              refine ⟨Fl.le_of_lt h2, fun he => ?_⟩
              rw [he, Fl.gt, Fl.lt_irrefl] at h2
              cases h2
          · rw [if_neg h2]
            have h2' : Fl.le (LatLon.calcEuclideanDistSquared ic.2 p) cd.coordDistSquared = true :=
              (Fl.not_lt hcd hd).1 (by simpa [Fl.gt] using h2)
            refine ⟨ic, by simp, rfl, hcov, rfl, h1', ?_⟩
            intro ic' hm hc' hle
            rcases List.mem_append.1 hm with hm | hm
            · refine ⟨Fl.le_trans h2' (b0 ic' hm hc' hle).1, fun _ => ?_⟩
              exact (hs2 ic' hm ic (by simp)).le
            · rw [List.mem_singleton] at hm; subst hm
              exact ⟨Fl.le_refl hd, fun _ => Nat.le_refl _⟩
    · rw [if_neg hcov]
      cases s with
      | none =>
        simp only at ih ⊢
        intro ic' hm hc'
        rcases List.mem_append.1 hm with hm | hm
        · exact ih ic' hm hc'
        · rw [List.mem_singleton] at hm; subst hm; exact absurd hc' hcov
      | some cd =>
        simp only at ih ⊢
        obtain ⟨ic0, m0, i0, c0, e0, l0, b0⟩ := ih
        refine ⟨ic0, List.mem_append_left _ m0, i0, c0, e0, l0, ?_⟩
        intro ic' hm hc' hle
        rcases List.mem_append.1 hm with hm | hm
        · exact b0 ic' hm hc' hle
        · rw [List.mem_singleton] at hm; subst hm; exact absurd hc' hcov

theorem indexed_sorted (coords : List LatLon) (k : Nat) :
    ((coords.zipIdx k).map fun p => (p.2, p.1)).Pairwise (fun a b => a.1 < b.1) := by
  induction coords generalizing k with
  | nil => simp
  | cons c cs ih =>
    rw [List.zipIdx_cons, List.map_cons, List.pairwise_cons]
    refine ⟨?_, ih (k + 1)⟩
    intro b hb
    rw [List.mem_map] at hb
    obtain ⟨⟨c', i⟩, hm, rfl⟩ := hb
    have := List.le_snd_of_mem_zipIdx hm
    simp only at this ⊢
    omega

theorem mem_indexed (coords : List LatLon) (i : Nat) (c : LatLon) :
    (i, c) ∈ (coords.zipIdx.map fun p => (p.2, p.1)) ↔ coords[i]? = some c := by
  rw [List.mem_map]
  constructor
  · rintro ⟨⟨c', i'⟩, hm, he⟩
    simp only [Prod.mk.injEq] at he
    obtain ⟨rfl, rfl⟩ := he
    exact List.mk_mem_zipIdx_iff_getElem?.1 hm
  · intro h
    exact ⟨(c, i), List.mk_mem_zipIdx_iff_getElem?.2 h, rfl⟩

/-- **C23.** Building the lookup map of an unstructured grid never panics on a non-empty target grid,
and each cell whose centre is a finite position ends up with the nearest of the finite coordinates
whose search window covers it: within the maximum distance, at least as near as any other such
coordinate, the last one among equally near ones; and a cell without coordinate is reached by none. -/
theorem C23_nearest (w h : Nat) (hw : w ≠ 0) (hh : h ≠ 0) (hs : w * h < 2 ^ 64) (ext : LatLonExtent)
    (coords : List LatLon) (hc : ∀ c ∈ coords, ∃ a b, c = ⟨.fin a, .fin b⟩) (maxDist : Fl)
    (hmax : Fl.mul f32 maxDist maxDist ≠ .nan) :
    ∃ g0 g, UnstructuredGrid.new (w, h) ext coords = .ok g0 ∧ g0.calcCoordDistLookupMap maxDist = .ok g ∧
      g.latLonGrid = LatLonGrid.new (w, h) ext ∧ g.coordinates = coords ∧ UnstructuredGrid.WellSized g ∧
      ∀ x y, x < w → y < h → ∀ a b, cellCentre g.latLonGrid x y = some ⟨.fin a, .fin b⟩ →
        ∃ o, g.getCoordDist x y = .ok o ∧
        (o = none ↔ ∀ (i : Nat) c, coords[i]? = some c → Covers g.latLonGrid maxDist c x y →
          Fl.gt (LatLon.calcEuclideanDistSquared c ⟨.fin a, .fin b⟩) (Fl.mul f32 maxDist maxDist) = true) ∧
        (∀ cd, o = some cd → ∃ c, coords[cd.coordIndex]? = some c ∧
          Covers g.latLonGrid maxDist c x y ∧
          cd.coordDistSquared = LatLon.calcEuclideanDistSquared c ⟨.fin a, .fin b⟩ ∧
          Fl.le cd.coordDistSquared (Fl.mul f32 maxDist maxDist) = true ∧
          ∀ (i : Nat) c', coords[i]? = some c' → Covers g.latLonGrid maxDist c' x y →
            Fl.gt (LatLon.calcEuclideanDistSquared c' ⟨.fin a, .fin b⟩) (Fl.mul f32 maxDist maxDist)
              = false →
            Fl.le cd.coordDistSquared (LatLon.calcEuclideanDistSquared c' ⟨.fin a, .fin b⟩) = true ∧
            (LatLon.calcEuclideanDistSquared c' ⟨.fin a, .fin b⟩ = cd.coordDistSquared →
              i ≤ cd.coordIndex)) := by
  have hd : (LatLonGrid.new (w, h) ext).dimensions = (w, h) := rfl
  obtain ⟨map, e, l, cell⟩ := loops_cell (LatLonGrid.new (w, h) ext) w h hd hw hh maxDist
    (nearStep (LatLonGrid.new (w, h) ext) (Fl.mul f32 maxDist maxDist))
    (UnstructuredGrid.updateCell (LatLonGrid.new (w, h) ext) (Fl.mul f32 maxDist maxDist))
    (updateCell_pointwise _ w h hd hs.le _)
    (UnstructuredGrid.insertCoord (LatLonGrid.new (w, h) ext) maxDist (Fl.mul f32 maxDist maxDist))
    (fun _ _ => rfl) (coords.zipIdx.map fun p => (p.2, p.1)) (List.replicate (w * h) none) (by simp)
  refine ⟨⟨LatLonGrid.new (w, h) ext, coords, List.replicate (w * h) none⟩,
    ⟨LatLonGrid.new (w, h) ext, coords, map⟩, ?_, ?_, rfl, rfl, ⟨l, hs⟩, ?_⟩
  · unfold UnstructuredGrid.new
    rw [if_neg (by simpa using hs)]
  · unfold UnstructuredGrid.calcCoordDistLookupMap
    exact (congrArg (fun r => Res.bind r _) e).trans rfl
  · intro x y hx hy a b hcen
    have hget := cell x y hx hy
    have hlt : x + y * w < w * h := idx_lt hx hy
    rw [List.getElem?_replicate_of_lt hlt, Option.map_some] at hget
    have hfold := near_fold (LatLonGrid.new (w, h) ext) maxDist (Fl.mul f32 maxDist maxDist) x y _ hcen
      (coords.zipIdx.map fun p => (p.2, p.1)) (indexed_sorted coords 0)
      (by
        rintro ⟨i, c⟩ hm
        obtain ⟨a', b', rfl⟩ := hc c (List.mem_of_getElem? ((mem_indexed coords i c).1 hm))
        exact dist_ne_nan _ _ _ _) hmax
    obtain ⟨hlt', hval⟩ := List.getElem?_eq_some_iff.1 hget
    refine ⟨map[x + y * w], ?_, ?_⟩
    · unfold UnstructuredGrid.getCoordDist
      simp only [getIndex_in hd hs.le hx hy, Res.bind_ok]
      exact Res.index_ok hlt'
    · rw [hval]
      split at hfold
      · rename_i hs'
        rw [hs']
        refine ⟨⟨fun _ i c hi => hfold (i, c) ((mem_indexed coords i c).2 hi), fun _ => rfl⟩, ?_⟩
        intro cd hcd; cases hcd
      · rename_i cd hs'
        rw [hs']
        obtain ⟨⟨i0, c0⟩, m0, rfl, k0, e0, l0, b0⟩ := hfold
        have m0' := (mem_indexed coords _ c0).1 m0
        refine ⟨⟨fun h => (by cases h), fun h => ?_⟩, ?_⟩
        · exfalso
          have := h _ c0 m0' k0
          rw [e0] at l0
          have h3 := Fl.lt_le_trans this l0
          rw [Fl.lt_irrefl] at h3
          cases h3
        · rintro cd' hcd'
          simp only [Option.some.injEq] at hcd'
          subst hcd'
          exact ⟨c0, m0', k0, e0, l0, fun i c' hi => b0 (i, c') ((mem_indexed coords i c').2 hi)⟩

/-! ### A concrete grid -/

/-- A 2 x 1 grid over 0..4 N, 0..8 E with cell centres (2,2) and (2,6); the coordinates are at
distance 1 of the first centre (twice), far away, and at distance 1 of the second one. -/
def demoCoords : List LatLon :=
  [⟨.fin 2, .fin 1⟩, ⟨.fin 2, .fin 3⟩, ⟨.fin 40, .fin 40⟩, ⟨.fin 1, .fin 6⟩]

/-- The lookup map of the concrete grid with maximum distance 3/2. -/
def demoLookup : Res UnstructuredGrid :=
  (UnstructuredGrid.new (2, 1) (finExtent 0 0 4 8) demoCoords).bind
    (fun g => g.calcCoordDistLookupMap (.fin (3 / 2)))

example : demoLookup.bind (fun g => .ok g.coordDistMap) = .ok [some ⟨1, .fin 1⟩, some ⟨3, .fin 1⟩] := by
  decide +kernel

/-- The hypotheses of C23 hold for it. -/
example : ∃ g0 g, UnstructuredGrid.new (2, 1) (finExtent 0 0 4 8) demoCoords = .ok g0 ∧
    g0.calcCoordDistLookupMap (.fin (3 / 2)) = .ok g ∧
    cellCentre g.latLonGrid 1 0 = some ⟨.fin 2, .fin 6⟩ := by
  obtain ⟨g0, g, h1, h2, h3, -⟩ := C23_nearest 2 1 (by decide) (by decide) (by decide)
    (finExtent 0 0 4 8) demoCoords (by
      intro c hc
      simp only [demoCoords, List.mem_cons, List.not_mem_nil, or_false] at hc
      rcases hc with rfl | rfl | rfl | rfl <;> exact ⟨_, _, rfl⟩) (.fin (3 / 2)) (by decide +kernel)
  exact ⟨g0, g, h1, h2, by rw [h3]; decide +kernel⟩

/-- C25 and C14 on the concrete grid: two documents are regridded, the third one is not selected. -/
example : demoLookup.bind (fun g => (UnstructuredValueGrid.createRegularGrid
    ⟨g, [10, 20, 30], (255 : UInt8)⟩).bind (fun r => .ok r.values)) = .ok [20, 255] := by decide +kernel

example (g : UnstructuredGrid) (h : demoLookup = .ok g) : ∃ r,
    (⟨g, [10, 20, 30], 255⟩ : UnstructuredValueGrid UInt8).createRegularGrid = .ok r ∧
      r.values.length = 2 := by
  have hd : demoLookup.bind (fun g => .ok (g.coordDistMap, g.latLonGrid.dimensions)) =
      .ok ([some ⟨1, .fin 1⟩, some ⟨3, .fin 1⟩], (2, 1)) := by decide +kernel
  rw [h] at hd
  simp only [Res.bind, Res.ok.injEq, Prod.mk.injEq] at hd
  obtain ⟨r, h1, -, -, -, h5, -⟩ := C25_regrid ⟨g, [10, 20, 30], (255 : UInt8)⟩
    ⟨by simp [hd], by simp [hd]⟩
  exact ⟨r, h1, by simpa [hd] using h5⟩

/-- **C65 is false for the code**: a coordinate that is not a number takes over every cell of the grid,
because it is never found to be too far away. -/
theorem C65_counterexample : ∃ (g0 g : UnstructuredGrid),
    UnstructuredGrid.new (2, 1) (finExtent 0 0 4 8) [⟨.fin 2, .fin 2⟩, LatLon.new .pinf (.fin 0)] = .ok g0 ∧
    g0.calcCoordDistLookupMap (.fin 1) = .ok g ∧
    g.coordDistMap = [some ⟨1, .nan⟩, some ⟨1, .nan⟩] := by
  refine ⟨_, ⟨LatLonGrid.new (2, 1) (finExtent 0 0 4 8), [⟨.fin 2, .fin 2⟩, LatLon.new .pinf (.fin 0)],
    [some ⟨1, .nan⟩, some ⟨1, .nan⟩]⟩, rfl, ?_, rfl⟩
  unfold UnstructuredGrid.calcCoordDistLookupMap
  have : Res.foldl (UnstructuredGrid.insertCoord (LatLonGrid.new (2, 1) (finExtent 0 0 4 8)) (.fin 1)
      (Fl.mul f32 (.fin 1) (.fin 1))) (List.replicate (2 * 1) none)
      (([⟨.fin 2, .fin 2⟩, LatLon.new .pinf (.fin 0)] : List LatLon).zipIdx.map fun p => (p.2, p.1)) =
      .ok [some ⟨1, .nan⟩, some ⟨1, .nan⟩] := by decide +kernel
  exact (congrArg (fun r => Res.bind r _) this).trans rfl

/-! ## C26 -/

theorem scan_empty (kept : List CoordDist) (rest : List (Option CoordDist)) (hi : Fl) (idx : Option Nat)
    (i : Nat) : CoordDistTriple.scan hi idx i (kept.map some ++ none :: rest) = some (i + kept.length) := by
  induction kept generalizing hi idx i with
  | nil => simp [CoordDistTriple.scan]
  | cons c kept ih =>
    simp only [List.map_cons, List.cons_append, CoordDistTriple.scan, List.length_cons]
    split
    · rw [ih]; congr 1; omega
    · rw [ih]; congr 1; omega

theorem scan_full (kept : List CoordDist) (hn : ∀ c ∈ kept, c.coordDistSquared ≠ .nan) (hi : Fl)
    (hhi : hi ≠ .nan) (idx : Option Nat) (i : Nat) :
    (CoordDistTriple.scan hi idx i (kept.map some) = idx ∧
      ∀ c ∈ kept, Fl.le c.coordDistSquared hi = true) ∨
    ∃ k c, kept[k]? = some c ∧ CoordDistTriple.scan hi idx i (kept.map some) = some (i + k) ∧
      Fl.lt hi c.coordDistSquared = true ∧
      ∀ c' ∈ kept, Fl.le c'.coordDistSquared c.coordDistSquared = true := by
  induction kept generalizing hi idx i with
  | nil => left; exact ⟨rfl, by simp⟩
  | cons c kept ih =>
    have hc : c.coordDistSquared ≠ .nan := hn c (by simp)
    have hn' : ∀ c ∈ kept, c.coordDistSquared ≠ .nan := fun c h => hn c (by simp [h])
    simp only [List.map_cons, CoordDistTriple.scan]
    by_cases h : Fl.gt c.coordDistSquared hi = true
    · rw [if_pos h]
      right
      rcases ih hn' c.coordDistSquared hc (some i) (i + 1) with ⟨h1, h2⟩ | ⟨k, c', h1, h2, h3, h4⟩
      · refine ⟨0, c, rfl, by rw [h1]; rfl, h, ?_⟩
        intro c' hc'
        rcases List.mem_cons.1 hc' with rfl | hc'
        · exact Fl.le_refl hc
        · exact h2 c' hc'
      · refine ⟨k + 1, c', h1, by rw [h2]; congr 1; omega, Fl.lt_trans h h3, ?_⟩
        intro c'' hc''
        rcases List.mem_cons.1 hc'' with rfl | hc''
        · exact Fl.le_of_lt h3
        · exact h4 c'' hc''
    · rw [if_neg h]
      have hle : Fl.le c.coordDistSquared hi = true := (Fl.not_lt hhi hc).1 (by simpa [Fl.gt] using h)
      rcases ih hn' hi hhi idx (i + 1) with ⟨h1, h2⟩ | ⟨k, c', h1, h2, h3, h4⟩
      · left
        refine ⟨h1, ?_⟩
        intro c' hc'
        rcases List.mem_cons.1 hc' with rfl | hc'
        · exact hle
        · exact h2 c' hc'
      · right
        refine ⟨k + 1, c', h1, by rw [h2]; congr 1; omega, h3, ?_⟩
        intro c'' hc''
        rcases List.mem_cons.1 hc'' with rfl | hc''
        · exact Fl.le_trans hle (Fl.le_of_lt h3)
        · exact h4 c'' hc''

/-- The slots hold `kept`, followed by empty slots. -/
theorem getCoordDists_prefix (kept : List CoordDist) (n : Nat) :
    CoordDistTriple.getCoordDists (kept.map some ++ List.replicate n none) = kept := by
  unfold CoordDistTriple.getCoordDists
  rw [List.filterMap_append, List.filterMap_map]
  simp

theorem set_perm {α : Type} (l : List α) (k : Nat) (a b : α) (h : l[k]? = some b) :
    (l.set k a ++ [b]).Perm (l ++ [a]) := by
  induction l generalizing k with
  | nil => simp at h
  | cons c l ih =>
    cases k with
    | zero =>
      simp only [List.getElem?_cons_zero, Option.some.injEq] at h
      subst h
      simp only [List.set_cons_zero, List.cons_append]
      calc a :: (l ++ [c]) |>.Perm (a :: c :: l) := (List.perm_append_singleton c l).cons a
        _ |>.Perm (c :: a :: l) := List.Perm.swap _ _ _
        _ |>.Perm (c :: (l ++ [a])) := ((List.perm_append_singleton a l).symm).cons c
    | succ k =>
      simp only [List.getElem?_cons_succ] at h
      simp only [List.set_cons_succ, List.cons_append]
      exact (ih k h).cons c

/-- **C26.** After offering any sequence of (coordinate, distance) pairs to the three-slot collector,
it holds three of them (all, if fewer were offered), and every pair it does not hold is at least as
far away as every pair it holds. -/
theorem C26_three_nearest (offers : List CoordDist) (hn : ∀ c ∈ offers, c.coordDistSquared ≠ .nan) :
    ∃ rest, ((offers.foldl CoordDistTriple.addCoordDist CoordDistTriple.new).getCoordDists ++ rest).Perm
        offers ∧
      (offers.foldl CoordDistTriple.addCoordDist CoordDistTriple.new).getCoordDists.length =
        min 3 offers.length ∧
      ∀ a ∈ (offers.foldl CoordDistTriple.addCoordDist CoordDistTriple.new).getCoordDists,
        ∀ r ∈ rest, Fl.le a.coordDistSquared r.coordDistSquared = true := by
  suffices h : ∃ kept rest : List CoordDist, offers.foldl CoordDistTriple.addCoordDist CoordDistTriple.new =
      kept.map some ++ List.replicate (3 - kept.length) none ∧ kept.length = min 3 offers.length ∧
      (kept ++ rest).Perm offers ∧
      ∀ a ∈ kept, ∀ r ∈ rest, Fl.le a.coordDistSquared r.coordDistSquared = true by
    obtain ⟨kept, rest, h1, h2, h3, h4⟩ := h
    rw [h1, getCoordDists_prefix]
    exact ⟨rest, h3, h2, h4⟩
  induction offers using List.reverseRecOn with
  | nil => exact ⟨[], [], rfl, rfl, .nil, by simp⟩
  | append_singleton offers cd ih =>
    obtain ⟨kept, rest, e, hlen, hperm, hord⟩ := ih (fun c h => hn c (List.mem_append_left _ h))
    have hcd := hn cd (by simp)
    have hkn : ∀ c ∈ kept, c.coordDistSquared ≠ .nan := fun c h =>
      hn c (List.mem_append_left _ (hperm.subset (List.mem_append_left _ h)))
    rw [List.foldl_append, List.foldl_cons, List.foldl_nil, e]
    unfold CoordDistTriple.addCoordDist
    by_cases hk : kept.length < 3
    · rw [show 3 - kept.length = (3 - (kept.length + 1)) + 1 by omega, List.replicate_succ, scan_empty]
      have hrest : rest = [] := by
        have h1 := hperm.length_eq
        rw [List.length_append] at h1
        have : rest.length = 0 := by omega
        exact List.length_eq_zero_iff.1 this
      subst hrest
      refine ⟨kept ++ [cd], [], ?_, by simp; omega, ?_, by simp⟩
      · simp only [Nat.zero_add]
        rw [List.set_append_right _ _ (by simp)]
        simp
      · rw [List.append_nil] at hperm ⊢
        exact hperm.append_right [cd]
    · have hk3 : kept.length = 3 := by omega
      rw [hk3, List.replicate_zero, List.append_nil]
      rcases scan_full kept hkn cd.coordDistSquared hcd none 0 with ⟨h1, h2⟩ | ⟨k, c, h1, h2, h3, h4⟩
      · rw [h1]
        refine ⟨kept, rest ++ [cd], ?_, by simp; omega, ?_, ?_⟩
        · simp [hk3]
        · rw [← List.append_assoc]; exact hperm.append_right [cd]
        · intro a ha r hr
          rcases List.mem_append.1 hr with hr | hr
          · exact hord a ha r hr
          · rw [List.mem_singleton] at hr; subst hr; exact h2 a ha
      · rw [h2, Nat.zero_add]
        have hcm : c ∈ kept := List.mem_of_getElem? h1
        refine ⟨kept.set k cd, c :: rest, ?_, by simp; omega, ?_, ?_⟩
        · simp [hk3, List.map_set]
        · calc kept.set k cd ++ c :: rest
              |>.Perm ((kept.set k cd ++ [c]) ++ rest) := by simp
            _ |>.Perm ((kept ++ [cd]) ++ rest) := (set_perm kept k cd c h1).append_right rest
            _ |>.Perm (kept ++ rest ++ [cd]) := by
                rw [List.append_assoc, List.append_assoc]
                exact List.Perm.append_left kept List.perm_append_comm
            _ |>.Perm (offers ++ [cd]) := hperm.append_right [cd]
        · intro a ha r hr
          have hac : Fl.le a.coordDistSquared c.coordDistSquared = true := by
            rcases List.mem_or_eq_of_mem_set ha with ha | rfl
            · exact h4 a ha
            · exact Fl.le_of_lt h3
          rcases List.mem_cons.1 hr with rfl | hr
          · exact hac
          · exact Fl.le_trans hac (hord c hcm r hr)

example : (([5, 3, 4, 1, 9] : List Nat).map (fun n => (⟨n, .fin n⟩ : CoordDist))).foldl
    CoordDistTriple.addCoordDist CoordDistTriple.new =
    [some ⟨1, .fin 1⟩, some ⟨3, .fin 3⟩, some ⟨4, .fin 4⟩] := by decide +kernel
example : ∀ c ∈ ([5, 3, 4, 1, 9] : List Nat).map (fun n => (⟨n, .fin n⟩ : CoordDist)),
    c.coordDistSquared ≠ .nan := by decide +kernel

open Classical in
/-- **C26, per cell.** Building the three-neighbour lookup offers to each cell exactly the coordinates
whose search window covers it and that are within the maximum distance, in their order. -/
theorem C26_cell (w h : Nat) (hw : w ≠ 0) (hh : h ≠ 0) (hs : w * h < 2 ^ 64) (ext : LatLonExtent)
    (coords : List LatLon) (maxDist : Fl) :
    ∃ g0 g, UnstructuredGrid1.new (w, h) ext coords = .ok g0 ∧ g0.calcCoordDistLookupMap maxDist = .ok g ∧
      ∀ x y, x < w → y < h → ∀ p, cellCentre (LatLonGrid.new (w, h) ext) x y = some p →
        g.getCoordDistTriple x y = .ok (some (
          (((coords.zipIdx.filter fun ci => Covers (LatLonGrid.new (w, h) ext) maxDist ci.1 x y ∧
              ¬ Fl.gt (LatLon.calcEuclideanDistSquared ci.1 p) (Fl.mul f32 maxDist maxDist)).map
            fun ci => (⟨ci.2, LatLon.calcEuclideanDistSquared ci.1 p⟩ : CoordDist)).foldl
              CoordDistTriple.addCoordDist CoordDistTriple.new))) := by
  have hd : (LatLonGrid.new (w, h) ext).dimensions = (w, h) := rfl
  obtain ⟨map, e, l, cell⟩ := loops_cell (LatLonGrid.new (w, h) ext) w h hd hw hh maxDist
    (tripleStep (LatLonGrid.new (w, h) ext) (Fl.mul f32 maxDist maxDist))
    (UnstructuredGrid1.updateCell (LatLonGrid.new (w, h) ext) (Fl.mul f32 maxDist maxDist))
    (updateCell1_pointwise _ w h hd hs.le _)
    (UnstructuredGrid1.insertCoord (LatLonGrid.new (w, h) ext) maxDist (Fl.mul f32 maxDist maxDist))
    (fun _ _ => rfl) (coords.zipIdx.map fun p => (p.2, p.1))
    (List.replicate (w * h) CoordDistTriple.new) (by simp)
  refine ⟨⟨LatLonGrid.new (w, h) ext, coords, List.replicate (w * h) CoordDistTriple.new⟩,
    ⟨LatLonGrid.new (w, h) ext, coords, map⟩, ?_, ?_, ?_⟩
  · unfold UnstructuredGrid1.new
    rw [if_neg (by simpa using hs)]
  · unfold UnstructuredGrid1.calcCoordDistLookupMap
    exact (congrArg (fun r => Res.bind r _) e).trans rfl
  · intro x y hx hy p hcen
    have hget := cell x y hx hy
    have hlt : x + y * w < w * h := idx_lt hx hy
    rw [List.getElem?_replicate_of_lt hlt, Option.map_some] at hget
    obtain ⟨hlt', hval⟩ := List.getElem?_eq_some_iff.1 hget
    unfold UnstructuredGrid1.getCoordDistTriple
    simp only [getIndex_in hd hs.le hx hy, Res.bind_ok, Res.index_ok hlt', hval]
    congr 2
    have key : ∀ (l : List (LatLon × Nat)) (t : CoordDistTriple),
        (l.map fun p => (p.2, p.1)).foldl (fun s ic =>
            if Covers (LatLonGrid.new (w, h) ext) maxDist ic.2 x y then
              tripleStep (LatLonGrid.new (w, h) ext) (Fl.mul f32 maxDist maxDist) ic.1 ic.2 x y s else s) t =
          ((l.filter fun ci => Covers (LatLonGrid.new (w, h) ext) maxDist ci.1 x y ∧
              ¬ Fl.gt (LatLon.calcEuclideanDistSquared ci.1 p) (Fl.mul f32 maxDist maxDist)).map
            fun ci => (⟨ci.2, LatLon.calcEuclideanDistSquared ci.1 p⟩ : CoordDist)).foldl
              CoordDistTriple.addCoordDist t := by
      intro l
      induction l with
      | nil => intro t; rfl
      | cons ci l ih =>
        intro t
        rw [List.map_cons, List.foldl_cons, List.filter_cons]
        by_cases hc : Covers (LatLonGrid.new (w, h) ext) maxDist ci.1 x y
        · rw [if_pos hc]
          by_cases hg : Fl.gt (LatLon.calcEuclideanDistSquared ci.1 p) (Fl.mul f32 maxDist maxDist) = true
          · rw [if_neg (by simp [hg]), ih]
            congr 1
            unfold tripleStep
            rw [hcen]
            exact if_pos hg
          · rw [if_pos (by simp [hc, hg]), ih, List.map_cons, List.foldl_cons]
            congr 1
            unfold tripleStep
            rw [hcen]
            exact if_neg hg
        · rw [if_neg hc, if_neg (by simp [hc]), ih]
    exact key coords.zipIdx CoordDistTriple.new

/-! ## C27, C63 -/

/-- Builds the three-neighbour grid of a single cell with centre (4,4) and looks its value up. -/
def threeNeighbours {T : Type} [GridValue T] [GridSum T] (coords : List LatLon) (values : List T)
    (missing : T) : Res (Option T) := do
  let g ← UnstructuredGrid1.new (1, 1) (finExtent 0 0 8 8) coords
  let g ← g.calcCoordDistLookupMap (.fin 4)
  UnstructuredValueGrid1.getValueByXY ⟨g, values, missing⟩ 0 0

/-- **C27 is false for the code**: of a coordinate at distance 1 with value 0 and one at distance 3 with
value 100, the farther one dominates: the value is 75, not at most 50. -/
theorem C27_counterexample : ¬ ∀ (near far : LatLon) (a b v : Rat), a ≤ b →
    Fl.lt (LatLon.calcEuclideanDistSquared near ⟨.fin 4, .fin 4⟩)
      (LatLon.calcEuclideanDistSquared far ⟨.fin 4, .fin 4⟩) = true →
    threeNeighbours [near, far] [Fl.fin a, Fl.fin b] (Fl.fin (-1)) = .ok (some (Fl.fin v)) → v ≤ (a + b) / 2 := by
  intro h
  have := h ⟨.fin 3, .fin 4⟩ ⟨.fin 7, .fin 4⟩ 0 100 75 (by norm_num) (by decide +kernel)
    (by decide +kernel)
  norm_num at this

/-- **C63 is false for the code**: averaging two equally near coordinates with the byte value 255
crashes, because each half is rounded up to 128. -/
theorem C63_counterexample : ∃ (coords : List LatLon) (values : List UInt8) (missing : UInt8),
    threeNeighbours coords values missing = .panic :=
  ⟨[⟨.fin 3, .fin 4⟩, ⟨.fin 5, .fin 4⟩], [255, 255], 0, by decide +kernel⟩

/-- A single coordinate exactly at the cell centre makes the value NaN (0/0). -/
theorem C27_single_at_centre :
    threeNeighbours [⟨.fin 4, .fin 4⟩] [Fl.fin 7] (.fin (-1)) = .ok (some .nan) := by decide +kernel

end Verif.Props
