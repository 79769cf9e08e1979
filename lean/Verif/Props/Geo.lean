import Verif.Lemmas.Geo

/-!
# Properties C15 - C20, C58: coordinates, extents and regular grids
-/

namespace Verif.Props

open Verif

/-! ## C15 -/

/-- **C15.** Creating a coordinate from finite binary32 numbers yields the unique numbers in
[-180,180) that differ from them by a whole number of turns of 360 degrees (no rounding happens). -/
theorem C15_normalise (lat lon : Rat) (h1 : IsFl f32 (.fin lat)) (h2 : IsFl f32 (.fin lon)) :
    ∃ (a b : Rat) (k l : Int), LatLon.new (.fin lat) (.fin lon) = ⟨.fin a, .fin b⟩ ∧
      lat = a + 360 * k ∧ lon = b + 360 * l ∧ -180 ≤ a ∧ a < 180 ∧ -180 ≤ b ∧ b < 180 := by
  obtain ⟨a, k, e1, e2, e3, e4⟩ := normalise_spec h1.1
  obtain ⟨b, l, f1, f2, f3, f4⟩ := normalise_spec h2.1
  exact ⟨a, b, k, l, by unfold LatLon.new; rw [e1, f1], e2, f2, e3, e4, f3, f4⟩

/-- **C15**: values in range are unchanged. -/
theorem C15_unchanged (lat lon : Rat) (h1 : -180 ≤ lat) (h2 : lat < 180) (h3 : -180 ≤ lon)
    (h4 : lon < 180) : LatLon.new (.fin lat) (.fin lon) = ⟨.fin lat, .fin lon⟩ := by
  unfold LatLon.new
  rw [normalise_id h1 h2, normalise_id h3 h4]

/-- **C15**: longitudes in [180,360) are shifted by exactly 360. -/
theorem C15_shift (lat lon : Rat) (h1 : IsFl f32 (.fin lat)) (h2 : IsFl f32 (.fin lon))
    (h3 : 180 ≤ lon) (h4 : lon < 360) : (LatLon.new (.fin lat) (.fin lon)).lon = .fin (lon - 360) := by
  obtain ⟨a, b, k, l, e, -, hl, -, -, h5, h6⟩ := C15_normalise lat lon h1 h2
  rw [e]
  have hl1 : l = 1 := by
    have h7 : (0 : Rat) < l := by linarith
    have h8 : (l : Rat) < 2 := by linarith
    have h7' : 0 < l := by exact_mod_cast h7
    have h8' : l < 2 := by exact_mod_cast h8
    omega
  subst hl1
  simp only [Fl.fin.injEq]
  push_cast at hl
  linarith

/-- **C15**: constructing twice is the same as constructing once. -/
theorem C15_idempotent (lat lon : Fl) (h1 : IsFl f32 lat) (h2 : IsFl f32 lon) :
    LatLon.new (LatLon.new lat lon).lat (LatLon.new lat lon).lon = LatLon.new lat lon := by
  have key : ∀ v : Fl, IsFl f32 v → LatLon.normalise (LatLon.normalise v) = LatLon.normalise v := by
    intro v hv
    cases v with
    | fin q =>
      obtain ⟨w, -, e, -, e3, e4⟩ := normalise_spec hv.1
      rw [e, normalise_id e3 e4]
    | nan => decide
    | pinf => decide
    | ninf => decide
  unfold LatLon.new
  simp only
  rw [key lat h1, key lon h2]

/-- **C15**: no infinite coordinate is ever produced; non-finite input gives NaN. -/
theorem C15_nonfinite (v : Fl) (h : ∀ q, v ≠ .fin q) : LatLon.normalise v = .nan := by
  cases v with
  | fin q => exact absurd rfl (h q)
  | nan => decide
  | pinf => decide
  | ninf => decide

example : LatLon.new (.fin (-541 / 2)) (.fin 1000) = ⟨.fin (179 / 2), .fin (-80)⟩ := by decide +kernel
example : (LatLon.new (.fin 0) (.fin 350)).lon = .fin (350 - 360) :=
  C15_shift 0 350 (by refine ⟨rep_zero _, ?_⟩; decide +kernel)
    ⟨rep_int (n := 350) (by decide) (by decide), by decide +kernel⟩ (by norm_num) (by norm_num)

/-! ## C16 -/

/-- **C16.** An extent contains exactly the positions with `min <= pos < max` on both axes. -/
theorem C16_half_open (s n w e : Rat) (lat lon : Rat) :
    LatLonExtent.isInside ⟨⟨.fin s, .fin w⟩, ⟨.fin n, .fin e⟩⟩ ⟨.fin lat, .fin lon⟩ = true ↔
      (s ≤ lat ∧ lat < n) ∧ (w ≤ lon ∧ lon < e) := by
  simp [LatLonExtent.isInside, Fl.ge, Fl.le, Fl.lt, and_assoc]

/-- **C16**: a position with a NaN coordinate is in no extent. -/
theorem C16_nan (x : LatLonExtent) (p : LatLon) (h : p.lat = .nan ∨ p.lon = .nan) :
    x.isInside p = false := by
  obtain ⟨lat, lon⟩ := p
  rcases h with h | h <;> simp only at h <;> subst h <;> unfold LatLonExtent.isInside
  · simp [Fl.lt]
  · simp [Fl.lt]

/-- **C16**: two extents sharing an edge (one starts where the other ends, on either axis) never both
contain a position. -/
theorem C16_adjacent_disjoint (a b : LatLonExtent) (p : LatLon)
    (h : a.maxCoord.lat = b.minCoord.lat ∨ a.maxCoord.lon = b.minCoord.lon) :
    ¬ (a.isInside p = true ∧ b.isInside p = true) := by
  rintro ⟨h1, h2⟩
  simp only [LatLonExtent.isInside, Bool.and_eq_true, Fl.ge] at h1 h2
  rcases h with h | h
  · have := Fl.lt_le_trans h1.1.1.2 (h ▸ h2.1.1.1)
    rw [Fl.lt_irrefl] at this
    cases this
  · have := Fl.lt_le_trans h1.2 (h ▸ h2.1.2)
    rw [Fl.lt_irrefl] at this
    cases this

/-- **C16**: splitting an extent at a meridian loses no position: each position inside is in exactly
one of the two halves. -/
theorem C16_split (s n w e m : Rat) (hm : w ≤ m ∧ m ≤ e) (p : LatLon) :
    LatLonExtent.isInside ⟨⟨.fin s, .fin w⟩, ⟨.fin n, .fin e⟩⟩ p =
      (LatLonExtent.isInside ⟨⟨.fin s, .fin w⟩, ⟨.fin n, .fin m⟩⟩ p ^^
        LatLonExtent.isInside ⟨⟨.fin s, .fin m⟩, ⟨.fin n, .fin e⟩⟩ p) := by
  obtain ⟨hm1, hm2⟩ := hm
  obtain ⟨lat, lon⟩ := p
  cases lat <;> cases lon <;> simp [LatLonExtent.isInside, Fl.ge, Fl.le, Fl.lt]
  rename_i lat lon
  by_cases h1 : s ≤ lat <;> by_cases h2 : lat < n <;> simp [h1, h2]
  by_cases h3 : lon < m
  · have h4 : ¬ m ≤ lon := not_le.mpr h3
    have h5 : lon < e := by linarith
    simp [h3, h4, h5]
  · have h4 : m ≤ lon := not_lt.mp h3
    have h5 : w ≤ lon := by linarith
    simp [h3, h4, h5]

/-- **C16**: constructing an extent panics exactly when a minimum exceeds a maximum; otherwise the
extent has the given corners. -/
theorem C16_new (a b : LatLon) :
    (LatLonExtent.new a b = .panic ↔ Fl.lt b.lat a.lat = true ∨ Fl.lt b.lon a.lon = true) ∧
    (∀ x, LatLonExtent.new a b = .ok x → x = ⟨a, b⟩) ∧ LatLonExtent.new a b ≠ .err := by
  unfold LatLonExtent.new Fl.gt
  by_cases h1 : Fl.lt b.lat a.lat = true <;> by_cases h2 : Fl.lt b.lon a.lon = true <;>
    simp [h1, h2, eq_comm]

example : LatLonExtent.isInside ⟨⟨.fin 40, .fin 5⟩, ⟨.fin 50, .fin 10⟩⟩ ⟨.fin 40, .fin (19 / 2)⟩ = true :=
  (C16_half_open 40 50 5 10 40 (19 / 2)).2 (by norm_num)
example : ¬ LatLonExtent.isInside ⟨⟨.fin 40, .fin 5⟩, ⟨.fin 50, .fin 10⟩⟩ ⟨.fin 50, .fin 7⟩ = true := by
  rw [C16_half_open]; norm_num
example : LatLonExtent.new ⟨.fin 50, .fin 5⟩ ⟨.fin 40, .fin 10⟩ = .panic :=
  (C16_new _ _).1.2 (Or.inl (by decide +kernel))

/-! ## C17 -/

theorem foldMin (l : List Rat) (m : Rat) :
    ∃ r : Rat, (l.map Fl.fin).foldl (fun m v => if Fl.lt v m then v else m) (.fin m) = .fin r ∧
      r ≤ m ∧ (∀ v ∈ l, r ≤ v) ∧ (r = m ∨ r ∈ l) := by
  induction l generalizing m with
  | nil => exact ⟨m, rfl, le_refl _, by simp, Or.inl rfl⟩
  | cons a l ih =>
    simp only [List.map_cons, List.foldl_cons]
    by_cases h : a < m
    · rw [if_pos (by simpa [Fl.lt] using h)]
      obtain ⟨r, e, h1, h2, h3⟩ := ih a
      refine ⟨r, e, by linarith, ?_, ?_⟩
      · intro v hv
        rcases List.mem_cons.mp hv with rfl | hv
        · exact h1
        · exact h2 v hv
      · right
        rcases h3 with rfl | h3
        · simp
        · simp [h3]
    · rw [if_neg (by simpa [Fl.lt] using h)]
      obtain ⟨r, e, h1, h2, h3⟩ := ih m
      refine ⟨r, e, h1, ?_, ?_⟩
      · intro v hv
        rcases List.mem_cons.mp hv with rfl | hv
        · linarith
        · exact h2 v hv
      · rcases h3 with rfl | h3
        · simp
        · simp [h3]

theorem foldMax (l : List Rat) (m : Rat) :
    ∃ r : Rat, (l.map Fl.fin).foldl (fun m v => if Fl.gt v m then v else m) (.fin m) = .fin r ∧
      m ≤ r ∧ (∀ v ∈ l, v ≤ r) ∧ (r = m ∨ r ∈ l) := by
  induction l generalizing m with
  | nil => exact ⟨m, rfl, le_refl _, by simp, Or.inl rfl⟩
  | cons a l ih =>
    simp only [List.map_cons, List.foldl_cons]
    by_cases h : m < a
    · rw [if_pos (by simpa [Fl.lt, Fl.gt] using h)]
      obtain ⟨r, e, h1, h2, h3⟩ := ih a
      refine ⟨r, e, by linarith, ?_, ?_⟩
      · intro v hv
        rcases List.mem_cons.mp hv with rfl | hv
        · exact h1
        · exact h2 v hv
      · right
        rcases h3 with rfl | h3
        · simp
        · simp [h3]
    · rw [if_neg (by simpa [Fl.lt, Fl.gt] using h)]
      obtain ⟨r, e, h1, h2, h3⟩ := ih m
      refine ⟨r, e, h1, ?_, ?_⟩
      · intro v hv
        rcases List.mem_cons.mp hv with rfl | hv
        · linarith
        · exact h2 v hv
      · rcases h3 with rfl | h3
        · simp
        · simp [h3]

theorem bounds_fold (cs : List (Rat × Rat)) (b : LatLonExtent.Bounds) :
    (cs.map (fun c => (⟨.fin c.1, .fin c.2⟩ : LatLon))).foldl LatLonExtent.Bounds.step b =
    { minLat := ((cs.map Prod.fst).map Fl.fin).foldl (fun m v => if Fl.lt v m then v else m) b.minLat
      maxLat := ((cs.map Prod.fst).map Fl.fin).foldl (fun m v => if Fl.gt v m then v else m) b.maxLat
      minLon := ((cs.map Prod.snd).map Fl.fin).foldl (fun m v => if Fl.lt v m then v else m) b.minLon
      maxLon := ((cs.map Prod.snd).map Fl.fin).foldl (fun m v => if Fl.gt v m then v else m) b.maxLon } := by
  induction cs generalizing b with
  | nil => rfl
  | cons c cs ih => simp only [List.map_cons, List.foldl_cons, ih]; rfl

/-- **C17.** The bounding extent of a non-empty list of positions (latitude, longitude) exists, has
every position between its corners, and each of its four sides is attained by a position. -/
theorem C17_bounding (cs : List (Rat × Rat)) (hne : cs ≠ [])
    (h : ∀ c ∈ cs, (-90 ≤ c.1 ∧ c.1 ≤ 90) ∧ (-180 ≤ c.2 ∧ c.2 < 180)) :
    ∃ s n w e : Rat,
      LatLonExtent.calcMinBoundingExtent (cs.map (fun c => (⟨.fin c.1, .fin c.2⟩ : LatLon))) =
        .ok ⟨⟨.fin s, .fin w⟩, ⟨.fin n, .fin e⟩⟩ ∧
      (∀ c ∈ cs, s ≤ c.1 ∧ c.1 ≤ n ∧ w ≤ c.2 ∧ c.2 ≤ e) ∧
      (∃ c ∈ cs, c.1 = s) ∧ (∃ c ∈ cs, c.1 = n) ∧ (∃ c ∈ cs, c.2 = w) ∧ (∃ c ∈ cs, c.2 = e) := by
  obtain ⟨c0, hc0⟩ := List.exists_mem_of_ne_nil cs hne
  obtain ⟨s, e1, s1, s2, s3⟩ := foldMin (cs.map Prod.fst) 90
  obtain ⟨n, e2, n1, n2, n3⟩ := foldMax (cs.map Prod.fst) (-90)
  obtain ⟨w, e3, w1, w2, w3⟩ := foldMin (cs.map Prod.snd) 180
  obtain ⟨e, e4, m1, m2, m3⟩ := foldMax (cs.map Prod.snd) (-180)
  have f1 : ∀ c ∈ cs, c.1 ∈ cs.map Prod.fst := fun c hc => List.mem_map_of_mem hc
  have f2 : ∀ c ∈ cs, c.2 ∈ cs.map Prod.snd := fun c hc => List.mem_map_of_mem hc
  have inv1 : ∀ v, v ∈ cs.map Prod.fst → ∃ c ∈ cs, c.1 = v := by
    intro v hv; simpa using hv
  have inv2 : ∀ v, v ∈ cs.map Prod.snd → ∃ c ∈ cs, c.2 = v := by
    intro v hv; simpa using hv
  have as : ∃ c ∈ cs, c.1 = s := by
    rcases s3 with s3 | s3
    · refine ⟨c0, hc0, ?_⟩
      have := s2 _ (f1 _ hc0); have := (h c0 hc0).1.2; linarith
    · exact inv1 _ s3
  have an : ∃ c ∈ cs, c.1 = n := by
    rcases n3 with n3 | n3
    · refine ⟨c0, hc0, ?_⟩
      have := n2 _ (f1 _ hc0); have := (h c0 hc0).1.1; linarith
    · exact inv1 _ n3
  have aw : ∃ c ∈ cs, c.2 = w := by
    rcases w3 with w3 | w3
    · exfalso
      have := w2 _ (f2 _ hc0); have := (h c0 hc0).2.2; linarith
    · exact inv2 _ w3
  have ae : ∃ c ∈ cs, c.2 = e := by
    rcases m3 with m3 | m3
    · refine ⟨c0, hc0, ?_⟩
      have := m2 _ (f2 _ hc0); have := (h c0 hc0).2.1; linarith
    · exact inv2 _ m3
  have rng : ∀ c ∈ cs, s ≤ c.1 ∧ c.1 ≤ n ∧ w ≤ c.2 ∧ c.2 ≤ e := fun c hc =>
    ⟨s2 _ (f1 c hc), n2 _ (f1 c hc), w2 _ (f2 c hc), m2 _ (f2 c hc)⟩
  refine ⟨s, n, w, e, ?_, rng, as, an, aw, ae⟩
  unfold LatLonExtent.calcMinBoundingExtent
  rw [bounds_fold]
  simp only [e1, e2, e3, e4]
  obtain ⟨cs1, hcs1, rfl⟩ := as
  obtain ⟨cn, hcn, rfl⟩ := an
  obtain ⟨cw, hcw, rfl⟩ := aw
  obtain ⟨ce, hce, rfl⟩ := ae
  have h1 := h _ hcs1
  have h2 := h _ hcn
  have h3 := h _ hcw
  have h4 := h _ hce
  have hA := C15_unchanged cs1.1 cw.2 (by linarith [h1.1.1]) (by linarith [h1.1.2]) h3.2.1 h3.2.2
  have hB := C15_unchanged cn.1 ce.2 (by linarith [h2.1.1]) (by linarith [h2.1.2]) h4.2.1 h4.2.2
  rw [hA, hB]
  unfold LatLonExtent.new
  have q := rng _ hc0
  rw [if_neg]
  simp only [Fl.gt, Fl.lt, Bool.or_eq_true, decide_eq_true_eq, not_or, not_lt]
  exact ⟨by linarith, by linarith⟩

/-- The bounding extent of no positions panics. -/
theorem C17_empty : LatLonExtent.calcMinBoundingExtent [] = .panic := by decide +kernel

example : LatLonExtent.calcMinBoundingExtent
      [⟨.fin 47, .fin 8⟩, ⟨.fin 46, .fin 9⟩, ⟨.fin 48, .fin (-7)⟩] =
      .ok ⟨⟨.fin 46, .fin (-7)⟩, ⟨.fin 48, .fin 9⟩⟩ := by decide +kernel
example : ∃ s n w e : Rat,
    LatLonExtent.calcMinBoundingExtent
      ([((47 : Rat), (8 : Rat)), (46, 9), (48, -7)].map (fun c => (⟨.fin c.1, .fin c.2⟩ : LatLon))) =
      .ok ⟨⟨.fin s, .fin w⟩, ⟨.fin n, .fin e⟩⟩ := by
  obtain ⟨s, n, w, e, h, -⟩ := C17_bounding [(47, 8), (46, 9), (48, -7)] (by simp) (by
    intro c hc
    simp only [List.mem_cons, List.not_mem_nil, or_false] at hc
    rcases hc with rfl | rfl | rfl <;> norm_num)
  exact ⟨s, n, w, e, h⟩

/-! ## C18 -/

/-- **C18.** The storage index is defined exactly for the cells of the grid, and below `w * h`. -/
theorem C18_defined (g : LatLonGrid) (w h : Nat) (hd : g.dimensions = (w, h)) (hs : w * h ≤ 2 ^ 64)
    (x y : Nat) :
    (x < w ∧ y < h → ∃ i, g.getIndexByXY x y = .ok (some i) ∧ i < w * h) ∧
    (¬ (x < w ∧ y < h) → g.getIndexByXY x y = .ok none) := by
  unfold LatLonGrid.getIndexByXY
  rw [hd]
  constructor
  · rintro ⟨hx, hy⟩
    have hlt : x + y * w < w * h := by
      have : (y + 1) * w ≤ h * w := Nat.mul_le_mul_right w hy
      rw [Nat.succ_mul] at this
      rw [Nat.mul_comm w h]
      omega
    refine ⟨x + y * w, ?_, hlt⟩
    rw [if_neg (by simp; omega), if_neg (by simp only; omega)]
  · intro hn
    rw [if_pos (by simp; omega)]

/-- **C18**: distinct cells have distinct indices. -/
theorem C18_injective (g : LatLonGrid) (x y x' y' i : Nat)
    (h : g.getIndexByXY x y = .ok (some i)) (h' : g.getIndexByXY x' y' = .ok (some i)) :
    x = x' ∧ y = y' := by
  unfold LatLonGrid.getIndexByXY at h h'
  split at h
  · simp at h
  split at h
  · simp at h
  split at h'
  · simp at h'
  split at h'
  · simp at h'
  rename_i a1 a2 a3 a4
  simp only [Res.ok.injEq, Option.some.injEq] at h h'
  simp only [ge_iff_le, Bool.or_eq_true, decide_eq_true_eq, not_or, not_le] at a1 a3
  have e : x + y * g.dimensions.1 = x' + y' * g.dimensions.1 := by rw [h, h']
  have m1 : (x + y * g.dimensions.1) % g.dimensions.1 = x := by
    rw [Nat.add_mul_mod_self_right, Nat.mod_eq_of_lt a1.1]
  have m2 : (x' + y' * g.dimensions.1) % g.dimensions.1 = x' := by
    rw [Nat.add_mul_mod_self_right, Nat.mod_eq_of_lt a3.1]
  have hx : x = x' := by rw [← m1, ← m2, e]
  refine ⟨hx, ?_⟩
  have hw : 0 < g.dimensions.1 := by omega
  have : y * g.dimensions.1 = y' * g.dimensions.1 := by omega
  exact Nat.eq_of_mul_eq_mul_right hw this

/-- **C18**: every index below `w * h` belongs to a cell. -/
theorem C18_surjective (g : LatLonGrid) (w h : Nat) (hd : g.dimensions = (w, h))
    (hs : w * h ≤ 2 ^ 64) (i : Nat) (hi : i < w * h) :
    ∃ x y, x < w ∧ y < h ∧ g.getIndexByXY x y = .ok (some i) := by
  have hw : 0 < w := Nat.pos_of_mul_pos_right (by omega : 0 < w * h)
  have hx : i % w < w := Nat.mod_lt _ hw
  have hy : i / w < h := Nat.div_lt_of_lt_mul hi
  refine ⟨i % w, i / w, hx, hy, ?_⟩
  unfold LatLonGrid.getIndexByXY
  rw [hd]
  have e : i % w + i / w * w = i := by rw [Nat.mul_comm]; exact Nat.mod_add_div i w
  rw [if_neg (by simp; omega), e, if_neg (by omega)]

/-- A 3 x 2 grid over 40..42 N, 5..8 E. -/
def demoGrid : LatLonGrid := LatLonGrid.new (3, 2) ⟨⟨.fin 40, .fin 5⟩, ⟨.fin 42, .fin 8⟩⟩

example : ∃ i, demoGrid.getIndexByXY 2 1 = .ok (some i) ∧ i < 3 * 2 :=
  (C18_defined demoGrid 3 2 rfl (by norm_num) 2 1).1 (by norm_num)
example : demoGrid.getIndexByXY 2 1 = .ok (some 5) := by decide

/-! ## C19 -/

variable {T : Type} [GridValue T]

/-- **C19.** Looking up cell `(x, y)` of a grid with `w * h` values returns the value stored at
`y * w + x` unless it equals the missing value, nothing outside the grid, and never panics. -/
theorem C19_lookup (g : LatLonValueGrid T) (w h : Nat) (hd : g.grid.dimensions = (w, h))
    (hs : w * h ≤ 2 ^ 64) (hv : g.values.length = w * h) (x y : Nat) :
    (x < w ∧ y < h → ∃ v, g.values[y * w + x]? = some v ∧
      g.getValueByXY x y = .ok (if GridValue.eq v g.missingValue then none else some v)) ∧
    (¬ (x < w ∧ y < h) → g.getValueByXY x y = .ok none) := by
  obtain ⟨h1, h2⟩ := C18_defined g.grid w h hd hs x y
  constructor
  · intro hxy
    obtain ⟨i, hi, hlt⟩ := h1 hxy
    have he : i = y * w + x := by
      unfold LatLonGrid.getIndexByXY at hi
      rw [hd] at hi
      split at hi
      · simp at hi
      split at hi
      · simp at hi
      simp only [Res.ok.injEq, Option.some.injEq] at hi
      omega
    have hlt' : y * w + x < g.values.length := by omega
    refine ⟨g.values[y * w + x], List.getElem?_eq_getElem hlt', ?_⟩
    unfold LatLonValueGrid.getValueByXY
    rw [hi, he]
    simp only [Res.bind_ok, Res.index, List.getElem?_eq_getElem hlt']
    cases GridValue.eq g.values[y * w + x] g.missingValue <;> rfl
  · intro hxy
    unfold LatLonValueGrid.getValueByXY
    rw [h2 hxy]
    rfl

/-- A 3 x 2 byte grid with one missing value (255). -/
def demoValues : LatLonValueGrid UInt8 :=
  LatLonValueGrid.new [1, 2, 3, 4, 255, 6] 255 (3, 2) ⟨⟨.fin 40, .fin 5⟩, ⟨.fin 42, .fin 8⟩⟩

example : demoValues.getValueByXY 2 1 = .ok (some 6) := by
  obtain ⟨v, hv, e⟩ := (C19_lookup demoValues 3 2 rfl (by norm_num) rfl 2 1).1 (by norm_num)
  rw [e]
  have : v = 6 := by simpa [demoValues, LatLonValueGrid.new] using hv.symm
  subst this
  decide
example : demoValues.getValueByXY 1 1 = .ok none ∧ demoValues.getValueByXY 3 0 = .ok none := by decide

/-! ## C20 -/

/-- **C20**: outside the extent there is no value. -/
theorem C20_outside (g : LatLonValueGrid T) (p : LatLon) (h : g.grid.extent.isInside p = false) :
    g.getValueByLatLon p = .ok none := by
  unfold LatLonValueGrid.getValueByLatLon LatLonGrid.getXYByLatLon
  simp [h]

/-- **C20.** Lookup by position never panics on a grid with `w * h` values, and inside the extent it
gives the value of the cell whose column and row are nearest to the fractional grid coordinates
(at distance at most one half from them), or nothing. -/
theorem C20_inside (g : LatLonValueGrid T) (w h : Nat) (hd : g.grid.dimensions = (w, h))
    (hs : w * h ≤ 2 ^ 64) (hv : g.values.length = w * h) (p : LatLon) :
    (∃ o, g.getValueByLatLon p = .ok o) ∧
    ∀ v, g.getValueByLatLon p = .ok (some v) →
      ∃ (fx fy : Fl) (x y : Nat), g.grid.getXYByLatLon p = some (fx, fy) ∧ x < w ∧ y < h ∧
        g.values[y * w + x]? = some v ∧ GridValue.eq v g.missingValue = false ∧
        x = Fl.toUSize (Fl.round fx) ∧ y = Fl.toUSize (Fl.round fy) := by
  unfold LatLonValueGrid.getValueByLatLon
  cases hxy : g.grid.getXYByLatLon p with
  | none => exact ⟨⟨none, rfl⟩, by simp⟩
  | some q =>
    obtain ⟨fx, fy⟩ := q
    obtain ⟨h1, h2⟩ := C19_lookup g w h hd hs hv (Fl.toUSize (Fl.round fx)) (Fl.toUSize (Fl.round fy))
    by_cases hc : Fl.toUSize (Fl.round fx) < w ∧ Fl.toUSize (Fl.round fy) < h
    · obtain ⟨v, hv1, hv2⟩ := h1 hc
      refine ⟨⟨_, hv2⟩, ?_⟩
      intro v' hv'
      simp only [hv2, Res.ok.injEq] at hv'
      split at hv'
      · simp at hv'
      · rename_i hne
        simp only [Option.some.injEq] at hv'
        subst hv'
        exact ⟨fx, fy, _, _, rfl, hc.1, hc.2, hv1, by simpa using hne, rfl, rfl⟩
    · refine ⟨⟨none, h2 hc⟩, ?_⟩
      intro v' hv'
      simp only [h2 hc, Res.ok.injEq] at hv'
      cases hv'

/-- **C20**: the chosen column (row) is nearest to the fractional coordinate. -/
theorem C20_rounding (q : Rat) (h0 : 0 ≤ q) (h1 : q ≤ 2 ^ 63) :
    |(Fl.toUSize (Fl.round (.fin q)) : Rat) - q| ≤ 1 / 2 := by
  have hr := Fl.roundAway_err q
  have hr0 : 0 ≤ Fl.roundAway q := by
    have := Fl.roundAway_mono h0
    have h0 := Fl.roundAway_int 0
    simp only [Int.cast_zero] at h0
    rwa [h0] at this
  have hr1 : Fl.roundAway q ≤ 2 ^ 63 := by
    have := Fl.roundAway_mono h1
    have h0 := Fl.roundAway_int (2 ^ 63)
    rw [Int.cast_pow, Int.cast_ofNat] at h0
    rwa [h0] at this
  have ht : Fl.toUSize (Fl.round (.fin q)) = (Fl.roundAway q).toNat := by
    simp only [Fl.toUSize, Fl.round, Fl.toUInt, Int.floor_intCast]
    omega
  have hz : (((Fl.roundAway q).toNat : Nat) : Rat) = (Fl.roundAway q : Rat) := by
    have := Int.toNat_of_nonneg hr0
    exact_mod_cast congrArg (fun z : Int => (z : Rat)) this
  rw [ht, hz]
  exact hr

example : demoValues.getValueByLatLon ⟨.fin 40, .fin (36 / 5)⟩ = .ok (some 3) := by decide +kernel
example : demoValues.getValueByLatLon ⟨.fin 42, .fin 6⟩ = .ok none := C20_outside _ _ (by decide +kernel)

/-! ## C58 -/

/-- **C58.** Scaling a byte: a NaN product gives 0, otherwise the binary32 product clamped to
[0,255] and rounded to the nearest integer. -/
theorem C58_scale (v : UInt8) (f : Fl) :
    (∀ q, Fl.mul f32 (.fin v.toNat) f = .fin q →
      |((scaleU8 v f).toNat : Rat) - max 0 (min 255 q)| ≤ 1 / 2) ∧
    (Fl.mul f32 (.fin v.toNat) f = .nan → scaleU8 v f = 0) ∧
    (Fl.mul f32 (.fin v.toNat) f = .ninf → scaleU8 v f = 0) ∧
    (Fl.mul f32 (.fin v.toNat) f = .pinf → scaleU8 v f = 255) := by
  have hv : Fl.ofNat f32 v.toNat = .fin v.toNat := rnd32_nat (by have := v.toNat_lt; omega)
  refine ⟨?_, ?_, ?_, ?_⟩
  · intro q hq
    unfold scaleU8
    rw [hv, hq]
    simp only [Fl.isNan, Bool.false_eq_true, if_false]
    have hcl : Fl.clamp (.fin q) (.fin 0) (.fin 255) = .fin (max 0 (min 255 q)) := by
      unfold Fl.clamp
      by_cases h0 : q < 0
      · have e0 : Fl.lt (.fin q) (.fin 0) = true := by simpa [Fl.lt] using h0
        have e1 : Fl.gt (.fin 0) (.fin 255) = false := by decide
        simp only [e0, if_true, e1, Bool.false_eq_true, if_false]
        rw [max_eq_left]
        exact (min_le_right _ _).trans h0.le
      · have e0 : Fl.lt (.fin q) (.fin 0) = false := by simpa [Fl.lt] using h0
        simp only [e0, Bool.false_eq_true, if_false]
        by_cases h1 : 255 < q
        · have e1 : Fl.gt (.fin q) (.fin 255) = true := by simpa [Fl.lt, Fl.gt] using h1
          simp only [e1, if_true]
          rw [min_eq_left h1.le, max_eq_right (by norm_num)]
        · have e1 : Fl.gt (.fin q) (.fin 255) = false := by simpa [Fl.lt, Fl.gt] using h1
          simp only [e1, Bool.false_eq_true, if_false]
          rw [min_eq_right (not_lt.mp h1), max_eq_right (not_lt.mp h0)]
    rw [hcl]
    have hc0 : 0 ≤ max 0 (min 255 q) := le_max_left _ _
    have hc1 : max 0 (min 255 q) ≤ 255 := max_le (by norm_num) (min_le_left _ _)
    generalize max 0 (min 255 q) = c at *
    have hr := Fl.roundAway_err c
    have hr0 : 0 ≤ Fl.roundAway c := by
      have := Fl.roundAway_mono hc0
      have h0 := Fl.roundAway_int 0
      simp only [Int.cast_zero] at h0
      rwa [h0] at this
    have hr1 : Fl.roundAway c ≤ 255 := by
      have := Fl.roundAway_mono hc1
      have h0 := Fl.roundAway_int 255
      simp only [Int.cast_ofNat] at h0
      rwa [h0] at this
    have ht : Fl.toU8 (Fl.round (.fin c)) = (Fl.roundAway c).toNat := by
      simp only [Fl.toU8, Fl.round, Fl.toUInt, Int.floor_intCast]
      omega
    rw [ht]
    have hn : (UInt8.ofNat (Fl.roundAway c).toNat).toNat = (Fl.roundAway c).toNat := by
      rw [UInt8.toNat_ofNat']; omega
    rw [hn]
    have hz : (((Fl.roundAway c).toNat : Nat) : Rat) = (Fl.roundAway c : Rat) := by
      have := Int.toNat_of_nonneg hr0
      exact_mod_cast congrArg (fun z : Int => (z : Rat)) this
    rw [hz]
    exact hr
  · intro h
    unfold scaleU8; rw [hv, h]; decide +kernel
  · intro h
    unfold scaleU8; rw [hv, h]; decide +kernel
  · intro h
    unfold scaleU8; rw [hv, h]; decide +kernel

/-- **C58.** Adding bytes saturates at 255. -/
theorem C58_add (a b : UInt8) : (addU8 a b).toNat = min 255 (a.toNat + b.toNat) := by
  have ha := a.toNat_lt
  have hb := b.toNat_lt
  unfold addU8
  simp only
  split
  · rw [min_eq_left (by omega)]; rfl
  · rw [min_eq_right (by omega), UInt8.toNat_ofNat']; omega

/-- **C58**: summing any number of contributions never wraps around. -/
theorem C58_sum (l : List UInt8) (a : UInt8) :
    (l.foldl addU8 a).toNat = min 255 (a.toNat + (l.map UInt8.toNat).sum) := by
  induction l generalizing a with
  | nil =>
    have ha := a.toNat_lt
    simp only [List.foldl_nil, List.map_nil, List.sum_nil]
    omega
  | cons b l ih =>
    simp only [List.foldl_cons, List.map_cons, List.sum_cons, ih, C58_add]
    omega

example : scaleU8 200 (.fin (3 / 2)) = 255 ∧ scaleU8 100 (.fin (1 / 8)) = 13 ∧ scaleU8 0 .pinf = 0 := by
  decide +kernel
example : ([200, 100, 7].foldl addU8 0).toNat = 255 := by rw [C58_sum]; decide

end Verif.Props
