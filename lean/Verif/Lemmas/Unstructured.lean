import Verif.Lemmas.Res
import Verif.Lemmas.FloatErr

/-!
# Lemmas about building the lookup map of an unstructured grid

The map is a list indexed by `x + y*w`.  The nested loops over cells treat every cell independently:
`loops_cell` reduces the construction to one fold per cell.
-/

namespace Verif

variable {β : Type}

theorem idx_lt {w h x y : Nat} (hx : x < w) (hy : y < h) : x + y * w < w * h := by
  have : (y + 1) * w ≤ h * w := Nat.mul_le_mul_right _ hy
  rw [Nat.add_mul, Nat.one_mul] at this
  rw [Nat.mul_comm w h]; omega

theorem idx_inj {w x y x' y' : Nat} (hx : x < w) (hx' : x' < w) (h : x + y * w = x' + y' * w) :
    x = x' ∧ y = y' := by
  have h1 : (x + y * w) % w = x := by rw [Nat.add_mul_mod_self_right, Nat.mod_eq_of_lt hx]
  have h2 : (x' + y' * w) % w = x' := by rw [Nat.add_mul_mod_self_right, Nat.mod_eq_of_lt hx']
  have h3 : x = x' := by rw [← h1, ← h2, h]
  subst h3
  refine ⟨rfl, ?_⟩
  have : y * w = y' * w := by omega
  exact Nat.eq_of_mul_eq_mul_right (by omega) this

theorem getIndex_in {g : LatLonGrid} {w h x y : Nat} (hd : g.dimensions = (w, h)) (hs : w * h ≤ 2 ^ 64)
    (hx : x < w) (hy : y < h) : g.getIndexByXY x y = .ok (some (x + y * w)) := by
  have := idx_lt hx hy
  unfold LatLonGrid.getIndexByXY
  rw [hd]
  simp only
  rw [if_neg (by simp; omega), if_neg (by omega)]

theorem getIndex_out {g : LatLonGrid} {w h x y : Nat} (hd : g.dimensions = (w, h))
    (hxy : ¬ (x < w ∧ y < h)) : g.getIndexByXY x y = .ok none := by
  unfold LatLonGrid.getIndexByXY
  rw [hd]
  simp only
  rw [if_pos (by simp; omega)]

/-- `U` replaces cell `(x, y)` by `F x y` of its old content and leaves all other cells alone. -/
def Pointwise (w h : Nat) (F : Nat → Nat → β → β) (U : List β → Nat → Nat → Res (List β)) : Prop :=
  ∀ (map : List β) (x y : Nat), map.length = w * h → ∃ map', U map x y = .ok map' ∧
    map'.length = w * h ∧ ∀ a b, a < w → b < h →
      map'[a + b * w]? = if a = x ∧ b = y then map[a + b * w]?.map (F x y) else map[a + b * w]?

theorem mem_rangeIncl {a b x : Nat} : x ∈ rangeIncl a b ↔ a ≤ x ∧ x ≤ b := by
  unfold rangeIncl
  rw [List.mem_range'_1]
  omega

theorem nodup_rangeIncl (a b : Nat) : (rangeIncl a b).Nodup := List.nodup_range'

/-- The inner loop. -/
theorem inner_loop {w h : Nat} {F : Nat → Nat → β → β} {U : List β → Nat → Nat → Res (List β)}
    (hU : Pointwise w h F U) (x : Nat) (ys : List Nat) (hn : ys.Nodup) (map : List β)
    (hl : map.length = w * h) :
    ∃ map', Res.foldl (fun m y => U m x y) map ys = .ok map' ∧ map'.length = w * h ∧
      ∀ a b, a < w → b < h → map'[a + b * w]? =
        if a = x ∧ b ∈ ys then map[a + b * w]?.map (F x b) else map[a + b * w]? := by
  induction ys generalizing map with
  | nil => exact ⟨map, rfl, hl, by intro a b _ _; simp⟩
  | cons y ys ih =>
    rw [List.nodup_cons] at hn
    obtain ⟨m1, e1, l1, c1⟩ := hU map x y hl
    obtain ⟨m2, e2, l2, c2⟩ := ih hn.2 m1 l1
    refine ⟨m2, by simp only [Res.foldl, e1, Res.bind_ok]; exact e2, l2, ?_⟩
    intro a b ha hb
    rw [c2 a b ha hb, c1 a b ha hb]
    by_cases hax : a = x
    · by_cases hby : b = y
      · have : b ∉ ys := by rw [hby]; exact hn.1
        simp [hax, hby, hn.1]
      · by_cases hbm : b ∈ ys <;> simp [hax, hby, hbm]
    · simp [hax]

/-- Both loops. -/
theorem both_loops {w h : Nat} {F : Nat → Nat → β → β} {U : List β → Nat → Nat → Res (List β)}
    (hU : Pointwise w h F U) (xs ys : List Nat) (hx : xs.Nodup) (hy : ys.Nodup) (map : List β)
    (hl : map.length = w * h) :
    ∃ map', Res.foldl (fun m x => Res.foldl (fun m y => U m x y) m ys) map xs = .ok map' ∧
      map'.length = w * h ∧ ∀ a b, a < w → b < h → map'[a + b * w]? =
        if a ∈ xs ∧ b ∈ ys then map[a + b * w]?.map (F a b) else map[a + b * w]? := by
  induction xs generalizing map with
  | nil => exact ⟨map, rfl, hl, by intro a b _ _; simp⟩
  | cons x xs ih =>
    rw [List.nodup_cons] at hx
    obtain ⟨m1, e1, l1, c1⟩ := inner_loop hU x ys hy map hl
    obtain ⟨m2, e2, l2, c2⟩ := ih hx.2 m1 l1
    refine ⟨m2, by simp only [Res.foldl, e1, Res.bind_ok]; exact e2, l2, ?_⟩
    intro a b ha hb
    rw [c2 a b ha hb, c1 a b ha hb]
    by_cases hax : a = x
    · subst hax
      have h1 : a ∉ xs := hx.1
      by_cases hby : b ∈ ys <;> simp [h1, hby]
    · by_cases hby : b ∈ ys <;> by_cases ham : a ∈ xs <;> simp [hax, hby, ham]

/-- Cell `(x, y)` is visited for the coordinate: the coordinate is not skipped and the cell lies in its
window. -/
def Covers (g : LatLonGrid) (maxDist : Fl) (coord : LatLon) (x y : Nat) : Prop :=
  skipCoord g.extent coord maxDist = false ∧
  ∃ mn mx, calcMinMaxXY g coord maxDist = .ok (mn, mx) ∧
    mn.1 ≤ x ∧ x ≤ mx.1 ∧ mn.2 ≤ y ∧ y ≤ mx.2

theorem calcMinMaxXY_total (g : LatLonGrid) (coord : LatLon) (maxDist : Fl)
    (h : g.dimensions.1 ≠ 0 ∧ g.dimensions.2 ≠ 0) :
    ∃ mn mx, calcMinMaxXY g coord maxDist = .ok (mn, mx) := by
  unfold calcMinMaxXY
  simp only
  split
  · exact ⟨_, _, rfl⟩
  · rw [if_neg (by omega)]; exact ⟨_, _, rfl⟩

open Classical in
/-- The loop over all coordinates, cell by cell. -/
theorem loops_cell (g : LatLonGrid) (w h : Nat) (hd : g.dimensions = (w, h)) (hw : w ≠ 0) (hh : h ≠ 0)
    (maxDist : Fl) (F : Nat → LatLon → Nat → Nat → β → β)
    (U : Nat → LatLon → List β → Nat → Nat → Res (List β))
    (hU : ∀ i c, Pointwise w h (F i c) (U i c))
    (ins : List β → Nat × LatLon → Res (List β))
    (hins : ∀ map ic, ins map ic =
      if skipCoord g.extent ic.2 maxDist then .ok map
      else do
        let (minXY, maxXY) ← calcMinMaxXY g ic.2 maxDist
        Res.foldl (fun map x =>
            Res.foldl (fun map y => U ic.1 ic.2 map x y) map (rangeIncl minXY.2 maxXY.2))
          map (rangeIncl minXY.1 maxXY.1))
    (ics : List (Nat × LatLon)) (map : List β) (hl : map.length = w * h) :
    ∃ map', Res.foldl ins map ics = .ok map' ∧ map'.length = w * h ∧
      ∀ a b, a < w → b < h → map'[a + b * w]? = map[a + b * w]?.map (fun old =>
        ics.foldl (fun s ic => if Covers g maxDist ic.2 a b then F ic.1 ic.2 a b s else s) old) := by
  induction ics generalizing map with
  | nil => exact ⟨map, rfl, hl, by intro a b _ _; simp⟩
  | cons ic ics ih =>
    obtain ⟨i, c⟩ := ic
    have step : ∃ m1, ins map (i, c) = .ok m1 ∧ m1.length = w * h ∧ ∀ a b, a < w → b < h →
        m1[a + b * w]? = map[a + b * w]?.map (fun old =>
          if Covers g maxDist c a b then F i c a b old else old) := by
      rw [hins]
      simp only
      by_cases hsk : skipCoord g.extent c maxDist = true
      · rw [if_pos hsk]
        refine ⟨map, rfl, hl, ?_⟩
        intro a b _ _
        have : ¬ Covers g maxDist c a b := by rintro ⟨h1, -⟩; rw [hsk] at h1; cases h1
        simp [this]
      · rw [if_neg hsk]
        obtain ⟨mn, mx, e⟩ := calcMinMaxXY_total g c maxDist (by rw [hd]; exact ⟨hw, hh⟩)
        obtain ⟨m1, e1, l1, c1⟩ := both_loops (hU i c) (rangeIncl mn.1 mx.1) (rangeIncl mn.2 mx.2)
          (nodup_rangeIncl _ _) (nodup_rangeIncl _ _) map hl
        refine ⟨m1, by rw [e]; exact e1, l1, ?_⟩
        intro a b ha hb
        rw [c1 a b ha hb]
        have hiff : (a ∈ rangeIncl mn.1 mx.1 ∧ b ∈ rangeIncl mn.2 mx.2) ↔ Covers g maxDist c a b := by
          rw [mem_rangeIncl, mem_rangeIncl]
          constructor
          · rintro ⟨⟨h1, h2⟩, h3, h4⟩
            exact ⟨by simpa using hsk, mn, mx, e, h1, h2, h3, h4⟩
          · rintro ⟨-, mn', mx', e', h1, h2, h3, h4⟩
            rw [e] at e'
            simp only [Res.ok.injEq, Prod.mk.injEq] at e'
            obtain ⟨rfl, rfl⟩ := e'
            exact ⟨⟨h1, h2⟩, h3, h4⟩
        by_cases hc : Covers g maxDist c a b
        · rw [if_pos (hiff.2 hc)]; simp [hc]
        · rw [if_neg (fun h => hc (hiff.1 h))]; simp [hc]
    obtain ⟨m1, e1, l1, c1⟩ := step
    obtain ⟨m2, e2, l2, c2⟩ := ih m1 l1
    refine ⟨m2, by simp only [Res.foldl, e1, Res.bind_ok]; exact e2, l2, ?_⟩
    intro a b ha hb
    rw [c2 a b ha hb, c1 a b ha hb, Option.map_map]
    rfl

/-- What the construction does to one cell for a coordinate covering it. -/
def nearStep (g : LatLonGrid) (maxD2 : Fl) (i : Nat) (coord : LatLon) (x y : Nat)
    (old : Option CoordDist) : Option CoordDist :=
  match cellCentre g x y with
  | none => old
  | some c =>
    let d := LatLon.calcEuclideanDistSquared coord c
    if Fl.gt d maxD2 then old
    else if Fl.gt d (UnstructuredGrid.currentDist old maxD2) then old
    else some ⟨i, d⟩

theorem set_cell {w h x y : Nat} (map : List β) (hl : map.length = w * h) (hx : x < w) (hy : y < h)
    (v : β) (f : β → β) (hv : ∀ o, map[x + y * w]? = some o → f o = v) (a b : Nat) (ha : a < w) (_hb : b < h) :
    (map.set (x + y * w) v)[a + b * w]? =
      if a = x ∧ b = y then map[a + b * w]?.map f else map[a + b * w]? := by
  have hlt : x + y * w < map.length := by rw [hl]; exact idx_lt hx hy
  by_cases he : a = x ∧ b = y
  · obtain ⟨rfl, rfl⟩ := he
    simp only [and_self, if_true]
    rw [List.getElem?_set_self hlt, List.getElem?_eq_getElem hlt, Option.map_some,
      hv _ (List.getElem?_eq_getElem hlt)]
  · rw [if_neg he]
    apply List.getElem?_set_ne
    intro hc
    obtain ⟨h1, h2⟩ := idx_inj hx ha hc
    exact he ⟨h1.symm, h2.symm⟩

theorem keep_cell {w : Nat} (map : List β) (x y : Nat) (f : β → β)
    (hv : ∀ o, map[x + y * w]? = some o → f o = o) (a b : Nat) :
    map[a + b * w]? = if a = x ∧ b = y then map[a + b * w]?.map f else map[a + b * w]? := by
  by_cases he : a = x ∧ b = y
  · obtain ⟨rfl, rfl⟩ := he
    simp only [and_self, if_true]
    cases h : map[a + b * w]? with
    | none => rfl
    | some o => rw [Option.map_some, hv o h]
  · rw [if_neg he]

theorem updateCell_pointwise (g : LatLonGrid) (w h : Nat) (hd : g.dimensions = (w, h))
    (hs : w * h ≤ 2 ^ 64) (maxD2 : Fl) (i : Nat) (c : LatLon) :
    Pointwise w h (nearStep g maxD2 i c) (UnstructuredGrid.updateCell g maxD2 i c) := by
  intro map x y hl
  unfold UnstructuredGrid.updateCell
  by_cases hxy : x < w ∧ y < h
  · obtain ⟨hx, hy⟩ := hxy
    have hlt : x + y * w < map.length := by rw [hl]; exact idx_lt hx hy
    simp only [getIndex_in hd hs hx hy, Res.bind_ok, Res.index_ok hlt]
    cases hc : cellCentre g x y with
    | none =>
      exact ⟨map, rfl, hl, fun a b _ _ => keep_cell (w := w) map x y (nearStep g maxD2 i c x y)
        (fun o _ => by unfold nearStep; rw [hc]) a b⟩
    | some p =>
      simp only
      by_cases h1 : Fl.gt (LatLon.calcEuclideanDistSquared c p) maxD2 = true
      · rw [if_pos h1]
        exact ⟨map, rfl, hl, fun a b _ _ => keep_cell (w := w) map x y (nearStep g maxD2 i c x y)
          (fun o _ => by unfold nearStep; rw [hc]; exact if_pos h1) a b⟩
      · rw [if_neg h1]
        have hget : map[x + y * w]? = some map[x + y * w] := List.getElem?_eq_getElem hlt
        split
        · rename_i h2
          refine ⟨map, rfl, hl, fun a b _ _ => keep_cell (w := w) map x y (nearStep g maxD2 i c x y) (fun o ho => ?_) a b⟩
          rw [hget, Option.some.injEq] at ho
          subst ho
          unfold nearStep
          rw [hc]
          simp only
          rw [if_neg h1, if_pos h2]
        · rename_i h2
          refine ⟨_, rfl, by rw [List.length_set]; exact hl, fun a b ha hb =>
            set_cell map hl hx hy _ (nearStep g maxD2 i c x y) (fun o ho => ?_) a b ha hb⟩
          rw [hget, Option.some.injEq] at ho
          subst ho
          unfold nearStep
          rw [hc]
          simp only
          rw [if_neg h1, if_neg h2]
  · simp only [getIndex_out hd hxy, Res.bind_ok]
    exact ⟨map, rfl, hl, fun a b ha hb => by
      rw [if_neg]; rintro ⟨rfl, rfl⟩; exact hxy ⟨ha, hb⟩⟩

/-- The three-slot variant. -/
def tripleStep (g : LatLonGrid) (maxD2 : Fl) (i : Nat) (coord : LatLon) (x y : Nat)
    (old : CoordDistTriple) : CoordDistTriple :=
  match cellCentre g x y with
  | none => old
  | some c =>
    let d := LatLon.calcEuclideanDistSquared coord c
    if Fl.gt d maxD2 then old else old.addCoordDist ⟨i, d⟩

theorem updateCell1_pointwise (g : LatLonGrid) (w h : Nat) (hd : g.dimensions = (w, h))
    (hs : w * h ≤ 2 ^ 64) (maxD2 : Fl) (i : Nat) (c : LatLon) :
    Pointwise w h (tripleStep g maxD2 i c) (UnstructuredGrid1.updateCell g maxD2 i c) := by
  intro map x y hl
  unfold UnstructuredGrid1.updateCell
  by_cases hxy : x < w ∧ y < h
  · obtain ⟨hx, hy⟩ := hxy
    have hlt : x + y * w < map.length := by rw [hl]; exact idx_lt hx hy
    simp only [getIndex_in hd hs hx hy, Res.bind_ok, Res.index_ok hlt]
    cases hc : cellCentre g x y with
    | none =>
      exact ⟨map, rfl, hl, fun a b _ _ => keep_cell (w := w) map x y (tripleStep g maxD2 i c x y)
        (fun o _ => by unfold tripleStep; rw [hc]) a b⟩
    | some p =>
      simp only
      by_cases h1 : Fl.gt (LatLon.calcEuclideanDistSquared c p) maxD2 = true
      · rw [if_pos h1]
        exact ⟨map, rfl, hl, fun a b _ _ => keep_cell (w := w) map x y (tripleStep g maxD2 i c x y)
          (fun o _ => by unfold tripleStep; rw [hc]; exact if_pos h1) a b⟩
      · rw [if_neg h1]
        have hget : map[x + y * w]? = some map[x + y * w] := List.getElem?_eq_getElem hlt
        refine ⟨_, rfl, by rw [List.length_set]; exact hl, fun a b ha hb =>
          set_cell map hl hx hy _ (tripleStep g maxD2 i c x y) (fun o ho => ?_) a b ha hb⟩
        rw [hget, Option.some.injEq] at ho
        subst ho
        unfold tripleStep
        rw [hc]
        simp only
        rw [if_neg h1]
  · simp only [getIndex_out hd hxy, Res.bind_ok]
    exact ⟨map, rfl, hl, fun a b ha hb => by
      rw [if_neg]; rintro ⟨rfl, rfl⟩; exact hxy ⟨ha, hb⟩⟩

/-- Distances between finite positions are never NaN. -/
theorem dist_ne_nan (a b c d : Rat) :
    LatLon.calcEuclideanDistSquared ⟨.fin a, .fin b⟩ ⟨.fin c, .fin d⟩ ≠ .nan := by
  have sq : ∀ v : Fl, v ≠ .nan → Fl.mul f32 v v = .pinf ∨ ∃ q, Fl.mul f32 v v = .fin q := by
    intro v hv
    cases v with
    | nan => exact absurd rfl hv
    | pinf => left; rfl
    | ninf => left; rfl
    | fin q =>
      rw [Fl.mul_fin]
      rcases rnd_cases f32 (q * q) with ⟨h, -⟩ | ⟨-, h⟩ | ⟨h, -⟩
      · left; exact h
      · exfalso
        have h1 := rndq_nonneg (F := f32) (q := q * q) (mul_self_nonneg q)
        have h2 := pow2_pos f32.emax
        linarith
      · right; exact ⟨_, h⟩
  unfold LatLon.calcEuclideanDistSquared
  simp only [Fl.sub_fin]
  rcases sq _ (rnd_ne_nan f32 (a - c)) with h | ⟨p, h⟩ <;>
    rcases sq _ (rnd_ne_nan f32 (b - d)) with h' | ⟨q, h'⟩ <;> rw [h, h']
  · simp [Fl.add]
  · simp [Fl.add]
  · simp [Fl.add]
  · rw [Fl.add_fin]; exact rnd_ne_nan _ _

end Verif
