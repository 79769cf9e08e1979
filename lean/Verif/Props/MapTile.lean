import Verif.Lemmas.MapTile
import Mathlib.Analysis.SpecialFunctions.Trigonometric.Arctan
import Mathlib.Analysis.SpecialFunctions.Arsinh
import Mathlib.Analysis.Real.Pi.Bounds
import Mathlib.Analysis.Complex.ExponentialBounds

/-!
# Properties C31, C32, C33, C75, C76, C77: map tiles
-/

namespace Verif.Props

open Verif Verif.MapTileCoord Verif.MapTileRenderer

/-! ## C31, C75, C76: tile columns -/

/-- C31: the upper left corner of every tile lies exactly on the western edge of its column
(360x/2^zoom - 180 degrees) and is mapped back to this column, for every zoom level up to 18. -/
theorem C31_round_trip (m : Libm) {x y z : Nat} (hz : z ≤ 18) (hx : x < 2 ^ z) :
    ∃ p t, toPosition m ⟨x, y, z⟩ = .ok p ∧ p.lon = .fin (360 * x / 2 ^ z - 180) ∧
      fromPosition m p z = .ok t ∧ t.x = x ∧ t.zoom = z := by
  have e : toPosition m ⟨x, y, z⟩ = .ok ⟨latitude m y (.fin (2 ^ z)), .fin (west x z)⟩ := by
    unfold toPosition
    rw [zoomPow_eq (show z ≤ 31 by omega)]
    show Res.ok _ = _
    rw [longitude_eq hz hx.le]
  refine ⟨_, ⟨x, row m (latitude m y (.fin (2 ^ z))) (.fin (2 ^ z)), z⟩, e, rfl, ?_, rfl, rfl⟩
  unfold fromPosition
  rw [zoomPow_eq (by omega)]
  show Res.ok _ = _
  rw [column_west hz hx.le]

/-- C31: moving east never decreases the tile column; from zoom level 32 on addressing panics. -/
theorem C31_monotone (m : Libm) {p q : LatLon} (h : Fl.le p.lon q.lon = true) (z : Nat) :
    (z ≤ 31 → ∃ s t, fromPosition m p z = .ok s ∧ fromPosition m q z = .ok t ∧ s.x ≤ t.x) ∧
    (32 ≤ z → fromPosition m p z = .panic) := by
  refine ⟨?_, ?_⟩
  · intro hz
    unfold fromPosition
    rw [zoomPow_eq hz]
    exact ⟨_, _, rfl, rfl, column_mono (by positivity) h⟩
  · intro hz
    unfold fromPosition
    rw [zoomPow_panic hz]
    rfl

example : (3 : Nat) ≤ 18 ∧ 5 < 2 ^ 3 ∧ (360 * (5 : Nat) / 2 ^ 3 - 180 : Rat) = 45 := by norm_num

/-- C75 (a position between the western edges of columns x and x+1 belongs to column x) is false: the
sum of longitude and 180 is rounded up to the edge.  For example -2^-40 degrees, west of Greenwich, is put
in column 1 of zoom level 1, and the largest binary32 longitude below 180 degrees is put in column 1 of
zoom level 0, which does not exist. -/
theorem C75_counterexample :
    (IsFl f32 (.fin (-1 / 2 ^ 40)) ∧ (-1 / 2 ^ 40 : Rat) < 360 * 1 / 2 ^ 1 - 180 ∧
      column (.fin (-1 / 2 ^ 40)) (.fin (2 ^ 1)) = 1) ∧
    (IsFl f32 (.fin (180 - 1 / 2 ^ 16)) ∧ column (.fin (180 - 1 / 2 ^ 16)) (.fin (2 ^ 0)) = 1) := by
  refine ⟨⟨⟨⟨-1, -40, by rw [pow2_eq]; norm_num, by decide, by decide⟩, ?_⟩, by norm_num, by decide +kernel⟩,
    ⟨⟨180 * 2 ^ 16 - 1, -16, by rw [pow2_eq]; norm_num, by decide, by decide⟩, ?_⟩, by decide +kernel⟩
  · rw [show f32.emax = 128 from rfl, pow2_eq, abs_of_neg (by norm_num)]; norm_num
  · rw [show f32.emax = 128 from rfl, pow2_eq, abs_of_pos (by norm_num)]; norm_num

/-- C75: a position between the western edges of columns x and x+1 belongs to column x or to the column
x+1 east of it.  Missing for the full statement: that it is always x, which is false
(`C75_counterexample`). -/
theorem C75_column_partial (m : Libm) {lat : Fl} {lon : Rat} {x z : Nat} (hz : z ≤ 18) (hx : x < 2 ^ z)
    (h1 : (360 * x / 2 ^ z - 180 : Rat) ≤ lon) (h2 : lon < 360 * (x + 1) / 2 ^ z - 180) :
    ∃ t, fromPosition m ⟨lat, .fin lon⟩ z = .ok t ∧ (t.x = x ∨ t.x = x + 1) := by
  unfold fromPosition
  rw [zoomPow_eq (by omega)]
  refine ⟨_, rfl, ?_⟩
  simp only
  have a : column (.fin (west x z)) (.fin (2 ^ z)) ≤ column (.fin lon) (.fin (2 ^ z)) :=
    column_mono (by positivity) (by rw [Fl.le_fin]; exact h1)
  have b : column (.fin lon) (.fin (2 ^ z)) ≤ column (.fin (west (x + 1) z)) (.fin (2 ^ z)) :=
    column_mono (by positivity) (by
      rw [Fl.le_fin]; unfold west; push_cast; exact h2.le)
  rw [column_west hz hx.le] at a
  rw [column_west hz (by omega)] at b
  omega

example : (360 * (5 : Nat) / 2 ^ 3 - 180 : Rat) ≤ 50 ∧ (50 : Rat) < 360 * ((5 : Nat) + 1) / 2 ^ 3 - 180 := by norm_num

/-- C76 (only existing tiles are produced: columns below 2^zoom) is false: an area that reaches to 180
degrees east gets a tile column 2^zoom, at every zoom level up to 18, in every run that ends normally. -/
theorem C76_counterexample {T : Type} (m : Libm) (e : LatLonExtent) (he : e.maxCoord.lon = .fin 180)
    {z : Nat} (hz : z ≤ 18) (valueFn : LatLon → Res (Option T)) (colorFn : T → Color) (trace : List Saved)
    (h : runAllTiles m e (z, z) valueFn colorFn trace .done) : ∃ s ∈ trace, s.tile.x = 2 ^ z ∧ s.tile.zoom = z := by
  have hp := (does_all m e (z, z) valueFn colorFn).done trace h
  have hcol : column (.fin 180) (.fin (2 ^ z)) = 2 ^ z := by
    have := column_west hz (le_refl (2 ^ z))
    have e1 : west (2 ^ z) z = 180 := by
      unfold west; push_cast
      rw [mul_div_assoc, div_self (by positivity)]; norm_num
    rwa [e1] at this
  -- the range of the zoom level
  have hr : ∃ a b c, tileRange m e z = .ok ((a, b), c) ∧ a ≤ b ∧ b ≥ 2 ^ z ∧ a ≤ 2 ^ z ∧ c.1 ≤ c.2 := by
    unfold tileRange fromPosition
    rw [zoomPow_eq (by omega)]
    refine ⟨_, _, _, rfl, ?_⟩
    simp only [he, hcol]
    omega
  obtain ⟨a, b, c, hr, hab, hb, ha, hc⟩ := hr
  have hm : (⟨2 ^ z, c.1, z⟩ : MapTileCoord) ∈ allTiles m e (z, z) := by
    rw [mem_allTiles]
    exact ⟨le_refl _, le_refl _, (a, b), c, hr, ha, hb, le_refl _, hc⟩
  have := hp.mem_iff.mpr hm
  rw [List.mem_map] at this
  obtain ⟨s, hs, hst⟩ := this
  exact ⟨s, hs, by rw [hst], by rw [hst]⟩

/-- The extents of the code that reach to 180 degrees east. -/
example : LatLonExtent.maxExtent.maxCoord.lon = .fin 180 ∧ LatLonExtent.mercatorExtent.maxCoord.lon = .fin 180 :=
  ⟨rfl, rfl⟩

/-! ## C32: all tiles, any schedule -/

/-- The tiles an extent needs at the given zoom levels: those between the tiles of its corners. -/
def Needed (m : Libm) (e : LatLonExtent) (zooms : Nat × Nat) (t : MapTileCoord) : Prop :=
  zooms.1 ≤ t.zoom ∧ t.zoom ≤ zooms.2 ∧ ∃ a b,
    fromPosition m e.minCoord t.zoom = .ok a ∧ fromPosition m e.maxCoord t.zoom = .ok b ∧
    min a.x b.x ≤ t.x ∧ t.x ≤ max a.x b.x ∧ min a.y b.y ≤ t.y ∧ t.y ≤ max a.y b.y

theorem mem_allTiles_iff (m : Libm) (e : LatLonExtent) (zooms : Nat × Nat) (t : MapTileCoord) :
    t ∈ allTiles m e zooms ↔ Needed m e zooms t := by
  rw [mem_allTiles]
  unfold Needed tileRange fromPosition
  rcases Nat.lt_or_ge 31 t.zoom with hz | hz
  · rw [zoomPow_panic (by omega)]
    constructor
    · rintro ⟨_, _, _, _, h, _⟩; cases h
    · rintro ⟨_, _, _, _, h, _⟩; cases h
  · rw [zoomPow_eq hz]
    constructor
    · rintro ⟨h1, h2, xs, ys, h, h3, h4, h5, h6⟩
      cases h
      refine ⟨h1, h2, _, _, rfl, rfl, ?_⟩
      simp only at h3 h4 h5 h6 ⊢
      omega
    · rintro ⟨h1, h2, a, b, ha, hb, h3, h4, h5, h6⟩
      cases ha
      cases hb
      refine ⟨h1, h2, _, _, rfl, ?_⟩
      simp only at h3 h4 h5 h6 ⊢
      omega

/-- C32: whatever the schedule, a run that ends normally saves every needed tile exactly once and nothing
else, each with the picture of this tile. -/
theorem C32_exactly_once {T : Type} (m : Libm) (e : LatLonExtent) (zooms : Nat × Nat)
    (valueFn : LatLon → Res (Option T)) (colorFn : T → Color) (trace : List Saved)
    (h : runAllTiles m e zooms valueFn colorFn trace .done) :
    (trace.map Saved.tile).Nodup ∧ (∀ t, t ∈ trace.map Saved.tile ↔ Needed m e zooms t) ∧
      ∀ s ∈ trace, createSingleTile m valueFn s.tile colorFn = .ok s.picture := by
  have hd := does_all m e zooms valueFn colorFn
  have hp := hd.done trace h
  refine ⟨hp.nodup_iff.mpr (nodup_allTiles m e zooms), ?_, ?_⟩
  · intro t
    rw [hp.mem_iff, mem_allTiles_iff]
  · intro s hs
    have := hd.picture trace _ h s hs
    cases hc : createSingleTile m valueFn s.tile colorFn with
    | ok d => rw [hc] at this; exact this
    | err => rw [hc] at this; cases this
    | panic => rw [hc] at this; cases this

/-- C32: also in a run that panics no tile is saved twice, none outside the area is saved, and those that
are saved have their own picture. -/
theorem C32_no_wrong_tile {T : Type} (m : Libm) (e : LatLonExtent) (zooms : Nat × Nat)
    (valueFn : LatLon → Res (Option T)) (colorFn : T → Color) (trace : List Saved) (o : Outcome)
    (h : runAllTiles m e zooms valueFn colorFn trace o) :
    (trace.map Saved.tile).Nodup ∧ (∀ t ∈ trace.map Saved.tile, Needed m e zooms t) ∧
      ∀ s ∈ trace, createSingleTile m valueFn s.tile colorFn = .ok s.picture := by
  have hd := does_all m e zooms valueFn colorFn
  have hp := hd.sub trace o h
  refine ⟨?_, ?_, ?_⟩
  · obtain ⟨l, h1, h2⟩ := hp
    exact h1.nodup_iff.mp ((nodup_allTiles m e zooms).sublist h2)
  · intro t ht
    exact (mem_allTiles_iff m e zooms t).mp (hp.subset ht)
  · intro s hs
    have := hd.picture trace _ h s hs
    cases hc : createSingleTile m valueFn s.tile colorFn with
    | ok d => rw [hc] at this; exact this
    | err => rw [hc] at this; cases this
    | panic => rw [hc] at this; cases this

/-- C32: tiles have pairwise different files. -/
theorem C32_paths (out : Text) (s t : MapTileCoord) (h : tilePath out s = tilePath out t) : s = t := tilePath_inj h

/-- C32: the files after two runs that end normally are the same, whatever their schedules. -/
theorem C32_files {T : Type} (m : Libm) (e : LatLonExtent) (zooms : Nat × Nat)
    (valueFn : LatLon → Res (Option T)) (colorFn : T → Color) (trace trace' : List Saved)
    (h : runAllTiles m e zooms valueFn colorFn trace .done)
    (h' : runAllTiles m e zooms valueFn colorFn trace' .done) (out : Text) (fs : Files) :
    writeTiles out fs trace = writeTiles out fs trace' := by
  obtain ⟨n1, i1, p1⟩ := C32_exactly_once m e zooms valueFn colorFn trace h
  obtain ⟨n2, i2, p2⟩ := C32_exactly_once m e zooms valueFn colorFn trace' h'
  funext p
  obtain ⟨a1, b1⟩ := writeTiles_eq out fs trace n1 p
  obtain ⟨a2, b2⟩ := writeTiles_eq out fs trace' n2 p
  by_cases hp : ∃ s ∈ trace, p = tilePath out s.tile
  · obtain ⟨s, hs, hp⟩ := hp
    rw [a1 s hs hp]
    have : s.tile ∈ trace'.map Saved.tile := (i2 _).mpr ((i1 _).mp (List.mem_map_of_mem hs))
    rw [List.mem_map] at this
    obtain ⟨s', hs', e'⟩ := this
    rw [a2 s' hs' (by rw [e']; exact hp)]
    have q1 := p1 s hs
    have q2 := p2 s' hs'
    rw [e', q1] at q2
    simp only [Res.ok.injEq] at q2
    rw [q2]
  · have hp2 : ∀ s ∈ trace, p ≠ tilePath out s.tile := fun s hs he => hp ⟨s, hs, he⟩
    rw [b1 hp2, b2]
    intro s hs he
    have : s.tile ∈ trace.map Saved.tile := (i1 _).mpr ((i2 _).mp (List.mem_map_of_mem hs))
    rw [List.mem_map] at this
    obtain ⟨s', hs', e'⟩ := this
    exact hp2 s' hs' (by rw [e']; exact he)

theorem seq_exists {α : Type} (items : List α) (run : α → List Saved → Outcome → Prop)
    (h : ∀ a ∈ items, ∃ tr, run a tr .done) : ∃ tr, Seq (items.map run) tr .done := by
  induction items with
  | nil => exact ⟨[], .nil⟩
  | cons a items ih =>
    obtain ⟨t1, h1⟩ := h a (by simp)
    obtain ⟨t2, h2⟩ := ih (fun b hb => h b (by simp [hb]))
    exact ⟨t1 ++ t2, .cons h1 h2⟩

/-- C32: there is a run that ends normally if all needed tiles can be rendered (zoom levels up to 31). -/
theorem C32_exists {T : Type} (m : Libm) (e : LatLonExtent) (zooms : Nat × Nat) (hz : zooms.2 ≤ 31)
    (valueFn : LatLon → Res (Option T)) (colorFn : T → Color)
    (h : ∀ t, Needed m e zooms t → ∃ d, createSingleTile m valueFn t colorFn = .ok d) :
    ∃ trace, runAllTiles m e zooms valueFn colorFn trace .done := by
  apply seq_exists
  intro z hzm
  rw [mem_rangeIncl] at hzm
  have hr : ∃ xs ys, tileRange m e z = .ok (xs, ys) := by
    unfold tileRange fromPosition
    rw [zoomPow_eq (by omega)]
    exact ⟨_, _, rfl⟩
  obtain ⟨xs, ys, hr⟩ := hr
  have hrun : runZoom m e valueFn colorFn z =
      Seq ((rangeIncl xs.1 xs.2).map (runColumn m valueFn colorFn z ys)) := by
    funext tr o
    unfold runZoom
    rw [hr]
  rw [hrun]
  apply seq_exists
  intro x hx
  rw [mem_rangeIncl] at hx
  have hall : ∀ t ∈ (rangeIncl ys.1 ys.2).map (fun y => (⟨x, y, z⟩ : MapTileCoord)),
      ∃ d, unwrapRes (createSingleTile m valueFn t colorFn) = .ok d := by
    intro t ht
    rw [List.mem_map] at ht
    obtain ⟨y, hy, rfl⟩ := ht
    rw [mem_rangeIncl] at hy
    obtain ⟨d, hd⟩ := h ⟨x, y, z⟩ (by
      rw [← mem_allTiles_iff, mem_allTiles]
      exact ⟨hzm.1, hzm.2, xs, ys, hr, hx.1, hx.2, hy.1, hy.2⟩)
    exact ⟨d, by rw [hd]; rfl⟩
  generalize hj : (rangeIncl ys.1 ys.2).map (fun y => (⟨x, y, z⟩ : MapTileCoord)) = jobs at hall
  have : ∃ trace, List.Forall₂ (fun t (s : Saved) => s.tile = t ∧
      unwrapRes (createSingleTile m valueFn t colorFn) = .ok s.picture) jobs trace := by
    clear hj
    induction jobs with
    | nil => exact ⟨[], .nil⟩
    | cons t jobs ih =>
      obtain ⟨d, hd⟩ := hall t (by simp)
      obtain ⟨tr, ht⟩ := ih (fun u hu => hall u (by simp [hu]))
      exact ⟨⟨t, d⟩ :: tr, .cons ⟨rfl, hd⟩ ht⟩
  obtain ⟨trace, ht⟩ := this
  refine ⟨trace, ?_⟩
  unfold runColumn
  rw [hj]
  exact .done jobs trace (List.Perm.refl _) ht

/-! ## C33: the pixels of a tile -/

/-- The loops over the pixels of a tile, for any tile size. -/
theorem tile_fold {T : Type} (n : Nat) (hn : 0 < n) (hb : 4 * (n * n) < 2 ^ 32)
    (valueFn : LatLon → Res (Option T)) (v : LatLon → Option T) (hv : ∀ p, valueFn p = .ok (v p))
    (colorFn : T → Color) (start stop : LatLon) :
    ∃ d0 d, Drawable.createEmpty n n = .ok d0 ∧
      Res.foldl (fun d i => Res.foldl (tileCell valueFn colorFn start stop i) d (List.range n)) d0 (List.range n)
        = .ok d ∧ d.WF ∧ d.width = n ∧ d.height = n ∧
      ∀ i j, i < n → j < n → d.pixel j i = some (match v (LatLon.new (pixelPos start.lat stop.lat i)
          (pixelPos start.lon stop.lon j)) with
        | some a => colorFn a
        | none => Color.transparent) := by
  obtain ⟨d0, f0, w0, hw0, hh0, t0⟩ := Drawable.createEmpty_spec hn hn hb
  obtain ⟨d1, k1, k2, k3, k4, k5, k6⟩ := Drawable.foldl_draw
    (fun d (p : Nat × Nat) => tileCell valueFn colorFn start stop p.1 d p.2)
    (fun p => (p.2, p.1)) (fun p => (v (LatLon.new (pixelPos start.lat stop.lat p.1)
      (pixelPos start.lon stop.lon p.2))).map colorFn) (pairs n n) d0 w0 (by
      intro p hp
      obtain ⟨h1, h2⟩ := mem_pairs.mp hp
      rw [hw0, hh0]
      exact ⟨h2, h1⟩) (by
      intro d' p hp _ _ _
      simp only
      unfold tileCell
      rw [hv]
      simp only [Res.bind_ok]
      cases v (LatLon.new (pixelPos start.lat stop.lat p.1) (pixelPos start.lon stop.lon p.2)) <;> rfl) (by
      refine List.Nodup.map_on ?_ (nodup_pairs n n)
      intro p _ q _ e
      simp only [Prod.mk.injEq] at e
      exact Prod.ext e.2 e.1)
  refine ⟨d0, d1, f0, ?_, k2, k3.trans hw0, k4.trans hh0, ?_⟩
  · have en : (fun (d : Drawable) (i : Nat) => Res.foldl (tileCell valueFn colorFn start stop i) d (List.range n))
        = fun d i => Res.foldl (fun d j => tileCell valueFn colorFn start stop i d j) d (List.range n) := rfl
    rw [en, Res.foldl_nested (fun d i j => tileCell valueFn colorFn start stop i d j) (fun _ => List.range n)]
    exact k1
  · intro i j hi hj
    have := k5 (i, j) (mem_pairs.mpr ⟨hi, hj⟩)
    simp only at this
    rw [this]
    generalize v (LatLon.new _ _) = o
    cases o with
    | some a => rfl
    | none => exact t0 _ _ hj hi

/-- C33: the tile shows at pixel (j,i) the value at latitude `start + i*inc` and longitude
`start + j*inc`, transparent where there is none. -/
theorem C33_tile {T : Type} (m : Libm) (t : MapTileCoord) (hz : t.zoom ≤ 31) (hx : t.x + 1 < 2 ^ 32)
    (hy : t.y + 1 < 2 ^ 32) (valueFn : LatLon → Res (Option T)) (v : LatLon → Option T)
    (hv : ∀ p, valueFn p = .ok (v p)) (colorFn : T → Color) :
    ∃ start stop d, toPosition m t = .ok start ∧ toPosition m ⟨t.x + 1, t.y + 1, t.zoom⟩ = .ok stop ∧
      createSingleTile m valueFn t colorFn = .ok d ∧ d.WF ∧ d.width = 256 ∧ d.height = 256 ∧
      ∀ i j, i < 256 → j < 256 → d.pixel j i = some (match v (LatLon.new
          (Fl.add f32 start.lat (Fl.mul f32 (Fl.ofNat f32 i) (Fl.div f32 (Fl.sub f32 stop.lat start.lat) (.fin 256))))
          (Fl.add f32 start.lon (Fl.mul f32 (Fl.ofNat f32 j) (Fl.div f32 (Fl.sub f32 stop.lon start.lon) (.fin 256))))) with
        | some a => colorFn a
        | none => Color.transparent) := by
  have h256 : Fl.ofNat f32 tileSizePx = .fin 256 := by
    have := rnd32_nat (n := 256) (by norm_num)
    exact_mod_cast this
  have e1 : ∃ start, toPosition m t = .ok start := by
    unfold toPosition; rw [zoomPow_eq hz]; exact ⟨_, rfl⟩
  have e2 : ∃ stop, toPosition m ⟨t.x + 1, t.y + 1, t.zoom⟩ = .ok stop := by
    unfold toPosition; rw [zoomPow_eq hz]; exact ⟨_, rfl⟩
  obtain ⟨start, e1⟩ := e1
  obtain ⟨stop, e2⟩ := e2
  have c1 : ckU32 (t.x + 1) = .ok (t.x + 1) := by unfold ckU32; exact if_pos hx
  have c2 : ckU32 (t.y + 1) = .ok (t.y + 1) := by unfold ckU32; exact if_pos hy
  obtain ⟨d0, d1, f0, k1, k2, k3, k4, k5⟩ := tile_fold tileSizePx (by norm_num [tileSizePx])
    (by norm_num [tileSizePx]) valueFn v hv colorFn
    start stop
  refine ⟨start, stop, d1, e1, e2, ?_, k2, k3, k4, ?_⟩
  · unfold createSingleTile
    clear k2 k3 k4 k5 h256
    generalize tileSizePx = n at *
    rw [f0]
    show Res.bind (toPosition m t) _ = _
    rw [e1]
    show Res.bind (ckU32 (t.x + 1)) _ = _
    rw [c1]
    show Res.bind (ckU32 (t.y + 1)) _ = _
    rw [c2]
    show Res.bind (toPosition m _) _ = _
    rw [e2]
    exact k1
  · intro i j hi hj
    rw [k5 i j hi hj]
    unfold pixelPos
    rw [h256]

/-- C33: up to zoom level 10 the longitude of pixel column j of tile column x is exactly
360(256x+j)/(256*2^zoom) - 180 degrees, the Web Mercator longitude of the left edge of the pixel. -/
theorem C33_longitude (m : Libm) {x y z j : Nat} (hz : z ≤ 10) (hx : x < 2 ^ z) (hj : j < 256) :
    ∃ start stop, toPosition m ⟨x, y, z⟩ = .ok start ∧ toPosition m ⟨x + 1, y + 1, z⟩ = .ok stop ∧
      (LatLon.new (.fin 0) (Fl.add f32 start.lon (Fl.mul f32 (Fl.ofNat f32 j)
        (Fl.div f32 (Fl.sub f32 stop.lon start.lon) (.fin 256))))).lon
        = .fin (360 * (256 * x + j) / (256 * 2 ^ z) - 180) := by
  have h256 : Fl.ofNat f32 tileSizePx = .fin 256 := by
    have := rnd32_nat (n := 256) (by norm_num)
    exact_mod_cast this
  have e1 : ∀ x y, x ≤ 2 ^ z → toPosition m ⟨x, y, z⟩ = .ok ⟨latitude m y (.fin (2 ^ z)), .fin (west x z)⟩ := by
    intro x y hx
    unfold toPosition
    rw [zoomPow_eq (show z ≤ 31 by omega)]
    show Res.ok _ = _
    rw [longitude_eq (by omega) hx]
  refine ⟨_, _, e1 x y hx.le, e1 (x + 1) (y + 1) hx, ?_⟩
  have hp := pixelPos_lon hz hx hj
  unfold pixelPos at hp
  rw [h256] at hp
  simp only [hp, LatLon.new, LatLon.normalise]
  have pz : (0 : Rat) < 2 ^ z := by positivity
  have l1 : (-180 : Rat) ≤ 360 * (256 * x + j) / (256 * 2 ^ z) - 180 := by
    have : (0 : Rat) ≤ 360 * (256 * x + j) / (256 * 2 ^ z) := by positivity
    linarith
  have l2 : (360 * (256 * x + j) / (256 * 2 ^ z) - 180 : Rat) < 180 := by
    have h1 : (x : Rat) + 1 ≤ 2 ^ z := by exact_mod_cast hx
    have h2 : (j : Rat) < 256 := by exact_mod_cast hj
    have : (360 * (256 * x + j) / (256 * 2 ^ z) : Rat) < 360 := by
      rw [div_lt_iff₀ (by positivity)]
      nlinarith
    linarith
  have n1 : Fl.ge (.fin (360 * (256 * x + j) / (256 * 2 ^ z) - 180 : Rat)) (.fin 360) = false := by
    simp only [Fl.ge, Fl.le, decide_eq_false_iff_not, not_le]; linarith
  have n2 : Fl.lt (.fin (360 * (256 * x + j) / (256 * 2 ^ z) - 180 : Rat)) (.fin (-180)) = false := by
    simp only [Fl.lt, decide_eq_false_iff_not, not_lt]; exact l1
  have n3 : Fl.ge (.fin (360 * (256 * x + j) / (256 * 2 ^ z) - 180 : Rat)) (.fin 180) = false := by
    simp only [Fl.ge, Fl.le, decide_eq_false_iff_not, not_le]; exact l2
  rw [n1, n2]
  simp only [Bool.or_self, Bool.false_eq_true, if_false]
  rw [n3]
  simp

example : (3 : Nat) ≤ 10 ∧ 5 < 2 ^ 3 ∧ (360 * (256 * (5 : Nat) + (128 : Nat)) / (256 * 2 ^ 3) - 180 : Rat) = 135 / 2 := by
  norm_num

end Verif.Props
