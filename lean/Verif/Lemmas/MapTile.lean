import Verif.Model.MapTile
import Verif.Lemmas.FloatErr
import Verif.Lemmas.Imaging
import Verif.Lemmas.Text
import Mathlib.Data.List.Perm.Basic

/-!
# Lemmas about map tiles
-/

namespace Verif

/-- Small multiples of powers of two are exact. -/
theorem rnd32_pow2 {m e : Int} (h : |m| ≤ 2 ^ 24) (he : -149 ≤ e) (he' : e ≤ 100) :
    rnd f32 ((m : Rat) * pow2 e) = .fin ((m : Rat) * pow2 e) := by
  apply rnd_exact prec32 (rep_mul_pow2 (F := f32) h he)
  have h1 : |(m : Rat)| ≤ 2 ^ 24 := by rw [← Int.cast_abs]; exact_mod_cast h
  rw [abs_mul, abs_of_pos (pow2_pos e)]
  have h2 : pow2 e ≤ 2 ^ 100 := by
    have := pow2_mono he'
    rwa [show pow2 100 = 2 ^ 100 by rw [pow2_eq]; norm_num] at this
  calc |(m : Rat)| * pow2 e ≤ 2 ^ 24 * 2 ^ 100 := mul_le_mul h1 h2 (pow2_pos e).le (by norm_num)
    _ < pow2 f32.emax := by rw [show f32.emax = 128 from rfl, pow2_eq]; norm_num

theorem rnd32_pow2' {q : Rat} (m e : Int) (hq : q = (m : Rat) * pow2 e) (h : |m| ≤ 2 ^ 24) (he : -149 ≤ e)
    (he' : e ≤ 100) : rnd f32 q = .fin q := by
  rw [hq]; exact rnd32_pow2 h he he'

theorem pow2_sub_nat (k : Int) (z : Nat) : pow2 (k - z) = pow2 k / 2 ^ z := by
  rw [pow2_sub, pow2_nat]

theorem zoomPow_eq {z : Nat} (h : z ≤ 31) : zoomPow z = .ok (.fin (2 ^ z)) := by
  have h1 : (2 : Nat) ^ z < 2 ^ 32 := Nat.pow_lt_pow_right (by norm_num) (by omega)
  unfold zoomPow ckU32
  rw [if_pos h1]
  show Res.ok _ = _
  congr 1
  unfold Fl.ofNat
  push_cast
  apply rnd32_pow2' 1 z
  · rw [pow2_nat]; push_cast; ring
  · norm_num
  · omega
  · omega

theorem zoomPow_panic {z : Nat} (h : 32 ≤ z) : zoomPow z = .panic := by
  have h1 : (2 : Nat) ^ 32 ≤ 2 ^ z := Nat.pow_le_pow_right (by norm_num) h
  unfold zoomPow ckU32
  rw [if_neg (by omega)]
  rfl

namespace MapTileCoord

/-- The western edge of a tile column, exactly. -/
def west (x z : Nat) : Rat := 360 * x / 2 ^ z - 180

theorem longitude_eq {x z : Nat} (hz : z ≤ 18) (hx : x ≤ 2 ^ z) : longitude x (.fin (2 ^ z)) = .fin (west x z) := by
  have hz2 : (2 : Nat) ^ z ≤ 2 ^ 18 := Nat.pow_le_pow_right (by norm_num) hz
  have hp : (0 : Rat) < 2 ^ z := by positivity
  have e0 : Fl.ofNat f32 x = .fin x := rnd32_nat (by omega)
  have e1 : rnd f32 ((x : Rat) / 2 ^ z) = .fin ((x : Rat) / 2 ^ z) := by
    apply rnd32_pow2' x (0 - z)
    · rw [pow2_sub_nat, pow2_zero]; push_cast; ring
    · rw [Nat.abs_cast]; push_cast; exact_mod_cast by omega
    · omega
    · omega
  have e2 : rnd f32 ((x : Rat) / 2 ^ z * 360) = .fin ((x : Rat) / 2 ^ z * 360) := by
    apply rnd32_pow2' (45 * x : Int) (3 - z)
    · rw [pow2_sub_nat, show pow2 3 = 8 by rw [pow2_eq]; norm_num]; push_cast; ring
    · rw [abs_of_nonneg (by positivity)]; omega
    · omega
    · omega
  have e3 : rnd f32 ((x : Rat) / 2 ^ z * 360 + -180) = .fin (west x z) := by
    have hw : (x : Rat) / 2 ^ z * 360 + -180 = west x z := by unfold west; ring
    rw [hw]
    apply rnd32_pow2' (45 * (2 * x - 2 ^ z) : Int) (2 - z)
    · rw [pow2_sub_nat, show pow2 2 = 4 by rw [pow2_eq]; norm_num]; push_cast; unfold west; field_simp; ring
    · rw [abs_le]
      have : ((2 ^ z : Nat) : Int) = 2 ^ z := by push_cast; ring
      have h1 : (x : Int) ≤ 2 ^ z := by rw [← this]; exact_mod_cast hx
      have h2 : (2 : Int) ^ z ≤ 262144 := by rw [← this]; exact_mod_cast hz2
      constructor <;> omega
    · omega
    · omega
  unfold longitude
  rw [e0, Fl.div_fin f32 _ hp.ne', e1]
  show Fl.sub f32 (rnd f32 _) _ = _
  rw [e2]
  exact e3

theorem column_west {x z : Nat} (hz : z ≤ 18) (hx : x ≤ 2 ^ z) :
    column (.fin (west x z)) (.fin (2 ^ z)) = x := by
  have hz2 : (2 : Nat) ^ z ≤ 2 ^ 18 := Nat.pow_le_pow_right (by norm_num) hz
  have hp : (0 : Rat) < 2 ^ z := by positivity
  have e1 : rnd f32 (west x z + 180) = .fin ((x : Rat) / 2 ^ z * 360) := by
    have : west x z + 180 = (x : Rat) / 2 ^ z * 360 := by unfold west; ring
    rw [this]
    apply rnd32_pow2' (45 * x : Int) (3 - z)
    · rw [pow2_sub_nat, show pow2 3 = 8 by rw [pow2_eq]; norm_num]; push_cast; ring
    · rw [abs_of_nonneg (by positivity)]; omega
    · omega
    · omega
  have e2 : rnd f32 ((x : Rat) / 2 ^ z * 360 / 360) = .fin ((x : Rat) / 2 ^ z) := by
    rw [mul_div_cancel_right₀ _ (by norm_num : (360 : Rat) ≠ 0)]
    apply rnd32_pow2' x (0 - z)
    · rw [pow2_sub_nat, pow2_zero]; push_cast; ring
    · rw [Nat.abs_cast]; push_cast; exact_mod_cast by omega
    · omega
    · omega
  have e3 : rnd f32 ((x : Rat) / 2 ^ z * 2 ^ z) = .fin (x : Rat) := by
    rw [div_mul_cancel₀ _ hp.ne']
    exact rnd32_nat (by omega)
  unfold column
  show Fl.toU32 (Fl.floor (Fl.mul f32 (Fl.div f32 (rnd f32 _) _) _)) = _
  rw [e1, Fl.div_fin f32 _ (by norm_num), e2]
  show Fl.toU32 (Fl.floor (rnd f32 _)) = _
  rw [e3]
  simp only [Fl.floor, Int.floor_natCast]
  exact Fl.toUInt_nat (by omega)

theorem column_mono {a b : Fl} {p : Rat} (hp : 0 < p) (h : Fl.le a b = true) :
    column a (.fin p) ≤ column b (.fin p) := by
  unfold column
  exact Fl.toUInt_mono (Fl.floor_mono (Fl.le_mul_right prec32 hp (Fl.le_div_right prec32 (by norm_num)
    (Fl.le_add_right prec32 h))))

end MapTileCoord

namespace MapTileRenderer

open MapTileCoord

/-- The longitudes of the pixels of a tile are exact. -/
theorem pixelPos_lon {x z j : Nat} (hz : z ≤ 10) (hx : x < 2 ^ z) (hj : j < 256) :
    pixelPos (.fin (west x z)) (.fin (west (x + 1) z)) j = .fin (360 * (256 * x + j) / (256 * 2 ^ z) - 180) := by
  have hz2 : (2 : Nat) ^ z ≤ 2 ^ 10 := Nat.pow_le_pow_right (by norm_num) hz
  have hp : (0 : Rat) < 2 ^ z := by positivity
  have e0 : Fl.ofNat f32 j = .fin j := rnd32_nat (by omega)
  have e0' : Fl.ofNat f32 tileSizePx = .fin 256 := by
    have := rnd32_nat (n := 256) (by norm_num)
    exact_mod_cast this
  have e1 : rnd f32 (west (x + 1) z + -west x z) = .fin (360 / 2 ^ z) := by
    have : west (x + 1) z + -west x z = 360 / 2 ^ z := by unfold west; push_cast; ring
    rw [this]
    apply rnd32_pow2' 45 (3 - z)
    · rw [pow2_sub_nat, show pow2 3 = 8 by rw [pow2_eq]; norm_num]; push_cast; ring
    · norm_num
    · omega
    · omega
  have e2 : rnd f32 (360 / 2 ^ z / 256) = .fin (360 / 2 ^ z / 256) := by
    apply rnd32_pow2' 45 (-5 - z)
    · rw [pow2_sub_nat, show pow2 (-5) = 1 / 32 by rw [pow2_eq]; norm_num]; push_cast; ring
    · norm_num
    · omega
    · omega
  have e3 : rnd f32 ((j : Rat) * (360 / 2 ^ z / 256)) = .fin ((j : Rat) * (360 / 2 ^ z / 256)) := by
    apply rnd32_pow2' (45 * j : Int) (-5 - z)
    · rw [pow2_sub_nat, show pow2 (-5) = 1 / 32 by rw [pow2_eq]; norm_num]; push_cast; ring
    · rw [abs_of_nonneg (by positivity)]; omega
    · omega
    · omega
  have e4 : rnd f32 (west x z + (j : Rat) * (360 / 2 ^ z / 256)) =
      .fin (360 * (256 * x + j) / (256 * 2 ^ z) - 180) := by
    have hw : west x z + (j : Rat) * (360 / 2 ^ z / 256) = 360 * (256 * x + j) / (256 * 2 ^ z) - 180 := by
      unfold west; field_simp; ring
    rw [hw]
    apply rnd32_pow2' (45 * (2 * (256 * x + j) - 256 * 2 ^ z) : Int) (-6 - z)
    · rw [pow2_sub_nat, show pow2 (-6) = 1 / 64 by rw [pow2_eq]; norm_num]; push_cast; field_simp; ring
    · rw [abs_le]
      have : ((2 ^ z : Nat) : Int) = 2 ^ z := by push_cast; ring
      have h1 : (x : Int) + 1 ≤ 2 ^ z := by rw [← this]; exact_mod_cast hx
      have h2 : (2 : Int) ^ z ≤ 1024 := by rw [← this]; exact_mod_cast hz2
      constructor <;> omega
    · omega
    · omega
  unfold pixelPos
  rw [e0, e0']
  show Fl.add f32 _ (Fl.mul f32 _ (Fl.div f32 (rnd f32 _) _)) = _
  rw [e1, Fl.div_fin f32 _ (by norm_num), e2]
  show Fl.add f32 _ (rnd f32 _) = _
  rw [e3]
  exact e4

/-! ## schedules -/

theorem forall2_tiles {work : MapTileCoord → Res Drawable} {order : List MapTileCoord} {trace : List Saved}
    (h : List.Forall₂ (fun t s => s.tile = t ∧ work t = .ok s.picture) order trace) :
    trace.map Saved.tile = order ∧ ∀ s ∈ trace, work s.tile = .ok s.picture := by
  induction h with
  | nil => simp
  | cons h1 _ ih =>
    obtain ⟨e1, e2⟩ := ih
    refine ⟨by rw [List.map_cons, e1, h1.1], ?_⟩
    intro s hs
    rcases List.mem_cons.mp hs with rfl | hs
    · rw [h1.1]; exact h1.2
    · exact e2 s hs

/-- What a piece of work with the given list of jobs does: it saves jobs of the list only, none twice, each
with its picture, and all of them if it ends normally. -/
structure Does (work : MapTileCoord → Res Drawable) (jobs : List MapTileCoord)
    (run : List Saved → Outcome → Prop) : Prop where
  done : ∀ trace, run trace .done → (trace.map Saved.tile).Perm jobs
  sub : ∀ trace o, run trace o → (trace.map Saved.tile).Subperm jobs
  picture : ∀ trace o, run trace o → ∀ s ∈ trace, work s.tile = .ok s.picture

theorem does_parFor (work : MapTileCoord → Res Drawable) (jobs : List MapTileCoord) :
    Does work jobs (ParFor work jobs) := by
  refine ⟨?_, ?_, ?_⟩
  · rintro trace h
    cases h with
    | done order _ perm h => rw [(forall2_tiles h).1]; exact perm
  · rintro trace o h
    cases h with
    | done order _ perm h => rw [(forall2_tiles h).1]; exact perm.subperm
    | panicked order rest bad _ perm hbad h =>
      rw [(forall2_tiles h).1]
      exact (List.sublist_append_left order (bad :: rest)).subperm.trans perm.subperm
  · rintro trace o h
    cases h with
    | done order _ perm h => exact (forall2_tiles h).2
    | panicked order rest bad _ perm hbad h => exact (forall2_tiles h).2

theorem does_seq {α : Type} (work : MapTileCoord → Res Drawable) (items : List α) (jobs : α → List MapTileCoord)
    (run : α → List Saved → Outcome → Prop) (h : ∀ a ∈ items, Does work (jobs a) (run a)) :
    Does work (items.flatMap jobs) (Seq (items.map run)) := by
  induction items with
  | nil =>
    refine ⟨?_, ?_, ?_⟩
    · intro trace h; cases h; exact List.Perm.refl _
    · intro trace o h; cases h; exact List.Subperm.refl _
    · intro trace o h; cases h; simp
  | cons a items ih =>
    have ha := h a (by simp)
    have ht := ih (fun b hb => h b (by simp [hb]))
    rw [List.flatMap_cons, List.map_cons]
    refine ⟨?_, ?_, ?_⟩
    · intro trace hs
      cases hs with
      | cons h1 h2 => rw [List.map_append]; exact (ha.done _ h1).append (ht.done _ h2)
      | stop h1 ho => exact absurd rfl ho
    · intro trace o hs
      cases hs with
      | cons h1 h2 =>
        rw [List.map_append]
        exact List.Subperm.append (ha.sub _ _ h1) (ht.sub _ _ h2)
      | stop h1 ho => exact (ha.sub _ _ h1).trans (List.sublist_append_left _ _).subperm
    · intro trace o hs
      cases hs with
      | cons h1 h2 =>
        intro s hs
        rcases List.mem_append.mp hs with hs | hs
        · exact ha.picture _ _ h1 s hs
        · exact ht.picture _ _ h2 s hs
      | stop h1 ho => exact ha.picture _ _ h1

/-- The tiles of a zoom level. -/
def zoomTiles (m : Libm) (e : LatLonExtent) (zoom : Nat) : List MapTileCoord :=
  match tileRange m e zoom with
  | .ok (xs, ys) => (rangeIncl xs.1 xs.2).flatMap fun x => (rangeIncl ys.1 ys.2).map fun y => ⟨x, y, zoom⟩
  | _ => []

def allTiles (m : Libm) (e : LatLonExtent) (zooms : Nat × Nat) : List MapTileCoord :=
  (rangeIncl zooms.1 zooms.2).flatMap (zoomTiles m e)

theorem does_zoom {T : Type} (m : Libm) (e : LatLonExtent) (valueFn : LatLon → Res (Option T))
    (colorFn : T → Color) (zoom : Nat) :
    Does (fun t => unwrapRes (createSingleTile m valueFn t colorFn)) (zoomTiles m e zoom)
      (runZoom m e valueFn colorFn zoom) := by
  unfold zoomTiles
  have : ∀ tr o, runZoom m e valueFn colorFn zoom tr o ↔ (match tileRange m e zoom with
    | .ok (xs, ys) => Seq ((rangeIncl xs.1 xs.2).map (runColumn m valueFn colorFn zoom ys)) tr o
    | .err => tr = [] ∧ o = .failed
    | .panic => tr = [] ∧ o = .panicked) := fun _ _ => Iff.rfl
  cases hr : tileRange m e zoom with
  | ok p =>
    obtain ⟨xs, ys⟩ := p
    have e1 : runZoom m e valueFn colorFn zoom =
        Seq ((rangeIncl xs.1 xs.2).map (runColumn m valueFn colorFn zoom ys)) := by
      funext tr o
      have := this tr o
      rw [hr] at this
      exact propext this
    rw [e1]
    exact does_seq _ _ _ _ (fun x _ => does_parFor _ _)
  | err =>
    rw [hr] at this
    refine ⟨?_, ?_, ?_⟩
    · intro tr h; simp [this] at h
    · intro tr o h; rw [this] at h; rw [h.1]; exact List.nil_subperm
    · intro tr o h; rw [this] at h; rw [h.1]; simp
  | panic =>
    rw [hr] at this
    refine ⟨?_, ?_, ?_⟩
    · intro tr h; simp [this] at h
    · intro tr o h; rw [this] at h; rw [h.1]; exact List.nil_subperm
    · intro tr o h; rw [this] at h; rw [h.1]; simp

theorem does_all {T : Type} (m : Libm) (e : LatLonExtent) (zooms : Nat × Nat)
    (valueFn : LatLon → Res (Option T)) (colorFn : T → Color) :
    Does (fun t => unwrapRes (createSingleTile m valueFn t colorFn)) (allTiles m e zooms)
      (runAllTiles m e zooms valueFn colorFn) :=
  does_seq _ _ _ _ (fun z _ => does_zoom m e valueFn colorFn z)

theorem mem_rangeIncl {a b n : Nat} : n ∈ rangeIncl a b ↔ a ≤ n ∧ n ≤ b := by
  unfold rangeIncl
  rw [List.mem_range'_1]
  omega

theorem nodup_rangeIncl (a b : Nat) : (rangeIncl a b).Nodup := List.nodup_range'

theorem mem_zoomTiles {m : Libm} {e : LatLonExtent} {zoom : Nat} {t : MapTileCoord} :
    t ∈ zoomTiles m e zoom ↔ t.zoom = zoom ∧ ∃ xs ys, tileRange m e zoom = .ok (xs, ys) ∧
      xs.1 ≤ t.x ∧ t.x ≤ xs.2 ∧ ys.1 ≤ t.y ∧ t.y ≤ ys.2 := by
  unfold zoomTiles
  cases hr : tileRange m e zoom with
  | ok p =>
    obtain ⟨xs, ys⟩ := p
    simp only [List.mem_flatMap, List.mem_map, mem_rangeIncl, Res.ok.injEq, Prod.mk.injEq]
    constructor
    · rintro ⟨x, hx, y, hy, rfl⟩
      exact ⟨rfl, xs, ys, ⟨rfl, rfl⟩, hx.1, hx.2, hy.1, hy.2⟩
    · rintro ⟨rfl, _, _, ⟨rfl, rfl⟩, h1, h2, h3, h4⟩
      exact ⟨t.x, ⟨h1, h2⟩, t.y, ⟨h3, h4⟩, rfl⟩
  | err => simp
  | panic => simp

theorem nodup_zoomTiles (m : Libm) (e : LatLonExtent) (zoom : Nat) : (zoomTiles m e zoom).Nodup := by
  unfold zoomTiles
  cases hr : tileRange m e zoom with
  | ok p =>
    obtain ⟨xs, ys⟩ := p
    simp only
    rw [List.nodup_flatMap]
    refine ⟨?_, ?_⟩
    · intro x _
      refine List.Nodup.map ?_ (nodup_rangeIncl _ _)
      intro a b h
      simp only [MapTileCoord.mk.injEq] at h
      exact h.2.1
    · refine List.Pairwise.imp_of_mem ?_ (nodup_rangeIncl xs.1 xs.2)
      intro a b _ _ hab
      rw [Function.onFun, List.disjoint_left]
      intro t h1 h2
      rw [List.mem_map] at h1 h2
      obtain ⟨_, _, rfl⟩ := h1
      obtain ⟨_, _, h⟩ := h2
      simp only [MapTileCoord.mk.injEq] at h
      exact hab h.1.symm
  | err => exact List.nodup_nil
  | panic => exact List.nodup_nil

theorem mem_allTiles {m : Libm} {e : LatLonExtent} {zooms : Nat × Nat} {t : MapTileCoord} :
    t ∈ allTiles m e zooms ↔ zooms.1 ≤ t.zoom ∧ t.zoom ≤ zooms.2 ∧ ∃ xs ys, tileRange m e t.zoom = .ok (xs, ys) ∧
      xs.1 ≤ t.x ∧ t.x ≤ xs.2 ∧ ys.1 ≤ t.y ∧ t.y ≤ ys.2 := by
  unfold allTiles
  simp only [List.mem_flatMap, mem_rangeIncl, mem_zoomTiles]
  constructor
  · rintro ⟨z, ⟨h1, h2⟩, rfl, h3⟩
    exact ⟨h1, h2, h3⟩
  · rintro ⟨h1, h2, h3⟩
    exact ⟨t.zoom, ⟨h1, h2⟩, rfl, h3⟩

theorem nodup_allTiles (m : Libm) (e : LatLonExtent) (zooms : Nat × Nat) : (allTiles m e zooms).Nodup := by
  unfold allTiles
  rw [List.nodup_flatMap]
  refine ⟨fun z _ => nodup_zoomTiles m e z, ?_⟩
  refine List.Pairwise.imp_of_mem ?_ (nodup_rangeIncl zooms.1 zooms.2)
  intro a b _ _ hab
  rw [Function.onFun, List.disjoint_left]
  intro t h1 h2
  exact hab ((mem_zoomTiles.mp h1).1.symm.trans (mem_zoomTiles.mp h2).1)

end MapTileRenderer

/-! ## files -/

theorem tilePath_inj {out : Text} {s t : MapTileCoord} (h : tilePath out s = tilePath out t) : s = t := by
  unfold tilePath at h
  simp only [List.append_assoc] at h
  have h1 := List.append_cancel_left h
  simp only [List.cons_append, List.nil_append] at h1
  obtain ⟨e1, h2⟩ := split_sep (slash_not_digit (dec_digits _)) (slash_not_digit (dec_digits _)) h1
  obtain ⟨e2, h3⟩ := split_sep (slash_not_digit (dec_digits _)) (slash_not_digit (dec_digits _)) h2
  have e3 := List.append_cancel_right h3
  cases s; cases t
  simp only at e1 e2 e3
  rw [dec_inj e1, dec_inj e2, dec_inj e3]

/-- The files after saving tiles, none twice. -/
theorem writeTiles_eq (out : Text) (fs : Files) (trace : List MapTileRenderer.Saved)
    (hn : (trace.map MapTileRenderer.Saved.tile).Nodup) (p : Text) :
    (∀ s ∈ trace, p = tilePath out s.tile → writeTiles out fs trace p = some s.picture) ∧
    ((∀ s ∈ trace, p ≠ tilePath out s.tile) → writeTiles out fs trace p = fs p) := by
  induction trace generalizing fs with
  | nil => exact ⟨by simp, fun _ => rfl⟩
  | cons a trace ih =>
    rw [List.map_cons, List.nodup_cons] at hn
    obtain ⟨h1, h2⟩ := ih (fun q => if q = tilePath out a.tile then some a.picture else fs q) hn.2
    have e : writeTiles out fs (a :: trace) p =
        writeTiles out (fun q => if q = tilePath out a.tile then some a.picture else fs q) trace p := rfl
    rw [e]
    refine ⟨?_, ?_⟩
    · intro s hs hp
      rcases List.mem_cons.mp hs with rfl | hs
      · rw [h2]
        · exact if_pos hp
        · intro s' hs' hp'
          have := tilePath_inj (hp.symm.trans hp')
          exact hn.1 (this ▸ List.mem_map_of_mem hs')
      · exact h1 s hs hp
    · intro hne
      rw [h2 (fun s hs => hne s (by simp [hs]))]
      exact if_neg (hne a (by simp))

end Verif
