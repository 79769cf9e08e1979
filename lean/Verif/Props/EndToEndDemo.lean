import Verif.Props.CanDraw
import Verif.Props.EndToEnd

/-!
# Runs that succeed: the hypotheses of C87-C97 can be met, and where C94-C96 fail
-/

namespace Verif.Props

open Verif MapTileRenderer Dwd
open Verif.Spec (Filled cell)
open Verif.Spec.Grib2 (Msg encode F32Word)

/-- A message for a grid of 2 x 2 points with whole numbers above a reference value. -/
def fieldMsg (ref : F32Word) (bitmap : List UInt8) (data : List Nat) : Msg :=
  { demoMsg with packing := .simple ref 0 0 16 .floatingPoint, bitmap := bitmap, data := data }

theorem fieldMsg_ok {ref : F32Word} {bitmap : List UInt8} {data : List Nat} (h1 : ref.ok)
    (h2 : 6 + bitmap.length < 2 ^ 32) (h3 : ∀ v ∈ data, v < 2 ^ 16) (h4 : 5 + 2 * data.length < 2 ^ 32) :
    (fieldMsg ref bitmap data).ok := by
  obtain ⟨a1, a2, a3, a4, a5, a6, a7, a8, a9, a10, a11, a12, a13, a14, a15, a16, a17, a18, a19, a20, a21, a22, a23, a24,
    a25, a26, a27, a28, a29⟩ := demoMsg_ok
  have h5 : Spec.Grib2.section5Length (fieldMsg ref bitmap data) < 2 ^ 32 := by
    unfold Spec.Grib2.section5Length
    simp [fieldMsg, Spec.Grib2.encPacking, Spec.Grib2.be]
  exact ⟨a1, a2, a3, a4, a5, a6, a7, a8, a9, a10, a11, a12, a13, a14, a15, a16, a17, a18, a19, a20, a21, a22, a23,
    ⟨h1, by decide, by decide, by decide, trivial⟩, h5, a26, h2, h3, h4⟩

/-- A server that delivers the same message for every file. -/
def constWorld (msg : Msg) : World := ⟨fun _ => some (encode msg), fun _ => none, id⟩

theorem constWorld_publishes {msg : Msg} (h : msg.ok) (hk : msg.product.known) {run : Run} (hm : IsDwd run.model)
    (r : Req) : Publishes (constWorld msg) run r msg := by
  obtain ⟨url, hu, _, _⟩ := C52_download hm r
  exact ⟨h, .inl hk, url, encode msg, [], hu, rfl, (List.append_nil _).symm⟩

theorem constWorld_read {T : Type} {msg : Msg} (h : msg.ok) (hk : msg.product.known) {run : Run} (hm : IsDwd run.model)
    (r : Req) (missing : T) (f : Fl → T) :
    Res.bind (fileUrl run r) (fun url => (constWorld msg).readRectangular url missing f) =
      Grib2.createRegularGrid msg.doc missing f := by
  obtain ⟨url, hu, h1, h2⟩ := C52_download hm r
  rw [hu]
  show (constWorld msg).readRectangular url missing f = _
  have hd : (constWorld msg).download url = some (encode msg) := rfl
  have hz : (constWorld msg).bunzip (encode msg) = encode msg ++ [] := (List.append_nil _).symm
  have hs : (constWorld msg).stream url = .ok (encode msg ++ []) := by
    unfold World.stream
    rw [if_pos h1, hd]
    simp only [Res.okOr, Res.bind_ok, h2, if_true, hz]
  unfold World.readRectangular World.readSingle
  rw [hs, Res.bind_ok, C01_round_trip msg h (.inl hk) [], Res.bind_ok, Res.bind_ok]

/-- The grid of such a message. -/
def demoExtent : LatLonExtent := ⟨⟨.fin 43, .fin 5⟩, ⟨.fin 45, .fin 7⟩⟩

theorem demo_angles : Spec.Grib2.angleValue 43000000 = .fin 43 ∧ Spec.Grib2.angleValue 5000000 = .fin 5 ∧
    Spec.Grib2.angleValue 45000000 = .fin 45 ∧ Spec.Grib2.angleValue 7000000 = .fin 7 := by decide +kernel

theorem demo_normal : LatLon.normalise (.fin 43) = .fin 43 ∧ LatLon.normalise (.fin 5) = .fin 5 ∧
    LatLon.normalise (.fin 45) = .fin 45 ∧ LatLon.normalise (.fin 7) = .fin 7 := by decide +kernel

theorem fieldMsg_template (ref : F32Word) (bitmap : List UInt8) (data : List Nat) :
    ∃ t, (fieldMsg ref bitmap data).doc.section3.template = .latitudeLongitude t ∧ t.pointsAlongParallel = 2 ∧
      t.pointsAlongMeridian = 2 ∧ t.firstLat = .fin 43 ∧ t.firstLon = .fin 5 ∧ t.lastLat = .fin 45 ∧ t.lastLon = .fin 7 :=
  ⟨_, rfl, rfl, rfl, demo_angles.1, demo_angles.2.1, demo_angles.2.2.1, demo_angles.2.2.2⟩

theorem fieldMsg_grid {T : Type} {ref : F32Word} {bitmap : List UInt8} {data : List Nat} {missing : T} {f : Fl → T}
    {vs : List T} (h : Grib2.calculateDataPoints (fieldMsg ref bitmap data).doc missing f = .ok vs) :
    Grib2.createRegularGrid (fieldMsg ref bitmap data).doc missing f =
      .ok (LatLonValueGrid.new vs missing (2, 2) demoExtent) := by
  obtain ⟨t, ht, t1, t2, t3, t4, t5, t6⟩ := fieldMsg_template ref bitmap data
  obtain ⟨n1, n2, n3, n4⟩ := demo_normal
  have he : LatLonExtent.new (LatLon.new t.firstLat t.firstLon) (LatLon.new t.lastLat t.lastLon) = .ok demoExtent := by
    unfold LatLon.new
    rw [t3, t4, t5, t6, n1, n2, n3, n4]
    decide +kernel
  unfold Grib2.createRegularGrid Grib2.getDimensionsAndExtent
  rw [h, ht]
  simp only [he, Res.bind_ok, t1, t2]

/-! ## A run with all variables -/

/-- A run of ICON-D2. -/
def demoRun : Run := ⟨.iconD2, ⟨2025, 8, 5⟩, "06".toList⟩

theorem demoRun_dwd : IsDwd demoRun.model := .inl rfl

theorem demoRun_name : '/' ∉ demoRun.name := by decide

/-- Some functions in place of the transcendental ones. -/
def demoLibm : Libm := ⟨fun _ => .fin 0, fun _ => .fin 1, fun _ => .fin 0, id, id⟩

/-- The numbers 0, 3 and 61 at three of the four points. -/
def weatherMsg : Msg := fieldMsg ⟨false, 0, 0⟩ [0xB0] [0, 3, 61]

theorem weatherMsg_ok : weatherMsg.ok :=
  fieldMsg_ok ⟨by decide, by decide⟩ (by decide) (by decide) (by decide)

theorem fieldMsg_field {ref : F32Word} {bitmap : List UInt8} {data : List Nat} {r : Rat} (h : ref.value = .fin r)
    (hr : |r| ≤ 2 ^ 80) (hd : data ≠ []) : Field (fieldMsg ref bitmap data) 2 2 :=
  ⟨⟨_, rfl, rfl, rfl⟩, ⟨ref, r, 0, 0, 16, .floatingPoint, rfl, h, hr, by decide, by decide, by decide, by decide⟩, rfl, hd⟩

theorem weatherMsg_field : Field weatherMsg 2 2 :=
  fieldMsg_field (r := 0) (by decide +kernel) (by norm_num) (by decide)

/-- The grid of binary32 numbers of a demonstration message. -/
def fieldGrid {T : Type} (vs : List T) (missing : T) : LatLonValueGrid T := LatLonValueGrid.new vs missing (2, 2) demoExtent

theorem fieldGrid_filled {T : Type} {vs : List T} (missing : T) (h : vs.length = 4) : Filled (fieldGrid vs missing) 2 2 :=
  ⟨rfl, by norm_num, h⟩

theorem mapM_const {α β : Type} {f : α → Res β} {b : β} {l : List α} (h : ∀ a ∈ l, f a = .ok b) :
    Res.mapM f l = .ok (List.replicate l.length b) := by
  rw [Res.mapM_ok_iff]
  induction l with
  | nil => exact .nil
  | cons a l ih => exact .cons (h a (by simp)) (ih fun a ha => h a (by simp [ha]))

theorem weather_grid (x : SingleVar) (n : Nat) :
    dwdGrid (constWorld weatherMsg) demoRun x n = .ok (fieldGrid [.fin 0, .fin (-1), .fin 3, .fin 61] (.fin (-1))) :=
  (constWorld_read weatherMsg_ok trivial demoRun_dwd (.single x n) _ _).trans (fieldMsg_grid (by decide +kernel))

theorem weather_hhl : readHhl (constWorld weatherMsg) demoRun demoRun.model.verticalLevels =
    .ok (List.replicate 41 (fieldGrid [0, 0, 0, 2] 0)) :=
  mapM_const fun k _ => (constWorld_read weatherMsg_ok trivial demoRun_dwd (.hhl k) _ _).trans
    (fieldMsg_grid (by decide +kernel))

theorem weather_clc (s : RunStep) : readClc (constWorld weatherMsg) demoRun s demoRun.model.verticalLevels =
    .ok (List.replicate 41 (fieldGrid [0, 0, 3, 61] 0)) :=
  mapM_const fun k _ => (constWorld_read weatherMsg_ok trivial demoRun_dwd (.level .clc s.nr k) _ _).trans
    (fieldMsg_grid (by decide +kernel))

theorem weather_uv (x : LevelVar) (s : RunStep) : readUV (constWorld weatherMsg) demoRun x s demoRun.model.verticalLevels =
    .ok (List.replicate 41 (fieldGrid [128, 255, 134, 247] 255)) :=
  mapM_const fun k _ => (constWorld_read weatherMsg_ok trivial demoRun_dwd (.level x s.nr k) _ _).trans
    (fieldMsg_grid (by decide +kernel))

theorem demo_inRange : InRange demoLibm demoExtent (0, 7) := by
  refine inRange_of_corners _ _ (by norm_num) (by decide +kernel) (by decide +kernel) ?_
  intro z _ hz
  simp only at hz
  interval_cases z <;> decide +kernel

theorem demo_fit (vs vs' : List Fl) (a b : Fl) : Fit (fieldGrid vs a) (fieldGrid vs' b) := by
  refine ⟨rfl, rfl, ?_, ?_, ?_, ?_⟩ <;> (show Fl.fin _ ≠ Fl.nan; simp)

/-- A successful run of ICON-D2 for all variables and steps: the hypotheses of C87, C89, C90, C93-C97 can be met. -/
theorem demo_all (dirs : Text → Bool) :
    ∃ tr, Dwd.renderRun demoLibm (constWorld weatherMsg) dirs [] [] demoRun tr .done := by
  rw [(C90_dwd_iff demoLibm (constWorld weatherMsg) dirs [] [] demoRun).1]
  refine ⟨?_, fun _ => ⟨_, weather_hhl⟩⟩
  intro v _ hw s _ _
  have fill : Filled (fieldGrid [Fl.fin 0, .fin (-1), .fin 3, .fin 61] (.fin (-1))) 2 2 := fieldGrid_filled _ rfl
  have fill8 : ∀ {a b c d m : UInt8}, ∀ g ∈ List.replicate 41 (fieldGrid [a, b, c, d] m), Filled g 2 2 := by
    intro a b c d m g hg
    rw [(List.mem_replicate.mp hg).2]
    exact fieldGrid_filled _ rfl
  cases v with
  | cloudPrecip =>
    simp only [dwdLayers, weather_grid, Res.bind_ok]
    rw [(C43_cloud_precip _ _ _).1.mpr ⟨demo_fit _ _ _ _, demo_fit _ _ _ _⟩, Res.bind_ok,
      (C43_weather_partial _ _ _).1.mpr (demo_fit _ _ _ _), Res.bind_ok]
    refine ⟨_, rfl, C86_cloud_precip _ (by decide) fill fill fill demo_inRange fill fill (by rintro g ⟨⟩; exact fill) ?_⟩
    rintro g ⟨⟩ x y v hx hy hv
    have : ∀ x y : Fin 2, ∀ v, cell (fieldGrid [Fl.fin 0, .fin (-1), .fin 3, .fin 61] (.fin (-1))) 2 x y = some v →
        v = .fin 0 ∨ v = .fin 3 ∨ v = .fin 61 := by
      intro x y v
      fin_cases x <;> fin_cases y <;> simp [cell, fieldGrid, LatLonValueGrid.new, GridValue.eq, Fl.feq] <;> tauto
    rcases this ⟨x, hx⟩ ⟨y, hy⟩ v hv with rfl | rfl | rfl <;> decide +kernel
  | wind10m =>
    simp only [dwdLayers, weather_grid, Res.bind_ok]
    rw [(C43_wind _ _ _).1.mpr ⟨demo_fit _ _ _ _, by rintro g ⟨⟩; exact demo_fit _ _ _ _⟩, Res.bind_ok]
    exact ⟨_, rfl, C86_wind _ (by decide) fill fill (by rintro g ⟨⟩; exact fill) demo_inRange⟩
  | temp2m =>
    simp only [dwdLayers, weather_grid, Res.bind_ok]
    exact ⟨_, rfl, C86_temp _ (by decide) fill demo_inRange⟩
  | verticalCloud =>
    simp only [dwdLayers, weather_hhl, weather_clc, Res.bind_ok]
    exact ⟨_, rfl, C86_vertical_clouds _ _ (n := 41) (by decide) rfl rfl fill8 fill8⟩
  | verticalWind =>
    simp only [dwdLayers, weather_hhl, weather_uv, Res.bind_ok]
    exact ⟨_, rfl, C86_vertical_wind _ _ (n := 41) (by decide) rfl rfl rfl fill8 fill8 fill8⟩
  | weather => exact absurd rfl hw

theorem step3 : (⟨3, []⟩ : RunStep) ∈ demoRun.model.forecastSteps := by decide

/-- C95 is false: a published cloud cover of 0 percent (a clear sky) is written as 255, like a missing value. -/
theorem C95_counterexample (dirs : Text → Bool) :
    ∃ tr, Dwd.renderRun demoLibm (constWorld weatherMsg) dirs [] [] demoRun tr .done ∧
      (∀ r, Publishes (constWorld weatherMsg) demoRun r weatherMsg) ∧ Field weatherMsg 2 2 ∧
      physical weatherMsg 0 = some 0 ∧ physical weatherMsg 1 = none ∧
      ∀ before : Tree, ∃ bytes, before.write tr (binPath demoRun 3 .verticalClouds) = some (.bytes bytes) ∧
        bytes[0 * 2 + 1]? = some 255 ∧ bytes[41 * 2 + 1]? = some 255 := by
  obtain ⟨tr, h⟩ := demo_all dirs
  have hp := constWorld_publishes weatherMsg_ok trivial demoRun_dwd
  have p0 : physical weatherMsg 0 = some 0 := by decide +kernel
  have p1 : physical weatherMsg 1 = none := by decide +kernel
  refine ⟨tr, h, hp, weatherMsg_field, p0, p1, fun before => ?_⟩
  obtain ⟨bytes, h1, _, h2⟩ := C95_clouds_partial _ _ dirs _ _ _ demoRun_dwd demoRun_name tr h (.inl rfl) _ step3 (.inl rfl)
    (fun _ => weatherMsg) (fun _ => weatherMsg) 2 2 25 65 rfl (fun k _ _ => ⟨hp _, weatherMsg_field⟩)
    (fun k _ _ => ⟨hp _, weatherMsg_field⟩) before
  obtain ⟨_, b, _, b2, _, _, _, b6⟩ := h2 0 0 25 (by norm_num) (by norm_num) (by norm_num) (by norm_num)
  obtain ⟨_, c, _, c2, _, c4, _, _⟩ := h2 1 0 25 (by norm_num) (by norm_num) (by norm_num) (by norm_num)
  have := (b6 0 p0).2 (le_refl _) (by norm_num)
  subst this
  have := c4 p1
  subst this
  exact ⟨bytes, h1, b2, c2⟩

/-- C96 is false: a published height of 3 m is written as 255, like a missing value. -/
theorem C96_counterexample (dirs : Text → Bool) :
    ∃ tr, Dwd.renderRun demoLibm (constWorld weatherMsg) dirs [] [] demoRun tr .done ∧
      (∀ r, Publishes (constWorld weatherMsg) demoRun r weatherMsg) ∧ Field weatherMsg 2 2 ∧
      physical weatherMsg (1 * 2 + 0) = some 3 ∧
      ∀ before : Tree, ∃ bytes, before.write tr (binPath demoRun 3 .verticalClouds) = some (.bytes bytes) ∧
        bytes[(1 * 2 + 0) * 41 * 2]? = some 255 := by
  obtain ⟨tr, h⟩ := demo_all dirs
  have hp := constWorld_publishes weatherMsg_ok trivial demoRun_dwd
  have p0 : physical weatherMsg (1 * 2 + 0) = some 3 := by decide +kernel
  refine ⟨tr, h, hp, weatherMsg_field, p0, fun before => ?_⟩
  obtain ⟨bytes, h1, _, h2⟩ := C95_clouds_partial _ _ dirs _ _ _ demoRun_dwd demoRun_name tr h (.inl rfl) _ step3 (.inl rfl)
    (fun _ => weatherMsg) (fun _ => weatherMsg) 2 2 25 65 rfl (fun k _ _ => ⟨hp _, weatherMsg_field⟩)
    (fun k _ _ => ⟨hp _, weatherMsg_field⟩) before
  obtain ⟨b, _, b1, _, _, _, b5, _⟩ := h2 0 1 25 (by norm_num) (by norm_num) (by norm_num) (by norm_num)
  have := (b5 3 p0).2 (by norm_num) (.inl (by norm_num)) (by norm_num)
  subst this
  exact ⟨bytes, h1, b1⟩

/-! ## Selected variables and steps -/

theorem chosen_single {v v' : LayerType} (h : ChosenVar [v.name] v') : v' = v := by
  rcases h with h | h
  · cases h
  · rw [List.mem_singleton] at h
    cases v <;> cases v' <;> first | rfl | (revert h; decide)

/-- The numbers -1, 5, 10, 2. -/
def windMsg : Msg := fieldMsg ⟨true, 127, 0⟩ [] [0, 6, 11, 3]

theorem windMsg_ok : windMsg.ok := fieldMsg_ok ⟨by decide, by decide⟩ (by decide) (by decide) (by decide)

theorem windMsg_field : Field windMsg 2 2 := fieldMsg_field (r := -1) (by decide +kernel) (by norm_num) (by decide)

theorem wind_grid (x : SingleVar) (n : Nat) :
    dwdGrid (constWorld windMsg) demoRun x n = .ok (fieldGrid [.fin (-1), .fin 5, .fin 10, .fin 2] (.fin (-1))) :=
  (constWorld_read windMsg_ok trivial demoRun_dwd (.single x n) _ _).trans (fieldMsg_grid (by decide +kernel))

/-- C94 is false: where a component of -1 m/s is published, the wind is written as missing. -/
theorem C94_counterexample (dirs : Text → Bool) :
    ∃ tr, Dwd.renderRun demoLibm (constWorld windMsg) dirs [LayerType.wind10m.name] [3] demoRun tr .done ∧
      (∀ r, Publishes (constWorld windMsg) demoRun r windMsg) ∧ Field windMsg 2 2 ∧
      physical windMsg 0 = some (-1) ∧
      ∀ before : Tree, ∃ bytes, before.write tr (binPath demoRun 3 .wind10m) = some (.bytes bytes) ∧
        bytes = [255, 255, 255, 138, 138, 10, 147, 147, 19, 132, 132, 4] := by
  have fill : Filled (fieldGrid [Fl.fin (-1), .fin 5, .fin 10, .fin 2] (.fin (-1))) 2 2 := fieldGrid_filled _ rfl
  have hl : ∀ n, dwdLayers (constWorld windMsg) demoRun .wind10m n =
      .ok (.wind ⟨fieldGrid [.fin (-1), .fin 5, .fin 10, .fin 2] (.fin (-1)),
        fieldGrid [.fin (-1), .fin 5, .fin 10, .fin 2] (.fin (-1)),
        some (fieldGrid [.fin (-1), .fin 5, .fin 10, .fin 2] (.fin (-1)))⟩) := by
    intro n
    simp only [dwdLayers, wind_grid, Res.bind_ok]
    rw [(C43_wind _ _ _).1.mpr ⟨demo_fit _ _ _ _, by rintro g ⟨⟩; exact demo_fit _ _ _ _⟩, Res.bind_ok]
  have hrun := (C90_dwd_iff demoLibm (constWorld windMsg) dirs [LayerType.wind10m.name] [3] demoRun).1.mpr (by
    refine ⟨fun v hv _ s _ _ => ?_, ?_⟩
    · have := chosen_single hv
      subst this
      exact ⟨_, hl s.nr, C86_wind _ (by decide) fill fill (by rintro g ⟨⟩; exact fill) demo_inRange⟩
    · rintro (h | h) <;> exact absurd (chosen_single h) (by simp))
  obtain ⟨tr, h⟩ := hrun
  refine ⟨tr, h, constWorld_publishes windMsg_ok trivial demoRun_dwd, windMsg_field, by decide +kernel, fun before => ?_⟩
  obtain ⟨l, h1, _, h2⟩ := bin_of_run (v := .wind10m) demoRun_name h (.inr (by simp)) (by simp) step3 (.inr (by simp))
  rw [hl] at h1
  cases h1
  exact ⟨_, h2 before (.bin .wind10m) _ (.wind (by decide +kernel)), rfl⟩

/-- The numbers 280, 273 and 275. -/
def warmMsg : Msg := fieldMsg ⟨false, 0, 0⟩ [0xB0] [280, 273, 275]

theorem warmMsg_ok : warmMsg.ok := fieldMsg_ok ⟨by decide, by decide⟩ (by decide) (by decide) (by decide)

/-- The hypotheses of C89 can be met, with temperatures in its range and one missing. -/
example (dirs : Text → Bool) :
    ∃ tr, Dwd.renderRun demoLibm (constWorld warmMsg) dirs [LayerType.temp2m.name] [3] demoRun tr .done ∧
      Publishes (constWorld warmMsg) demoRun (.single .t2m 3) warmMsg ∧ Field warmMsg 2 2 ∧
      physical warmMsg 0 = some 280 ∧ physical warmMsg 1 = none ∧ physical warmMsg 2 = some 273 ∧
      ∀ before : Tree, before.write tr (binPath demoRun 3 .temp2m) = some (.bytes [142, 255, 128, 132]) := by
  have hg : ∀ n, dwdGrid (constWorld warmMsg) demoRun .t2m n =
      .ok (fieldGrid [.fin 280, .fin (-1), .fin 273, .fin 275] (.fin (-1))) := fun n =>
    (constWorld_read warmMsg_ok trivial demoRun_dwd (.single .t2m n) _ _).trans (fieldMsg_grid (by decide +kernel))
  have fill : Filled (fieldGrid [Fl.fin 280, .fin (-1), .fin 273, .fin 275] (.fin (-1))) 2 2 := fieldGrid_filled _ rfl
  have hl : ∀ n, dwdLayers (constWorld warmMsg) demoRun .temp2m n =
      .ok (.temp ⟨fieldGrid [.fin 280, .fin (-1), .fin 273, .fin 275] (.fin (-1))⟩) := by
    intro n
    simp only [dwdLayers, hg, Res.bind_ok]
  have hrun := (C90_dwd_iff demoLibm (constWorld warmMsg) dirs [LayerType.temp2m.name] [3] demoRun).1.mpr (by
    refine ⟨fun v hv _ s _ _ => ?_, ?_⟩
    · have := chosen_single hv
      subst this
      exact ⟨_, hl s.nr, C86_temp _ (by decide) fill demo_inRange⟩
    · rintro (h | h) <;> exact absurd (chosen_single h) (by simp))
  obtain ⟨tr, h⟩ := hrun
  refine ⟨tr, h, constWorld_publishes warmMsg_ok trivial demoRun_dwd _,
    fieldMsg_field (r := 0) (by decide +kernel) (by norm_num) (by decide), by decide +kernel, by decide +kernel,
    by decide +kernel, fun before => ?_⟩
  obtain ⟨l, h1, _, h2⟩ := bin_of_run (v := .temp2m) demoRun_name h (.inr (by simp)) (by simp) step3 (.inr (by simp))
  rw [hl] at h1
  cases h1
  exact h2 before (.bin .temp2m) _ (.temp (by decide +kernel))

/-- The hypotheses of C92 can be met by worlds that differ: a server that has nothing but the temperature of hour 3. -/
example : ∃ w w' : World, w ≠ w' ∧ (∀ v, ChosenVar [LayerType.temp2m.name] v → ∀ s ∈ demoRun.model.forecastSteps,
    Chosen [3] s → ∀ r, Uses demoRun.model v s.nr r → SameFile w w' demoRun r) ∧
    (ChosenVar [LayerType.temp2m.name] .verticalCloud ∨ ChosenVar [LayerType.temp2m.name] .verticalWind → ∀ k,
      demoRun.model.verticalLevels.1 ≤ k → k ≤ demoRun.model.verticalLevels.2 → SameFile w w' demoRun (.hhl k)) := by
  refine ⟨constWorld warmMsg, ⟨fun url => if fileUrl demoRun (.single .t2m 3) = .ok url then some (encode warmMsg) else none,
    fun _ => none, id⟩, ?_, ?_, ?_⟩
  · intro h
    have h1 := congrArg (fun w => (w.download []).isNone) h
    have h2 : ¬ (fileUrl demoRun (.single .t2m 3) = .ok []) := by decide +kernel
    simp [constWorld, h2] at h1
  · intro v hv s _ hs r hr url hu
    have := chosen_single hv
    subst this
    have : s.nr = 3 := by
      rcases hs with h | h
      · cases h
      · simpa using h
    have hr : r = .single .t2m s.nr := hr
    rw [this] at hr
    subst hr
    unfold World.stream constWorld
    simp only [hu, if_true]
  · rintro (h | h) <;> exact absurd (chosen_single h) (by simp)

end Verif.Props
