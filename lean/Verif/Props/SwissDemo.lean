import Verif.Props.EndToEndDemo
import Verif.Props.SwissSuccess

/-!
# Runs of MeteoSwiss that succeed: the hypotheses of C98-C102 and C104 can be met, and where C100 fails
-/

namespace Verif.Props

open Verif MapTileRenderer
open Verif.Spec (Filled cell AccurateRow exists_accurateRow degrees chartCell)
open Verif.Spec.Grib2 (Msg encode)
open Verif.Spec.Decode (rank bitmapCovers)

/-- Longitudes of four points: 7, 8, 9 and 10 degrees. -/
def lonMsg : Msg := fieldMsg ⟨false, 0, 0⟩ [] [7, 8, 9, 10]

/-- Their latitudes: 46, missing, 47 and 43 degrees. -/
def latMsg : Msg := fieldMsg ⟨false, 0, 0⟩ [0xB0] [46, 47, 43]

/-- The messages that the demonstration server delivers for every file: the positions among copies of a field. -/
def swissMsgs (f : Msg) : List Msg := List.replicate 3 f ++ lonMsg :: latMsg :: List.replicate 80 f

def swissWorld (f : Msg) : World :=
  ⟨fun _ => some ((swissMsgs f).flatMap encode), fun _ => some ((swissMsgs f).flatMap encode), id⟩

theorem lonMsg_ok : lonMsg.ok := fieldMsg_ok ⟨by decide, by decide⟩ (by decide) (by decide) (by decide)

theorem latMsg_ok : latMsg.ok := fieldMsg_ok ⟨by decide, by decide⟩ (by decide) (by decide) (by decide)

theorem fieldMsg_full {ref : Spec.Grib2.F32Word} {bitmap : List UInt8} {data : List Nat} {r : Rat} (h : ref.value = .fin r)
    (hr : |r| ≤ 2 ^ 80) (hd : data ≠ []) (hc : bitmapCovers bitmap 4) (he : rank bitmap 4 ≤ data.length) :
    FullField (fieldMsg ref bitmap data) 4 :=
  ⟨⟨⟨ref, r, 0, 0, 16, .floatingPoint, rfl, h, hr, by decide, by decide, by decide, by decide⟩, rfl, hd⟩, hc, he⟩

theorem lonMsg_full : FullField lonMsg 4 :=
  fieldMsg_full (r := 0) (by decide +kernel) (by norm_num) (by decide) (.inl rfl) (by decide)

theorem latMsg_full : FullField latMsg 4 :=
  fieldMsg_full (r := 0) (by decide +kernel) (by norm_num) (by decide) (.inr (by decide)) (by decide)

theorem lon_physical : physical lonMsg 0 = some 7 ∧ physical lonMsg 1 = some 8 ∧ physical lonMsg 2 = some 9 ∧
    physical lonMsg 3 = some 10 := by decide +kernel

theorem lat_physical : physical latMsg 0 = some 46 ∧ physical latMsg 1 = none ∧ physical latMsg 2 = some 47 ∧
    physical latMsg 3 = some 43 := by decide +kernel

theorem swiss_delivers {f : Msg} (h : f.ok) (hk : f.product.known) (url : Text) :
    Delivers (swissWorld f) url (swissMsgs f) := by
  refine ⟨?_, [], ?_, by decide +kernel⟩
  · intro msg hm
    simp only [swissMsgs, List.mem_append, List.mem_cons, List.mem_replicate] at hm
    rcases hm with ⟨-, rfl⟩ | rfl | rfl | ⟨-, rfl⟩
    · exact ⟨h, .inl hk⟩
    · exact ⟨lonMsg_ok, .inl trivial⟩
    · exact ⟨latMsg_ok, .inl trivial⟩
    · exact ⟨h, .inl hk⟩
  · unfold World.stream
    rw [List.append_nil]
    split
    · simp only [swissWorld, Res.okOr, Res.bind_ok, id, ite_self]
    · rfl

theorem swiss_constants {f : Msg} (h : f.ok) (hk : f.product.known) (url : Text) :
    Constants (swissWorld f) url latMsg lonMsg 4 := by
  refine ⟨⟨swissMsgs f, swiss_delivers h hk url, rfl, rfl⟩, latMsg_full.toPointField, lonMsg_full.toPointField, ?_, ?_⟩
  · intro i q hi hq
    obtain ⟨p0, p1, p2, p3⟩ := lat_physical
    interval_cases i
    · rw [p0] at hq; cases hq; norm_num
    · rw [p1] at hq; cases hq
    · rw [p2] at hq; cases hq; norm_num
    · rw [p3] at hq; cases hq; norm_num
  · intro i q hi hq
    obtain ⟨p0, p1, p2, p3⟩ := lon_physical
    interval_cases i
    · rw [p0] at hq; cases hq; norm_num
    · rw [p1] at hq; cases hq; norm_num
    · rw [p2] at hq; cases hq; norm_num
    · rw [p3] at hq; cases hq; norm_num

theorem swiss_levelMsg {f : Msg} {k : Nat} {msg : Msg} (h1 : 31 ≤ k) (hm : (swissMsgs f)[k]? = some msg) : msg = f := by
  have : (List.replicate 80 f)[k - 5]? = some msg := by
    rw [← hm]
    obtain ⟨j, rfl⟩ : ∃ j, k = j + 5 := ⟨k - 5, by omega⟩
    rfl
  exact (List.mem_replicate.mp (List.mem_of_getElem? this)).2

theorem swiss_single {f : Msg} (h : f.ok) (hk : f.product.known) (hf : FullField f 4) (url : Text) :
    SingleFile (swissWorld f) 4 url := ⟨f, _, swiss_delivers h hk url, hf⟩

theorem swiss_level {f : Msg} (h : f.ok) (hk : f.product.known) (hf : FullField f 4) (url : Text) :
    LevelFile (swissWorld f) 4 url :=
  ⟨swissMsgs f, swiss_delivers h hk url, by simp [swissMsgs], fun k msg h1 _ hm => by rw [swiss_levelMsg h1 hm]; exact hf⟩

/-- Two constant files and, for each variable, files for the hours 1 and 0 (in this order). -/
def demoService : Swiss.Service :=
  ⟨.ok [⟨"vertical_constants_icon-ch1-eps.grib2".toList, [], "vert".toList⟩,
    ⟨"horizontal_constants_icon-ch1-eps.grib2".toList, [], "hor".toList⟩], .ok ["2025-08-05T06:00:00Z".toList],
    fun _ _ => .ok [⟨[], "P0DT01H00M00S".toList, ["b".toList]⟩, ⟨[], "P0DT00H00M00S".toList, ["a".toList]⟩]⟩

/-- The reference time of the run: day 20305, six o'clock. -/
def demoTime : Instant := ⟨20305, 6 * 3600, 0⟩

def demoCalendar : Swiss.Calendar := ⟨fun _ => .ok ⟨demoTime, 0⟩, fun _ => ⟨2025, 8, 5⟩⟩

def demoEnv (m : Libm) (f : Msg) (dirs : Text → Bool) : Environment :=
  ⟨m, swissWorld f, demoService, demoCalendar, dirs, ⟨2025, 8, 5⟩, ⟨2025, 8, 5⟩, fun _ => false⟩

theorem demo_listed {file : Text → Prop} (h : ∀ url, file url) (t : Instant) (x : Swiss.Variable) :
    Listed demoService t 2 file x := by
  refine ⟨_, rfl, rfl, fun g hg => ?_⟩
  simp only [List.mem_cons, List.not_mem_nil, or_false] at hg
  rcases hg with rfl | rfl
  · exact ⟨⟨⟨0, 1⟩, by decide +kernel, by decide⟩, by simp, fun _ _ => h _⟩
  · exact ⟨⟨⟨0, 0⟩, by decide +kernel, by decide⟩, by simp, fun _ _ => h _⟩

theorem demo_published {f : Msg} (h : f.ok) (hk : f.product.known) (hf : FullField f 4) (vertUrl : Text) (t : Instant)
    (v : LayerType) : VariablePublished (swissWorld f) demoService vertUrl t 4 2 v := by
  have h1 := fun x => demo_listed (swiss_single h hk hf) t x
  have h2 := fun x => demo_listed (swiss_level h hk hf) t x
  cases v with
  | cloudPrecip => exact fun x _ => h1 x
  | wind10m => exact fun x _ => h1 x
  | temp2m => exact h1 _
  | verticalCloud => exact ⟨swiss_level h hk hf _, h2 _⟩
  | verticalWind => exact ⟨swiss_level h hk hf _, fun x _ => h2 x⟩
  | weather => trivial

/-- The hypotheses of C104 can be met: the program succeeds with the demonstration server. -/
example {f : Msg} (h : f.ok) (hk : f.product.known) (hf : FullField f 4) (m : Libm) (hm : AccurateRow m)
    (dirs : Text → Bool) (vars : List Text) (filter : List Nat) :
    (∃ tr, mainEffect (demoEnv m f dirs) "icon-ch1".toList vars filter tr .done) ∧
    ∀ tr o, mainEffect (demoEnv m f dirs) "icon-ch1".toList vars filter tr o → o = .done :=
  C104_main (demoEnv m f dirs) hm vars filter _ rfl _ _ rfl rfl latMsg lonMsg 4 (swiss_constants h hk _) latMsg_full lonMsg_full
    _ rfl _ rfl _ rfl (by constructor <;> decide) rfl rfl fun v _ => ⟨2, demo_published h hk hf _ _ v⟩

/-- The demonstration run. -/
theorem swiss_demo {f : Msg} (h : f.ok) (hk : f.product.known) (hf : FullField f 4) {m : Libm} (hm : AccurateRow m)
    (dirs : Text → Bool) (vars : List Text) (filter : List Nat) :
    ∃ grid tr, Swiss.readHorConst (swissWorld f) "hor".toList = .ok grid ∧
      Swiss.renderRun m (swissWorld f) demoService demoCalendar dirs vars filter grid "vert".toList demoTime tr .done := by
  obtain ⟨grid, hg⟩ := hor_read (swiss_constants h hk "hor".toList) latMsg_full lonMsg_full
  obtain ⟨tr, ht⟩ := (C104_run m hm (swissWorld f) demoService demoCalendar dirs vars filter "hor".toList "vert".toList
    demoTime latMsg lonMsg 4 (swiss_constants h hk _) grid hg ⟨_, rfl⟩ fun v _ => ⟨2, demo_published h hk hf _ _ v⟩).1
  exact ⟨grid, tr, hg, ht⟩

theorem demo_steps (x : Swiss.Variable) (skip : Bool) : ∃ steps, Swiss.steps demoService demoTime x skip = .ok steps ∧
    (⟨1, "b".toList⟩ : RunStep) ∈ steps ∧ (skip = false → (⟨0, "a".toList⟩ : RunStep) ∈ steps) := by
  cases skip
  · exact ⟨[⟨0, "a".toList⟩, ⟨1, "b".toList⟩], by cases x <;> decide +kernel, by simp, by simp⟩
  · exact ⟨[⟨1, "b".toList⟩], by cases x <;> decide +kernel, by simp, by simp⟩

/-- In the cell at 46 degrees north and 7 degrees east the first point is shown. -/
theorem demo_shown {o : Option Nat} (h : Spec.Shows (position latMsg lonMsg) 4 781 397 o) : o = some 0 := by
  obtain ⟨a0, a1, a2, a3⟩ := lat_physical
  obtain ⟨b0, b1, b2, b3⟩ := lon_physical
  have p0 : position latMsg lonMsg 0 = some (46, 7) := by simp only [position, a0, b0]
  have p1 : position latMsg lonMsg 1 = none := by simp only [position, a1, b1]
  have p2 : position latMsg lonMsg 2 = some (47, 9) := by simp only [position, a2, b2]
  have p3 : position latMsg lonMsg 3 = some (43, 10) := by simp only [position, a3, b3]
  have near : degrees (46, 7) (chartCell 781 397) ≤ (8 / 1000 : Real) := by
    unfold degrees chartCell
    rw [Real.sqrt_le_left (by norm_num)]
    norm_num
  have far : ∀ {q : Rat × Rat}, 8 ≤ q.2 → (1 / 2 : Real) ≤ degrees q (chartCell 781 397) := by
    intro q hq
    unfold degrees chartCell
    apply Real.le_sqrt_of_sq_le
    have : (1 / 4 : Rat) ≤ (q.1 - (4203 / 100 + ((397 : Nat) + 1 / 2) / 100)) ^ 2 +
        (q.2 - (-81 / 100 + ((781 : Nat) + 1 / 2) / 100)) ^ 2 := by
      have := sq_nonneg (q.1 - (4203 / 100 + ((397 : Nat) + 1 / 2) / 100))
      norm_num at this ⊢
      nlinarith
    have := (Rat.cast_le (K := Real)).mpr this
    push_cast at this ⊢
    linarith
  cases o with
  | none =>
    have := h 0 _ (by norm_num) p0
    push_cast at this
    linarith
  | some i =>
    obtain ⟨hi, p, hp, hd, -⟩ := h
    interval_cases i
    · rfl
    · rw [p1] at hp; cases hp
    · rw [p2] at hp; cases hp
      have := far (q := (47, 9)) (by norm_num)
      push_cast at hd
      linarith
    · rw [p3] at hp; cases hp
      have := far (q := (43, 10)) (by norm_num)
      push_cast at hd
      linarith

theorem warmMsg_full : FullField warmMsg 4 :=
  fieldMsg_full (r := 0) (by decide +kernel) (by norm_num) (by decide) (.inr (by decide)) (by decide)

/-- The hypotheses of C98 can be met: 280 K at the point that is shown in a cell; the byte gives 6.85 degrees Celsius. -/
example (m : Libm) (hm : AccurateRow m) (dirs : Text → Bool) (before : Tree) : ∃ grid tr run bytes,
    Swiss.renderRun m (swissWorld warmMsg) demoService demoCalendar dirs [] [] grid "vert".toList demoTime tr .done ∧
    before.write tr (binPath run 1 .temp2m) = some (.bytes bytes) ∧
    ∃ b, bytes[397 * 1851 + 781]? = some b ∧ |((b.toNat : Rat) - 128) / 2 - 685 / 100| ≤ 1 / 4 + 2 / 1000 := by
  have hk : warmMsg.product.known := trivial
  obtain ⟨grid, tr, hg, ht⟩ := swiss_demo warmMsg_ok hk warmMsg_full hm dirs [] []
  obtain ⟨steps, hs, h1, -⟩ := demo_steps .t2m false
  obtain ⟨run, bytes, e, b1, b2, b3⟩ := C98_temperature m _ _ _ dirs [] [] "hor".toList "vert".toList grid demoTime tr ht hg
    latMsg lonMsg 4 (swiss_constants warmMsg_ok hk _) (.inl rfl) steps hs _ h1 (.inl rfl) warmMsg _
    (swiss_delivers warmMsg_ok hk _) warmMsg_full.toPointField before
  obtain ⟨o, b, hsh, hb, -, hv⟩ := b3 781 397 (by norm_num) (by norm_num)
  refine ⟨grid, tr, run, bytes, ht, b1, b, hb, ?_⟩
  obtain rfl := demo_shown hsh
  have p : physical warmMsg 0 = some 280 := by decide +kernel
  have := (hv 280 p (by norm_num) (by norm_num)).2
  norm_num at this ⊢
  exact this

theorem weatherMsg_full : FullField weatherMsg 4 :=
  fieldMsg_full (r := 0) (by decide +kernel) (by norm_num) (by decide) (.inr (by decide)) (by decide)

/-- The hypotheses of C99 can be met. -/
example (m : Libm) (hm : AccurateRow m) (dirs : Text → Bool) (before : Tree) : ∃ grid tr run bytes,
    Swiss.renderRun m (swissWorld weatherMsg) demoService demoCalendar dirs [] [] grid "vert".toList demoTime tr .done ∧
    before.write tr (binPath run 1 .precip) = some (.bytes bytes) ∧
    ∃ b, bytes[397 * 1851 + 781]? = some b ∧ |(b.toNat : Rat) / 2| ≤ 1 / 4 + 2 / 1000 := by
  have hk : weatherMsg.product.known := trivial
  obtain ⟨grid, tr, hg, ht⟩ := swiss_demo weatherMsg_ok hk weatherMsg_full hm dirs [] []
  obtain ⟨steps, hs, h1, -⟩ := demo_steps .clct true
  obtain ⟨totals, hs', g1, g0⟩ := demo_steps .totPrec false
  obtain ⟨run, bytes, e, b1, b2, b3⟩ := C99_precipitation m _ _ _ dirs [] [] "hor".toList "vert".toList grid demoTime tr ht hg
    latMsg lonMsg 4 (swiss_constants weatherMsg_ok hk _) (.inl rfl) steps totals hs hs' _ _ _ h1 (g0 rfl) g1 rfl rfl (.inl rfl)
    weatherMsg weatherMsg weatherMsg _ _ _
    (swiss_delivers weatherMsg_ok hk _) weatherMsg_full.toPointField (swiss_delivers weatherMsg_ok hk _)
    weatherMsg_full.toPointField (swiss_delivers weatherMsg_ok hk _) weatherMsg_full.toPointField before
  obtain ⟨o, hsh, hv⟩ := b3 781 397 (by norm_num) (by norm_num)
  obtain rfl := demo_shown hsh
  have p : physical weatherMsg 0 = some 0 := by decide +kernel
  obtain ⟨b, hb, -, -, h⟩ := hv 0 0 p p (by norm_num) (by norm_num) (by norm_num) (by norm_num)
  refine ⟨grid, tr, run, bytes, ht, b1, b, hb, ?_⟩
  have := h (.inl (by norm_num))
  norm_num at this ⊢
  exact this

/-- The wind 3 m/s at all four points. -/
def breezeMsg : Msg := fieldMsg ⟨false, 0, 0⟩ [] [3, 3, 3, 3]

theorem breezeMsg_ok : breezeMsg.ok := fieldMsg_ok ⟨by decide, by decide⟩ (by decide) (by decide) (by decide)

theorem breezeMsg_full : FullField breezeMsg 4 :=
  fieldMsg_full (r := 0) (by decide +kernel) (by norm_num) (by decide) (.inl rfl) (by decide)

/-- The hypotheses of C100 can be met. -/
example (m : Libm) (hm : AccurateRow m) (dirs : Text → Bool) (before : Tree) : ∃ grid tr run bytes,
    Swiss.renderRun m (swissWorld breezeMsg) demoService demoCalendar dirs [] [] grid "vert".toList demoTime tr .done ∧
    before.write tr (binPath run 1 .wind10m) = some (.bytes bytes) ∧
    ∃ b, bytes[(397 * 1851 + 781) * 3]? = some b ∧ |(b.toNat : Rat) - 128 - 3 * (194384 / 100000)| ≤ 1 / 2 + 2 / 100 := by
  have hk : breezeMsg.product.known := trivial
  have hd := swiss_delivers breezeMsg_ok hk
  have hf := breezeMsg_full.toPointField
  obtain ⟨grid, tr, hg, ht⟩ := swiss_demo breezeMsg_ok hk breezeMsg_full hm dirs [] []
  obtain ⟨us, hu, u1, -⟩ := demo_steps .u10m false
  obtain ⟨vs, hv, v1, -⟩ := demo_steps .v10m false
  obtain ⟨gs, hgs, g1, -⟩ := demo_steps .vmax10m false
  obtain ⟨run, bytes, e, b1, b2, b3⟩ := C100_wind_partial m _ _ _ dirs [] [] "hor".toList "vert".toList grid demoTime tr ht hg
    latMsg lonMsg 4 (swiss_constants breezeMsg_ok hk _) (.inl rfl) us vs gs hu hv hgs _ _ _ u1 v1 g1 rfl rfl (.inl rfl)
    breezeMsg breezeMsg breezeMsg _ _ _ (hd _) hf (hd _) hf (hd _) hf before
  obtain ⟨o, bu, bv, bg, hsh, h1, -, -, -, h⟩ := b3 781 397 (by norm_num) (by norm_num)
  obtain rfl := demo_shown hsh
  have p : physical breezeMsg 0 = some 3 := by decide +kernel
  obtain ⟨-, h2, -⟩ := h 3 3 p p (by norm_num) (by norm_num) (by norm_num) (by norm_num)
  exact ⟨grid, tr, run, bytes, ht, b1, bu, h1, h2⟩

/-- The wind -1 m/s at all four points. -/
def minusMsg : Msg := fieldMsg ⟨true, 127, 0⟩ [] [0, 0, 0, 0]

theorem minusMsg_ok : minusMsg.ok := fieldMsg_ok ⟨by decide, by decide⟩ (by decide) (by decide) (by decide)

theorem minusMsg_full : FullField minusMsg 4 :=
  fieldMsg_full (r := -1) (by decide +kernel) (by norm_num) (by decide) (.inl rfl) (by decide)

theorem minus_grid {grid : UnstructuredGrid} (hp : Placed grid latMsg lonMsg 4) {st : RunStep} {G : LatLonValueGrid Fl}
    (h : Swiss.readGrid (swissWorld minusMsg) grid id st = .ok G) : Filled G 1851 847 ∧
    ∀ x y, x < 1851 → y < 847 → cell G 1851 x y = none := by
  unfold Swiss.readGrid World.readUnstructured at h
  rw [(swiss_delivers minusMsg_ok trivial st.url).readFirst (msgs := (swissMsgs minusMsg).tail), Res.bind_ok] at h
  have hv : Grib2.calculateDataPoints minusMsg.doc missingF32 id = .ok (List.replicate 4 (.fin (-1))) := by decide +kernel
  unfold Grib2.convertUnstructured at h
  rw [hv, Res.bind_ok] at h
  obtain ⟨r, e, r1, -, r3, r4, r5⟩ :=
    C25_regrid (⟨grid, List.replicate 4 (.fin (-1)), missingF32⟩ : UnstructuredValueGrid Fl) hp.sized
  rw [e, Res.bind_ok] at h
  cases h
  have hdim : grid.latLonGrid.dimensions = (1851, 847) := by rw [hp.regular]; rfl
  simp only [hdim] at r1 r4 r5
  refine ⟨⟨r1, by norm_num, r4⟩, fun x y hx hy => ?_⟩
  obtain ⟨o, -, hval⟩ := r5 x y hx hy
  have : G.values[y * 1851 + x]? = some (.fin (-1)) := by
    rw [hval]
    cases o with
    | none => rfl
    | some cd =>
      simp only [Option.some.injEq]
      by_cases hi : cd.coordIndex < 4
      · rw [List.getD_eq_getElem?_getD, List.getElem?_replicate, if_pos hi]; rfl
      · rw [List.getD_eq_getElem?_getD, List.getElem?_replicate, if_neg hi]; rfl
  unfold cell
  rw [this, r3]
  rfl

/-- C100 is false: where a component of -1 m/s is published for the nearest point, the wind is written as missing. -/
theorem C100_counterexample (m : Libm) (hm : AccurateRow m) (dirs : Text → Bool) (before : Tree) :
    ∃ (w : World) (s : Swiss.Service) (cal : Swiss.Calendar) (grid : UnstructuredGrid) (tr : List Write) (run : Run)
      (bytes : List UInt8) (us : List RunStep) (st : RunStep) (msg : Msg) (more : List Msg),
    Swiss.renderRun m w s cal dirs [] [] grid "vert".toList demoTime tr .done ∧
    Swiss.steps s demoTime .u10m false = .ok us ∧ st ∈ us ∧ Delivers w st.url (msg :: more) ∧ FullField msg 4 ∧
    before.write tr (binPath run st.nr .wind10m) = some (.bytes bytes) ∧
    (∀ o, Spec.Shows (position latMsg lonMsg) 4 781 397 o → o = some 0) ∧ physical msg 0 = some (-1) ∧
    bytes[(397 * 1851 + 781) * 3]? = some 255 := by
  have hk : minusMsg.product.known := trivial
  obtain ⟨grid, tr, hg, ht⟩ := swiss_demo minusMsg_ok hk minusMsg_full hm dirs [] []
  obtain ⟨us, hu, u1, -⟩ := demo_steps .u10m false
  obtain ⟨vs, hv, -, -⟩ := demo_steps .v10m false
  obtain ⟨gs, hgs, -, -⟩ := demo_steps .vmax10m false
  have hp := placed (swiss_constants minusMsg_ok hk _) hg
  obtain ⟨run, l, e, hl, -, hfile⟩ := bin_of_swiss (v := .wind10m) ht (.inl rfl) (by simp) hu u1 (.inl rfl)
  simp only [swissLayers, hu, hv, hgs, Res.bind_ok, Res.bind_eq_ok, Res.ok.injEq] at hl
  obtain ⟨L, hL, rfl⟩ := hl
  unfold Swiss.readWind at hL
  obtain ⟨_, _, hL⟩ := bind_ok' hL
  obtain ⟨_, _, hL⟩ := bind_ok' hL
  obtain ⟨_, _, hL⟩ := bind_ok' hL
  obtain ⟨U, hU, hL⟩ := bind_ok' hL
  obtain ⟨V, hV, hL⟩ := bind_ok' hL
  obtain ⟨G, hG, hL⟩ := bind_ok' hL
  obtain rfl := wind_new hL
  obtain ⟨fu, cu⟩ := minus_grid hp hU
  obtain ⟨fv, cv⟩ := minus_grid hp hV
  obtain ⟨fg, cg⟩ := minus_grid hp hG
  obtain ⟨bytes, b1, b2, b3⟩ := C39_file (l := ⟨U, V, some G⟩) fu fv (by rintro g ⟨⟩; exact fg)
  refine ⟨swissWorld minusMsg, demoService, demoCalendar, grid, tr, run, bytes, us, _, minusMsg, _, ht, hu, u1,
    swiss_delivers minusMsg_ok hk _, minusMsg_full, hfile before (.bin .wind10m) _ (.wind b1), fun o => demo_shown,
    by decide +kernel, ?_⟩
  obtain ⟨be, bn, bg, h1, -, -, h2, -⟩ := b3 781 397 (by norm_num) (by norm_num)
  rw [h1, h2.mpr (.inl (cu 781 397 (by norm_num) (by norm_num)))]

/-- The level that is written first. -/
theorem swiss_first (f : Msg) : (swissMsgs f)[31 + 0]? = some f := rfl

/-- C101 is false: a published clear sky aloft is written as missing. -/
theorem C101_counterexample (m : Libm) (hm : AccurateRow m) (dirs : Text → Bool) (before : Tree) :
    ∃ (w : World) (s : Swiss.Service) (cal : Swiss.Calendar) (grid : UnstructuredGrid) (tr : List Write) (run : Run)
      (bytes : List UInt8) (steps : List RunStep) (st : RunStep) (covers : List Msg) (msg : Msg),
    Swiss.renderRun m w s cal dirs [] [] grid "vert".toList demoTime tr .done ∧
    Swiss.steps s demoTime .clc false = .ok steps ∧ st ∈ steps ∧ Delivers w st.url covers ∧ covers[31]? = some msg ∧
    FullField msg 4 ∧ before.write tr (binPath run st.nr .verticalClouds) = some (.bytes bytes) ∧
    (∀ o, Spec.Shows (position latMsg lonMsg) 4 781 397 o → o = some 0) ∧ physical msg 0 = some 0 ∧
    bytes[((397 * 1851 + 781) * 49 + 0) * 2 + 1]? = some 255 := by
  have hk : weatherMsg.product.known := trivial
  have hd := swiss_delivers weatherMsg_ok hk
  have hl : 80 ≤ (swissMsgs weatherMsg).length := by simp [swissMsgs]
  have hf : ∀ k msg, 31 ≤ k → k ≤ 79 → (swissMsgs weatherMsg)[k]? = some msg → PointField msg 4 :=
    fun k msg h _ e => by rw [swiss_levelMsg h e]; exact weatherMsg_full.toPointField
  obtain ⟨grid, tr, hg, ht⟩ := swiss_demo weatherMsg_ok hk weatherMsg_full hm dirs [] []
  obtain ⟨steps, hs, h1, -⟩ := demo_steps .clc false
  obtain ⟨run, bytes, e, b1, b2, b3⟩ := C101_clouds_partial m _ _ _ dirs [] [] "hor".toList "vert".toList grid demoTime tr ht hg
    latMsg lonMsg 4 (swiss_constants weatherMsg_ok hk _) (.inl rfl) steps hs _ h1 (.inl rfl) _ _ (hd _) hl hf (hd _) hl hf before
  obtain ⟨o, hsh, h⟩ := b3 781 397 (by norm_num) (by norm_num)
  obtain rfl := demo_shown hsh
  have p : physical weatherMsg 0 = some 0 := by decide +kernel
  obtain ⟨bh, bc, -, c1, -, -, -, c2⟩ := h 0 _ _ (by norm_num) (swiss_first _) (swiss_first _)
  refine ⟨swissWorld weatherMsg, demoService, demoCalendar, grid, tr, run, bytes, steps, _, swissMsgs weatherMsg, weatherMsg,
    ht, hs, h1, hd _, swiss_first _, weatherMsg_full, b1, fun o => demo_shown, p, ?_⟩
  rw [c1, (c2 0 p).2 (by norm_num) (by norm_num)]

/-- The value 50 at all four points. -/
def galeMsg : Msg := fieldMsg ⟨false, 0, 0⟩ [] [50, 50, 50, 50]

theorem galeMsg_ok : galeMsg.ok := fieldMsg_ok ⟨by decide, by decide⟩ (by decide) (by decide) (by decide)

theorem galeMsg_full : FullField galeMsg 4 :=
  fieldMsg_full (r := 0) (by decide +kernel) (by norm_num) (by decide) (.inl rfl) (by decide)

/-- The hypotheses of C102 can be met: 50 m/s at a height of 50 m. -/
example (m : Libm) (hm : AccurateRow m) (dirs : Text → Bool) (before : Tree) : ∃ grid tr run bytes,
    Swiss.renderRun m (swissWorld galeMsg) demoService demoCalendar dirs [] [] grid "vert".toList demoTime tr .done ∧
    before.write tr (binPath run 1 .verticalWind) = some (.bytes bytes) ∧
    ∃ bh bu : UInt8, bytes[((397 * 1851 + 781) * 49 + 0) * 3]? = some bh ∧
      bytes[((397 * 1851 + 781) * 49 + 0) * 3 + 1]? = some bu ∧ bh.toNat = 1 ∧
      |(bu.toNat : Rat) - 128 - 50 * (194384 / 100000)| ≤ 1 / 2 + 2 / 100 := by
  have hk : galeMsg.product.known := trivial
  have hd := swiss_delivers galeMsg_ok hk
  have hl : 80 ≤ (swissMsgs galeMsg).length := by simp [swissMsgs]
  have hf : ∀ k msg, 31 ≤ k → k ≤ 79 → (swissMsgs galeMsg)[k]? = some msg → PointField msg 4 :=
    fun k msg h _ e => by rw [swiss_levelMsg h e]; exact galeMsg_full.toPointField
  obtain ⟨grid, tr, hg, ht⟩ := swiss_demo galeMsg_ok hk galeMsg_full hm dirs [] []
  obtain ⟨us, hu, u1, -⟩ := demo_steps .u false
  obtain ⟨vs, hv, v1, -⟩ := demo_steps .v false
  obtain ⟨run, bytes, e, b1, b2, b3⟩ := C102_wind m _ _ _ dirs [] [] "hor".toList "vert".toList grid demoTime tr ht hg
    latMsg lonMsg 4 (swiss_constants galeMsg_ok hk _) (.inl rfl) us vs hu hv _ _ u1 v1 rfl (.inl rfl) _ _ _
    (hd _) hl hf (hd _) hl hf (hd _) hl hf before
  obtain ⟨o, hsh, h⟩ := b3 781 397 (by norm_num) (by norm_num)
  obtain rfl := demo_shown hsh
  have p : physical galeMsg 0 = some 50 := by decide +kernel
  obtain ⟨bh, bu, bv, c1, c2, -, -, c3, -, -, c4⟩ := h 0 _ _ _ (by norm_num) (swiss_first _) (swiss_first _) (swiss_first _)
  refine ⟨grid, tr, run, bytes, ht, b1, bh, bu, c1, c2, ?_, (c4 50 50 p p).1 (by norm_num)⟩
  obtain ⟨-, d1, d2⟩ := c3 50 p (by norm_num) (by norm_num)
  have e1 : (0 : Rat) < bh.toNat := by linarith
  have e2 : (bh.toNat : Rat) < 2 := by linarith
  have e1 : 0 < bh.toNat := by exact_mod_cast e1
  have e2 : bh.toNat < 2 := by exact_mod_cast e2
  omega

end Verif.Props
