import Verif.Props.Sums

/-!
# Property C169: precipitation where a total is missing
-/

namespace Verif.Props

open Verif MapTileRenderer Dwd
open Verif.Metobin (precipByte asU8)
open Verif.Spec (Filled cell)
open Verif.Spec.Grib2 (Msg encode)

/-- What the code writes for a cell, missing totals included. -/
theorem precip_formula {l : CloudPrecipLayer} {w h : Nat} (hc : Filled l.cloud w h) (h0 : Filled l.precip0 w h)
    (h1 : Filled l.precip1 w h) :
    ∃ bytes, Metobin.precipBin l = .ok bytes ∧ bytes.length = w * h ∧ ∀ x y, x < w → y < h →
      bytes[y * w + x]? = some (precipByte (some (unwrapOr (cell l.cloud w x y) (.fin 0),
        Fl.sub f32 (unwrapOr (cell l.precip1 w x y) (.fin 0)) (unwrapOr (cell l.precip0 w x y) (.fin 0))))) := by
  obtain ⟨bytes, g1, g2, g3⟩ := Metobin.forCells_layout (w := w) (h := h) (k := 1)
    (f := fun x y => (l.getCloudAndPrecipByXY x y).bind fun v => .ok [precipByte v])
    (fun x y => [precipByte (some (unwrapOr (cell l.cloud w x y) (.fin 0),
      Fl.sub f32 (unwrapOr (cell l.precip1 w x y) (.fin 0)) (unwrapOr (cell l.precip0 w x y) (.fin 0))))])
    (fun x y hx hy => by
      unfold CloudPrecipLayer.getCloudAndPrecipByXY
      rw [hc.get hx hy, h0.get hx hy, h1.get hx hy]; rfl) (fun _ _ _ _ => rfl)
  refine ⟨bytes, ?_, by rw [g2]; ring, fun x y hx hy => ?_⟩
  · unfold Metobin.precipBin CloudPrecipLayer.dims; rw [hc.dims']; exact g1
  · have := g3 x y 0 hx hy (by norm_num)
    rw [Nat.mul_one, Nat.add_zero] at this
    exact this

/-- An amount that is not positive is written as 0. -/
theorem precipByte_dry {c : Fl} {a : Rat} (h : a ≤ 0) : precipByte (some (c, .fin a)) = 0 := by
  have h1 := precipByte_mono (c := c) (d := c) (a := .fin a) (b := .fin 0) (by rw [Fl.le_fin]; exact h)
  have h2 : precipByte (some (c, .fin 0)) = 0 := by
    rw [show precipByte (some (c, .fin 0)) = precipByte (some (.fin 0, .fin 0)) from rfl]; decide +kernel
  rw [h2] at h1
  have h3 := UInt8.le_iff_toNat_le.mp h1
  exact UInt8.toNat_inj.mp (by simpa using h3)

/-- What C169 says about a place with the totals `before` and `after`, of which one is missing, and its byte: it is never
255; it is 0 if the later total is missing, and else it stands for all the precipitation since the start of the run. -/
def TakenAsZero (b : UInt8) : Option Rat → Option Rat → Prop
  | none, some t => 0 ≤ t → t ≤ 126 → b ≠ 255 ∧ -(252 / 1000) ≤ (b.toNat : Rat) / 2 - t ∧ (b.toNat : Rat) / 2 - t ≤ 302 / 1000
  | some t, none => 0 ≤ t → t ≤ 1000 → b = 0
  | none, none => b = 0
  | some _, some _ => True

theorem precip_bytes_missing {C P0 P1 : LatLonValueGrid Fl} {ni nj : Nat} {Q0 Q1 : Nat → Nat → Option Rat} (hC : Filled C ni nj)
    (h0 : Holds P0 ni nj Q0) (h1 : Holds P1 ni nj Q1) :
    ∃ bytes, Metobin.precipBin ⟨C, P0, P1⟩ = .ok bytes ∧ bytes.length = ni * nj ∧
      ∀ x y, x < ni → y < nj → ∃ b : UInt8, bytes[y * ni + x]? = some b ∧ TakenAsZero b (Q0 x y) (Q1 x y) := by
  obtain ⟨f0, c0⟩ := h0
  obtain ⟨f1, c1⟩ := h1
  obtain ⟨bytes, b1, b2, b3⟩ := precip_formula (l := ⟨C, P0, P1⟩) hC f0 f1
  refine ⟨bytes, b1, b2, fun x y hx hy => ⟨_, b3 x y hx hy, ?_⟩⟩
  have hu : ∀ v : Fl, unwrapOr (none : Option Fl) v = v := fun _ => rfl
  have hu' : ∀ v w : Fl, unwrapOr (some v) w = v := fun _ _ => rfl
  generalize unwrapOr (cell C ni x y) (.fin 0) = cl
  cases e0 : Q0 x y with
  | none =>
    rw [(c0 x y hx hy).1 e0, hu]
    cases e1 : Q1 x y with
    | none =>
      rw [(c1 x y hx hy).1 e1, hu]
      have : Fl.sub f32 (.fin 0) (.fin 0) = .fin 0 := by decide +kernel
      rw [this]
      exact precipByte_dry (le_refl _)
    | some t =>
      intro t0 t1
      obtain ⟨v, a1, d1⟩ := (c1 x y hx hy).2 t e1
      rw [abs_of_nonneg t0] at a1
      have a1 := abs_le.mp (a1.trans (show _ ≤ (1 / 10000 : Rat) by linarith))
      rw [if_neg (by intro e; linarith [a1.1])] at d1
      rw [d1, hu']
      have habs : |v - 0| ≤ 127 := by
        rw [abs_le]; constructor <;> linarith [a1.1, a1.2]
      obtain ⟨a, ha, _, ea⟩ := rnd32_err_le habs (by norm_num)
      have ea := abs_le.mp (ea.trans (show _ ≤ (1 / 10000 : Rat) by norm_num))
      have hsub : Fl.sub f32 (.fin v) (.fin 0) = .fin a := by rw [Fl.sub_fin, ha]
      rw [hsub]
      obtain ⟨e3, e4, e5⟩ := precipByte_acc (c := cl) (a := a) (by linarith [a1.1, ea.1]) (by linarith [a1.2, ea.2])
      refine ⟨fun h255 => by rw [h255] at e3; exact absurd e3 (by decide), ?_⟩
      by_cases hr : 13421773 / 67108864 ≤ a ∧ a < 1 / 2
      · rw [e4 hr, show (1 : UInt8).toNat = 1 from rfl, Nat.cast_one]
        constructor <;> linarith [a1.1, a1.2, ea.1, ea.2, hr.1, hr.2]
      · have e5 := abs_le.mp (e5 hr)
        constructor <;> linarith [a1.1, a1.2, ea.1, ea.2, e5.1, e5.2]
  | some t =>
    cases e1 : Q1 x y with
    | some _ => trivial
    | none =>
      intro t0 t1
      rw [(c1 x y hx hy).1 e1, hu]
      obtain ⟨v, a1, d1⟩ := (c0 x y hx hy).2 t e0
      rw [abs_of_nonneg t0] at a1
      have a1 := abs_le.mp (a1.trans (show _ ≤ (3 / 10000 : Rat) by linarith))
      rw [if_neg (by intro e; linarith [a1.1])] at d1
      rw [d1, hu']
      have habs : |0 - v| ≤ 1001 := by
        rw [abs_le]; constructor <;> linarith [a1.1, a1.2]
      obtain ⟨a, ha, _, ea⟩ := rnd32_err_le habs (by norm_num)
      have ea := abs_le.mp (ea.trans (show _ ≤ (1 / 1000 : Rat) by norm_num))
      have hsub : Fl.sub f32 (.fin 0) (.fin v) = .fin a := by rw [Fl.sub_fin, ha]
      rw [hsub]
      have hbound : a ≤ 1 / 10 := by linarith [a1.1, ea.2]
      have hm := precipByte_mono (c := cl) (d := cl) (a := .fin a) (b := .fin (1 / 10)) (by rw [Fl.le_fin]; exact hbound)
      have h2 : precipByte (some (cl, .fin (1 / 10))) = 0 := by
        rw [show precipByte (some (cl, .fin (1 / 10))) = precipByte (some (.fin 0, .fin (1 / 10))) from rfl]; decide +kernel
      rw [h2] at hm
      have h3 := UInt8.le_iff_toNat_le.mp hm
      exact UInt8.toNat_inj.mp (by simpa using h3)

/-- **C169, DWD.**  False: where a total of the precipitation is missing, the file of an hour never says that the
precipitation of the hour is unknown.  If the later total is missing it says 0; if the earlier one is, it says that all
the precipitation since the start of the run fell in this hour. -/
theorem C169_dwd_negation (e : Environment) (model : FcModel) (hd : IsDwd model) (name : Text)
    (hn : Newest e.available model e.today name) (vars : List Text) (filter : List Nat) (tr : List Write)
    (h : mainEffect e (dwdName model) vars filter tr .done) (hv : ChosenVar vars .cloudPrecip) (s : RunStep)
    (hs : s ∈ model.forecastSteps) (hc : Chosen filter s) (clct total0 total1 : Msg) (ni nj : Nat)
    (hpc : Publishes e.world ⟨model, e.today, name⟩ (.single .clctMod s.nr) clct) (hfc : Field clct ni nj)
    (hp0 : Publishes e.world ⟨model, e.today, name⟩ (.single .totPrec (s.nr - 1)) total0) (hf0 : Field total0 ni nj)
    (hp1 : Publishes e.world ⟨model, e.today, name⟩ (.single .totPrec s.nr) total1) (hf1 : Field total1 ni nj)
    (before : Tree) :
    ∃ bytes, before.write tr (binPath ⟨model, e.today, name⟩ s.nr .precip) = some (.bytes bytes) ∧
      bytes.length = ni * nj ∧ ∀ x y, x < ni → y < nj → ∃ b : UInt8, bytes[y * ni + x]? = some b ∧
        TakenAsZero b (physical total0 (y * ni + x)) (physical total1 (y * ni + x)) := by
  rw [C154_run e model hd name hn] at h
  obtain ⟨l, hl, _, hfile⟩ := bin_of_run (newestName_no_slash hn.1) h hv (by simp) hs hc
  simp only [dwdLayers, Res.bind_eq_ok, Res.ok.injEq] at hl
  obtain ⟨C, hC, P0, hP0, P1, hP1, L, hL, _, _, _, _, _, _, W, _, rfl⟩ := hl
  obtain rfl := cloudPrecip_new hL
  obtain ⟨bytes, b1, b2, b3⟩ := precip_bytes_missing (cell_of_field hd hpc hfc hC).1 (cell_of_field hd hp0 hf0 hP0)
    (cell_of_field hd hp1 hf1 hP1)
  exact ⟨bytes, hfile before (.bin .precip) _ (.precip b1), b2, b3⟩

/-- **C169, MeteoSwiss.**  False: the same for the point that a cell shows; a cell that shows no point has a 0. -/
theorem C169_swiss_negation (m : Libm) (w : World) (s : Swiss.Service) (cal : Swiss.Calendar) (dirs : Text → Bool)
    (vars : List Text) (filter : List Nat) (hor vertUrl : Text) (grid : UnstructuredGrid) (t : Instant) (tr : List Write)
    (h : Swiss.renderRun m w s cal dirs vars filter grid vertUrl t tr .done)
    (hg : Swiss.readHorConst w hor = .ok grid) (lat lon : Msg) (points : Nat) (hk : Constants w hor lat lon points)
    (hv : ChosenVar vars .cloudPrecip) (steps totals : List RunStep) (hs : Swiss.steps s t .clct true = .ok steps)
    (hs' : Swiss.steps s t .totPrec false = .ok totals) (cover total0 total1 : RunStep) (hc : cover ∈ steps)
    (hch : Chosen filter cover) (ht0 : total0 ∈ totals) (hn0 : total0.nr + 1 = cover.nr) (ht1 : total1 ∈ totals)
    (hn1 : total1.nr = cover.nr) (clct sum0 sum1 : Msg) (more more0 more1 : List Msg)
    (hd : Delivers w cover.url (clct :: more)) (hf : PointField clct points)
    (hd0 : Delivers w total0.url (sum0 :: more0)) (hf0 : PointField sum0 points)
    (hd1 : Delivers w total1.url (sum1 :: more1)) (hf1 : PointField sum1 points) (before : Tree) :
    ∃ (run : Run) (bytes : List UInt8), Swiss.forecastRun cal t = .ok run ∧
      before.write tr (binPath run cover.nr .precip) = some (.bytes bytes) ∧ bytes.length = 1851 * 847 ∧
      ∀ x y, x < 1851 → y < 847 → ∃ (o : Option Nat) (b : UInt8), Spec.Shows (position lat lon) points x y o ∧
        bytes[y * 1851 + x]? = some b ∧ TakenAsZero b (o.bind (physical sum0)) (o.bind (physical sum1)) := by
  have hp := placed hk hg
  obtain ⟨run, l, hrun, hl, _, hfile⟩ := bin_of_swiss h hv (by simp) hs hc hch
  simp only [swissLayers, hs, hs', Res.bind_ok, Res.bind_eq_ok, Res.ok.injEq] at hl
  obtain ⟨_, _, L, hL, _, _, rfl⟩ := hl
  unfold Swiss.readCloudPrecip at hL
  rw [cloudPrecipSteps_ok (by omega) (getStep_of_mem (steps_numbered hs) hc rfl)
    (getStep_of_mem (steps_numbered hs') ht0 (by omega)) (getStep_of_mem (steps_numbered hs') ht1 (by omega)), Res.bind_ok] at hL
  obtain ⟨C, hC, hL⟩ := bind_ok' hL
  obtain ⟨P0, hP0, hL⟩ := bind_ok' hL
  obtain ⟨P1, hP1, hL⟩ := bind_ok' hL
  obtain rfl := cloudPrecip_new hL
  obtain ⟨bytes, b1, b2, b3⟩ := precip_bytes_missing (filled_of_file hp hd hf hC) (holds_of_file hp hd0 hf0 hP0)
    (holds_of_file hp hd1 hf1 hP1)
  refine ⟨run, bytes, hrun, hfile before (.bin .precip) _ (.precip b1), b2, fun x y hx hy => ?_⟩
  obtain ⟨b, e1, e2⟩ := b3 x y hx hy
  exact ⟨_, b, hp.shows x y hx hy, e1, e2⟩

/-! ## The hypotheses can be met -/

/-- A run of MeteoSwiss with precipitation in hour 1. -/
example (m : Libm) (hm : Spec.AccurateRow m) (dirs : Text → Bool) (before : Tree) : ∃ grid tr run bytes,
    Swiss.renderRun m (swissWorld weatherMsg) demoService demoCalendar dirs [] [] grid "vert".toList demoTime tr .done ∧
    before.write tr (binPath run 1 .precip) = some (.bytes bytes) ∧
    ∀ x y, x < 1851 → y < 847 → Spec.Shows (position latMsg lonMsg) 4 x y none →
      (∀ o, Spec.Shows (position latMsg lonMsg) 4 x y o → o = none) → bytes[y * 1851 + x]? = some 0 := by
  have hk : weatherMsg.product.known := trivial
  obtain ⟨grid, tr, hg, ht⟩ := swiss_demo weatherMsg_ok hk weatherMsg_full hm dirs [] []
  obtain ⟨steps, hs, h1, -⟩ := demo_steps .clct true
  obtain ⟨totals, hs', g1, g0⟩ := demo_steps .totPrec false
  obtain ⟨run, bytes, -, b1, -, b3⟩ := C169_swiss_negation m _ _ _ dirs [] [] "hor".toList "vert".toList grid demoTime tr ht hg
    latMsg lonMsg 4 (swiss_constants weatherMsg_ok hk _) (.inl rfl) steps totals hs hs' ⟨1, "b".toList⟩ ⟨0, "a".toList⟩
    ⟨1, "b".toList⟩ h1 (.inl rfl) (g0 rfl) rfl g1 rfl weatherMsg weatherMsg weatherMsg _ _ _
    (swiss_delivers weatherMsg_ok hk _) weatherMsg_full.toPointField
    (swiss_delivers weatherMsg_ok hk _) weatherMsg_full.toPointField
    (swiss_delivers weatherMsg_ok hk _) weatherMsg_full.toPointField before
  refine ⟨grid, tr, run, bytes, ht, b1, fun x y hx hy _ hu => ?_⟩
  obtain ⟨o, b, o1, o2, o3⟩ := b3 x y hx hy
  obtain rfl := hu o o1
  rw [o2, show b = 0 from o3]

attribute [local irreducible] mainEffect

/-- **C169** is false: a call that succeeds, and a point for which no total was published before hour 4, and 2 mm then: the
file of hour 4 says that 2 mm fell in this hour. -/
theorem C169_counterexample (service : Swiss.Service) (cal : Swiss.Calendar) (dirs : Text → Bool) (before : Tree) :
    ∃ (m : Libm) (tr : List Write) (bytes : List UInt8),
    mainEffect ⟨m, rainWorld, service, cal, dirs, ⟨2025, 8, 5⟩, ⟨2025, 8, 5⟩, fun _ => true⟩ "icon-eu".toList [] [] tr .done ∧
    Publishes rainWorld rainRun (.single .totPrec 3) weatherMsg ∧ physical weatherMsg 1 = none ∧
    before.write tr (binPath rainRun 4 .precip) = some (.bytes bytes) ∧ bytes[1]? = some 4 := by
  obtain ⟨m, _, hm⟩ := exists_both
  have hn : Newest (fun _ => true) .iconEu ⟨2025, 8, 5⟩ "21".toList := by
    refine ⟨by decide +kernel, ?_, ?_⟩
    · intro r hr
      obtain ⟨url, hu, -⟩ := C52_download (run := ⟨.iconEu, ⟨2025, 8, 5⟩, "21".toList⟩) (.inr rfl) r
      exact ⟨url, hu, rfl⟩
    · have : ∀ n ∈ runNames, ¬ valueOf "21".toList < valueOf n := by decide +kernel
      exact fun n hn h => absurd h (this n hn)
  obtain ⟨tr, h⟩ := (C105_main ⟨m, rainWorld, service, cal, dirs, ⟨2025, 8, 5⟩, ⟨2025, 8, 5⟩, fun _ => true⟩ hm
    [] [] .iconEu (.inr rfl) "21".toList hn demoArea demoArea_valid 2 2 (fun _ _ _ _ _ r _ => rain_area r)
    fun _ k _ _ => rain_area _).1
  obtain ⟨bytes, f1, -, f2⟩ := C169_dwd_negation
    ⟨m, rainWorld, service, cal, dirs, ⟨2025, 8, 5⟩, ⟨2025, 8, 5⟩, fun _ => true⟩ .iconEu (.inr rfl) "21".toList hn
    [] [] tr h (.inl rfl) ⟨4, []⟩ (by decide +kernel) (.inl rfl) weatherMsg weatherMsg wetMsg 2 2
    (rain_other (by simp)) weatherMsg_field (rain_other (by simp)) weatherMsg_field rain_wet wetMsg_field before
  have p0 : physical weatherMsg 1 = none := by decide +kernel
  have p1 : physical wetMsg 1 = some 2 := by decide +kernel
  obtain ⟨b, b1, b2⟩ := f2 1 0 (by omega) (by omega)
  rw [show 0 * 2 + 1 = 1 from rfl] at b1 b2
  rw [p0, p1] at b2
  obtain ⟨_, b3, b4⟩ := b2 (by norm_num) (by norm_num)
  have : b = 4 := by
    have h1 : (3 : Rat) < b.toNat := by linarith
    have h2 : (b.toNat : Rat) < 5 := by linarith
    have h1 : 3 < b.toNat := by exact_mod_cast h1
    have h2 : b.toNat < 5 := by exact_mod_cast h2
    exact UInt8.toNat_inj.mp (show b.toNat = 4 by omega)
  exact ⟨m, tr, bytes, h, rain_other (by simp), p0, f1, this ▸ b1⟩

end Verif.Props
