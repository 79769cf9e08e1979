import Verif.Props.DwdSuccess
import Verif.Props.SwissDemo

/-!
# C106, C107: from the published weather to the weather file
-/

namespace Verif.Props

open Verif MapTileRenderer Dwd
open Verif.Spec (Filled cell AccurateRow)
open Verif.Spec.Grib2 (Msg encode)

/-- The class of a cloud cover (as a fraction): clear up to half an eighth, then up to 3.5 and 6.5 eighths. -/
def coverOf (q : Rat) : Nat :=
  if q ≤ 1 / 16 then 0 else if q ≤ 7 / 16 then 1 else if q ≤ 13 / 16 then 2 else 3

theorem coverClass_fin (q : Rat) : coverClass (.fin q) = coverOf q := by
  unfold coverClass coverOf
  simp only [Fl.le, decide_eq_true_eq]

/-- The cells of a grid hold the given covers up to rounding. -/
def HoldsCover (G : LatLonValueGrid Fl) (ni nj : Nat) (P : Nat → Nat → Option Rat) : Prop :=
  Filled G ni nj ∧ ∀ x y, x < ni → y < nj → (P x y = none → cell G ni x y = none) ∧
    ∀ q, P x y = some q → 0 ≤ q → q ≤ 1000 → ∃ v : Rat, |v - q| ≤ q / 2 ^ 20 + 1 / 2 ^ 100 ∧ cell G ni x y = some (.fin v)

theorem Holds.cover {G : LatLonValueGrid Fl} {ni nj : Nat} {P : Nat → Nat → Option Rat} (h : Holds G ni nj P) :
    HoldsCover G ni nj P := by
  refine ⟨h.1, fun x y hx hy => ⟨(h.2 x y hx hy).1, fun q hq q0 q1 => ?_⟩⟩
  obtain ⟨v, v1, v2⟩ := (h.2 x y hx hy).2 q hq
  rw [abs_of_nonneg q0] at v1
  have v3 := abs_le.mp (v1.trans (show _ ≤ (1 / 100 : Rat) by linarith))
  refine ⟨v, v1.trans (by linarith), ?_⟩
  rw [v2, if_neg]
  intro e
  linarith [v3.1]

theorem weather_bytes {C E : LatLonValueGrid Fl} {ww : Option (LatLonValueGrid Fl)} {ni nj : Nat}
    {Qc Qe : Nat → Nat → Option Rat} {code : Nat → Nat → Option UInt8} (hC : HoldsCover C ni nj Qc) (hE : Holds E ni nj Qe)
    (hW : ∀ g, ww = some g → Filled g ni nj)
    (hcode : ∀ x y, x < ni → y < nj → (code x y = none → wwCell ⟨C, E, ww⟩ ni x y = none) ∧
      ∀ c, code x y = some c → c ∈ knownCodes ∧ wwCell ⟨C, E, ww⟩ ni x y = some (.fin (c.toNat : Rat))) :
    ∃ bytes, Metobin.weatherBin ⟨C, E, ww⟩ = .ok bytes ∧ bytes.length = ni * nj * 2 ∧
      ∀ x y, x < ni → y < nj → ∃ bw bc : UInt8, bytes[(y * ni + x) * 2]? = some bw ∧
        bytes[(y * ni + x) * 2 + 1]? = some bc ∧
        (∀ c, code x y = some c → 4 < c.toNat → bw = c) ∧
        ((∀ c, code x y = some c → c.toNat ≤ 4) → (Qc x y = none → bw = 255) ∧
          ∀ q, Qc x y = some q → 0 ≤ q → q ≤ 1000 →
            ∃ v : Rat, |v - q| ≤ q / 2 ^ 20 + 1 / 2 ^ 100 ∧ bw.toNat = coverOf v) ∧
        (Qe x y = none → bc = 255) ∧
        ∀ q, Qe x y = some q → 0 ≤ q → q ≤ 99999 →
          (q * (328084 / 100000) ≤ 50898 → bc ≠ 255 ∧ |(bc.toNat : Rat) * 200 - q * (328084 / 100000)| ≤ 100 + 1 / 4) ∧
          (50902 ≤ q * (328084 / 100000) → bc = 255) := by
  classical
  have hex : ∀ x y, ∃ o : Option Weather, x < ni → y < nj →
      WeatherLayer.interpret (wwCell ⟨C, E, ww⟩ ni x y) = .ok o ∧ o.map (fun w => w.toValue) = code x y := by
    intro x y
    by_cases hxy : x < ni ∧ y < nj
    · obtain ⟨h1, h2⟩ := hcode x y hxy.1 hxy.2
      cases hc : code x y with
      | none => exact ⟨none, fun _ _ => by rw [h1 hc]; exact ⟨rfl, rfl⟩⟩
      | some c =>
        obtain ⟨hk, hcell⟩ := h2 c hc
        obtain ⟨wt, hwt⟩ := (C41_round_trip_partial.2 c).mpr hk
        refine ⟨some wt, fun _ _ => ?_⟩
        rw [hcell]
        have e := (C41_round_trip_partial.1 c wt).mp hwt
        refine ⟨?_, by rw [e]; rfl⟩
        simp only [WeatherLayer.interpret, byte_of_code, hwt]
        rfl
    · exact ⟨none, fun hx hy => absurd ⟨hx, hy⟩ hxy⟩
  choose o ho using hex
  obtain ⟨bytes, b1, b2, b3⟩ := C40_file (l := ⟨C, E, ww⟩) hC.1 hE.1 hW o fun x y hx hy => (ho x y hx hy).1
  refine ⟨bytes, b1, b2, fun x y hx hy => ?_⟩
  obtain ⟨bw, bc, c1, c2, c3, -, c5, c6⟩ := b3 x y hx hy
  obtain ⟨-, hcd⟩ := ho x y hx hy
  obtain ⟨p1, p2⟩ := hC.2 x y hx hy
  obtain ⟨p3, p4⟩ := hE.2 x y hx hy
  have hexp : bw.toNat = expectedWw ((code x y).map fun c => c.toNat) (cell C ni x y) := by
    rw [c3, ← hcd, Option.map_map]
    rfl
  refine ⟨bw, bc, c1, c2, ?_, ?_, fun hq => c5 (p3 hq), ?_⟩
  · intro c hc h4
    apply byte_eq_of_toNat
    rw [hexp, hc]
    unfold expectedWw
    simp only [Option.map_some]
    cases cell C ni x y <;> simp only [if_pos h4]
  · intro hle
    have hred : bw.toNat = match cell C ni x y with
        | some v => coverClass v
        | none => 255 := by
      rw [hexp]
      unfold expectedWw
      cases hc : code x y with
      | none => cases cell C ni x y <;> rfl
      | some c =>
        have h4 : ¬ c.toNat > 4 := by have := hle c hc; omega
        cases cell C ni x y <;> simp only [Option.map_some, if_neg h4]
    refine ⟨fun hq => ?_, fun q hq q0 q1 => ?_⟩
    · rw [p1 hq] at hred
      exact byte_eq_of_toNat hred
    · obtain ⟨v, v1, v2⟩ := p2 q hq q0 q1
      rw [v2] at hred
      exact ⟨v, v1, by rw [hred]; exact coverClass_fin v⟩
  · intro q hq q0 q1
    obtain ⟨v, v1, v2⟩ := p4 q hq
    rw [abs_of_nonneg q0] at v1
    have v3 := abs_le.mp (v1.trans (show _ ≤ q / 2000000 + (1 / 2000 : Rat) by linarith))
    rw [if_neg (by intro e; linarith [v3.1])] at v2
    obtain ⟨d1, d2⟩ := c6 v v2 (by linarith [v3.1]) (by linarith [v3.2])
    refine ⟨fun g => ?_, fun g => d2 (by linarith [v3.1])⟩
    obtain ⟨d3, d4⟩ := d1 (by linarith [v3.2])
    have d4 := abs_le.mp d4
    refine ⟨by rintro rfl; exact absurd d3 (by decide), ?_⟩
    rw [abs_le]
    constructor <;> linarith [d4.1, d4.2, v3.1, v3.2]

/-! ## DWD -/

/-- The weather code that a number stands for. -/
def codeOf (q : Rat) : UInt8 := UInt8.ofNat ⌊q⌋.toNat

theorem codeOf_nat (c : UInt8) : codeOf (c.toNat : Rat) = c := by
  unfold codeOf
  have : ⌊(c.toNat : Rat)⌋ = (c.toNat : Int) := by exact_mod_cast Int.floor_natCast (R := Rat) c.toNat
  rw [this, Int.toNat_natCast, UInt8.ofNat_toNat]

theorem weather_new {C E : LatLonValueGrid Fl} {ww : Option (LatLonValueGrid Fl)} {L : WeatherLayer}
    (h : WeatherLayer.new C E ww = .ok L) : L = ⟨C, E, ww⟩ := by
  by_cases hfit : Fit C E
  · rw [(C43_weather_partial C E ww).1.mpr hfit] at h
    exact (Res.ok.inj h).symm
  · rw [(C43_weather_partial C E ww).2.mpr hfit] at h
    cases h

/-- C106: if a DWD run is rendered successfully with clouds and precipitation and the step selected, and cloud cover,
ceiling and weather codes are published, then the weather file has two bytes for each grid point.  The first is the
published code where that is above 4; else the class of the published cloud cover (up to a millionth of it), and 255
if that is missing.  The second gives the published ceiling in units of 200 feet, to half a unit (plus a quarter of a
foot) up to 50898 feet; it is 255 above 50902 feet and where the ceiling is missing. -/
theorem C106_weather (m : Libm) (w : World) (dirs : Text → Bool) (vars : List Text) (filter : List Nat) (run : Run)
    (hm : IsDwd run.model) (hn : '/' ∉ run.name) (tr : List Write)
    (h : Dwd.renderRun m w dirs vars filter run tr .done) (hv : ChosenVar vars .cloudPrecip) (s : RunStep)
    (hs : s ∈ run.model.forecastSteps) (hc : Chosen filter s) (clct ceiling ww : Msg) (ni nj : Nat)
    (hpc : Publishes w run (.single .clctMod s.nr) clct) (hfc : Field clct ni nj)
    (hpe : Publishes w run (.single .ceiling s.nr) ceiling) (hfe : Field ceiling ni nj)
    (hpw : Publishes w run (.single .ww s.nr) ww) (hfw : Field ww ni nj) (hcodes : Codes ww) (before : Tree) :
    ∃ bytes, before.write tr (binPath run s.nr .weather) = some (.bytes bytes) ∧ bytes.length = ni * nj * 2 ∧
      ∀ x y, x < ni → y < nj → ∃ bw bc : UInt8, bytes[(y * ni + x) * 2]? = some bw ∧
        bytes[(y * ni + x) * 2 + 1]? = some bc ∧
        (∀ q, physical ww (y * ni + x) = some q → 4 < q → (bw.toNat : Rat) = q) ∧
        ((∀ q, physical ww (y * ni + x) = some q → q ≤ 4) → (physical clct (y * ni + x) = none → bw = 255) ∧
          ∀ q, physical clct (y * ni + x) = some q → 0 ≤ q → q ≤ 1000 →
            ∃ v : Rat, |v - q| ≤ q / 2 ^ 20 + 1 / 2 ^ 100 ∧ bw.toNat = coverOf v) ∧
        (physical ceiling (y * ni + x) = none → bc = 255) ∧
        ∀ q, physical ceiling (y * ni + x) = some q → 0 ≤ q → q ≤ 99999 →
          (q * (328084 / 100000) ≤ 50898 → bc ≠ 255 ∧ |(bc.toNat : Rat) * 200 - q * (328084 / 100000)| ≤ 100 + 1 / 4) ∧
          (50902 ≤ q * (328084 / 100000) → bc = 255) := by
  obtain ⟨l, hl, _, hfile⟩ := bin_of_run (v := .cloudPrecip) hn h hv (by simp) hs hc
  simp only [dwdLayers, Res.bind_eq_ok, Res.ok.injEq] at hl
  obtain ⟨C, hC, P0, hP0, P1, hP1, L, hL, C', hC', E, hE, G, hG, W, hW, rfl⟩ := hl
  obtain rfl := weather_new hW
  obtain ⟨f1, f2⟩ := codes_exact hm hpw hfw hcodes hG
  obtain ⟨bytes, b1, b2, b3⟩ := weather_bytes (ww := some G)
    (code := fun x y => (physical ww (y * ni + x)).map codeOf) (cell_of_field hm hpc hfc hC').cover
    (cell_of_field hm hpe hfe hE) (by rintro g ⟨⟩; exact f1)
    (fun x y hx hy => by
      obtain ⟨a, b⟩ := f2 x y hx hy
      refine ⟨fun hq => a (by simpa using hq), fun c hcd => ?_⟩
      obtain ⟨q, hq, rfl⟩ := Option.map_eq_some_iff.mp hcd
      obtain ⟨c, hk, rfl⟩ := hcodes.2 _ _ hq
      rw [codeOf_nat]
      exact ⟨hk, b c hq⟩)
  refine ⟨bytes, hfile before (.bin .weather) _ (.weather b1), b2, fun x y hx hy => ?_⟩
  obtain ⟨bw, bc, c1, c2, c3, c4, c5⟩ := b3 x y hx hy
  refine ⟨bw, bc, c1, c2, fun q hq h4 => ?_, fun hle => c4 fun c hcd => ?_, c5⟩
  · obtain ⟨c, hk, rfl⟩ := hcodes.2 _ _ hq
    rw [c3 c (by rw [hq, Option.map_some, codeOf_nat]) (by exact_mod_cast h4)]
  · obtain ⟨q, hq, rfl⟩ := Option.map_eq_some_iff.mp hcd
    have h4 := hle q hq
    obtain ⟨c, hk, rfl⟩ := hcodes.2 _ _ hq
    rw [codeOf_nat]
    exact_mod_cast h4

/-! ## MeteoSwiss -/

/-- The percentage of a cloud cover, divided by a hundred. -/
theorem fraction_acc {v q : Rat} (h : |v - q| ≤ |q| / 2 ^ 22 + 1 / 2 ^ 110) (q0 : 0 ≤ q) (q1 : q ≤ 100000) :
    ∃ d : Rat, clctFraction (.fin v) = .fin d ∧ |d - q / 100| ≤ q / 100 / 2 ^ 20 + 1 / 2 ^ 100 := by
  rw [abs_of_nonneg q0] at h
  have h := abs_le.mp h
  have hv : |v / 100| ≤ q / 50 + 1 / 2 ^ 110 := by
    rw [abs_le]; constructor <;> linarith [h.1, h.2]
  obtain ⟨d, hd, _, ed⟩ := rnd32_err_le hv (by linarith)
  have ed := abs_le.mp ed
  refine ⟨d, by unfold clctFraction; rw [Fl.div_fin _ _ (by norm_num), hd], ?_⟩
  rw [abs_le]
  constructor <;> linarith [ed.1, ed.2, h.1, h.2]

theorem cover_of_file {w : World} {grid : UnstructuredGrid} {lat lon msg : Msg} {n : Nat} (hg : Placed grid lat lon n)
    {st : RunStep} {rest : List Msg} (hd : Delivers w st.url (msg :: rest)) (hf : PointField msg n)
    {G : LatLonValueGrid Fl} (h : Swiss.readGrid w grid clctFraction st = .ok G) :
    HoldsCover G 1851 847 fun x y => (shown grid msg x y).map (· / 100) := by
  unfold Swiss.readGrid World.readUnstructured at h
  rw [hd.readFirst, Res.bind_ok] at h
  obtain ⟨h1, h2, h3⟩ := converted hg (hd.ok msg (by simp)).1 hf h
  refine ⟨h1, fun x y hx hy => ?_⟩
  obtain ⟨a, b⟩ := h3 x y hx hy
  unfold cell
  rw [h2]
  constructor
  · intro hq
    rw [a (by simpa using hq)]
    rfl
  · intro q' hq' q0 q1
    obtain ⟨q, hq, rfl⟩ := Option.map_eq_some_iff.mp hq'
    obtain ⟨v, v1, v2⟩ := b q hq
    have q0' : 0 ≤ q := by linarith
    obtain ⟨d, d1, d2⟩ := fraction_acc v1 q0' (by linarith)
    refine ⟨d, d2, ?_⟩
    rw [v2, d1]
    have d3 := abs_le.mp (d2.trans (show _ ≤ (1 / 10 : Rat) by linarith))
    have : ¬ d = -1 := by intro e; linarith [d3.1]
    show (if Fl.feq (.fin d) (.fin (-1)) = true then _ else _) = _
    simp only [Fl.feq, decide_eq_true_eq, if_neg this]

/-- C107: likewise for MeteoSwiss, which publishes no weather codes and the cloud cover in percent: the first byte is
the class of the cloud cover of the nearest point and the second its ceiling. -/
theorem C107_weather (m : Libm) (w : World) (s : Swiss.Service) (cal : Swiss.Calendar) (dirs : Text → Bool)
    (vars : List Text) (filter : List Nat) (hor vertUrl : Text) (grid : UnstructuredGrid) (t : Instant) (tr : List Write)
    (h : Swiss.renderRun m w s cal dirs vars filter grid vertUrl t tr .done)
    (hg : Swiss.readHorConst w hor = .ok grid) (lat lon : Msg) (n : Nat) (hk : Constants w hor lat lon n)
    (hv : ChosenVar vars .cloudPrecip) (steps ceilings : List RunStep) (hs : Swiss.steps s t .clct true = .ok steps)
    (hs' : Swiss.steps s t .ceiling false = .ok ceilings) (st st' : RunStep) (hst : st ∈ steps)
    (hst' : st' ∈ ceilings) (e' : st'.nr = st.nr) (hc : Chosen filter st)
    (clct ceiling : Msg) (more more' : List Msg)
    (hd : Delivers w st.url (clct :: more)) (hf : PointField clct n)
    (hd' : Delivers w st'.url (ceiling :: more')) (hf' : PointField ceiling n) (before : Tree) :
    ∃ run bytes, Swiss.forecastRun cal t = .ok run ∧
      before.write tr (binPath run st.nr .weather) = some (.bytes bytes) ∧ bytes.length = 1851 * 847 * 2 ∧
      ∀ x y, x < 1851 → y < 847 → ∃ (o : Option Nat) (bw bc : UInt8), Spec.Shows (position lat lon) n x y o ∧
        bytes[(y * 1851 + x) * 2]? = some bw ∧ bytes[(y * 1851 + x) * 2 + 1]? = some bc ∧
        (o.bind (physical clct) = none → bw = 255) ∧
        (∀ q, o.bind (physical clct) = some q → 0 ≤ q → q ≤ 100 →
          ∃ v : Rat, |v - q / 100| ≤ 1 / 10 ^ 6 ∧ bw.toNat = coverOf v) ∧
        (o.bind (physical ceiling) = none → bc = 255) ∧
        ∀ q, o.bind (physical ceiling) = some q → 0 ≤ q → q ≤ 99999 →
          (q * (328084 / 100000) ≤ 50898 → bc ≠ 255 ∧ |(bc.toNat : Rat) * 200 - q * (328084 / 100000)| ≤ 100 + 1 / 4) ∧
          (50902 ≤ q * (328084 / 100000) → bc = 255) := by
  obtain ⟨run, l, e, hl, _, hfile⟩ := bin_of_swiss (v := .cloudPrecip) h hv (by simp) hs hst hc
  simp only [swissLayers, hs, hs', Res.bind_ok, Res.bind_eq_ok, Res.ok.injEq] at hl
  obtain ⟨_, _, L, _, W, hW, rfl⟩ := hl
  unfold Swiss.readWeather at hW
  rw [getStep_of_mem (steps_numbered hs) hst rfl, getStep_of_mem (steps_numbered hs') hst' e'] at hW
  obtain ⟨_, hC0, hW⟩ := bind_ok' hW
  obtain rfl : st = _ := Res.ok.inj hC0
  obtain ⟨_, hE0, hW⟩ := bind_ok' hW
  obtain rfl : st' = _ := Res.ok.inj hE0
  obtain ⟨C, hC, hW⟩ := bind_ok' hW
  obtain ⟨E, hE, hW⟩ := bind_ok' hW
  obtain rfl := weather_new hW
  have hp := placed hk hg
  obtain ⟨bytes, b1, b2, b3⟩ := weather_bytes (ww := none) (code := fun _ _ => none) (cover_of_file hp hd hf hC)
    (holds_of_file hp hd' hf' hE) (by simp) (fun x y hx hy => ⟨fun _ => rfl, fun c hcd => by simp at hcd⟩)
  refine ⟨run, bytes, e, hfile before (.bin .weather) _ (.weather b1), b2, fun x y hx hy => ?_⟩
  obtain ⟨bw, bc, c1, c2, -, c4, c5⟩ := b3 x y hx hy
  obtain ⟨c6, c7⟩ := c4 (by simp)
  refine ⟨_, bw, bc, hp.shows x y hx hy, c1, c2, fun hq => c6 ?_, fun q hq q0 q1 => ?_, c5⟩
  · show (shown grid clct x y).map _ = none
    unfold shown
    rw [hq]; rfl
  · obtain ⟨v, v1, v2⟩ := c7 (q / 100) (by unfold shown; rw [hq]; rfl) (by linarith) (by linarith)
    exact ⟨v, v1.trans (by linarith), v2⟩

/-! ## The hypotheses can be met -/

/-- The demonstration run of DWD: the published code 61 is written at the last point, the class of the cover 3 at the
third. -/
example (dirs : Text → Bool) (before : Tree) : ∃ tr bytes,
    Dwd.renderRun demoLibm (constWorld weatherMsg) dirs [] [] demoRun tr .done ∧
    before.write tr (binPath demoRun 3 .weather) = some (.bytes bytes) ∧ bytes[6]? = some 61 ∧ bytes[4]? = some 3 ∧
    bytes[2]? = some 255 := by
  obtain ⟨tr, h⟩ := demo_all dirs
  have p := constWorld_publishes weatherMsg_ok trivial demoRun_dwd
  obtain ⟨bytes, b1, -, b3⟩ := C106_weather _ _ _ _ _ _ demoRun_dwd demoRun_name tr h (.inl rfl) _ step3 (.inl rfl) _ _ _
    2 2 (p _) weatherMsg_field (p _) weatherMsg_field (p _) weatherMsg_field weatherMsg_codes before
  refine ⟨tr, bytes, h, b1, ?_, ?_, ?_⟩
  · obtain ⟨bw, bc, c1, -, c3, -⟩ := b3 1 1 (by norm_num) (by norm_num)
    have e := c3 61 (by decide +kernel) (by norm_num)
    rw [show bw = 61 from byte_eq_of_toNat (by exact_mod_cast e)] at c1
    exact c1
  · obtain ⟨bw, bc, c1, -, -, c4, -⟩ := b3 0 1 (by norm_num) (by norm_num)
    have p : physical weatherMsg (1 * 2 + 0) = some 3 := by decide +kernel
    obtain ⟨v, v1, v2⟩ := (c4 (by rw [p]; rintro q ⟨⟩; norm_num)).2 3 p (by norm_num) (by norm_num)
    have v1 := abs_le.mp (v1.trans (show _ ≤ (1 : Rat) by norm_num))
    have : coverOf v = 3 := by
      unfold coverOf
      rw [if_neg (by linarith [v1.1]), if_neg (by linarith [v1.1]), if_neg (by linarith [v1.1])]
    rw [this] at v2
    rw [show bw = 3 from byte_eq_of_toNat v2] at c1
    exact c1
  · obtain ⟨bw, bc, c1, -, -, c4, -⟩ := b3 1 0 (by norm_num) (by norm_num)
    have p : physical weatherMsg (0 * 2 + 1) = none := by decide +kernel
    rw [(c4 (by rw [p]; rintro q ⟨⟩)).1 p] at c1
    exact c1

/-- The demonstration run of MeteoSwiss with 50 everywhere: a cover of 50 percent is of class 2, a ceiling of 50 m is
nearest to 200 feet. -/
example (m : Libm) (hm : AccurateRow m) (dirs : Text → Bool) (before : Tree) : ∃ grid tr run bytes,
    Swiss.renderRun m (swissWorld galeMsg) demoService demoCalendar dirs [] [] grid "vert".toList demoTime tr .done ∧
    before.write tr (binPath run 1 .weather) = some (.bytes bytes) ∧
    ∃ b, bytes[(397 * 1851 + 781) * 2]? = some 2 ∧ bytes[(397 * 1851 + 781) * 2 + 1]? = some b ∧
      |(b.toNat : Rat) * 200 - 50 * (328084 / 100000)| ≤ 100 + 1 / 4 := by
  have hk : galeMsg.product.known := trivial
  obtain ⟨grid, tr, hg, ht⟩ := swiss_demo galeMsg_ok hk galeMsg_full hm dirs [] []
  obtain ⟨steps, hs, h1, -⟩ := demo_steps .clct true
  obtain ⟨ceilings, hs', g1, -⟩ := demo_steps .ceiling false
  obtain ⟨run, bytes, e, b1, b2, b3⟩ := C107_weather m _ _ _ dirs [] [] "hor".toList "vert".toList grid demoTime tr ht hg
    latMsg lonMsg 4 (swiss_constants galeMsg_ok hk _) (.inl rfl) steps ceilings hs hs' _ _ h1 g1 rfl (.inl rfl)
    galeMsg galeMsg _ _ (swiss_delivers galeMsg_ok hk _) galeMsg_full.toPointField (swiss_delivers galeMsg_ok hk _)
    galeMsg_full.toPointField before
  obtain ⟨o, bw, bc, hsh, c1, c2, -, c4, -, c6⟩ := b3 781 397 (by norm_num) (by norm_num)
  obtain rfl := demo_shown hsh
  have p : physical galeMsg 0 = some 50 := by decide +kernel
  obtain ⟨v, v1, v2⟩ := c4 50 p (by norm_num) (by norm_num)
  have v1 := abs_le.mp v1
  have : coverOf v = 2 := by
    unfold coverOf
    rw [if_neg (by linarith [v1.1]), if_neg (by linarith [v1.1]), if_pos (by linarith [v1.2])]
  rw [this] at v2
  rw [show bw = 2 from byte_eq_of_toNat v2] at c1
  exact ⟨grid, tr, run, bytes, ht, b1, bc, c1, c2, ((c6 50 p (by norm_num) (by norm_num)).1 (by norm_num)).2⟩

end Verif.Props
