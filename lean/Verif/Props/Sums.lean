import Verif.Props.ModelFiles
import Verif.Props.SwissDemo

/-!
# Property C168: the hourly precipitation of successive files adds up to the difference of the published totals
-/

namespace Verif.Props

open Verif MapTileRenderer Dwd
open Verif.Spec (Filled cell)
open Verif.Spec.Grib2 (Msg encode)

/-- The amount in millimetres that a reader of a precipitation file takes from position `i`. -/
def amountAt (bytes : List UInt8) (i : Nat) : Rat :=
  match bytes[i]? with
  | some b => (b.toNat : Rat) / 2
  | none => 0

/-- What successive amounts add up to. -/
def sumOf (f : Nat → Rat) : Nat → Rat
  | 0 => 0
  | n + 1 => sumOf f n + f n

/-- The totals of successive hours from `a` to `a + n` at a place: they do not decrease, are up to 1000 mm and grow by up to
126 mm in an hour. -/
structure Totals (t : Nat → Rat) (a n : Nat) : Prop where
  start : 0 ≤ t a
  stop : t (a + n) ≤ 1000
  grows : ∀ k, k < n → t (a + k) ≤ t (a + k + 1) ∧ t (a + k + 1) - t (a + k) ≤ 126

theorem Totals.mono {t : Nat → Rat} {a n : Nat} (h : Totals t a n) : ∀ i j, i ≤ j → j ≤ n → t (a + i) ≤ t (a + j) := by
  intro i j hij hj
  induction j with
  | zero => obtain rfl : i = 0 := by omega
            exact le_refl _
  | succ j ih =>
    rcases Nat.lt_or_ge j i with hlt | hge
    · obtain rfl : i = j + 1 := by omega
      exact le_refl _
    · exact (ih hge (by omega)).trans (h.grows j (by omega)).1

/-- The byte for two totals, without exceptions. -/
theorem precip_bytes_all {C P0 P1 : LatLonValueGrid Fl} {ni nj : Nat} {Q0 Q1 : Nat → Nat → Option Rat} (hC : Filled C ni nj)
    (h0 : Holds P0 ni nj Q0) (h1 : Holds P1 ni nj Q1) :
    ∃ bytes, Metobin.precipBin ⟨C, P0, P1⟩ = .ok bytes ∧ bytes.length = ni * nj ∧
      ∀ x y, x < ni → y < nj → ∀ t0 t1, Q0 x y = some t0 → Q1 x y = some t1 →
        0 ≤ t0 → t1 ≤ 1000 → t0 ≤ t1 → t1 - t0 ≤ 126 → ∃ b : UInt8, bytes[y * ni + x]? = some b ∧ b ≠ 255 ∧
          -(252 / 1000) ≤ (b.toNat : Rat) / 2 - (t1 - t0) ∧ (b.toNat : Rat) / 2 - (t1 - t0) ≤ 302 / 1000 := by
  obtain ⟨f0, c0⟩ := h0
  obtain ⟨f1, c1⟩ := h1
  obtain ⟨bytes, b1, b2, b3, _⟩ := C38_file_partial (l := ⟨C, P0, P1⟩) hC f0 f1
  refine ⟨bytes, b1, b2, ?_⟩
  intro x y hx hy t0 t1 h0 h1 z0 z1 z2 z3
  obtain ⟨v0, a0, d0⟩ := (c0 x y hx hy).2 t0 h0
  obtain ⟨v1, a1, d1⟩ := (c1 x y hx hy).2 t1 h1
  rw [abs_of_nonneg z0] at a0
  rw [abs_of_nonneg (by linarith : 0 ≤ t1)] at a1
  have a0 := abs_le.mp (a0.trans (show _ ≤ (3 / 10000 : Rat) by linarith))
  have a1 := abs_le.mp (a1.trans (show _ ≤ (3 / 10000 : Rat) by linarith))
  rw [if_neg (by intro e; linarith [a0.1])] at d0
  rw [if_neg (by intro e; linarith [a1.1])] at d1
  obtain ⟨b, e1, e2⟩ := b3 x y hx hy _ _ d0 d1
  have habs : |v1 - v0| ≤ 127 := by
    rw [abs_le]; constructor <;> linarith [a0.1, a0.2, a1.1, a1.2]
  obtain ⟨a, ha, _, ea⟩ := rnd32_err_le habs (by norm_num)
  have ea := abs_le.mp (ea.trans (show _ ≤ (1 / 10000 : Rat) by norm_num))
  have hsub : Fl.sub f32 (.fin v1) (.fin v0) = .fin a := by rw [Fl.sub_fin, ha]
  obtain ⟨e3, e4, e5⟩ := e2 a hsub (by linarith [a0.1, a0.2, a1.1, a1.2, ea.1]) (by linarith [a0.1, a0.2, a1.1, a1.2, ea.2])
  refine ⟨b, e1, e3, ?_⟩
  by_cases hr : 13421773 / 67108864 ≤ a ∧ a < 1 / 2
  · rw [e4 hr]
    rw [show (1 : UInt8).toNat = 1 from rfl, Nat.cast_one]
    constructor <;> linarith [a0.1, a0.2, a1.1, a1.2, ea.1, ea.2, hr.1, hr.2]
  · have e5 := abs_le.mp (e5 hr)
    constructor <;> linarith [a0.1, a0.2, a1.1, a1.2, ea.1, ea.2, e5.1, e5.2]

/-- A byte of the file for the hour from `t0` to `t1`. -/
structure HourByte (bytes : List UInt8) (i : Nat) (t0 t1 : Rat) : Prop where
  byte : ∃ b : UInt8, bytes[i]? = some b ∧ b ≠ 255
  below : -(252 / 1000) ≤ amountAt bytes i - (t1 - t0)
  above : amountAt bytes i - (t1 - t0) ≤ 302 / 1000

theorem hourByte_of {bytes : List UInt8} {i : Nat} {t0 t1 : Rat} (h : ∃ b : UInt8, bytes[i]? = some b ∧ b ≠ 255 ∧
    -(252 / 1000) ≤ (b.toNat : Rat) / 2 - (t1 - t0) ∧ (b.toNat : Rat) / 2 - (t1 - t0) ≤ 302 / 1000) :
    HourByte bytes i t0 t1 := by
  obtain ⟨b, h1, h2, h3, h4⟩ := h
  have e : amountAt bytes i = (b.toNat : Rat) / 2 := by unfold amountAt; rw [h1]
  exact ⟨⟨b, h1, h2⟩, by rw [e]; exact h3, by rw [e]; exact h4⟩

/-- Adding up. -/
theorem sum_hours {files : Nat → List UInt8} {i a : Nat} {t : Nat → Rat} : ∀ n : Nat,
    (∀ k, k < n → HourByte (files (a + k + 1)) i (t (a + k)) (t (a + k + 1))) →
    -(252 / 1000) * n ≤ sumOf (fun k => amountAt (files (a + k + 1)) i) n - (t (a + n) - t a) ∧
    sumOf (fun k => amountAt (files (a + k + 1)) i) n - (t (a + n) - t a) ≤ 302 / 1000 * n := by
  intro n
  induction n with
  | zero => intro _; simp [sumOf]
  | succ n ih =>
    intro h
    obtain ⟨i1, i2⟩ := ih fun k hk => h k (by omega)
    obtain ⟨_, h1, h2⟩ := h n (by omega)
    have e : sumOf (fun k => amountAt (files (a + k + 1)) i) (n + 1) =
        sumOf (fun k => amountAt (files (a + k + 1)) i) n + amountAt (files (a + n + 1)) i := rfl
    have e2 : t (a + (n + 1)) = t (a + n + 1) := rfl
    rw [e, e2]
    push_cast
    constructor <;> linarith

/-- An hour without precipitation. -/
theorem HourByte.dry {bytes : List UInt8} {i : Nat} {t : Rat} (h : HourByte bytes i t t) : bytes[i]? = some 0 := by
  obtain ⟨⟨b, h1, _⟩, _, h2⟩ := h
  unfold amountAt at h2
  rw [h1] at h2 ⊢
  simp only at h2
  have h3 : (b.toNat : Rat) < 1 := by linarith
  have h4 : b.toNat < 1 := by exact_mod_cast h3
  have h5 : b = 0 := UInt8.toNat_inj.mp (by simpa using h4)
  rw [h5]

/-- What C168 says about a place: every file has an amount for it, the amounts add up to the growth of the total, but for
a quarter to three tenths of a millimetre for each hour, and are all zero where the total did not grow. -/
def AddsUp (files : Nat → List UInt8) (i : Nat) (t : Nat → Rat) (a n : Nat) : Prop :=
  (∀ k, k < n → ∃ b : UInt8, (files (a + k + 1))[i]? = some b ∧ b ≠ 255) ∧
  -(252 / 1000) * n ≤ sumOf (fun k => amountAt (files (a + k + 1)) i) n - (t (a + n) - t a) ∧
  sumOf (fun k => amountAt (files (a + k + 1)) i) n - (t (a + n) - t a) ≤ 302 / 1000 * n ∧
  (t (a + n) = t a → ∀ k, k < n → (files (a + k + 1))[i]? = some 0)

theorem addsUp_of {files : Nat → List UInt8} {i a n : Nat} {t : Nat → Rat} (ht : Totals t a n)
    (h : ∀ k, k < n → HourByte (files (a + k + 1)) i (t (a + k)) (t (a + k + 1))) : AddsUp files i t a n := by
  obtain ⟨h1, h2⟩ := sum_hours n h
  refine ⟨fun k hk => (h k hk).byte, h1, h2, fun he k hk => ?_⟩
  have m1 := ht.mono 0 k (by omega) (by omega)
  have m2 := ht.mono k (k + 1) (by omega) (by omega)
  have m3 := ht.mono (k + 1) n (by omega) (by omega)
  rw [Nat.add_zero] at m1
  have e1 : t (a + k) = t a := le_antisymm (by linarith [show t (a + (k + 1)) = t (a + k + 1) from rfl]) m1
  have e2 : t (a + k + 1) = t a := le_antisymm (he ▸ m3) (m1.trans m2)
  have := h k hk
  rw [e1, e2] at this
  exact this.dry

theorem Totals.bounds {t : Nat → Rat} {a n : Nat} (h : Totals t a n) {k : Nat} (hk : k < n) :
    0 ≤ t (a + k) ∧ t (a + k + 1) ≤ 1000 ∧ t (a + k) ≤ t (a + k + 1) ∧ t (a + k + 1) - t (a + k) ≤ 126 := by
  have m1 := h.mono 0 k (by omega) (by omega)
  have m3 := h.mono (k + 1) n (by omega) (by omega)
  rw [Nat.add_zero] at m1
  exact ⟨h.start.trans m1, m3.trans h.stop, (h.grows k hk).1, (h.grows k hk).2⟩

/-- One file for each hour. -/
theorem collect {a n : Nat} {P : Nat → List UInt8 → Prop} (h : ∀ k, k < n → ∃ bytes, P k bytes) :
    ∃ files : Nat → List UInt8, ∀ k, k < n → P k (files (a + k + 1)) := by
  choose f hf using h
  refine ⟨fun i => if hi : i - a - 1 < n then f _ hi else [], fun k hk => ?_⟩
  have e : a + k + 1 - a - 1 = k := by omega
  simp only [e, hk, dif_pos]
  exact hf k hk

/-- **C168, DWD.**  A successful call that selected the hours `a+1` to `a+n` and precipitation left a file for each of
these hours.  At each grid point where all totals are published, the amounts of the `n` files add up to the growth of the
total from hour `a` to hour `a+n`, to within 0.302 mm (0.252 mm below) for each hour; and all amounts are zero where the
total did not grow. -/
theorem C168_dwd (e : Environment) (model : FcModel) (hd : IsDwd model) (name : Text)
    (hn : Newest e.available model e.today name) (vars : List Text) (filter : List Nat) (tr : List Write)
    (h : mainEffect e (dwdName model) vars filter tr .done) (hv : ChosenVar vars .cloudPrecip) (a n : Nat)
    (hs : ∀ k, k < n → ⟨a + k + 1, []⟩ ∈ model.forecastSteps ∧ Chosen filter ⟨a + k + 1, []⟩)
    (clct total : Nat → Msg) (ni nj : Nat)
    (hpc : ∀ k, k < n → Publishes e.world ⟨model, e.today, name⟩ (.single .clctMod (a + k + 1)) (clct (a + k + 1)) ∧
      Field (clct (a + k + 1)) ni nj)
    (hp : ∀ k, k ≤ n → Publishes e.world ⟨model, e.today, name⟩ (.single .totPrec (a + k)) (total (a + k)) ∧
      Field (total (a + k)) ni nj) (before : Tree) :
    ∃ files : Nat → List UInt8,
      (∀ k, k < n → before.write tr (binPath ⟨model, e.today, name⟩ (a + k + 1) .precip) =
        some (.bytes (files (a + k + 1))) ∧ (files (a + k + 1)).length = ni * nj) ∧
      ∀ x y, x < ni → y < nj → ∀ t : Nat → Rat,
        (∀ k, k ≤ n → physical (total (a + k)) (y * ni + x) = some (t (a + k))) → Totals t a n →
        AddsUp files (y * ni + x) t a n := by
  rw [C154_run e model hd name hn] at h
  have each : ∀ k, k < n → ∃ bytes, before.write tr (binPath ⟨model, e.today, name⟩ (a + k + 1) .precip) =
        some (.bytes bytes) ∧ bytes.length = ni * nj ∧ ∀ x y, x < ni → y < nj → ∀ t : Nat → Rat,
        (∀ k, k ≤ n → physical (total (a + k)) (y * ni + x) = some (t (a + k))) → Totals t a n →
        HourByte bytes (y * ni + x) (t (a + k)) (t (a + k + 1)) := by
    intro k hk
    obtain ⟨l, hl, _, hfile⟩ := bin_of_run (newestName_no_slash hn.1) h hv (by simp) (hs k hk).1 (hs k hk).2
    simp only [dwdLayers, Res.bind_eq_ok, Res.ok.injEq] at hl
    obtain ⟨C, hC, P0, hP0, P1, hP1, L, hL, _, _, _, _, _, _, W, _, rfl⟩ := hl
    obtain rfl := cloudPrecip_new hL
    obtain ⟨p0, f0⟩ := hp k (by omega)
    obtain ⟨p1, f1⟩ := hp (k + 1) (by omega)
    obtain ⟨pc, fc⟩ := hpc k hk
    obtain ⟨bytes, b1, b2, b3⟩ := precip_bytes_all (cell_of_field hd pc fc hC).1 (cell_of_field hd p0 f0 hP0)
      (cell_of_field hd p1 f1 hP1)
    refine ⟨bytes, hfile before (.bin .precip) _ (.precip b1), b2, fun x y hx hy t hq ht => ?_⟩
    obtain ⟨z1, z2, z3, z4⟩ := ht.bounds hk
    exact hourByte_of (b3 x y hx hy _ _ (hq k (by omega)) (hq (k + 1) (by omega)) z1 z2 z3 z4)
  obtain ⟨files, hfiles⟩ := collect (a := a) each
  refine ⟨files, fun k hk => ⟨(hfiles k hk).1, (hfiles k hk).2.1⟩, fun x y hx hy t hq ht => ?_⟩
  exact addsUp_of ht fun k hk => (hfiles k hk).2.2 x y hx hy t hq ht

/-- **C168, MeteoSwiss.**  Likewise for a run of MeteoSwiss, with the totals of the data point that the cell shows. -/
theorem C168_swiss (m : Libm) (w : World) (s : Swiss.Service) (cal : Swiss.Calendar) (dirs : Text → Bool)
    (vars : List Text) (filter : List Nat) (hor vertUrl : Text) (grid : UnstructuredGrid) (t : Instant) (tr : List Write)
    (h : Swiss.renderRun m w s cal dirs vars filter grid vertUrl t tr .done)
    (hg : Swiss.readHorConst w hor = .ok grid) (lat lon : Msg) (points : Nat) (hk : Constants w hor lat lon points)
    (hv : ChosenVar vars .cloudPrecip) (steps totals : List RunStep) (hs : Swiss.steps s t .clct true = .ok steps)
    (hs' : Swiss.steps s t .totPrec false = .ok totals) (a n : Nat) (hn : 0 < n) (cover total : Nat → RunStep)
    (hst : ∀ k, k < n → cover (a + k + 1) ∈ steps ∧ (cover (a + k + 1)).nr = a + k + 1 ∧ Chosen filter (cover (a + k + 1)))
    (htot : ∀ k, k ≤ n → total (a + k) ∈ totals ∧ (total (a + k)).nr = a + k)
    (clct sum : Nat → Msg)
    (hd : ∀ k, k < n → ∃ more, Delivers w (cover (a + k + 1)).url (clct (a + k + 1) :: more) ∧
      PointField (clct (a + k + 1)) points)
    (hd' : ∀ k, k ≤ n → ∃ more, Delivers w (total (a + k)).url (sum (a + k) :: more) ∧ PointField (sum (a + k)) points)
    (before : Tree) :
    ∃ (run : Run) (files : Nat → List UInt8), Swiss.forecastRun cal t = .ok run ∧
      (∀ k, k < n → before.write tr (binPath run (a + k + 1) .precip) = some (.bytes (files (a + k + 1))) ∧
        (files (a + k + 1)).length = 1851 * 847) ∧
      ∀ x y, x < 1851 → y < 847 → ∃ o : Option Nat, Spec.Shows (position lat lon) points x y o ∧
        ∀ q : Nat → Rat, (∀ k, k ≤ n → o.bind (physical (sum (a + k))) = some (q (a + k))) → Totals q a n →
        AddsUp files (y * 1851 + x) q a n := by
  have hp := placed hk hg
  obtain ⟨run, _, hrun, _⟩ := bin_of_swiss h hv (by simp) hs (hst 0 hn).1 (hst 0 hn).2.2
  have each : ∀ k, k < n → ∃ bytes, before.write tr (binPath run (a + k + 1) .precip) =
        some (.bytes bytes) ∧ bytes.length = 1851 * 847 ∧ ∀ x y, x < 1851 → y < 847 → ∀ q : Nat → Rat,
        (∀ k, k ≤ n → (pointOf grid x y).bind (physical (sum (a + k))) = some (q (a + k))) → Totals q a n →
        HourByte bytes (y * 1851 + x) (q (a + k)) (q (a + k + 1)) := by
    intro k hk
    obtain ⟨s1, s2, s3⟩ := hst k hk
    obtain ⟨t0, n0⟩ := htot k (by omega)
    obtain ⟨t1, n1⟩ := htot (k + 1) (by omega)
    obtain ⟨run', l, e, hl, _, hfile⟩ := bin_of_swiss h hv (by simp) hs s1 s3
    rw [hrun] at e
    cases e
    simp only [swissLayers, hs, hs', Res.bind_ok, Res.bind_eq_ok, Res.ok.injEq] at hl
    obtain ⟨_, _, L, hL, _, _, rfl⟩ := hl
    unfold Swiss.readCloudPrecip at hL
    rw [cloudPrecipSteps_ok (by omega) (getStep_of_mem (steps_numbered hs) s1 rfl)
      (getStep_of_mem (steps_numbered hs') t0 (by omega)) (getStep_of_mem (steps_numbered hs') t1 (by omega)), Res.bind_ok] at hL
    obtain ⟨C, hC, hL⟩ := bind_ok' hL
    obtain ⟨P0, hP0, hL⟩ := bind_ok' hL
    obtain ⟨P1, hP1, hL⟩ := bind_ok' hL
    obtain rfl := cloudPrecip_new hL
    obtain ⟨_, d, f⟩ := hd k hk
    obtain ⟨_, d0, f0⟩ := hd' k (by omega)
    obtain ⟨_, d1, f1⟩ := hd' (k + 1) (by omega)
    obtain ⟨bytes, b1, b2, b3⟩ := precip_bytes_all (filled_of_file hp d f hC) (holds_of_file hp d0 f0 hP0)
      (holds_of_file hp d1 f1 hP1)
    have hb := hfile before (.bin .precip) _ (.precip b1)
    rw [s2] at hb
    refine ⟨bytes, hb, b2, fun x y hx hy q hq ht => ?_⟩
    obtain ⟨z1, z2, z3, z4⟩ := ht.bounds hk
    exact hourByte_of (b3 x y hx hy _ _ (hq k (by omega)) (hq (k + 1) (by omega)) z1 z2 z3 z4)
  obtain ⟨files, hfiles⟩ := collect (a := a) each
  refine ⟨run, files, hrun, fun k hk => ⟨(hfiles k hk).1, (hfiles k hk).2.1⟩, fun x y hx hy => ?_⟩
  exact ⟨_, hp.shows x y hx hy, fun q hq ht => addsUp_of ht fun k hk => (hfiles k hk).2.2 x y hx hy q hq ht⟩

/-! ## The hypotheses can be met -/

/-- Two millimetres at all four points. -/
def wetMsg : Msg := fieldMsg ⟨false, 0, 0⟩ [] [2, 2, 2, 2]

theorem wetMsg_ok : wetMsg.ok := fieldMsg_ok ⟨by decide, by decide⟩ (by decide) (by decide) (by decide)

theorem wetMsg_field : Field wetMsg 2 2 := fieldMsg_field (r := 0) (by decide +kernel) (by norm_num) (by decide)

theorem wetMsg_area : FullArea wetMsg demoArea 2 2 :=
  ⟨wetMsg_field, by rintro g ⟨⟩; exact ⟨rfl, rfl, rfl, rfl⟩, .inl rfl, by decide⟩

/-- The run of the example. -/
def rainRun : Run := ⟨.iconEu, ⟨2025, 8, 5⟩, "21".toList⟩

/-- A server where the total of precipitation is 2 mm in hour 4, and all other files are `weatherMsg`. -/
def rainWorld : World :=
  ⟨fun url => some (encode (if fileUrl rainRun (.single .totPrec 4) = .ok url then wetMsg else weatherMsg)), fun _ => none, id⟩

theorem rain_usual : UsualRun rainRun := ⟨.inr rfl, ⟨by unfold Date.Valid; decide +kernel, by decide +kernel, by decide +kernel⟩, by decide +kernel⟩

theorem rain_wet : Publishes rainWorld rainRun (.single .totPrec 4) wetMsg := by
  obtain ⟨url, hu, _, _⟩ := C52_download rain_usual.1 (.single .totPrec 4)
  exact ⟨wetMsg_ok, .inl trivial, url, encode wetMsg, [], hu, by simp only [rainWorld, hu, if_true], (List.append_nil _).symm⟩

theorem rain_other {r : Req} (hr : r ≠ .single .totPrec 4) : Publishes rainWorld rainRun r weatherMsg := by
  obtain ⟨url, hu, _, _⟩ := C52_download rain_usual.1 r
  refine ⟨weatherMsg_ok, .inl trivial, url, encode weatherMsg, [], hu, ?_, (List.append_nil _).symm⟩
  have hne : fileUrl rainRun (.single .totPrec 4) ≠ .ok url := fun h =>
    hr (C52_injective rain_usual rain_usual r _ hu h).2
  simp only [rainWorld, if_neg hne]

theorem rain_area (r : Req) : AreaPublished rainWorld rainRun demoArea 2 2 r := by
  by_cases hr : r = .single .totPrec 4
  · subst hr
    exact ⟨wetMsg, rain_wet, wetMsg_area, by rintro n ⟨⟩⟩
  · exact ⟨weatherMsg, rain_other hr, weatherMsg_area, fun _ _ => weatherMsg_codes⟩

attribute [local irreducible] mainEffect

/-- 2 mm fall in the hours 3 and 4 at the first point. -/
example (service : Swiss.Service) (cal : Swiss.Calendar) (dirs : Text → Bool) (before : Tree) :
    ∃ (m : Libm) (tr : List Write) (files : Nat → List UInt8),
    mainEffect ⟨m, rainWorld, service, cal, dirs, ⟨2025, 8, 5⟩, ⟨2025, 8, 5⟩, fun _ => true⟩ "icon-eu".toList [] [] tr .done ∧
    before.write tr (binPath rainRun 3 .precip) = some (.bytes (files 3)) ∧
    before.write tr (binPath rainRun 4 .precip) = some (.bytes (files 4)) ∧
    |amountAt (files 3) 0 + amountAt (files 4) 0 - 2| ≤ 604 / 1000 := by
  obtain ⟨m, _, hm⟩ := exists_both
  have hn : Newest (fun _ => true) .iconEu ⟨2025, 8, 5⟩ "21".toList := by
    refine ⟨by decide +kernel, ?_, ?_⟩
    · intro r hr
      obtain ⟨url, hu, -⟩ := C52_download (run := ⟨.iconEu, ⟨2025, 8, 5⟩, "21".toList⟩) (.inr rfl) r
      exact ⟨url, hu, rfl⟩
    · have : ∀ n ∈ runNames, ¬ valueOf "21".toList < valueOf n := by decide +kernel
      exact fun n hn h => absurd h (this n hn)
  obtain ⟨tr, h⟩ := (C105_main ⟨m, rainWorld, service, cal, dirs, ⟨2025, 8, 5⟩, ⟨2025, 8, 5⟩, fun _ => true⟩ hm
    [] [] .iconEu (.inr rfl) "21".toList hn demoArea demoArea_valid 2 2 (fun _ _ _ _ _ r _ => rain_area r)
    fun _ k _ _ => rain_area _).1
  have hs : ∀ k, k < 2 → (⟨2 + k + 1, []⟩ : RunStep) ∈ FcModel.iconEu.forecastSteps := by decide +kernel
  obtain ⟨files, f1, f2⟩ := C168_dwd
    ⟨m, rainWorld, service, cal, dirs, ⟨2025, 8, 5⟩, ⟨2025, 8, 5⟩, fun _ => true⟩ .iconEu (.inr rfl) "21".toList hn
    [] [] tr h (.inl rfl) 2 2 (fun k hk => ⟨hs k hk, .inl rfl⟩) (fun _ => weatherMsg)
    (fun i => if i = 4 then wetMsg else weatherMsg) 2 2
    (fun k _ => ⟨rain_other (by simp), weatherMsg_field⟩)
    (fun k hk => by
      by_cases h4 : 2 + k = 4
      · rw [if_pos h4, h4]; exact ⟨rain_wet, wetMsg_field⟩
      · rw [if_neg h4]; exact ⟨rain_other (by simpa using h4), weatherMsg_field⟩) before
  refine ⟨m, tr, files, h, (f1 0 (by omega)).1, (f1 1 (by omega)).1, ?_⟩
  have p0 : physical weatherMsg 0 = some 0 := by decide +kernel
  have p1 : physical wetMsg 0 = some 2 := by decide +kernel
  obtain ⟨_, a1, a2, _⟩ := f2 0 0 (by omega) (by omega) (fun i => if i = 4 then 2 else 0)
    (fun k hk => by
      by_cases h4 : 2 + k = 4
      · simp only [h4, if_true]; exact p1
      · simp only [if_neg h4]; exact p0)
    ⟨by norm_num, by norm_num, fun k hk => by
      rcases (show k = 0 ∨ k = 1 by omega) with rfl | rfl <;> norm_num⟩
  simp only [sumOf] at a1 a2
  norm_num at a1 a2 ⊢
  rw [abs_le]
  constructor <;> linarith

/-- And for MeteoSwiss: no rain in hour 1. -/
example (m : Libm) (hm : Spec.AccurateRow m) (dirs : Text → Bool) (before : Tree) : ∃ grid tr run bytes,
    Swiss.renderRun m (swissWorld weatherMsg) demoService demoCalendar dirs [] [] grid "vert".toList demoTime tr .done ∧
    before.write tr (binPath run 1 .precip) = some (.bytes bytes) ∧ bytes[397 * 1851 + 781]? = some 0 := by
  have hk : weatherMsg.product.known := trivial
  obtain ⟨grid, tr, hg, ht⟩ := swiss_demo weatherMsg_ok hk weatherMsg_full hm dirs [] []
  obtain ⟨steps, hs, h1, -⟩ := demo_steps .clct true
  obtain ⟨totals, hs', g1, g0⟩ := demo_steps .totPrec false
  obtain ⟨run, files, e, b1, b3⟩ := C168_swiss m _ _ _ dirs [] [] "hor".toList "vert".toList grid demoTime tr ht hg
    latMsg lonMsg 4 (swiss_constants weatherMsg_ok hk _) (.inl rfl) steps totals hs hs' 0 1 (by omega)
    (fun _ => ⟨1, "b".toList⟩) (fun k => if k = 0 then ⟨0, "a".toList⟩ else ⟨1, "b".toList⟩)
    (fun k hk => by obtain rfl : k = 0 := by omega
                    exact ⟨h1, rfl, .inl rfl⟩)
    (fun k hk => by rcases (show k = 0 ∨ k = 1 by omega) with rfl | rfl <;> [exact ⟨g0 rfl, rfl⟩; exact ⟨g1, rfl⟩])
    (fun _ => weatherMsg) (fun _ => weatherMsg)
    (fun _ _ => ⟨_, swiss_delivers weatherMsg_ok hk _, weatherMsg_full.toPointField⟩)
    (fun _ _ => ⟨_, swiss_delivers weatherMsg_ok hk _, weatherMsg_full.toPointField⟩) before
  obtain ⟨o, hsh, hv⟩ := b3 781 397 (by norm_num) (by norm_num)
  obtain rfl := demo_shown hsh
  have p : physical weatherMsg 0 = some 0 := by decide +kernel
  obtain ⟨_, _, _, hdry⟩ := hv (fun _ => 0) (fun _ _ => p) ⟨by norm_num, by norm_num, fun _ _ => by norm_num⟩
  exact ⟨grid, tr, run, files 1, ht, (b1 0 (by omega)).1, hdry rfl 0 (by omega)⟩

end Verif.Props
