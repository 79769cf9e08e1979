import Verif.Props.CatalogueFiles
import Verif.Props.WeatherFile
import Verif.Props.DwdSuccess

/-!
# C153, C154: the files of the model that was asked for

C153: in which directory a call of the program writes.  C154: what a call for a model of DWD writes, from the messages on
the server of DWD, without the run as a parameter: the run is the one that the program finds.
-/

namespace Verif.Props

open Verif MapTileRenderer MapTileCoord Colors
open Verif.Dwd
open Verif.Spec (Accurate AccurateRow mercatorLat)
open Verif.Spec.Grib2 (Msg)

/-! ## C153: the directory -/

/-- The directory of a model below the working directory. -/
def modelDir (model : Text) : Text := "./output/".toList ++ model ++ "/".toList

/-- The directory of a run: the model, then the date and the hour. -/
def runDir (model : Text) (date : Date) (name : Text) : Text := modelDir model ++ (date.fmt ++ name) ++ "/".toList

theorem Output.in_runDir (run : Run) (step : Nat) (o : Output) :
    runDir run.model.name run.date run.name <+: o.path run step := by
  rw [Output.path_eq]
  unfold runDir modelDir
  have : "/".toList = ['/'] := rfl
  rw [this]
  generalize "./output/".toList = out
  exact ⟨decPad 3 step ++ '/' :: (o.parts.1 ++ '/' :: o.parts.2), by
    simp only [List.append_assoc, List.cons_append, List.nil_append]⟩

theorem modelDir_of_runDir {model : Text} {date : Date} {name p : Text} (h : runDir model date name <+: p) :
    modelDir model <+: p :=
  (((List.prefix_append _ _).trans (List.prefix_append _ _)).trans h)

/-- C153: all that a call writes lies in the directory of a single run. -/
theorem C153_one_run (e : Environment) (model : Text) (vars : List Text) (filter : List Nat) :
    ∃ (m : FcModel) (date : Date) (name : Text), ∀ tr o, mainEffect e model vars filter tr o → ∀ x ∈ tr,
      runDir m.name date name <+: x.path := by
  by_cases hs : ∃ run : Run, ∃ p c, ∃ dwd,
      (model = "icon-d2".toList ∧ dwd = FcModel.iconD2 ∨ model = "icon-eu".toList ∧ dwd = FcModel.iconEu) ∧
      Dwd.findLatestRun dwd e.today e.now e.available = .ok run ∧ DwdExpected e.libm e.world vars filter run p c
  · obtain ⟨run, _, _, dwd, h1, h2, _⟩ := hs
    refine ⟨run.model, run.date, run.name, fun tr o h x hx => ?_⟩
    have hne : "icon-ch1".toList ≠ "icon-d2".toList ∧ "icon-ch1".toList ≠ "icon-eu".toList ∧
      "icon-d2".toList ≠ "icon-eu".toList := by decide +kernel
    rcases (C87_main e model vars filter tr).1 o h x hx with ⟨dwd', h3, run', h4, h5⟩ | ⟨h3, _⟩
    · have : dwd' = dwd := by
        rcases h1 with ⟨a, rfl⟩ | ⟨a, rfl⟩ <;> rcases h3 with ⟨b, rfl⟩ | ⟨b, rfl⟩
        · rfl
        · exact absurd (a.symm.trans b) hne.2.2
        · exact absurd (b.symm.trans a) hne.2.2
        · rfl
      subst this
      rw [h2] at h4
      cases h4
      obtain ⟨_, _, s, _, _, _, _, out, _, hp⟩ := h5
      rw [hp]
      exact out.in_runDir run s.nr
    · rcases h1 with ⟨a, _⟩ | ⟨a, _⟩
      · exact absurd (h3.symm.trans a) hne.1
      · exact absurd (h3.symm.trans a) hne.2.1
  · by_cases hw : ∃ refTimes t run, e.service.refTimes = .ok refTimes ∧
        SwissSearch.findLatest e.calendar.parse refTimes = .ok t ∧ Swiss.forecastRun e.calendar t = .ok run
    · obtain ⟨refTimes, t, run, w1, w2, w3⟩ := hw
      refine ⟨run.model, run.date, run.name, fun tr o h x hx => ?_⟩
      rcases (C87_main e model vars filter tr).1 o h x hx with ⟨dwd, h3, run', h4, h5⟩ | ⟨_, _, _, _, _, refTimes', t', _, _, _, _, a5, a6, h⟩
      · exact absurd ⟨run', _, _, dwd, h3, h4, h5⟩ hs
      · rw [w1] at a5; cases a5
        rw [w2] at a6; cases a6
        obtain ⟨_, _, run', _, b1, _, s, _, _, _, _, out, _, hp⟩ := h
        rw [w3] at b1; cases b1
        rw [hp]
        exact out.in_runDir run s.nr
    · refine ⟨.iconD2, e.today, [], fun tr o h x hx => ?_⟩
      rcases (C87_main e model vars filter tr).1 o h x hx with ⟨dwd, h3, run', h4, h5⟩ | ⟨_, _, _, _, _, refTimes', t', _, _, _, _, a5, a6, h⟩
      · exact absurd ⟨run', _, _, dwd, h3, h4, h5⟩ hs
      · obtain ⟨_, _, run', _, b1, _⟩ := h
        exact absurd ⟨_, _, _, a5, a6, b1⟩ hw

/-- C153: a call for ICON-CH1 or ICON-D2, or for ICON-EU while a run of today is complete, writes only in the directory of
this model; a call for anything else writes nothing.  Missing for the full property: ICON-EU while no run of today is
complete, for which it is false (`C153_counterexample`). -/
theorem C153_model_partial (e : Environment) (model : Text) (vars : List Text) (filter : List Nat)
    (he : model = "icon-eu".toList → ∃ name, Newest e.available .iconEu e.today name) (tr : List Write) (o : Outcome)
    (h : mainEffect e model vars filter tr o) (x : Write) (hx : x ∈ tr) : modelDir model <+: x.path := by
  rcases (C87_main e model vars filter tr).1 o h x hx with ⟨dwd, h1, run, h2, h3⟩ | ⟨rfl, _, _, _, _, _, t, _, _, _, _, _, _, h3⟩
  · have hr : run.model.name = model := by
      rcases h1 with ⟨rfl, rfl⟩ | ⟨rfl, rfl⟩
      · rcases C51_cases (.inl rfl) e.available e.today e.now with ⟨n, _, a⟩ | ⟨_, a⟩ <;> rw [a] at h2 <;> cases h2 <;> rfl
      · obtain ⟨n, hn⟩ := he rfl
        rw [C51_newest (.inr rfl) e.available e.today e.now hn] at h2
        cases h2
        rfl
    obtain ⟨_, _, s, _, _, _, _, out, _, hp⟩ := h3
    rw [hp, ← hr]
    exact modelDir_of_runDir (out.in_runDir run s.nr)
  · obtain ⟨_, _, run, _, b1, _, s, _, _, _, _, out, _, hp⟩ := h3
    obtain ⟨n, _, b2⟩ := Res.bind_eq_ok.mp b1
    cases b2
    rw [hp]
    exact modelDir_of_runDir (out.in_runDir ⟨.iconCh1, e.calendar.date t, n⟩ s.nr)

/-- C153: while no run of today is complete, a call for ICON-EU writes nothing but files of the run of ICON-D2 of yesterday
21 UTC, in the directory of ICON-D2. -/
theorem C153_fallback (e : Environment) (vars : List Text) (filter : List Nat)
    (he : ∀ name ∈ runNames, ¬ Complete e.available ⟨.iconEu, e.today, name⟩) (tr : List Write) (o : Outcome)
    (h : mainEffect e "icon-eu".toList vars filter tr o) (x : Write) (hx : x ∈ tr) :
    runDir "icon-d2".toList e.now.yesterday "21".toList <+: x.path := by
  have hne : "icon-eu".toList ≠ "icon-d2".toList ∧ "icon-eu".toList ≠ "icon-ch1".toList := by decide +kernel
  rcases (C87_main e _ vars filter tr).1 o h x hx with ⟨dwd, h1, run, h2, h3⟩ | ⟨h1, _⟩
  · rcases h1 with ⟨h1, _⟩ | ⟨_, rfl⟩
    · exact absurd h1 hne.1
    · rcases C51_cases (.inr rfl) e.available e.today e.now with ⟨n, hn, _⟩ | ⟨_, a⟩
      · exact absurd hn.2.1 (he n hn.1)
      · rw [a] at h2
        cases h2
        obtain ⟨_, _, s, _, _, _, _, out, _, hp⟩ := h3
        rw [hp]
        exact out.in_runDir ⟨.iconD2, e.now.yesterday, "21".toList⟩ s.nr
  · exact absurd h1 hne.2

/-- On a server where no file of today is found and every file requested is delivered. -/
theorem eu_fallback_run (m : Libm) (hm : AccurateRow m) (service : Swiss.Service) (cal : Swiss.Calendar)
    (dirs : Text → Bool) (today : Date) (vars : List Text) (filter : List Nat) :
    ∃ tr, mainEffect ⟨m, constWorld weatherMsg, service, cal, dirs, today, today, fun _ => false⟩ "icon-eu".toList vars
        filter tr .done ∧
      Dwd.renderRun m (constWorld weatherMsg) dirs vars filter ⟨.iconD2, today.yesterday, "21".toList⟩ tr .done := by
  have hp : ∀ r, AreaPublished (constWorld weatherMsg) ⟨.iconD2, today.yesterday, "21".toList⟩ demoArea 2 2 r := fun r =>
    ⟨weatherMsg, constWorld_publishes weatherMsg_ok trivial (.inl rfl) r, weatherMsg_area, fun _ _ => weatherMsg_codes⟩
  obtain ⟨tr, h⟩ := (C105_run m hm (constWorld weatherMsg) dirs vars filter ⟨.iconD2, today.yesterday, "21".toList⟩
    (.inl rfl) demoArea demoArea_valid 2 2 (fun _ _ _ _ _ r _ => hp r) fun _ k _ _ => hp _).1
  refine ⟨tr, ?_, h⟩
  have hrun : Dwd.findLatestRun .iconEu today today (fun _ => false) = .ok ⟨.iconD2, today.yesterday, "21".toList⟩ := by
    rcases C51_cases (.inr rfl) (fun _ => false) today today with ⟨n, hn, _⟩ | ⟨_, h⟩
    · obtain ⟨url, _, h⟩ := hn.2.1 (.level .clc 78 65) (List.mem_cons_self ..)
      cases h
    · exact h
  unfold mainEffect
  rw [if_neg (by decide), if_neg (by decide), if_pos rfl]
  unfold Dwd.renderLatest
  rw [hrun]
  exact h

/-- C153 fails: a call for ICON-EU that succeeds and writes files in the directory of ICON-D2, none in that of ICON-EU. -/
theorem C153_counterexample : ∃ (e : Environment) (tr : List Write),
    mainEffect e "icon-eu".toList ["temp_2m".toList] [3] tr .done ∧ tr ≠ [] ∧
    ∀ x ∈ tr, modelDir "icon-d2".toList <+: x.path ∧ ¬ modelDir "icon-eu".toList <+: x.path := by
  obtain ⟨m, _, hm⟩ := exists_both
  obtain ⟨tr, h, hr⟩ := eu_fallback_run m hm ⟨.err, .err, fun _ _ => .err⟩ ⟨fun _ => .err, fun _ => ⟨2025, 8, 5⟩⟩
    (fun _ => false) ⟨2025, 8, 5⟩ ["temp_2m".toList] [3]
  refine ⟨_, tr, h, ?_, fun x hx => ?_⟩
  · rintro rfl
    obtain ⟨bytes, hb, _⟩ := C89_temperature m (constWorld weatherMsg) (fun _ => false) ["temp_2m".toList] [3]
      ⟨.iconD2, ⟨2025, 8, 4⟩, "21".toList⟩ (.inl rfl) (by decide) [] hr (.inr (by decide)) _ step3 (.inr (by decide))
      weatherMsg 2 2 (constWorld_publishes weatherMsg_ok trivial (.inl rfl) _) weatherMsg_field (fun _ => none)
    cases hb
  · have := C153_fallback _ _ _ (by
      rintro name _ hc
      obtain ⟨url, _, h⟩ := hc (.level .clc 78 65) (List.mem_cons_self ..)
      cases h) tr _ h x hx
    have hd := modelDir_of_runDir this
    refine ⟨hd, fun he => ?_⟩
    have := List.prefix_of_prefix_length_le hd he (by decide)
    exact absurd this (by decide +kernel)

/-! ## C154: what a call for a model of DWD writes -/

theorem newestName_no_slash {name : Text} (h : name ∈ runNames) : '/' ∉ name := by
  have : ∀ n ∈ runNames, '/' ∉ n := by decide +kernel
  exact this name h

/-- C154: a call for a model of DWD of which a run of today is complete renders the newest such run. -/
theorem C154_run (e : Environment) (model : FcModel) (hd : IsDwd model) (name : Text)
    (hn : Newest e.available model e.today name) (vars : List Text) (filter : List Nat) :
    mainEffect e (dwdName model) vars filter =
      Dwd.renderRun e.libm e.world e.dirs vars filter ⟨model, e.today, name⟩ := by
  have hrun := C51_newest hd e.available e.today e.now hn
  rcases hd with rfl | rfl
  · show mainEffect e "icon-d2".toList vars filter = _
    unfold mainEffect
    rw [if_neg (by decide), if_pos rfl]
    unfold Dwd.renderLatest
    rw [hrun]
    rfl
  · show mainEffect e "icon-eu".toList vars filter = _
    unfold mainEffect
    rw [if_neg (by decide), if_neg (by decide), if_pos rfl]
    unfold Dwd.renderLatest
    rw [hrun]
    rfl

/-- C154: if a call for a model of DWD of which a run of today is complete succeeds, with temperature and a step selected,
the temperature file of the newest run and this step shows what the server's file of this run and step says. -/
theorem C154_temperature (e : Environment) (model : FcModel) (hd : IsDwd model) (name : Text)
    (hn : Newest e.available model e.today name) (vars : List Text) (filter : List Nat) (tr : List Write)
    (h : mainEffect e (dwdName model) vars filter tr .done) (hv : ChosenVar vars .temp2m) (s : RunStep)
    (hs : s ∈ model.forecastSteps) (hc : Chosen filter s) (msg : Msg) (ni nj : Nat)
    (hp : Publishes e.world ⟨model, e.today, name⟩ (.single .t2m s.nr) msg) (hf : Field msg ni nj) (before : Tree) :
    ∃ bytes, before.write tr (binPath ⟨model, e.today, name⟩ s.nr .temp2m) = some (.bytes bytes) ∧
      bytes.length = ni * nj ∧
      ∀ x y, x < ni → y < nj → ∃ b : UInt8, bytes[y * ni + x]? = some b ∧
        (physical msg (y * ni + x) = none → b = 255) ∧
        ∀ k, physical msg (y * ni + x) = some k → -6399 / 100 ≤ k - 27315 / 100 → k - 27315 / 100 ≤ 6299 / 100 →
          b ≠ 255 ∧ |((b.toNat : Rat) - 128) / 2 - (k - 27315 / 100)| ≤ 1 / 4 + 2 / 1000 := by
  rw [C154_run e model hd name hn] at h
  exact C89_temperature e.libm e.world e.dirs vars filter _ hd (newestName_no_slash hn.1) tr h hv s hs hc msg ni nj hp hf before

/-- C154: likewise the precipitation file shows how much the total of the files of this step exceeds that of the step
before. -/
theorem C154_precipitation (e : Environment) (model : FcModel) (hd : IsDwd model) (name : Text)
    (hn : Newest e.available model e.today name) (vars : List Text) (filter : List Nat) (tr : List Write)
    (h : mainEffect e (dwdName model) vars filter tr .done) (hv : ChosenVar vars .cloudPrecip) (s : RunStep)
    (hs : s ∈ model.forecastSteps) (hc : Chosen filter s) (clct total0 total1 : Msg) (ni nj : Nat)
    (hpc : Publishes e.world ⟨model, e.today, name⟩ (.single .clctMod s.nr) clct) (hfc : Field clct ni nj)
    (hp0 : Publishes e.world ⟨model, e.today, name⟩ (.single .totPrec (s.nr - 1)) total0) (hf0 : Field total0 ni nj)
    (hp1 : Publishes e.world ⟨model, e.today, name⟩ (.single .totPrec s.nr) total1) (hf1 : Field total1 ni nj)
    (before : Tree) :
    ∃ bytes, before.write tr (binPath ⟨model, e.today, name⟩ s.nr .precip) = some (.bytes bytes) ∧
      bytes.length = ni * nj ∧
      ∀ x y, x < ni → y < nj → ∀ t0 t1, physical total0 (y * ni + x) = some t0 → physical total1 (y * ni + x) = some t1 →
        0 ≤ t0 → t1 ≤ 1000 → t0 ≤ t1 → t1 - t0 ≤ 126 → ∃ b : UInt8, bytes[y * ni + x]? = some b ∧ b ≠ 255 ∧
          (201 / 1000 ≤ t1 - t0 → t1 - t0 ≤ 499 / 1000 → b = 1) ∧
          (t1 - t0 ≤ 199 / 1000 ∨ 501 / 1000 ≤ t1 - t0 → |(b.toNat : Rat) / 2 - (t1 - t0)| ≤ 1 / 4 + 2 / 1000) := by
  rw [C154_run e model hd name hn] at h
  exact C93_precipitation e.libm e.world e.dirs vars filter _ hd (newestName_no_slash hn.1) tr h hv s hs hc clct total0 total1
    ni nj hpc hfc hp0 hf0 hp1 hf1 before

/-- C154: likewise the weather file shows the weather code, the class of the cloud cover where there is no weather, and the
ceiling. -/
theorem C154_weather (e : Environment) (model : FcModel) (hd : IsDwd model) (name : Text)
    (hn : Newest e.available model e.today name) (vars : List Text) (filter : List Nat) (tr : List Write)
    (h : mainEffect e (dwdName model) vars filter tr .done) (hv : ChosenVar vars .cloudPrecip) (s : RunStep)
    (hs : s ∈ model.forecastSteps) (hc : Chosen filter s) (clct ceiling ww : Msg) (ni nj : Nat)
    (hpc : Publishes e.world ⟨model, e.today, name⟩ (.single .clctMod s.nr) clct) (hfc : Field clct ni nj)
    (hpe : Publishes e.world ⟨model, e.today, name⟩ (.single .ceiling s.nr) ceiling) (hfe : Field ceiling ni nj)
    (hpw : Publishes e.world ⟨model, e.today, name⟩ (.single .ww s.nr) ww) (hfw : Field ww ni nj) (hcodes : Codes ww)
    (before : Tree) :
    ∃ bytes, before.write tr (binPath ⟨model, e.today, name⟩ s.nr .weather) = some (.bytes bytes) ∧
      bytes.length = ni * nj * 2 ∧
      ∀ x y, x < ni → y < nj → ∃ bw bc : UInt8, bytes[(y * ni + x) * 2]? = some bw ∧
        bytes[(y * ni + x) * 2 + 1]? = some bc ∧
        (∀ q, physical ww (y * ni + x) = some q → 4 < q → (bw.toNat : Rat) = q) ∧
        ((∀ q, physical ww (y * ni + x) = some q → q ≤ 4) → (physical clct (y * ni + x) = none → bw = 255) ∧
          ∀ q, physical clct (y * ni + x) = some q → 0 ≤ q → q ≤ 1000 →
            ∃ v : Rat, |v - q| ≤ q / 2 ^ 20 + 1 / 2 ^ 100 ∧ bw.toNat = coverOf v) ∧
        (physical ceiling (y * ni + x) = none → bc = 255) ∧
        ∀ q, physical ceiling (y * ni + x) = some q → 0 ≤ q → q ≤ 99999 →
          (q * (328084 / 100000) ≤ 50898 → bc ≠ 255 ∧ |(bc.toNat : Rat) * 200 - q * (328084 / 100000)| ≤ 100 + 1 / 4) ∧
          (50902 ≤ q * (328084 / 100000) → bc = 255) := by
  rw [C154_run e model hd name hn] at h
  exact C106_weather e.libm e.world e.dirs vars filter _ hd (newestName_no_slash hn.1) tr h hv s hs hc clct ceiling ww ni nj
    hpc hfc hpe hfe hpw hfw hcodes before

/-- C154: likewise the file of the winds at heights shows height and wind of every level. -/
theorem C154_vertical_wind (e : Environment) (model : FcModel) (hd : IsDwd model) (name : Text)
    (hn : Newest e.available model e.today name) (vars : List Text) (filter : List Nat) (tr : List Write)
    (h : mainEffect e (dwdName model) vars filter tr .done) (hv : ChosenVar vars .verticalWind) (s : RunStep)
    (hs : s ∈ model.forecastSteps) (hc : Chosen filter s) (heights us vs : Nat → Msg) (ni nj a b : Nat)
    (hab : model.verticalLevels = (a, b))
    (hph : ∀ k, a ≤ k → k ≤ b → Publishes e.world ⟨model, e.today, name⟩ (.hhl k) (heights k) ∧ Field (heights k) ni nj)
    (hpu : ∀ k, a ≤ k → k ≤ b → Publishes e.world ⟨model, e.today, name⟩ (.level .u s.nr k) (us k) ∧ Field (us k) ni nj)
    (hpv : ∀ k, a ≤ k → k ≤ b → Publishes e.world ⟨model, e.today, name⟩ (.level .v s.nr k) (vs k) ∧ Field (vs k) ni nj)
    (before : Tree) :
    ∃ bytes, before.write tr (binPath ⟨model, e.today, name⟩ s.nr .verticalWind) = some (.bytes bytes) ∧
      bytes.length = ni * nj * ((b + 1 - a) * 3) ∧
      ∀ x y k, x < ni → y < nj → a ≤ k → k ≤ b → ∃ bh bu bv : UInt8,
        bytes[((y * ni + x) * (b + 1 - a) + (k - a)) * 3]? = some bh ∧
        bytes[((y * ni + x) * (b + 1 - a) + (k - a)) * 3 + 1]? = some bu ∧
        bytes[((y * ni + x) * (b + 1 - a) + (k - a)) * 3 + 2]? = some bv ∧
        (physical (heights k) (y * ni + x) = none → bh = 255) ∧
        (∀ q, physical (heights k) (y * ni + x) = some q → 1001 / 10 ≤ q * (328084 / 100000) →
          q * (328084 / 100000) ≤ 25499 → bh ≠ 255 ∧ q * (328084 / 100000) - 100 - 1 / 10 ≤ bh.toNat * 100 ∧
            (bh.toNat : Rat) * 100 ≤ q * (328084 / 100000) + 1 / 10) ∧
        (bu = 255 ↔ physical (us k) (y * ni + x) = none ∨ physical (vs k) (y * ni + x) = none) ∧
        (bv = 255 ↔ physical (us k) (y * ni + x) = none ∨ physical (vs k) (y * ni + x) = none) ∧
        ∀ u v, physical (us k) (y * ni + x) = some u → physical (vs k) (y * ni + x) = some v →
          (|u| ≤ 60 → |(bu.toNat : Rat) - 128 - u * (194384 / 100000)| ≤ 1 / 2 + 2 / 100) ∧
          (|v| ≤ 60 → |(bv.toNat : Rat) - 128 - v * (194384 / 100000)| ≤ 1 / 2 + 2 / 100) := by
  rw [C154_run e model hd name hn] at h
  exact C97_wind e.libm e.world e.dirs vars filter _ hd (newestName_no_slash hn.1) tr h hv s hs hc heights us vs ni nj a b hab
    hph hpu hpv before

/-- C154: likewise every map tile of the temperature shows in each pixel the colour of the temperature of the point there. -/
theorem C154_temperature_tiles (e : Environment) (hacc : Accurate e.libm) (model : FcModel) (hd : IsDwd model) (name : Text)
    (hn : Newest e.available model e.today name) (vars : List Text) (filter : List Nat) (tr : List Write)
    (h : mainEffect e (dwdName model) vars filter tr .done) (hv : ChosenVar vars .temp2m) (s : RunStep)
    (hs : s ∈ model.forecastSteps) (hc : Chosen filter s) (msg : Msg) (ni nj : Nat)
    (hp : Publishes e.world ⟨model, e.today, name⟩ (.single .t2m s.nr) msg) (hf : Field msg ni nj)
    (south west north east : Rat)
    (hg : PointGrid msg.doc south west north east ni nj) (before : Tree) (t : MapTileCoord)
    (ht : Needed e.libm (finExtent south west north east) model.zoomRange t) (hx : t.x < 2 ^ t.zoom)
    (hy : t.y < 2 ^ t.zoom) :
    ∃ d, before.write tr (tilePath (outputPath ⟨model, e.today, name⟩ s.nr .temp2m) t) = some (.picture d) ∧
      d.width = 256 ∧ d.height = 256 ∧
      ∀ i : Nat, i < 256 → ∃ lat : Rat, |(lat : ℝ) - mercatorLat (t.y + i / 256) t.zoom| ≤ 1 / 200 + 300 / 4 ^ t.zoom ∧
        ∀ j : Nat, j < 256 → ∃ px, d.pixel j i = some px ∧
          (¬ Between south west north east lat (pixelLon t.x t.zoom j) → px = Color.transparent) ∧
          (Between south west north east lat (pixelLon t.x t.zoom j) → ∃ x y,
            Picked south west north east ni nj lat (pixelLon t.x t.zoom j) x y ∧
            (x < ni ∧ y < nj → TempShown (physical msg (y * ni + x)) px) ∧
            (¬ (x < ni ∧ y < nj) → px = Color.transparent)) := by
  rw [C154_run e model hd name hn] at h
  exact C119_temperature_tiles e.libm hacc e.world e.dirs vars filter ⟨model, e.today, name⟩ hd (newestName_no_slash hn.1) tr h
    hv s hs hc msg ni nj hp hf south west north east hg before t ht hx hy

attribute [local irreducible] mainEffect

/-- The hypotheses can be met: a server that has all files of today, and delivers a message for each of them. -/
example (service : Swiss.Service) (cal : Swiss.Calendar) (dirs : Text → Bool) (before : Tree) : ∃ m tr bytes,
    mainEffect ⟨m, constWorld weatherMsg, service, cal, dirs, ⟨2025, 8, 5⟩, ⟨2025, 8, 5⟩, fun _ => true⟩
      "icon-eu".toList [] [] tr .done ∧
    before.write tr "./output/icon-eu/2025080521/003/temp/TEMP.meteobin".toList = some (.bytes bytes) ∧
    bytes.length = 4 := by
  obtain ⟨m, _, hm⟩ := exists_both
  have hn : Newest (fun _ => true) .iconEu ⟨2025, 8, 5⟩ "21".toList := by
    refine ⟨by decide +kernel, ?_, ?_⟩
    · intro r hr
      obtain ⟨url, hu, -⟩ := C52_download (run := ⟨.iconEu, ⟨2025, 8, 5⟩, "21".toList⟩) (.inr rfl) r
      exact ⟨url, hu, rfl⟩
    · have : ∀ n ∈ runNames, ¬ valueOf "21".toList < valueOf n := by decide +kernel
      exact fun n hn h => absurd h (this n hn)
  have hp : ∀ r, AreaPublished (constWorld weatherMsg) ⟨.iconEu, ⟨2025, 8, 5⟩, "21".toList⟩ demoArea 2 2 r := fun r =>
    ⟨weatherMsg, constWorld_publishes weatherMsg_ok trivial (.inr rfl) r, weatherMsg_area, fun _ _ => weatherMsg_codes⟩
  obtain ⟨tr, h⟩ := (C105_main ⟨m, constWorld weatherMsg, service, cal, dirs, ⟨2025, 8, 5⟩, ⟨2025, 8, 5⟩, fun _ => true⟩ hm
    [] [] .iconEu (.inr rfl) "21".toList hn demoArea demoArea_valid 2 2 (fun _ _ _ _ _ r _ => hp r) fun _ k _ _ => hp _).1
  have hs : (⟨3, []⟩ : RunStep) ∈ FcModel.iconEu.forecastSteps := by decide +kernel
  have hp' : Publishes (constWorld weatherMsg) ⟨.iconEu, ⟨2025, 8, 5⟩, "21".toList⟩ (.single .t2m 3) weatherMsg :=
    constWorld_publishes weatherMsg_ok trivial (.inr rfl) _
  obtain ⟨bytes, h1, h2, _⟩ := C154_temperature
    ⟨m, constWorld weatherMsg, service, cal, dirs, ⟨2025, 8, 5⟩, ⟨2025, 8, 5⟩, fun _ => true⟩ .iconEu (.inr rfl) "21".toList hn
    [] [] tr h (.inl rfl) ⟨3, []⟩ hs (.inl rfl) weatherMsg 2 2 hp' weatherMsg_field before
  have hpath : binPath ⟨.iconEu, ⟨2025, 8, 5⟩, "21".toList⟩ 3 .temp2m =
      "./output/icon-eu/2025080521/003/temp/TEMP.meteobin".toList := by decide +kernel
  rw [← hpath]
  exact ⟨m, tr, bytes, h, h1, h2⟩

end Verif.Props
