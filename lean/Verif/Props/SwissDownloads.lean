import Verif.Props.Downloads
import Verif.Props.SwissDemo

/-!
# C131: missing and incomplete downloads, MeteoSwiss
-/

namespace Verif.Props

open Verif MapTileRenderer
open Verif.Spec (Filled AccurateRow)
open Verif.Spec.Grib2 (Msg encode)

theorem Lost.readMulti {w : World} {url : Text} (hu : Dwd.isUrl url = true) (h : Lost w url) : w.readMulti url = .err := by
  unfold World.readMulti
  rcases h.read hu with h | ⟨s, h, h'⟩
  · rw [h]; rfl
  · rw [h, Res.bind_ok, C02_first_unreadable _ h']

/-- A file is complete, or it cannot be had. -/
def Offered (w : World) (file : Text → Prop) (url : Text) : Prop := file url ∨ Dwd.isUrl url = true ∧ Lost w url

/-- The search for a variable fails, or its answer is complete and each file listed is complete or cannot be had. -/
def Searched (w : World) (s : Swiss.Service) (t : Instant) (count : Nat) (file : Text → Prop) (x : Swiss.Variable) : Prop :=
  s.search x t = .err ∨ Listed s t count (Offered w file) x

/-- What is needed for a variable is published or cannot be had. -/
def VariableOffered (w : World) (s : Swiss.Service) (vertUrl : Text) (t : Instant) (n count : Nat) : LayerType → Prop
  | .cloudPrecip => ∀ x ∈ [Swiss.Variable.clct, .totPrec, .ceiling], Searched w s t count (SingleFile w n) x
  | .wind10m => ∀ x ∈ [Swiss.Variable.u10m, .v10m, .vmax10m], Searched w s t count (SingleFile w n) x
  | .temp2m => Searched w s t count (SingleFile w n) .t2m
  | .verticalCloud => Offered w (LevelFile w n) vertUrl ∧ Searched w s t count (LevelFile w n) .clc
  | .verticalWind => Offered w (LevelFile w n) vertUrl ∧
      ∀ x ∈ [Swiss.Variable.u, .v], Searched w s t count (LevelFile w n) x
  | .weather => True

theorem Calm.err {α : Type} {r : Res α} {f : α → Effect} (h : r = .err) : Calm (Effect.need r f) :=
  Calm.need (by rw [h]; intro h; cases h) fun a ha => by rw [h] at ha; cases ha

theorem Calm.ok {α : Type} {r : Res α} {a : α} {f : α → Effect} (h : r = .ok a) (hf : Calm (f a)) :
    Calm (Effect.need r f) :=
  Calm.need (by rw [h]; intro h; cases h) fun b hb => by rw [h] at hb; cases hb; exact hf

/-- A search that fails ends the work; otherwise it goes on with the complete list. -/
theorem Calm.search {w : World} {s : Swiss.Service} {t : Instant} {count : Nat} {file : Text → Prop} {x : Swiss.Variable}
    (h : Searched w s t count file x) (skip : Bool) {f : List RunStep → Effect}
    (hf : ∀ steps, Swiss.steps s t x skip = .ok steps → Listed s t count (Offered w file) x →
      (∀ st ∈ steps, st.nr < count ∧ (skip = true → 1 ≤ st.nr) ∧ Offered w file st.url) → Calm (f steps)) :
    Calm (Effect.need (Swiss.steps s t x skip) f) := by
  rcases h with h | h
  · refine Calm.err ?_
    unfold Swiss.steps
    rw [h]
    rfl
  · obtain ⟨steps, e, h1, -⟩ := listed_steps h skip
    exact Calm.ok e (hf steps e h h1)

theorem offered_read {w : World} {grid : UnstructuredGrid} {lat lon : Msg} {n : Nat} (hg : Placed grid lat lon n)
    {st : RunStep} (h : Offered w (SingleFile w n) st.url) (f : Fl → Fl) :
    Swiss.readGrid w grid f st = .err ∨ ∃ G, Swiss.readGrid w grid f st = .ok G ∧ OnChart G := by
  rcases h with h | ⟨hu, h⟩
  · exact .inr (single_read hg h f)
  · left
    unfold Swiss.readGrid World.readUnstructured
    rw [h.readSingle hu]
    rfl

theorem offered_levels {w : World} {grid : UnstructuredGrid} {lat lon : Msg} {n : Nat} (hg : Placed grid lat lon n)
    {url : Text} (h : Offered w (LevelFile w n) url) (missing : UInt8) (f : Fl → UInt8) :
    w.readMultiUnstructured url missing f grid (some Swiss.levels) = .err ∨
    ∃ gs, w.readMultiUnstructured url missing f grid (some Swiss.levels) = .ok gs ∧ gs.length = 49 ∧
      ∀ g ∈ gs, Filled g 1851 847 := by
  rcases h with h | ⟨hu, h⟩
  · exact .inr (levels_read hg h missing f)
  · left
    unfold World.readMultiUnstructured
    rw [h.readMulti hu]
    rfl

/-- C131, the part that holds: if the positions of the points are there and, for every variable that is selected,
each search fails or gives a complete list, and each file is complete or cannot be had from its first message on,
then rendering ends with success or with an error, never with a panic. -/
theorem C131_run_partial (m : Libm) (hm : AccurateRow m) (w : World) (s : Swiss.Service) (cal : Swiss.Calendar)
    (dirs : Text → Bool) (vars : List Text) (filter : List Nat) (hor vertUrl : Text) (t : Instant) (lat lon : Msg) (n : Nat)
    (hk : Constants w hor lat lon n) (grid : UnstructuredGrid) (hg : Swiss.readHorConst w hor = .ok grid)
    (hr : ∃ run, Swiss.forecastRun cal t = .ok run)
    (hp : ∀ v, ChosenVar vars v → ∃ count, VariableOffered w s vertUrl t n count v) :
    (∃ tr o, Swiss.renderRun m w s cal dirs vars filter grid vertUrl t tr o) ∧
    ∀ tr o, Swiss.renderRun m w s cal dirs vars filter grid vertUrl t tr o → o ≠ .panicked := by
  obtain ⟨run, hr⟩ := hr
  have hz := forecastRun_model hr
  have hp' := placed hk hg
  have h31 : run.model.zoomRange.2 ≤ 31 := by rw [hz]; decide
  have hin : InRange m swissGrid.extent run.model.zoomRange := by rw [hz]; exact swiss_inRange hm
  suffices Calm (Swiss.renderRun m w s cal dirs vars filter grid vertUrl t) from ⟨this.some, this.never⟩
  unfold Swiss.renderRun
  have single : ∀ {st : RunStep}, Offered w (SingleFile w n) st.url → ∀ f,
      Swiss.readGrid w grid f st = .err ∨ ∃ G, Swiss.readGrid w grid f st = .ok G ∧ OnChart G :=
    fun h f => offered_read hp' h f
  have cond : ∀ {v}, variableChosen vars v = true → ∃ count, VariableOffered w s vertUrl t n count v :=
    fun h => hp _ ((variableChosen_iff vars _).mp h)
  refine Calm.seq ?_
  simp only [List.forall_mem_cons, List.not_mem_nil, false_imp_iff, implies_true, and_true]
  refine ⟨.when fun hv => ?_, .when fun hv => ?_, .when fun hv => ?_, .when fun hv => ?_⟩
  · obtain ⟨count, hpub⟩ := cond hv
    refine .ok hr (.search (hpub .clct (by simp)) true fun clct e1 l1 a1 =>
      .search (hpub .totPrec (by simp)) false fun totPrec e2 l2 _ =>
      .search (hpub .ceiling (by simp)) false fun ceiling e3 l3 _ => .steps fun st hst _ => ?_)
    obtain ⟨b1, b2, b3⟩ := a1 st hst
    have b2 := b2 rfl
    obtain ⟨p0, g0, f0⟩ := listed_get l2 e2 (k := st.nr - 1) (by omega) (by simp)
    obtain ⟨p1, g1, f1⟩ := listed_get l2 e2 (k := st.nr) b1 (by simp)
    obtain ⟨ce, g2, f2⟩ := listed_get l3 e3 (k := st.nr) b1 (by simp)
    have g3 := getStep_of_mem (steps_numbered e1) hst rfl
    have r1 : Swiss.readCloudPrecip w grid clct totPrec st = (do
        let clct ← Swiss.readGrid w grid clctFraction st
        let prec0 ← Swiss.readGrid w grid id p0
        let prec1 ← Swiss.readGrid w grid id p1
        CloudPrecipLayer.new clct prec0 prec1) := by
      unfold Swiss.readCloudPrecip
      rw [cloudPrecipSteps_ok (by omega) g3 g0 g1, Res.bind_ok]
    have r2 : Swiss.readWeather w grid clct ceiling st = (do
        let clct ← Swiss.readGrid w grid clctFraction st
        let ceiling ← Swiss.readGrid w grid id ce
        WeatherLayer.new clct ceiling none) := by
      unfold Swiss.readWeather
      rw [g3, g2]
      rfl
    rw [r1, r2]
    rcases single b3 clctFraction with hC | ⟨C, hC, oC⟩
    · exact .inl (by rw [hC]; rfl)
    rcases single f0 id with hP0 | ⟨P0, hP0, oP0⟩
    · exact .inl (by rw [hC, Res.bind_ok, hP0]; rfl)
    rcases single f1 id with hP1 | ⟨P1, hP1, oP1⟩
    · exact .inl (by rw [hC, Res.bind_ok, hP0, Res.bind_ok, hP1]; rfl)
    have c1 := (C43_cloud_precip _ _ _).1.mpr ⟨oC.fit oP0, oP0.fit oP1⟩
    rcases single f2 id with hE | ⟨E, hE, oE⟩
    · exact .inl (by rw [hC, Res.bind_ok, hP0, Res.bind_ok, hP1, Res.bind_ok, c1, Res.bind_ok, Res.bind_ok, hE]; rfl)
    have c2 := (C43_weather_partial _ _ none).1.mpr (oC.fit oE)
    refine .inr ⟨_, by rw [hC, Res.bind_ok, hP0, Res.bind_ok, hP1, Res.bind_ok, c1, Res.bind_ok, Res.bind_ok, hE,
      Res.bind_ok, c2, Res.bind_ok], ?_⟩
    exact C86_cloud_precip m h31 oC.filled oP0.filled oP1.filled (by rw [oC.extent]; exact hin) oC.filled oE.filled
      (by simp) (by simp)
  · obtain ⟨count, hpub⟩ := cond hv
    refine .ok hr (.search (hpub .u10m (by simp)) false fun us e1 l1 a1 =>
      .search (hpub .v10m (by simp)) false fun vs e2 l2 _ =>
      .search (hpub .vmax10m (by simp)) false fun gs e3 l3 _ => .steps fun st hst _ => ?_)
    obtain ⟨b1, b2, b3⟩ := a1 st hst
    obtain ⟨sv, g1, f1⟩ := listed_get l2 e2 (k := st.nr) b1 (by simp)
    obtain ⟨sg, g2, f2⟩ := listed_get l3 e3 (k := st.nr) b1 (by simp)
    have g3 := getStep_of_mem (steps_numbered e1) hst rfl
    have r1 : Swiss.readWind w grid us vs gs st = (do
        let u ← Swiss.readGrid w grid id st
        let v ← Swiss.readGrid w grid id sv
        let gusts ← Swiss.readGrid w grid id sg
        WindLayer.new u v (some gusts)) := by
      unfold Swiss.readWind
      rw [g3, Res.bind_ok, g1, Res.bind_ok, g2, Res.bind_ok]
    rw [r1]
    rcases single b3 id with hU | ⟨U, hU, oU⟩
    · exact .inl (by rw [hU]; rfl)
    rcases single f1 id with hV | ⟨V, hV, oV⟩
    · exact .inl (by rw [hU, Res.bind_ok, hV]; rfl)
    rcases single f2 id with hG | ⟨G, hG, oG⟩
    · exact .inl (by rw [hU, Res.bind_ok, hV, Res.bind_ok, hG]; rfl)
    refine .inr ⟨_, by rw [hU, Res.bind_ok, hV, Res.bind_ok, hG, Res.bind_ok,
      (C43_wind _ _ _).1.mpr ⟨oU.fit oV, by rintro _ ⟨⟩; exact oG.fit oU⟩, Res.bind_ok], ?_⟩
    exact C86_wind m h31 oU.filled oV.filled (by rintro _ ⟨⟩; exact oG.filled) (by rw [oU.extent]; exact hin)
  · obtain ⟨count, hpub⟩ := cond hv
    refine .ok hr (.search hpub false fun ts e1 l1 a1 => .steps fun st hst _ => ?_)
    obtain ⟨b1, b2, b3⟩ := a1 st hst
    have g3 := getStep_of_mem (steps_numbered e1) hst rfl
    have r1 : Swiss.readTemp w grid ts st = (do
        let g ← Swiss.readGrid w grid id st
        .ok ⟨g⟩) := by
      unfold Swiss.readTemp
      rw [g3]
      rfl
    rw [r1]
    rcases single b3 id with hT | ⟨T, hT, oT⟩
    · exact .inl (by rw [hT]; rfl)
    refine .inr ⟨_, by rw [hT, Res.bind_ok, Res.bind_ok], ?_⟩
    exact C86_temp m h31 oT.filled (by show InRange m T.grid.extent _; rw [oT.extent]; exact hin)
  · have hlev : Offered w (LevelFile w n) vertUrl := by
      rcases (vertical_cond vars).mp hv with h | h
      · exact (hp _ h).choose_spec.1
      · exact (hp _ h).choose_spec.1
    rcases offered_levels hp' hlev 0 hhlByte with hH | ⟨H, hH, lH, oH⟩
    · exact Calm.err hH
    refine .ok hH (Calm.seq ?_)
    simp only [List.forall_mem_cons, List.not_mem_nil, false_imp_iff, implies_true, and_true]
    refine ⟨.when fun hv => ?_, .when fun hv => ?_⟩
    · obtain ⟨count, -, hpub⟩ := cond hv
      refine .ok hr (.search hpub false fun cs e1 l1 a1 => .steps fun st hst _ => ?_)
      obtain ⟨b1, b2, b3⟩ := a1 st hst
      have g3 := getStep_of_mem (steps_numbered e1) hst rfl
      have r1 : Swiss.readVerticalCloud w grid H cs st = (do
          let grids ← w.readMultiUnstructured st.url 0 clcByte grid (some Swiss.levels)
          VerticalCloudLayer.new H grids) := by
        unfold Swiss.readVerticalCloud
        rw [g3]
        rfl
      rw [r1]
      rcases offered_levels hp' b3 0 clcByte with hC | ⟨C, hC, lC, oC⟩
      · exact .inl (by rw [hC]; rfl)
      have c1 : VerticalCloudLayer.new H C = .ok ⟨H, C⟩ := by
        unfold VerticalCloudLayer.new
        simp [lH, lC]
      refine .inr ⟨_, by rw [hC, Res.bind_ok, c1, Res.bind_ok], ?_⟩
      exact C86_vertical_clouds m _ (n := 49) (by norm_num) lH lC oH oC
    · obtain ⟨count, -, hpub⟩ := cond hv
      refine .ok hr (.search (hpub .u (by simp)) false fun us e1 l1 a1 =>
        .search (hpub .v (by simp)) false fun vs e2 l2 _ => .steps fun st hst _ => ?_)
      obtain ⟨b1, b2, b3⟩ := a1 st hst
      obtain ⟨sv, g1, f1⟩ := listed_get l2 e2 (k := st.nr) b1 (by simp)
      have g3 := getStep_of_mem (steps_numbered e1) hst rfl
      have r1 : Swiss.readVerticalWind w grid H us vs st = (do
          let ug ← w.readMultiUnstructured st.url 255 uvByte grid (some Swiss.levels)
          let vg ← w.readMultiUnstructured sv.url 255 uvByte grid (some Swiss.levels)
          VerticalWindLayer.new H ug vg) := by
        unfold Swiss.readVerticalWind
        rw [g3, g1]
        rfl
      rw [r1]
      rcases offered_levels hp' b3 255 uvByte with hU | ⟨U, hU, lU, oU⟩
      · exact .inl (by rw [hU]; rfl)
      rcases offered_levels hp' f1 255 uvByte with hV | ⟨V, hV, lV, oV⟩
      · exact .inl (by rw [hU, Res.bind_ok, hV]; rfl)
      have c1 : VerticalWindLayer.new H U V = .ok ⟨H, U, V⟩ := by
        unfold VerticalWindLayer.new
        simp [lH, lU, lV]
      refine .inr ⟨_, by rw [hU, Res.bind_ok, hV, Res.bind_ok, c1, Res.bind_ok], ?_⟩
      exact C86_vertical_wind m _ (n := 49) (by norm_num) lH lU lV oH oU oV

/-- C131, the part that holds, for the program: the list of constants may fail, the file of the positions may not be
had, and the list of reference times may fail. -/
theorem C131_main_partial (e : Environment) (hm : AccurateRow e.libm) (vars : List Text) (filter : List Nat)
    (ha : e.service.assets = .err ∨ ∃ assets hor vert, e.service.assets = .ok assets ∧
      Swiss.findAsset assets "horizontal_constants_icon-ch1-eps.grib2".toList = some hor ∧
      Swiss.findAsset assets "vertical_constants_icon-ch1-eps.grib2".toList = some vert ∧
      (Dwd.isUrl hor.href = true ∧ Lost e.world hor.href ∨
        ∃ lat lon n, Constants e.world hor.href lat lon n ∧ FullField lat n ∧ FullField lon n ∧
          (e.service.refTimes = .err ∨ ∃ refTimes text time, e.service.refTimes = .ok refTimes ∧
            refTimes.getLast? = some text ∧ e.calendar.parse text = .ok time ∧ time.loc.Valid ∧
            time.offset % 10800 = 0 ∧ time.loc.sec % 10800 = 0 ∧
            ∀ v, ChosenVar vars v → ∃ count, VariableOffered e.world e.service vert.href time.toUtc n count v))) :
    (∃ tr o, mainEffect e "icon-ch1".toList vars filter tr o) ∧
    ∀ tr o, mainEffect e "icon-ch1".toList vars filter tr o → o ≠ .panicked := by
  suffices Calm (mainEffect e "icon-ch1".toList vars filter) from ⟨this.some, this.never⟩
  unfold mainEffect
  rw [if_pos rfl]
  rcases ha with ha | ⟨assets, hor, vert, ha, hh, hv, h⟩
  · exact Calm.err ha
  refine .ok ha (.ok (unwrap_ok.mpr hh) ?_)
  rcases h with ⟨hu, h⟩ | ⟨lat, lon, n, hk, fl, fn, h⟩
  · refine Calm.err ?_
    unfold Swiss.readHorConst
    rw [h.readMulti hu]
    rfl
  obtain ⟨grid, hg⟩ := hor_read hk fl fn
  refine .ok hg (.ok (unwrap_ok.mpr hv) ?_)
  rcases h with h | ⟨refTimes, text, time, hr, hl, ht, hvalid, ho, hsec, hp⟩
  · exact Calm.err h
  have hlatest : SwissSearch.findLatest e.calendar.parse refTimes = .ok time.toUtc := by
    unfold SwissSearch.findLatest RefTime.fromParsed
    rw [hl]
    simp only [ht, Res.bind_ok]
    rw [if_neg]
    simp only [Instant.minute, Instant.second, Instant.hour]
    have := hvalid.1
    omega
  have hrun : ∃ run, Swiss.forecastRun e.calendar time.toUtc = .ok run := by
    have := (C80_run_name_partial time hvalid ho time.toUtc (by
      unfold SwissSearch.findLatest at hlatest
      rw [hl] at hlatest
      simp only [ht] at hlatest
      exact hlatest)).1
    unfold Swiss.forecastRun
    rw [this]
    exact ⟨_, rfl⟩
  have := C131_run_partial e.libm hm e.world e.service e.calendar e.dirs vars filter hor.href vert.href _ lat lon n hk grid
    hg hrun hp
  exact .ok hr (.ok hlatest ⟨this.1, this.2⟩)

/-! ## Where it fails -/

/-- C131 is false: if one of the two files of constants is not in the list of the server, the program panics. -/
theorem C131_counterexample_assets (e : Environment) (vars : List Text) (filter : List Nat) (assets : List Swiss.Asset)
    (ha : e.service.assets = .ok assets)
    (hh : Swiss.findAsset assets "horizontal_constants_icon-ch1-eps.grib2".toList = none) (tr : List Write) (o : Outcome) :
    mainEffect e "icon-ch1".toList vars filter tr o ↔ tr = [] ∧ o = .panicked := by
  unfold mainEffect
  rw [if_pos rfl]
  unfold Swiss.renderLatest Effect.need
  rw [ha]
  have : Res.unwrap (Swiss.findAsset assets Swiss.horConstId) = .panic := by
    show Res.unwrap (Swiss.findAsset assets "horizontal_constants_icon-ch1-eps.grib2".toList) = .panic
    rw [hh]
    rfl
  simp only [this]

/-- C131 is false: if the download of the positions breaks off after one to four complete messages, the program
panics. -/
theorem C131_counterexample_constants (e : Environment) (vars : List Text) (filter : List Nat) (assets : List Swiss.Asset)
    (hor : Swiss.Asset) (ha : e.service.assets = .ok assets)
    (hh : Swiss.findAsset assets "horizontal_constants_icon-ch1-eps.grib2".toList = some hor) (msgs : List Msg)
    (hd : Delivers e.world hor.href msgs) (h1 : 1 ≤ msgs.length) (h4 : msgs.length ≤ 4) (tr : List Write) (o : Outcome) :
    mainEffect e "icon-ch1".toList vars filter tr o ↔ tr = [] ∧ o = .panicked := by
  unfold mainEffect
  rw [if_pos rfl]
  unfold Swiss.renderLatest Effect.need
  rw [ha]
  have h2 : Res.unwrap (Swiss.findAsset assets Swiss.horConstId) = .ok hor := unwrap_ok.mpr hh
  have h3 : Swiss.readHorConst e.world hor.href = .panic := by
    unfold Swiss.readHorConst
    rw [hd.read (by rintro rfl; simp at h1), Res.bind_ok]
    have : Res.index (msgs.map Msg.doc) 4 = .panic := by
      unfold Res.index
      rw [List.getElem?_eq_none (by simpa using h4)]
    rw [this]
    rfl
  simp only [h2, h3]

theorem parTry_exists_panicked {α β : Type} {work : α → List β → Outcome → Prop} {items : List α} {a : α} (ha : a ∈ items)
    (h : work a [] .panicked) : ParTry work items [] .panicked := by
  obtain ⟨k, hk, rfl⟩ := List.mem_iff_getElem.mp ha
  refine .mk [] (fun i => if i = k then some .panicked else none) .panicked ?_ ?_ ?_ ?_ ?_
  · simp
  · intro i hi oi ho
    by_cases hik : i = k
    · subst hik
      simp only [if_true, Option.some.injEq] at ho
      subst ho
      exact h
    · simp [hik] at ho
  · intro i hi ho
    exact ⟨rfl, by simp⟩
  · exact ⟨fun _ => ⟨k, hk, by simp⟩, fun _ => rfl⟩
  · constructor
    · intro h; cases h
    · rintro ⟨_, h⟩
      exact absurd ⟨k, hk, by simp⟩ h

/-- C131 is false: if the download of the file of cloud covers of a step that is selected breaks off at a message
before the eightieth, rendering the vertical clouds panics (if the files of other steps are there). -/
theorem C131_counterexample_levels (m : Libm) (w : World) (s : Swiss.Service) (cal : Swiss.Calendar)
    (dirs : Text → Bool) (hor vertUrl : Text) (t : Instant) (lat lon : Msg) (n : Nat)
    (hk : Constants w hor lat lon n) (grid : UnstructuredGrid) (hg : Swiss.readHorConst w hor = .ok grid)
    (hr : ∃ run, Swiss.forecastRun cal t = .ok run) (hv : LevelFile w n vertUrl) (steps : List RunStep)
    (hs : Swiss.steps s t .clc false = .ok steps) (st : RunStep) (hst : st ∈ steps) (msgs : List Msg)
    (hd : Delivers w st.url msgs) (h1 : 1 ≤ msgs.length) (h80 : msgs.length < 80) (hf : ∀ msg ∈ msgs, FullField msg n) :
    (∃ tr, Swiss.renderRun m w s cal dirs ["vertical_cloud".toList] [st.nr] grid vertUrl t tr .panicked) ∧
    ∀ tr o, Swiss.renderRun m w s cal dirs ["vertical_cloud".toList] [st.nr] grid vertUrl t tr o → o = .panicked := by
  obtain ⟨run, hr⟩ := hr
  have hp' := placed hk hg
  obtain ⟨H, hH, lH, -⟩ := levels_read hp' hv 0 hhlByte
  have numbered := steps_numbered hs
  have hC : ∃ C, w.readMultiUnstructured st.url 0 clcByte grid (some Swiss.levels) = .ok C ∧ C.length = msgs.length - 31 := by
    unfold World.readMultiUnstructured
    rw [hd.read (by rintro rfl; simp at h1), Res.bind_ok]
    have each : ∀ k : Fin (msgs.length - 31), ∃ G,
        Grib2.convertUnstructured 0 clcByte grid (msgs[31 + (k : Nat)]'(by omega)).doc = .ok G ∧ OnChart G :=
      fun k => full_convert hp' (hf _ (List.getElem_mem _)) _ clcByte
    choose G hG using each
    refine ⟨List.ofFn G, ?_, by simp⟩
    show Grib2.convertMulti _ _ _ _ (some (31, 79)) = _
    rw [C14_result]
    refine ⟨by rw [List.length_ofFn, List.length_map]; omega, fun k g hk => ?_⟩
    rw [List.getElem?_ofFn] at hk
    split at hk
    · next hlt =>
      cases hk
      refine ⟨_, ?_, (hG ⟨k, hlt⟩).1⟩
      rw [List.getElem?_map, List.getElem?_eq_getElem (by omega)]
      rfl
    · cases hk
  obtain ⟨C, hC, lC⟩ := hC
  have bad : Swiss.readVerticalCloud w grid H steps st = .panic := by
    unfold Swiss.readVerticalCloud
    rw [getStep_of_mem numbered hst rfl]
    show (w.readMultiUnstructured st.url 0 clcByte grid (some Swiss.levels) >>= _) = _
    rw [hC, Res.bind_ok]
    unfold VerticalCloudLayer.new
    rw [lH, lC]
    split
    · rfl
    · rw [if_pos]
      simp only [bne_iff_ne]
      omega
  have key : ∀ tr o, renderSteps m run dirs steps [st.nr] (fun step => do
      let l ← Swiss.readVerticalCloud w grid H steps step
      .ok (.verticalCloud l)) tr o → o = .panicked := by
    intro tr o h
    have only : ∀ x ∈ steps, Chosen [st.nr] x → x = st := by
      intro x hx hc
      rcases hc with hc | hc
      · cases hc
      · have e1 := getStep_of_mem numbered hx rfl
        rw [List.mem_singleton] at hc
        rw [hc, getStep_of_mem numbered hst rfl] at e1
        exact (Res.ok.inj e1).symm
    cases o with
    | panicked => rfl
    | done =>
      obtain ⟨l, hl, -⟩ := (C53_succeeds_iff _ _ _ _ _ _).1.mp ⟨tr, h⟩ st hst (.inr (by simp))
      rw [bad] at hl
      cases hl
    | failed =>
      obtain ⟨x, hx, hc, he⟩ := (C53_fails_iff _ _ _ _ _ _).mp ⟨tr, h⟩
      rw [only x hx hc, bad] at he
      cases he
  have some : renderSteps m run dirs steps [st.nr] (fun step => do
      let l ← Swiss.readVerticalCloud w grid H steps step
      .ok (.verticalCloud l)) [] .panicked := by
    refine parTry_exists_panicked hst ?_
    rw [step_chosen (.inr (by simp)), bad]
    exact ⟨rfl, rfl⟩
  have e0 : Swiss.renderVerticalCloud m w s cal dirs [st.nr] grid t H = renderSteps m run dirs steps [st.nr] (fun step => do
      let l ← Swiss.readVerticalCloud w grid H steps step
      .ok (.verticalCloud l)) := by
    unfold Swiss.renderVerticalCloud Effect.need
    rw [hr, hs]
  have e1 : Swiss.renderRun m w s cal dirs ["vertical_cloud".toList] [st.nr] grid vertUrl t =
      Seq [Effect.when false (Swiss.renderCloudPrecip m w s cal dirs [st.nr] grid t),
        Effect.when false (Swiss.renderWind m w s cal dirs [st.nr] grid t),
        Effect.when false (Swiss.renderTemp m w s cal dirs [st.nr] grid t),
        Seq [Swiss.renderVerticalCloud m w s cal dirs [st.nr] grid t H,
          Effect.when false (Swiss.renderVerticalWind m w s cal dirs [st.nr] grid t H)]] := by
    unfold Swiss.renderRun
    rw [show variableChosen ["vertical_cloud".toList] .cloudPrecip = false by decide,
      show variableChosen ["vertical_cloud".toList] .wind10m = false by decide,
      show variableChosen ["vertical_cloud".toList] .temp2m = false by decide,
      show variableChosen ["vertical_cloud".toList] .verticalCloud = true by decide,
      show variableChosen ["vertical_cloud".toList] .verticalWind = false by decide,
      show (["vertical_cloud".toList].isEmpty || ["vertical_cloud".toList].contains LayerType.verticalCloud.name ||
        ["vertical_cloud".toList].contains LayerType.verticalWind.name) = true by decide,
      show Swiss.readHhl w grid vertUrl = .ok H from hH]
    rfl
  have skip : ∀ {e : Effect} {es : List Effect} {tr : List Write} {o : Outcome}, Seq (Effect.when false e :: es) tr o →
      ∃ tr, Seq es tr o := by
    intro e es tr o h
    cases h with
    | cons _ t => exact ⟨_, t⟩
    | stop h ho => exact absurd h.2 ho
  rw [e1, e0]
  constructor
  · exact ⟨_, .cons ⟨rfl, rfl⟩ (.cons ⟨rfl, rfl⟩ (.cons ⟨rfl, rfl⟩ (.stop (.stop some (by simp)) (by simp))))⟩
  · intro tr o h
    obtain ⟨_, h⟩ := skip h
    obtain ⟨_, h⟩ := skip h
    obtain ⟨_, h⟩ := skip h
    have inner : ∀ {tr o}, Seq [renderSteps m run dirs steps [st.nr] (fun step => do
          let l ← Swiss.readVerticalCloud w grid H steps step
          .ok (.verticalCloud l)), Effect.when false (Swiss.renderVerticalWind m w s cal dirs [st.nr] grid t H)] tr o →
        o = .panicked := by
      intro tr o h
      cases h with
      | cons h' t' => cases key _ _ h'
      | stop h' _ => exact key _ _ h'
    cases h with
    | cons h' t' => cases inner h'
    | stop h' _ => exact inner h'

end Verif.Props
